import Verif.Lemmas.Simple
import Verif.Lemmas.Xlsx

/-! # Lemmas about paths, relationships and sheet lists of Office Open XML workbooks -/

namespace Grate.Xlsx

open Grate Grate.Spec Grate.Simple

/-! ### Paths -/

theorem pathOf_cons2 (s t : Bytes) (ss : List Bytes) : pathOf (s :: t :: ss) = s ++ 47 :: pathOf (t :: ss) := rfl

theorem joinByte_path : ∀ ss : List Bytes, joinByte 47 ss = pathOf ss := by
  intro ss
  induction ss with
  | nil => rfl
  | cons s ss ih =>
    cases ss with
    | nil => rfl
    | cons t ss => rw [pathOf_cons2, ← ih]; rfl

theorem pathOf_append : ∀ (ss : List Bytes) (t : Bytes) (ts : List Bytes), ss ≠ [] →
    pathOf (ss ++ t :: ts) = pathOf ss ++ 47 :: pathOf (t :: ts) := by
  intro ss
  induction ss with
  | nil => intro t ts h; exact absurd rfl h
  | cons s ss ih =>
    intro t ts _
    cases ss with
    | nil => rfl
    | cons s' ss =>
      have hi := ih t ts (by simp)
      rw [List.cons_append, List.cons_append, pathOf_cons2, ← List.cons_append, hi, pathOf_cons2]
      simp

theorem split_path : ∀ (ss : List Bytes) (rest : Bytes), (∀ s ∈ ss, PathName s) → ss ≠ [] →
    splitByte 47 (pathOf ss ++ 47 :: rest) = ss ++ splitByte 47 rest := by
  intro ss
  induction ss with
  | nil => intro rest _ h; exact absurd rfl h
  | cons s ss ih =>
    intro rest h _
    have hs := h s (by simp)
    cases ss with
    | nil => exact splitByte_append 47 s rest hs.2
    | cons t ss =>
      rw [pathOf_cons2, List.append_assoc, List.cons_append, splitByte_append 47 s _ hs.2,
        ih rest (fun x hx => h x (by simp [hx])) (by simp)]
      rfl

theorem split_path' (ss : List Bytes) (h : ∀ s ∈ ss, PathName s) (h0 : ss ≠ []) : splitByte 47 (pathOf ss) = ss := by
  have : ∀ ss : List Bytes, (∀ s ∈ ss, PathName s) → ss ≠ [] → splitByte 47 (pathOf ss) = ss := by
    intro ss
    induction ss with
    | nil => intro _ h; exact absurd rfl h
    | cons s ss ih =>
      intro h _
      have hs := h s (by simp)
      cases ss with
      | nil => exact splitByte_noSep 47 s hs.2
      | cons t ss =>
        rw [pathOf_cons2, splitByte_append 47 s _ hs.2, ih (fun x hx => h x (by simp [hx])) (by simp)]
  exact this ss h h0

theorem lit_dot : lit "." = [46] := by decide +kernel
theorem lit_dots : lit ".." = [46, 46] := by decide +kernel

theorem cleanElems_real : ∀ (dir acc es : List Bytes), (∀ s ∈ dir, RealName s) →
    cleanElems false acc (dir ++ es) = cleanElems false (dir.reverse ++ acc) es := by
  intro dir
  induction dir with
  | nil => intro acc es _; rfl
  | cons s dir ih =>
    intro acc es h
    obtain ⟨h1, h2, h3⟩ := h s (by simp)
    rw [List.cons_append, cleanElems, cleanStep.eq_def, if_neg, if_neg, ih _ _ (fun x hx => h x (by simp [hx]))]
    · simp
    · rw [← lit_dots]; exact h3
    · rintro (h | h)
      · exact h1.1 h
      · exact h2 (by rw [lit_dot]; exact h)

theorem cleanElems_leads {dir path to : List Bytes} (h : Leads dir path to) :
    (∀ s ∈ dir, RealName s) → cleanElems false dir.reverse path = to.reverse ∧ ∀ s ∈ to, RealName s := by
  induction h with
  | done dir => intro hd; exact ⟨rfl, hd⟩
  | here dir path to _ ih =>
    intro hd
    obtain ⟨e, ht⟩ := ih hd
    exact ⟨by rw [cleanElems, cleanStep.eq_def, if_pos (.inr lit_dot), e], ht⟩
  | up dir path to s _ ih =>
    intro hd
    obtain ⟨e, ht⟩ := ih (fun x hx => hd x (by simp [hx]))
    refine ⟨?_, ht⟩
    have hs := hd s (by simp)
    rw [cleanElems, cleanStep.eq_def, if_neg (by rw [lit_dots]; decide), if_pos lit_dots, List.reverse_append]
    simp only [List.reverse_cons, List.reverse_nil, List.nil_append, List.cons_append]
    rw [if_neg (by rw [← lit_dots]; exact hs.2.2), e]
  | down dir path to s hs _ ih =>
    intro hd
    obtain ⟨e, ht⟩ := ih (by
      intro x hx
      rw [List.mem_append, List.mem_singleton] at hx
      rcases hx with hx | rfl
      · exact hd x hx
      · exact hs)
    refine ⟨?_, ht⟩
    rw [show s :: path = [s] ++ path from rfl, cleanElems_real [s] _ _ (by simpa using hs), ← e]
    simp

/-- The text of a directory before a name. -/
def dirText (dir : List Bytes) : Bytes := if dir = [] then [] else pathOf dir ++ [47]

theorem dirText_path (dir : List Bytes) (b : Bytes) : pathOf (dir ++ [b]) = dirText dir ++ b := by
  unfold dirText
  split
  · rename_i h; rw [h]; rfl
  · rename_i h; rw [pathOf_append dir b [] h]; simp [pathOf]

theorem path_ne_nil {ss : List Bytes} (h : ∀ s ∈ ss, PathName s) (h0 : ss ≠ []) : pathOf ss ≠ [] := by
  cases ss with
  | nil => exact absurd rfl h0
  | cons s ss =>
    have := (h s (by simp)).1
    cases ss with
    | nil => exact this
    | cons t ss => rw [pathOf_cons2]; simp

theorem path_head {ss : List Bytes} (h : ∀ s ∈ ss, PathName s) (rest : Bytes) (h0 : ss ≠ []) :
    (pathOf ss ++ rest).head? ≠ some 47 := by
  cases ss with
  | nil => exact absurd rfl h0
  | cons s ss =>
    obtain ⟨h1, h2⟩ := h s (by simp)
    obtain ⟨c, cs, rfl⟩ := List.exists_cons_of_ne_nil h1
    intro he
    have : c = 47 := by
      cases ss with
      | nil => simpa [pathOf] using he
      | cons t ss => rw [pathOf_cons2] at he; simpa using he
    exact h2 (by simp [this])

theorem real_path {ss : List Bytes} (h : ∀ s ∈ ss, RealName s) : ∀ s ∈ ss, PathName s := fun s hs => (h s hs).1

theorem cleanPath_spec {es to : List Bytes} {p : Bytes} (hp : p ≠ []) (hh : p.head? ≠ some 47) (hs : splitByte 47 p = es)
    (hc : cleanElems false [] es = to.reverse) (ht : ∀ s ∈ to, PathName s) (h0 : to ≠ []) : cleanPath p = pathOf to := by
  unfold cleanPath
  have hr : (p.head? == some 47) = false := by simpa using hh
  rw [if_neg hp]
  simp only [hr, hs, hc, List.reverse_reverse, Bool.false_eq_true, if_false, List.nil_append, joinByte_path]
  rw [if_neg (path_ne_nil ht h0)]

/-- A relative target. -/
theorem joinPath_leads {dir path to : List Bytes} (hd : ∀ s ∈ dir, RealName s) (hp : ∀ s ∈ path, PathName s)
    (hp0 : path ≠ []) (hl : Leads dir path to) (ht0 : to ≠ []) :
    joinPath [dirText dir, pathOf path] = pathOf to := by
  obtain ⟨e, ht⟩ := cleanElems_leads hl hd
  have hpn := path_ne_nil hp hp0
  unfold joinPath
  by_cases h : dir = []
  · subst h
    have hb : (dirText [] == ([] : Bytes)) = true := by decide
    have hb2 : (pathOf path == []) = false := by simpa using hpn
    rw [List.dropWhile_cons, if_pos hb, List.dropWhile_cons, if_neg (by rw [hb2]; decide)]
    show cleanPath (pathOf path) = _
    exact cleanPath_spec hpn (by have := path_head hp [] hp0; rwa [List.append_nil] at this) (split_path' path hp hp0) e
      (real_path ht) ht0
  · have hdt : dirText dir = pathOf dir ++ [47] := by unfold dirText; rw [if_neg h]
    have hb : (dirText dir == ([] : Bytes)) = false := by rw [hdt]; simp
    rw [List.dropWhile_cons, if_neg (by rw [hb]; decide)]
    show cleanPath (dirText dir ++ 47 :: pathOf path) = _
    rw [hdt, List.append_assoc]
    refine cleanPath_spec (es := dir ++ [] :: path) (by simp) (path_head (real_path hd) _ h) ?_ ?_ (real_path ht) ht0
    · show splitByte 47 (pathOf dir ++ 47 :: ([] ++ 47 :: pathOf path)) = _
      rw [split_path dir _ (real_path hd) h, splitByte_append 47 [] _ (by simp), split_path' path hp hp0]
    · rw [cleanElems_real dir _ _ hd, cleanElems, cleanStep.eq_def, if_pos (.inl rfl), List.append_nil, e]

theorem relTarget_spec {dir : List Bytes} (hd : ∀ s ∈ dir, RealName s) {target part : Bytes}
    (h : Refers dir target part) : relTarget (dirText dir) target = part := by
  obtain ⟨name⟩ | ⟨path, to, h1, h2, h3, h4⟩ := h
  · rfl
  · unfold relTarget
    have hh := path_head h2 [] h1
    rw [List.append_nil] at hh
    split
    · rename_i heq
      rw [heq] at hh
      simp at hh
    · exact joinPath_leads hd h2 h1 h3 h4

theorem afterLastSlash_none : ∀ s : Bytes, 47 ∉ s → afterLastSlash s = s := by
  intro s
  induction s with
  | nil => intro _; rfl
  | cons c s ih =>
    intro h
    simp only [List.mem_cons, not_or] at h
    rw [afterLastSlash, if_neg, if_neg]
    · simpa using fun h' => h.1 h'.symm
    · simp only [List.any_eq_true, beq_iff_eq, not_exists, not_and]
      rintro x hx rfl
      exact h.2 hx

theorem afterLastSlash_append : ∀ (p b : Bytes), 47 ∉ b → afterLastSlash (p ++ 47 :: b) = b := by
  intro p
  induction p with
  | nil =>
    intro b h
    rw [List.nil_append, afterLastSlash, if_neg, if_pos (by decide)]
    simp only [List.any_eq_true, beq_iff_eq, not_exists, not_and]
    rintro x hx rfl
    exact h hx
  | cons c p ih =>
    intro b h
    rw [List.cons_append, afterLastSlash, if_pos (by simp), ih b h]

theorem basePath_spec (dir : List Bytes) (b : Bytes) (hb : PathName b) : basePath (pathOf (dir ++ [b])) = b := by
  rw [dirText_path]
  have hne : dirText dir ++ b ≠ [] := by simp [hb.1]
  unfold basePath
  rw [if_neg hne]
  have hr : ((dirText dir ++ b).reverse.dropWhile (· == 47)).reverse = dirText dir ++ b := by
    rw [List.reverse_append]
    obtain ⟨c, cs, hc⟩ := List.exists_cons_of_ne_nil (show b.reverse ≠ [] by simpa using hb.1)
    have : c ≠ 47 := by
      rintro rfl
      exact hb.2 (List.mem_reverse.1 (by rw [hc]; simp))
    rw [hc, List.cons_append, List.dropWhile_cons, if_neg (by simpa using this), ← List.cons_append, ← hc,
      List.reverse_append, List.reverse_reverse, List.reverse_reverse]
  simp only [hr]
  rw [if_neg hne]
  unfold dirText
  split
  · exact afterLastSlash_none b hb.2
  · rw [List.append_assoc]; exact afterLastSlash_append _ b hb.2

theorem dirOf_spec (dir : List Bytes) (b : Bytes) (hb : PathName b) : dirOf (pathOf (dir ++ [b])) = dirText dir := by
  unfold dirOf
  rw [basePath_spec dir b hb, dirText_path]
  unfold trimSuffix
  rw [if_pos (by simp [List.isSuffixOf_iff_suffix]), List.length_append, Nat.add_sub_cancel]
  simp

theorem relsOf_spec (dir : List Bytes) (b : Bytes) (hd : ∀ s ∈ dir, RealName s) (hb : PathName b) :
    relsOf (pathOf (dir ++ [b])) = relsPart dir b := by
  unfold relsOf relsPart
  rw [dirOf_spec dir b hb, basePath_spec dir b hb]
  have hr1 : RealName (lit "_rels") := by unfold RealName PathName; decide +kernel
  have hr2 : RealName (b ++ lit ".rels") := by
    have h5 : (b ++ lit ".rels").length = b.length + 5 := by rw [List.length_append]; rfl
    refine ⟨⟨by simp [hb.1], ?_⟩, ?_, ?_⟩
    · rw [List.mem_append]
      rintro (h | h)
      · exact hb.2 h
      · exact absurd h (by decide +kernel)
    · intro h; rw [h] at h5; have : (lit ".").length = 1 := by decide +kernel
      omega
    · intro h; rw [h] at h5; have : (lit "..").length = 2 := by decide +kernel
      omega
  have hall : ∀ s ∈ dir ++ [lit "_rels", b ++ lit ".rels"], RealName s := by
    intro s hs
    simp only [List.mem_append, List.mem_cons, List.not_mem_nil, or_false] at hs
    rcases hs with hs | rfl | rfl
    · exact hd s hs
    · exact hr1
    · exact hr2
  unfold joinPath
  by_cases h : dir = []
  · subst h
    have hb : (dirText [] == ([] : Bytes)) = true := by decide
    have hb2 : (lit "_rels" == ([] : Bytes)) = false := by decide +kernel
    rw [List.dropWhile_cons, if_pos hb, List.dropWhile_cons, if_neg (by rw [hb2]; decide)]
    show cleanPath (joinByte 47 [lit "_rels", b ++ lit ".rels"]) = _
    rw [joinByte_path]
    have hpn := path_ne_nil (real_path hall) (by simp)
    refine cleanPath_spec hpn (by have := path_head (real_path hall) [] (by simp); rwa [List.append_nil] at this)
      (split_path' _ (real_path hall) (by simp)) ?_ (real_path hall) (by simp)
    have := cleanElems_real _ [] [] hall
    rw [List.append_nil, List.append_nil] at this
    exact this
  · have hdt : dirText dir = pathOf dir ++ [47] := by unfold dirText; rw [if_neg h]
    have hb : (dirText dir == ([] : Bytes)) = false := by rw [hdt]; simp
    rw [List.dropWhile_cons, if_neg (by rw [hb]; decide)]
    show cleanPath (dirText dir ++ 47 :: joinByte 47 [lit "_rels", b ++ lit ".rels"]) = _
    rw [hdt, List.append_assoc, joinByte_path]
    refine cleanPath_spec (es := dir ++ [] :: [lit "_rels", b ++ lit ".rels"]) (by simp) (path_head (real_path hd) _ h)
      ?_ ?_ (real_path hall) (by simp)
    · show splitByte 47 (pathOf dir ++ 47 :: ([] ++ 47 :: _)) = _
      rw [split_path dir _ (real_path hd) h, splitByte_append 47 [] _ (by simp),
        split_path' _ (fun s hs => (real_path hall) s (by simp only [List.mem_append]; exact .inr hs)) (by simp)]
    · rw [cleanElems_real dir _ _ hd, cleanElems, cleanStep.eq_def, if_pos (.inl rfl)]
      have := cleanElems_real [lit "_rels", b ++ lit ".rels"] (dir.reverse ++ []) [] (fun s hs => hall s (by
        simp only [List.mem_append]; exact .inr hs))
      simp only [List.append_nil] at this ⊢
      rw [this]
      simp [cleanElems]

/-! ### Relationships -/

/-- The relationships of a type. -/
def ofType (t : Bytes) (R : Rels) : List (Bytes × Bytes) := (R.filter (fun r => r.1 = t)).map (fun r => r.2)

theorem set_other {t typ : Bytes} (id n : Bytes) (h : typ ≠ t) : ∀ R : Rels, ofType t (R.set typ id n) = ofType t R := by
  intro R
  unfold ofType
  induction R with
  | nil => simp [Rels.set, h]
  | cons x R ih =>
    obtain ⟨t', i', n'⟩ := x
    rw [Rels.set]
    split
    · rename_i he
      simp only [List.filter_cons, he.1, h, decide_false, Bool.false_eq_true, if_false]
    · simp only [List.filter_cons]
      split
      · rw [List.map_cons, List.map_cons, ih]
      · exact ih

theorem set_new {t : Bytes} (id n : Bytes) : ∀ R : Rels, (∀ x ∈ ofType t R, x.1 ≠ id) →
    ofType t (R.set t id n) = ofType t R ++ [(id, n)] := by
  intro R
  unfold ofType
  induction R with
  | nil => intro _; simp [Rels.set]
  | cons x R ih =>
    obtain ⟨t', i', n'⟩ := x
    intro h
    rw [Rels.set]
    split
    · rename_i he
      exfalso
      obtain ⟨rfl, rfl⟩ := he
      exact h (i', n') (by simp) rfl
    · rename_i he
      have ih := ih (fun y hy => h y (by
        simp only [List.filter_cons]
        split
        · rw [List.map_cons]; exact List.mem_cons_of_mem _ hy
        · exact hy))
      simp only [List.filter_cons]
      split
      · rw [List.map_cons, List.map_cons, ih]; rfl
      · exact ih

theorem get_spec (t id : Bytes) : ∀ R : Rels, R.get t id = ((ofType t R).lookup id).getD [] := by
  intro R
  unfold ofType
  induction R with
  | nil => rfl
  | cons x R ih =>
    obtain ⟨t', i', n'⟩ := x
    rw [Rels.get]
    by_cases h : t' = t
    · subst h
      simp only [List.filter_cons, decide_true, if_true, List.map_cons, true_and]
      rw [List.lookup_cons]
      by_cases hi : i' = id
      · subst hi; simp
      · have : (id == i') = false := by simpa using fun h => hi h.symm
        rw [if_neg hi, this, ih]
    · simp only [List.filter_cons, h, decide_false, Bool.false_eq_true, if_false, false_and]
      exact ih

theorem values_spec (t : Bytes) (R : Rels) : R.values t = (ofType t R).map Prod.snd := by
  unfold Rels.values ofType
  simp

/-- The relationships of a part: those of a type, and the workbook part. -/
theorem relsLoop_spec {dir : List Bytes} (hd : ∀ s ∈ dir, RealName s) {ts : List Tok} {rs : List Relation}
    (h : RelToks dir ts rs) : ∀ (st : RelSt),
      (∀ t ∈ partTypes, ((ofType t st.rels).map Prod.fst ++
          (rs.filter (fun r => r.type = t)).map Relation.id).Nodup →
        ofType t (relsLoop (dirText dir) ts st).rels =
          ofType t st.rels ++ (rs.filter (fun r => r.type = t)).map (fun r => (r.id, r.part))) ∧
      (∀ before after r, rs = before ++ r :: after → r.type = relType "officeDocument" →
        (∀ x ∈ after, x.type ≠ relType "officeDocument") → (relsLoop (dirText dir) ts st).primaryDoc = r.target) ∧
      ((∀ x ∈ rs, x.type ≠ relType "officeDocument") → (relsLoop (dirText dir) ts st).primaryDoc = st.primaryDoc) := by
  have hoff : tOfficeDocument = relType "officeDocument" := by decide +kernel
  induction h with
  | nil =>
    intro st
    refine ⟨fun t _ _ => by simp [relsLoop], ?_, fun _ => rfl⟩
    intro before after r he
    simp at he
  | other t ts rs h1 _ ih =>
    intro st
    have he : relsLoop (dirText dir) (t :: ts) st = relsLoop (dirText dir) ts st := by
      cases t with
      | start n a => rw [relsLoop, if_neg (starts_not h1 _ (by simp))]
      | stop n => rw [relsLoop]; simp
      | chars v => rw [relsLoop]; simp
      | other => rw [relsLoop]; simp
    rw [he]
    exact ih st
  | rel attrs r ts rs h1 h2 h3 h4 h5 _ ih =>
    intro st
    rw [relsLoop, if_pos rfl]
    have hrel : relElem (dirText dir) attrs st = ⟨st.rels.set r.type r.id r.part,
        if r.type = relType "officeDocument" then r.target else st.primaryDoc⟩ := by
      unfold relElem
      simp only [attr_has h1 h2, attr_has h1 h3, attr_has h1 h4, relTarget_spec hd h5, hoff]
    rw [hrel]
    obtain ⟨ih1, ih2, ih3⟩ := ih ⟨st.rels.set r.type r.id r.part,
      if r.type = relType "officeDocument" then r.target else st.primaryDoc⟩
    refine ⟨?_, ?_, ?_⟩
    · intro t ht hn
      by_cases hrt : r.type = t
      · subst hrt
        simp only [List.filter_cons, decide_true, if_true, List.map_cons] at hn ⊢
        have hnew : ∀ x ∈ ofType r.type st.rels, x.1 ≠ r.id := by
          intro x hx he
          rw [List.nodup_append] at hn
          exact hn.2.2 x.1 (List.mem_map.2 ⟨x, hx, rfl⟩) r.id (by simp) he
        have hs := set_new r.id r.part st.rels hnew
        rw [ih1 r.type ht (by simp only [hs, List.map_append, List.map_cons, List.map_nil, List.append_assoc]; exact hn), hs]
        simp
      · have hs := set_other r.id r.part hrt st.rels
        simp only [List.filter_cons, hrt, decide_false, Bool.false_eq_true, if_false] at hn ⊢
        rw [ih1 t ht (by simp only [hs]; exact hn), hs]
    · intro before after x he hx ha
      cases before with
      | nil =>
        rw [List.nil_append, List.cons.injEq] at he
        obtain ⟨rfl, rfl⟩ := he
        rw [ih3 ha, if_pos hx]
      | cons b before =>
        rw [List.cons_append, List.cons.injEq] at he
        exact ih2 before after x he.2 hx ha
    · intro hno
      rw [ih3 (fun x hx => hno x (by simp [hx])), if_neg (hno r (by simp))]
  | foreign attrs type ts rs h1 h2 h3 _ ih =>
    intro st
    rw [relsLoop, if_pos rfl]
    have hty : attr attrs (lit "Type") = type := attr_has h1 h2
    have hne : type ≠ tOfficeDocument := by
      rintro rfl
      exact h3 (by rw [hoff]; simp [partTypes])
    obtain ⟨ih1, ih2, ih3⟩ := ih (relElem (dirText dir) attrs st)
    have hsame : ∀ t ∈ partTypes, ofType t (relElem (dirText dir) attrs st).rels = ofType t st.rels := by
      intro t ht
      unfold relElem
      simp only [hty]
      refine set_other _ _ ?_ _
      rintro rfl
      exact h3 ht
    refine ⟨?_, ih2, ?_⟩
    · intro t ht hn
      rw [ih1 t ht (by rw [hsame t ht]; exact hn), hsame t ht]
    · intro hno
      rw [ih3 hno]
      unfold relElem
      simp only [hty]
      rw [if_neg hne]

/-! ### The workbook part -/

theorem workbookLoop_spec (rels : Rels) {ts : List Tok} {ss : List (Bytes × Bytes)} (h : BookToks ts ss) :
    workbookLoop rels ts = .ok (ss.map (fun s => ⟨s.2, rels.get tWorksheet s.1, none⟩)) := by
  induction h with
  | nil => rfl
  | other t ts ss h1 _ ih =>
    cases t with
    | start n a => rw [workbookLoop, if_neg (starts_not h1 _ (by simp)), ih]
    | stop n => rw [workbookLoop, ih]; simp
    | chars v => rw [workbookLoop, ih]; simp
    | other => rw [workbookLoop, ih]; simp
  | sheet attrs id name ts ss h1 h2 h3 _ ih =>
    rw [workbookLoop, if_pos rfl, attr?_has h1 h2, attr?_has h1 h3]
    simp only
    rw [ih]
    rfl

/-! ### Parts of the archive -/

theorem openXML_has {a : Archive} {name : Bytes} {ts : List Tok} (h : HasPart a name ts) :
    openXML a name = .ok ⟨ts, .eof⟩ := by
  obtain ⟨before, after, rfl, hb⟩ := h
  induction before with
  | nil => rw [List.nil_append, openXML, if_pos rfl]
  | cons e before ih =>
    obtain ⟨n, p⟩ := e
    rw [List.cons_append, openXML, if_neg (hb (n, p) (by simp)), ih (fun x hx => hb x (by simp [hx]))]

theorem openXML_lacks {a : Archive} {name : Bytes} (h : LacksPart a name) : openXML a name = .error .eof := by
  induction a with
  | nil => rfl
  | cons e a ih =>
    obtain ⟨n, p⟩ := e
    rw [openXML, if_neg (h (n, p) (by simp)), ih (fun x hx => h x (by simp [hx]))]

theorem openPart_has {a : Archive} {name : Bytes} {ts : List Tok} (h : HasPart a name ts) :
    openPart a name = .ok ⟨ts, .eof⟩ := by
  unfold openPart; rw [openXML_has h]

end Grate.Xlsx
