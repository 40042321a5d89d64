import Verif.Lemmas.XlsxRefs
import Verif.Model.Xlsx
import Verif.Spec.Xlsx

/-! # Lemmas about the parts of Office Open XML workbooks: attributes, strings, styles, relationships, sheet lists -/

namespace Grate.Xlsx

open Grate Grate.Spec

/-! ### Attributes -/

theorem attr?_fold (k : Bytes) : ∀ (attrs : List (Bytes × Bytes)) (acc : Option Bytes), (∀ v, (k, v) ∉ attrs) →
    attrs.foldl (fun res a => if a.1 = k then some a.2 else res) acc = acc := by
  intro attrs
  induction attrs with
  | nil => intro acc _; rfl
  | cons a as ih =>
    intro acc h
    rw [List.foldl_cons, if_neg]
    · exact ih acc (fun v hv => h v (by simp [hv]))
    · intro he
      exact h a.2 (by rw [← he]; simp)

theorem attr?_none {attrs : List (Bytes × Bytes)} {k : String} (h : Lacks attrs k) : attr? attrs (lit k) = none :=
  attr?_fold _ _ _ h

theorem attr?_has {attrs : List (Bytes × Bytes)} {k : String} {v : Bytes} (hd : Distinct attrs) (h : Has attrs k v) :
    attr? attrs (lit k) = some v := by
  unfold attr?
  have : ∀ (attrs : List (Bytes × Bytes)) (acc : Option Bytes), (attrs.map Prod.fst).Nodup → (lit k, v) ∈ attrs →
      attrs.foldl (fun res a => if a.1 = lit k then some a.2 else res) acc = some v := by
    intro attrs
    induction attrs with
    | nil => intro acc _ h; simp at h
    | cons a as ih =>
      intro acc hn hm
      rw [List.map_cons, List.nodup_cons] at hn
      rw [List.foldl_cons]
      rcases List.mem_cons.1 hm with h | h
      · rw [← h, if_pos rfl]
        apply attr?_fold
        intro w hw
        apply hn.1
        rw [← h]
        exact List.mem_map.2 ⟨_, hw, rfl⟩
      · exact ih _ hn.2 h
  exact this attrs none hd h

theorem attr_eq (attrs : List (Bytes × Bytes)) (k : Bytes) : attr attrs k = (attr? attrs k).getD [] := by
  unfold attr attr?
  have : ∀ (attrs : List (Bytes × Bytes)) (a : Option Bytes),
      attrs.foldl (fun res a => if a.1 = k then a.2 else res) (a.getD []) =
        (attrs.foldl (fun res a => if a.1 = k then some a.2 else res) a).getD [] := by
    intro attrs
    induction attrs with
    | nil => intro a; rfl
    | cons x xs ih =>
      intro a
      rw [List.foldl_cons, List.foldl_cons, ← ih]
      congr 1
      split <;> rfl
  exact this attrs none

theorem attr_has {attrs : List (Bytes × Bytes)} {k : String} {v : Bytes} (hd : Distinct attrs) (h : Has attrs k v) :
    attr attrs (lit k) = v := by
  rw [attr_eq, attr?_has hd h]; rfl

theorem attr_lacks {attrs : List (Bytes × Bytes)} {k : String} (h : Lacks attrs k) : attr attrs (lit k) = [] := by
  rw [attr_eq, attr?_none h]; rfl

/-- An attribute of the element, if there is one. -/
theorem has_or_lacks (attrs : List (Bytes × Bytes)) (k : String) : (∃ v, Has attrs k v) ∨ Lacks attrs k := by
  by_cases h : ∃ v, Has attrs k v
  · exact .inl h
  · exact .inr (fun v hv => h ⟨v, hv⟩)

theorem attr_ne {attrs : List (Bytes × Bytes)} {k : String} {v : Bytes} (hd : Distinct attrs) (h : ¬ Has attrs k v)
    (h0 : v ≠ []) : attr attrs (lit k) ≠ v := by
  rcases has_or_lacks attrs k with ⟨w, hw⟩ | hl
  · rw [attr_has hd hw]
    rintro rfl
    exact h hw
  · rw [attr_lacks hl]
    exact h0.symm

theorem parseInt_digits (bits : Nat) (hb : 0 < bits) {s : Bytes} (h : IsDigits s) (hn : digitsVal s < 2 ^ (bits - 1)) :
    (parseInt bits s).1 = digitsVal s := by
  have := (parseInt_ok_iff bits hb s (digitsVal s : Int)).2 ⟨.plain s h, by
    have : (0 : Int) ≤ 2 ^ (bits - 1) := Int.pow_nonneg (by decide)
    omega, by
    have : ((2 ^ (bits - 1) : Nat) : Int) = (2 : Int) ^ (bits - 1) := by simp
    omega⟩
  rw [this]

theorem parseInt_empty (bits : Nat) : (parseInt bits []).1 = 0 := rfl

theorem numAttr_val (bits : Nat) (hb : 0 < bits) {attrs : List (Bytes × Bytes)} {k : String} {n : Nat}
    (hd : Distinct attrs) (h : NumAttr attrs k 0 n) (hn : n < 2 ^ (bits - 1)) :
    (parseInt bits (attr attrs (lit k))).1 = n := by
  rcases h with ⟨hl, rfl⟩ | ⟨s, hs, hi, hv⟩
  · rw [attr_lacks hl]; rfl
  · rw [attr_has hd hs, parseInt_digits bits hb hi (by omega), hv]

/-- Digits never give a negative number. -/
theorem parseInt_nonneg {s : Bytes} (h : IsDigits s) : 0 ≤ (parseInt 64 s).1 := by
  obtain ⟨h0, hd⟩ := h
  obtain ⟨c, cs, rfl⟩ := List.exists_cons_of_ne_nil h0
  have hc := hd c (by simp)
  have h45 : (c == 45) = false := by
    rw [beq_eq_false_iff_ne]; rintro rfl; exact absurd hc.1 (by decide)
  have h43 : (c == 43) = false := by
    rw [beq_eq_false_iff_ne]; rintro rfl; exact absurd hc.1 (by decide)
  unfold parseInt
  simp only [h45, h43, Bool.or_self, Bool.false_eq_true, if_false, Bool.not_false, Bool.true_and, Bool.false_and]
  split
  · exact Int.le_refl _
  · split
    · decide
    · simp

/-! ### Shared strings -/

theorem stringsLoop_inner : ∀ (inner ts : List Tok) (val : Bytes) (out : List Bytes),
    (∀ t ∈ inner, ¬ Starts [lit "si"] t ∧ ¬ Stops [lit "si"] t) →
    stringsLoop (inner ++ ts) val out = stringsLoop ts (val ++ textOf inner) out := by
  intro inner
  induction inner with
  | nil => intro ts val out _; simp [textOf]
  | cons t inner ih =>
    intro ts val out h
    have ht := h t (by simp)
    have hi := fun v => ih ts v out (fun x hx => h x (by simp [hx]))
    cases t with
    | start n a =>
      have : n ≠ lit "si" := fun he => ht.1 (by simp [Starts, he])
      rw [List.cons_append, stringsLoop, if_neg this, hi, textOf]
      · intro _ h; cases h
    | stop n =>
      have : n ≠ lit "si" := fun he => ht.2 (by simp [Stops, he])
      rw [List.cons_append, stringsLoop, if_neg this, hi, textOf]
      · intro _ h; cases h
    | chars v => rw [List.cons_append, stringsLoop, hi, textOf, List.append_assoc]
    | other =>
      rw [List.cons_append, stringsLoop, hi, textOf]
      · intro _ h; cases h

theorem stringsLoop_spec {ts : List Tok} {ss : List Bytes} (h : SstToks ts ss) : ∀ (val : Bytes) (out : List Bytes),
    stringsLoop ts val out = out ++ ss := by
  induction h with
  | nil => intro val out; simp [stringsLoop]
  | other t ts ss h1 h2 _ ih =>
    intro val out
    cases t with
    | start n a =>
      have : n ≠ lit "si" := fun he => h1 (by simp [Starts, he])
      rw [stringsLoop, ih]
    | stop n =>
      have : n ≠ lit "si" := fun he => h2 (by simp [Stops, he])
      rw [stringsLoop, if_neg this, ih]
    | chars v => rw [stringsLoop, ih]
    | other => rw [stringsLoop, ih]
  | item attrs inner ts ss h1 _ ih =>
    intro val out
    rw [stringsLoop, if_pos rfl, stringsLoop_inner inner _ _ _ h1, stringsLoop, if_pos rfl, ih]
    simp

/-! ### Styles -/

theorem toU16_small (n : Nat) (h : n < 32768) : toU16 (n : Int) = n := by
  unfold toU16; omega

theorem starts_not {names : List Bytes} {n : Bytes} {a : List (Bytes × Bytes)} (h : ¬ Starts names (.start n a)) :
    ∀ m ∈ names, n ≠ m := by
  intro m hm he
  exact h (by unfold Starts; rw [he]; exact hm)

theorem stops_not {names : List Bytes} {n : Bytes} (h : ¬ Stops names (.stop n)) : ∀ m ∈ names, n ≠ m := by
  intro m hm he
  exact h (by unfold Stops; rw [he]; exact hm)

theorem lit_xf : lit "xf" ≠ lit "numFmt" ∧ lit "xf" ≠ lit "cellStyleXfs" ∧ lit "xf" ≠ lit "cellXfs" := by decide +kernel

theorem styleElem_xf (mk : Bytes → Fmt × CellType) (attrs : List (Bytes × Bytes)) (st : StyleSt) :
    styleElem mk (lit "xf") attrs st = xfElem attrs st := by
  unfold styleElem
  rw [if_neg lit_xf.1, if_neg lit_xf.2.1, if_neg lit_xf.2.2, if_pos rfl]

theorem styleElem_other (mk : Bytes → Fmt × CellType) (n : Bytes) (attrs : List (Bytes × Bytes)) (st : StyleSt)
    (h : ¬ Starts styleNames (.start n attrs)) : styleElem mk n attrs st = .ok st := by
  have h := starts_not h
  unfold styleElem
  rw [if_neg (h _ (by simp [styleNames])), if_neg (h _ (by simp [styleNames])), if_neg (h _ (by simp [styleNames])),
    if_neg (h _ (by simp [styleNames]))]

theorem xfElem_cell {attrs : List (Bytes × Bytes)} {n : Nat} (h : XfFormat attrs n) (st : StyleSt) (hs : st.sec = 2) :
    xfElem attrs st = .ok { st with xfs := st.xfs ++ [n] } := by
  obtain ⟨hd, ⟨k, hk⟩, hf⟩ := h
  have hbase : 0 ≤ (parseInt 64 (attr attrs (lit "xfId"))).1 := by
    rcases hk with ⟨hl, _⟩ | ⟨s, hs, hi, _⟩
    · rw [attr_lacks hl]; exact Int.le_refl _
    · rw [attr_has hd hs]; exact parseInt_nonneg hi
  unfold xfElem
  rw [if_neg (by omega), if_pos hs]
  obtain ⟨b, hb⟩ : ∃ b, b = (parseInt 64 (attr attrs (lit "xfId"))).1 := ⟨_, rfl⟩
  simp only [← hb] at hbase ⊢
  have hx : ∃ x, (if (st.base.length : Int) > b then index st.base b else .ok (lit "0")) = .ok x := by
    by_cases hlt : (st.base.length : Int) > b
    · rw [if_pos hlt]
      unfold index
      rw [if_pos hbase, List.getElem?_eq_getElem (by omega)]
      exact ⟨_, rfl⟩
    · rw [if_neg hlt]; exact ⟨_, rfl⟩
  obtain ⟨x, hx⟩ := hx
  rw [hx, GoRes.ok_bind]
  rcases hf with ⟨h0, rfl⟩ | ⟨h0, _, hn, hlt⟩
  · rw [attr_has hd h0, if_pos rfl]
    rfl
  · rw [if_neg (attr_ne hd h0 (by decide +kernel)), numAttr_val 16 (by decide) hd hn (by omega), toU16_small n hlt]
    rfl

theorem xfElem_base (attrs : List (Bytes × Bytes)) (st : StyleSt) (hs : st.sec = 1) :
    ∃ b, xfElem attrs st = .ok { st with base := b } := by
  unfold xfElem
  rw [if_pos hs]
  exact ⟨_, rfl⟩

theorem stylesLoop_start (mk : Bytes → Fmt × CellType) (n : Bytes) (a : List (Bytes × Bytes)) (ts : List Tok)
    (st st' : StyleSt) (h : styleElem mk n a st = .ok st') :
    stylesLoop mk (.start n a :: ts) st = stylesLoop mk ts st' := by
  rw [stylesLoop, h, GoRes.ok_bind]

/-- The content of a cellXfs element. -/
theorem xfToks_spec (mk : Bytes → Fmt × CellType) {inner : List Tok} {ns : List Nat} (h : XfToks inner ns) :
    ∀ (ts : List Tok) (st : StyleSt), st.sec = 2 →
      stylesLoop mk (inner ++ ts) st = stylesLoop mk ts { st with xfs := st.xfs ++ ns } := by
  induction h with
  | nil => intro ts st _; simp
  | other t inner ns h1 h2 _ ih =>
    intro ts st hs
    rw [List.cons_append]
    cases t with
    | start n a => rw [stylesLoop_start mk n a _ st st (styleElem_other mk n a st h1), ih ts st hs]
    | stop n =>
      have h := stops_not h2
      rw [stylesLoop, if_neg, ih ts st hs]
      rintro (he | he)
      · exact h _ (by simp [styleLists]) he
      · exact h _ (by simp [styleLists]) he
    | chars v => rw [stylesLoop, ih ts st hs] <;> simp
    | other => rw [stylesLoop, ih ts st hs] <;> simp
  | xf attrs n inner ns h1 _ ih =>
    intro ts st hs
    rw [List.cons_append, stylesLoop_start mk _ attrs _ st _ (by rw [styleElem_xf]; exact xfElem_cell h1 st hs), ih]
    · simp
    · exact hs

theorem lit_numFmt : lit "numFmt" ≠ lit "cellStyleXfs" := by decide +kernel

theorem lit_sections : lit "cellStyleXfs" ≠ lit "numFmt" ∧ lit "cellXfs" ≠ lit "numFmt" ∧ lit "cellXfs" ≠ lit "cellStyleXfs" := by
  decide +kernel

/-- The content of a cellStyleXfs element. -/
theorem baseToks_spec (mk : Bytes → Fmt × CellType) : ∀ (inner : List Tok),
    (∀ t ∈ inner, ¬ Starts [lit "numFmt", lit "cellStyleXfs", lit "cellXfs"] t ∧ ¬ Stops styleLists t) →
    ∀ (ts : List Tok) (st : StyleSt), st.sec = 1 →
      ∃ b, stylesLoop mk (inner ++ ts) st = stylesLoop mk ts { st with base := b } := by
  intro inner
  induction inner with
  | nil => intro _ ts st _; exact ⟨st.base, rfl⟩
  | cons t inner ih =>
    intro h ts st hs
    have ht := h t (by simp)
    have ih := ih (fun x hx => h x (by simp [hx]))
    rw [List.cons_append]
    cases t with
    | start n a =>
      have hn := starts_not ht.1
      by_cases hx : n = lit "xf"
      · subst hx
        obtain ⟨b, hb⟩ := xfElem_base a st hs
        obtain ⟨b', hb'⟩ := ih ts { st with base := b } hs
        exact ⟨b', by rw [stylesLoop_start mk _ a _ st _ (by rw [styleElem_xf]; exact hb), hb']⟩
      · obtain ⟨b', hb'⟩ := ih ts st hs
        refine ⟨b', ?_⟩
        rw [stylesLoop_start mk n a _ st st, hb']
        unfold styleElem
        rw [if_neg (hn _ (by simp)), if_neg (hn _ (by simp)), if_neg (hn _ (by simp)), if_neg hx]
    | stop n =>
      have h := stops_not ht.2
      obtain ⟨b', hb'⟩ := ih ts st hs
      refine ⟨b', ?_⟩
      rw [stylesLoop, if_neg, hb']
      rintro (he | he)
      · exact h _ (by simp [styleLists]) he
      · exact h _ (by simp [styleLists]) he
    | chars v =>
      obtain ⟨b', hb'⟩ := ih ts st hs
      exact ⟨b', by rw [stylesLoop, hb'] <;> simp⟩
    | other =>
      obtain ⟨b', hb'⟩ := ih ts st hs
      exact ⟨b', by rw [stylesLoop, hb'] <;> simp⟩

/-- The formatter after adding number formats in order. -/
def addAll (mk : Bytes → Fmt × CellType) (f : Formatter) (as : List (Nat × Bytes)) : Formatter :=
  as.foldl (fun f a => (f.add mk a.1 a.2).1) f

theorem stylesLoop_spec (mk : Bytes → Fmt × CellType) {ts : List Tok} {as : List (Nat × Bytes)}
    {xfs : Option (List Nat)} (h : StyleToks ts as xfs) : ∀ (st : StyleSt), st.sec = 0 →
      ∃ st', stylesLoop mk ts st = .ok st' ∧ st'.fmt = addAll mk st.fmt as ∧ st'.xfs = xfs.getD st.xfs := by
  induction h with
  | nil => intro st _; exact ⟨st, rfl, rfl, rfl⟩
  | other t ts as xfs h1 _ ih =>
    intro st hs
    cases t with
    | start n a =>
      obtain ⟨st', e, h⟩ := ih st hs
      exact ⟨st', by rw [stylesLoop_start mk n a _ st st (styleElem_other mk n a st h1), e], h⟩
    | stop n =>
      have he : (if n = lit "cellStyleXfs" ∨ n = lit "cellXfs" then { st with sec := 0 } else st) = st := by
        split
        · cases st; simp only at hs; rw [hs]
        · rfl
      obtain ⟨st', e, h⟩ := ih st hs
      exact ⟨st', by rw [stylesLoop, he, e], h⟩
    | chars v =>
      obtain ⟨st', e, h⟩ := ih st hs
      exact ⟨st', by rw [stylesLoop, e] <;> simp, h⟩
    | other =>
      obtain ⟨st', e, h⟩ := ih st hs
      exact ⟨st', by rw [stylesLoop, e] <;> simp, h⟩
  | numFmt attrs n code ts as xfs hd hn hlt hc _ ih =>
    intro st hs
    obtain ⟨st', e, h⟩ := ih { st with fmt := (st.fmt.add mk n code).1 } hs
    refine ⟨st', ?_, h⟩
    rw [stylesLoop_start mk _ attrs _ st { st with fmt := (st.fmt.add mk n code).1 }, e]
    unfold styleElem
    rw [if_pos rfl, numAttr_val 16 (by decide) hd hn (by omega), toU16_small n hlt, attr_has hd hc]
  | base attrs inner ts as xfs h1 _ ih =>
    intro st hs
    obtain ⟨b, hb⟩ := baseToks_spec mk inner h1 (.stop (lit "cellStyleXfs") :: ts) { st with sec := 1 } rfl
    obtain ⟨st', e, h⟩ := ih { st with sec := 0, base := b } rfl
    refine ⟨st', ?_, h⟩
    rw [stylesLoop_start mk _ attrs _ st { st with sec := 1 }, hb, stylesLoop, if_pos (.inl rfl)]
    · exact e
    · unfold styleElem
      rw [if_neg lit_sections.1, if_pos rfl]
  | cells attrs k inner ts ns as hd hk hlt h1 _ ih =>
    intro st hs
    obtain ⟨st', e, h⟩ := ih { st with sec := 0, xfs := ns } rfl
    refine ⟨st', ?_, h.1, ?_⟩
    · rw [stylesLoop_start mk _ attrs _ st { st with sec := 2, xfs := [] }, xfToks_spec mk h1 _ _ rfl, stylesLoop,
        if_pos (.inr rfl)]
      · exact e
      · unfold styleElem
        rw [if_neg lit_sections.2.1, if_neg lit_sections.2.2, if_pos rfl, numAttr_val 64 (by decide) hd hk (by omega)]
        unfold makeCap
        rw [if_pos (by omega)]
        rfl
    · rw [h.2]; rfl

end Grate.Xlsx
