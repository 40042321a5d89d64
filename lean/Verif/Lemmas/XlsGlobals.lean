import Verif.Lemmas.XlsStream
import Verif.Props.XlsStrings

/-! # Lemmas about the workbook globals -/

namespace Grate.Xls

open Spec

/-- What is made of a sheet entry. -/
def entry (e : SheetEntry) : BoundSheet := ⟨e.position, e.state, e.type, utf8 e.name⟩

/-- The formatter after adding formats. -/
def addAll (mk : Bytes → Fmt × CellType) : List (Nat × List Nat) → Formatter → Formatter
  | [], f => f
  | (no, code) :: fs, f => addAll mk fs (f.add mk no (utf8 code)).1

theorem addAll_append (mk : Bytes → Fmt × CellType) : ∀ (a b : List (Nat × List Nat)) (f : Formatter),
    addAll mk (a ++ b) f = addAll mk b (addAll mk a f) := by
  intro a
  induction a with
  | nil => intro b f; rfl
  | cons x a ih => intro b f; obtain ⟨no, code⟩ := x; exact ih b _

/-- The workbook with a content. -/
def bookOf (mk : Bytes → Fmt × CellType) (c : Content) (subs : List (List Rec)) (pos2 : List (Nat × Nat)) : Book :=
  ⟨c.sheets.map entry, c.dateMode, c.strings.map utf8, subs, pos2, addAll mk c.formats Formatter.new, c.styles⟩

theorem checkBOF_ok (dt build year : Nat) (tail rest : Bytes) (h8 : 8 ≤ tail.length)
    (hy : year = 0x07CC ∨ year = 0x07CD) : checkBOF ⟨bofData dt build year tail, rest⟩ = .ok () := by
  have l2 : ∀ n, (leBytes 2 n).length = 2 := fun n => by simp [leBytes]
  have any16 : ∀ (n : Nat) (r : Bytes), ∃ v, (⟨leBytes 2 n, r⟩ : Slice).u16 = .ok v := fun n r => ⟨_, rfl⟩
  unfold checkBOF bofData
  simp only [List.append_assoc]
  rw [sub_here _ _ _ _ (by simp [leBytes]), GoRes.ok_bind, u16_exact _ (by decide), GoRes.ok_bind,
    sub_prefix _ _ _ _ _ _ (by simp [leBytes]) (by simp [leBytes]), GoRes.ok_bind]
  obtain ⟨v1, h1⟩ := any16 dt (leBytes 2 build ++ (leBytes 2 year ++ tail) ++ rest)
  rw [h1, GoRes.ok_bind, ← List.append_assoc (leBytes 2 1536), sub_prefix _ _ _ _ _ _ (by simp [leBytes]) (by simp [leBytes]),
    GoRes.ok_bind]
  obtain ⟨v2, h2⟩ := any16 build (leBytes 2 year ++ tail ++ rest)
  rw [h2, GoRes.ok_bind, ← List.append_assoc (leBytes 2 1536 ++ _),
    sub_prefix _ _ _ _ _ _ (by simp [leBytes]) (by simp [leBytes]), GoRes.ok_bind,
    u16_exact _ (by omega), GoRes.ok_bind, ← List.append_assoc (leBytes 2 1536 ++ _ ++ _)]
  match tail, h8 with
  | t0 :: t1 :: t2 :: t3 :: t4 :: t5 :: t6 :: t7 :: tl, _ =>
    have := sub_prefix (leBytes 2 1536 ++ leBytes 2 dt ++ leBytes 2 build ++ leBytes 2 year)
      [t0, t1, t2, t3, t4, t5, t6, t7] tl rest 8 16 (by simp [leBytes]) (by simp [leBytes])
    simp only [List.cons_append, List.nil_append] at this
    rw [this, GoRes.ok_bind]
    simp only [Slice.u64, GoRes.ok_bind]
    rw [if_neg (by simp), if_neg (by omega)]
    rfl

theorem u16_some (data rest : Bytes) (h : 2 ≤ data.length) : ∃ v, (⟨data, rest⟩ : Slice).u16 = .ok v := by
  match data, h with
  | a :: b :: l, _ => exact ⟨_, rfl⟩

theorem boundSheet_ok (e : SheetEntry) (h : e.Ok) (rest : Bytes) : boundSheet ⟨e.data, rest⟩ = .ok (entry e) := by
  unfold boundSheet SheetEntry.data
  rw [sub_here _ _ _ _ (by simp [leBytes]), GoRes.ok_bind, u32_exact _ h.position, GoRes.ok_bind]
  have i4 : ∀ (x : Bytes), (⟨leBytes 4 e.position ++ e.state :: e.type :: x, rest⟩ : Slice).idx 4 = .ok e.state := by
    intro x; simp [leBytes, Slice.idx]
  have i5 : ∀ (x : Bytes), (⟨leBytes 4 e.position ++ e.state :: e.type :: x, rest⟩ : Slice).idx 5 = .ok e.type := by
    intro x; simp [leBytes, Slice.idx]
  rw [i4, GoRes.ok_bind, i5, GoRes.ok_bind]
  have d6 := drop_here (leBytes 4 e.position ++ [e.state, e.type])
    (xlString 1 (bit e.flags 0) e.flags (e.name.flatMap units)) rest 6 (by simp [leBytes])
  rw [List.append_assoc, List.cons_append, List.cons_append, List.nil_append] at d6
  have hc := Props.C47_short e.name h.scalar (bit e.flags 0) e.flags rfl h.fits h.length [] rest
  rw [List.append_nil] at hc
  rw [d6, GoRes.ok_bind, hc]
  rfl

theorem takeWhile_conts (more : List Bytes) (rs : List Record) (h : ∀ r, rs.head? = some r → r.type ≠ 0x3C)
    (later : List Rec) (hl : later.map Rec.view = more.map (fun d => (⟨0x3C, d⟩ : Record)) ++ rs) :
    ((later.takeWhile (fun r => decide (r.type = recContinue))).map Rec.data).map Slice.val = more := by
  induction more generalizing later with
  | nil =>
    rw [List.map_nil, List.nil_append] at hl
    cases later with
    | nil => rfl
    | cons r later =>
      have : rs.head? = some r.view := by rw [← hl]; rfl
      have := h _ this
      rw [List.takeWhile_cons_of_neg (by rw [decide_eq_true_eq]; exact this)]
      rfl
  | cons d more ih =>
    rw [List.map_cons, List.cons_append] at hl
    obtain ⟨q, qs, rfl, hq, hqs⟩ := List.map_eq_cons_iff.1 hl
    have ht : q.type = 0x3C := by rw [show q.type = q.view.type from rfl, hq]
    have hd : q.data.val = d := by rw [show q.data.val = q.view.data from rfl, hq]
    rw [List.takeWhile_cons_of_pos (by rw [decide_eq_true_eq]; exact ht), List.map_cons, List.map_cons, ih qs hqs, hd]

theorem processSub_skip (mk : Bytes → Fmt × CellType) (b : Book) : ∀ (a c : List Rec),
    (∀ r ∈ a, r.data.val = [] ∨ ¬ telling r.type) → processSub mk (a ++ c) b = processSub mk c b := by
  intro a
  induction a with
  | nil => intro c _; rfl
  | cons r a ih =>
    intro c h
    rw [List.cons_append, processSub]
    have : processRec mk r (a ++ c) b = .ok b := by
      rcases h r (by simp) with h | h
      · unfold processRec
        rw [if_pos (by unfold Slice.len; rw [h]; rfl)]
      · unfold telling at h
        unfold processRec recBOF
        simp only [not_or] at h
        obtain ⟨h1, h2, h3, h4, h5, h6, h7⟩ := h
        simp [h1, h2, h3, h4, h5, h6, h7]
    rw [this, GoRes.ok_bind]
    exact ih c (fun x hx => h x (by simp [hx]))

theorem slice_eta (s : Slice) (d : Bytes) (h : s.val = d) : s = ⟨d, s.rest⟩ := by cases s; cases h; rfl

theorem processSub_spec (mk : Bytes → Fmt × CellType) (subs : List (List Rec)) (pos2 : List (Nat × Nat))
    {c c' : Content} {rs : List Record} (h : Globals c rs c') : ∀ (recs : List Rec), recs.map Rec.view = rs →
    processSub mk recs (bookOf mk c subs pos2) = .ok (bookOf mk c' subs pos2) := by
  have uncons : ∀ {recs : List Rec} {t : Nat} {d : Bytes} {rs : List Record},
      recs.map Rec.view = (⟨t, d⟩ : Record) :: rs → ∃ (q : Rec) (qs : List Rec), recs = q :: qs ∧ q.type = t ∧
        q.data = ⟨d, q.data.rest⟩ ∧ qs.map Rec.view = rs := by
    intro recs t d rs hr
    obtain ⟨q, qs, rfl, hq, hqs⟩ := List.map_eq_cons_iff.1 hr
    have h1 : q.view.type = t := by rw [hq]
    have h2 : q.view.data = d := by rw [hq]
    exact ⟨q, qs, rfl, h1, slice_eta _ _ h2, hqs⟩
  induction h with
  | nil c => intro recs hr; rw [List.map_eq_nil_iff] at hr; subst hr; rfl
  | skip c c' r rs h1 _ ih =>
    intro recs hr
    obtain ⟨q, qs, rfl, ht, hd, hqs⟩ := uncons (t := r.type) (d := r.data) hr
    have := processSub_skip mk (bookOf mk c subs pos2) [q] qs (by
      intro x hx
      rw [List.mem_singleton] at hx
      subst hx
      rw [ht, show x.data.val = r.data by rw [hd]]
      exact h1)
    rw [List.cons_append, List.nil_append] at this
    rw [this]
    exact ih qs hqs
  | bof c c' dt build year tail rs h8 hy _ ih =>
    intro recs hr
    obtain ⟨q, qs, rfl, ht, hd, hqs⟩ := uncons hr
    rw [processSub]
    unfold processRec
    rw [hd, ht, if_neg (by simp [Slice.len, bofData, leBytes]), if_neg (by decide), if_pos (by decide),
      checkBOF_ok dt build year tail _ h8 hy]
    exact ih qs hqs
  | codePage c c' data rs h2 _ ih =>
    intro recs hr
    obtain ⟨q, qs, rfl, ht, hd, hqs⟩ := uncons hr
    obtain ⟨v, hv⟩ := u16_some data q.data.rest h2
    rw [processSub]
    unfold processRec
    rw [hd, ht, if_neg (by simp only [Slice.len]; omega), if_neg (by decide), if_neg (by decide), if_pos rfl, hv]
    exact ih qs hqs
  | dateMode c c' m tail rs hm _ ih =>
    intro recs hr
    obtain ⟨q, qs, rfl, ht, hd, hqs⟩ := uncons hr
    rw [processSub]
    unfold processRec
    rw [hd, ht, if_neg (by simp [Slice.len, leBytes]), if_neg (by decide), if_neg (by decide), if_neg (by decide),
      if_pos rfl, u16_here _ hm]
    exact ih qs hqs
  | format c c' no flags code tail rs hno hs hf hl _ ih =>
    intro recs hr
    obtain ⟨q, qs, rfl, ht, hd, hqs⟩ := uncons hr
    rw [processSub]
    unfold processRec
    rw [hd, ht, if_neg (by simp [Slice.len, leBytes]), if_neg (by decide), if_neg (by decide), if_neg (by decide),
      if_neg (by decide), if_pos rfl, u16_here _ hno, GoRes.ok_bind, drop_here _ _ _ _ (by simp [leBytes]), GoRes.ok_bind,
      Props.C47_long code hs (bit flags 0) flags rfl hf hl tail]
    simp only [GoRes.ok_bind]
    have e : { bookOf mk c subs pos2 with nfmt := ((bookOf mk c subs pos2).nfmt.add mk no (utf8 code)).1 } =
        bookOf mk { c with formats := c.formats ++ [(no, code)] } subs pos2 := by
      unfold bookOf
      simp only [addAll_append]
      rfl
    rw [GoRes.pure_eq, GoRes.ok_bind, e]
    exact ih qs hqs
  | style c c' font no tail rs hno _ ih =>
    intro recs hr
    obtain ⟨q, qs, rfl, ht, hd, hqs⟩ := uncons hr
    rw [processSub]
    unfold processRec
    rw [hd, ht, if_neg (by simp [Slice.len, leBytes]), if_neg (by decide), if_neg (by decide), if_neg (by decide),
      if_neg (by decide), if_neg (by decide), if_pos rfl, drop_here _ _ _ _ (by simp [leBytes]), GoRes.ok_bind,
      u16_here _ hno]
    exact ih qs hqs
  | sheet c c' e rs he _ ih =>
    intro recs hr
    obtain ⟨q, qs, rfl, ht, hd, hqs⟩ := uncons hr
    rw [processSub]
    unfold processRec
    rw [hd, ht, if_neg (by simp [Slice.len, SheetEntry.data, leBytes]), if_neg (by decide), if_neg (by decide),
      if_neg (by decide), if_neg (by decide), if_neg (by decide), if_neg (by decide), if_pos rfl, boundSheet_ok e he]
    have e : { bookOf mk c subs pos2 with sheets := (bookOf mk c subs pos2).sheets ++ [entry e] } =
        bookOf mk { c with sheets := c.sheets ++ [e] } subs pos2 := by
      unfold bookOf
      simp only [List.map_append, List.map_cons, List.map_nil]
    rw [GoRes.ok_bind, GoRes.pure_eq, GoRes.ok_bind, e]
    exact ih qs hqs
  | strings c c' counts ss texts first more rs hc hok hlone hs htext hrec hhead _ ih =>
    intro recs hr
    obtain ⟨q, qs, rfl, ht, hd, hqs⟩ := uncons hr
    rw [processSub]
    have hp : parseSST (q.data :: (qs.takeWhile (fun r => decide (r.type = recContinue))).map Rec.data) =
        .ok (texts.map utf8) := by
      refine Props.C46_table_partial counts hc ss texts hok hlone hs htext _ ?_
      rw [List.map_cons, takeWhile_conts more rs hhead qs hqs, hrec, hd]
    have hlen : ¬ q.data.len = 0 := by
      unfold sstRecords at hrec
      simp only [List.cons.injEq] at hrec
      have : 8 ≤ first.length := by
        match counts, hc with
        | [a, b, c, d, e, f, g, h], _ =>
          rw [← hrec.1]
          simp [recordsOf]
      rw [hd]
      simp only [Slice.len]
      omega
    unfold processRec
    rw [if_neg hlen, if_pos ht, hp, GoRes.ok_bind, GoRes.pure_eq, GoRes.ok_bind]
    obtain ⟨a, b, rfl, ha, hb⟩ := List.map_eq_append_iff.1 hqs
    rw [processSub_skip]
    · exact ih b hb
    · intro r hr
      have : r.view ∈ more.map (fun d => (⟨0x3C, d⟩ : Record)) := by rw [← ha]; exact List.mem_map_of_mem hr
      obtain ⟨d, _, hd⟩ := List.mem_map.1 this
      right
      rw [show r.type = r.view.type from rfl, ← hd]
      show ¬ telling 60
      unfold telling
      decide

theorem processSubs_spec (mk : Bytes → Fmt × CellType) (subs : List (List Rec)) (pos2 : List (Nat × Nat))
    {c c' : Content} {gs : List (List Record)} (h : AllGlobals c gs c') : ∀ (recs : List (List Rec)),
    recs.map (·.map Rec.view) = gs →
    processSubs mk recs (bookOf mk c subs pos2) = .ok (bookOf mk c' subs pos2) := by
  induction h with
  | nil c => intro recs hr; rw [List.map_eq_nil_iff] at hr; subst hr; rfl
  | cons c c1 c2 g gs h1 _ ih =>
    intro recs hr
    obtain ⟨q, qs, rfl, hq, hqs⟩ := List.map_eq_cons_iff.1 hr
    rw [processSubs, processSub_spec mk subs pos2 h1 q hq, GoRes.ok_bind]
    exact ih qs hqs

end Grate.Xls
