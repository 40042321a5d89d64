import Verif.Model.XlsSheet
import Verif.Lemmas.XlsPasses

/-! # What lies behind a record

A slice expression may reach beyond the visible bytes of a record, up to the end of the stream. Less to reach can only turn
results into crashes: what is read without a crash when nothing lies behind the records is read whatever lies there. -/

namespace Grate.Xls

open Grate Grate.Spec

/-- The same visible bytes, and behind them at least as much. -/
def Below (s t : Slice) : Prop := s.val = t.val ∧ s.rest <+: t.rest

/-- A crash, or the same outcome. -/
def LeRes (R : α → β → Prop) : GoRes α → GoRes β → Prop
  | .panic, _ => True
  | .err e, y => y = .err e
  | .ok a, y => ∃ b, y = .ok b ∧ R a b

theorem leRes_refl (x : GoRes α) : LeRes Eq x x := by
  cases x with
  | ok a => exact ⟨a, rfl, rfl⟩
  | err e => rfl
  | panic => trivial

theorem leRes_of_eq {x y : GoRes α} (h : x = y) : LeRes Eq x y := h ▸ leRes_refl x

theorem leRes_bind {R : α → β → Prop} {S : γ → δ → Prop} {x : GoRes α} {y : GoRes β} {f : α → GoRes γ} {g : β → GoRes δ}
    (h : LeRes R x y) (hf : ∀ a b, R a b → LeRes S (f a) (g b)) : LeRes S (x >>= f) (y >>= g) := by
  cases x with
  | panic => trivial
  | err e => cases h; rfl
  | ok a =>
    obtain ⟨b, rfl, hr⟩ := h
    exact hf a b hr

theorem leRes_bindE {S : γ → δ → Prop} {x y : GoRes α} {f : α → GoRes γ} {g : α → GoRes δ}
    (h : LeRes Eq x y) (hf : ∀ a, LeRes S (f a) (g a)) : LeRes S (x >>= f) (y >>= g) :=
  leRes_bind h (fun a b e => e ▸ hf a)

theorem leRes_eq {x y : GoRes α} (h : LeRes Eq x y) (hx : x ≠ .panic) : y = x := by
  cases x with
  | panic => exact absurd rfl hx
  | err e => exact h
  | ok a => obtain ⟨b, e, rfl⟩ := h; exact e

theorem below_sub {s t : Slice} (h : Below s t) (lo hi : Nat) : LeRes Below (s.sub lo hi) (t.sub lo hi) := by
  obtain ⟨v, r⟩ := s
  obtain ⟨v', r'⟩ := t
  obtain ⟨h1, m, hm⟩ := h
  simp only at h1 hm
  subst h1 hm
  unfold Slice.sub
  simp only [List.length_append]
  split
  · rename_i hc
    rw [if_pos ⟨hc.1, by omega⟩]
    have hl : hi ≤ (v ++ r).length := by rw [List.length_append]; exact hc.2
    refine ⟨_, rfl, ?_, m, ?_⟩
    · simp only
      rw [← List.append_assoc, List.take_append_of_le_length hl]
    · simp only
      rw [← List.append_assoc v r m, List.drop_append_of_le_length hl]
  · trivial

theorem below_drop {s t : Slice} (h : Below s t) (lo : Nat) : LeRes Below (s.dropFrom lo) (t.dropFrom lo) := by
  unfold Slice.dropFrom
  rw [h.1]
  split
  · exact ⟨_, rfl, rfl, h.2⟩
  · trivial

theorem below_idx {s t : Slice} (h : Below s t) (i : Nat) : LeRes Eq (s.idx i) (t.idx i) :=
  leRes_of_eq (by unfold Slice.idx; rw [h.1])

theorem below_u16 {s t : Slice} (h : Below s t) : LeRes Eq s.u16 t.u16 := leRes_of_eq (by unfold Slice.u16; rw [h.1])

theorem below_u32 {s t : Slice} (h : Below s t) : LeRes Eq s.u32 t.u32 := leRes_of_eq (by unfold Slice.u32; rw [h.1])

theorem below_u64 {s t : Slice} (h : Below s t) : LeRes Eq s.u64 t.u64 := leRes_of_eq (by unfold Slice.u64; rw [h.1])

theorem below_len {s t : Slice} (h : Below s t) : s.len = t.len := by unfold Slice.len; rw [h.1]

/-- Step through a computation on a record. -/
macro "below" : tactic => `(tactic| repeat' first
  | exact leRes_refl _
  | assumption
  | (refine leRes_bind (below_sub (by assumption) _ _) (fun _ _ _ => ?_))
  | (refine leRes_bind (below_drop (by assumption) _) (fun _ _ _ => ?_))
  | (refine leRes_bindE (below_u16 (by assumption)) (fun _ => ?_))
  | (refine leRes_bindE (below_u32 (by assumption)) (fun _ => ?_))
  | (refine leRes_bindE (below_u64 (by assumption)) (fun _ => ?_))
  | (refine leRes_bindE (below_idx (by assumption) _) (fun _ => ?_))
  | fail "no step")

/-- Both the bytes read and the rest. -/
def BelowP (a b : α × Slice) : Prop := a.1 = b.1 ∧ Below a.2 b.2

theorem below_read16u : ∀ (n : Nat) {s t : Slice}, Below s t → LeRes BelowP (read16u n s) (read16u n t)
  | 0, _, _, h => ⟨_, rfl, rfl, h⟩
  | n + 1, s, t, h => by
    unfold read16u
    below
    refine leRes_bind (below_read16u n (by assumption)) (fun x y hxy => ?_)
    obtain ⟨a, r⟩ := x
    obtain ⟨a', r'⟩ := y
    obtain ⟨e, hr⟩ := hxy
    cases e
    exact ⟨_, rfl, rfl, hr⟩

theorem leRes_pairP {S : γ → δ → Prop} {x y : GoRes (α × Slice)} {f : α × Slice → GoRes γ} {g : α × Slice → GoRes δ}
    (h : LeRes BelowP x y) (hf : ∀ a r r', Below r r' → LeRes S (f (a, r)) (g (a, r'))) : LeRes S (x >>= f) (y >>= g) := by
  refine leRes_bind h (fun p q hpq => ?_)
  obtain ⟨a, r⟩ := p
  obtain ⟨a', r'⟩ := q
  obtain ⟨e, hr⟩ := hpq
  cases e
  exact hf a r r' hr

theorem leRes_okP {a : α} {r r' : Slice} (h : Below r r') : LeRes BelowP (pure (a, r) : GoRes _) (pure (a, r')) :=
  ⟨_, rfl, rfl, h⟩

theorem below_hyperString {s t : Slice} (h : Below s t) : LeRes BelowP (hyperString s) (hyperString t) := by
  unfold hyperString
  below
  exact leRes_pairP (below_read16u _ (by assumption)) (fun _ _ _ hr => leRes_okP hr)

theorem below_urlMoniker {s t : Slice} (h : Below s t) : LeRes BelowP (urlMoniker s) (urlMoniker t) := by
  unfold urlMoniker
  below
  exact leRes_pairP (below_read16u _ (by assumption)) (fun _ _ _ hr => leRes_okP hr)

theorem below_fileMoniker {s t : Slice} (h : Below s t) : LeRes BelowP (fileMoniker s) (fileMoniker t) := by
  unfold fileMoniker
  refine leRes_bind (below_drop h 2) (fun _ _ h1 => ?_)
  refine leRes_bindE (below_u32 h1) (fun n => ?_)
  refine leRes_bind (below_sub h _ _) (fun buf buf' hb => ?_)
  refine leRes_bind (below_drop h _) (fun _ _ h2 => ?_)
  refine leRes_bindE (below_u32 h2) (fun m => ?_)
  refine leRes_bind (below_drop h2 _) (fun _ _ h3 => ?_)
  split
  · refine leRes_bind (below_drop h3 _) (fun _ _ h4 => ?_)
    exact leRes_pairP (below_read16u _ h4) (fun _ _ _ hr => leRes_okP hr)
  · rw [hb.1]
    exact leRes_okP h3

theorem below_parseMoniker {s t : Slice} (h : Below s t) : LeRes BelowP (parseMoniker s) (parseMoniker t) := by
  unfold parseMoniker
  refine leRes_bind (below_sub h _ _) (fun c c' hc => ?_)
  rw [hc.1]
  split
  · exact leRes_bind (below_drop h _) (fun _ _ h1 => below_urlMoniker h1)
  · split
    · exact leRes_bind (below_drop h _) (fun _ _ h1 => below_fileMoniker h1)
    · rfl

theorem below_displayPart (flags : Nat) {s t : Slice} (h : Below s t) :
    LeRes BelowP (displayPart flags s) (displayPart flags t) := by
  unfold displayPart
  split
  · exact below_hyperString h
  · exact leRes_okP h

theorem below_framePart (flags : Nat) {s t : Slice} (h : Below s t) : LeRes Below (framePart flags s) (framePart flags t) := by
  unfold framePart
  split
  · refine leRes_bind (below_sub h _ _) (fun _ _ h1 => ?_)
    refine leRes_bindE (below_u32 h1) (fun n => ?_)
    exact below_drop h _
  · exact ⟨_, rfl, h⟩

theorem below_monikerPart (flags : Nat) {s t : Slice} (h : Below s t) :
    LeRes BelowP (monikerPart flags s) (monikerPart flags t) := by
  unfold monikerPart
  split
  · split
    · exact below_hyperString h
    · exact below_parseMoniker h
  · exact leRes_okP h

theorem below_locationPart (flags : Nat) (link : Bytes) {s t : Slice} (h : Below s t) :
    LeRes Eq (locationPart flags link s) (locationPart flags link t) := by
  unfold locationPart
  split
  · exact leRes_pairP (below_hyperString h) (fun a _ _ _ => leRes_refl (pure a))
  · exact leRes_refl _

theorem below_decodeHyperlinks {s t : Slice} (h : Below s t) : LeRes Eq (decodeHyperlinks s) (decodeHyperlinks t) := by
  unfold decodeHyperlinks
  refine leRes_bind (below_drop h _) (fun _ _ h1 => ?_)
  refine leRes_bind (below_sub h1 _ _) (fun _ _ h2 => ?_)
  refine leRes_bindE (below_u32 h2) (fun n => ?_)
  split
  · rfl
  · refine leRes_bind (below_sub h1 _ _) (fun _ _ h3 => ?_)
    refine leRes_bindE (below_u32 h3) (fun flags => ?_)
    refine leRes_bind (below_drop h1 _) (fun _ _ h4 => ?_)
    refine leRes_pairP (below_displayPart flags h4) (fun disp _ _ h5 => ?_)
    refine leRes_bind (below_framePart flags h5) (fun _ _ h6 => ?_)
    refine leRes_pairP (below_monikerPart flags h6) (fun link _ _ h7 => ?_)
    exact leRes_bindE (below_locationPart flags link h7) (fun _ => leRes_refl _)

/-! ### Records -/

/-- The same record, and behind it at least as much. -/
structure RecBelow (r q : Rec) : Prop where
  type : r.type = q.type
  size : r.size = q.size
  data : Below r.data q.data

/-- The same records in the same order. -/
inductive RecsBelow : List Rec → List Rec → Prop
  | nil : RecsBelow [] []
  | cons {r q : Rec} {rs qs : List Rec} : RecBelow r q → RecsBelow rs qs → RecsBelow (r :: rs) (q :: qs)

theorem below_dimensions {s t : Slice} (h : Below s t) (d : Dims) : LeRes Eq (dimensions s d) (dimensions t d) := by
  unfold dimensions
  below

theorem below_pass1 : ∀ {rs qs : List Rec}, RecsBelow rs qs → ∀ (first : Bool) (nested : Nat) (d : Dims),
    LeRes Eq (pass1 first nested rs d) (pass1 first nested qs d) := by
  intro rs qs h
  induction h with
  | nil => intro first nested d; exact leRes_refl _
  | cons hr _ ih =>
    intro first nested d
    unfold pass1
    rw [hr.type]
    split
    · exact ih _ _ _
    · split
      · exact ih _ _ _
      · split
        · refine leRes_bindE (below_idx hr.data 1) (fun x => ?_)
          split
          · exact leRes_refl _
          · exact ih _ _ _
        · split
          · exact leRes_bindE (below_dimensions hr.data d) (fun d => ih _ _ _)
          · exact ih _ _ _

theorem below_mulRkLoop (ext : Ext) (b : Book) {d d' : Slice} (h : Below d d') (row col : Nat) : ∀ (n i : Nat) (s : Sheet),
    LeRes Eq (mulRkLoop ext b d row col n i s) (mulRkLoop ext b d' row col n i s)
  | 0, _, _ => leRes_refl _
  | n + 1, i, s => by
    unfold mulRkLoop
    below
    exact leRes_bindE (leRes_refl _) (fun s => below_mulRkLoop ext b h row col n (i + 1) s)

theorem below_formulaValue (ext : Ext) (row col fno : Nat) {d d' : Slice} (h : Below d d') (s : Sheet) :
    LeRes Eq (formulaValue ext row col fno d s) (formulaValue ext row col fno d' s) := by
  unfold formulaValue
  refine leRes_bindE ?_ (fun x => ?_)
  · unfold formulaSpecial
    refine leRes_bindE (below_idx h 6) (fun x => ?_)
    split <;> below
  · split
    · refine leRes_bindE (below_idx h 0) (fun x => ?_)
      split
      · exact leRes_refl _
      · split
        · below
        · split <;> below
    · below

theorem below_stringPart (usCap : Nat) (f : UInt8) {d d' : Slice} (h : Below d d') :
    LeRes Eq (stringPart usCap f d) (stringPart usCap f d') := by
  unfold stringPart
  rw [h.1, below_len h]
  split
  · exact leRes_refl _
  · split
    · trivial
    · exact leRes_pairP (below_read16u _ h) (fun _ _ _ _ => leRes_refl _)

theorem below_stringCont (usCap : Nat) {rs qs : List Rec} (h : RecsBelow rs qs) :
    LeRes Eq (stringCont usCap rs) (stringCont usCap qs) := by
  induction h with
  | nil => exact leRes_refl _
  | cons hr _ ih =>
    unfold stringCont
    rw [hr.type]
    split
    · exact leRes_refl _
    · refine leRes_bindE (below_idx hr.data 0) (fun f => ?_)
      refine leRes_bind (below_drop hr.data 1) (fun _ _ h1 => ?_)
      refine leRes_bindE (below_stringPart usCap f h1) (fun part => ?_)
      exact leRes_bindE ih (fun _ => leRes_refl _)

theorem below_stringHead (n : Nat) (f : UInt8) {d d' : Slice} (h : Below d d') :
    LeRes Eq (stringHead n f d) (stringHead n f d') := by
  unfold stringHead
  rw [h.1]
  split
  · exact leRes_refl _
  · exact leRes_pairP (below_read16u _ h) (fun _ _ _ _ => leRes_refl _)

theorem below_stringRec {d d' : Slice} (h : Below d d') {rs qs : List Rec} (hl : RecsBelow rs qs) (st : CellSt) :
    LeRes Eq (stringRec d rs st) (stringRec d' qs st) := by
  unfold stringRec
  refine leRes_bind (below_sub h _ _) (fun _ _ h1 => ?_)
  refine leRes_bindE (below_u16 h1) (fun n => ?_)
  refine leRes_bindE (below_idx h 2) (fun f => ?_)
  refine leRes_bind (below_drop h 3) (fun _ _ h2 => ?_)
  refine leRes_bindE (below_stringHead n f h2) (fun _ => ?_)
  exact leRes_bindE (below_stringCont _ hl) (fun _ => leRes_refl _)

theorem below_mergeLoop (ext : Ext) (mr mc : Nat) : ∀ (n : Nat) {d d' : Slice}, Below d d' → ∀ s : Sheet,
    LeRes Eq (mergeLoop ext mr mc n d s) (mergeLoop ext mr mc n d' s)
  | 0, _, _, _, _ => leRes_refl _
  | n + 1, d, d', h, s => by
    unfold mergeLoop
    below
    rename_i hd
    exact leRes_bindE (leRes_refl _) (fun s => below_mergeLoop ext mr mc n hd s)

theorem below_hlinkRec (ext : Ext) (mr mc : Nat) {d d' : Slice} (h : Below d d') (s : Sheet) :
    LeRes Eq (hlinkRec ext mr mc d s) (hlinkRec ext mr mc d' s) := by
  unfold hlinkRec
  below
  split
  · exact leRes_refl _
  · split
    · exact leRes_refl _
    · refine leRes_bind (below_drop h 8) (fun x y hxy => ?_)
      have hh := below_decodeHyperlinks hxy
      revert hh
      cases decodeHyperlinks x with
      | panic => intro _; trivial
      | err e => intro hh; rw [show decodeHyperlinks y = .err e from hh]; exact leRes_refl _
      | ok p => intro hh; obtain ⟨q, e, rfl⟩ := hh; rw [e]; exact leRes_refl _

/-- What a sheet needs of the workbook: shared strings, styles and number formats. -/
theorem below_cellRec (ext : Ext) (b : Book) (mr mc : Nat) {r q : Rec} (h : RecBelow r q) {rs qs : List Rec}
    (hl : RecsBelow rs qs) (st : CellSt) : LeRes Eq (cellRec ext b mr mc r rs st) (cellRec ext b mr mc q qs st) := by
  have hw : ∀ {x y : GoRes Sheet}, LeRes Eq x y → LeRes Eq (st.with x) (st.with y) := by
    intro x y hxy
    unfold CellSt.with
    exact leRes_bindE hxy (fun _ => leRes_refl _)
  have hd := h.data
  unfold cellRec
  rw [h.type]
  split
  · refine hw ?_
    unfold boolErrRec
    below
  split
  · refine hw ?_
    unfold mulRkRec
    rw [h.size]
    below
    exact below_mulRkLoop ext b hd _ _ _ _ _
  split
  · refine hw ?_
    unfold numberRec
    below
  split
  · refine hw ?_
    unfold rkRec
    below
  split
  · unfold formulaRec
    below
    rename_i hf
    exact leRes_bindE (below_formulaValue ext _ _ _ hf _) (fun _ => leRes_refl _)
  split
  · exact below_stringRec hd hl st
  split
  · refine hw ?_
    unfold labelRec
    below
  split
  · exact hw (below_hlinkRec ext mr mc hd st.sheet)
  split
  · refine hw ?_
    unfold mergeRec
    below
    rename_i hf
    exact below_mergeLoop ext mr mc _ hf _
  · exact leRes_refl _

theorem below_pass2 (ext : Ext) (b : Book) (mr mc : Nat) : ∀ {rs qs : List Rec}, RecsBelow rs qs →
    ∀ (first : Bool) (nested : Nat) (st : CellSt),
    LeRes Eq (pass2 ext b mr mc first nested rs st) (pass2 ext b mr mc first nested qs st) := by
  intro rs qs h
  induction h with
  | nil => intro first nested st; exact leRes_refl _
  | cons hr hl ih =>
    intro first nested st
    unfold pass2
    rw [hr.type]
    split
    · exact ih _ _ _
    · split
      · exact ih _ _ _
      · exact leRes_bindE (below_cellRec ext b mr mc hr hl st) (fun st => ih _ _ _)

/-- The part of a workbook that the cells of a sheet depend on. -/
structure SameGlobals (b b' : Book) : Prop where
  strings : b.strings = b'.strings
  nfmt : b.nfmt = b'.nfmt
  xfs : b.xfs = b'.xfs

theorem cellRec_globals {ext : Ext} {b b' : Book} (h : SameGlobals b b') (mr mc : Nat) (r : Rec) (rs : List Rec) (st : CellSt) :
    cellRec ext b mr mc r rs st = cellRec ext b' mr mc r rs st := by
  have hf : b.fmtOf = b'.fmtOf := by funext i; unfold Book.fmtOf; rw [h.xfs]
  have hm : ∀ (d : Slice) (row col n i : Nat) (s : Sheet), mulRkLoop ext b d row col n i s = mulRkLoop ext b' d row col n i s := by
    intro d row col n
    induction n with
    | zero => intro i s; rfl
    | succ n ih => intro i s; simp only [mulRkLoop, hf, ih]
  simp only [cellRec, boolErrRec, mulRkRec, numberRec, rkRec, formulaRec, labelRec, hf, h.strings, hm]

theorem pass2_globals {ext : Ext} {b b' : Book} (h : SameGlobals b b') (mr mc : Nat) : ∀ (rs : List Rec) (first : Bool)
    (nested : Nat) (st : CellSt), pass2 ext b mr mc first nested rs st = pass2 ext b' mr mc first nested rs st := by
  intro rs
  induction rs with
  | nil => intro first nested st; rfl
  | cons r rs ih => intro first nested st; simp only [pass2, ih, cellRec_globals h]

/-- A sheet depends on its records and those parts of the workbook. -/
theorem below_parseSheet (ext : Ext) {b b' : Book} (h : SameGlobals b b') (i j : Nat) {rs qs : List Rec}
    (hi : b.subs[i]? = some rs) (hj : b'.subs[j]? = some qs) (hr : RecsBelow rs qs) :
    LeRes Eq (parseSheet ext b i) (parseSheet ext b' j) := by
  unfold parseSheet
  rw [hi, hj]
  simp only
  rw [h.nfmt]
  refine leRes_bindE (below_pass1 hr _ _ _) (fun d => ?_)
  cases d with
  | none => exact leRes_refl _
  | some d =>
    simp only [pass2_globals h]
    exact leRes_bindE (below_pass2 ext b' _ _ hr _ _ _) (fun _ => leRes_refl _)

/-- A record with nothing behind it. -/
def alone (r : Record) : Rec := ⟨r.type, r.data.length, ⟨r.data, []⟩⟩

theorem alone_below : ∀ (rs : List Record) (recs : List Rec), recs.map Rec.view = rs → Sized recs →
    RecsBelow (rs.map alone) recs := by
  intro rs recs h hz
  subst h
  induction recs with
  | nil => exact .nil
  | cons r recs ih =>
    refine .cons ⟨rfl, ?_, rfl, by simp [alone]⟩ (ih (fun x hx => hz x (by simp [hx])))
    exact (hz r (by simp)).symm

end Grate.Xls
