import Verif.Lemmas.Hyperlinks
import Verif.Lemmas.XlsGlobals
import Verif.Model.XlsSheet
import Verif.Props.Hyperlinks
import Verif.Props.Sheet
import Verif.Spec.XlsSheet

/-! # Lemmas about worksheets -/

namespace Grate.Xls

open Spec

/-! ### Writes -/

theorem lastAt_append (r c : Nat) (ws vs : List Write) :
    lastAt r c (ws ++ vs) = (lastAt r c vs).or (lastAt r c ws) := by
  induction ws with
  | nil => simp [lastAt]
  | cons w ws ih =>
    rw [List.cons_append, lastAt, lastAt, ih]
    cases lastAt r c vs with
    | some x => rfl
    | none => rw [Option.none_or, Option.none_or]

/-- The cell is kept: blank cells may be added. -/
def Kept (a b : Option Cell) : Prop := (∃ y, a = some y ∧ b = some y) ∨ (a = none ∧ (b = none ∨ b = some .empty))

theorem Kept.refl (a : Option Cell) : Kept a a := by
  cases a with
  | none => exact .inr ⟨rfl, .inl rfl⟩
  | some y => exact .inl ⟨y, rfl, rfl⟩

theorem Kept.trans {a b c : Option Cell} (h1 : Kept a b) (h2 : Kept b c) : Kept a c := by
  rcases h1 with ⟨y, rfl, rfl⟩ | ⟨rfl, rfl | rfl⟩
  · exact h2
  · exact h2
  · rcases h2 with ⟨z, hz, rfl⟩ | ⟨hz, _⟩
    · cases hz; exact .inr ⟨rfl, .inr rfl⟩
    · cases hz

/-- What became of a cell. -/
def Became (ext : Ext) (f : Formatter) (a b : Option Cell) : Option What → Prop
  | some w => ∃ x, Shows ext f w x ∧ b = some x
  | none => Kept a b

/-- The sheet `s'` is `s` with the writes done. -/
structure Upd (ext : Ext) (s s' : Sheet) (ws : List Write) : Prop where
  inv : SheetInv s → SheetInv s'
  fmtr : s'.fmtr = s.fmtr
  cells : ∀ r c : Nat, Became ext s.fmtr (s.at? r c) (s'.at? r c) (lastAt r c ws)
  rect : RectInv s → RectInv s'
  rows : s.numRows ≤ s'.numRows
  cols : s.numCols ≤ s'.numCols
  cur : s.curRow = 0 → s'.curRow = 0
  inside : ∀ w ∈ ws, (w.row : Int) < s'.numRows ∧ (w.col : Int) < s'.numCols
  tight : (∀ n : Int, s.numRows ≤ n → (∀ w ∈ ws, (w.row : Int) < n) → s'.numRows ≤ n) ∧
    ∀ n : Int, s.numCols ≤ n → (∀ w ∈ ws, (w.col : Int) < n) → s'.numCols ≤ n

theorem Upd.refl (ext : Ext) (s : Sheet) : Upd ext s s [] where
  inv := id
  fmtr := rfl
  cells := fun _ _ => Kept.refl _
  rect := id
  rows := Int.le_refl _
  cols := Int.le_refl _
  cur := id
  inside := by simp
  tight := ⟨fun _ h _ => h, fun _ h _ => h⟩

theorem Upd.trans {ext : Ext} {s s1 s2 : Sheet} {ws vs : List Write} (h1 : Upd ext s s1 ws) (h2 : Upd ext s1 s2 vs) :
    Upd ext s s2 (ws ++ vs) where
  inv := fun h => h2.inv (h1.inv h)
  fmtr := by rw [h2.fmtr, h1.fmtr]
  cells := by
    intro r c
    have a := h1.cells r c
    have b := h2.cells r c
    rw [lastAt_append]
    rw [h1.fmtr] at b
    cases hv : lastAt r c vs with
    | some w =>
      rw [hv] at b
      exact b
    | none =>
      rw [hv] at b
      rw [Option.none_or]
      cases hw : lastAt r c ws with
      | some w =>
        rw [hw] at a
        obtain ⟨x, hx, he⟩ := a
        refine ⟨x, hx, ?_⟩
        rcases b with ⟨y, hy, hy'⟩ | ⟨hn, _⟩
        · rw [he] at hy; cases hy; exact hy'
        · rw [he] at hn; cases hn
      | none =>
        rw [hw] at a
        exact Kept.trans a b
  rect := fun h => h2.rect (h1.rect h)
  rows := Int.le_trans h1.rows h2.rows
  cols := Int.le_trans h1.cols h2.cols
  cur := fun h => h2.cur (h1.cur h)
  inside := by
    intro w hw
    rw [List.mem_append] at hw
    have r2 := h2.rows
    have c2 := h2.cols
    rcases hw with hw | hw
    · have := h1.inside w hw; omega
    · exact h2.inside w hw
  tight := by
    refine ⟨fun n h hw => h2.tight.1 n (h1.tight.1 n h ?_) ?_, fun n h hw => h2.tight.2 n (h1.tight.2 n h ?_) ?_⟩
    · exact fun w h => hw w (List.mem_append_left _ h)
    · exact fun w h => hw w (List.mem_append_right _ h)
    · exact fun w h => hw w (List.mem_append_left _ h)
    · exact fun w h => hw w (List.mem_append_right _ h)

/-- Only the last writes matter. -/
theorem Upd.congr {ext : Ext} {s s' : Sheet} {ws vs : List Write} (h : Upd ext s s' ws)
    (he : ∀ r c, lastAt r c vs = lastAt r c ws) (hin : ∀ w ∈ vs, ∃ v ∈ ws, v.row = w.row ∧ v.col = w.col)
    (hin' : ∀ w ∈ ws, ∃ v ∈ vs, v.row = w.row ∧ v.col = w.col) :
    Upd ext s s' vs where
  inv := h.inv
  fmtr := h.fmtr
  cells := by intro r c; rw [he]; exact h.cells r c
  rect := h.rect
  rows := h.rows
  cols := h.cols
  cur := h.cur
  inside := by
    intro w hw
    obtain ⟨v, hv, h1, h2⟩ := hin w hw
    rw [← h1, ← h2]
    exact h.inside v hv
  tight := by
    refine ⟨fun n hn hw => h.tight.1 n hn ?_, fun n hn hw => h.tight.2 n hn ?_⟩
    · intro w hm
      obtain ⟨v, hv, h1, _⟩ := hin' w hm
      rw [← h1]; exact hw v hv
    · intro w hm
      obtain ⟨v, hv, _, h1⟩ := hin' w hm
      rw [← h1]; exact hw v hv

theorem lastAt_some {r c : Nat} {ws : List Write} (h : ∃ v ∈ ws, v.row = r ∧ v.col = c) : ∃ x, lastAt r c ws = some x := by
  induction ws with
  | nil => obtain ⟨v, hv, _⟩ := h; simp at hv
  | cons w ws ih =>
    rw [lastAt]
    cases hl : lastAt r c ws with
    | some x => exact ⟨x, rfl⟩
    | none =>
      simp only
      obtain ⟨v, hv, h1, h2⟩ := h
      rw [List.mem_cons] at hv
      rcases hv with rfl | hv
      · exact ⟨_, if_pos ⟨h1, h2⟩⟩
      · obtain ⟨x, hx⟩ := ih ⟨v, hv, h1, h2⟩
        rw [hl] at hx; cases hx

theorem lastAt_mem {r c : Nat} {ws : List Write} {x : What} (h : lastAt r c ws = some x) :
    ∃ v ∈ ws, v.row = r ∧ v.col = c := by
  induction ws with
  | nil => cases h
  | cons w ws ih =>
    rw [lastAt] at h
    cases hl : lastAt r c ws with
    | some y =>
      rw [hl] at h
      cases h
      obtain ⟨v, hv, h1⟩ := ih hl
      exact ⟨v, by simp [hv], h1⟩
    | none =>
      rw [hl] at h
      simp only at h
      by_cases hc : w.row = r ∧ w.col = c
      · exact ⟨w, by simp, hc⟩
      · rw [if_neg hc] at h; cases h

/-- Lists of writes with the same last writes do the same. -/
theorem Upd.same {ext : Ext} {s s' : Sheet} {ws vs : List Write} (h : Upd ext s s' ws)
    (he : ∀ r c, lastAt r c vs = lastAt r c ws) : Upd ext s s' vs := by
  refine h.congr he ?_ ?_
  · intro w hw
    obtain ⟨x, hx⟩ := lastAt_some (r := w.row) (c := w.col) ⟨w, hw, rfl, rfl⟩
    rw [he] at hx
    exact lastAt_mem hx
  · intro w hw
    obtain ⟨x, hx⟩ := lastAt_some (r := w.row) (c := w.col) ⟨w, hw, rfl, rfl⟩
    rw [← he] at hx
    exact lastAt_mem hx

theorem store_upd_cur {s s' : Sheet} {row col : Int} {x : Cell} (h : s.store row col x = .ok s') : s'.curRow = s.curRow :=
  (store_fields h).2.2.2.1

theorem grow_cur (s : Sheet) (r c : Int) (h : s.curRow = 0) : (s.grow r c).curRow = 0 := by
  unfold Sheet.grow
  split
  · rfl
  · exact h

theorem grow_tight (s : Sheet) (r c : Nat) : (∀ n : Int, s.numRows ≤ n → (r : Int) < n → (s.grow r c).numRows ≤ n) ∧
    ∀ n : Int, s.numCols ≤ n → (c : Int) < n → (s.grow r c).numCols ≤ n := by
  unfold Sheet.grow Sheet.resize
  constructor
  · intro n h1 h2
    split
    · simp only
      split <;> split <;> omega
    · exact h1
  · intro n h1 h2
    split
    · simp only
      split <;> split <;> omega
    · exact h1

/-- A `Put` of a supported value. -/
theorem put_upd (ext : Ext) {s : Sheet} (h : SheetInv s) (row col : Nat) {v : GoVal} (hv : Supported v) (n : Nat) :
    ∃ s', s.put ext row col v n = .ok s' ∧ Upd ext s s' [⟨row, col, .value v n⟩] := by
  obtain ⟨s', hp, hi⟩ := inv_put (ext := ext) h (r := row) (c := col) (by omega) (by omega) hv n
  obtain ⟨x, hx, hs⟩ := put_ok hp
  obtain ⟨y, hy, _, _, hat, hother⟩ := put_at hp
  have hsize := op_size (op := .put row col v n) ⟨h.nr, h.nc⟩ trivial hp
  have hrc := hsize.2.2 row col v n rfl
  refine ⟨s', hp, ?_⟩
  constructor
  · intro _; exact hi
  · rw [(store_fields hs).1, grow_fmtr]
  · intro r c
    unfold lastAt
    simp only [lastAt]
    by_cases hc : row = r ∧ col = c
    · rw [if_pos hc]
      obtain ⟨rfl, rfl⟩ := hc
      exact ⟨y, (Props.builds_iff ..).2 hy, by simpa using hat⟩
    · rw [if_neg hc]
      exact hother r c (by omega)
  · intro hr
    exact rect_store (rect_grow hr row col) hs
  · exact hsize.1
  · exact hsize.2.1
  · intro hc
    rw [store_upd_cur hs]
    exact grow_cur s row col hc
  · intro w hw
    simp at hw
    subst hw
    exact hrc
  · rw [(store_fields hs).2.1, (store_fields hs).2.2.1]
    have := grow_tight s row col
    exact ⟨fun n h hw => this.1 n h (hw _ (List.mem_singleton.2 rfl)), fun n h hw => this.2 n h (hw _ (List.mem_singleton.2 rfl))⟩

/-- The placeholder and the text of a formula. -/
theorem text_upd (ext : Ext) {s : Sheet} (h : SheetInv s) (row col : Nat) (t : Bytes) (n : Nat) :
    ∃ s1 s2, s.put ext row col (.str []) n = .ok s1 ∧ s1.set row col (.str t) = .ok s2 ∧
      Upd ext s s2 [⟨row, col, .text t n⟩] := by
  obtain ⟨s1, hp, hu⟩ := put_upd ext h row col (v := .str []) trivial n
  obtain ⟨y, hy, _, _, hat, _⟩ := put_at hp
  have hi := hu.inv h
  have hin := hu.inside _ (List.mem_singleton.2 rfl)
  simp only at hin
  -- the cell has the format
  have hcell : ∃ v ty o, y = .full v ty o [] ∧ (∀ t, Cell.formatNo (.full (.str t) .string o []) = n) := by
    unfold putCell at hy
    have hm : (GoVal.str []).marker = false := by decide
    rw [hm] at hy
    obtain ⟨v, ty, ht⟩ := typedCell_ok ext s.fmtr (v := .str []) trivial n
    simp only [cond_false, ht, GoRes.ok_bind, Cell.setFormatNumber] at hy
    by_cases h0 : n = 0
    · subst h0
      rw [if_pos rfl] at hy
      cases hy
      exact ⟨_, _, _, rfl, fun _ => rfl⟩
    · rw [if_neg h0] at hy
      cases hy
      exact ⟨_, _, _, rfl, fun _ => rfl⟩
  obtain ⟨v, ty, o, rfl, hfo⟩ := hcell
  have hc1 : s1.cell? row col = some (.full v ty o []) := by
    rw [cell?_nat]; simpa using hat
  have hs2 : ∃ s2, s1.store row col (.full (.str t) .string o []) = .ok s2 := by
    unfold Sheet.store; rw [hc1]; exact ⟨_, rfl⟩
  obtain ⟨s2, hs2⟩ := hs2
  obtain ⟨_, _, ha2, ho2⟩ := store_at hs2
  obtain ⟨hf2, hr2, hcc2, hcu2, _, _⟩ := store_fields hs2
  refine ⟨s1, s2, hp, ?_, ?_⟩
  · unfold Sheet.set
    rw [if_neg (by omega), hc1]
    exact hs2
  · constructor
    · intro _; exact inv_store hi hs2
    · rw [hf2, hu.fmtr]
    · intro r c
      have hcells := hu.cells r c
      unfold lastAt at hcells ⊢
      simp only [lastAt] at hcells ⊢
      by_cases hc : row = r ∧ col = c
      · rw [if_pos hc]
        obtain ⟨rfl, rfl⟩ := hc
        exact ⟨_, ⟨rfl, rfl, hfo t⟩, by simpa using ha2⟩
      · rw [if_neg hc] at hcells ⊢
        rw [ho2 r c (by omega)]
        exact hcells
    · intro hr; exact rect_store (hu.rect hr) hs2
    · rw [hr2]; exact hu.rows
    · rw [hcc2]; exact hu.cols
    · intro hc; rw [hcu2]; exact hu.cur hc
    · intro w hw
      simp at hw
      subst hw
      rw [hr2, hcc2]
      exact hin
    · rw [hr2, hcc2]
      exact ⟨fun n h hw => hu.tight.1 n h (fun w hm => by
          rw [List.mem_singleton] at hm; subst hm; have := hw _ (List.mem_singleton.2 rfl); exact this),
        fun n h hw => hu.tight.2 n h (fun w hm => by
          rw [List.mem_singleton] at hm; subst hm; have := hw _ (List.mem_singleton.2 rfl); exact this)⟩

/-! ### Compressed numbers -/

theorem rkVal_eq (r : Nat) (h : r < 2 ^ 32) : rkVal r = rkSigned r := by
  unfold rkVal rkSigned Cfb.toI32
  split <;> split <;> omega

theorem rkBits_eq (r : Nat) (h : r < 2 ^ 32) : rkBits r = rkDouble r := by
  unfold rkBits rkDouble
  rw [rkVal_eq r h]
  unfold rkSigned
  congr 2
  split <;> omega

theorem rk_bits (r : Nat) : r.testBit 0 = decide (r % 4 = 1 ∨ r % 4 = 3) ∧ r.testBit 1 = decide (r % 4 = 2 ∨ r % 4 = 3) := by
  rw [Nat.testBit_eq_decide_div_mod_eq, Nat.testBit_eq_decide_div_mod_eq]
  constructor
  · apply decide_eq_decide.2; omega
  · apply decide_eq_decide.2; omega

theorem rkValue_eq (r : Nat) (h : r < 2 ^ 32) (h3 : r % 4 ≠ 3) : rkValue r = rkMeans r := by
  obtain ⟨b0, b1⟩ := rk_bits r
  unfold rkValue rkIsInteger rkInt rkFloat rkMeans
  rw [b0, b1, rkVal_eq r h, rkBits_eq r h]
  have : r % 4 = 0 ∨ r % 4 = 1 ∨ r % 4 = 2 := by omega
  rcases this with h | h | h <;> simp [h]

/-! ### Fields of records -/

theorem u64_here (n : Nat) (h : n < 2 ^ 64) (c rest : Bytes) : (⟨leBytes 8 n ++ c, rest⟩ : Slice).u64 = .ok n := by
  simp only [leBytes, List.cons_append, List.nil_append, Slice.u64, le32]
  congr 1
  simp
  omega

theorem head_row (row col xf : Nat) (x rest : Bytes) :
    ∃ y, (⟨cellHead row col xf x, rest⟩ : Slice).sub 0 2 = .ok ⟨leBytes 2 row, y⟩ :=
  ⟨_, sub_here _ _ _ _ (leBytes_length 2 _).symm⟩

theorem head_col (row col xf : Nat) (x rest : Bytes) :
    ∃ y, (⟨cellHead row col xf x, rest⟩ : Slice).sub 2 4 = .ok ⟨leBytes 2 col, y⟩ :=
  ⟨_, sub_second _ _ _ _ _ _ (leBytes_length 2 _).symm (by simp [leBytes_length])⟩

theorem cellHead_eq (row col xf : Nat) (x : Bytes) :
    cellHead row col xf x = (leBytes 2 row ++ leBytes 2 col) ++ (leBytes 2 xf ++ x) := by
  unfold cellHead; simp

theorem head_xf (row col xf : Nat) (x rest : Bytes) :
    ∃ y, (⟨cellHead row col xf x, rest⟩ : Slice).sub 4 6 = .ok ⟨leBytes 2 xf, y⟩ := by
  rw [cellHead_eq]
  exact ⟨_, sub_second _ _ _ _ _ _ (by simp [leBytes_length]) (by simp [leBytes_length])⟩

theorem head_drop4 (row col xf : Nat) (x rest : Bytes) :
    (⟨cellHead row col xf x, rest⟩ : Slice).dropFrom 4 = .ok ⟨leBytes 2 xf ++ x, rest⟩ := by
  rw [cellHead_eq]
  exact drop_here _ _ _ _ (by simp [leBytes_length])

theorem head_drop6 (row col xf : Nat) (x rest : Bytes) :
    (⟨cellHead row col xf x, rest⟩ : Slice).dropFrom 6 = .ok ⟨x, rest⟩ := by
  rw [cellHead_eq]
  exact drop_two _ _ _ _ _ (by simp [leBytes_length])

theorem head_idx (row col xf : Nat) (x rest : Bytes) (i : Nat) :
    (⟨cellHead row col xf x, rest⟩ : Slice).idx (6 + i) = (⟨x, rest⟩ : Slice).idx i := by
  unfold Slice.idx cellHead leBytes leBytes leBytes
  have : 6 + i = i + 1 + 1 + 1 + 1 + 1 + 1 := by omega
  simp only [this, List.cons_append, List.nil_append, List.getElem?_cons_succ]

theorem styleFormat_eq (b : Book) (styles : List Nat) (h : b.xfs = styles) (xf : Nat) : b.fmtOf xf = styleFormat styles xf := by
  unfold Book.fmtOf styleFormat; rw [h]

theorem numberRec_spec (ext : Ext) (b : Book) (row col xf bits : Nat) (tail rest : Bytes) (hf : HeadFits row col xf)
    (hb : bits < 2 ^ 64) {s : Sheet} (h : SheetInv s) :
    ∃ s', numberRec ext b ⟨cellHead row col xf (leBytes 8 bits ++ tail), rest⟩ s = .ok s' ∧
      Upd ext s s' [⟨row, col, .value (.f64 (Float.ofBits (UInt64.ofNat bits))) (b.fmtOf xf)⟩] := by
  obtain ⟨_, e1⟩ := head_row row col xf (leBytes 8 bits ++ tail) rest
  obtain ⟨_, e2⟩ := head_col row col xf (leBytes 8 bits ++ tail) rest
  obtain ⟨_, e3⟩ := head_xf row col xf (leBytes 8 bits ++ tail) rest
  have e4 := head_drop6 row col xf (leBytes 8 bits ++ tail) rest
  obtain ⟨s', hp, hu⟩ := put_upd ext h row col (v := .f64 (Float.ofBits (UInt64.ofNat bits))) trivial (b.fmtOf xf)
  refine ⟨s', ?_, hu⟩
  unfold numberRec
  simp only [e1, e2, e3, e4, GoRes.ok_bind, u16_exact row hf.1, u16_exact col hf.2.1, u16_exact xf hf.2.2,
    u64_here bits hb]
  exact hp

theorem supported_rk (r : Nat) : Supported (rkMeans r) := by
  unfold rkMeans
  split <;> trivial

theorem rkRec_spec (ext : Ext) (b : Book) (row col xf r : Nat) (tail rest : Bytes) (hf : HeadFits row col xf)
    (hr : r < 2 ^ 32) (h3 : r % 4 ≠ 3) {s : Sheet} (h : SheetInv s) :
    ∃ s', rkRec ext b ⟨cellHead row col xf (leBytes 4 r ++ tail), rest⟩ s = .ok s' ∧
      Upd ext s s' [⟨row, col, .value (rkMeans r) (b.fmtOf xf)⟩] := by
  obtain ⟨_, e1⟩ := head_row row col xf (leBytes 4 r ++ tail) rest
  obtain ⟨_, e2⟩ := head_col row col xf (leBytes 4 r ++ tail) rest
  have e3 := head_drop4 row col xf (leBytes 4 r ++ tail) rest
  have e4 := head_drop6 row col xf (leBytes 4 r ++ tail) rest
  obtain ⟨s', hp, hu⟩ := put_upd ext h row col (supported_rk r) (b.fmtOf xf)
  refine ⟨s', ?_, hu⟩
  unfold rkRec
  simp only [e1, e2, e3, e4, GoRes.ok_bind, u16_exact row hf.1, u16_exact col hf.2.1, u16_here xf hf.2.2,
    u32_here r hr, rkValue_eq r hr h3]
  exact hp

theorem boolRec_spec (ext : Ext) (b : Book) (row col xf : Nat) (v : UInt8) (tail rest : Bytes) (hf : HeadFits row col xf)
    {s : Sheet} (h : SheetInv s) :
    ∃ s', boolErrRec ext b ⟨cellHead row col xf (v :: 0 :: tail), rest⟩ s = .ok s' ∧
      Upd ext s s' [⟨row, col, .value (.bool (v = 1)) (b.fmtOf xf)⟩] := by
  obtain ⟨_, e1⟩ := head_row row col xf (v :: 0 :: tail) rest
  obtain ⟨_, e2⟩ := head_col row col xf (v :: 0 :: tail) rest
  obtain ⟨_, e3⟩ := head_xf row col xf (v :: 0 :: tail) rest
  have e4 : (⟨cellHead row col xf (v :: 0 :: tail), rest⟩ : Slice).idx 7 = .ok 0 := head_idx row col xf _ rest 1
  have e5 : (⟨cellHead row col xf (v :: 0 :: tail), rest⟩ : Slice).idx 6 = .ok v := head_idx row col xf _ rest 0
  obtain ⟨s', hp, hu⟩ := put_upd ext h row col (v := .bool (v = 1)) trivial (b.fmtOf xf)
  refine ⟨s', ?_, hu⟩
  unfold boolErrRec
  simp only [e1, e2, e3, e4, e5, GoRes.ok_bind, u16_exact row hf.1, u16_exact col hf.2.1, u16_exact xf hf.2.2]
  exact hp

theorem berr_eq (c : UInt8) : berr c = errorText c := by
  revert c
  apply byte_all
  decide +kernel

theorem errorRec_spec (ext : Ext) (b : Book) (row col xf : Nat) (v k : UInt8) (tail rest : Bytes)
    (hf : HeadFits row col xf) (hk : k ≠ 0) {s : Sheet} (h : SheetInv s) :
    ∃ s', boolErrRec ext b ⟨cellHead row col xf (v :: k :: tail), rest⟩ s = .ok s' ∧
      Upd ext s s' [⟨row, col, .value (.str (errorText v)) 0⟩] := by
  obtain ⟨_, e1⟩ := head_row row col xf (v :: k :: tail) rest
  obtain ⟨_, e2⟩ := head_col row col xf (v :: k :: tail) rest
  obtain ⟨_, e3⟩ := head_xf row col xf (v :: k :: tail) rest
  have e4 : (⟨cellHead row col xf (v :: k :: tail), rest⟩ : Slice).idx 7 = .ok k := head_idx row col xf _ rest 1
  have e5 : (⟨cellHead row col xf (v :: k :: tail), rest⟩ : Slice).idx 6 = .ok v := head_idx row col xf _ rest 0
  obtain ⟨s', hp, hu⟩ := put_upd ext h row col (v := .str (errorText v)) trivial 0
  refine ⟨s', ?_, hu⟩
  unfold boolErrRec
  simp only [e1, e2, e3, e4, e5, GoRes.ok_bind, u16_exact row hf.1, u16_exact col hf.2.1, u16_exact xf hf.2.2, if_neg hk,
    berr_eq]
  exact hp

theorem utf8_nil (t : List Nat) (h : utf8 t = []) : t = [] := by
  cases t with
  | nil => rfl
  | cons r t =>
    unfold utf8 at h
    rw [List.flatMap_cons, List.append_eq_nil_iff] at h
    exact absurd h.1 (by unfold String.utf8EncodeChar; simp only; split <;> (try split) <;> (try split) <;> simp)

theorem labelRec_spec (ext : Ext) (b : Book) (strings : List (List Nat)) (hs : b.strings = strings.map utf8)
    (row col xf i : Nat) (t : List Nat) (tail rest : Bytes) (hf : HeadFits row col xf) (hi : i < 2 ^ 32)
    (ht : strings[i]? = some t) {s : Sheet} (h : SheetInv s) :
    ∃ s', labelRec ext b ⟨cellHead row col xf (leBytes 4 i ++ tail), rest⟩ s = .ok s' ∧
      Upd ext s s' (if t = [] then [] else [⟨row, col, .value (.str (utf8 t)) (b.fmtOf xf)⟩]) := by
  obtain ⟨_, e1⟩ := head_row row col xf (leBytes 4 i ++ tail) rest
  obtain ⟨_, e2⟩ := head_col row col xf (leBytes 4 i ++ tail) rest
  obtain ⟨_, e3⟩ := head_xf row col xf (leBytes 4 i ++ tail) rest
  have e4 := head_drop6 row col xf (leBytes 4 i ++ tail) rest
  have hlt : i < strings.length := by
    rcases Nat.lt_or_ge i strings.length with h | h
    · exact h
    · simp [h] at ht
  have hb : b.strings[i]? = some (utf8 t) := by rw [hs, List.getElem?_map, ht]; rfl
  unfold labelRec
  simp only [e1, e2, e3, e4, GoRes.ok_bind, u16_exact row hf.1, u16_exact col hf.2.1, u16_exact xf hf.2.2,
    u32_here i hi, hb]
  rw [if_neg (by rw [hs, List.length_map]; omega)]
  by_cases h0 : t = []
  · subst h0
    rw [if_pos rfl, if_pos (show utf8 [] = [] from rfl)]
    exact ⟨s, rfl, Upd.refl ext s⟩
  · rw [if_neg h0, if_neg (fun hc => h0 (utf8_nil t hc))]
    exact put_upd ext h row col (v := .str (utf8 t)) trivial (b.fmtOf xf)

/-! ### Several numbers in a row -/

theorem rkList_length (vs : List (Nat × Nat)) : (vs.flatMap (fun v => leBytes 2 v.1 ++ leBytes 4 v.2)).length = 6 * vs.length := by
  induction vs with
  | nil => rfl
  | cons v vs ih => rw [List.flatMap_cons, List.length_append, ih, List.length_cons]; simp [leBytes_length]; omega

theorem mulRkLoop_spec (ext : Ext) (b : Book) (row col : Nat) (hd tl rest : Bytes) (h4 : hd.length = 4) :
    ∀ (vs past : List (Nat × Nat)) (s : Sheet), SheetInv s → (∀ v ∈ vs, v.1 < 65536 ∧ v.2 < 2 ^ 32 ∧ v.2 % 4 ≠ 3) →
      ∃ s', mulRkLoop ext b ⟨hd ++ (past.flatMap (fun v => leBytes 2 v.1 ++ leBytes 4 v.2) ++
          (vs.flatMap (fun v => leBytes 2 v.1 ++ leBytes 4 v.2) ++ tl)), rest⟩ row col vs.length past.length s = .ok s' ∧
        Upd ext s s' (rowWrites b.xfs row (col + past.length) vs) := by
  intro vs
  induction vs with
  | nil => intro past s h _; exact ⟨s, rfl, Upd.refl ext s⟩
  | cons v vs ih =>
    intro past s h hv
    obtain ⟨v1, v2, v3⟩ := hv v (by simp)
    obtain ⟨s1, hp, hu1⟩ := put_upd ext h row (col + past.length) (supported_rk v.2) (b.fmtOf v.1)
    obtain ⟨s2, he, hu2⟩ := ih (past ++ [v]) s1 (hu1.inv h) (fun x hx => hv x (by simp [hx]))
    refine ⟨s2, ?_, ?_⟩
    · have hl := rkList_length past
      have e : hd ++ (past.flatMap (fun v => leBytes 2 v.1 ++ leBytes 4 v.2) ++
          ((v :: vs).flatMap (fun v => leBytes 2 v.1 ++ leBytes 4 v.2) ++ tl)) =
          (hd ++ past.flatMap (fun v => leBytes 2 v.1 ++ leBytes 4 v.2)) ++ (leBytes 2 v.1 ++ (leBytes 4 v.2 ++
          (vs.flatMap (fun v => leBytes 2 v.1 ++ leBytes 4 v.2) ++ tl))) := by
        rw [List.flatMap_cons]; simp
      rw [List.flatMap_append, List.length_append, List.length_singleton, List.flatMap_cons, List.flatMap_nil,
        List.append_nil] at he
      have e' : hd ++ (past.flatMap (fun v => leBytes 2 v.1 ++ leBytes 4 v.2) ++ (leBytes 2 v.1 ++ leBytes 4 v.2) ++
          (vs.flatMap (fun v => leBytes 2 v.1 ++ leBytes 4 v.2) ++ tl)) =
          (hd ++ past.flatMap (fun v => leBytes 2 v.1 ++ leBytes 4 v.2)) ++ (leBytes 2 v.1 ++ (leBytes 4 v.2 ++
          (vs.flatMap (fun v => leBytes 2 v.1 ++ leBytes 4 v.2) ++ tl))) := by
        simp
      rw [e'] at he
      rw [e, List.length_cons]
      unfold mulRkLoop
      rw [drop_here _ _ _ (4 + past.length * 6) (by rw [List.length_append, hl, h4]; omega), GoRes.ok_bind,
        u16_here v.1 v1, GoRes.ok_bind,
        drop_two _ _ _ _ (4 + past.length * 6 + 2) (by rw [List.length_append, hl, h4, leBytes_length]; omega),
        GoRes.ok_bind, u32_here v.2 v2, GoRes.ok_bind, rkValue_eq v.2 v2 v3, hp, GoRes.ok_bind]
      exact he
    · have := hu1.trans hu2
      rw [List.length_append, List.length_singleton] at this
      exact this

theorem mulRkRec_spec (ext : Ext) (b : Book) (row col last : Nat) (vs : List (Nat × Nat)) (rest : Bytes) (size : Nat)
    (hr : row < 65536) (hc : col < 65536) (hl : 6 * vs.length + 6 < 65536) (hs : size = 6 * vs.length + 6)
    (hv : ∀ v ∈ vs, v.1 < 65536 ∧ v.2 < 2 ^ 32 ∧ v.2 % 4 ≠ 3) {s : Sheet} (h : SheetInv s) :
    ∃ s', mulRkRec ext b size ⟨leBytes 2 row ++ (leBytes 2 col ++ (vs.flatMap (fun v => leBytes 2 v.1 ++ leBytes 4 v.2) ++
        leBytes 2 last)), rest⟩ s = .ok s' ∧ Upd ext s s' (rowWrites b.xfs row col vs) := by
  obtain ⟨s', he, hu⟩ := mulRkLoop_spec ext b row col (leBytes 2 row ++ leBytes 2 col) (leBytes 2 last) rest
    (by simp [leBytes_length]) vs [] s h hv
  refine ⟨s', ?_, hu⟩
  unfold mulRkRec
  rw [sub_here _ _ _ 2 (leBytes_length 2 _).symm]
  simp only [GoRes.ok_bind, u16_exact row hr]
  rw [sub_second _ _ _ _ 2 4 (leBytes_length 2 _).symm (by simp [leBytes_length])]
  simp only [GoRes.ok_bind, u16_exact col hc]
  have : (size + 65536 - 6) % 65536 / 6 = vs.length := by omega
  rw [this]
  simpa using he

/-! ### Regions -/

/-- The writes of one cell of a region. -/
def cellW (top : Option Bytes) (r0 r1 c0 c1 rn cn : Nat) : List Write :=
  match regionVal top r0 r1 c0 c1 rn cn with
  | none => []
  | some v => [⟨rn, cn, .value (.str v) 0⟩]

/-- The writes of `n` cells of a row. -/
def rowW (top : Option Bytes) (r0 r1 c0 c1 rn : Nat) : Nat → Nat → List Write
  | 0, _ => []
  | n + 1, cn => cellW top r0 r1 c0 c1 rn cn ++ rowW top r0 r1 c0 c1 rn n (cn + 1)

/-- The writes of `n` rows. -/
def rowsW (top : Option Bytes) (r0 r1 c0 c1 : Nat) : Nat → Nat → List Write
  | 0, _ => []
  | n + 1, rn => rowW top r0 r1 c0 c1 rn (c1 + 1 - c0) c0 ++ rowsW top r0 r1 c0 c1 n (rn + 1)

theorem putRegionCell_spec (ext : Ext) (top : Option Bytes) (r0 r1 c0 c1 rn cn : Nat) {s : Sheet} (h : SheetInv s) :
    ∃ s', putRegionCell ext top r0 r1 c0 c1 rn cn s = .ok s' ∧ Upd ext s s' (cellW top r0 r1 c0 c1 rn cn) := by
  unfold putRegionCell cellW
  cases regionVal top r0 r1 c0 c1 rn cn with
  | none => exact ⟨s, rfl, Upd.refl ext s⟩
  | some v => exact put_upd ext h rn cn (v := .str v) trivial 0

theorem putRegionRow_spec (ext : Ext) (top : Option Bytes) (r0 r1 c0 c1 rn : Nat) : ∀ (n cn : Nat) (s : Sheet),
    SheetInv s → ∃ s', putRegionRow ext top r0 r1 c0 c1 rn n cn s = .ok s' ∧ Upd ext s s' (rowW top r0 r1 c0 c1 rn n cn) := by
  intro n
  induction n with
  | zero => intro cn s _; exact ⟨s, rfl, Upd.refl ext s⟩
  | succ n ih =>
    intro cn s h
    obtain ⟨s1, h1, u1⟩ := putRegionCell_spec ext top r0 r1 c0 c1 rn cn h
    obtain ⟨s2, h2, u2⟩ := ih (cn + 1) s1 (u1.inv h)
    refine ⟨s2, ?_, u1.trans u2⟩
    unfold putRegionRow
    rw [h1, GoRes.ok_bind]
    exact h2

theorem putRegionRows_spec (ext : Ext) (top : Option Bytes) (r0 r1 c0 c1 : Nat) : ∀ (n rn : Nat) (s : Sheet),
    SheetInv s → ∃ s', putRegionRows ext top r0 r1 c0 c1 n rn s = .ok s' ∧ Upd ext s s' (rowsW top r0 r1 c0 c1 n rn) := by
  intro n
  induction n with
  | zero => intro rn s _; exact ⟨s, rfl, Upd.refl ext s⟩
  | succ n ih =>
    intro rn s h
    obtain ⟨s1, h1, u1⟩ := putRegionRow_spec ext top r0 r1 c0 c1 rn (c1 + 1 - c0) c0 s h
    obtain ⟨s2, h2, u2⟩ := ih (rn + 1) s1 (u1.inv h)
    refine ⟨s2, ?_, u1.trans u2⟩
    unfold putRegionRows
    rw [h1, GoRes.ok_bind]
    exact h2

theorem lastAt_cellW (top : Option Bytes) (r0 r1 c0 c1 rn cn r c : Nat) :
    lastAt r c (cellW top r0 r1 c0 c1 rn cn) =
      if r = rn ∧ c = cn then (regionVal top r0 r1 c0 c1 rn cn).map (fun v => .value (.str v) 0) else none := by
  unfold cellW
  cases regionVal top r0 r1 c0 c1 rn cn with
  | none => simp [lastAt]
  | some v =>
    simp only [lastAt, Option.map_some]
    by_cases h : rn = r ∧ cn = c
    · rw [if_pos h, if_pos ⟨h.1.symm, h.2.symm⟩]
    · rw [if_neg h, if_neg (fun hc => h ⟨hc.1.symm, hc.2.symm⟩)]

theorem lastAt_rowW (top : Option Bytes) (r0 r1 c0 c1 rn r c : Nat) : ∀ (n cn : Nat),
    lastAt r c (rowW top r0 r1 c0 c1 rn n cn) =
      if r = rn ∧ cn ≤ c ∧ c < cn + n then (regionVal top r0 r1 c0 c1 r c).map (fun v => .value (.str v) 0) else none := by
  intro n
  induction n with
  | zero => intro cn; rw [if_neg (by omega)]; rfl
  | succ n ih =>
    intro cn
    rw [rowW, lastAt_append, ih, lastAt_cellW]
    by_cases h1 : r = rn ∧ cn + 1 ≤ c ∧ c < cn + 1 + n
    · rw [if_pos h1, if_neg (by omega), Option.or_none, if_pos (by omega)]
    · rw [if_neg h1, Option.none_or]
      by_cases h2 : r = rn ∧ c = cn
      · rw [if_pos h2, if_pos (by omega)]
        obtain ⟨rfl, rfl⟩ := h2
        rfl
      · rw [if_neg h2, if_neg (by omega)]

theorem lastAt_rowsW (top : Option Bytes) (r0 r1 c0 c1 r c : Nat) : ∀ (n rn : Nat),
    lastAt r c (rowsW top r0 r1 c0 c1 n rn) =
      if rn ≤ r ∧ r < rn + n ∧ c0 ≤ c ∧ c ≤ c1 then
        (regionVal top r0 r1 c0 c1 r c).map (fun v => .value (.str v) 0) else none := by
  intro n
  induction n with
  | zero => intro rn; rw [if_neg (by omega)]; rfl
  | succ n ih =>
    intro rn
    rw [rowsW, lastAt_append, ih, lastAt_rowW]
    by_cases h1 : rn + 1 ≤ r ∧ r < rn + 1 + n ∧ c0 ≤ c ∧ c ≤ c1
    · rw [if_pos h1, if_neg (by omega), Option.or_none, if_pos (by omega)]
    · rw [if_neg h1, Option.none_or]
      by_cases h2 : r = rn ∧ c0 ≤ c ∧ c < c0 + (c1 + 1 - c0)
      · rw [if_pos h2, if_pos (by omega)]
      · rw [if_neg h2, if_neg (by omega)]

/-- The writes of the code are those of the region. -/
theorem region_same (g : Region) (top : Option Bytes) (ws : List Write) (h : RegionWrites g top ws) (r c : Nat) :
    lastAt r c ws = lastAt r c (rowsW top g.r0 g.r1 g.c0 g.c1 (g.r1 + 1 - g.r0) g.r0) := by
  rw [lastAt_rowsW]
  by_cases hin : g.r0 ≤ r ∧ r ≤ g.r1 ∧ g.c0 ≤ c ∧ c ≤ g.c1
  · rw [if_pos (by omega)]
    unfold regionVal
    by_cases h1 : r = g.r0 ∧ c = g.c0
    · rw [if_pos h1]
      obtain ⟨rfl, rfl⟩ := h1
      exact h.first (by omega) (by omega)
    · rw [if_neg h1]
      by_cases h2 : c = g.c0
      · rw [if_pos h2]
        subst h2
        by_cases h3 : r = g.r1
        · rw [if_pos h3]
          subst h3
          exact h.marked _ _ _ (.endRow (by omega) (by omega))
        · rw [if_neg h3]
          exact h.marked _ _ _ (.contRow r (by omega) (by omega) (by omega))
      · rw [if_neg h2]
        by_cases h3 : c = g.c1
        · rw [if_pos h3]
          subst h3
          exact h.marked _ _ _ (.endCol r (by omega) (by omega) (by omega))
        · rw [if_neg h3]
          exact h.marked _ _ _ (.contCol r c (by omega) (by omega) (by omega) (by omega))
  · rw [if_neg (by omega)]
    exact h.other r c hin

/-- The code's writes are writes of the region, so such writes exist. -/
theorem region_exists (g : Region) (top : Option Bytes) :
    RegionWrites g top (rowsW top g.r0 g.r1 g.c0 g.c1 (g.r1 + 1 - g.r0) g.r0) := by
  constructor
  · intro r c m hm
    rw [lastAt_rowsW]
    cases hm with
    | contRow h1 h2 h3 =>
      rw [if_pos (by omega)]; unfold regionVal
      rw [if_neg (by omega), if_pos rfl, if_neg (by omega)]; rfl
    | endRow h1 h2 =>
      rw [if_pos (by omega)]; unfold regionVal
      rw [if_neg (by omega), if_pos rfl, if_pos rfl]; rfl
    | contCol h1 h2 h3 h4 =>
      rw [if_pos (by omega)]; unfold regionVal
      rw [if_neg (by omega), if_neg (by omega), if_neg (by omega)]; rfl
    | endCol h1 h2 h3 =>
      rw [if_pos (by omega)]; unfold regionVal
      rw [if_neg (by omega), if_neg (by omega), if_pos rfl]; rfl
  · intro h1 h2
    rw [lastAt_rowsW, if_pos (by omega)]
    unfold regionVal
    rw [if_pos ⟨rfl, rfl⟩]
  · intro r c h
    rw [lastAt_rowsW, if_neg (by omega)]

theorem putRegion_spec (ext : Ext) (g : Region) (top : Option Bytes) (ws : List Write) (hw : RegionWrites g top ws)
    {s : Sheet} (h : SheetInv s) :
    ∃ s', putRegion ext top g.r0 g.r1 g.c0 g.c1 s = .ok s' ∧ Upd ext s s' ws := by
  obtain ⟨s', he, hu⟩ := putRegionRows_spec ext top g.r0 g.r1 g.c0 g.c1 (g.r1 + 1 - g.r0) g.r0 s h
  exact ⟨s', he, hu.same (region_same g top ws hw)⟩

theorem clip_eq (maxRow maxCol : Nat) (g : Region) (h : g.Clips maxRow maxCol) :
    lastRowOf maxRow g.r1 = (g.clip maxRow maxCol).r1 ∧ lastColOf maxCol g.c1 = (g.clip maxRow maxCol).c1 := by
  unfold lastRowOf lastColOf Region.clip
  constructor
  · simp only
    split
    · rename_i he; have := h.1 he; omega
    · rfl
  · simp only
    split
    · rename_i he; have := h.2 he; omega
    · rfl

/-- The fields of a region at the start of a slice. -/
theorem region_fields (g : Region) (x rest : Bytes) :
    (∃ y, (⟨g.bytes ++ x, rest⟩ : Slice).sub 0 2 = .ok ⟨leBytes 2 g.r0, y⟩) ∧
    (∃ y, (⟨g.bytes ++ x, rest⟩ : Slice).sub 2 4 = .ok ⟨leBytes 2 g.r1, y⟩) ∧
    (∃ y, (⟨g.bytes ++ x, rest⟩ : Slice).sub 4 6 = .ok ⟨leBytes 2 g.c0, y⟩) ∧
    (∃ y, (⟨g.bytes ++ x, rest⟩ : Slice).dropFrom 6 = .ok ⟨leBytes 2 g.c1 ++ x, y⟩) ∧
    (⟨g.bytes ++ x, rest⟩ : Slice).dropFrom 8 = .ok ⟨x, rest⟩ := by
  have e : g.bytes ++ x = leBytes 2 g.r0 ++ (leBytes 2 g.r1 ++ (leBytes 2 g.c0 ++ (leBytes 2 g.c1 ++ x))) := by
    unfold Region.bytes; simp
  have e2 : g.bytes ++ x = (leBytes 2 g.r0 ++ leBytes 2 g.r1) ++ (leBytes 2 g.c0 ++ (leBytes 2 g.c1 ++ x)) := by
    unfold Region.bytes; simp
  refine ⟨?_, ?_, ?_, ?_, ?_⟩
  · rw [e]; exact ⟨_, sub_here _ _ _ _ (leBytes_length 2 _).symm⟩
  · rw [e]; exact ⟨_, sub_second _ _ _ _ _ _ (leBytes_length 2 _).symm (by simp [leBytes_length])⟩
  · rw [e2]; exact ⟨_, sub_second _ _ _ _ _ _ (by simp [leBytes_length]) (by simp [leBytes_length])⟩
  · rw [e2]; exact ⟨_, drop_two _ _ _ _ _ (by simp [leBytes_length])⟩
  · exact drop_here _ _ _ _ (by unfold Region.bytes; simp [leBytes_length])

theorem mergeLoop_spec (ext : Ext) (maxRow maxCol : Nat) {gs : List Region} {vs : List Write}
    (h : AllRegions maxRow maxCol gs vs) : ∀ (tail rest : Bytes) (s : Sheet), SheetInv s →
      ∃ s', mergeLoop ext maxRow maxCol gs.length ⟨gs.flatMap Region.bytes ++ tail, rest⟩ s = .ok s' ∧ Upd ext s s' vs := by
  induction h with
  | nil => intro tail rest s _; exact ⟨s, rfl, Upd.refl ext s⟩
  | cons g gs ws vs hf hc hw hr ih =>
    intro tail rest s hs
    obtain ⟨s1, h1, u1⟩ := putRegion_spec ext (g.clip maxRow maxCol) none ws hw hs
    obtain ⟨s2, h2, u2⟩ := ih tail rest s1 (u1.inv hs)
    refine ⟨s2, ?_, u1.trans u2⟩
    rw [List.flatMap_cons, List.append_assoc, List.length_cons]
    obtain ⟨⟨_, e1⟩, ⟨_, e2⟩, ⟨_, e3⟩, ⟨_, e4⟩, e5⟩ := region_fields g (gs.flatMap Region.bytes ++ tail) rest
    obtain ⟨f1, f2⟩ := clip_eq maxRow maxCol g hc
    unfold mergeLoop
    simp only [e1, e2, e3, e4, e5, GoRes.ok_bind, u16_exact g.r0 hf.1, u16_exact g.r1 hf.2.1, u16_exact g.c0 hf.2.2.1,
      u16_here g.c1 hf.2.2.2, f1, f2]
    have : putRegion ext none g.r0 (g.clip maxRow maxCol).r1 g.c0 (g.clip maxRow maxCol).c1 s = .ok s1 := h1
    rw [this, GoRes.ok_bind]
    exact h2

theorem mergeRec_spec (ext : Ext) (maxRow maxCol : Nat) {gs : List Region} {vs : List Write}
    (h : AllRegions maxRow maxCol gs vs) (hl : gs.length < 65536) (tail rest : Bytes) {s : Sheet} (hs : SheetInv s) :
    ∃ s', mergeRec ext maxRow maxCol ⟨leBytes 2 gs.length ++ (gs.flatMap Region.bytes ++ tail), rest⟩ s = .ok s' ∧
      Upd ext s s' vs := by
  obtain ⟨s', h1, u1⟩ := mergeLoop_spec ext maxRow maxCol h tail rest s hs
  refine ⟨s', ?_, u1⟩
  unfold mergeRec
  rw [sub_here _ _ _ 2 (leBytes_length 2 _).symm]
  simp only [GoRes.ok_bind, u16_exact gs.length hl]
  rw [drop_here _ _ _ 2 (leBytes_length 2 _).symm, GoRes.ok_bind]
  exact h1

theorem hlinkRec_spec (ext : Ext) (maxRow maxCol : Nat) (g : Region) (h : Hyper) (cls tail rest d l : Bytes)
    (vs : List Write) (hf : g.Fits) (hc : g.Clips maxRow maxCol) (hr : g.r0 ≤ maxRow) (hco : g.c0 ≤ maxCol) (ok : h.Ok)
    (hcl : cls.length = 16) (hd : Trims (utf8 (h.display.getD [])) d)
    (hl : Trims (utf8 (h.location.getD h.target.show)) l)
    (hw : RegionWrites (g.clip maxRow maxCol) (some (d ++ lit " <" ++ l ++ lit ">")) vs) {s : Sheet} (hs : SheetInv s) :
    ∃ s', hlinkRec ext maxRow maxCol ⟨g.bytes ++ (h.bytes cls ++ tail), rest⟩ s = .ok s' ∧ Upd ext s s' vs := by
  obtain ⟨s1, h1, u1⟩ := putRegion_spec ext (g.clip maxRow maxCol) _ vs hw hs
  refine ⟨s1, ?_, u1⟩
  obtain ⟨⟨_, e1⟩, ⟨_, e2⟩, ⟨_, e3⟩, ⟨_, e4⟩, e5⟩ := region_fields g (h.bytes cls ++ tail) rest
  obtain ⟨f1, f2⟩ := clip_eq maxRow maxCol g hc
  obtain ⟨d', l', hdec, hd', hl'⟩ := Props.C52_decode_partial h ok cls tail rest hcl
  have : d' = d := by rw [← trims_eq hd', trims_eq hd]
  subst this
  have : l' = l := by rw [← trims_eq hl', ← trims_eq hl]; rfl
  subst this
  unfold hlinkRec
  simp only [e1, e2, e3, e4, e5, GoRes.ok_bind, u16_exact g.r0 hf.1, u16_exact g.r1 hf.2.1, u16_exact g.c0 hf.2.2.1,
    u16_here g.c1 hf.2.2.2, f1, f2, hdec]
  rw [if_neg (by omega), if_neg (by omega)]
  exact h1

end Grate.Xls
