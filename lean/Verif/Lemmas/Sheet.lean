import Verif.Spec.Sheet

/-! # Helper lemmas about sheets -/

namespace Grate

open Spec

/-- Cell at natural coordinates. -/
def Sheet.at? (s : Sheet) (r c : Nat) : Option Cell :=
  match s.rows[r]? with
  | some row => row[c]?
  | none => none

theorem cell?_of_nonneg (s : Sheet) {r c : Int} (hr : 0 ≤ r) (hc : 0 ≤ c) :
    s.cell? r c = s.at? r.toNat c.toNat := by
  unfold Sheet.cell? Sheet.at?
  rw [if_pos ⟨hr, hc⟩]
  cases s.rows[r.toNat]? <;> rfl

theorem cell?_nat (s : Sheet) (r c : Nat) : s.cell? r c = s.at? r c := by
  rw [cell?_of_nonneg s (by omega) (by omega)]; simp

theorem extendRow_length (cols : Int) (row : List Cell) :
    (extendRow cols row).length = if cols ≤ row.length then row.length else cols.toNat := by
  unfold extendRow
  by_cases h : cols - row.length ≤ 0
  · rw [if_pos h, if_pos (by omega)]
  · rw [if_neg h, if_neg (by omega)]
    simp; omega

theorem extendRow_getElem? (cols : Int) (row : List Cell) (c : Nat) :
    (∃ x, row[c]? = some x ∧ (extendRow cols row)[c]? = some x) ∨
    (row[c]? = none ∧ ((extendRow cols row)[c]? = none ∨ (extendRow cols row)[c]? = some .empty)) := by
  unfold extendRow
  by_cases hc : c < row.length
  · left
    refine ⟨row[c], by simp [hc], ?_⟩
    by_cases h : cols - row.length ≤ 0
    · rw [if_pos h]; simp [hc]
    · rw [if_neg h, List.getElem?_append_left hc]; simp [hc]
  · right
    refine ⟨by simp; omega, ?_⟩
    by_cases h : cols - row.length ≤ 0
    · rw [if_pos h]; left; simp; omega
    · rw [if_neg h, List.getElem?_append_right (by omega), List.getElem?_replicate]
      split
      · exact .inr rfl
      · exact .inl rfl

theorem extendRows_length (R C : Int) : ∀ (k : Nat) (rs : List (List Cell)),
    (extendRows R C k rs).length = rs.length
  | _, [] => rfl
  | k, r :: rs => by
    unfold extendRows
    by_cases h : (k : Int) > R
    · rw [if_pos h]
    · rw [if_neg h]; simp [extendRows_length R C (k + 1) rs]

theorem extendRows_getElem? (R C : Int) : ∀ (rs : List (List Cell)) (k i : Nat),
    (extendRows R C k rs)[i]? =
      (rs[i]?).map (fun r => bif decide (((k + i : Nat) : Int) > R) then r else extendRow C r)
  | [], k, i => by simp [extendRows]
  | r :: rs, k, i => by
    unfold extendRows
    by_cases h : (k : Int) > R
    · rw [if_pos h]
      have : decide (((k + i : Nat) : Int) > R) = true := by simp; omega
      rw [this]; simp
    · rw [if_neg h]
      cases i with
      | zero =>
        have : decide (((k + 0 : Nat) : Int) > R) = false := by simp; omega
        rw [this]; simp
      | succ i =>
        rw [List.getElem?_cons_succ, List.getElem?_cons_succ, extendRows_getElem? R C rs (k + 1) i]
        have : k + 1 + i = k + (i + 1) := by omega
        rw [this]

/-- Size after `Resize`. -/
theorem resize_rows_length (s : Sheet) (R C : Int) :
    (s.resize R C).rows.length = max s.rows.length ((if R ≤ 0 then 1 else R) + 1).toNat := by
  simp only [Sheet.resize, List.length_append, extendRows_length, List.length_replicate]
  omega

theorem resize_row (s : Sheet) (R C : Int) (i : Nat) :
    (s.resize R C).rows[i]? =
      match s.rows[i]? with
      | some r => some (bif decide ((i : Int) > R) then r else extendRow C r)
      | none => if i < ((if R ≤ 0 then 1 else R) + 1).toNat then
          some (List.replicate (if C ≤ 0 then 1 else C).toNat .empty) else none := by
  simp only [Sheet.resize]
  by_cases h : i < s.rows.length
  · rw [List.getElem?_append_left (by rw [extendRows_length]; exact h), extendRows_getElem?]
    simp [h]
  · rw [List.getElem?_append_right (by rw [extendRows_length]; omega), extendRows_length,
      List.getElem?_replicate]
    have : s.rows[i]? = none := by simp; omega
    rw [this]
    simp only []
    by_cases h2 : i < ((if R ≤ 0 then 1 else R) + 1).toNat
    · rw [if_pos h2, if_pos (by omega)]
    · rw [if_neg h2, if_neg (by omega)]

/-- `Resize` keeps every cell and only adds blank ones. -/
theorem resize_at (s : Sheet) (R C : Int) (r c : Nat) :
    (∃ x, s.at? r c = some x ∧ (s.resize R C).at? r c = some x) ∨
    (s.at? r c = none ∧ ((s.resize R C).at? r c = none ∨ (s.resize R C).at? r c = some .empty)) := by
  unfold Sheet.at?
  rw [resize_row]
  cases hr : s.rows[r]? with
  | some row =>
    simp only []
    cases hd : decide ((r : Int) > R) with
    | true =>
      simp only [cond_true]
      cases row[c]? with
      | none => exact .inr ⟨rfl, .inl rfl⟩
      | some x => exact .inl ⟨x, rfl, rfl⟩
    | false => simpa using extendRow_getElem? C row c
  | none =>
    right
    refine ⟨rfl, ?_⟩
    simp only []
    by_cases h2 : r < ((if R ≤ 0 then 1 else R) + 1).toNat
    · rw [if_pos h2]
      simp only [List.getElem?_replicate]
      generalize (if C ≤ 0 then (1 : Int) else C).toNat = n
      by_cases hc : c < n
      · rw [if_pos hc]; exact .inr rfl
      · rw [if_neg hc]; exact .inl rfl
    · rw [if_neg h2]; exact .inl rfl

theorem resize_fmtr (s : Sheet) (R C : Int) : (s.resize R C).fmtr = s.fmtr := rfl

theorem grow_fmtr (s : Sheet) (r c : Int) : (s.grow r c).fmtr = s.fmtr := by
  unfold Sheet.grow; split <;> rfl

theorem grow_at (s : Sheet) (R C : Int) (r c : Nat) :
    (∃ x, s.at? r c = some x ∧ (s.grow R C).at? r c = some x) ∨
    (s.at? r c = none ∧ ((s.grow R C).at? r c = none ∨ (s.grow R C).at? r c = some .empty)) := by
  unfold Sheet.grow
  split
  · exact resize_at ..
  · cases h : s.at? r c with
    | none => exact .inr ⟨rfl, .inl rfl⟩
    | some x => exact .inl ⟨x, rfl, rfl⟩

/-- What a store does, cell by cell. -/
theorem store_at {s s' : Sheet} {row col : Int} {x : Cell} (h : s.store row col x = .ok s') :
    0 ≤ row ∧ 0 ≤ col ∧ s'.at? row.toNat col.toNat = some x ∧
    (∀ r c : Nat, ¬ ((r : Int) = row ∧ (c : Int) = col) → s'.at? r c = s.at? r c) := by
  unfold Sheet.store at h
  split at h
  · cases h
  · rename_i old hold
    cases h
    have hn : 0 ≤ row ∧ 0 ≤ col := by
      unfold Sheet.cell? at hold
      split at hold
      · assumption
      · cases hold
    rw [cell?_of_nonneg s hn.1 hn.2] at hold
    refine ⟨hn.1, hn.2, ?_, ?_⟩
    · unfold Sheet.at? at hold ⊢
      simp only [List.getElem?_modify, if_true]
      cases hr : s.rows[row.toNat]? with
      | none => rw [hr] at hold; cases hold
      | some rw' =>
        rw [hr] at hold
        simp only [] at hold ⊢
        have hlt : col.toNat < rw'.length := by
          rcases Nat.lt_or_ge col.toNat rw'.length with h | h
          · exact h
          · simp [h] at hold
        simp [hlt]
    · intro r c hne
      unfold Sheet.at?
      simp only [List.getElem?_modify]
      by_cases hr : row.toNat = r
      · have hc : col.toNat ≠ c := by intro hc; exact hne ⟨by omega, by omega⟩
        cases s.rows[r]? with
        | none => rfl
        | some rw' => simp [hr, List.getElem?_set_ne hc]
      · cases s.rows[r]? with
        | none => rfl
        | some rw' => simp [hr]

theorem store_fields {s s' : Sheet} {row col : Int} {x : Cell} (h : s.store row col x = .ok s') :
    s'.fmtr = s.fmtr ∧ s'.numRows = s.numRows ∧ s'.numCols = s.numCols ∧ s'.curRow = s.curRow ∧
    s'.rows.length = s.rows.length ∧
    ∀ i : Nat, (s'.rows[i]?).map List.length = (s.rows[i]?).map List.length := by
  unfold Sheet.store at h
  split at h
  · cases h
  · cases h
    refine ⟨rfl, rfl, rfl, rfl, by simp, ?_⟩
    intro i
    simp only [List.getElem?_modify]
    cases s.rows[i]? with
    | none => rfl
    | some r => simp only [Option.map_some]; split <;> simp

/-- Anatomy of a successful `Put`. -/
theorem put_ok {ext : Ext} {s s' : Sheet} {row col : Int} {v : GoVal} {f : Nat}
    (h : s.put ext row col v f = .ok s') :
    ∃ x, putCell ext s.fmtr v f = .ok x ∧ (s.grow row col).store row col x = .ok s' := by
  unfold Sheet.put at h
  simp only [grow_fmtr] at h
  rw [GoRes.bind_eq_ok] at h
  exact h

theorem put_at {ext : Ext} {s s' : Sheet} {row col : Int} {v : GoVal} {f : Nat}
    (h : s.put ext row col v f = .ok s') :
    ∃ x, putCell ext s.fmtr v f = .ok x ∧ 0 ≤ row ∧ 0 ≤ col ∧
      s'.at? row.toNat col.toNat = some x ∧
      ∀ r c : Nat, ¬ ((r : Int) = row ∧ (c : Int) = col) →
        (∃ y, s.at? r c = some y ∧ s'.at? r c = some y) ∨
        (s.at? r c = none ∧ (s'.at? r c = none ∨ s'.at? r c = some .empty)) := by
  obtain ⟨x, hx, hs⟩ := put_ok h
  obtain ⟨h1, h2, h3, h4⟩ := store_at hs
  refine ⟨x, hx, h1, h2, h3, ?_⟩
  intro r c hne
  rw [h4 r c hne]
  exact grow_at s row col r c

theorem next_rows (s : Sheet) : s.next.1.rows = s.rows := by
  unfold Sheet.next; split <;> rfl
theorem next_fmtr (s : Sheet) : s.next.1.fmtr = s.fmtr := by
  unfold Sheet.next; split <;> rfl
theorem next_at (s : Sheet) (r c : Nat) : s.next.1.at? r c = s.at? r c := by
  unfold Sheet.at?; rw [next_rows]

theorem op_fmtr {ext : Ext} {s s' : Sheet} {op : Op} (h : op.apply ext s = .ok s') :
    s'.fmtr = s.fmtr := by
  cases op with
  | put r c v f =>
    obtain ⟨x, _, hs⟩ := put_ok h
    rw [(store_fields hs).1, grow_fmtr]
  | resize r c => cases h; rfl
  | next => cases h; exact next_fmtr s

/-! ### the invariant that keeps `Put` from crashing -/

/-- All rows inside the declared size exist and are wide enough. -/
structure SheetInv (s : Sheet) : Prop where
  nr : 0 ≤ s.numRows
  nc : 0 ≤ s.numCols
  wide : ∀ i : Nat, (i : Int) < s.numRows →
    ∃ row, s.rows[i]? = some row ∧ s.numCols ≤ (row.length : Int)
  pos : ∀ (i : Nat) (row : List Cell), s.rows[i]? = some row → 1 ≤ row.length

theorem inv_new (f : Formatter) : SheetInv (Sheet.new f) where
  nr := by simp [Sheet.new]
  nc := by simp [Sheet.new]
  wide := by intro i h; simp [Sheet.new] at h; omega
  pos := by intro i row h; simp [Sheet.new] at h

theorem inv_resize {s : Sheet} (h : SheetInv s) {R C : Int} (hR : 0 ≤ R) (hC : 0 ≤ C) :
    SheetInv (s.resize R C) where
  nr := by simp only [Sheet.resize]; split <;> omega
  nc := by simp only [Sheet.resize]; split <;> omega
  wide := by
    intro i hi
    have hi' : (i : Int) < (if R ≤ 0 then 1 else R) := hi
    rw [resize_row]
    have hcols : (s.resize R C).numCols = (if C ≤ 0 then 1 else C) := rfl
    rw [hcols]
    cases hr : s.rows[i]? with
    | some row =>
      have hpos := h.pos i row hr
      have : decide ((i : Int) > R) = false := by
        simp; split at hi' <;> omega
      simp only [this, cond_false]
      refine ⟨_, rfl, ?_⟩
      rw [extendRow_length]
      split <;> split <;> omega
    | none =>
      simp only []
      rw [if_pos (by omega)]
      refine ⟨_, rfl, ?_⟩
      simp; omega
  pos := by
    intro i row hrow
    rw [resize_row] at hrow
    cases hr : s.rows[i]? with
    | some row0 =>
      have hpos := h.pos i row0 hr
      rw [hr] at hrow
      simp only [Option.some.injEq] at hrow
      subst hrow
      cases decide ((i : Int) > R) with
      | true => exact hpos
      | false => simp only [cond_false, extendRow_length]; split <;> omega
    | none =>
      rw [hr] at hrow
      simp only [] at hrow
      by_cases hb : i < ((if R ≤ 0 then 1 else R) + 1).toNat
      · rw [if_pos hb] at hrow; cases hrow
        rw [List.length_replicate]; split <;> omega
      · rw [if_neg hb] at hrow; cases hrow

theorem inv_grow {s : Sheet} (h : SheetInv s) {r c : Int} (hr : 0 ≤ r) (hc : 0 ≤ c) :
    SheetInv (s.grow r c) ∧ r < (s.grow r c).numRows ∧ c < (s.grow r c).numCols := by
  have h1 := h.nr
  have h2 := h.nc
  unfold Sheet.grow
  split
  · refine ⟨inv_resize h (by split <;> omega) (by split <;> omega), ?_, ?_⟩
    · simp only [Sheet.resize]; split <;> split <;> omega
    · simp only [Sheet.resize]; split <;> split <;> omega
  · refine ⟨h, by omega, by omega⟩

theorem inv_cell {s : Sheet} (h : SheetInv s) {r c : Int} (hr : 0 ≤ r) (hc : 0 ≤ c)
    (h1 : r < s.numRows) (h2 : c < s.numCols) : ∃ x, s.cell? r c = some x := by
  rw [cell?_of_nonneg s hr hc]
  obtain ⟨row, hrow, hlen⟩ := h.wide r.toNat (by omega)
  unfold Sheet.at?
  rw [hrow]
  have : c.toNat < row.length := by omega
  exact ⟨row[c.toNat], by simp [this]⟩

theorem inv_store {s s' : Sheet} (h : SheetInv s) {row col : Int} {x : Cell}
    (hs : s.store row col x = .ok s') : SheetInv s' := by
  obtain ⟨_, hnr, hnc, _, _, hl⟩ := store_fields hs
  constructor
  · rw [hnr]; exact h.nr
  · rw [hnc]; exact h.nc
  · intro i hi
    rw [hnr] at hi
    obtain ⟨r, hr, hlen⟩ := h.wide i hi
    have := hl i
    rw [hr] at this
    cases h' : s'.rows[i]? with
    | none => rw [h'] at this; cases this
    | some r' =>
      rw [h'] at this
      simp at this
      exact ⟨r', rfl, by rw [hnc]; omega⟩
  · intro i r' h'
    have := hl i
    rw [h'] at this
    cases hr : s.rows[i]? with
    | none => rw [hr] at this; cases this
    | some r =>
      rw [hr] at this
      simp at this
      have := h.pos i r hr
      omega

theorem newCell_ok {v : GoVal} (h : Supported v) :
    ∃ x t, newCell v = .ok (.full x t none []) := by
  cases v <;> simp only [newCell, textCell] <;> first
    | exact ⟨_, _, rfl⟩
    | (split <;> exact ⟨_, _, rfl⟩)
    | exact absurd h (by simp [Supported])

theorem newCellWithType_ok (ext : Ext) (m : Bool) {v : GoVal} (h : Supported v) (t : CellType) :
    ∃ x t', newCellWithType ext m v t = .ok (.full x t' none []) := by
  obtain ⟨x, t0, hx⟩ := newCell_ok h
  unfold newCellWithType
  rw [hx]
  simp only [GoRes.ok_bind, GoRes.pure_eq]
  split
  · exact ⟨_, _, rfl⟩
  · exact ⟨_, _, rfl⟩

theorem typedCell_ok (ext : Ext) (f : Formatter) {v : GoVal} (h : Supported v) (n : Nat) :
    ∃ x t, typedCell ext f v n = .ok (.full x t none []) := by
  obtain ⟨x, t, hx⟩ := newCell_ok h
  unfold typedCell
  split
  · exact ⟨_, _, hx⟩
  · split
    · exact ⟨_, _, hx⟩
    · exact newCellWithType_ok ext _ h _

theorem putCell_ok (ext : Ext) (f : Formatter) {v : GoVal} (h : Supported v) (n : Nat) :
    ∃ x t o, putCell ext f v n = .ok (.full x t o []) := by
  unfold putCell
  cases v.marker with
  | true =>
    obtain ⟨x, t, hx⟩ := newCell_ok h
    simp only [cond_true, staticCell, hx]
    exact ⟨_, _, _, rfl⟩
  | false =>
    obtain ⟨x, t, hx⟩ := typedCell_ok ext f h n
    simp only [cond_false, hx, GoRes.ok_bind, Cell.setFormatNumber]
    split <;> exact ⟨_, _, _, rfl⟩

theorem inv_put {ext : Ext} {s : Sheet} (h : SheetInv s) {r c : Int} (hr : 0 ≤ r) (hc : 0 ≤ c)
    {v : GoVal} (hv : Supported v) (n : Nat) :
    ∃ s', s.put ext r c v n = .ok s' ∧ SheetInv s' := by
  obtain ⟨hi, h1, h2⟩ := inv_grow h hr hc
  obtain ⟨x, t, o, hp⟩ := putCell_ok ext s.fmtr hv n
  obtain ⟨y, hy⟩ := inv_cell hi hr hc h1 h2
  have hs : ∃ s', (s.grow r c).store r c (.full x t o []) = .ok s' := by
    unfold Sheet.store; rw [hy]; exact ⟨_, rfl⟩
  obtain ⟨s', hs'⟩ := hs
  refine ⟨s', ?_, inv_store hi hs'⟩
  unfold Sheet.put
  simp only [grow_fmtr]
  rw [hp]
  exact hs'

theorem inv_next {s : Sheet} (h : SheetInv s) : SheetInv s.next.1 := by
  have : s.next.1.rows = s.rows ∧ s.next.1.numRows = s.numRows ∧ s.next.1.numCols = s.numCols := by
    unfold Sheet.next; split <;> exact ⟨rfl, rfl, rfl⟩
  obtain ⟨h1, h2, h3⟩ := this
  exact ⟨by rw [h2]; exact h.nr, by rw [h3]; exact h.nc,
    by rw [h1, h2, h3]; exact h.wide, by rw [h1]; exact h.pos⟩

theorem inv_op {ext : Ext} {s : Sheet} (h : SheetInv s) {op : Op} (hn : op.NonNeg)
    (hv : op.Supported) : ∃ s', op.apply ext s = .ok s' ∧ SheetInv s' := by
  cases op with
  | put r c v f => exact inv_put h hn.1 hn.2 hv f
  | resize r c => exact ⟨_, rfl, inv_resize h hn.1 hn.2⟩
  | next => exact ⟨_, rfl, inv_next h⟩

theorem inv_run {ext : Ext} : ∀ (ops : List Op) {s : Sheet}, SheetInv s →
    (∀ op ∈ ops, op.NonNeg) → (∀ op ∈ ops, op.Supported) →
    ∃ s', run ext s ops = .ok s' ∧ SheetInv s'
  | [], s, h, _, _ => ⟨s, rfl, h⟩
  | op :: ops, s, h, hn, hv => by
    obtain ⟨s1, h1, hi1⟩ := inv_op (ext := ext) h (hn op (by simp)) (hv op (by simp))
    obtain ⟨s2, h2, hi2⟩ := inv_run (ext := ext) ops hi1 (fun o ho => hn o (by simp [ho]))
      (fun o ho => hv o (by simp [ho]))
    exact ⟨s2, by simp [run, h1, h2], hi2⟩

/-! ### exact width under growth -/

/-- Every stored row is exactly as wide as declared, and (once there is any row) there is exactly
one row more than declared. -/
structure RectInv (s : Sheet) : Prop where
  nr : 0 ≤ s.numRows
  nc : 0 ≤ s.numCols
  exact' : ∀ (i : Nat) (row : List Cell), s.rows[i]? = some row → (row.length : Int) = s.numCols
  count : (s.rows = [] ∧ s.numRows = 0 ∧ s.numCols = 0) ∨
    ((s.rows.length : Int) = s.numRows + 1 ∧ 1 ≤ s.numRows ∧ 1 ≤ s.numCols)

theorem rect_new (f : Formatter) : RectInv (Sheet.new f) where
  nr := by simp [Sheet.new]
  nc := by simp [Sheet.new]
  exact' := by intro i row h; simp [Sheet.new] at h
  count := .inl ⟨rfl, rfl, rfl⟩

theorem rect_resize {s : Sheet} (h : RectInv s) {R C : Int} (hR : s.numRows ≤ R)
    (hC : s.numCols ≤ C) : RectInv (s.resize R C) := by
  have hnr := h.nr
  have hnc := h.nc
  have hcols : (s.resize R C).numCols = (if C ≤ 0 then 1 else C) := rfl
  have hrows : (s.resize R C).numRows = (if R ≤ 0 then 1 else R) := rfl
  constructor
  · rw [hrows]; split <;> omega
  · rw [hcols]; split <;> omega
  · intro i row hrow
    rw [hcols]
    rw [resize_row] at hrow
    cases hr : s.rows[i]? with
    | some row0 =>
      have he := h.exact' i row0 hr
      have hlt : i < s.rows.length := by
        rcases Nat.lt_or_ge i s.rows.length with h | h
        · exact h
        · simp [h] at hr
      rw [hr] at hrow
      simp only [Option.some.injEq] at hrow
      rcases h.count with ⟨h0, _, _⟩ | hcnt
      · simp [h0] at hlt
      · obtain ⟨hcnt, hr1, hc1⟩ := hcnt
        have hd : decide ((i : Int) > R) = false := by simp; omega
        rw [hd] at hrow
        simp only [cond_false] at hrow
        subst hrow
        rw [extendRow_length]
        rw [if_neg (by omega : ¬ C ≤ 0)]; split <;> omega
    | none =>
      rw [hr] at hrow
      simp only [] at hrow
      by_cases hb : i < ((if R ≤ 0 then 1 else R) + 1).toNat
      · rw [if_pos hb] at hrow; cases hrow
        rw [List.length_replicate]; split <;> omega
      · rw [if_neg hb] at hrow; cases hrow
  · right
    rw [resize_rows_length, hrows, hcols]
    rcases h.count with ⟨h0, _, _⟩ | ⟨hcnt, _, _⟩
    · simp only [h0, List.length_nil]
      refine ⟨?_, ?_, ?_⟩ <;> (repeat' split) <;> omega
    · refine ⟨?_, ?_, ?_⟩ <;> (repeat' split) <;> omega

theorem rect_grow {s : Sheet} (h : RectInv s) (r c : Int) : RectInv (s.grow r c) := by
  unfold Sheet.grow
  split
  · exact rect_resize h (by split <;> omega) (by split <;> omega)
  · exact h

theorem rect_store {s s' : Sheet} (h : RectInv s) {row col : Int} {x : Cell}
    (hs : s.store row col x = .ok s') : RectInv s' := by
  obtain ⟨_, hnr, hnc, _, hlen, hl⟩ := store_fields hs
  constructor
  · rw [hnr]; exact h.nr
  · rw [hnc]; exact h.nc
  · intro i r' h'
    have := hl i
    rw [h'] at this
    cases hr : s.rows[i]? with
    | none => rw [hr] at this; cases this
    | some r =>
      rw [hr] at this
      simp at this
      have := h.exact' i r hr
      omega
  · rw [hnr, hnc, hlen]
    rcases h.count with ⟨h0, h1, h2⟩ | h1
    · refine .inl ⟨?_, h1, h2⟩
      rw [h0] at hlen
      exact List.eq_nil_of_length_eq_zero (by simpa using hlen)
    · exact .inr h1

theorem rect_next {s : Sheet} (h : RectInv s) : RectInv s.next.1 := by
  have : s.next.1.rows = s.rows ∧ s.next.1.numRows = s.numRows ∧ s.next.1.numCols = s.numCols := by
    unfold Sheet.next; split <;> exact ⟨rfl, rfl, rfl⟩
  obtain ⟨h1, h2, h3⟩ := this
  exact ⟨by rw [h2]; exact h.nr, by rw [h3]; exact h.nc,
    by rw [h1, h3]; exact h.exact', by rw [h1, h2, h3]; exact h.count⟩

theorem rect_run {ext : Ext} : ∀ (ops : List Op) {s s' : Sheet}, RectInv s → Growing ext s ops →
    run ext s ops = .ok s' → RectInv s'
  | [], s, s', h, _, hr => by cases hr; exact h
  | op :: ops, s, s', h, hg, hr => by
    simp only [run] at hr
    rw [GoRes.bind_eq_ok] at hr
    obtain ⟨s1, h1, h2⟩ := hr
    refine rect_run ops ?_ (hg.2 s1 h1) h2
    cases op with
    | put r c v f =>
      obtain ⟨x, _, hs⟩ := put_ok h1
      exact rect_store (rect_grow h r c) hs
    | resize r c => cases h1; exact rect_resize h hg.1.1 hg.1.2
    | next => cases h1; exact rect_next h

/-- One call of a growing history never reduces the declared size, and a write ends up inside it. -/
theorem op_size {ext : Ext} {s s' : Sheet} {op : Op} (h0 : 0 ≤ s.numRows ∧ 0 ≤ s.numCols)
    (hg : match op with | .resize r c => s.numRows ≤ r ∧ s.numCols ≤ c | _ => True)
    (h : op.apply ext s = .ok s') :
    s.numRows ≤ s'.numRows ∧ s.numCols ≤ s'.numCols ∧
    ∀ r c v n, op = .put r c v n → r < s'.numRows ∧ c < s'.numCols := by
  cases op with
  | put r c v n =>
    obtain ⟨x, _, hs⟩ := put_ok h
    obtain ⟨h1, h2, _, _⟩ := store_at hs
    obtain ⟨_, hnr, hnc, _⟩ := store_fields hs
    have : s.numRows ≤ (s.grow r c).numRows ∧ s.numCols ≤ (s.grow r c).numCols ∧
        r < (s.grow r c).numRows ∧ c < (s.grow r c).numCols := by
      unfold Sheet.grow
      split
      · simp only [Sheet.resize]
        refine ⟨?_, ?_, ?_, ?_⟩ <;> (repeat' split) <;> omega
      · omega
    rw [hnr, hnc]
    refine ⟨this.1, this.2.1, ?_⟩
    intro r' c' v' n' he
    cases he
    exact this.2.2
  | resize r c =>
    cases h
    simp only [] at hg
    refine ⟨?_, ?_, ?_⟩
    · simp only [Sheet.resize]; split <;> omega
    · simp only [Sheet.resize]; split <;> omega
    · intro _ _ _ _ he; cases he
  | next =>
    cases h
    have : s.next.1.numRows = s.numRows ∧ s.next.1.numCols = s.numCols := by
      unfold Sheet.next; split <;> exact ⟨rfl, rfl⟩
    refine ⟨by omega, by omega, ?_⟩
    intro _ _ _ _ he; cases he

/-- Written coordinates lie inside the declared size at the end of a growing history. -/
theorem run_size {ext : Ext} : ∀ (ops : List Op) {s s' : Sheet}, 0 ≤ s.numRows ∧ 0 ≤ s.numCols →
    Growing ext s ops → run ext s ops = .ok s' →
    s.numRows ≤ s'.numRows ∧ s.numCols ≤ s'.numCols ∧
    ∀ r c w, lastWrite r c ops = some w → r < s'.numRows ∧ c < s'.numCols
  | [], s, s', _, _, h => by
    cases h
    exact ⟨by omega, by omega, fun _ _ _ h => by cases h⟩
  | op :: ops, s, s', h0, hg, h => by
    simp only [run] at h
    rw [GoRes.bind_eq_ok] at h
    obtain ⟨s1, h1, h2⟩ := h
    obtain ⟨ha, hb, hc⟩ := op_size h0 hg.1 h1
    obtain ⟨ha', hb', hc'⟩ := run_size ops (by omega) (hg.2 s1 h1) h2
    refine ⟨by omega, by omega, ?_⟩
    intro r c w hw
    simp only [lastWrite] at hw
    cases hl : lastWrite r c ops with
    | some w' => exact hc' r c w' hl
    | none =>
      rw [hl] at hw
      simp only [] at hw
      cases op with
      | put r' c' v n =>
        simp only [] at hw
        split at hw
        · rename_i he
          obtain ⟨h3, h4⟩ := hc r' c' v n rfl
          omega
        · cases hw
      | resize _ _ => cases hw
      | next => cases hw

end Grate
