import Verif.Lemmas.Sheet
import Verif.Spec.Cursor
import Verif.Spec.Text

/-! # Properties C10–C18: the shared sheet type -/

namespace Grate.Props

open Grate Grate.Spec

theorem builds_iff (ext : Ext) (f : Formatter) (v : GoVal) (n : Nat) (c : Cell) :
    Builds ext f v n c ↔ putCell ext f v n = .ok c := by
  constructor
  · rintro ⟨s, h, hc⟩
    obtain ⟨x, hx, _, _, hat, _⟩ := put_at h
    rw [cell?_of_nonneg s (by omega) (by omega), hat] at hc
    cases hc
    exact hx
  · intro h
    have hg : (Sheet.new f).grow 0 0 = ⟨f, 1, 1, [[.empty], [.empty]], 0⟩ := rfl
    refine ⟨⟨f, 1, 1, [[c], [.empty]], 0⟩, ?_, rfl⟩
    unfold Sheet.put
    rw [hg]
    simp only [h, GoRes.ok_bind]
    rfl

/-! ## C10 -/

theorem run_cells (ext : Ext) (r c : Nat) : ∀ (ops : List Op) (s s' : Sheet),
    run ext s ops = .ok s' →
    match lastWrite r c ops with
    | some (v, n) => ∃ x, Builds ext s.fmtr v n x ∧ s'.at? r c = some x
    | none => (∃ y, s.at? r c = some y ∧ s'.at? r c = some y) ∨
        (s.at? r c = none ∧ (s'.at? r c = none ∨ s'.at? r c = some .empty))
  | [], s, s', h => by
    cases h
    simp only [lastWrite]
    cases hs : s.at? r c with
    | none => exact .inr ⟨rfl, .inl rfl⟩
    | some y => exact .inl ⟨y, rfl, rfl⟩
  | op :: ops, s, s', h => by
    simp only [run] at h
    rw [GoRes.bind_eq_ok] at h
    obtain ⟨s1, h1, h2⟩ := h
    have ih := run_cells ext r c ops s1 s' h2
    have hf := op_fmtr h1
    simp only [lastWrite]
    cases hl : lastWrite r c ops with
    | some w =>
      rw [hl] at ih
      rw [hf] at ih
      exact ih
    | none =>
      rw [hl] at ih
      simp only [] at ih ⊢
      -- combining a step that keeps the cell with the rest of the run
      have keep : ((∃ y, s.at? r c = some y ∧ s1.at? r c = some y) ∨
          (s.at? r c = none ∧ (s1.at? r c = none ∨ s1.at? r c = some .empty))) →
          ((∃ y, s.at? r c = some y ∧ s'.at? r c = some y) ∨
          (s.at? r c = none ∧ (s'.at? r c = none ∨ s'.at? r c = some .empty))) := by
        rintro (⟨y, hy, hy1⟩ | ⟨hn, hn1⟩)
        · rcases ih with ⟨z, hz, hz'⟩ | ⟨hz, _⟩
          · rw [hy1] at hz; cases hz; exact .inl ⟨y, hy, hz'⟩
          · rw [hy1] at hz; cases hz
        · refine .inr ⟨hn, ?_⟩
          rcases ih with ⟨z, hz, hz'⟩ | ⟨hz, hz'⟩
          · rcases hn1 with h | h
            · rw [h] at hz; cases hz
            · rw [h] at hz; cases hz; exact .inr hz'
          · exact hz'
      cases op with
      | put r' c' v f =>
        obtain ⟨x, hx, hr0, hc0, hat, hoth⟩ := put_at h1
        by_cases he : r' = (r : Int) ∧ c' = (c : Int)
        · simp only [he.1, he.2, and_self, if_true]
          refine ⟨x, (builds_iff ..).mpr hx, ?_⟩
          rw [he.1, he.2] at hat
          simp only [Int.toNat_natCast] at hat
          rcases ih with ⟨z, hz, hz'⟩ | ⟨hz, _⟩
          · rw [hat] at hz; cases hz; exact hz'
          · rw [hat] at hz; cases hz
        · simp only [if_neg he]
          exact keep (hoth r c (fun h => he ⟨h.1.symm, h.2.symm⟩))
      | resize R C =>
        cases h1
        exact keep (resize_at s R C r c)
      | next =>
        cases h1
        refine keep ?_
        rw [next_at]
        cases hs : s.at? r c with
        | none => exact .inr ⟨rfl, .inl rfl⟩
        | some y => exact .inl ⟨y, rfl, rfl⟩

/-- C10. After any completed history of writes, resizes and cursor moves, the cell at (r,c) is the
one its last write builds (on a fresh sheet at (0,0)), and blank or absent if it was never written. -/
theorem C10_last_write_wins (ext : Ext) (f : Formatter) (ops : List Op) (s : Sheet)
    (h : run ext (Sheet.new f) ops = .ok s) (r c : Nat) :
    match lastWrite r c ops with
    | some (v, n) => ∃ x, Builds ext f v n x ∧ s.cell? r c = some x
    | none => s.cell? r c = none ∨ s.cell? r c = some .empty := by
  have := run_cells ext r c ops _ _ h
  rw [cell?_nat]
  cases hl : lastWrite r c ops with
  | some w => rw [hl] at this; exact this
  | none =>
    rw [hl] at this
    rcases this with ⟨y, hy, _⟩ | ⟨_, h⟩
    · simp [Sheet.at?, Sheet.new] at hy
    · exact h

/-! ## C11 -/

/-- C11. Every history of writes of supported values at non-negative coordinates, resizes to
non-negative sizes and cursor moves completes without a panic. -/
theorem C11_put_no_panic (ext : Ext) (f : Formatter) (ops : List Op)
    (hn : ∀ op ∈ ops, op.NonNeg) (hv : ∀ op ∈ ops, op.Supported) :
    ∃ s, run ext (Sheet.new f) ops = .ok s := by
  obtain ⟨s, h, _⟩ := inv_run (ext := ext) ops (inv_new f) hn hv
  exact ⟨s, h⟩

/-- A history that shrinks the sheet below a written cell, widens it, and writes beyond the declared
size: the hypotheses of C10 and C11 hold and the first cell is still there. -/
theorem C11_witness (ext : Ext) (f : Formatter) :
    let ops : List Op := [.put 4 1 (.sint 7) 0, .resize 2 3, .put 6 9 (.bool true) 0, .resize 0 0]
    (∃ s, run ext (Sheet.new f) ops = .ok s ∧ s.cell? 4 1 = some (.full (.int 7) .integer none [])) := by
  intro ops
  obtain ⟨s, hs⟩ := C11_put_no_panic ext f ops (by simp [ops, Op.NonNeg])
    (by simp [ops, Op.Supported, Supported])
  have h := C10_last_write_wins ext f ops s hs 4 1
  have hl : lastWrite (4 : Nat) (1 : Nat) ops = some (.sint 7, 0) := rfl
  rw [hl] at h
  obtain ⟨x, hx, hc⟩ := h
  refine ⟨s, hs, ?_⟩
  rw [builds_iff] at hx
  have : putCell ext f (.sint 7) 0 = .ok (.full (.int 7) .integer none []) := by
    simp only [putCell, GoVal.marker, cond_false, typedCell]
    cases f.getCellType 0 <;> rfl
  rw [this] at hx
  cases hx
  exact hc

/-- The non-negativity of sizes is needed: after `Resize(-1, 5)` a write inside the declared size
panics. -/
theorem C11_negative_resize_counterexample (ext : Ext) (f : Formatter) :
    run ext (Sheet.new f) [.put 0 0 (.sint 1) 0, .resize (-1) 5, .put 0 4 (.sint 2) 0] = .panic := by
  have h1 : ∀ n, putCell ext f (.sint n) 0 = .ok (.full (.int n) .integer none []) := by
    intro n
    simp only [putCell, GoVal.marker, cond_false, typedCell]
    cases f.getCellType 0 <;> rfl
  have hp : (Sheet.new f).put ext 0 0 (.sint 1) 0 =
      .ok ⟨f, 1, 1, [[.full (.int 1) .integer none []], [.empty]], 0⟩ := by
    have hg : (Sheet.new f).grow 0 0 = ⟨f, 1, 1, [[.empty], [.empty]], 0⟩ := rfl
    unfold Sheet.put
    rw [hg]
    simp only [h1]
    rfl
  have hg2 : (⟨f, 1, 5, [[.full (.int 1) .integer none []], [.empty]], 0⟩ : Sheet).grow 0 4 =
      ⟨f, 1, 5, [[.full (.int 1) .integer none []], [.empty]], 0⟩ := rfl
  simp only [run, Op.apply, hp, GoRes.ok_bind]
  have hr : (⟨f, 1, 1, [[.full (.int 1) .integer none []], [.empty]], 0⟩ : Sheet).resize (-1) 5 =
      ⟨f, 1, 5, [[.full (.int 1) .integer none []], [.empty]], 0⟩ := rfl
  rw [hr]
  unfold Sheet.put
  rw [hg2]
  simp only [h1]
  rfl

/-! ## C12 -/

theorem cursor_run {ext : Ext} : ∀ (ops : List Op) {s s' : Sheet},
    0 ≤ s.curRow ∧ s.curRow ≤ s.rows.length → run ext s ops = .ok s' →
    0 ≤ s'.curRow ∧ s'.curRow ≤ s'.rows.length
  | [], s, s', h, hr => by cases hr; exact h
  | op :: ops, s, s', h, hr => by
    simp only [run] at hr
    rw [GoRes.bind_eq_ok] at hr
    obtain ⟨s1, h1, h2⟩ := hr
    refine cursor_run ops ?_ h2
    cases op with
    | put r c v f =>
      obtain ⟨x, _, hs⟩ := put_ok h1
      obtain ⟨_, _, _, hcur, hlen, _⟩ := store_fields hs
      rw [hcur, hlen]
      unfold Sheet.grow
      split
      · simp only [Sheet.resize]; omega
      · exact h
    | resize r c => cases h1; simp only [Sheet.resize]; omega
    | next =>
      cases h1
      unfold Sheet.next
      split
      · exact h
      · simp only []; omega

theorem fillRow_exact {α : Type} {n : Int} (d : α) {l : List α} (h : (l.length : Int) = n) :
    fillRow n d l = .ok l := by
  unfold fillRow
  rw [if_pos (by omega)]
  have : n.toNat - l.length = 0 := by omega
  simp [this]

/-- What a completed sequence of calls returns, entry by entry. -/
theorem seqRes_ok {α : Type} : ∀ (l : List (GoRes α)) (as : List α),
    seqRes l = .ok as ↔ l = as.map .ok
  | [], as => by cases as <;> simp [seqRes]
  | x :: xs, as => by
    simp only [seqRes, GoRes.bind_eq_ok]
    constructor
    · rintro ⟨a, rfl, as', h, h'⟩
      cases h'
      rw [(seqRes_ok xs as').mp h]
      rfl
    · intro h
      cases as with
      | nil => cases h
      | cons a as =>
        simp only [List.map_cons, List.cons.injEq] at h
        exact ⟨a, h.1, as, (seqRes_ok xs as).mpr h.2, rfl⟩

/-- C12. On a sheet built by writes and non-shrinking resizes, with the cursor on any row: Raw,
Types and Formats complete with exactly NumCols entries, entry i describing cell i of the row; and
Strings, whenever it completes, has exactly NumCols entries, entry i being the rendering of cell i.
Strings can only fail because the rendering of one of the cells fails. -/
theorem C12_rectangular (ext : Ext) (f : Formatter) (ops : List Op) (s : Sheet)
    (hg : Growing ext (Sheet.new f) ops) (h : run ext (Sheet.new f) ops = .ok s)
    (hcur : 1 ≤ s.curRow) :
    ∃ row : List Cell, (row.length : Int) = s.numCols ∧
      (∀ i : Nat, s.cell? (s.curRow - 1) i = row[i]?) ∧
      s.raw = .ok row ∧
      s.types = .ok (row.map (fun c => c.type.name)) ∧
      s.formats = .ok (row.map (fun c => (builtInFormats c.formatNo).getD (decNat c.formatNo))) ∧
      (∀ strs, s.strings ext = .ok strs ↔ row.map (cellString ext s.fmtr) = strs.map .ok) := by
  have hrect := rect_run ops (rect_new f) hg h
  have hc := cursor_run ops (s := Sheet.new f) (by simp [Sheet.new]) h
  have hlt : (s.curRow - 1).toNat < s.rows.length := by omega
  have hrow : s.rows[(s.curRow - 1).toNat]? = some s.rows[(s.curRow - 1).toNat] := by simp
  refine ⟨s.rows[(s.curRow - 1).toNat], hrect.exact' _ _ hrow, ?_, ?_, ?_, ?_, ?_⟩
  · intro i
    rw [cell?_of_nonneg s (by omega) (by omega)]
    simp only [Sheet.at?, hrow, Int.toNat_natCast]
  all_goals
    have hr : s.row = .ok s.rows[(s.curRow - 1).toNat] := by
      unfold Sheet.row; rw [if_pos hcur, hrow]
    have hlen := hrect.exact' _ _ hrow
  · simp only [Sheet.raw, hr, GoRes.ok_bind]
    exact fillRow_exact _ hlen
  · simp only [Sheet.types, hr, GoRes.ok_bind]
    exact fillRow_exact _ (by simpa using hlen)
  · simp only [Sheet.formats, hr, GoRes.ok_bind]
    rw [fillRow_exact _ (by simpa using hlen)]
    congr 1
    apply List.map_congr_left
    intro c _
    cases builtInFormats c.formatNo <;> rfl
  · intro strs
    simp only [Sheet.strings, hr, GoRes.ok_bind, GoRes.bind_eq_ok]
    constructor
    · rintro ⟨cs, h1, h2⟩
      have h1' := (seqRes_ok _ _).mp h1
      have hl : cs.length = s.rows[(s.curRow - 1).toNat].length := by
        have := congrArg List.length h1'
        simpa using this.symm
      rw [fillRow_exact _ (by omega)] at h2
      cases h2
      exact h1'
    · intro h1
      have hl : strs.length = s.rows[(s.curRow - 1).toNat].length := by
        have := congrArg List.length h1
        simpa using this.symm
      exact ⟨strs, (seqRes_ok _ _).mpr h1, fillRow_exact _ (by omega)⟩

/-- A growing history with the cursor on a row. -/
theorem C12_witness (ext : Ext) (f : Formatter) :
    let ops : List Op := [.resize 1 2, .put 2 4 (.bool true) 0, .next, .next, .next]
    Growing ext (Sheet.new f) ops ∧ ∃ s, run ext (Sheet.new f) ops = .ok s ∧ s.curRow = 3 ∧
      s.numCols = 5 := by
  intro ops
  refine ⟨?_, ?_⟩
  · refine ⟨by simp [Sheet.new], fun s1 h1 => ⟨trivial, fun s2 h2 => ⟨trivial, fun s3 _ =>
      ⟨trivial, fun s4 _ => ⟨trivial, fun _ _ => trivial⟩⟩⟩⟩⟩
  · have hp : putCell ext f (.bool true) 0 = .ok (.full (.bool true) .boolean none []) := by
      simp only [putCell, GoVal.marker, cond_false, typedCell]
      cases f.getCellType 0 <;> rfl
    have h1 : ((Sheet.new f).resize 1 2).put ext 2 4 (.bool true) 0 =
        .ok ⟨f, 3, 5, [List.replicate 5 .empty, List.replicate 5 .empty,
          [.empty, .empty, .empty, .empty, .full (.bool true) .boolean none []],
          List.replicate 5 .empty], 0⟩ := by
      have hgr : ((Sheet.new f).resize 1 2).grow 2 4 =
          ⟨f, 3, 5, List.replicate 4 (List.replicate 5 .empty), 0⟩ := rfl
      unfold Sheet.put
      rw [hgr]
      simp only [hp]
      rfl
    simp only [ops, run, Op.apply, GoRes.ok_bind, h1]
    exact ⟨_, rfl, rfl, rfl⟩

/-- The no-shrink hypothesis is needed: shrinking makes `Types` panic on a wider row. -/
theorem C12_shrink_counterexample (ext : Ext) (f : Formatter) :
    ∃ s, run ext (Sheet.new f) [.resize 2 3, .resize 2 1, .next] = .ok s ∧ s.types = .panic :=
  ⟨_, rfl, rfl⟩

/-! ## C13 -/

theorem afterNext_curRow (s : Sheet) : ∀ (k : Nat) (s0 : Sheet), s0 = s ∨ True →
    0 ≤ s0.curRow → s0.curRow ≤ s0.rows.length →
    afterNext Sheet.next k s0 = { s0 with curRow := min (s0.curRow + k) s0.rows.length }
  | 0, s0, _, h0, h1 => by
    have : min (s0.curRow + (0 : Nat)) (s0.rows.length : Int) = s0.curRow := by omega
    simp only [afterNext, this]
  | k + 1, s0, _, h0, h1 => by
    simp only [afterNext]
    rw [afterNext_curRow s k _ (.inr trivial) (by unfold Sheet.next; split <;> simp only [] <;> omega)
      (by unfold Sheet.next; split <;> simp only [] <;> omega)]
    unfold Sheet.next
    split
    · have : min (s0.curRow + (k : Int)) (s0.rows.length : Int) =
          min (s0.curRow + ((k + 1 : Nat) : Int)) s0.rows.length := by omega
      simp only [this]
    · have : min (s0.curRow + 1 + (k : Int)) (s0.rows.length : Int) =
          min (s0.curRow + ((k + 1 : Nat) : Int)) s0.rows.length := by omega
      simp only [this]

/-- C13 (cursor). From a sheet whose cursor is before the first row, `k` calls to `Next` put the
cursor on row `min k (number of rows)` and change nothing else, and the next call succeeds iff there
are more rows. -/
theorem C13_cursor (s : Sheet) (h : s.curRow = 0) (k : Nat) :
    afterNext Sheet.next k s = { s with curRow := min k s.rows.length } ∧
    ((afterNext Sheet.next k s).next.2 = true ↔ k < s.rows.length) := by
  have h1 := afterNext_curRow s k s (.inr trivial) (by omega) (by omega)
  have h2 : afterNext Sheet.next k s = { s with curRow := min k s.rows.length } := by
    rw [h1, h]; simp
  refine ⟨h2, ?_⟩
  rw [h2]
  unfold Sheet.next
  simp only []
  split <;> simp <;> omega

theorem drain_from (ρ : Type) (view : Sheet → GoRes ρ) (s : Sheet) : ∀ (n k : Nat),
    k + n = s.rows.length →
    drain Sheet.next view (n + 1) { s with curRow := k } =
      some (seqRes ((List.range' k n).map (fun i : Nat => view { s with curRow := (i : Int) + 1 })))
  | 0, k, h => by
    have : Sheet.next { s with curRow := k } = ({ s with curRow := k }, false) := by
      unfold Sheet.next; simp only []; rw [if_pos (by omega)]
    simp [drain, this, seqRes]
  | n + 1, k, h => by
    have hn : Sheet.next { s with curRow := k } = ({ s with curRow := (k : Int) + 1 }, true) := by
      unfold Sheet.next; simp only []; rw [if_neg (by omega)]
    have ih := drain_from ρ view s n (k + 1) (by omega)
    rw [drain, hn]
    simp only []
    have : ((k + 1 : Nat) : Int) = (k : Int) + 1 := by omega
    rw [this] at ih
    rw [ih]
    simp [List.range'_succ, seqRes]

/-- C13 (drain). The usual `for s.Next() { … view … }` loop over a sheet whose cursor is before the
first row looks at every stored row exactly once, in order, and then ends. -/
theorem C13_drain {ρ : Type} (view : Sheet → GoRes ρ) (s : Sheet) (h : s.curRow = 0) :
    drain Sheet.next view (s.rows.length + 1) s =
      some (seqRes ((List.range s.rows.length).map
        (fun i : Nat => view { s with curRow := (i : Int) + 1 }))) := by
  have := drain_from ρ view s s.rows.length 0 (by omega)
  rw [List.range_eq_range', ← this]
  congr 1
  cases s; simp at h; simp [h]

/-- C13 (contents). For sheets built by writes and non-shrinking resizes, draining with `Raw` gives
exactly the stored rows. -/
theorem C13_drain_raw (ext : Ext) (f : Formatter) (ops : List Op) (s : Sheet)
    (hg : Growing ext (Sheet.new f) ops) (h : run ext (Sheet.new f) ops = .ok s)
    (h0 : s.curRow = 0) :
    drain Sheet.next Sheet.raw (s.rows.length + 1) s = some (.ok s.rows) := by
  have hrect := rect_run ops (rect_new f) hg h
  rw [C13_drain _ s h0]
  congr 1
  rw [seqRes_ok]
  apply List.ext_getElem?
  intro i
  rw [List.getElem?_map, List.getElem?_map]
  by_cases hi : i < s.rows.length
  · rw [List.getElem?_range hi]
    have hrow : s.rows[i]? = some s.rows[i] := by simp [hi]
    simp only [hrow, Option.map_some]
    have hr : ({ s with curRow := (i : Int) + 1 } : Sheet).row = .ok s.rows[i] := by
      unfold Sheet.row
      rw [if_pos (by simp only []; omega)]
      have : (((i : Int) + 1) - 1).toNat = i := by omega
      simp only [this, hrow]
    simp only [Sheet.raw, hr, GoRes.ok_bind]
    rw [fillRow_exact _ (hrect.exact' _ _ hrow)]
  · rw [List.getElem?_eq_none (by simpa using hi), List.getElem?_eq_none (by simpa using hi)]; rfl

/-- C13 (coverage). Every row holding a written cell is among those visited. -/
theorem C13_written_row_visited (ext : Ext) (f : Formatter) (ops : List Op) (s : Sheet)
    (h : run ext (Sheet.new f) ops = .ok s) (r c : Nat) (w : GoVal × Nat)
    (hw : lastWrite r c ops = some w) : r < s.rows.length := by
  have := C10_last_write_wins ext f ops s h r c
  rw [hw] at this
  obtain ⟨x, _, hc⟩ := this
  rw [cell?_nat] at hc
  unfold Sheet.at? at hc
  rcases Nat.lt_or_ge r s.rows.length with h | h
  · exact h
  · simp [h] at hc

/-- Iteration also yields one extra blank row after the declared ones. -/
theorem C13_extra_row (ext : Ext) (f : Formatter) (ops : List Op) (s : Sheet)
    (hg : Growing ext (Sheet.new f) ops) (h : run ext (Sheet.new f) ops = .ok s)
    (hne : s.rows ≠ []) : (s.rows.length : Int) = s.numRows + 1 := by
  rcases (rect_run ops (rect_new f) hg h).count with ⟨h0, _, _⟩ | ⟨h1, _, _⟩
  · exact absurd h0 hne
  · exact h1

/-! ## C14 -/

theorem newCell_truthful {v : GoVal} {x : Val} {t : CellType} {o : Option Nat} {u : List Bytes}
    (h : newCell v = .ok (.full x t o u)) : Truthful t x := by
  cases v <;> simp only [newCell, textCell] at h <;> first
    | (cases h; done)
    | (cases h; trivial)
    | (split at h <;> cases h <;> trivial)

theorem coerce_truthful (ext : Ext) (m : Bool) (t : CellType) (v : Val) (ty : CellType)
    (h : Truthful ty v) :
    (coerce ext m t v ty).2 ≠ .date → Truthful (coerce ext m t v ty).2 (coerce ext m t v ty).1 := by
  cases ty <;> cases v <;> first
    | exact (show False from h).elim
    | (rename_i b; cases t <;> cases b <;>
        simp [coerce, coerceBool, coerceFloat, coerceInt, coerceStr, coerceLast, Truthful])
    | (cases t <;> simp [coerce, coerceBool, coerceFloat, coerceInt, coerceStr, coerceLast, Truthful])

theorem coerce_date_truthful (ext : Ext) (m : Bool) (t : CellType) (v : Val) (ty : CellType)
    (h : Truthful ty v) (hn : ty = .integer ∨ ty = .float ∨ ty = .date) :
    Truthful (coerce ext m t v ty).2 (coerce ext m t v ty).1 := by
  rcases hn with rfl | rfl | rfl <;> cases v <;> first
    | exact (show False from h).elim
    | (cases t <;> simp [coerce, coerceBool, coerceFloat, coerceInt, coerceStr, coerceLast, Truthful])

/-- The cell a non-marker value becomes: its value and type, before the format number is attached. -/
theorem putCell_cases {ext : Ext} {f : Formatter} {v : GoVal} {n : Nat} {c : Cell}
    (h : putCell ext f v n = .ok c) :
    (v.marker = true ∧ c.type = .static) ∨
    (v.marker = false ∧ ∃ x t, newCell v = .ok (.full x t none []) ∧
      ((c.value = x ∧ c.type = t) ∨
        ∃ ct, c.value = (coerce ext f.mode1904 ct x t).1 ∧ c.type = (coerce ext f.mode1904 ct x t).2)) := by
  have hsup : Supported v := by
    cases v <;> first | trivial | skip
    · simp only [putCell, GoVal.marker, cond_false, typedCell] at h
      cases hg : f.getCellType n with
      | none => rw [hg] at h; cases h
      | some ct =>
        rw [hg] at h
        simp only [] at h
        split at h <;> cases h
  obtain ⟨x, t, hx⟩ := newCell_ok hsup
  unfold putCell at h
  cases hm : v.marker with
  | true =>
    rw [hm] at h
    simp only [cond_true, staticCell, hx] at h
    cases h
    exact .inl ⟨rfl, rfl⟩
  | false =>
    rw [hm] at h
    simp only [cond_false] at h
    refine .inr ⟨rfl, x, t, hx, ?_⟩
    rw [GoRes.bind_eq_ok] at h
    obtain ⟨c0, h0, h1⟩ := h
    have key : (c0 = .full x t none []) ∨ ∃ ct, c0 = .full (coerce ext f.mode1904 ct x t).1
        (coerce ext f.mode1904 ct x t).2 none [] := by
      unfold typedCell at h0
      split at h0
      · rw [hx] at h0; cases h0; exact .inl rfl
      · rename_i ct _
        split at h0
        · rw [hx] at h0; cases h0; exact .inl rfl
        · unfold newCellWithType at h0
          rw [hx] at h0
          simp only [GoRes.ok_bind, GoRes.pure_eq] at h0
          split at h0
          · cases h0; exact .inl rfl
          · cases h0; exact .inr ⟨ct, rfl⟩
    have fin : ∀ a b, c0 = .full a b none [] → c.value = a ∧ c.type = b := by
      intro a b hab
      subst hab
      simp only [Cell.setFormatNumber] at h1
      split at h1 <;> cases h1 <;> exact ⟨rfl, rfl⟩
    rcases key with hk | ⟨ct, hk⟩
    · exact .inl (fin _ _ hk)
    · exact .inr ⟨ct, fin _ _ hk⟩

/-- C14, except for dates: for every value, formatter and format number, a stored cell reported as
boolean, integer, float, string or blank holds a value of that type. Missing from the full
statement: cells reported as date, for which it is false (see the counterexample). -/
theorem C14_types_truthful_partial (ext : Ext) (f : Formatter) (v : GoVal) (n : Nat) (c : Cell)
    (h : Builds ext f v n c) (hs : c.type ≠ .static) (hd : c.type ≠ .date) :
    Truthful c.type c.value := by
  rw [builds_iff] at h
  rcases putCell_cases h with ⟨_, ht⟩ | ⟨_, x, t, hx, h1⟩
  · exact absurd ht hs
  · have hT := newCell_truthful hx
    rcases h1 with ⟨hv, ht⟩ | ⟨ct, hv, ht⟩
    · rw [hv, ht]; exact hT
    · rw [hv, ht]
      rw [ht] at hd
      exact coerce_truthful ext _ ct x t hT hd

/-- C14 for numbers and times: also cells reported as date are truthful. -/
theorem C14_numeric_dates_partial (ext : Ext) (f : Formatter) (v : GoVal) (n : Nat) (c : Cell)
    (h : Builds ext f v n c)
    (hv : (∃ k, v = .sint k) ∨ (∃ k, v = .usmall k) ∨ (∃ x, v = .f64 x) ∨ (∃ x, v = .f32 x) ∨
      (∃ t, v = .time t)) :
    Truthful c.type c.value := by
  rw [builds_iff] at h
  rcases putCell_cases h with ⟨hm, _⟩ | ⟨_, x, t, hx, h1⟩
  · rcases hv with ⟨_, rfl⟩ | ⟨_, rfl⟩ | ⟨_, rfl⟩ | ⟨_, rfl⟩ | ⟨_, rfl⟩ <;> cases hm
  · have hT := newCell_truthful hx
    have ht : t = .integer ∨ t = .float ∨ t = .date := by
      rcases hv with ⟨_, rfl⟩ | ⟨_, rfl⟩ | ⟨_, rfl⟩ | ⟨_, rfl⟩ | ⟨_, rfl⟩ <;> cases hx <;> simp
    rcases h1 with ⟨hv, ht'⟩ | ⟨ct, hv, ht'⟩
    · rw [hv, ht']; exact hT
    · rw [hv, ht']; exact coerce_date_truthful ext _ ct x t hT ht

/-- C14 is false for dates: text written with a built-in date format is reported as a date but holds
text. -/
theorem C14_date_counterexample (ext : Ext) (f : Formatter) :
    ∃ c, Builds ext f (.str (lit "n/a")) 14 c ∧ c.type = .date ∧ c.value = .str (lit "n/a") ∧
      ¬ Truthful c.type c.value := by
  refine ⟨.full (.str (lit "n/a")) .date (some 14) [], ?_, rfl, rfl, id⟩
  rw [builds_iff]
  rfl

/-! ## C15 -/

theorem scanCell_ok_iff (v : Val) (d d' : SDest) : scanCell v d = (d', none) ↔ Filled v d d' := by
  constructor
  · intro h
    cases d <;> cases v <;> simp only [scanCell, Prod.mk.injEq] at h <;>
      first | (obtain ⟨rfl, _⟩ := h; constructor) | simp at h
  · intro h
    cases h <;> rfl

theorem scanCell_err {v : Val} {d d' : SDest} {e : GoErr} (h : scanCell v d = (d', some e)) :
    d' = d ∧ (¬ ∃ d'', Filled v d d'') ∧ e ≠ .invalidScanType := by
  cases d <;> cases v <;> simp only [scanCell, Prod.mk.injEq] at h <;> first
    | (obtain ⟨rfl, he⟩ := h
       refine ⟨rfl, ?_, ?_⟩
       · rintro ⟨d'', hf⟩; cases hf
       · intro hc; subst hc; simp at he)
    | simp at h

theorem scanRow_spec : ∀ (row : List Cell) (args out : List SDest) (e : Option GoErr),
    scanRow row args = .ok (out, e) →
    e ≠ some .invalidScanType ∧
    ∃ k, k ≤ args.length ∧
      (∀ i, i < k → ∃ c d d', row[i]? = some c ∧ args[i]? = some d ∧ out[i]? = some d' ∧
        Filled c.value d d') ∧
      (∀ i, k ≤ i → out[i]? = args[i]?) ∧
      ((e = none ∧ k = args.length) ∨
        (e ≠ none ∧ ∃ c d, row[k]? = some c ∧ args[k]? = some d ∧ ¬ ∃ d', Filled c.value d d'))
  | _, [], out, e, h => by
    simp only [scanRow] at h
    cases h
    exact ⟨by simp, 0, by simp, by simp, by simp, .inl ⟨rfl, rfl⟩⟩
  | [], _ :: _, out, e, h => by simp [scanRow] at h
  | c :: cs, d :: ds, out, e, h => by
    simp only [scanRow] at h
    split at h
    · rename_i d' e' hsc
      cases h
      obtain ⟨rfl, hno, hne⟩ := scanCell_err hsc
      refine ⟨by simpa using hne, 0, by simp, by simp, by simp, .inr ⟨by simp, c, d', rfl, rfl, hno⟩⟩
    · rename_i d' hsc
      rw [GoRes.bind_eq_ok] at h
      obtain ⟨⟨o1, e1⟩, h1, h2⟩ := h
      cases h2
      obtain ⟨hne, k, hk, hA, hB, hC⟩ := scanRow_spec cs ds o1 _ h1
      refine ⟨hne, k + 1, by simpa using hk, ?_, ?_, ?_⟩
      · intro i hi
        cases i with
        | zero => exact ⟨c, d, d', rfl, rfl, rfl, (scanCell_ok_iff ..).mp hsc⟩
        | succ i => simpa using hA i (by omega)
      · intro i hi
        cases i with
        | zero => omega
        | succ i => simpa using hB i (by omega)
      · rcases hC with ⟨h1, h2⟩ | ⟨h1, h2⟩
        · exact .inl ⟨h1, by simpa using h2⟩
        · exact .inr ⟨h1, by simpa using h2⟩

/-- C15, except for the error sentinel. Whenever Scan returns: there is a position k such that every
destination before k had exactly the type of its cell and now holds the cell's value, every
destination from k on is untouched, and either k is the end and there is no error, or there is an
error and destination k does not match the type of its cell. Missing from the full statement: the
error is never ErrInvalidScanType (next theorem). -/
theorem C15_scan_partial (s : Sheet) (args out : List SDest) (e : Option GoErr)
    (h : s.scan args = .ok (out, e)) :
    ∃ k, k ≤ args.length ∧
      (∀ i : Nat, i < k → ∃ c d d', s.cell? (s.curRow - 1) i = some c ∧ args[i]? = some d ∧
        out[i]? = some d' ∧ Filled c.value d d') ∧
      (∀ i : Nat, k ≤ i → out[i]? = args[i]?) ∧
      ((e = none ∧ k = args.length) ∨
        (e ≠ none ∧ ∃ c d, s.cell? (s.curRow - 1) k = some c ∧ args[k]? = some d ∧
          ¬ ∃ d', Filled c.value d d')) := by
  unfold Sheet.scan at h
  rw [GoRes.bind_eq_ok] at h
  obtain ⟨row, hrow, h1⟩ := h
  have hcell : ∀ i : Nat, s.cell? (s.curRow - 1) i = row[i]? := by
    intro i
    unfold Sheet.row at hrow
    split at hrow
    · rename_i hc
      rw [cell?_of_nonneg s (by omega) (by omega)]
      unfold Sheet.at?
      split at hrow
      · rename_i r hr; cases hrow; rw [hr]; simp
      · cases hrow
    · cases hrow
  simp only [hcell]
  exact (scanRow_spec row args out e h1).2

/-- The documented error is never returned, in particular not for an unsupported destination. -/
theorem C15_never_invalid_scan_type (s : Sheet) (args out : List SDest) (e : Option GoErr)
    (h : s.scan args = .ok (out, e)) : e ≠ some .invalidScanType := by
  unfold Sheet.scan at h
  rw [GoRes.bind_eq_ok] at h
  obtain ⟨row, _, h1⟩ := h
  exact (scanRow_spec row args out e h1).1

/-- Concrete failing case of C15: an unsupported destination on a sheet with one integer cell. -/
theorem C15_counterexample (f : Formatter) :
    ∃ e, (⟨f, 1, 1, [[.full (.int 5) .integer none []]], 1⟩ : Sheet).scan [.other] =
      .ok ([.other], some e) ∧ e ≠ .invalidScanType :=
  ⟨_, rfl, by simp⟩

/-- Concrete case with two filled destinations and a mismatch. -/
theorem C15_witness (f : Formatter) :
    ∃ e, (⟨f, 1, 3, [[.full (.int 5) .integer none [], .full (.bool true) .boolean none [],
      .full (.str [65]) .string none []]], 1⟩ : Sheet).scan [.int64 0, .bool false, .int64 9] =
      .ok ([.int64 5, .bool true, .int64 9], some e) := ⟨_, rfl⟩

/-! ## C16 -/

/-- The four merge markers. -/
def Marker (m : Bytes) : Prop :=
  m = lit "→" ∨ m = lit "⇥" ∨ m = lit "↓" ∨ m = lit "⤓"

theorem marker_iff (m : Bytes) : isMarker m = true ↔ Marker m := by
  simp only [isMarker, Bool.or_eq_true, beq_iff_eq, Marker, endRow, endCol, contRow, contCol]
  constructor
  · rintro (((h | h) | h) | h) <;> simp [h]
  · rintro (h | h | h | h) <;> simp [h]

theorem marker_ne_nil {m : Bytes} (h : Marker m) : m ≠ [] := by
  rcases h with rfl | rfl | rfl | rfl <;> decide

/-- C16 (markers). A marker written with any format number, under any formatter, is rendered
verbatim and reported as static. -/
theorem C16_marker (ext : Ext) (f g : Formatter) (m : Bytes) (hm : Marker m) (n : Nat) :
    ∃ c, Builds ext f (.str m) n c ∧ cellString ext g c = .ok m ∧ c.type.name = lit "static" := by
  refine ⟨.full (.str m) .static none [], ?_, rfl, rfl⟩
  rw [builds_iff]
  have h1 : (GoVal.str m).marker = true := (marker_iff m).mpr hm
  have h2 : newCell (.str m) = .ok (.full (.str m) .string none []) := by
    simp [newCell, textCell, marker_ne_nil hm]
  simp only [putCell, h1, cond_true, staticCell, h2]
  rfl

/-- C16 (text). Any other text written with format 0 is rendered as itself. -/
theorem C16_text (ext : Ext) (f g : Formatter) (t : Bytes) (hm : ¬ Marker t) :
    ∃ c, Builds ext f (.str t) 0 c ∧ cellString ext g c = .ok t := by
  have h1 : (GoVal.str t).marker = false := by
    cases h : isMarker t with
    | false => exact h
    | true => exact absurd ((marker_iff t).mp h) hm
  have h3 : typedCell ext f (.str t) 0 = newCell (.str t) := by
    unfold typedCell; cases f.getCellType 0 <;> rfl
  by_cases ht : t = []
  · subst ht
    refine ⟨.full .nil .blank none [], ?_, rfl⟩
    rw [builds_iff]
    simp only [putCell, h1, cond_false, h3]
    rfl
  · refine ⟨.full (.str t) .string none [], ?_, rfl⟩
    rw [builds_iff]
    have h2 : newCell (.str t) = .ok (.full (.str t) .string none []) := by
      simp [newCell, textCell, ht]
    simp only [putCell, h1, cond_false, h3, h2]
    rfl

/-- C16 on a whole sheet: after a growing history whose last write to (r,c) was a marker, with the
cursor on row r, Types reports "static" in column c and, if Strings completes, its column c is the
marker. -/
theorem C16_marker_sheet (ext : Ext) (f : Formatter) (ops : List Op) (s : Sheet)
    (hg : Growing ext (Sheet.new f) ops) (h : run ext (Sheet.new f) ops = .ok s)
    (r c : Nat) (m : Bytes) (n : Nat) (hm : Marker m)
    (hw : lastWrite r c ops = some (.str m, n)) (hcur : s.curRow = r + 1) :
    (∃ tys, s.types = .ok tys ∧ tys[c]? = some (lit "static")) ∧
    ∀ strs, s.strings ext = .ok strs → strs[c]? = some m := by
  obtain ⟨row, _, hcell, _, hty, _, hst⟩ := C12_rectangular ext f ops s hg h (by omega)
  have hl := C10_last_write_wins ext f ops s h r c
  rw [hw] at hl
  obtain ⟨x, hx, hat⟩ := hl
  obtain ⟨y, hy, hstr, hname⟩ := C16_marker ext f s.fmtr m hm n
  have hxy : x = y := by
    rw [builds_iff] at hx hy
    rw [hx] at hy
    cases hy; rfl
  subst hxy
  have hrc : row[c]? = some x := by
    rw [← hcell c, hcur]
    have : (r : Int) + 1 - 1 = r := by omega
    rw [this]; exact hat
  refine ⟨⟨_, hty, by simp [hrc, hname]⟩, ?_⟩
  intro strs hs
  have := (hst strs).mp hs
  have h2 := congrArg (fun l : List (GoRes Bytes) => l[c]?) this
  simp only [List.getElem?_map, hrc, Option.map_some, hstr] at h2
  cases h3 : strs[c]? with
  | none => rw [h3] at h2; cases h2
  | some z => rw [h3] at h2; simp at h2; rw [h2]

/-! ## C17 -/

/-- C17, except for the single-cell sheet: a growing history that writes anywhere but A1 gives a
sheet that is not reported empty. Missing: sheets whose only value is in A1 (counterexample below). -/
theorem C17_isEmpty_partial (ext : Ext) (f : Formatter) (ops : List Op) (s : Sheet)
    (hg : Growing ext (Sheet.new f) ops) (h : run ext (Sheet.new f) ops = .ok s)
    (r c : Nat) (w : GoVal × Nat) (hw : lastWrite r c ops = some w) (hne : (r, c) ≠ (0, 0)) :
    s.isEmpty = false := by
  obtain ⟨_, _, h1⟩ := run_size ops (by simp [Sheet.new]) hg h
  obtain ⟨h2, h3⟩ := h1 r c w hw
  have : 1 ≤ r ∨ 1 ≤ c := by
    rcases Nat.eq_zero_or_pos r with h | h
    · rcases Nat.eq_zero_or_pos c with h' | h'
      · exact absurd (by rw [h, h']) hne
      · exact .inr h'
    · exact .inl h
  unfold Sheet.isEmpty
  simp only [Bool.and_eq_false_iff, decide_eq_false_iff_not]
  omega

/-- A fresh sheet is reported empty. -/
theorem C17_fresh (f : Formatter) : (Sheet.new f).isEmpty = true := rfl

/-- C17 is false: a sheet whose only value is in A1 is reported empty. -/
theorem C17_counterexample (ext : Ext) (f : Formatter) :
    ∃ s, run ext (Sheet.new f) [.put 0 0 (.sint 5) 0] = .ok s ∧
      s.cell? 0 0 = some (.full (.int 5) .integer none []) ∧ s.isEmpty = true := by
  have h1 : putCell ext f (.sint 5) 0 = .ok (.full (.int 5) .integer none []) := by
    simp only [putCell, GoVal.marker, cond_false, typedCell]
    cases f.getCellType 0 <;> rfl
  have hg : (Sheet.new f).grow 0 0 = ⟨f, 1, 1, [[.empty], [.empty]], 0⟩ := rfl
  refine ⟨⟨f, 1, 1, [[.full (.int 5) .integer none []], [.empty]], 0⟩, ?_, rfl, rfl⟩
  simp only [run, Op.apply, Sheet.put, hg, h1]
  rfl

/-! ## C18 -/

/-- C18, except for the edge: Set and SetURL strictly beyond the declared size are ignored. Missing:
coordinates equal to the declared size, and never-written cells, on which both panic. -/
theorem C18_ignored_partial (s : Sheet) (r c : Int) (v : Val) (link : Bytes)
    (h : s.numRows < r ∨ s.numCols < c) : s.set r c v = .ok s ∧ s.setURL r c link = .ok s := by
  unfold Sheet.set Sheet.setURL
  exact ⟨if_pos h, if_pos h⟩

/-- C18 on written cells: Set replaces the value of that cell (as text) and keeps its format; SetURL
makes it a hyperlink and keeps its value; every other cell is unchanged. -/
theorem C18_written (s : Sheet) (r c : Nat) (x : Val) (t : CellType) (o : Option Nat)
    (u : List Bytes) (hin : (r : Int) ≤ s.numRows ∧ (c : Int) ≤ s.numCols)
    (h : s.cell? r c = some (.full x t o u)) (v : Val) (link : Bytes) :
    (∃ s', s.set r c v = .ok s' ∧ s'.cell? r c = some (.full v .string o u) ∧
      ∀ r' c' : Nat, (r', c') ≠ (r, c) → s'.cell? r' c' = s.cell? r' c') ∧
    (∃ s' y, s.setURL r c link = .ok s' ∧ s'.cell? r c = some y ∧ y.value = x ∧
      y.type = .hyperlink ∧ ((o = none ∨ u = []) → y.url = some link) ∧
      ∀ r' c' : Nat, (r', c') ≠ (r, c) → s'.cell? r' c' = s.cell? r' c') := by
  have hn : ¬ ((r : Int) > s.numRows ∨ (c : Int) > s.numCols) := by omega
  have st : ∀ y, ∃ s', s.store r c y = .ok s' := by
    intro y; unfold Sheet.store; rw [h]; exact ⟨_, rfl⟩
  have fin : ∀ {y s'}, s.store r c y = .ok s' → s'.cell? r c = some y ∧
      ∀ r' c' : Nat, (r', c') ≠ (r, c) → s'.cell? r' c' = s.cell? r' c' := by
    intro y s' hs
    obtain ⟨_, _, h1, h2⟩ := store_at hs
    refine ⟨by rw [cell?_nat]; simpa using h1, ?_⟩
    intro r' c' hne
    rw [cell?_nat, cell?_nat]
    apply h2
    rintro ⟨ha, hb⟩
    exact hne (by rw [Int.natCast_inj.mp ha, Int.natCast_inj.mp hb])
  constructor
  · obtain ⟨s', hs⟩ := st (.full v .string o u)
    refine ⟨s', ?_, fin hs⟩
    unfold Sheet.set; rw [if_neg hn, h]; exact hs
  · cases o with
    | none =>
      obtain ⟨s', hs⟩ := st (.full x .hyperlink (some 0) [link])
      refine ⟨s', _, ?_, (fin hs).1, rfl, rfl, fun _ => rfl, (fin hs).2⟩
      unfold Sheet.setURL; rw [if_neg hn, h]
      simp only [Cell.setURL, GoRes.ok_bind]; exact hs
    | some n =>
      obtain ⟨s', hs⟩ := st (.full x .hyperlink (some n) (u ++ [link]))
      refine ⟨s', _, ?_, (fin hs).1, rfl, rfl, ?_, (fin hs).2⟩
      · unfold Sheet.setURL; rw [if_neg hn, h]
        simp only [Cell.setURL, GoRes.ok_bind]; exact hs
      · rintro (h' | rfl)
        · cases h'
        · rfl

/-- C18 is false at the edge: on a 1×1 sheet, row 1 and column 1 are outside, and both calls panic. -/
theorem C18_counterexample (f : Formatter) (v : Val) (link : Bytes) :
    let s : Sheet := ⟨f, 1, 1, [[.full (.int 5) .integer none []], [.empty]], 0⟩
    s.set 1 0 v = .panic ∧ s.set 0 1 v = .panic ∧ s.setURL 1 0 link = .panic ∧
      s.setURL 0 1 link = .panic := ⟨rfl, rfl, rfl, rfl⟩

end Grate.Props
