import Verif.Lemmas.XlsxRefs

/-! # Properties of cell references (C55) -/

namespace Grate.Props

open Grate Grate.Spec Grate.Xlsx

/-- C55: the reference of a cell is decoded to its column and row. -/
theorem C55_decode {c r : Nat} {s : Bytes} (h : A1 c r s) (hc : c < 2 ^ 63 - 1) (hr : r < 2 ^ 63 - 1) :
    refToIndexes s = .ok ((c : Int), (r : Int)) := refToIndexes_a1 h hc hr

/-- C55: every cell has exactly one reference. -/
theorem C55_reference (c r : Nat) : ∃ s, A1 c r s ∧ ∀ t, A1 c r t → t = s := by
  obtain ⟨s, hs⟩ := a1_exists c r
  exact ⟨s, hs, fun t ht => a1_unique ht hs⟩

/-- C55: distinct cells have distinct references. -/
theorem C55_distinct {c r c' r' : Nat} {s : Bytes} (h : A1 c r s) (h' : A1 c' r' s) : c = c' ∧ r = r' := a1_parts h h' rfl

/-- C55: all texts made of capital letters and a positive numeral are references. -/
theorem C55_all (s ds : Bytes) (hs : s ≠ []) (hl : ∀ b ∈ s, 65 ≤ b.toNat ∧ b.toNat ≤ 90) (n : Nat)
    (hd : Numeral ds (n + 1)) : ∃ c, A1 c n (s ++ ds) :=
  ⟨lettersVal s - 1, .mk s ds ⟨hs, hl, by have := lettersVal_pos hs hl; omega⟩ hd⟩

/-- B3, AA10 and XFD1048576, the last cell of a worksheet. -/
theorem C55_witness : A1 1 2 (lit "B3") ∧ A1 26 9 (lit "AA10") ∧ A1 16383 1048575 (lit "XFD1048576") := by
  refine ⟨.mk (lit "B") (lit "3") ?_ ?_, .mk (lit "AA") (lit "10") ?_ ?_, .mk (lit "XFD") (lit "1048576") ?_ ?_⟩ <;>
    first
    | (unfold ColumnName; decide +kernel)
    | (unfold Numeral IsDigits; decide +kernel)

/-- The other style of references is not decoded: `R1C1`, the first cell, is taken as outside of the sheet, like
`R12C3`; and `AAAAA1C1` ends the program. -/
theorem C55_r1c1 : refToIndexes (lit "R1C1") = .ok (0, -1) ∧ refToIndexes (lit "R12C3") = .ok (1, -1) ∧
    refToIndexes (lit "AAAAA1C1") = .panic := by
  refine ⟨?_, ?_, ?_⟩ <;> rfl

end Grate.Props
