import Verif.Props.Open

/-! # C84: the rows of a sheet -/

namespace Grate.Props

open Grate Grate.Spec Grate.Api

/-- `n` is the number of rows (or columns) of a sheet that declares `m` of them and has cells in those given: the
declared number, or one more than the last index if that is more. -/
def Extent (m : Nat) (xs : List Nat) (n : Nat) : Prop :=
  0 < n ∧ m ≤ n ∧ (∀ x ∈ xs, x < n) ∧ (n = m ∨ ∃ x ∈ xs, n = x + 1)

theorem size_extent {ext : Ext} {f : Formatter} {ws : List Write} {s : Sheet} (h : Holds ext f ws s) {mr mc R C : Nat}
    (hs : SizeIs mr mc ws s) (hr : Extent mr (ws.map (·.row)) R) (hc : Extent mc (ws.map (·.col)) C) :
    s.numRows = R ∧ s.numCols = C := by
  obtain ⟨r0, r1, r2, r3⟩ := hr
  obtain ⟨c0, c1, c2, c3⟩ := hc
  have a1 := hs.noMoreRows R (by omega) (by omega) (by
    intro w hw
    have := r2 w.row (List.mem_map.2 ⟨w, hw, rfl⟩)
    omega)
  have a2 := hs.noMoreCols C (by omega) (by omega) (by
    intro w hw
    have := c2 w.col (List.mem_map.2 ⟨w, hw, rfl⟩)
    omega)
  constructor
  · rcases r3 with r3 | ⟨x, hx, r3⟩
    · have := hs.rows; omega
    · obtain ⟨w, hw, rfl⟩ := List.mem_map.1 hx
      have := (h.inside w hw).1
      omega
  · rcases c3 with c3 | ⟨x, hx, c3⟩
    · have := hs.cols; omega
    · obtain ⟨w, hw, rfl⟩ := List.mem_map.1 hx
      have := (h.inside w hw).2
      omega

/-- What the rows of a sheet with `R` rows and `C` columns are: `Next` succeeds once more than that, and the last row
is blank. -/
structure RowsAre (s : Sheet) (R C : Nat) : Prop where
  next : drain Sheet.next (fun _ => GoRes.ok ()) (R + 2) s = some (.ok (List.replicate (R + 1) ()))
  widths : ∀ row ∈ s.rows, row.length = C
  last : s.rows[R]? = some (List.replicate C .empty)

/-- C84, for sheets as the readers leave them. -/
theorem rows_are {ext : Ext} {f : Formatter} {ws : List Write} {s : Sheet} (h : Holds ext f ws s) {mr mc R C : Nat}
    (hs : SizeIs mr mc ws s) (hr : Extent mr (ws.map (·.row)) R) (hc : Extent mc (ws.map (·.col)) C)
    (hq : Rectangular s) : RowsAre s R C := by
  obtain ⟨n1, n2⟩ := size_extent h hs hr hc
  have hl : s.rows.length = R + 1 := by
    have r0 := hr.1
    rcases hq.count with ⟨_, h0, _⟩ | ⟨h1, _⟩ <;> omega
  have hw : ∀ row ∈ s.rows, row.length = C := by
    intro row hrow
    have := hq.width row hrow
    omega
  refine ⟨?_, hw, ?_⟩
  · have := C13_drain (fun _ => GoRes.ok ()) s h.start
    rw [hl] at this
    rw [this]
    congr 1
    rw [seqRes_ok]
    apply List.ext_getElem?
    intro i
    simp [List.getElem?_replicate]
  · have hlt : R < s.rows.length := by omega
    rw [List.getElem?_eq_getElem hlt]
    have hlen := hw s.rows[R] (List.getElem_mem _)
    congr 1
    refine List.eq_replicate_iff.2 ⟨hlen, ?_⟩
    intro x hx
    obtain ⟨i, hi, rfl⟩ := List.mem_iff_getElem.1 hx
    have hn : lastAt R i ws = none := by
      cases hl : lastAt R i ws with
      | none => rfl
      | some y =>
        obtain ⟨v, hv, h1, _⟩ := Xls.lastAt_mem hl
        have := hr.2.2.1 v.row (List.mem_map.2 ⟨v, hv, rfl⟩)
        omega
    have hcell : s.cell? R i = some s.rows[R][i] := by
      rw [cell?_nat]
      unfold Sheet.at?
      rw [List.getElem?_eq_getElem hlt]
      simp
    rcases h.blank R i hn with e | e
    · rw [hcell] at e; cases e
    · rw [hcell] at e; exact Option.some.inj e

/-- C84 for xls workbook streams: the sheet has the rows and columns that are declared or used, and one blank row more.
Missing: what C49 leaves out, sheets with several declarations of their size, and the claim itself, that there is no
row more (`C84_counterexample`). -/
theorem C84_xls_partial (p : Crypto.Prims) (mk : Bytes → Fmt × CellType) (ext : Ext) {groups : List (List Record)}
    (h : Grouped groups) (hp : ∀ r ∈ groups.flatten, r.type ≠ 0x2F) {c : Content} (hc : AllGlobals .empty groups c)
    (rest : Bytes) (before after : List SheetEntry) (e : SheetEntry) (hx : c.sheets = before ++ e :: after)
    (hn : ∀ x ∈ before, utf8 x.name ≠ utf8 e.name) (i : Nat) (bof : Record) (rs : List Record)
    (hi : groups[i]? = some (bof :: rs)) (hpos : e.position = position groups i) (mr mc : Nat)
    (hd : Declares (0, 0) rs (mr, mc)) (h1 : dimsCount rs ≤ 1) (ws : List Write)
    (hw : SheetRecs c.strings c.styles mr mc rs ws) (R C : Nat) (hR : Extent mr (ws.map (·.row)) R)
    (hC : Extent mc (ws.map (·.col)) C) :
    ∃ b s, Xls.loadStream p mk rest ⟨stream groups.flatten, rest⟩ = .ok b ∧ b.get ext (utf8 e.name) = .ok (some s) ∧
      RowsAre s R C := by
  obtain ⟨b, s, e1, e2, hh, hs, hq⟩ := C49_file_partial p mk ext h hp hc rest before after e hx hn i bof rs hi hpos mr mc hd
    ws hw
  exact ⟨b, s, e1, e2, rows_are hh hs hR hC (hq h1)⟩

/-- C84 for xlsx files, in the same way. Missing: what C61 leaves out, and the claim itself. -/
theorem C84_xlsx_partial (mk : Bytes → Fmt × CellType) (ext : Ext) (order : List Bytes → List Bytes)
    (ho : ∀ l, (order l).Perm l) (a : Xlsx.Archive) (dir : List Bytes) (base : Bytes) (b : Spec.Book)
    (h : XlsxFile a dir base b)
    (i : Nat) (id name : Bytes) (hi : b.sheets[i]? = some (id, name))
    (hf : ∀ (j : Nat) (s : Bytes × Bytes), j < i → b.sheets[j]? = some s → s.2 ≠ name) (r : Relation) (hr : r ∈ b.rels)
    (ht : r.type = relType "worksheet") (hid : r.id = id) (sdir : List Bytes) (sbase : Bytes)
    (hsd : ∀ s ∈ sdir, RealName s) (hsb : PathName sbase) (hpart : r.part = pathOf (sdir ++ [sbase]))
    (ts : List Xlsx.Tok) (hp : HasPart a r.part ts) (ls : List (Bytes × Bytes))
    (hl : (LacksPart a (relsPart sdir sbase) ∧ ls = []) ∨ ∃ us, HasPart a (relsPart sdir sbase) us ∧ LinkToks us ls)
    (m : Nat × Nat) (ws : List Write) (hw : WsPart ext b.strings b.styles (targetOf ls) ts m ws) (R C : Nat)
    (hR : Extent m.1 (ws.map (·.row)) R) (hC : Extent m.2 (ws.map (·.col)) C) :
    ∃ d d' s, Xlsx.openFile mk order (.ok a) = .ok d ∧ d.get ext a name = .ok (d', i, none) ∧ Loaded d' i s none ∧
      RowsAre s R C := by
  obtain ⟨d, d', s, e1, e2, e3, hh, hs, hq, _⟩ := C61_sheet_partial mk ext order ho a dir base b h i id name hi hf r hr ht hid
    sdir sbase hsd hsb hpart ts hp ls hl m ws hw
  exact ⟨d, d', s, e1, e2, e3, rows_are hh hs hR hC hq⟩

/-- C84 is false for every sheet of these theorems: reading it does not give the number of rows it has. -/
theorem C84_counterexample {s : Sheet} {R C : Nat} (h : RowsAre s R C) (fuel : Nat) (l : List Unit)
    (hl : drain Sheet.next (fun _ => GoRes.ok ()) fuel s = some (.ok l)) : l.length = R + 1 := by
  have mono : ∀ (n m : Nat) (s : Sheet) (x y : GoRes (List Unit)), drain Sheet.next (fun _ => GoRes.ok ()) n s = some x →
      drain Sheet.next (fun _ => GoRes.ok ()) m s = some y → x = y := by
    intro n
    induction n with
    | zero => intro m s x y hx; cases hx
    | succ n ih =>
      intro m s x y hx hy
      cases m with
      | zero => cases hy
      | succ m =>
        rw [drain] at hx hy
        cases hn : s.next with
        | mk s' more =>
          rw [hn] at hx hy
          cases more with
          | false => cases hx; cases hy; rfl
          | true =>
            simp only at hx hy
            cases h1 : drain Sheet.next (fun _ => GoRes.ok ()) n s' with
            | none => rw [h1] at hx; cases hx
            | some a =>
              cases h2 : drain Sheet.next (fun _ => GoRes.ok ()) m s' with
              | none => rw [h2] at hy; cases hy
              | some b =>
                rw [h1] at hx
                rw [h2] at hy
                cases hx
                cases hy
                rw [ih m s' a b h1 h2]
  have := mono _ _ _ _ _ hl h.next
  cases this
  simp

/-- C84: the example workbook of C49 declares four rows and columns; reading its sheet gives five rows. -/
theorem C84_witness (p : Crypto.Prims) (mk : Bytes → Fmt × CellType) (ext : Ext) :
    ∃ b s, Xls.loadStream p mk [] ⟨stream exBook.flatten, []⟩ = .ok b ∧ b.get ext (lit "S") = .ok (some s) ∧
      RowsAre s 4 4 := by
  obtain ⟨b, s, h1, h2, h3⟩ := C84_xls_partial p mk ext exBook_grouped.1 exBook_grouped.2 exBook_content [] [] []
    exEntry rfl (by simp) 1 (exBof 0x10) exSheet rfl (by decide +kernel) 4 4 exSheet_declares (by decide +kernel) exWrites
    exSheet_recs 4 4 (by unfold Extent exWrites; simp) (by unfold Extent exWrites; simp)
  exact ⟨b, s, h1, h2, h3⟩

end Grate.Props
