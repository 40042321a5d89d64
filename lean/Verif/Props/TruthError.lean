import Verif.Props.Display
import Verif.Props.Links

/-! # C144: truth values and error values are shown as such -/

namespace Grate.Props

open Spec

/-- The text of a truth value. -/
def truthText (b : Bool) : Bytes := if b then lit "TRUE" else lit "FALSE"

/-! ### Truth values -/

/-- C144 for truth values, as far as it holds: under the General format and the Text format they are shown as TRUE and FALSE.
Missing: the other formats, where it is false (`C144_number_counterexample`, `C144_shown_counterexample`). -/
theorem C144_truth_partial (ext : Ext) (f : Formatter) (b : Bool) (n : Nat) (hn : n = 0 ∨ n = 49) :
    ∃ c, Builds ext f (.bool b) n c ∧ cellString ext f c = .ok (truthText b) := by
  rcases hn with rfl | rfl
  · have h3 : typedCell ext f (.bool b) 0 = newCell (.bool b) := by
      unfold typedCell; cases f.getCellType 0 <;> rfl
    refine ⟨.full (.bool b) .boolean none [], ?_, by cases b <;> rfl⟩
    rw [builds_iff]
    simp only [putCell, GoVal.marker, cond_false, h3, newCell]
    rfl
  · refine ⟨.full (.str (truthText b)) .string (some 49) [], ?_, by cases b <;> rfl⟩
    rw [builds_iff]
    cases b <;> rfl

/-- C144 is false for truth values: under every format of whole numbers they are the numbers 1 and 0, under every format of
other numbers the floats 1 and 0, and nothing tells them from these numbers any more. -/
theorem C144_number_counterexample (ext : Ext) (f : Formatter) (b : Bool) (n : Nat) (hn : n ≠ 0) (c : Cell) :
    (f.getCellType n = some .integer → (Builds ext f (.bool b) n c ↔ Builds ext f (.sint (if b then 1 else 0)) n c)) ∧
    (f.getCellType n = some .float → (Builds ext f (.bool b) n c ↔ Builds ext f (.f64 (if b then 1 else 0)) n c)) := by
  constructor <;> intro hc <;> rw [builds_iff, builds_iff] <;> unfold putCell typedCell <;> rw [hc] <;>
    simp only [GoVal.marker, cond_false] <;> rw [if_neg hn, if_neg hn] <;>
    simp [newCellWithType, newCell, coerce, coerceBool, coerceFloat, coerceInt, coerceStr, coerceLast]

/-- So TRUE is shown as 1 under the format `0`, and as 100% under the format `0%`. -/
theorem C144_shown_counterexample (ext : Ext) (f : Formatter) :
    (∃ c, Builds ext f (.bool true) 1 c ∧ cellString ext f c = .ok (lit "1")) ∧
    (∃ c, Builds ext f (.bool true) 9 c ∧ cellString ext f c = .ok (lit "100%")) := by
  refine ⟨⟨.full (.int 1) .integer (some 1) [], ?_, rfl⟩, ⟨.full (.float 1) .float (some 9) [], ?_, ?_⟩⟩
  · rw [builds_iff]; rfl
  · rw [builds_iff]; rfl
  · show GoRes.ok (decInt (f64ToInt (1 * f64OfNat 100)) ++ [37]) = _
    have h : f64ToInt (1 * f64OfNat 100) = 100 := by decide +kernel
    rw [h]
    rfl

/-! ### Error values -/

theorem TruthError.error_plain (v : UInt8) : errorText v ≠ [] ∧ ¬ Marker (errorText v) := by
  unfold errorText Marker
  split <;> decide +kernel

/-- A record with the error of a cell: a BoolErr record (2.4.24), or a Formula record (2.4.127) with an error as its result. -/
inductive ErrorRecord (row col xf : Nat) (v : UInt8) : Record → Prop
  | value (k : UInt8) (tail : Bytes) : k ≠ 0 → ErrorRecord row col xf v ⟨517, cellHead row col xf (v :: k :: tail)⟩
  | formula (u x y z : UInt8) (tail : Bytes) :
      ErrorRecord row col xf v ⟨6, cellHead row col xf (2 :: u :: v :: x :: y :: z :: 0xFF :: 0xFF :: tail)⟩

/-- C144 for error values in xls files: a record with an error anywhere in a sheet, with any cell style and so with any number format, is
shown as the text of its error, if nothing is written to the cell after it. -/
theorem C144_xls (ext : Ext) (b : Xls.Book) (i : Nat) (recs : List Xls.Rec) (hi : b.subs[i]? = some recs)
    (hz : Xls.Sized recs) (strings : List (List Nat)) (styles : List Nat) (hs : b.strings = strings.map utf8)
    (hx : b.xfs = styles) (bof : Record) (pre post : List Record) (row col xf : Nat) (v : UInt8) (r : Record)
    (he : ErrorRecord row col xf v r) (hv : recs.map Xls.Rec.view = bof :: (pre ++ r :: post))
    (hb : bof.type = 0x809) (mr mc : Nat)
    (hd : Declares (0, 0) (pre ++ r :: post) (mr, mc)) (ws vs : List Write)
    (hpre : SheetRecs strings styles mr mc pre ws) (hpost : SheetRecs strings styles mr mc post vs)
    (hf : HeadFits row col xf) (hlast : lastAt row col vs = none) :
    ∃ s x, Xls.parseSheet ext b i = .ok (some s) ∧ s.cell? row col = some x ∧
      cellString ext s.fmtr x = .ok (errorText v) := by
  have hr : SheetRecs strings styles mr mc (r :: post) (⟨row, col, .value (.str (errorText v)) 0⟩ :: vs) := by
    cases he with
    | value k tail hk => exact .error row col xf v k tail post vs hf hk hpost
    | formula u x y z tail => exact .formulaError row col xf u v x y z tail post vs hf hpost
  have h := Links.recs_append hpre hr (by
    intro q hq
    cases hq
    cases he with
    | value => show (517 : Nat) ≠ 0x3C; decide
    | formula => show (6 : Nat) ≠ 0x3C; decide)
  obtain ⟨s, e, hh, _⟩ := C49_sheet_partial ext b i recs hi hz strings styles hs hx bof _ hv hb mr mc hd _ h
  have hl : lastAt row col (ws ++ ⟨row, col, .value (.str (errorText v)) 0⟩ :: vs) = some (.value (.str (errorText v)) 0) :=
    Links.lastAt_take (by simp [lastAt, hlast])
  obtain ⟨x, h1, h2⟩ := hh.written row col _ hl
  obtain ⟨c, hc, ht, _⟩ := C74_text_partial ext b.nfmt (errorText v) (TruthError.error_plain v).1 (TruthError.error_plain v).2 0 (.inl rfl)
  cases Links.builds_unique h1 hc
  exact ⟨s, _, e, h2, by rw [hh.fmtr]; exact ht⟩

/-- C144 for error values in xlsx files, as far as it holds: cells of any type that hold the text of an error, with a style with the
General or the Text format, show it. Missing: all other formats, where it is false (`C144_error_counterexample`), and what C58
leaves out. -/
theorem C144_xlsx_partial (ext : Ext) (a : Xlsx.Archive) (d : Xlsx.Doc) (dir : List Bytes) (base : Bytes)
    (hdir : ∀ s ∈ dir, RealName s) (hbase : PathName base) (xs : List ACell)
    (hx : ∀ x ∈ xs, x.Ok ext d.strings d.xfs) (hn : (xs.map (fun x => (x.row, x.col))).Nodup)
    (hp : HasPart a (pathOf (dir ++ [base])) (xs.flatMap ACell.toks)) (hl : LacksPart a (relsPart dir base)) :
    ∃ s, Xlsx.parseSheet ext a d (pathOf (dir ++ [base])) = .ok (s, none) ∧
      ∀ x ∈ xs, ∀ v : UInt8, x.value = .str (errorText v) → x.fmt = 0 ∨ x.fmt = 49 →
        ∃ c, s.cell? x.row x.col = some c ∧ cellString ext d.fmt c = .ok (errorText v) := by
  obtain ⟨s, e, h, _⟩ := C58_cells_partial ext a d dir base hdir hbase xs hx hn hp hl
  refine ⟨s, e, fun x hx v hv hf => ?_⟩
  obtain ⟨c, h1, h2⟩ := h x hx
  obtain ⟨c', hc, ht, _⟩ := C74_text_partial ext d.fmt (errorText v) (TruthError.error_plain v).1 (TruthError.error_plain v).2 x.fmt hf
  rw [hv] at h2
  cases Links.builds_unique h2 hc
  exact ⟨_, h1, ht⟩

/-- A cell with the error of a division by zero and the first style. -/
def exErrorCell : List Xlsx.Tok := [.start (lit "c") [(lit "r", lit "A1"), (lit "s", lit "0"), (lit "t", lit "e")],
  .start (lit "f") [], .chars (lit "1/0"), .stop (lit "f"), .start (lit "v") [], .chars (lit "#DIV/0!"), .stop (lit "v"),
  .stop (lit "c")]

/-- C144 is false for error values in xlsx files: `#DIV/0!` in a cell with the format `#,##0` is the number 0 and shown as `0`. -/
theorem C144_error_counterexample (ext : Ext) :
    ∃ s c, Xlsx.parseSheet ext [(lit "s", .ok ⟨exErrorCell, .eof⟩)] ⟨[], [], [], [], [3], Formatter.new⟩ (lit "s") = .ok (s, none) ∧
      s.cell? 0 0 = some c ∧ c.value = .int 0 ∧ cellString ext s.fmtr c = .ok (lit "0") :=
  ⟨_, _, rfl, rfl, rfl, rfl⟩

/-- A number in C2, then `#N/A` in its place. -/
def exErrorRecs : List Record := [⟨0x809, []⟩, ⟨515, cellHead 1 2 0 (leBytes 8 0)⟩, ⟨517, cellHead 1 2 0 [0x2A, 1]⟩]

/-- A workbook with this sheet; its first style has the number format `#,##0`. -/
def exErrorBook : Xls.Book := ⟨[], 0, [], [exErrorRecs.map (fun r => Xls.recOf r [])], [], Formatter.new, [3]⟩

/-- The hypotheses of `C144_xls` hold for it, and those of `C144_xlsx_partial` for a cell of the error type. -/
theorem C144_witness (ext : Ext) :
    (∃ s x, Xls.parseSheet ext exErrorBook 0 = .ok (some s) ∧ s.cell? 1 2 = some x ∧ cellString ext s.fmtr x = .ok (lit "#N/A")) ∧
    (⟨0, 0, [(lit "r", lit "A1"), (lit "t", lit "e")], [.start (lit "v") [], .chars (lit "#N/A"), .stop (lit "v")],
      .str (errorText 0x2A), 0⟩ : ACell).Ok ext [] [0] := by
  constructor
  · exact C144_xls ext exErrorBook 0 (exErrorRecs.map (fun r => Xls.recOf r [])) rfl (by
      intro r hr
      obtain ⟨q, _, rfl⟩ := List.mem_map.1 hr
      rfl) [] [3] rfl rfl ⟨0x809, []⟩ [⟨515, cellHead 1 2 0 (leBytes 8 0)⟩] [] 1 2 0 0x2A _
      (.value 1 [] (by decide)) rfl rfl 0 0
      (.other _ _ _ _ (by decide) (by decide) (by decide) (.other _ _ _ _ (by decide) (by decide) (by decide) (.nil _)))
      _ [] (by
        have := SheetRecs.number (strings := []) (styles := [3]) (maxRow := 0) (maxCol := 0) 1 2 0 0 [] [] [] (by unfold HeadFits; decide)
          (by decide) .nil
        rw [List.append_nil] at this
        exact this) .nil (by unfold HeadFits; decide) rfl
  · have l1 : Lacks [(lit "r", lit "A1"), (lit "t", lit "e")] "s" := by
      intro v hv
      simp only [List.mem_cons, Prod.mk.injEq, List.not_mem_nil, or_false] at hv
      rcases hv with ⟨h, _⟩ | ⟨h, _⟩ <;> exact absurd h (by decide +kernel)
    refine ⟨by unfold Distinct; decide +kernel, ⟨_, by unfold Has; decide +kernel, exA1⟩,
      ⟨by unfold maxIndex; decide, by unfold maxIndex; decide⟩, ⟨0, .inl ⟨l1, rfl⟩, by decide, rfl⟩,
      ⟨some (lit "e"), .inr ⟨_, by unfold Has; decide +kernel, rfl⟩, ?_⟩⟩
    exact .value [] [] (lit "v") (lit "#N/A") [] _ (by simp) (by simp) (.inl rfl) (.text _ _ (.inr (.inr (.inl rfl))))

end Grate.Props
