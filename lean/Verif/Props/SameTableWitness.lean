import Verif.Props.SameTable

/-! # C110: an example of the same table in both formats, and one where the rows differ -/

namespace Grate.Props

open Grate Grate.Spec Grate.Xlsx

/-- The tokens of a cell with a style and a type. -/
def exCellToks (ref style : String) (type : Option String) (text : Bytes) : List Tok :=
  .start (lit "c") ([(lit "r", lit ref), (lit "s", lit style)] ++ type.toList.map (fun t => (lit "t", lit t))) ::
    ([.start (lit "v") [], .chars text, .stop (lit "v")] ++ [.stop (lit "c")])

/-- The sheet of the example workbook of C49, as an xlsx part. -/
def exSameToks : List Tok :=
  [.start (lit "worksheet") []] ++ .start (lit "dimension") [(lit "ref", lit "A1:D4")] ::
    (exCellToks "A1" "0" none (lit "100") ++ exCellToks "A2" "1" none (lit "5") ++ exCellToks "B2" "1" none (lit "1") ++
      exCellToks "A3" "1" (some "s") (lit "0") ++ exCellToks "B3" "1" (some "str") (utf8 [0x61, 0x1F600]) ++
      [.start (lit "mergeCell") [(lit "ref", lit "C3:D4")]])

/-- Its cells. -/
def exSameWrites : List Write :=
  [⟨0, 0, .value (.f64 (Float.ofBits (UInt64.ofNat 0x4059000000000000))) 14⟩,
   ⟨1, 0, .value (.f64 (f64OfInt 5)) 0⟩, ⟨1, 1, .value (.f64 (f64OfNat 1)) 0⟩,
   ⟨2, 0, .value (.str (lit "hi")) 0⟩,
   ⟨2, 1, .value (.str (utf8 [0x61, 0x1F600])) 0⟩,
   ⟨2, 3, .value (.str (lit "⇥")) 0⟩, ⟨3, 2, .value (.str (lit "⤓")) 0⟩, ⟨3, 3, .value (.str (lit "⇥")) 0⟩]

theorem exCell_toks {ext : Ext} {strings : List Bytes} {styles : List Nat} {links : Bytes → Bytes} {mr mc : Nat}
    {ref style : String} {type : Option String} {text : Bytes} {r c k : Nat} {v : GoVal} {ts : List Tok} {ws : List Write}
    (hr : A1 c r (lit ref)) (h1 : r < maxIndex) (h2 : c < maxIndex) (hd : IsDigits (lit style)) (hk : digitsVal (lit style) = k)
    (hk2 : k < 2 ^ 63) (hv : CellMeans ext strings (type.map lit) text v)
    (h : WsToks ext strings styles links mr mc ts ws) :
    WsToks ext strings styles links mr mc (exCellToks ref style type text ++ ts)
      (⟨r, c, .value v (styleFormat styles k)⟩ :: ws) := by
  have hrs : lit "r" ≠ lit "s" ∧ lit "r" ≠ lit "t" ∧ lit "s" ≠ lit "t" := by decide +kernel
  have hdist : Distinct ([(lit "r", lit ref), (lit "s", lit style)] ++ type.toList.map (fun t => (lit "t", lit t))) := by
    unfold Distinct
    cases type with
    | none => simp [hrs.1]
    | some t => simp [hrs.1, hrs.2.1, hrs.2.2]
  have hty : CellType? ([(lit "r", lit ref), (lit "s", lit style)] ++ type.toList.map (fun t => (lit "t", lit t)))
      (type.map lit) := by
    cases type with
    | none =>
      refine .inl ⟨?_, rfl⟩
      intro v hv
      simp only [Option.toList_none, List.map_nil, List.append_nil, List.mem_cons, Prod.mk.injEq, List.not_mem_nil,
        or_false] at hv
      rcases hv with ⟨e, _⟩ | ⟨e, _⟩
      · exact hrs.2.1 e.symm
      · exact hrs.2.2 e.symm
    | some t => exact .inr ⟨lit t, by unfold Has; simp, rfl⟩
  have := WsToks.cell (ext := ext) (strings := strings) (styles := styles) (links := links) (maxRow := mr) (maxCol := mc)
    ([(lit "r", lit ref), (lit "s", lit style)] ++ type.toList.map (fun t => (lit "t", lit t))) r c k (lit ref) (type.map lit)
    ([] ++ .start (lit "v") [] :: .chars text :: .stop (lit "v") :: []) (some v) ts ws hdist (by unfold Has; simp) hr h1 h2
    (.inr ⟨lit style, by unfold Has; simp, hd, hk⟩) hk2 hty
    (.value [] [] (lit "v") text [] v (by simp) (by simp) (.inl rfl) hv) h
  simpa [exCellToks] using this

theorem a1_text {s ds t : String} {c r : Nat} (ht : lit s ++ lit ds = lit t) (h1 : ColumnName (lit s) c)
    (h2 : Numeral (lit ds) (r + 1)) : A1 c r (lit t) := by
  rw [← ht]
  exact .mk _ _ h1 h2

theorem exSame_part (ext : Ext) (hp : GoParses ext) :
    WsPart ext [lit "hi"] [14, 0] (targetOf []) exSameToks (3, 3) exSameWrites := by
  have d0 : IsDigits (lit "0") ∧ digitsVal (lit "0") = 0 ∧ IsDigits (lit "1") ∧ digitsVal (lit "1") = 1 := by
    unfold IsDigits; decide +kernel
  have m : (3 : Nat) < maxIndex := by unfold maxIndex; decide
  have a1 : A1 0 0 (lit "A1") := exA1
  have a2 : A1 0 1 (lit "A2") := a1_text (s := "A") (ds := "2") (by decide +kernel) (by unfold ColumnName; decide +kernel)
    (by unfold Numeral IsDigits; decide +kernel)
  have b2 : A1 1 1 (lit "B2") := a1_text (s := "B") (ds := "2") (by decide +kernel) (by unfold ColumnName; decide +kernel)
    (by unfold Numeral IsDigits; decide +kernel)
  have a3 : A1 0 2 (lit "A3") := a1_text (s := "A") (ds := "3") (by decide +kernel) (by unfold ColumnName; decide +kernel)
    (by unfold Numeral IsDigits; decide +kernel)
  have b3 : A1 1 2 (lit "B3") := a1_text (s := "B") (ds := "3") (by decide +kernel) (by unfold ColumnName; decide +kernel)
    (by unfold Numeral IsDigits; decide +kernel)
  have c3 : A1 2 2 (lit "C3") := a1_text (s := "C") (ds := "3") (by decide +kernel) (by unfold ColumnName; decide +kernel)
    (by unfold Numeral IsDigits; decide +kernel)
  have d4 : A1 3 3 (lit "D4") := a1_text (s := "D") (ds := "4") (by decide +kernel) (by unfold ColumnName; decide +kernel)
    (by unfold Numeral IsDigits; decide +kernel)
  have num : ∀ (s : Bytes) (x : Float), goParseFloat s = some (x, none) → CellMeans ext [lit "hi"] none s (.f64 x) :=
    fun s x h => .number none s x (.inl rfl) (hp s _ h)
  have f100 : goParseFloat (lit "100") = some (Float.ofBits (UInt64.ofNat 0x4059000000000000), none) := by decide +kernel
  have f5 : goParseFloat (lit "5") = some (f64OfInt 5, none) := by decide +kernel
  have f1 : goParseFloat (lit "1") = some (f64OfNat 1, none) := by decide +kernel
  have hdim : DimRef (lit "A1:D4") 3 3 := by
    have := DimRef.range 0 0 3 3 (lit "A1") (lit "D4") a1 d4 m m
    have e : lit "A1" ++ 58 :: lit "D4" = lit "A1:D4" := by decide +kernel
    rwa [e] at this
  have hreg : RegionRef ⟨2, 3, 2, 3⟩ (lit "C3:D4") := by
    have := RegionRef.range 2 3 2 3 (lit "C3") (lit "D4") c3 d4 (by omega) (by omega) m m
    have e : lit "C3" ++ 58 :: lit "D4" = lit "C3:D4" := by decide +kernel
    rwa [e] at this
  refine .dimension [.start (lit "worksheet") []] _ (lit "A1:D4") 3 3 _ _ ?_ ?_ ?_ hdim ?_
  · intro x hx
    simp only [List.mem_singleton] at hx
    subst hx
    unfold Starts sheetNames
    decide +kernel
  · unfold Distinct; simp
  · unfold Has; simp
  · simp only [List.append_assoc]
    refine exCell_toks (k := 0) (v := .f64 (Float.ofBits (UInt64.ofNat 0x4059000000000000))) a1 (by omega) (by omega) d0.1 d0.2.1
      (by decide) (num _ _ f100) ?_
    refine exCell_toks (k := 1) (v := .f64 (f64OfInt 5)) a2 (by omega) (by omega) d0.2.2.1 d0.2.2.2 (by decide) (num _ _ f5) ?_
    refine exCell_toks (k := 1) (v := .f64 (f64OfNat 1)) b2 (by omega) (by omega) d0.2.2.1 d0.2.2.2 (by decide) (num _ _ f1) ?_
    refine exCell_toks (k := 1) (v := .str (lit "hi")) a3 (by omega) (by omega) d0.2.2.1 d0.2.2.2 (by decide)
      (.shared _ _ d0.1 (by rw [d0.2.1]; decide) (by rw [d0.2.1]; rfl)) ?_
    refine exCell_toks (k := 1) (v := .str (utf8 [0x61, 0x1F600])) b3 (by omega) (by omega) d0.2.2.1 d0.2.2.2 (by decide)
      (.text _ _ (.inl rfl)) ?_
    have := WsToks.merge (ext := ext) (strings := [lit "hi"]) (styles := [14, 0]) (links := targetOf []) (maxRow := 3)
      (maxCol := 3) [(lit "ref", lit "C3:D4")] ⟨2, 3, 2, 3⟩ (lit "C3:D4") (exSameWrites.drop 5) [] [] (by unfold Distinct; simp)
      (by unfold Has; simp) hreg (Xls.region_exists (Region.upTo 3 3 ⟨2, 3, 2, 3⟩) none) .nil
    exact this

/-- The two tables have the same content; two whole numbers are stored as integers in the first and one text is the
result of a formula. -/
theorem exSame_cells : SameCells [] [] exWrites exSameWrites := by
  have h14 : SameFormat [] [] 14 14 := .builtIn 14 rfl
  have h0 : SameFormat [] [] 0 0 := .builtIn 0 rfl
  have e5 : rkMeans 22 = .sint 5 := rfl
  have e1 : rkMeans 0x3FF00000 = .f64 (f64OfNat 1) := C48_witness.2.2.1
  have ehi : utf8 [0x68, 0x69] = lit "hi" := by decide +kernel
  intro r c
  unfold exWrites exSameWrites
  rw [e5, e1, ehi]
  rcases r with _ | _ | _ | _ | r <;> rcases c with _ | _ | _ | _ | c <;>
    first
    | exact .inl ⟨rfl, rfl⟩
    | exact .inr ⟨_, _, rfl, rfl, .value _ _ _ h14⟩
    | exact .inr ⟨_, _, rfl, rfl, .value _ _ _ h0⟩
    | exact .inr ⟨_, _, rfl, rfl, .whole 5 0 0 h0 (by decide) (.inr (by decide))⟩
    | exact .inr ⟨_, _, rfl, rfl, .result _ (by decide +kernel)⟩

/-- C110: the example workbook of C49 and the same table as an xlsx part give the same rows. -/
theorem C110_witness (p : Crypto.Prims) (ext : Ext) (hg : GoShort ext) (hp : GoParses ext) :
    ∃ b s s', Xls.loadStream p makeFormatter [] ⟨stream exBook.flatten, []⟩ = .ok b ∧ b.get ext (lit "S") = .ok (some s) ∧
      Xlsx.parseSheet ext [(lit "sheet1.xml", .ok ⟨exSameToks, .eof⟩)] ⟨[], [], [], [lit "hi"], [14, 0], Formatter.new⟩
        (lit "sheet1.xml") = .ok (s', none) ∧
      ∀ fuel, drain Sheet.next (Sheet.strings ext) fuel s = drain Sheet.next (Sheet.strings ext) fuel s' := by
  obtain ⟨b, s, s', e1, e2, e3, e4⟩ := C110_sheet_partial p ext hg exBook_grouped.1 exBook_grouped.2 exBook_content [] [] []
    exEntry rfl (by simp) 1 (exBof 0x10) exSheet rfl (by decide +kernel) (4, 4) exSheet_declares (by decide +kernel) exWrites
    exSheet_recs [] rfl [(lit "sheet1.xml", .ok ⟨exSameToks, .eof⟩)] ⟨[], [], [], [lit "hi"], [14, 0], Formatter.new⟩ [] rfl []
    (lit "sheet1.xml") (by simp) (realName_of (by decide +kernel)).1 exSameToks ⟨[], [], rfl, by simp⟩ [] (.inl ⟨by
      intro e he
      simp only [List.mem_singleton] at he
      subst he
      decide +kernel, rfl⟩) (3, 3) exSameWrites (exSame_part ext hp) (by unfold OnceEach; simp) (by unfold OnceEach; simp)
    exSame_cells 4 4 (by unfold Extent exWrites; simp) (by unfold Extent exWrites; simp) (by unfold Extent exSameWrites; simp)
    (by unfold Extent exSameWrites; simp)
  exact ⟨b, s, s', e1, e2, e3, e4⟩

/-- C110 is false for error values in cells with a number format: the xls record of `#N/A` under the format `0` is shown
as `#N/A`, the xlsx cell with the same value and format as `0`. -/
theorem C110_counterexample (ext : Ext) (f : Formatter) (tail : Bytes) :
    SheetRecs [] [1] 1 1 [⟨517, cellHead 0 0 0 (0x2A :: 1 :: tail)⟩] [⟨0, 0, .value (.str (lit "#N/A")) 0⟩] ∧
    WsPart ext [] [1] (targetOf []) (exCellToks "A1" "0" (some "e") (lit "#N/A")) (0, 0) [⟨0, 0, .value (.str (lit "#N/A")) 1⟩] ∧
    ∃ c c', Builds ext f (.str (lit "#N/A")) 0 c ∧ Builds ext f (.str (lit "#N/A")) 1 c' ∧
      cellString ext f c = .ok (lit "#N/A") ∧ cellString ext f c' = .ok (lit "0") := by
  refine ⟨?_, ?_, ?_⟩
  · exact .error 0 0 0 0x2A 1 tail [] [] (by unfold HeadFits; decide) (by decide) .nil
  · have d0 : IsDigits (lit "0") ∧ digitsVal (lit "0") = 0 := by unfold IsDigits; decide +kernel
    have m : (0 : Nat) < maxIndex := by unfold maxIndex; decide
    have := exCell_toks (ext := ext) (strings := []) (styles := [1]) (links := targetOf []) (mr := 0) (mc := 0) (type := some "e")
      (text := lit "#N/A") (k := 0) (v := .str (lit "#N/A")) exA1 m m d0.1 d0.2 (by decide) (.text _ _ (.inr (.inr (.inl rfl))))
      .nil
    rw [List.append_nil] at this
    exact .plain _ _ this
  · have hm : (GoVal.str (lit "#N/A")).marker = false := by decide +kernel
    have hne : lit "#N/A" ≠ [] := by decide +kernel
    have hpi : (parseInt 64 (lit "#N/A")).1 = 0 := by decide +kernel
    refine ⟨.full (.str (lit "#N/A")) .string none [], .full (.int 0) .integer (some 1) [], ?_, ?_, rfl, ?_⟩
    · rw [builds_iff]
      unfold putCell typedCell
      rw [hm]
      cases f.getCellType 0 <;> simp [newCell, textCell, hne, Cell.setFormatNumber]
    · rw [builds_iff]
      unfold putCell typedCell
      rw [hm]
      have : f.getCellType 1 = some .integer := rfl
      rw [this]
      simp [newCellWithType, newCell, textCell, hne, coerce, coerceBool, coerceFloat, coerceInt, coerceStr, coerceLast, hpi,
        Cell.setFormatNumber]
    · show GoRes.ok (decInt 0) = _
      have : decInt 0 = lit "0" := by decide +kernel
      rw [this]

end Grate.Props
