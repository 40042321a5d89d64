import Verif.Lemmas.XlsxSheet
import Verif.Props.XlsSheet

/-! # Properties C56–C59: the parts of Office Open XML workbooks -/

namespace Grate.Props

open Grate Grate.Spec Grate.Xlsx
open Grate.Xls (Upd AllBlank lastAt_append)

/-! ### C56: shared strings -/

/-- C56: the shared strings are the texts of the string items, in order. -/
theorem C56_strings (ts : List Tok) (ss : List Bytes) (h : SstToks ts ss) :
    parseSharedStrings ⟨ts, .eof⟩ [] = .ok ss := by
  unfold parseSharedStrings
  rw [stringsLoop_spec h]
  rfl

/-- A part with a plain item, an item of two runs, and an empty item, with white space between them. -/
def exSharedStrings : List Tok :=
  [.start (lit "sst") [], .chars (lit "\n"), .start (lit "si") [], .start (lit "t") [], .chars (lit "one"), .stop (lit "t"),
    .stop (lit "si"), .chars (lit "\n"), .start (lit "si") [], .start (lit "r") [], .start (lit "t") [], .chars (lit "tw"),
    .stop (lit "t"), .stop (lit "r"), .start (lit "r") [], .start (lit "t") [], .chars (lit "o"), .stop (lit "t"),
    .stop (lit "r"), .stop (lit "si"), .start (lit "si") [], .stop (lit "si"), .stop (lit "sst")]

theorem lit_si : lit "sst" ≠ lit "si" ∧ lit "t" ≠ lit "si" ∧ lit "r" ≠ lit "si" := by decide +kernel

theorem C56_witness : SstToks exSharedStrings [lit "one", lit "two", []] := by
  have e : lit "two" = textOf [.start (lit "r") [], .start (lit "t") [], .chars (lit "tw"),
    .stop (lit "t"), .stop (lit "r"), .start (lit "r") [], .start (lit "t") [], .chars (lit "o"), .stop (lit "t"),
    .stop (lit "r")] := by decide +kernel
  have e1 : lit "one" = textOf [.start (lit "t") [], .chars (lit "one"), .stop (lit "t")] := by decide +kernel
  rw [e, e1]
  refine .other _ _ _ (by simp [Starts, lit_si]) (by simp [Stops]) (.other _ _ _ (by simp [Starts]) (by simp [Stops]) ?_)
  refine .item [] [.start (lit "t") [], .chars (lit "one"), .stop (lit "t")] _ _ ?_
    (.other (.chars (lit "\n")) _ _ (by simp [Starts]) (by simp [Stops]) (.item [] [_, _, _, _, _, _, _, _, _, _] _ _ ?_
      (.item [] [] _ _ (by simp) (.other (.stop (lit "sst")) _ _ (by simp [Starts]) (by simp [Stops, lit_si]) .nil))))
  · simp [Starts, Stops, lit_si]
  · simp [Starts, Stops, lit_si]

/-! ### C57: styles -/

/-- C57: the number formats of a style part are added to the formatter in order, and the format of cell style `k` is
that of the `k`-th cell xf entry. Missing: number formats disabled by the word `false`, and ids above 32767
(`C57_counterexample`). -/
theorem C57_styles_partial (mk : Bytes → Fmt × CellType) (ts : List Tok) (as : List (Nat × Bytes)) (ns : Option (List Nat))
    (h : StyleToks ts as ns) (f : Formatter) :
    parseStyles mk ⟨ts, .eof⟩ f = .ok (as.foldl (fun f a => (f.add mk a.1 a.2).1) f, ns.getD []) := by
  obtain ⟨st, e, h1, h2⟩ := stylesLoop_spec mk h ⟨f, [], [], 0⟩ rfl
  unfold parseStyles
  rw [e, GoRes.ok_bind, h1, h2]
  rfl

/-- A style part: one number format and three cell styles, the last with number formats disabled. -/
def exStylePart : List Tok :=
  [.start (lit "numFmt") [(lit "numFmtId", lit "164"), (lit "formatCode", lit "0.000")], .stop (lit "numFmt"),
    .start (lit "cellStyleXfs") [(lit "count", lit "1")], .start (lit "xf") [(lit "numFmtId", lit "0")], .stop (lit "xf"),
    .stop (lit "cellStyleXfs"),
    .start (lit "cellXfs") [(lit "count", lit "3")], .start (lit "xf") [(lit "numFmtId", lit "14"), (lit "xfId", lit "0")],
    .stop (lit "xf"), .start (lit "xf") [(lit "numFmtId", lit "164"), (lit "applyNumberFormat", lit "1")],
    .start (lit "xf") [(lit "numFmtId", lit "14"), (lit "applyNumberFormat", lit "0")], .stop (lit "cellXfs")]

theorem numAttr_has {attrs : List (Bytes × Bytes)} {k : String} {d n : Nat} (s : Bytes) (h1 : Has attrs k s)
    (h2 : IsDigits s) (h3 : digitsVal s = n) : NumAttr attrs k d n := .inr ⟨s, h1, h2, h3⟩

theorem isDigits_of {s : Bytes} (h : (s != [] && s.all (fun b => decide (48 ≤ b) && decide (b ≤ 57))) = true) : IsDigits s := by
  simp only [Bool.and_eq_true, bne_iff_ne, ne_eq, List.all_eq_true, decide_eq_true_eq] at h
  exact ⟨h.1, fun b hb => h.2 b hb⟩

theorem C57_witness : StyleToks exStylePart [(164, lit "0.000")] (some [14, 164, 0]) := by
  have hx1 : XfFormat [(lit "numFmtId", lit "14"), (lit "xfId", lit "0")] 14 :=
    ⟨by unfold Distinct; decide +kernel, ⟨0, numAttr_has (lit "0") (by unfold Has; decide +kernel) (isDigits_of (by decide +kernel)) (by decide +kernel)⟩,
      .inr ⟨by unfold Has; decide +kernel, by unfold Has; decide +kernel,
        numAttr_has (lit "14") (by unfold Has; decide +kernel) (isDigits_of (by decide +kernel)) (by decide +kernel), by decide⟩⟩
  have l1 : ∀ a : Bytes, Lacks [(lit "numFmtId", lit "164"), (lit "applyNumberFormat", a)] "xfId" := by
    intro a v hv
    simp only [List.mem_cons, Prod.mk.injEq, List.not_mem_nil, or_false] at hv
    rcases hv with ⟨h, _⟩ | ⟨h, _⟩ <;> exact absurd h (by decide +kernel)
  have l2 : ∀ a : Bytes, Lacks [(lit "numFmtId", lit "14"), (lit "applyNumberFormat", a)] "xfId" := by
    intro a v hv
    simp only [List.mem_cons, Prod.mk.injEq, List.not_mem_nil, or_false] at hv
    rcases hv with ⟨h, _⟩ | ⟨h, _⟩ <;> exact absurd h (by decide +kernel)
  have hx2 : XfFormat [(lit "numFmtId", lit "164"), (lit "applyNumberFormat", lit "1")] 164 :=
    ⟨by unfold Distinct; decide +kernel, ⟨0, .inl ⟨l1 _, rfl⟩⟩,
      .inr ⟨by unfold Has; decide +kernel, by unfold Has; decide +kernel,
        numAttr_has (lit "164") (by unfold Has; decide +kernel) (isDigits_of (by decide +kernel)) (by decide +kernel), by decide⟩⟩
  have hx3 : XfFormat [(lit "numFmtId", lit "14"), (lit "applyNumberFormat", lit "0")] 0 :=
    ⟨by unfold Distinct; decide +kernel, ⟨0, .inl ⟨l2 _, rfl⟩⟩, .inl ⟨by unfold Has; decide +kernel, rfl⟩⟩
  refine .numFmt _ 164 _ _ _ _ (by unfold Distinct; decide +kernel)
    (numAttr_has (lit "164") (by unfold Has; decide +kernel) (isDigits_of (by decide +kernel)) (by decide +kernel)) (by decide)
    (by unfold Has; decide +kernel) (.other _ _ _ _ (by simp [Starts]) ?_)
  refine .base _ [.start (lit "xf") [(lit "numFmtId", lit "0")], .stop (lit "xf")] _ _ _ ?_ ?_
  · intro t ht
    simp only [List.mem_cons, List.not_mem_nil, or_false] at ht
    rcases ht with rfl | rfl
    · exact ⟨by unfold Starts; decide +kernel, by simp [Stops]⟩
    · exact ⟨by simp [Starts], by unfold Stops; decide +kernel⟩
  · refine .cells _ 3 [_, _, _, _] [] [14, 164, 0] [] (by unfold Distinct; decide +kernel)
      (numAttr_has (lit "3") (by unfold Has; decide +kernel) (isDigits_of (by decide +kernel)) (by decide +kernel)) (by decide)
      (.xf _ _ _ _ hx1 (.other _ _ _ (by simp [Starts]) (by unfold Stops; decide +kernel) (.xf _ _ _ _ hx2 (.xf _ _ _ _ hx3 .nil)))) .nil

/-- C57 is false in general: number formats disabled by `false` (which XML allows for `0`) are used, and an id above
32767 becomes 32767. -/
theorem C57_counterexample (mk : Bytes → Fmt × CellType) (f : Formatter) :
    parseStyles mk ⟨[.start (lit "cellXfs") [(lit "count", lit "2")],
      .start (lit "xf") [(lit "numFmtId", lit "14"), (lit "applyNumberFormat", lit "false")],
      .start (lit "xf") [(lit "numFmtId", lit "40000")]], .eof⟩ f = .ok (f, [14, 32767]) := by
  rfl

/-! ### C58: cells -/

theorem holds_of_upd {ext : Ext} {f : Formatter} {ws : List Write} {s0 s : Sheet} (hf : s0.fmtr = f) (hb : AllBlank s0)
    (hc : s0.curRow = 0) (u : Upd ext s0 s ws) : Holds ext f ws s := by
  refine ⟨by rw [u.fmtr, hf], ?_, ?_, u.cur hc, u.inside⟩
  · intro r c w hw
    have := u.cells r c
    rw [hw, hf] at this
    obtain ⟨x, h1, h2⟩ := this
    exact ⟨x, h1, by rw [cell?_nat]; exact h2⟩
  · intro r c hw
    have := u.cells r c
    rw [hw] at this
    rw [cell?_nat]
    rcases this with ⟨y, h1, h2⟩ | ⟨_, h2⟩
    · rcases hb r c with h3 | h3
      · rw [h3] at h1; cases h1
      · rw [h3] at h1; cases h1; exact .inr h2
    · exact h2

/-- Worksheet parts, with the part of the links: the sheet holds exactly what its elements write, all its rows have the
same width, and it has at least the declared size. -/
theorem C58_sheet_partial (ext : Ext) (a : Archive) (d : Doc) (dir : List Bytes) (base : Bytes)
    (hdir : ∀ s ∈ dir, RealName s) (hbase : PathName base) (ts : List Tok)
    (hp : HasPart a (pathOf (dir ++ [base])) ts) (ls : List (Bytes × Bytes))
    (hl : (LacksPart a (relsPart dir base) ∧ ls = []) ∨ ∃ us, HasPart a (relsPart dir base) us ∧ LinkToks us ls)
    (m : Nat × Nat) (ws : List Write) (h : WsPart ext d.strings d.xfs (targetOf ls) ts m ws) :
    ∃ s, parseSheet ext a d (pathOf (dir ++ [base])) = .ok (s, none) ∧ Holds ext d.fmt ws s ∧
      SizeIs m.1 m.2 ws s ∧ Rectangular s := by
  obtain ⟨s0, st, e, u, hi, hb, hf, hc, hr, h1, h2, h3, h4⟩ := wsPart_spec ext d (targetOf ls) h
  refine ⟨st.sheet, ?_, holds_of_upd hf hb hc u, ⟨Int.le_trans h1 u.rows, Int.le_trans h2 u.cols,
    fun n g0 g1 hw => u.tight.1 n (h3 n g0 g1) hw, fun n g0 g1 hw => u.tight.2 n (h4 n g0 g1) hw⟩, rectangular_of (u.rect hr)⟩
  · unfold parseSheet
    rw [openXML_has hp]
    simp only
    rw [linkMap_spec hdir hbase hl, e, GoRes.ok_bind]
    rfl

/-- A cell of a worksheet: position, reference, style, type, content and value. -/
structure ACell where
  row : Nat
  col : Nat
  attrs : List (Bytes × Bytes)
  inner : List Tok
  value : GoVal
  fmt : Nat

/-- The cell is well-formed. -/
structure ACell.Ok (ext : Ext) (strings : List Bytes) (styles : List Nat) (x : ACell) : Prop where
  distinct : Distinct x.attrs
  ref : ∃ s, Has x.attrs "r" s ∧ A1 x.col x.row s
  small : x.row < maxIndex ∧ x.col < maxIndex
  style : ∃ k, NumAttr x.attrs "s" 0 k ∧ k < 2 ^ 63 ∧ x.fmt = styleFormat styles k
  content : ∃ t, CellType? x.attrs t ∧ CellContent ext strings t x.inner (some x.value)

/-- The tokens of the cell. -/
def ACell.toks (x : ACell) : List Tok := .start (lit "c") x.attrs :: (x.inner ++ [.stop (lit "c")])

/-- What the cell writes. -/
def ACell.write (x : ACell) : Write := ⟨x.row, x.col, .value x.value x.fmt⟩

theorem cells_toks {ext : Ext} {strings : List Bytes} {styles : List Nat} {links : Bytes → Bytes} {mr mc : Nat} :
    ∀ xs : List ACell, (∀ x ∈ xs, x.Ok ext strings styles) →
      WsToks ext strings styles links mr mc (xs.flatMap ACell.toks) (xs.map ACell.write) := by
  intro xs
  induction xs with
  | nil => intro _; exact .nil
  | cons x xs ih =>
    intro h
    obtain ⟨h1, ⟨s, h2, h3⟩, ⟨h4, h5⟩, ⟨k, h6, h7, h8⟩, ⟨t, h9, h10⟩⟩ := h x (by simp)
    have := WsToks.cell (links := links) (maxRow := mr) (maxCol := mc) x.attrs x.row x.col k s t x.inner (some x.value) _ _ h1 h2 h3 h4 h5 h6 h7
      h9 h10 (ih (fun y hy => h y (by simp [hy])))
    rw [List.flatMap_cons, List.map_cons]
    unfold ACell.toks ACell.write
    rw [List.cons_append, List.append_assoc, h8]
    exact this

theorem lastAt_distinct : ∀ ws : List Write, (ws.map (fun w => (w.row, w.col))).Nodup → ∀ w ∈ ws,
    lastAt w.row w.col ws = some w.what := by
  intro ws
  induction ws with
  | nil => intro _ w hw; cases hw
  | cons x ws ih =>
    intro hn w hw
    rw [List.map_cons, List.nodup_cons] at hn
    unfold lastAt
    rcases List.mem_cons.1 hw with rfl | hw
    · cases hl : lastAt w.row w.col ws with
      | none => simp
      | some y =>
        obtain ⟨v, hv, h1, h2⟩ := Xls.lastAt_mem hl
        exact absurd (List.mem_map.2 ⟨v, hv, by rw [h1, h2]⟩) hn.1
    · rw [ih hn.2 w hw]

theorem lastAt_absent (r c : Nat) (ws : List Write) (h : (r, c) ∉ ws.map (fun w => (w.row, w.col))) : lastAt r c ws = none := by
  cases hl : lastAt r c ws with
  | none => rfl
  | some y =>
    obtain ⟨v, hv, h1, h2⟩ := Xls.lastAt_mem hl
    exact absurd (List.mem_map.2 ⟨v, hv, by rw [h1, h2]⟩) h

/-- C58: for every list of cells with distinct references, each with one value, the sheet has at each of these positions
the cell that the value and the format of its style give, and blanks elsewhere. Missing: cells with white space between
their elements and inline strings with several runs, where it is false (`C58_counterexample`). -/
theorem C58_cells_partial (ext : Ext) (a : Archive) (d : Doc) (dir : List Bytes) (base : Bytes)
    (hdir : ∀ s ∈ dir, RealName s) (hbase : PathName base) (xs : List ACell)
    (hx : ∀ x ∈ xs, x.Ok ext d.strings d.xfs) (hn : (xs.map (fun x => (x.row, x.col))).Nodup)
    (hp : HasPart a (pathOf (dir ++ [base])) (xs.flatMap ACell.toks)) (hl : LacksPart a (relsPart dir base)) :
    ∃ s, parseSheet ext a d (pathOf (dir ++ [base])) = .ok (s, none) ∧
      (∀ x ∈ xs, ∃ y, s.cell? x.row x.col = some y ∧ Builds ext d.fmt x.value x.fmt y) ∧
      (∀ r c : Nat, (∀ x ∈ xs, ¬ (x.row = r ∧ x.col = c)) → s.cell? r c = none ∨ s.cell? r c = some .empty) := by
  obtain ⟨s, e, hh, _⟩ := C58_sheet_partial ext a d dir base hdir hbase _ hp [] (.inl ⟨hl, rfl⟩) (0, 0) _
    (.plain _ _ (cells_toks xs hx))
  have hmap : (xs.map ACell.write).map (fun w => (w.row, w.col)) = xs.map (fun x => (x.row, x.col)) := by
    rw [List.map_map]; rfl
  refine ⟨s, e, ?_, ?_⟩
  · intro x hx
    obtain ⟨y, h1, h2⟩ := hh.written _ _ _ (lastAt_distinct _ (by rw [hmap]; exact hn) x.write (List.mem_map_of_mem hx))
    exact ⟨y, h2, h1⟩
  · intro r c h
    refine hh.blank r c (lastAt_absent r c _ ?_)
    rw [hmap]
    intro hm
    obtain ⟨x, h1, h2⟩ := List.mem_map.1 hm
    cases h2
    exact h x h1 ⟨rfl, rfl⟩

/-- The first text of a list of tokens. -/
def firstText : List Tok → Option Bytes
  | [] => none
  | .chars s :: _ => some s
  | _ :: ts => firstText ts

theorem firstText_append : ∀ (pre : List Tok) (s : Bytes) (post : List Tok), (∀ t, .chars t ∉ pre) →
    firstText (pre ++ .chars s :: post) = some s
  | [], _, _, _ => rfl
  | x :: pre, s, post, h => by
    have ih := firstText_append pre s post (fun t ht => h t (by simp [ht]))
    cases x with
    | chars t => exact absurd List.mem_cons_self (h t)
    | start n a => exact ih
    | stop n => exact ih
    | other => exact ih

/-- C56 for cells: a cell with the index `i` shows the `i`-th string of the shared string part. -/
theorem C56_cell (ext : Ext) (a : Archive) (d : Doc) (st : List Tok) (ss : List Bytes) (hst : SstToks st ss)
    (hd : parseSharedStrings ⟨st, .eof⟩ [] = .ok d.strings) (dir : List Bytes) (base : Bytes)
    (hdir : ∀ s ∈ dir, RealName s) (hbase : PathName base) (xs : List ACell) (hx : ∀ x ∈ xs, x.Ok ext d.strings d.xfs)
    (hn : (xs.map (fun x => (x.row, x.col))).Nodup) (hp : HasPart a (pathOf (dir ++ [base])) (xs.flatMap ACell.toks))
    (hl : LacksPart a (relsPart dir base)) (x : ACell) (hm : x ∈ xs) (pre post : List Tok) (i : Bytes)
    (ht : Has x.attrs "t" (lit "s")) (hin : x.inner = pre ++ .chars i :: post) (hpre : ∀ s, .chars s ∉ pre)
    (hi : IsDigits i) (hlt : digitsVal i < 2 ^ 63) :
    ∃ s y t, parseSheet ext a d (pathOf (dir ++ [base])) = .ok (s, none) ∧ ss[digitsVal i]? = some t ∧
      s.cell? x.row x.col = some y ∧ Builds ext d.fmt (.str t) x.fmt y := by
  rw [C56_strings st ss hst] at hd
  cases hd
  obtain ⟨s, e, h1, _⟩ := C58_cells_partial ext a d dir base hdir hbase xs hx hn hp hl
  obtain ⟨y, hy, hb⟩ := h1 x hm
  obtain ⟨t, ht', hc⟩ := (hx x hm).content
  have htt : t = some (lit "s") := by
    rcases ht' with ⟨h, _⟩ | ⟨u, h, rfl⟩
    · exact absurd ht (h _)
    · have h1 := attr?_has (hx x hm).distinct ht
      have h2 := attr?_has (hx x hm).distinct h
      rw [h1] at h2; cases h2; rfl
  subst htt
  have key : ∀ v, CellMeans ext d.strings (some (lit "s")) i v → ∃ t, v = .str t ∧ d.strings[digitsVal i]? = some t := by
    intro v hv
    generalize hts : some (lit "s") = ty at hv
    cases hv with
    | number t s x h _ =>
      subst hts
      rcases h with h | h
      · cases h
      · exact absurd (Option.some.inj h) lit_types.2.2.1
    | notNumber t s x e h _ =>
      subst hts
      rcases h with h | h
      · cases h
      · exact absurd (Option.some.inj h) lit_types.2.2.1
    | true => exact absurd (Option.some.inj hts) lit_types.2.1
    | false => exact absurd (Option.some.inj hts) lit_types.2.1
    | shared _ t _ _ h => exact ⟨t, rfl, h⟩
    | text t s h => exact absurd (Option.some.inj hts).symm (lit_texts t h).2.2.2
  have hcm : CellMeans ext d.strings (some (lit "s")) i x.value := by
    generalize hts : some (lit "s") = ty at hc
    generalize hv : some x.value = v at hc
    generalize x.inner = inn at hin hc
    cases hc with
    | blank => cases hv
    | value pre' post' e' s' a' v' g1 g2 g3 g4 =>
      cases hv
      have : s' = i := by
        have q1 := firstText_append pre i post hpre
        have q2 := firstText_append (pre' ++ [.start e' a']) s' (.stop e' :: post') (by
          intro t ht
          rcases List.mem_append.1 ht with ht | ht
          · exact (g1 _ ht).1 t rfl
          · simp at ht)
        rw [List.append_assoc, List.singleton_append, hin, q1] at q2
        exact (Option.some.inj q2).symm
      subst this; subst hts; exact g4
    | formula _ _ _ _ _ _ _ _ _ _ _ _ h => exact absurd hts.symm h
  obtain ⟨t, h1, h2⟩ := key _ hcm
  rw [h1] at hb
  exact ⟨s, y, t, e, h2, hy, hb⟩

theorem exA1 : A1 0 0 (lit "A1") := by
  refine .mk (lit "A") (lit "1") ?_ ?_
  · unfold ColumnName; decide +kernel
  · unfold Numeral IsDigits; decide +kernel

theorem exAB12 : A1 27 11 (lit "AB12") := by
  refine .mk (lit "AB") (lit "12") ?_ ?_
  · unfold ColumnName; decide +kernel
  · unfold Numeral IsDigits; decide +kernel

/-- A document with two shared strings and a date style. -/
def exXlsxDoc : Doc := ⟨[], [], [], [lit "a", lit "b"], [0, 14], Formatter.new⟩

/-- Two cells: a shared string with a style, and a boolean with a formula. -/
def exSheetCells : List ACell :=
  [⟨0, 0, [(lit "r", lit "A1"), (lit "s", lit "1"), (lit "t", lit "s")],
      [.start (lit "v") [], .chars (lit "1"), .stop (lit "v")], .str (lit "b"), 14⟩,
    ⟨11, 27, [(lit "r", lit "AB12"), (lit "t", lit "b")],
      [.start (lit "f") [], .chars (lit "A1=2"), .stop (lit "f"), .start (lit "v") [], .chars (lit "1"), .stop (lit "v")],
      .bool true, 0⟩]

/-- The cells meet the hypotheses of `C58_cells_partial`, and the first those of `C56_cell`. -/
theorem C58_witness (ext : Ext) : (∀ x ∈ exSheetCells, x.Ok ext exXlsxDoc.strings exXlsxDoc.xfs) ∧
    (exSheetCells.map (fun x => (x.row, x.col))).Nodup ∧
    HasPart [(lit "xl/worksheets/sheet1.xml", .ok ⟨exSheetCells.flatMap ACell.toks, .eof⟩)]
      (pathOf ([lit "xl", lit "worksheets"] ++ [lit "sheet1.xml"])) (exSheetCells.flatMap ACell.toks) ∧
    LacksPart [(lit "xl/worksheets/sheet1.xml", .ok ⟨exSheetCells.flatMap ACell.toks, .eof⟩)]
      (relsPart [lit "xl", lit "worksheets"] (lit "sheet1.xml")) := by
  have hname : pathOf ([lit "xl", lit "worksheets"] ++ [lit "sheet1.xml"]) = lit "xl/worksheets/sheet1.xml" := by
    decide +kernel
  refine ⟨?_, by decide, ⟨[], [], ?_, by simp⟩, ?_⟩
  · intro x hx
    simp only [exSheetCells, List.mem_cons, List.not_mem_nil, or_false] at hx
    rcases hx with rfl | rfl
    · refine ⟨by unfold Distinct; decide +kernel, ⟨_, by unfold Has; decide +kernel, exA1⟩, by unfold maxIndex; decide,
        ⟨1, numAttr_has (lit "1") (by unfold Has; decide +kernel) (isDigits_of (by decide +kernel)) (by decide +kernel),
          by decide, rfl⟩, ⟨some (lit "s"), .inr ⟨_, by unfold Has; decide +kernel, rfl⟩, ?_⟩⟩
      refine .value [] [] (lit "v") (lit "1") [] _ (by simp) (by simp) (.inl rfl) ?_
      exact .shared (lit "1") (lit "b") (isDigits_of (by decide +kernel)) (by decide +kernel) (by decide +kernel)
    · refine ⟨by unfold Distinct; decide +kernel, ⟨_, by unfold Has; decide +kernel, exAB12⟩, by unfold maxIndex; decide,
        ⟨0, .inl ⟨?_, rfl⟩, by decide, rfl⟩, ⟨some (lit "b"), .inr ⟨_, by unfold Has; decide +kernel, rfl⟩, ?_⟩⟩
      · intro v hv
        simp only [List.mem_cons, Prod.mk.injEq, List.not_mem_nil, or_false] at hv
        rcases hv with ⟨h, _⟩ | ⟨h, _⟩ <;> exact absurd h (by decide +kernel)
      · refine .formula [] [] [] (lit "A1=2") (lit "1") [] [] _ (by simp) (by simp) (by simp) (by decide +kernel) ?_ ?_
        · exact fun h => lit_types.2.1 (Option.some.inj h).symm
        · exact .true []
  · rw [hname]; rfl
  · intro e he
    simp only [List.mem_cons, List.not_mem_nil, or_false] at he
    subst he
    decide +kernel

/-- C58 is false in general: with a line break between the elements of a cell, the first shared string is shown in place
of the second; of an inline string with two runs only the second is kept; and a hyperlink (here a relationship that does
not exist) replaces the value of its cell. -/
theorem C58_counterexample (ext : Ext) :
    (∃ s, parseSheet ext [(lit "s", .ok ⟨[.start (lit "c") [(lit "r", lit "A1"), (lit "t", lit "s")], .start (lit "v") [],
        .chars (lit "1"), .stop (lit "v"), .chars (lit "\n"), .stop (lit "c")], .eof⟩)] exXlsxDoc (lit "s") = .ok (s, none) ∧
      s.cell? 0 0 = some (.full (.str (lit "a")) .string none [])) ∧
    (∃ s, parseSheet ext [(lit "s", .ok ⟨[.start (lit "c") [(lit "r", lit "A1"), (lit "t", lit "inlineStr")],
        .start (lit "is") [], .start (lit "r") [], .start (lit "t") [], .chars (lit "one "), .stop (lit "t"), .stop (lit "r"),
        .start (lit "r") [], .start (lit "t") [], .chars (lit "two"), .stop (lit "t"), .stop (lit "r"), .stop (lit "is"),
        .stop (lit "c")], .eof⟩)] exXlsxDoc (lit "s") = .ok (s, none) ∧
      s.cell? 0 0 = some (.full (.str (lit "two")) .string none [])) ∧
    (∃ s, parseSheet ext [(lit "s", .ok ⟨[.start (lit "c") [(lit "r", lit "A1"), (lit "t", lit "s")], .start (lit "v") [],
        .chars (lit "1"), .stop (lit "v"), .stop (lit "c"),
        .start (lit "hyperlink") [(lit "ref", lit "A1"), (lit "location", lit "Sheet2!A1")]], .eof⟩)] exXlsxDoc (lit "s") =
        .ok (s, none) ∧
      s.cell? 0 0 = some (.full .nil .hyperlink (some 0) [[]])) := by
  refine ⟨⟨_, rfl, rfl⟩, ⟨_, rfl, rfl⟩, ⟨_, rfl, rfl⟩⟩

/-! ### C59: merged regions -/

theorem wsToks_append {ext : Ext} {strings : List Bytes} {styles : List Nat} {links : Bytes → Bytes} {mr mc : Nat}
    {xs ys : List Tok} {ws vs : List Write} (h : WsToks ext strings styles links mr mc xs ws)
    (h' : WsToks ext strings styles links mr mc ys vs) : WsToks ext strings styles links mr mc (xs ++ ys) (ws ++ vs) := by
  induction h with
  | nil => exact h'
  | other x ts ws hx _ ih => exact .other x _ _ hx ih
  | cell attrs r c k ref t inner v ts ws h1 h2 h3 h4 h5 h6 h7 h8 h9 _ ih =>
    have := WsToks.cell attrs r c k ref t inner v _ _ h1 h2 h3 h4 h5 h6 h7 h8 h9 ih
    simpa using this
  | merge attrs g ref us ts ws h1 h2 h3 h4 _ ih =>
    have := WsToks.merge attrs g ref us _ _ h1 h2 h3 h4 ih
    simpa using this
  | link attrs r c ref l ts ws h1 h2 h3 h4 h5 h6 h7 _ ih => exact .link attrs r c ref l _ _ h1 h2 h3 h4 h5 h6 h7 ih

/-- C59: a merge element with a region inside the dimension of the sheet, after any content: cells with a marker get it
as a static cell, all others are kept, the same as for binary workbooks (`Merged`, C50). -/
theorem C59_merge (ext : Ext) (d : Doc) (a : Archive) (name : Bytes) (head : List Tok) (dim : List (Bytes × Bytes))
    (dref : Bytes) (r c : Nat) (body : List Tok) (ws : List Write) (hh : ∀ x ∈ head, ¬ Starts sheetNames x)
    (hd : Distinct dim) (hr : Has dim "ref" dref) (hdim : DimRef dref r c)
    (hb : WsToks ext d.strings d.xfs (linkMap a name) r c body ws) (attrs : List (Bytes × Bytes)) (g : Region) (ref : Bytes)
    (hda : Distinct attrs) (href : Has attrs "ref" ref) (hg : RegionRef g ref) (h1 : g.r1 ≤ r) (h2 : g.c1 ≤ c)
    (ho : openXML a name = .ok ⟨head ++ .start (lit "dimension") dim :: body, .eof⟩)
    (a' : Archive) (hl : linkMap a' name = linkMap a name)
    (ho' : openXML a' name = .ok ⟨head ++ .start (lit "dimension") dim :: (body ++ [.start (lit "mergeCell") attrs]), .eof⟩) :
    ∃ s s', parseSheet ext a d name = .ok (s, none) ∧ parseSheet ext a' d name = .ok (s', none) ∧ Merged g s s' := by
  have hinv : SheetInv ((Sheet.new d.fmt).resize r c) := inv_resize (inv_new _) (by omega) (by omega)
  obtain ⟨st, e, u, k1, k2, k3⟩ := wsToks_spec ext d (linkMap a name) hb
    ⟨[], [], 0, c, r, (Sheet.new d.fmt).resize r c⟩ rfl rfl rfl hinv
  have hup : g.upTo r c = g := by unfold Region.upTo; cases g; simp_all
  have hw := Xls.region_exists g none
  obtain ⟨s', e', u'⟩ := mergeElem_spec ext (maxRow := r) (maxCol := c) hda href hg (by rw [hup]; exact hw) st k2 k3 (u.inv hinv)
  refine ⟨st.sheet, s', ?_, ?_, merged_of_upd hw u'⟩
  · unfold parseSheet
    rw [ho]
    simp only
    rw [sheetLoop_dim ext d _ hh hd hr hdim, e]
    rfl
  · unfold parseSheet
    rw [ho']
    simp only
    rw [sheetLoop_dim ext d _ hh hd hr hdim, hl, sheetLoop_append, e, GoRes.ok_bind,
      sheetLoop_step ext d _ _ _ st { st with sheet := s' }]
    · rfl
    · unfold sheetTok
      simp only
      rw [if_neg lit_names.2.1, if_neg lit_names.2.2.1, if_pos trivial, e']

/-- The hypotheses hold for the region B2:C3 of a sheet with the dimension A1:D9 and a value in B2. -/
theorem C59_witness (ext : Ext) : DimRef (lit "A1:D9") 8 3 ∧ RegionRef ⟨1, 2, 1, 2⟩ (lit "B2:C3") ∧
    WsToks ext [] [] (fun _ => []) 8 3 [.start (lit "c") [(lit "r", lit "B2"), (lit "t", lit "b")], .start (lit "v") [],
      .chars (lit "1"), .stop (lit "v"), .stop (lit "c")] [⟨1, 1, .value (.bool true) 0⟩] ∧
    Marked ⟨1, 2, 1, 2⟩ 1 2 (lit "⇥") ∧ Marked ⟨1, 2, 1, 2⟩ 2 1 (lit "⤓") := by
  have hB2 : A1 1 1 (lit "B2") := by
    refine .mk (lit "B") (lit "2") ?_ ?_
    · unfold ColumnName; decide +kernel
    · unfold Numeral IsDigits; decide +kernel
  have hC3 : A1 2 2 (lit "C3") := by
    refine .mk (lit "C") (lit "3") ?_ ?_
    · unfold ColumnName; decide +kernel
    · unfold Numeral IsDigits; decide +kernel
  have hD9 : A1 3 8 (lit "D9") := by
    refine .mk (lit "D") (lit "9") ?_ ?_
    · unfold ColumnName; decide +kernel
    · unfold Numeral IsDigits; decide +kernel
  have l1 : Lacks [(lit "r", lit "B2"), (lit "t", lit "b")] "s" := by
    intro v hv
    simp only [List.mem_cons, Prod.mk.injEq, List.not_mem_nil, or_false] at hv
    rcases hv with ⟨h, _⟩ | ⟨h, _⟩ <;> exact absurd h (by decide +kernel)
  refine ⟨?_, ?_, ?_, .endCol 1 (by decide) (by decide) (by decide), .endRow (by decide) (by decide)⟩
  · have := DimRef.range 0 0 8 3 _ _ exA1 hD9 (by unfold maxIndex; decide) (by unfold maxIndex; decide)
    have e : lit "A1" ++ 58 :: lit "D9" = lit "A1:D9" := by decide +kernel
    rwa [e] at this
  · have := RegionRef.range 1 2 1 2 _ _ hB2 hC3 (by unfold maxIndex; decide) (by unfold maxIndex; decide)
      (by unfold maxIndex; decide) (by unfold maxIndex; decide)
    have e : lit "B2" ++ 58 :: lit "C3" = lit "B2:C3" := by decide +kernel
    rwa [e] at this
  · exact WsToks.cell [(lit "r", lit "B2"), (lit "t", lit "b")] 1 1 0 (lit "B2") (some (lit "b"))
      [.start (lit "v") [], .chars (lit "1"), .stop (lit "v")] (some (.bool true)) [] []
      (by unfold Distinct; decide +kernel) (by unfold Has; decide +kernel) hB2 (by unfold maxIndex; decide) (by unfold maxIndex; decide)
      (.inl ⟨l1, rfl⟩) (by decide) (.inr ⟨_, by unfold Has; decide +kernel, rfl⟩)
      (.value [] [] (lit "v") (lit "1") [] _ (by simp) (by simp) (.inl rfl) (.true [])) .nil

end Grate.Props
