import Verif.Lemmas.XlsLoad
import Verif.Props.Dates
import Verif.Props.XlsStream

/-! # Properties of the worksheets of xls workbooks (C48–C51, C53, C54) -/

namespace Grate.Props

open Grate Grate.Spec Grate.Xls Grate.F64

/-! ### C48: compressed numbers -/

/-- C48 (three of the four kinds): the values of the file format. Missing: integers divided by 100, where it is
false (`C48_integer_100`). -/
theorem C48_rk_partial (r : Nat) (h : r < 2 ^ 32) (h3 : r % 4 ≠ 3) : rkValue r = rkMeans r := rkValue_eq r h h3

/-- All integers divided by 100 decode to 0. -/
theorem C48_integer_100 (r : Nat) (h3 : r % 4 = 3) : rkValue r = .f64 (f64OfNat 0) := by
  obtain ⟨h0, h1⟩ := rk_bits r
  unfold rkValue rkIsInteger rkFloat
  rw [h0, h1]
  simp [h3]

/-- C48 is false as stated: the compressed form of 1.00 (100 divided by 100) decodes to 0. -/
theorem C48_counterexample : ∃ r, r < 2 ^ 32 ∧ rkMeans r = .f64 (f64OfNat 1) ∧ rkValue r = .f64 (f64OfNat 0) ∧
    f64OfNat 1 ≠ f64OfNat 0 := by
  refine ⟨403, by decide, ?_, C48_integer_100 403 (by decide), ?_⟩
  · have : f64OfInt (rkSigned 403) / f64OfNat 100 = f64OfNat 1 := by decide +kernel
    exact congrArg _ this
  · decide +kernel

/-- The three kinds: 5, -3, 1.0 and 123.45 = 12345.0 / 100. -/
theorem C48_witness : rkMeans 22 = .sint 5 ∧ rkMeans 0xFFFFFFF6 = .sint (-3) ∧ rkMeans 0x3FF00000 = .f64 (f64OfNat 1) ∧
    rkMeans 0x40C81C81 = .f64 (f64OfNat 12345 / f64OfNat 100) := by
  refine ⟨rfl, rfl, ?_, ?_⟩
  · have : rkDouble 0x3FF00000 = f64OfNat 1 := by decide +kernel
    exact congrArg _ this
  · have : rkDouble 0x40C81C81 = f64OfNat 12345 := by decide +kernel
    show GoVal.f64 (rkDouble 0x40C81C81 / f64OfNat 100) = _
    rw [this]

/-! ### C49: cell records -/

/-- The sheet holds exactly what was written: in each cell the last write; all other cells are blank; it is before its
first row and large enough. -/
structure Holds (ext : Ext) (f : Formatter) (ws : List Write) (s : Sheet) : Prop where
  fmtr : s.fmtr = f
  written : ∀ (r c : Nat) (w : What), lastAt r c ws = some w → ∃ x, Shows ext f w x ∧ s.cell? r c = some x
  blank : ∀ r c : Nat, lastAt r c ws = none → s.cell? r c = none ∨ s.cell? r c = some .empty
  start : s.curRow = 0
  inside : ∀ w ∈ ws, (w.row : Int) < s.numRows ∧ (w.col : Int) < s.numCols

/-- The size of a sheet: the least, with at least one row and one column, that has room for the declared size and for all
writes. (A sheet without any of them may also be empty.) -/
structure SizeIs (mr mc : Nat) (ws : List Write) (s : Sheet) : Prop where
  rows : (mr : Int) ≤ s.numRows
  cols : (mc : Int) ≤ s.numCols
  noMoreRows : ∀ n : Int, 0 < n → (mr : Int) ≤ n → (∀ w ∈ ws, (w.row : Int) < n) → s.numRows ≤ n
  noMoreCols : ∀ n : Int, 0 < n → (mc : Int) ≤ n → (∀ w ∈ ws, (w.col : Int) < n) → s.numCols ≤ n

/-- All rows have the same width, and unless the sheet is empty there is one row more than its size says (C84). -/
structure Rectangular (s : Sheet) : Prop where
  width : ∀ row ∈ s.rows, (row.length : Int) = s.numCols
  count : s.rows = [] ∧ s.numRows = 0 ∧ s.numCols = 0 ∨
    (s.rows.length : Int) = s.numRows + 1 ∧ 1 ≤ s.numRows ∧ 1 ≤ s.numCols

theorem rectangular_of {s : Sheet} (h : RectInv s) : Rectangular s :=
  ⟨fun row hrow => by obtain ⟨k, hk⟩ := List.mem_iff_getElem?.1 hrow; exact h.exact' k row hk, h.count⟩

/-- The sheet of a substream with cell records: it holds what they write, has at least the declared size, and with one
declaration all rows have the same width. -/
theorem C49_sheet_partial (ext : Ext) (b : Book) (i : Nat) (recs : List Rec) (hi : b.subs[i]? = some recs)
    (hz : Sized recs) (strings : List (List Nat)) (styles : List Nat) (hs : b.strings = strings.map utf8)
    (hx : b.xfs = styles) (bof : Record) (rs : List Record) (hv : recs.map Rec.view = bof :: rs)
    (hb : bof.type = 0x809) (mr mc : Nat) (hd : Declares (0, 0) rs (mr, mc)) (ws : List Write)
    (h : SheetRecs strings styles mr mc rs ws) :
    ∃ s, parseSheet ext b i = .ok (some s) ∧ Holds ext b.nfmt ws s ∧
      SizeIs mr mc ws s ∧ (dimsCount rs ≤ 1 → Rectangular s) := by
  obtain ⟨r, recs, rfl, hr, hv⟩ := map_view_cons hv
  obtain ⟨ht, _⟩ := rec_view hr
  obtain ⟨d, e1, hm, hp, _, hrect⟩ := pass1_spec b.nfmt hd recs ⟨0, 0, Sheet.new b.nfmt⟩ hv rfl
    ⟨inv_new _, rfl, allBlank_new _, rfl, by simp [Sheet.new], by
      constructor <;> intro n h _ <;> simp only [Sheet.new] <;> omega⟩
  have hmr : mr = d.maxRow := congrArg Prod.fst hm
  have hmc : mc = d.maxCol := congrArg Prod.snd hm
  subst hmr hmc
  obtain ⟨st, e2, u⟩ := pass2_spec ext b strings styles _ _ hs hx h recs ⟨d.sheet, 0, 0, 8224⟩ hv
    (fun x hx => hz x (by simp [hx])) hp.inv (Nat.le_refl _)
  have hbof : r.type = recBOF := by rw [ht]; exact hb
  refine ⟨st.sheet, ?_, ⟨by rw [u.fmtr]; exact hp.fmtr, ?_, ?_, u.cur hp.cur, u.inside⟩,
    ⟨Int.le_trans hp.size.1 u.rows, Int.le_trans hp.size.2 u.cols, fun n h0 h1 hw => u.tight.1 n (hp.tight.1 n h0 h1) hw,
      fun n h0 h1 hw => u.tight.2 n (hp.tight.2 n h0 h1) hw⟩, fun hc => rectangular_of (u.rect (hrect rfl hc))⟩
  · unfold parseSheet
    rw [hi]
    simp only
    rw [pass1, if_neg (by omega), if_pos hbof, if_pos rfl, e1, GoRes.ok_bind]
    simp only
    rw [pass2, if_neg (by omega), if_pos hbof, if_pos rfl, e2, GoRes.ok_bind]
    rfl
  · intro r c w hw
    have := u.cells r c
    rw [hw, show d.sheet.fmtr = b.nfmt from hp.fmtr] at this
    obtain ⟨x, h1, h2⟩ := this
    exact ⟨x, h1, by rw [cell?_nat]; exact h2⟩
  · intro r c hw
    have := u.cells r c
    rw [hw] at this
    rw [cell?_nat]
    rcases this with ⟨y, h1, h2⟩ | ⟨_, h2⟩
    · rcases hp.blank r c with h3 | h3
      · rw [show (CellSt.sheet ⟨d.sheet, 0, 0, 8224⟩) = d.sheet from rfl, h3] at h1; cases h1
      · rw [show (CellSt.sheet ⟨d.sheet, 0, 0, 8224⟩) = d.sheet from rfl, h3] at h1; cases h1; exact .inr h2
    · exact h2


/-- C49 for workbook streams: the sheet of an entry of the sheet list holds what the records of its substream write.
Missing: compressed integers divided by 100 (C48); result strings of formulas that are narrow and not ASCII, or wide
and longer than one record (`C49_wide_counterexample`); nested embedded blocks (C51). -/
theorem C49_file_partial (p : Crypto.Prims) (mk : Bytes → Fmt × CellType) (ext : Ext) {groups : List (List Record)}
    (h : Grouped groups) (hp : ∀ r ∈ groups.flatten, r.type ≠ 0x2F) {c : Content} (hc : AllGlobals .empty groups c)
    (rest : Bytes) (before after : List SheetEntry) (e : SheetEntry) (hx : c.sheets = before ++ e :: after)
    (hn : ∀ x ∈ before, utf8 x.name ≠ utf8 e.name) (i : Nat) (bof : Record) (rs : List Record)
    (hi : groups[i]? = some (bof :: rs)) (hpos : e.position = position groups i) (mr mc : Nat)
    (hd : Declares (0, 0) rs (mr, mc)) (ws : List Write) (hw : SheetRecs c.strings c.styles mr mc rs ws) :
    ∃ b s, loadStream p mk rest ⟨stream groups.flatten, rest⟩ = .ok b ∧ b.get ext (utf8 e.name) = .ok (some s) ∧
      Holds ext b.nfmt ws s ∧ SizeIs mr mc ws s ∧ (dimsCount rs ≤ 1 → Rectangular s) := by
  obtain ⟨b, hb, _, _, hget, _⟩ := C45_sheets p mk h hp hc rest
  obtain ⟨g, hl, hs, _⟩ := load_content p mk h hp hc rest
  rw [hb] at hl
  cases hl
  have hlt : i < groups.length := by
    rw [List.getElem?_eq_some_iff] at hi
    exact hi.1
  have hbof : bof.type = 0x809 := by
    obtain ⟨b', inner, e', he, hb', _⟩ := h.whole _ (List.mem_of_getElem? hi)
    cases he
    exact hb'
  have hsub : (g.subs.map (·.map Rec.view))[i]? = some (bof :: rs) := by rw [hs]; exact hi
  rw [List.getElem?_map] at hsub
  cases hrecs : g.subs[i]? with
  | none => rw [hrecs] at hsub; cases hsub
  | some recs =>
    rw [hrecs] at hsub
    simp only [Option.map_some, Option.some.injEq] at hsub
    obtain ⟨s, h1, h2, h3⟩ := C49_sheet_partial ext (bookOf mk c g.subs g.pos2) i recs hrecs
      (load_sized p mk rest _ _ hb recs (List.mem_of_getElem? hrecs)) c.strings c.styles rfl rfl bof rs hsub hbof mr mc
      hd ws hw
    exact ⟨_, s, hb, by rw [hget ext before after e i hx hn hlt hpos]; exact h1, h2, h3⟩

/-- C49 for workbooks encrypted with the default password (C67), with the same limits. The very last record of the
stream is an empty EOF, which is lost. -/
theorem C49_encrypted_partial (p : Crypto.Prims) (hdg : Digest p) (mk : Bytes → Fmt × CellType) (ext : Ext)
    (groups : List (List Record)) (last : List Record) (hwh : ∀ g ∈ groups, Substream g) (hlast : Headed last)
    (hok : ∀ r ∈ groups.flatten ++ last, r.Ok)
    (pre post : List Record) (h : Header) (hfp : groups.flatten ++ last = pre ++ ⟨0x2F, leBytes 2 1 ++ h.bytes⟩ :: post)
    (hpre : ∀ r ∈ pre, r.type ≠ 0x2F) (hh : h.Ok) (hm : h.minor = 1) (hmatch : h.Matches p Crypto.defaultPassword)
    {c : Content} (hc : AllGlobals .empty (groups ++ [last]) c) (spare rest : Bytes)
    (before after : List SheetEntry) (e : SheetEntry) (hx : c.sheets = before ++ e :: after)
    (hn : ∀ x ∈ before, utf8 x.name ≠ utf8 e.name) (i : Nat) (bof : Record) (rs : List Record)
    (hi : (groups ++ [last])[i]? = some (bof :: rs)) (hb0 : bof.type = 0x809) (hpos : e.position = position groups i)
    (mr mc : Nat) (hd : Declares (0, 0) rs (mr, mc)) (ws : List Write)
    (hw : SheetRecs c.strings c.styles mr mc rs ws) :
    ∃ b s, loadStream p mk spare ⟨encrypted (keyStream p.md5 p.rc4 Crypto.defaultPassword h.salt)
        (groups.flatten ++ last ++ [⟨0x0A, []⟩]), rest⟩ = .ok b ∧ b.get ext (utf8 e.name) = .ok (some s) ∧
      Holds ext b.nfmt ws s ∧ SizeIs mr mc ws s ∧ (dimsCount rs ≤ 1 → Rectangular s) := by
  obtain ⟨b, hb, hs, hidx, hbook⟩ := C67_encrypted p hdg mk groups last hwh hlast hok pre post h hfp hpre hh hm hmatch hc
    spare rest
  have hlt : i ≤ groups.length := by
    rw [List.getElem?_eq_some_iff] at hi
    have := hi.1
    rw [List.length_append, List.length_singleton] at this
    omega
  have hsub : (b.subs.map (·.map Rec.view))[i]? = some (bof :: rs) := by rw [hs]; exact hi
  rw [List.getElem?_map] at hsub
  cases hrecs : b.subs[i]? with
  | none => rw [hrecs] at hsub; cases hsub
  | some recs =>
    rw [hrecs] at hsub
    simp only [Option.map_some, Option.some.injEq] at hsub
    obtain ⟨s, h1, h2, h3⟩ := C49_sheet_partial ext b i recs hrecs
      (load_sized p mk spare _ _ hb recs (List.mem_of_getElem? hrecs)) c.strings c.styles
      (by rw [hbook]; rfl) (by rw [hbook]; rfl) bof rs hsub hb0 mr mc hd ws hw
    refine ⟨b, s, hb, ?_, h2, h3⟩
    unfold Book.get
    have hf : b.sheets.find? (fun s => decide (s.name = utf8 e.name)) = some (entry e) := by
      rw [hbook]
      unfold bookOf
      simp only
      rw [hx, List.map_append, List.map_cons, List.find?_append, List.find?_eq_none.2, Option.none_or,
        List.find?_cons_of_pos]
      · unfold entry; simp
      · intro y hy
        obtain ⟨z, hz, rfl⟩ := List.mem_map.1 hy
        have := hn z hz
        unfold entry
        simpa using this
    rw [hf]
    simp only
    show parseSheet ext b (b.subIndex e.position) = _
    rw [hpos, hidx i hlt, h1]

/-! ### An example workbook

It declares the 1904 date system and two styles (the first with a date format), and has one sheet: a number, two
compressed numbers, a chart with a number in it, a shared string, a formula with a text and a merged region. -/

/-- The records of the sheet after its BOF. -/
def exSheet : List Record :=
  [⟨512, leBytes 4 0 ++ (leBytes 4 4 ++ (leBytes 2 0 ++ (leBytes 2 4 ++ [0, 0])))⟩,
   ⟨515, cellHead 0 0 0 (leBytes 8 0x4059000000000000 ++ [])⟩,
   ⟨189, leBytes 2 1 ++ (leBytes 2 0 ++
     ([(1, 22), (1, 0x3FF00000)].flatMap (fun v : Nat × Nat => leBytes 2 v.1 ++ leBytes 4 v.2) ++ leBytes 2 1))⟩,
   exBof 0x20, ⟨515, cellHead 3 3 0 (leBytes 8 0)⟩, ⟨0x0A, []⟩,
   ⟨253, cellHead 2 0 1 (leBytes 4 0 ++ [])⟩,
   ⟨6, cellHead 2 1 1 (0 :: 0 :: 0 :: 0 :: 0 :: 0 :: 0xFF :: 0xFF :: [0, 0])⟩,
   ⟨519, leBytes 2 3 ++ TextPart.bytes ⟨1, [0x61, 0x1F600]⟩⟩,
   ⟨229, leBytes 2 1 ++ ([⟨2, 3, 2, 3⟩].flatMap Region.bytes ++ [])⟩,
   ⟨0x0A, []⟩]

/-- The entry of the sheet. -/
def exEntry : SheetEntry := ⟨76, 0, 0, 0, [0x53]⟩

/-- The workbook. -/
def exBook : List (List Record) :=
  [[exBof 5, ⟨34, leBytes 2 1 ++ []⟩, ⟨224, leBytes 2 0 ++ (leBytes 2 14 ++ [])⟩,
    ⟨224, leBytes 2 0 ++ (leBytes 2 0 ++ [])⟩, ⟨0x85, exEntry.data⟩,
    ⟨252, [1, 0, 0, 0, 1, 0, 0, 0, 2, 0, 0, 0x68, 0x69]⟩, ⟨0x0A, []⟩],
   exBof 0x10 :: exSheet]

/-- Its content. -/
def exBookContent : Content := ⟨[exEntry], 1, [[0x68, 0x69]], [], [14, 0]⟩

/-- The cells of its sheet. -/
def exWrites : List Write :=
  [⟨0, 0, .value (.f64 (Float.ofBits (UInt64.ofNat 0x4059000000000000))) 14⟩,
   ⟨1, 0, .value (rkMeans 22) 0⟩, ⟨1, 1, .value (rkMeans 0x3FF00000) 0⟩,
   ⟨2, 0, .value (.str (utf8 [0x68, 0x69])) 0⟩,
   ⟨2, 1, .text (utf8 [0x61, 0x1F600]) 0⟩,
   ⟨2, 3, .value (.str (lit "⇥")) 0⟩, ⟨3, 2, .value (.str (lit "⤓")) 0⟩, ⟨3, 3, .value (.str (lit "⇥")) 0⟩]

theorem exBook_grouped : Grouped exBook ∧ ∀ r ∈ exBook.flatten, r.type ≠ 0x2F := by
  have pl : ∀ (r : Record) (rs : List Record), (r.type ≠ 0x809 ∧ r.type ≠ 0x0A) → Balanced rs → Balanced (r :: rs) :=
    fun r rs h hb => .plain r rs h.1 h.2 hb
  refine ⟨⟨by unfold Record.Fits; decide +kernel, ?_⟩, by decide +kernel⟩
  intro g hg
  simp only [exBook, List.mem_cons, List.not_mem_nil, or_false] at hg
  rcases hg with rfl | rfl
  · refine ⟨_, [_, _, _, _, _], _, rfl, rfl, rfl, ?_⟩
    iterate 5 refine pl _ _ (by decide) ?_
    exact .nil
  · refine ⟨_, [_, _, _, _, _, _, _, _, _, _], _, rfl, rfl, rfl, ?_⟩
    iterate 3 refine pl _ _ (by decide) ?_
    refine .block _ _ [_] [_, _, _, _] rfl rfl (pl _ _ (by decide) .nil) ?_
    iterate 4 refine pl _ _ (by decide) ?_
    exact .nil

theorem exBook_globals : Globals .empty (exBook.headD []) exBookContent := by
  refine .bof _ _ 5 _ _ _ _ (by decide) (by decide) ?_
  refine .dateMode _ _ 1 [] _ (by decide) ?_
  refine .style _ _ 0 14 [] _ (by decide) ?_
  refine .style _ _ 0 0 [] _ (by decide) ?_
  refine .sheet _ _ exEntry _ ?_ ?_
  · exact ⟨by decide, by unfold Scalar; decide +kernel, by unfold Fits; decide +kernel, by decide +kernel⟩
  refine .strings _ _ [1, 0, 0, 0, 1, 0, 0, 0] [⟨false, 0, [0x68, 0x69], [], [], []⟩] [[0x68, 0x69]]
    [1, 0, 0, 0, 1, 0, 0, 0, 2, 0, 0, 0x68, 0x69] [] _ rfl ?_ ?_ ?_ (by decide +kernel) (by decide +kernel) ?_ ?_
  · intro s hs
    rw [List.mem_singleton] at hs
    subst hs
    exact ⟨by decide +kernel, by unfold Fits; decide +kernel, by unfold Fits; decide +kernel, by decide +kernel,
      by decide +kernel⟩
  · unfold NoLoneByte; decide +kernel
  · unfold Scalar; decide +kernel
  · intro r hr
    cases hr
    decide
  · exact .skip _ _ _ _ (Or.inl rfl) (.nil _)

theorem exBook_content : AllGlobals .empty exBook exBookContent := by
  have sk : ∀ (c c' : Content) (r : Record) (rs : List Record), ¬ telling r.type → Globals c rs c' →
      Globals c (r :: rs) c' := fun c c' r rs h => .skip c c' r rs (Or.inr h)
  refine .cons _ exBookContent _ _ _ ?_ (.cons _ exBookContent _ _ _ ?_ (.nil _))
  · exact exBook_globals
  · refine .bof _ _ _ _ _ _ _ (by decide) (by decide) ?_
    iterate 3 refine sk _ _ _ _ (by unfold telling; decide) ?_
    refine .bof _ _ _ _ _ _ _ (by decide) (by decide) ?_
    refine sk _ _ _ _ (by unfold telling; decide) ?_
    refine .skip _ _ _ _ (Or.inl rfl) ?_
    iterate 4 refine sk _ _ _ _ (by unfold telling; decide) ?_
    exact .skip _ _ _ _ (Or.inl rfl) (.nil _)

theorem exSheet_declares : Declares (0, 0) exSheet (4, 4) := by
  have ot : ∀ (r : Record) (rs : List Record), (r.type ≠ 0x809 ∧ r.type ≠ 129 ∧ r.type ≠ 512) →
      Declares (4, 4) rs (4, 4) → Declares (4, 4) (r :: rs) (4, 4) := fun r rs h => .other _ _ r rs h.1 h.2.1 h.2.2
  refine .dims _ _ 0 4 0 4 [0, 0] _ (by decide) (by decide) ?_
  iterate 2 refine ot _ _ (by decide) ?_
  refine .block _ _ _ _ [_] _ rfl rfl (by decide) ?_
  iterate 5 refine ot _ _ (by decide) ?_
  exact .nil _

theorem exSheet_recs : SheetRecs exBookContent.strings exBookContent.styles 4 4 exSheet exWrites := by
  refine .other _ _ _ (by unfold cellType; decide) ?_
  refine .number 0 0 0 _ [] _ _ (by unfold HeadFits; decide) (by decide) ?_
  have h2 := SheetRecs.mulRk (strings := exBookContent.strings) (styles := exBookContent.styles) (maxRow := 4) (maxCol := 4)
    1 0 1 [(1, 22), (1, 0x3FF00000)] (exSheet.drop 3) (exWrites.drop 3) (by decide) (by decide) (by decide) (by decide)
  refine h2 ?_
  refine .block _ _ [_] _ _ rfl rfl (by decide) ?_
  have h3 := SheetRecs.label (strings := exBookContent.strings) (styles := exBookContent.styles) (maxRow := 4) (maxCol := 4)
    2 0 1 0 [0x68, 0x69] [] (exSheet.drop 7) (exWrites.drop 4) (by unfold HeadFits; decide) (by decide) rfl
  refine h3 ?_
  have h4 := SheetRecs.formulaText (strings := exBookContent.strings) (styles := exBookContent.styles) (maxRow := 4)
    (maxCol := 4) 2 1 1 3 0 0 0 0 0 [0, 0] [] ⟨1, [0x61, 0x1F600]⟩ [] (exSheet.drop 9) (exWrites.drop 5)
    (by unfold HeadFits; decide) (by simp)
    ⟨by unfold Scalar; decide +kernel, by decide +kernel, by decide +kernel⟩ (by simp) (by decide +kernel) (by decide)
    (fun _ => rfl) (by intro r hr; cases hr; decide)
  refine h4 ?_
  have hr : RegionWrites (Region.clip 4 4 ⟨2, 3, 2, 3⟩) none (exWrites.drop 5) := by
    have := region_exists (Region.clip 4 4 ⟨2, 3, 2, 3⟩) none
    exact this
  have h5 := SheetRecs.merge (strings := exBookContent.strings) (styles := exBookContent.styles) (maxRow := 4)
    (maxCol := 4) [⟨2, 3, 2, 3⟩] [] (exWrites.drop 5 ++ []) [⟨0x0A, []⟩] [] (by decide)
    (.cons _ [] _ [] (by unfold Region.Fits; decide) (by unfold Region.Clips; decide) hr .nil)
  exact h5 (.other _ _ _ (by unfold cellType; decide) .nil)

/-- The hypotheses of C49 hold for the example; some of its cells. -/
theorem C49_witness (p : Crypto.Prims) (mk : Bytes → Fmt × CellType) (ext : Ext) :
    ∃ b s, loadStream p mk [] ⟨stream exBook.flatten, []⟩ = .ok b ∧ b.get ext (lit "S") = .ok (some s) ∧
      Holds ext b.nfmt exWrites s ∧ lastAt 1 0 exWrites = some (.value (.sint 5) 0) ∧
      lastAt 3 3 exWrites = some (.value (.str (lit "⇥")) 0) ∧ lastAt 2 2 exWrites = none := by
  obtain ⟨b, s, h1, h2, h3, _⟩ := C49_file_partial p mk ext exBook_grouped.1 exBook_grouped.2 exBook_content [] [] []
    exEntry rfl (by simp) 1 (exBof 0x10) exSheet rfl (by decide +kernel) 4 4 exSheet_declares exWrites exSheet_recs
  exact ⟨b, s, h1, h2, h3, rfl, rfl, rfl⟩

/-- What the records of C49 leave out: a wide text in two records, the second a Continue record, makes reading the
sheet panic (the number of characters of the whole text is read from the first record). -/
theorem C49_wide_counterexample (usCap : Nat) (rest : Bytes) (r c : Nat) (s : Sheet) :
    stringRec ⟨leBytes 2 2 ++ TextPart.bytes ⟨1, [0x61]⟩, []⟩ [⟨recContinue, 3, ⟨TextPart.bytes ⟨1, [0x62]⟩, rest⟩⟩]
      ⟨s, r, c, usCap⟩ = .panic := rfl

/-! ### C50: merged regions -/

/-- The sheet `s'` is `s` with the markers of the region. -/
structure Merged (g : Region) (s s' : Sheet) : Prop where
  marked : ∀ (r c : Nat) (m : Bytes), Marked g r c m → s'.cell? r c = some (.full (.str m) .static none [])
  kept : ∀ (r c : Nat), (∀ m, ¬ Marked g r c m) → ∀ x, s.cell? r c = some x → s'.cell? r c = some x
  blank : ∀ (r c : Nat), (∀ m, ¬ Marked g r c m) → s.cell? r c = none →
    s'.cell? r c = none ∨ s'.cell? r c = some .empty

theorem marker_of_marked {g : Region} {r c : Nat} {m : Bytes} (h : Marked g r c m) : Marker m := by
  cases h
  · exact .inr (.inr (.inl rfl))
  · exact .inr (.inr (.inr rfl))
  · exact .inl rfl
  · exact .inr (.inl rfl)

theorem marker_builds (ext : Ext) (f : Formatter) (m : Bytes) (hm : Marker m) (x : Cell) (h : Builds ext f (.str m) 0 x) :
    x = .full (.str m) .static none [] := by
  rw [builds_iff] at h
  have h1 : (GoVal.str m).marker = true := (marker_iff m).mpr hm
  have h2 : newCell (.str m) = .ok (.full (.str m) .string none []) := by
    simp [newCell, textCell, marker_ne_nil hm]
  simp only [putCell, h1, cond_true, staticCell, h2] at h
  cases h
  rfl

theorem merged_of_upd {ext : Ext} {g : Region} {s s' : Sheet} {ws : List Write} (hw : RegionWrites g none ws)
    (u : Upd ext s s' ws) : Merged g s s' := by
  have hnone : ∀ r c : Nat, (∀ m, ¬ Marked g r c m) → lastAt r c ws = none := by
    intro r c hm
    by_cases hin : g.r0 ≤ r ∧ r ≤ g.r1 ∧ g.c0 ≤ c ∧ c ≤ g.c1
    · by_cases h1 : r = g.r0 ∧ c = g.c0
      · obtain ⟨rfl, rfl⟩ := h1
        exact hw.first (by omega) (by omega)
      · exfalso
        by_cases h2 : c = g.c0
        · subst h2
          by_cases h3 : r = g.r1
          · subst h3; exact hm _ (.endRow (by omega) (by omega))
          · exact hm _ (.contRow r (by omega) (by omega) (by omega))
        · by_cases h3 : c = g.c1
          · subst h3; exact hm _ (.endCol r (by omega) (by omega) (by omega))
          · exact hm _ (.contCol r c (by omega) (by omega) (by omega) (by omega))
    · exact hw.other r c hin
  refine ⟨?_, ?_, ?_⟩
  · intro r c m hm
    have := u.cells r c
    rw [hw.marked r c m hm] at this
    obtain ⟨x, h1, h2⟩ := this
    rw [cell?_nat, h2, marker_builds ext _ m (marker_of_marked hm) x h1]
  · intro r c hm x hx
    have := u.cells r c
    rw [hnone r c hm] at this
    rw [cell?_nat] at hx ⊢
    rcases this with ⟨y, h1, h2⟩ | ⟨h1, _⟩
    · rw [hx] at h1; cases h1; exact h2
    · rw [hx] at h1; cases h1
  · intro r c hm hx
    have := u.cells r c
    rw [hnone r c hm] at this
    rw [cell?_nat] at hx ⊢
    rcases this with ⟨y, h1, h2⟩ | ⟨_, h2⟩
    · rw [hx] at h1; cases h1
    · exact h2

theorem inv_of_run {ext : Ext} {f : Formatter} {ops : List Op} (hn : ∀ op ∈ ops, op.NonNeg)
    (hv : ∀ op ∈ ops, op.Supported) {s : Sheet} (hs : run ext (Sheet.new f) ops = .ok s) : SheetInv s := by
  obtain ⟨s0, h0, h1⟩ := inv_run (ext := ext) ops (inv_new f) hn hv
  rw [hs] at h0
  cases h0
  exact h1

/-- C50: a MergeCells record with one region, for every sheet that was built by writes: cells with a marker get it as a
static cell, all others (the top-left one and those outside) are kept. Missing: regions to the last column (0xFF) of a
sheet that declares no columns, where it is false (`C50_counterexample`), and sizes beyond the format. -/
theorem C50_merge_partial (ext : Ext) (f : Formatter) (ops : List Op) (hn : ∀ op ∈ ops, op.NonNeg)
    (hv : ∀ op ∈ ops, op.Supported) (s : Sheet) (hs : run ext (Sheet.new f) ops = .ok s) (maxRow maxCol : Nat)
    (g : Region) (hf : g.Fits) (hc : g.Clips maxRow maxCol) (tail rest : Bytes) :
    ∃ s', mergeRec ext maxRow maxCol ⟨leBytes 2 1 ++ (g.bytes ++ tail), rest⟩ s = .ok s' ∧
      Merged (g.clip maxRow maxCol) s s' := by
  have hws := region_exists (g.clip maxRow maxCol) none
  obtain ⟨s', e, u⟩ := mergeRec_spec ext maxRow maxCol (.cons g [] _ [] hf hc hws .nil) (by simp) tail rest
    (inv_of_run hn hv hs)
  rw [List.append_nil] at u
  refine ⟨s', ?_, merged_of_upd hws u⟩
  rw [← e]
  simp

/-- The hypotheses hold for a sheet with a value in the top-left cell of a 3 by 2 region and one outside. -/
theorem C50_witness (ext : Ext) (f : Formatter) :
    ∃ s, run ext (Sheet.new f) [.put 1 1 (.sint 7) 0, .put 5 5 (.bool true) 0] = .ok s ∧
      (⟨1, 3, 1, 2⟩ : Region).Fits ∧ (⟨1, 3, 1, 2⟩ : Region).Clips 6 6 ∧
      Marked (Region.clip 6 6 ⟨1, 3, 1, 2⟩) 2 1 (lit "↓") ∧ Marked (Region.clip 6 6 ⟨1, 3, 1, 2⟩) 3 1 (lit "⤓") ∧
      Marked (Region.clip 6 6 ⟨1, 3, 1, 2⟩) 3 2 (lit "⇥") := by
  obtain ⟨s, hs⟩ := C11_put_no_panic ext f [.put 1 1 (.sint 7) 0, .put 5 5 (.bool true) 0]
    (by intro op h; simp at h; rcases h with rfl | rfl <;> simp [Op.NonNeg])
    (by intro op h; simp at h; rcases h with rfl | rfl <;> simp [Op.Supported, Supported])
  refine ⟨s, hs, ?_, ?_, ?_, ?_, ?_⟩
  · unfold Region.Fits; decide
  · unfold Region.Clips; decide
  · exact .contRow 2 (by decide) (by decide) (by decide)
  · exact .endRow (by decide) (by decide)
  · exact .endCol 3 (by decide) (by decide) (by decide)

theorem merge_code (ext : Ext) (maxRow maxCol : Nat) (g : Region) (hf : g.Fits) (tail rest : Bytes) (s : Sheet) :
    mergeRec ext maxRow maxCol ⟨leBytes 2 1 ++ (g.bytes ++ tail), rest⟩ s =
      putRegion ext none g.r0 (lastRowOf maxRow g.r1) g.c0 (lastColOf maxCol g.c1) s := by
  unfold mergeRec
  rw [sub_here _ _ _ 2 rfl, GoRes.ok_bind, u16_exact 1 (by decide), GoRes.ok_bind, drop_here _ _ _ 2 rfl, GoRes.ok_bind]
  obtain ⟨⟨_, e1⟩, ⟨_, e2⟩, ⟨_, e3⟩, ⟨_, e4⟩, e5⟩ := region_fields g tail rest
  unfold mergeLoop
  simp only [e1, e2, e3, e4, e5, GoRes.ok_bind, u16_exact g.r0 hf.1, u16_exact g.r1 hf.2.1, u16_exact g.c0 hf.2.2.1,
    u16_here g.c1 hf.2.2.2]
  cases putRegion ext none g.r0 (lastRowOf maxRow g.r1) g.c0 (lastColOf maxCol g.c1) s with
  | ok s' => rw [GoRes.ok_bind]; rfl
  | err e => rfl
  | panic => rfl

/-- C50 is false as stated: in a sheet without declared columns, a region of the first 256 columns of row 0 marks a cell
in column 300, which is outside of it. -/
theorem C50_counterexample (ext : Ext) (f : Formatter) :
    ∃ s', mergeRec ext 0 0 ⟨leBytes 2 1 ++ (Region.bytes ⟨0, 0, 0, 255⟩ ++ []), []⟩ (Sheet.new f) = .ok s' ∧
      s'.cell? 0 300 = some (.full (.str (lit "→")) .static none []) := by
  obtain ⟨n, hn⟩ : ∃ n, n = lastColOf 0 255 := ⟨_, rfl⟩
  have h5 : n = 65535 := by rw [hn]; rfl
  obtain ⟨ws, hws⟩ : ∃ ws, RegionWrites ⟨0, 0, 0, n⟩ none ws := ⟨_, region_exists _ _⟩
  obtain ⟨s1, h1, u1⟩ := putRegion_spec ext ⟨0, 0, 0, n⟩ none _ hws (inv_new f)
  refine ⟨s1, ?_, (merged_of_upd hws u1).marked 0 300 _
    (.contCol 0 300 (Nat.le_refl _) (Nat.le_refl _) (Nat.succ_pos _) ?_)⟩
  · rw [merge_code ext 0 0 ⟨0, 0, 0, 255⟩ (by unfold Region.Fits; decide), ← hn]
    exact h1
  · show 300 < n
    omega

/-! ### C51: embedded blocks -/

theorem stringCont_head (usCap : Nat) (x y : List Rec) (hx : ∀ r, x.head? = some r → r.type ≠ recContinue)
    (hy : ∀ r, y.head? = some r → r.type ≠ recContinue) : ∀ pre : List Rec,
    stringCont usCap (pre ++ x) = stringCont usCap (pre ++ y) := by
  intro pre
  induction pre with
  | nil =>
    have hz : ∀ z : List Rec, (∀ r, z.head? = some r → r.type ≠ recContinue) → stringCont usCap z = .ok [] := by
      intro z hz
      cases z with
      | nil => rfl
      | cons r z => rw [stringCont, if_pos (hz r rfl)]
    rw [List.nil_append, List.nil_append, hz x hx, hz y hy]
  | cons r pre ih => rw [List.cons_append, List.cons_append, stringCont, stringCont, ih]

theorem cellRec_head (ext : Ext) (b : Book) (mr mc : Nat) (r : Rec) (x y pre : List Rec) (st : CellSt)
    (hx : ∀ r, x.head? = some r → r.type ≠ recContinue) (hy : ∀ r, y.head? = some r → r.type ≠ recContinue) :
    cellRec ext b mr mc r (pre ++ x) st = cellRec ext b mr mc r (pre ++ y) st := by
  unfold cellRec stringRec
  simp only [stringCont_head _ x y hx hy pre]

theorem pass2_first (ext : Ext) (b : Book) (mr mc : Nat) (r : Rec) (rs : List Rec) (st : CellSt) (h : r.type = 0x809) :
    pass2 ext b mr mc true 0 (r :: rs) st = pass2 ext b mr mc false 0 rs st := by
  rw [pass2, if_neg (by omega), if_pos (show r.type = recBOF from h), if_pos rfl]

theorem pass1_first (r : Rec) (rs : List Rec) (d : Dims) (h : r.type = 0x809) :
    pass1 true 0 (r :: rs) d = pass1 false 0 rs d := by
  rw [pass1, if_neg (by omega), if_pos (show r.type = recBOF from h), if_pos rfl]

theorem pass1_step (r : Rec) (rs : List Rec) (d : Dims) (h : r.type ≠ recBOF) :
    pass1 false 0 (r :: rs) d =
      if r.type = 129 then (do
        let x ← r.data.idx 1
        if x &&& 0x10 ≠ 0 then .ok none else pass1 false 0 rs d)
      else if r.type = 512 then (do
        let d ← dimensions r.data d
        pass1 false 0 rs d)
      else pass1 false 0 rs d := by
  rw [pass1, if_neg (by omega), if_neg h]

theorem mulRkLoop_book (ext : Ext) (b b' : Book) (h : b'.xfs = b.xfs) (d : Slice) (row col : Nat) : ∀ (n i : Nat) (s : Sheet),
    mulRkLoop ext b' d row col n i s = mulRkLoop ext b d row col n i s := by
  intro n
  induction n with
  | zero => intro i s; rfl
  | succ n ih =>
    intro i s
    unfold mulRkLoop
    simp only [ih]
    unfold Book.fmtOf
    rw [h]

theorem pass2_tail (ext : Ext) (b : Book) (mr mc : Nat) (x y : List Rec)
    (hx : ∀ r, x.head? = some r → r.type ≠ recContinue) (hy : ∀ r, y.head? = some r → r.type ≠ recContinue)
    (h : ∀ st, pass2 ext b mr mc false 0 x st = pass2 ext b mr mc false 0 y st) :
    ∀ (pre : List Rec) (st : CellSt), (∀ r ∈ pre, r.type ≠ recBOF) →
      pass2 ext b mr mc false 0 (pre ++ x) st = pass2 ext b mr mc false 0 (pre ++ y) st := by
  intro pre
  induction pre with
  | nil => intro st _; exact h st
  | cons r pre ih =>
    intro st hp
    rw [List.cons_append, List.cons_append, pass2, pass2, if_neg (by omega), if_neg (hp r (by simp)),
      if_neg (by omega), if_neg (hp r (by simp)), cellRec_head ext b mr mc r x y pre st hx hy]
    cases cellRec ext b mr mc r (pre ++ y) st with
    | ok st' => exact ih st' (fun q hq => hp q (by simp [hq]))
    | err e => rfl
    | panic => rfl

theorem pass1_tail (x y : List Rec) (h : ∀ d, pass1 false 0 x d = pass1 false 0 y d) :
    ∀ (pre : List Rec) (d : Dims), (∀ r ∈ pre, r.type ≠ recBOF) →
      pass1 false 0 (pre ++ x) d = pass1 false 0 (pre ++ y) d := by
  intro pre
  induction pre with
  | nil => intro d _; exact h d
  | cons r pre ih =>
    intro d hp
    have ih' := fun d => ih d (fun q hq => hp q (by simp [hq]))
    rw [List.cons_append, List.cons_append, pass1_step _ _ _ (hp r (by simp)), pass1_step _ _ _ (hp r (by simp))]
    simp only [ih']

/-- C51 (blocks without nested ones): whatever the records of a sheet, well-formed or not, removing an embedded block
leaves the outcome of parsing the sheet unchanged. By repetition from the front this holds for any number of blocks.
The record after the block is not a Continue record, which would then belong to the record before the block. Missing:
blocks with nested ones, where it is false (`C51_counterexample`). -/
theorem C51_skip_partial (ext : Ext) (b b' : Book) (i : Nat) (first o e : Rec) (pre inner post : List Rec)
    (hi : b.subs[i]? = some (first :: (pre ++ o :: (inner ++ e :: post))))
    (hi' : b'.subs[i]? = some (first :: (pre ++ post)))
    (heq : b' = { b with subs := b'.subs }) (hfirst : first.type = 0x809) (ho : o.type = 0x809) (he : e.type = 0x0A)
    (hpre : ∀ r ∈ pre, r.type ≠ 0x809) (hin : ∀ r ∈ inner, r.type ≠ 0x0A)
    (hpost : ∀ r, post.head? = some r → r.type ≠ 0x3C) :
    parseSheet ext b i = parseSheet ext b' i := by
  have hb2 : ∀ (mr mc : Nat) (rs : List Rec) (nested : Nat) (fst : Bool) (st : CellSt),
      pass2 ext b' mr mc fst nested rs st = pass2 ext b mr mc fst nested rs st := by
    intro mr mc rs
    induction rs with
    | nil => intro _ _ _; rfl
    | cons r rs ih =>
      intro nested fst st
      have hc : cellRec ext b' mr mc r rs st = cellRec ext b mr mc r rs st := by
        have hx : b'.xfs = b.xfs := by rw [heq]
        have hs : b'.strings = b.strings := by rw [heq]
        unfold cellRec boolErrRec mulRkRec numberRec rkRec formulaRec labelRec
        simp only [mulRkLoop_book ext b b' hx]
        unfold Book.fmtOf
        rw [hx, hs]
      rw [pass2, pass2, hc]
      simp only [ih]
  have hnf : b'.nfmt = b.nfmt := by rw [heq]
  unfold parseSheet
  rw [hi, hi']
  simp only
  rw [hnf]
  have e1 : ∀ d, pass1 true 0 (first :: (pre ++ o :: (inner ++ e :: post))) d = pass1 true 0 (first :: (pre ++ post)) d := by
    intro d
    rw [pass1_first _ _ _ hfirst, pass1_first _ _ _ hfirst]
    refine pass1_tail _ _ ?_ pre d hpre
    intro d
    rw [pass1, if_neg (by omega), if_pos (show o.type = recBOF from ho), if_neg (by simp), pass1_inner e he inner post d hin]
  have e2 : ∀ mr mc st, pass2 ext b mr mc true 0 (first :: (pre ++ o :: (inner ++ e :: post))) st =
      pass2 ext b' mr mc true 0 (first :: (pre ++ post)) st := by
    intro mr mc st
    rw [hb2, pass2_first _ _ _ _ _ _ _ hfirst, pass2_first _ _ _ _ _ _ _ hfirst]
    refine pass2_tail ext b mr mc _ _ ?_ hpost (fun st => pass2_block ext b mr mc o e ho he inner post st hin) pre st hpre
    intro r hr
    cases hr
    rw [ho]
    decide
  rw [e1]
  simp only [e2]

/-- The hypotheses hold for the sheet of the example with its chart. -/
theorem C51_witness : ∃ (pre inner post : List Record) (o e : Record), exSheet = pre ++ o :: (inner ++ e :: post) ∧
    pre.length = 3 ∧ inner.length = 1 ∧ o.type = 0x809 ∧ e.type = 0x0A ∧ (∀ r ∈ pre, r.type ≠ 0x809) ∧
    (∀ r ∈ inner, r.type ≠ 0x0A) ∧ (∀ r, post.head? = some r → r.type ≠ 0x3C) :=
  ⟨exSheet.take 3, [_], exSheet.drop 6, _, _, rfl, rfl, rfl, rfl, rfl, by decide, by decide, by
    intro r hr; cases hr; decide⟩

/-- The number record in a chart that also contains another block. -/
def exNested : List Record :=
  [exBof 0x20, ⟨0x0A, []⟩, ⟨515, cellHead 0 0 0 (leBytes 8 0x4059000000000000 ++ [])⟩]

/-- A workbook with a sheet that has this chart. -/
def exNestedBook (f : Formatter) : Book :=
  ⟨[], 0, [], [(exBof 0x10 :: exBof 0x20 :: exNested ++ [(⟨0x0A, []⟩ : Record), ⟨0x0A, []⟩]).map
    (fun r : Record => (⟨r.type, r.data.length, ⟨r.data, []⟩⟩ : Rec))], [], f, []⟩

/-- C51 is false as stated: the number is in an embedded block (with a block nested in it), and still becomes the value
of a cell of the sheet. -/
theorem C51_counterexample (ext : Ext) (f : Formatter) :
    ∃ (b : Book) (recs : List Rec) (s : Sheet), Balanced exNested ∧
      recs.map Rec.view = exBof 0x10 :: exBof 0x20 :: exNested ++ [⟨0x0A, []⟩, ⟨0x0A, []⟩] ∧
      b.subs = [recs] ∧ b.nfmt = f ∧ parseSheet ext b 0 = .ok (some s) ∧
      ∃ x, Builds ext f (.f64 (Float.ofBits (UInt64.ofNat 0x4059000000000000))) 0 x ∧ s.cell? 0 0 = some x := by
  have hbal : Balanced exNested :=
    .block _ _ [] [_] rfl rfl .nil (.plain _ _ (by decide) (by decide) .nil)
  obtain ⟨s, h1, h2, _⟩ := C49_sheet_partial ext (exNestedBook f) 0 _ rfl
    (by intro r hr; obtain ⟨q, _, rfl⟩ := List.mem_map.1 hr; rfl) [] [] rfl rfl (exBof 0x10)
    (exBof 0x20 :: exNested ++ [⟨0x0A, []⟩, ⟨0x0A, []⟩]) (by rfl) rfl 0 0
    (.block _ _ _ _ [_] _ rfl rfl (by decide) (.other _ _ _ _ (by decide) (by decide) (by decide)
      (.other _ _ _ _ (by decide) (by decide) (by decide) (.other _ _ _ _ (by decide) (by decide) (by decide) (.nil _)))))
    _ (.block _ _ [_] _ _ rfl rfl (by decide) (.number 0 0 0 _ [] _ _ (by unfold HeadFits; decide) (by decide)
      (.other _ _ _ (by unfold cellType; decide) (.other _ _ _ (by unfold cellType; decide) .nil))))
  refine ⟨exNestedBook f, _, s, hbal, by rfl, rfl, rfl, h1, ?_⟩
  obtain ⟨x, hx, hc⟩ := h2.written 0 0 _ rfl
  exact ⟨x, hx, hc⟩

/-! ### C53: malformed input -/

/-- C53 for the splitting into substreams: for every byte string shorter than 64 kB that begins with a BOF record (or is
too short for a record), splitting it into records and substreams ends with a result or an error. Missing: all later
steps, where it is false. -/
theorem C53_split_partial (d : Bool) (raw : Slice) (h : raw.len < 65536)
    (hb : raw.len < 4 ∨ ∃ t, raw.val = 0x09 :: 0x08 :: t) : gather d raw Groups.init ≠ .panic := by
  rcases hb with hb | ⟨t, ht⟩
  · rw [show raw = ⟨raw.val, raw.rest⟩ from rfl, gather_short d raw.val raw.rest hb]
    intro h; cases h
  · rw [gather]
    split
    · intro h; cases h
    · intro h; cases h
    · rename_i hn; exact absurd hn (nextRecord_no_panic raw h)
    · rename_i nr no hn
      have hty : nr.type = recBOF := by
        obtain ⟨val, rest⟩ := raw
        simp only at ht
        subst ht
        unfold nextRecord at hn
        split at hn
        · cases hn
        · rw [show (⟨0x09 :: 0x08 :: t, rest⟩ : Slice).sub 0 2 = .ok ⟨[0x09, 0x08], t ++ rest⟩ from
            sub_here [0x09, 0x08] t rest 2 rfl, GoRes.ok_bind] at hn
          simp only [GoRes.bind_eq_ok] at hn
          obtain ⟨ty, h1, _, _, sz, _, _, _, hn⟩ := hn
          split at hn
          · cases hn
          · rw [GoRes.bind_eq_ok] at hn
            obtain ⟨_, _, hn⟩ := hn
            cases hn
            cases h1
            rfl
      split
      · rename_i raw' hr'
        have hlt := nextRecord_pos hn hr'
        simp only
        split
        · intro h; cases h
        · obtain ⟨h1, h2⟩ := count_open Groups.init nr (Or.inr ⟨rfl, hty⟩)
          obtain ⟨g1, e1, h3, _⟩ := place_flatten _ h1 nr
          rw [e1]
          simp only
          exact gather_no_panic d raw'.len raw' g1 (Nat.le_refl _) (by omega) h3
      · intro h; cases h
      · rename_i hd
        exfalso
        exact absurd hd (drop_no_panic hn)

/-- The hypotheses hold for the example workbook. -/
theorem C53_witness : (⟨stream exBook.flatten, []⟩ : Slice).len < 65536 ∧
    ∃ t, stream exBook.flatten = 0x09 :: 0x08 :: t := ⟨by decide +kernel, _, rfl⟩

/-- C53 is false as stated: a stream that does not begin with a BOF record; a workbook whose only string is selected by
the index 1. -/
theorem C53_counterexample (p : Crypto.Prims) (mk : Bytes → Fmt × CellType) (ext : Ext) (s : Sheet) (b : Book) (t : Bytes)
    (hb : b.strings = [t]) :
    loadStream p mk [] ⟨stream [⟨0x85, []⟩], []⟩ = .panic ∧
    labelRec ext b ⟨cellHead 0 0 0 (leBytes 4 1), []⟩ s = .panic := by
  refine ⟨?_, ?_⟩
  · unfold loadStream
    have : gather false ⟨stream [⟨0x85, []⟩], []⟩ Groups.init = .panic := by
      rw [show stream [⟨0x85, []⟩] = Record.bytes ⟨0x85, []⟩ ++ [] from rfl,
        gather_cons false ⟨0x85, []⟩ (by unfold Record.Fits; decide) (by decide)]
      rfl
    rw [this]
    rfl
  · unfold labelRec
    rw [hb]
    rfl

/-! ### C54: the date system -/

/-- The cell of a number with a date format. -/
theorem date_cell (ext : Ext) (f : Formatter) (x : Float) (n : Nat) (h0 : n ≠ 0) (c : Cell)
    (hf : f.getCellType n = some .date) (h : Builds ext f (.f64 x) n c) :
    c = .full (.time (convertToDate f.mode1904 x)) .date (some n) [] := by
  rw [builds_iff] at h
  unfold putCell at h
  rw [show (GoVal.f64 x).marker = false from rfl, cond_false] at h
  unfold typedCell at h
  rw [hf] at h
  simp only [if_neg h0] at h
  have h2 : newCellWithType ext f.mode1904 (.f64 x) .date =
      .ok (.full (.time (convertToDate f.mode1904 x)) .date none []) := rfl
  rw [h2, GoRes.ok_bind] at h
  unfold Cell.setFormatNumber at h
  simp only [if_neg h0] at h
  cases h
  rfl

/-- C54 for workbooks with the 1900 date system: in every loaded workbook, whatever its bytes, numbers with a date
format are converted with the 1900 epoch (C31). Missing: the 1904 date system, where it is false. -/
theorem C54_1900_partial (p : Crypto.Prims) (mk : Bytes → Fmt × CellType) (ext : Ext) (spare : Bytes) (raw : Slice)
    (b : Book) (h : loadStream p mk spare raw = .ok b) (x : Float) (n : Nat) (h0 : n ≠ 0)
    (hf : b.nfmt.getCellType n = some .date) (c : Cell) (hc : Shows ext b.nfmt (.value (.f64 x) n) c) :
    c.value = .time (convertToDate false x) ∧ c.type = .date := by
  rw [date_cell ext b.nfmt x n h0 c hf hc, load_mode p mk spare raw b h]
  exact ⟨rfl, rfl⟩

/-- C54 is false as stated: the example workbook declares the 1904 date system, in which the serial 100 of its first
cell is 1904-04-10; the cell holds 1900-04-09. -/
theorem C54_counterexample (p : Crypto.Prims) (mk : Bytes → Fmt × CellType) (ext : Ext) :
    ∃ b s, loadStream p mk [] ⟨stream exBook.flatten, []⟩ = .ok b ∧ b.dateMode = 1 ∧
      b.get ext (lit "S") = .ok (some s) ∧
      s.cell? 0 0 = some (.full (.time (goDate 1900 4 9 * dayNs)) .date (some 14) []) ∧
      convertToDate true (Float.ofBits (UInt64.ofNat 0x4059000000000000)) = goDate 1904 4 10 * dayNs := by
  obtain ⟨g, hl, _⟩ := load_content p mk exBook_grouped.1 exBook_grouped.2 exBook_content []
  obtain ⟨b, s, h1, h2, h3, _⟩ := C49_file_partial p mk ext exBook_grouped.1 exBook_grouped.2 exBook_content [] [] []
    exEntry rfl (by simp) 1 (exBof 0x10) exSheet rfl (by decide +kernel) 4 4 exSheet_declares exWrites exSheet_recs
  have hb := h1
  rw [hl] at hb
  cases hb
  have hx : Float.ofBits (UInt64.ofNat 0x4059000000000000) = f64OfNat 100 := by decide +kernel
  have hex := ofNat_exact 100 (by norm_num)
  have hd := fun m => C31_civil m (f64OfNat 100) 100 hex.1 (by simpa using hex.2) (by norm_num)
  obtain ⟨x, hx1, hx2⟩ := h3.written 0 0 _ rfl
  have hxc := date_cell ext _ _ 14 (by decide) x rfl hx1
  rw [load_mode p mk [] _ _ hl, hx, hd false] at hxc
  refine ⟨_, s, hl, rfl, h2, ?_, ?_⟩
  · have h0 : s.cell? 0 0 = some x := hx2
    rw [h0, hxc, show (serialZero false).after 100 = ⟨1900, 4, 9⟩ by decide +kernel]
  · rw [hx, hd true, show (serialZero true).after 100 = ⟨1904, 4, 10⟩ by decide +kernel]

end Grate.Props
