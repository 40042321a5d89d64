import Verif.Spec.Defined
import Verif.Props.MakeFormat
import Verif.Props.XlsSheet
import Verif.Props.XlsxDoc

/-! # C135: the number formats that a workbook defines -/

namespace Grate.Props

open Grate Grate.Spec

namespace Defined

/-- The formatter after definitions. -/
def fold (defs : List (Nat × Bytes)) (f : Formatter) : Formatter := defs.foldl (fun f a => (f.add makeFormatter a.1 a.2).1) f

theorem reserved_iff (n : Nat) : Reserved n ↔ (goFormatters n).isSome := by
  have small : ∀ i : Fin 82, (i.val ≤ 4 ∨ 9 ≤ i.val ∧ i.val ≤ 22 ∨ 27 ≤ i.val ∧ i.val ≤ 62 ∨ 67 ≤ i.val ∧ i.val ≤ 81) ↔
      (goFormatters i.val).isSome := by decide +kernel
  by_cases h : n < 82
  · exact small ⟨n, h⟩
  · have e : goFormatters n = none := by
      unfold goFormatters; split <;> first | omega | rfl
    rw [e]
    unfold Reserved
    constructor
    · intro; omega
    · intro h; cases h

theorem fold_mode : ∀ (defs : List (Nat × Bytes)) (f : Formatter), (fold defs f).mode1904 = f.mode1904
  | [], _ => rfl
  | d :: ds, f => (fold_mode ds _).trans (add_mode makeFormatter f d.1 d.2)

theorem fold_other {n : Nat} : ∀ (defs : List (Nat × Bytes)) (f : Formatter), (∀ d ∈ defs, d.1 ≠ n) →
    (fold defs f).codes n = f.codes n ∧ (fold defs f).types n = f.types n
  | [], _, _ => ⟨rfl, rfl⟩
  | d :: ds, f, h => by
    obtain ⟨a1, a2⟩ := C24_add_other makeFormatter f d.1 d.2 n (fun e => h d List.mem_cons_self e.symm)
    obtain ⟨b1, b2⟩ := fold_other ds (f.add makeFormatter d.1 d.2).1 (fun x hx => h x (List.mem_cons_of_mem _ hx))
    exact ⟨b1.trans a1, b2.trans a2⟩

theorem fold_append (a b : List (Nat × Bytes)) (f : Formatter) : fold (a ++ b) f = fold b (fold a f) := List.foldl_append

/-- What is registered for a number depends only on what was registered before and on the definition. -/
theorem add_same {x y : Formatter} {n : Nat} (hc : x.codes n = y.codes n) (ht : x.types n = y.types n) (code : Bytes) :
    (x.add makeFormatter n code).1.codes n = (y.add makeFormatter n code).1.codes n ∧
    (x.add makeFormatter n code).1.types n = (y.add makeFormatter n code).1.types n := by
  unfold Formatter.add
  rw [hc]
  split
  · exact ⟨by simp [upd], ht⟩
  · split
    · exact ⟨hc, ht⟩
    · split
      · exact ⟨hc, ht⟩
      · exact ⟨by simp [upd], by simp [upd]⟩

theorem fold_once {defs : List (Nat × Bytes)} {n : Nat} {code : Bytes} (h : DefinedOnce defs n code) :
    (fold defs .new).codes n = (onlyDefined n code).codes n ∧ (fold defs .new).types n = (onlyDefined n code).types n := by
  obtain ⟨before, after, e, ho⟩ := h
  rw [e, fold_append]
  obtain ⟨a1, a2⟩ := fold_other (n := n) before .new (fun d hd => ho d (List.mem_append_left _ hd))
  obtain ⟨b1, b2⟩ := fold_other (n := n) after ((fold before .new).add makeFormatter n code).1
    (fun d hd => ho d (List.mem_append_right _ hd))
  obtain ⟨c1, c2⟩ := add_same a1 a2 code
  exact ⟨b1.trans c1, b2.trans c2⟩

/-- The same text, and the same type of cell, for every value. -/
structure Alike (ext : Ext) (x y : Formatter) (n : Nat) : Prop where
  text : ∀ v, x.apply ext n v = y.apply ext n v
  type : x.getCellType n = y.getCellType n
  known : (x.get n).2 = (y.get n).2

theorem alike_of {x y : Formatter} {n : Nat} (ext : Ext) (hc : x.codes n = y.codes n) (ht : x.types n = y.types n)
    (hm : x.mode1904 = y.mode1904) : Alike ext x y n := by
  refine ⟨fun v => ?_, ?_, ?_⟩
  · unfold Formatter.apply
    rw [hc, hm]
  · unfold Formatter.getCellType
    rw [ht]
  · unfold Formatter.get
    rw [hc]

theorem once (ext : Ext) {defs : List (Nat × Bytes)} {n : Nat} {code : Bytes} (h : DefinedOnce defs n code) :
    Alike ext (fold defs .new) (onlyDefined n code) n := by
  obtain ⟨h1, h2⟩ := fold_once h
  refine alike_of ext h1 h2 ?_
  rw [fold_mode]
  exact (add_mode _ _ _ _).symm

/-- Formats of numbers that are not reserved are known. -/
theorem known_once {n : Nat} (hn : ¬ Reserved n) (code : Bytes) :
    ((onlyDefined n code).get n).2 = true := by
  have e : goFormatters n = none := by
    rw [reserved_iff] at hn
    simpa using hn
  unfold onlyDefined Formatter.add Formatter.get
  rw [e]
  by_cases hg : asciiLower code = lit "general"
  · rw [if_pos hg]
    simp [upd]
  · rw [if_neg hg]
    simp [upd, Formatter.new]

/-- Definitions of reserved numbers change nothing. -/
theorem reserved_apply (ext : Ext) {n : Nat} (hn : Reserved n) (x y : Formatter) (hm : x.mode1904 = y.mode1904) (v : Val) :
    x.apply ext n v = y.apply ext n v := by
  rw [reserved_iff] at hn
  unfold Formatter.apply
  cases e : goFormatters n with
  | none => rw [e] at hn; cases hn
  | some g => simp only [hm]

theorem xls_fold : ∀ (fs : List (Nat × List Nat)) (f : Formatter),
    Xls.addAll makeFormatter fs f = fold (fs.map (fun d => (d.1, utf8 d.2))) f
  | [], _ => rfl
  | (_, _) :: fs, _ => xls_fold fs _

end Defined

open Defined

/-- **C135** for Excel 97 workbooks: a number format that the workbook defines once, under a number without a fixed meaning, is the one
that its cells are shown by, whatever else is defined: every value has the text and the type of cell that it has in a formatter to
which only this format was added (C70 to C72 say what these are). Missing: the numbers with a fixed meaning, `C135_reserved`. -/
theorem C135_xls_partial (p : Crypto.Prims) (ext : Ext) {groups : List (List Record)} (h : Grouped groups)
    (hp : ∀ r ∈ groups.flatten, r.type ≠ 0x2F) {c : Content} (hc : AllGlobals .empty groups c) (rest : Bytes) (n : Nat)
    (code : Bytes) (hd : DefinedOnce c.defs n code) (hn : ¬ Reserved n) :
    ∃ b, Xls.loadStream p makeFormatter rest ⟨stream groups.flatten, rest⟩ = .ok b ∧ (b.nfmt.get n).2 = true ∧
      b.nfmt.getCellType n = (onlyDefined n code).getCellType n ∧
      ∀ v, b.nfmt.apply ext n v = (onlyDefined n code).apply ext n v := by
  obtain ⟨g, hl, _, _⟩ := load_content p makeFormatter h hp hc rest
  have e : (Xls.bookOf makeFormatter c g.subs g.pos2).nfmt = fold c.defs .new := xls_fold c.formats .new
  have k := once ext hd
  refine ⟨_, hl, ?_, ?_, fun v => ?_⟩
  · rw [e, k.known, known_once hn]
  · rw [e]; exact k.type
  · rw [e]; exact k.text v

/-- **C135** for Office Open XML workbooks. -/
theorem C135_xlsx_partial (ext : Ext) (order : List Bytes → List Bytes) (ho : ∀ l, (order l).Perm l)
    (a : Xlsx.Archive) (dir : List Bytes) (base : Bytes) (b : Spec.Book) (h : XlsxFile a dir base b) (n : Nat) (code : Bytes)
    (hd : DefinedOnce b.formats n code) (hn : ¬ Reserved n) :
    ∃ d, Xlsx.openFile makeFormatter order (.ok a) = .ok d ∧ (d.fmt.get n).2 = true ∧
      d.fmt.getCellType n = (onlyDefined n code).getCellType n ∧
      ∀ v, d.fmt.apply ext n v = (onlyDefined n code).apply ext n v := by
  obtain ⟨d, hl, _, _, _, _, e⟩ := C61_open_partial makeFormatter order ho a dir base b h
  have k := once ext hd
  have e' : d.fmt = fold b.formats .new := e
  refine ⟨d, hl, ?_, ?_, fun v => ?_⟩
  · rw [e', k.known, known_once hn]
  · rw [e']; exact k.type
  · rw [e']; exact k.text v

/-- C135 is false of all numbers with a fixed meaning: whatever a workbook defines for them, its cells are shown as in a workbook
without definitions. -/
theorem C135_reserved (p : Crypto.Prims) (ext : Ext) {groups : List (List Record)} (h : Grouped groups)
    (hp : ∀ r ∈ groups.flatten, r.type ≠ 0x2F) {c : Content} (hc : AllGlobals .empty groups c) (rest : Bytes) (n : Nat)
    (hn : Reserved n) :
    ∃ b, Xls.loadStream p makeFormatter rest ⟨stream groups.flatten, rest⟩ = .ok b ∧
      ∀ v, b.nfmt.apply ext n v = Formatter.new.apply ext n v := by
  obtain ⟨g, hl, _, _⟩ := load_content p makeFormatter h hp hc rest
  have e : (Xls.bookOf makeFormatter c g.subs g.pos2).nfmt = fold c.defs .new := xls_fold c.formats .new
  refine ⟨_, hl, fun v => reserved_apply ext hn _ _ ?_ v⟩
  rw [e, fold_mode]

/-- The same for Office Open XML workbooks. -/
theorem C135_xlsx_reserved (ext : Ext) (order : List Bytes → List Bytes) (ho : ∀ l, (order l).Perm l)
    (a : Xlsx.Archive) (dir : List Bytes) (base : Bytes) (b : Spec.Book) (h : XlsxFile a dir base b) (n : Nat) (hn : Reserved n) :
    ∃ d, Xlsx.openFile makeFormatter order (.ok a) = .ok d ∧ ∀ v, d.fmt.apply ext n v = Formatter.new.apply ext n v := by
  obtain ⟨d, hl, _, _, _, _, e⟩ := C61_open_partial makeFormatter order ho a dir base b h
  have e' : d.fmt = fold b.formats .new := e
  refine ⟨d, hl, fun v => reserved_apply ext hn _ _ ?_ v⟩
  rw [e', fold_mode]

/-- The code of an amount in euros, and the records of a workbook that defines it under the number `n`. -/
def exEuro (n : Nat) : List (List Record) :=
  [[⟨0x809, bofData 5 0x1CBB 0x07CD [0, 0, 0, 0, 6, 0, 0, 0]⟩,
    ⟨1054, leBytes 2 n ++ (xlString 2 true 1 ([0x23, 0x2C, 0x23, 0x23, 0x30, 0x22, 0x20, 0x20AC, 0x22].flatMap units) ++ [])⟩,
    ⟨0x0A, []⟩]]

theorem exEuro_grouped {n : Nat} (hn : n = 42 ∨ n = 164) : Grouped (exEuro n) ∧ (∀ r ∈ (exEuro n).flatten, r.type ≠ 0x2F) ∧
    ∃ c, AllGlobals .empty (exEuro n) c ∧ DefinedOnce c.defs n (lit "#,##0\" €\"") := by
  refine ⟨⟨?_, ?_⟩, ?_, ⟨[], 0, [], [(n, [0x23, 0x2C, 0x23, 0x23, 0x30, 0x22, 0x20, 0x20AC, 0x22])], []⟩, ?_, [], [], ?_, by simp⟩
  · unfold Record.Fits
    rcases hn with rfl | rfl <;> decide +kernel
  · intro g hg
    unfold exEuro at hg
    rw [List.mem_singleton] at hg
    subst hg
    exact ⟨_, [_], _, rfl, rfl, rfl, .plain _ _ (show (1054 : Nat) ≠ _ by decide) (show (1054 : Nat) ≠ _ by decide) .nil⟩
  · rcases hn with rfl | rfl <;> decide +kernel
  · refine .cons _ ⟨[], 0, [], [(n, [0x23, 0x2C, 0x23, 0x23, 0x30, 0x22, 0x20, 0x20AC, 0x22])], []⟩ _ _ _ ?_ (.nil _)
    refine .bof _ _ 5 _ _ _ _ (by decide) (by decide) ?_
    refine .format Content.empty _ n 1 [0x23, 0x2C, 0x23, 0x23, 0x30, 0x22, 0x20, 0x20AC, 0x22] [] _ (by omega)
      (by unfold Scalar; decide +kernel) (by unfold Fits; decide +kernel) (by decide +kernel) ?_
    exact .skip _ _ _ _ (.inl rfl) (.nil _)
  · show [(n, utf8 _)] = _
    have : utf8 [0x23, 0x2C, 0x23, 0x23, 0x30, 0x22, 0x20, 0x20AC, 0x22] = lit "#,##0\" €\"" := by decide +kernel
    rw [this]
    rfl

theorem euro_shown (ext : Ext) : (onlyDefined 164 (lit "#,##0\" €\"")).apply ext 164 (.int 1234) = .ok (lit "1,234 €", true) := by
  have h : makeFormatter (lit "#,##0\" €\"") = (.surround [] (.commas (.sprintf (.d 0 []) 1)) (lit " €"), .integer) := by
    decide +kernel
  have e := (renderCustom_eq ext Formatter.new 164 (lit "#,##0\" €\"") (.int 1234) (by decide) rfl (by decide +kernel)).1
  rw [h] at e
  exact e.trans rfl

/-- C135: a workbook defines the format 42 (which spreadsheets do, each in its currency) as an amount in euros, and 1234 is shown in
dollars; under the number 164 the same code shows euros. -/
theorem C135_counterexample (p : Crypto.Prims) (ext : Ext) :
    (∃ groups c b, Grouped groups ∧ AllGlobals .empty groups c ∧ DefinedOnce c.defs 42 (lit "#,##0\" €\"") ∧
      Xls.loadStream p makeFormatter [] ⟨stream groups.flatten, []⟩ = .ok b ∧
      b.nfmt.apply ext 42 (.int 1234) = .ok (lit "$1,234", true)) ∧
    ∃ groups c b, Grouped groups ∧ AllGlobals .empty groups c ∧ DefinedOnce c.defs 164 (lit "#,##0\" €\"") ∧
      Xls.loadStream p makeFormatter [] ⟨stream groups.flatten, []⟩ = .ok b ∧
      b.nfmt.apply ext 164 (.int 1234) = .ok (lit "1,234 €", true) := by
  constructor
  · obtain ⟨h1, h2, c, h3, h4⟩ := exEuro_grouped (.inl rfl)
    obtain ⟨b, h5, h6⟩ := C135_reserved p ext h1 h2 h3 [] 42 (by unfold Reserved; omega)
    exact ⟨_, c, b, h1, h3, h4, h5, (h6 _).trans rfl⟩
  · obtain ⟨h1, h2, c, h3, h4⟩ := exEuro_grouped (.inr rfl)
    obtain ⟨b, h5, _, _, h6⟩ := C135_xls_partial p ext h1 h2 h3 [] 164 _ h4 (by unfold Reserved; omega)
    exact ⟨_, c, b, h1, h3, h4, h5, (h6 _).trans (euro_shown ext)⟩

namespace Defined

/-- A workbook without sheets whose style part defines the format 164 as `0.000`. -/
def exStyled : Xlsx.Archive :=
  [(lit "[Content_Types].xml", .ok ⟨[.start (lit "Types") [], .stop (lit "Types")], .eof⟩),
    (lit "_rels/.rels", .ok ⟨[exRelation (relType "officeDocument") (lit "rId1") (lit "xl/workbook.xml")], .eof⟩),
    (lit "xl/workbook.xml", .ok ⟨[.start (lit "workbook") [], .stop (lit "workbook")], .eof⟩),
    (lit "xl/_rels/workbook.xml.rels", .ok ⟨[exRelation (relType "styles") (lit "rId1") (lit "styles.xml"),
      exRelation (relType "image") (lit "rId2") (lit "media/image1.png")], .eof⟩),
    (lit "xl/styles.xml", .ok ⟨exStylePart, .eof⟩)]

def exStyledBook : Spec.Book :=
  { rels := [⟨relType "styles", lit "rId1", lit "styles.xml", lit "xl/styles.xml"⟩], sheets := [], formats := [(164, lit "0.000")],
    styles := [14, 164, 0], strings := [] }

theorem exStyled_names : pathOf ([lit "xl"] ++ [lit "workbook.xml"]) = lit "xl/workbook.xml" ∧
    relsPart [lit "xl"] (lit "workbook.xml") = lit "xl/_rels/workbook.xml.rels" := by decide +kernel

theorem exStyled_main : HasPart exStyled (pathOf ([lit "xl"] ++ [lit "workbook.xml"])) [.start (lit "workbook") [],
    .stop (lit "workbook")] := by
  refine ⟨[_, _], _, by rw [exStyled_names.1]; rfl, ?_⟩
  intro e he
  rw [exStyled_names.1]
  simp only [List.mem_cons, List.not_mem_nil, or_false] at he
  rcases he with rfl | rfl <;> decide +kernel

theorem exStyled_file : XlsxFile exStyled [lit "xl"] (lit "workbook.xml") exStyledBook where
  dirNames := by
    intro s hs
    simp only [List.mem_singleton] at hs
    subst hs
    exact realName_of (by decide +kernel)
  baseName := realName_of (by decide +kernel)
  root := by
    refine ⟨_, [], [], ⟨relType "officeDocument", lit "rId1", lit "xl/workbook.xml", lit "xl/workbook.xml"⟩,
      ⟨[_], _, rfl, ?_⟩, exRel_toks ⟨relType "officeDocument", lit "rId1", lit "xl/workbook.xml", lit "xl/workbook.xml"⟩ ?_ .nil,
      rfl, exStyled_names.1.symm, by simp, ?_⟩
    · intro e he
      simp only [List.mem_singleton] at he
      subst he
      decide +kernel
    · simp only
      have := Refers.relative (dir := []) [lit "xl", lit "workbook.xml"] [lit "xl", lit "workbook.xml"] (by simp) ?_ ?_ (by simp)
      · have e : pathOf [lit "xl", lit "workbook.xml"] = lit "xl/workbook.xml" := by decide +kernel
        rwa [e] at this
      · intro s hs
        simp only [List.mem_cons, List.not_mem_nil, or_false] at hs
        rcases hs with rfl | rfl <;> exact (realName_of (by decide +kernel)).1
      · exact .down _ _ _ _ (realName_of (by decide +kernel)) (.down _ _ _ _ (realName_of (by decide +kernel)) (.done _))
    · intro x hx
      simp only [List.nil_append, List.mem_singleton] at hx
      subst hx
      decide +kernel
  rels := by
    refine ⟨_, ⟨[_, _, _], _, by rw [exStyled_names.2]; rfl, ?_⟩, ?_⟩
    · intro e he
      rw [exStyled_names.2]
      simp only [List.mem_cons, List.not_mem_nil, or_false] at he
      rcases he with rfl | rfl | rfl <;> decide +kernel
    · refine exRel_toks ⟨relType "styles", lit "rId1", lit "styles.xml", lit "xl/styles.xml"⟩ ?_
        (.foreign _ (relType "image") _ _ ?_ ?_ ?_ .nil)
      · have := Refers.relative (dir := [lit "xl"]) [lit "styles.xml"] [lit "xl", lit "styles.xml"] (by simp) ?_ ?_ (by simp)
        · have e : pathOf [lit "styles.xml"] = lit "styles.xml" ∧ pathOf [lit "xl", lit "styles.xml"] = lit "xl/styles.xml" := by
            decide +kernel
          rwa [e.1, e.2] at this
        · intro s hs
          simp only [List.mem_cons, List.not_mem_nil, or_false] at hs
          subst hs
          exact (realName_of (by decide +kernel)).1
        · exact .down _ _ _ _ (realName_of (by decide +kernel)) (.done _)
      · unfold Distinct; simp only [List.map_cons, List.map_nil]; decide +kernel
      · unfold Has; simp
      · decide +kernel
  noOther := by
    intro x hx
    simp only [exStyledBook, List.mem_cons, List.not_mem_nil, or_false] at hx
    subst hx
    decide +kernel
  ids := by simp [exStyledBook]
  workbook := ⟨_, exStyled_main, by
    refine .other _ _ _ ?_ (.other _ _ _ ?_ .nil) <;> simp only [Starts, List.mem_singleton] <;> decide +kernel⟩
  styles := by
    refine .inr ⟨lit "xl/styles.xml", _, _, ?_, ⟨[_, _, _, _], [], rfl, ?_⟩, C57_witness, rfl⟩
    · decide +kernel
    · intro e he
      simp only [List.mem_cons, List.not_mem_nil, or_false] at he
      rcases he with rfl | rfl | rfl | rfl <;> decide +kernel
  strings := .inl ⟨by decide +kernel, rfl⟩

end Defined

/-- C135: an Office Open XML workbook that defines the format 164 as `0.000`. -/
theorem C135_xlsx_witness : XlsxFile exStyled [lit "xl"] (lit "workbook.xml") exStyledBook ∧
    DefinedOnce exStyledBook.formats 164 (lit "0.000") ∧ ¬ Reserved 164 :=
  ⟨exStyled_file, ⟨[], [], rfl, by simp⟩, by unfold Reserved; omega⟩

end Grate.Props
