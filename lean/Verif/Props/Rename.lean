import Verif.Props.LayoutXlsWitness
import Verif.Props.Independent

/-! # C150: names, order and visibility of sheets -/

namespace Grate.Spec

/-- The (first) sheet of a name is in a part. -/
def SheetAt (b : Book) (name part : Bytes) : Prop :=
  ∃ (i : Nat) (id : Bytes) (r : Relation), b.sheets[i]? = some (id, name) ∧
    (∀ (j : Nat) (s : Bytes × Bytes), j < i → b.sheets[j]? = some s → s.2 ≠ name) ∧ r ∈ b.rels ∧ r.type = relType "worksheet" ∧
    r.id = id ∧ r.part = part

end Grate.Spec

namespace Grate.Props

open Grate Grate.Spec Grate.Api

namespace Rename

/-- What `Get` gives for a sheet that has not been asked for. -/
theorem get_fresh {ext : Ext} {a : Xlsx.Archive} {d : Xlsx.Doc} {name : Bytes} {i : Nat} {x : Xlsx.XSheet}
    (hf : d.find name = some i) (hx : d.sheets[i]? = some x) (hs : x.state = none) :
    (Xlsx.parseSheet ext a d x.docname = .panic ∧ (Source.xlsx a d).get ext name = .panic) ∨
    (∃ e, Xlsx.parseSheet ext a d x.docname = .err e ∧ (Source.xlsx a d).get ext name = .ok (.xlsx a d, .error e)) ∨
    ∃ s e y, Xlsx.parseSheet ext a d x.docname = .ok (s, e) ∧
      (Source.xlsx a d).get ext name = .ok (y, match e with | some e => .error e | none => .ok (.sheet s)) := by
  have hg : d.get ext a name = (do
      let r ← Xlsx.parseSheet ext a d x.docname
      pure ({ d with sheets := d.sheets.set i { x with state := some r } }, i, r.2)) := by
    unfold Xlsx.Doc.get
    rw [hf]
    simp only [hx, hs]
  obtain ⟨hlt, _⟩ := List.getElem?_eq_some_iff.1 hx
  cases hp : Xlsx.parseSheet ext a d x.docname with
  | panic => exact .inl ⟨rfl, by simp only [Source.get, hg, hp]; rfl⟩
  | err e => exact .inr (.inl ⟨e, rfl, by simp only [Source.get, hg, hp]; rfl⟩)
  | ok r =>
    obtain ⟨s, e⟩ := r
    refine .inr (.inr ⟨s, e, .xlsx a { d with sheets := d.sheets.set i { x with state := some (s, e) } }, rfl, ?_⟩)
    rw [hp] at hg
    have hg' : d.get ext a name = .ok ({ d with sheets := d.sheets.set i { x with state := some (s, e) } }, i, e) := hg
    simp only [Source.get, hg']
    cases e with
    | some e => rfl
    | none => simp only [List.getElem?_set_self hlt]

theorem parse_same {ext : Ext} {a a' : Xlsx.Archive} {d d' : Xlsx.Doc} (h1 : d'.strings = d.strings) (h2 : d'.xfs = d.xfs)
    (h3 : d'.fmt = d.fmt) {n n' : Bytes} (hp : Xlsx.openXML a n = Xlsx.openXML a' n')
    (hr : Xlsx.openXML a (Xlsx.relsOf n) = Xlsx.openXML a' (Xlsx.relsOf n')) :
    Xlsx.parseSheet ext a' d' n' = Xlsx.parseSheet ext a d n := by
  have hl : Xlsx.linkMap a n = Xlsx.linkMap a' n' := by unfold Xlsx.linkMap; rw [hr]
  unfold Xlsx.parseSheet
  rw [← hp, ← hl, h3]
  simp only [sheetLoop_agree h1 h2]

/-- A sheet of a document that has just been opened. -/
theorem found {d : Xlsx.Doc} {b : Spec.Book} (hl : d.list = b.sheets.map Prod.snd)
    (hs : ∀ (i : Nat) (id name : Bytes), b.sheets[i]? = some (id, name) → ∃ x, d.sheets[i]? = some x ∧ x.name = name ∧
      x.state = none ∧ ∀ r ∈ b.rels, r.type = relType "worksheet" → r.id = id → x.docname = r.part)
    {name part : Bytes} (h : SheetAt b name part) :
    ∃ i x, d.find name = some i ∧ d.sheets[i]? = some x ∧ x.state = none ∧ x.docname = part := by
  obtain ⟨i, id, r, hi, hf, hr, ht, hid, hp⟩ := h
  obtain ⟨x, hx, hxn, hxs, hxd⟩ := hs i id name hi
  refine ⟨i, x, ?_, hx, hxs, (hxd r hr ht hid).trans hp⟩
  refine find_of hx hxn ?_
  intro j hj y hy hn
  have hl2 : d.list[j]? = some name := by unfold Xlsx.Doc.list; rw [List.getElem?_map, hy, Option.map_some, hn]
  rw [hl, List.getElem?_map, Option.map_eq_some_iff] at hl2
  obtain ⟨z, hz, hzn⟩ := hl2
  exact hf j z hj hz hzn

/-- Opening a document. -/
theorem open_doc (w : World) (fn file : Bytes) (hf : w.files fn = .ok file) (hn : NotCompound file) (a : Xlsx.Archive)
    (hz : w.zip file = .ok a) {d : Xlsx.Doc} (hd : Xlsx.openFile makeFormatter w.order (.ok a) = .ok d)
    (t : List (Grate.Entry Source)) (ht : Shipped w t) : openSrc t fn = .ok (.xlsx a d) := by
  rw [shipped_open ht]
  have hx : xlsxOpen w fn = .ok (.xlsx a d) := by
    unfold xlsxOpen
    simp only [hf, hz, hd]
    rfl
  simp [openSrc, openTrace, formats, xls_declines w fn file hf hn, hx, GoErr.isNotInFormat]

end Rename

/-- **C150 (xlsx).** Two documents with the same shared strings, styles and number formats, and a sheet of each, under any names, at
any place in the workbook, in parts of any names, whose parts (and link parts) have the same contents, damaged or not: `Get` of one
gives what `Get` of the other gives. Missing: what C61 leaves out. -/
theorem C150_xlsx_partial (w : World) (ext : Ext) (fn fn' file file' : Bytes) (hf : w.files fn = .ok file)
    (hf' : w.files fn' = .ok file') (hn : NotCompound file) (hn' : NotCompound file') (a a' : Xlsx.Archive)
    (hz : w.zip file = .ok a) (hz' : w.zip file' = .ok a') (hord : ∀ l, (w.order l).Perm l) (dir dir' : List Bytes)
    (base base' : Bytes) (b b' : Spec.Book) (hb : XlsxFile a dir base b) (hb' : XlsxFile a' dir' base' b')
    (hs : b.strings = b'.strings) (hst : b.styles = b'.styles) (hfm : b.formats = b'.formats) (name name' part part' : Bytes)
    (hp : SheetAt b name part) (hp' : SheetAt b' name' part') (hsame : Xlsx.openXML a part = Xlsx.openXML a' part')
    (hlinks : Xlsx.openXML a (Xlsx.relsOf part) = Xlsx.openXML a' (Xlsx.relsOf part')) (t : List (Grate.Entry Source))
    (ht : Shipped w t) :
    ∃ src src', openSrc t fn = .ok src ∧ openSrc t fn' = .ok src' ∧
      ((∃ x x' r, src.get ext name = .ok (x, r) ∧ src'.get ext name' = .ok (x', r)) ∨
        (src.get ext name = .panic ∧ src'.get ext name' = .panic)) := by
  obtain ⟨d, hd, hl, hsh, e1, e2, e3⟩ := C61_open_partial makeFormatter w.order hord a dir base b hb
  obtain ⟨d', hd', hl', hsh', e1', e2', e3'⟩ := C61_open_partial makeFormatter w.order hord a' dir' base' b' hb'
  refine ⟨_, _, Rename.open_doc w fn file hf hn a hz hd t ht, Rename.open_doc w fn' file' hf' hn' a' hz' hd' t ht, ?_⟩
  obtain ⟨i, x, hi, hx, hxs, rfl⟩ := Rename.found hl hsh hp
  obtain ⟨i', x', hi', hx', hxs', rfl⟩ := Rename.found hl' hsh' hp'
  have same : Xlsx.parseSheet ext a' d' x'.docname = Xlsx.parseSheet ext a d x.docname :=
    Rename.parse_same (by rw [e1, e1', hs]) (by rw [e2, e2', hst]) (by rw [e3, e3', hfm]) hsame hlinks
  rcases Rename.get_fresh (ext := ext) (a := a) hi hx hxs with ⟨p, g⟩ | ⟨e, p, g⟩ | ⟨s, e, y, p, g⟩ <;>
    rcases Rename.get_fresh (ext := ext) (a := a') hi' hx' hxs' with ⟨p', g'⟩ | ⟨e', p', g'⟩ | ⟨s', e', y', p', g'⟩ <;>
    rw [p, p'] at same <;> cases same
  · exact .inr ⟨g, g'⟩
  · exact .inl ⟨_, _, _, g, g'⟩
  · exact .inl ⟨_, _, _, g, g'⟩

/-- **C150 (xls).** The same for two xls files with the same shared strings, number formats and styles: sheets with the same records
(but for those that C149 is about), under any names, visible or not, at any place. Missing: as in C121, sheets with records that are
cut off. -/
theorem C150_xls_partial (w : World) (ext : Ext) (fn fn' file file' : Bytes) (hf : w.files fn = .ok file)
    (hf' : w.files fn' = .ok file') (hb : ∀ k ∈ w.bufs, 0 < k) {c c' : Content} {subs subs' : List (List Record)}
    (h : XlsFile w file c subs) (h' : XlsFile w file' c' subs') (hs : c.strings = c'.strings) (hfm : c.formats = c'.formats)
    (hst : c.styles = c'.styles) (name name' : Bytes) (recs recs' : List Record) (hr : StoredAs c subs name recs)
    (hr' : StoredAs c' subs' name' recs') (hsame : recs = recs' ∨ SameSheet Record.type recs recs')
    (hg : GoodSheet c recs ∨ WholeSheet c recs) :
    ∃ k, ∀ fuel, k ≤ fuel → ∀ t, Shipped { w with fuel := fuel } t → ∃ src src' r, openSrc t fn = .ok src ∧
      openSrc t fn' = .ok src' ∧ src.get ext name = .ok (src, r) ∧ src'.get ext name' = .ok (src', r) := by
  obtain ⟨b, n, hl, ho⟩ := xlsFile_loaded w fn file hf hb h
  obtain ⟨b', n', hl', ho'⟩ := xlsFile_loaded w fn' file' hf' hb h'
  obtain ⟨e, np⟩ := Dress.loaded (ext := ext) hl hl' ⟨hs, hfm, hst⟩ hr hr' hsame hg
  have : ∃ r, (Source.xls b).get ext name = .ok (.xls b, r) ∧ (Source.xls b').get ext name' = .ok (.xls b', r) := by
    simp only [Source.get, e]
    cases hx : b.get ext name with
    | panic => exact absurd hx np
    | err e => exact ⟨_, rfl, rfl⟩
    | ok s =>
      cases s with
      | none => exact ⟨_, rfl, rfl⟩
      | some s => exact ⟨_, rfl, rfl⟩
  obtain ⟨r, g, g'⟩ := this
  exact ⟨max n n', fun fuel hfu t ht => ⟨_, _, r, ho fuel (by omega) t ht, ho' fuel (by omega) t ht, g, g'⟩⟩

/-! ### Examples -/

/-- `exZip` with other names for its sheets, in the other order, one of them hidden. -/
def exMoved : Xlsx.Archive :=
  [(lit "_rels/.rels", .ok ⟨[exRelation (relType "officeDocument") (lit "rId1") (lit "xl/workbook.xml")], .eof⟩),
    (lit "xl/_rels/workbook.xml.rels", .ok ⟨[exRelation (relType "worksheet") (lit "rId1") (lit "worksheets/sheet1.xml"),
      exRelation (relType "worksheet") (lit "rId2") (lit "/xl/worksheets/sheet2.xml"),
      exRelation (relType "sharedStrings") (lit "rId3") (lit "../strings.xml")], .eof⟩),
    (lit "xl/workbook.xml", .ok ⟨[.start (lit "sheets") [],
      .start (lit "sheet") [(lit "name", lit "zwei"), (lit "id", lit "rId1"), (lit "state", lit "hidden")],
      .start (lit "sheet") [(lit "name", lit "eins"), (lit "id", lit "rId2")]], .eof⟩),
    (lit "strings.xml", .ok ⟨exSharedStrings, .eof⟩),
    (lit "xl/worksheets/sheet1.xml", .ok ⟨exSheetCells.flatMap ACell.toks, .eof⟩),
    (lit "xl/worksheets/sheet2.xml", .ok ⟨[.start (lit "sheetData") [], .stop (lit "sheetData")], .eof⟩)]

/-- Its content. -/
def exMovedBook : Spec.Book := { exXlsxBook with sheets := [(lit "rId1", lit "zwei"), (lit "rId2", lit "eins")] }

theorem exMoved_file : XlsxFile exMoved [lit "xl"] (lit "workbook.xml") exMovedBook where
  dirNames := by
    intro s hs
    simp only [List.mem_singleton] at hs
    subst hs
    exact realName_of (by decide +kernel)
  baseName := realName_of (by decide +kernel)
  root := by
    refine ⟨_, [], [], ⟨relType "officeDocument", lit "rId1", lit "xl/workbook.xml", lit "xl/workbook.xml"⟩,
      ⟨[], _, rfl, by simp⟩, exRel_toks ⟨relType "officeDocument", lit "rId1", lit "xl/workbook.xml", lit "xl/workbook.xml"⟩ ?_ .nil,
      rfl, exPartNames.1.symm, by simp, ?_⟩
    · simp only
      have := Refers.relative (dir := []) [lit "xl", lit "workbook.xml"] [lit "xl", lit "workbook.xml"] (by simp) ?_ ?_ (by simp)
      · have e : pathOf [lit "xl", lit "workbook.xml"] = lit "xl/workbook.xml" := by decide +kernel
        rwa [e] at this
      · intro s hs
        simp only [List.mem_cons, List.not_mem_nil, or_false] at hs
        rcases hs with rfl | rfl <;> exact (realName_of (by decide +kernel)).1
      · exact .down _ _ _ _ (realName_of (by decide +kernel)) (.down _ _ _ _ (realName_of (by decide +kernel)) (.done _))
    · intro x hx
      simp only [List.nil_append, List.mem_singleton] at hx
      subst hx
      decide +kernel
  rels := by
    refine ⟨_, ⟨[_], _, by rw [exPartNames.2]; rfl, ?_⟩, ?_⟩
    · intro e he
      simp only [List.mem_singleton] at he
      subst he
      decide +kernel
    · refine exRel_toks ⟨relType "worksheet", lit "rId1", lit "worksheets/sheet1.xml", lit "xl/worksheets/sheet1.xml"⟩ ?_
        (exRel_toks ⟨relType "worksheet", lit "rId2", lit "/xl/worksheets/sheet2.xml", lit "xl/worksheets/sheet2.xml"⟩ ?_
          (exRel_toks ⟨relType "sharedStrings", lit "rId3", lit "../strings.xml", lit "strings.xml"⟩ ?_ .nil))
      · have := Refers.relative (dir := [lit "xl"]) [lit "worksheets", lit "sheet1.xml"]
          [lit "xl", lit "worksheets", lit "sheet1.xml"] (by simp) ?_ ?_ (by simp)
        · have e : pathOf [lit "worksheets", lit "sheet1.xml"] = lit "worksheets/sheet1.xml" ∧
            pathOf [lit "xl", lit "worksheets", lit "sheet1.xml"] = lit "xl/worksheets/sheet1.xml" := by decide +kernel
          rwa [e.1, e.2] at this
        · intro s hs
          simp only [List.mem_cons, List.not_mem_nil, or_false] at hs
          rcases hs with rfl | rfl <;> exact (realName_of (by decide +kernel)).1
        · exact .down _ _ _ _ (realName_of (by decide +kernel)) (.down _ _ _ _ (realName_of (by decide +kernel)) (.done _))
      · have := Refers.absolute (dir := [lit "xl"]) (lit "xl/worksheets/sheet2.xml")
        have e : 47 :: lit "xl/worksheets/sheet2.xml" = lit "/xl/worksheets/sheet2.xml" := by decide +kernel
        rwa [e] at this
      · have := Refers.relative (dir := [lit "xl"]) [lit "..", lit "strings.xml"] [lit "strings.xml"] (by simp) ?_ ?_ (by simp)
        · have e : pathOf [lit "..", lit "strings.xml"] = lit "../strings.xml" := by decide +kernel
          rwa [e] at this
        · intro s hs
          simp only [List.mem_cons, List.not_mem_nil, or_false] at hs
          rcases hs with rfl | rfl
          · unfold PathName; decide +kernel
          · exact (realName_of (by decide +kernel)).1
        · exact .up [] _ _ _ (.down _ _ _ _ (realName_of (by decide +kernel)) (.done _))
  noOther := C61_witness.noOther
  ids := C61_witness.ids
  workbook := by
    refine ⟨_, ⟨[_, _], _, by rw [exPartNames.1]; rfl, ?_⟩, ?_⟩
    · intro e he
      rw [exPartNames.1]
      simp only [List.mem_cons, List.not_mem_nil, or_false] at he
      rcases he with rfl | rfl <;> decide +kernel
    · refine .other _ _ _ (by unfold Starts; decide +kernel) (.sheet _ _ _ _ _ (by unfold Distinct; decide +kernel) ?_ ?_
        (.sheet _ _ _ _ _ (by unfold Distinct; decide +kernel) ?_ ?_ .nil)) <;> unfold Has <;> decide +kernel
  styles := .inl ⟨by unfold partsOf; decide +kernel, rfl, rfl⟩
  strings := by
    refine .inr ⟨lit "strings.xml", exSharedStrings, by unfold partsOf; decide +kernel, ⟨[_, _, _], _, rfl, ?_⟩, C56_witness⟩
    intro e he
    simp only [List.mem_cons, List.not_mem_nil, or_false] at he
    rcases he with rfl | rfl | rfl <;> decide +kernel

/-- C150: the second sheet of `exZip` and the first one of `exMoved`. -/
theorem C150_xlsx_witness (w : World) (ext : Ext) (fn fn' file file' : Bytes) (hf : w.files fn = .ok file)
    (hf' : w.files fn' = .ok file') (hn : NotCompound file) (hn' : NotCompound file') (hz : w.zip file = .ok exZip)
    (hz' : w.zip file' = .ok exMoved) (hord : ∀ l, (w.order l).Perm l) (t : List (Grate.Entry Source)) (ht : Shipped w t) :
    ∃ src src', openSrc t fn = .ok src ∧ openSrc t fn' = .ok src' ∧
      ((∃ x x' r, src.get ext (lit "two") = .ok (x, r) ∧ src'.get ext (lit "zwei") = .ok (x', r)) ∨
        (src.get ext (lit "two") = .panic ∧ src'.get ext (lit "zwei") = .panic)) := by
  refine C150_xlsx_partial w ext fn fn' file file' hf hf' hn hn' exZip exMoved hz hz' hord _ _ _ _ _ _ C61_witness exMoved_file rfl
    rfl rfl (lit "two") (lit "zwei") (lit "xl/worksheets/sheet1.xml") (lit "xl/worksheets/sheet1.xml") ?_ ?_ ?_ ?_ t ht
  · refine ⟨1, lit "rId1", _, rfl, ?_, List.mem_cons_self .., rfl, rfl, rfl⟩
    intro j s hj hs
    have : j = 0 := by omega
    subst this
    cases hs
    decide +kernel
  · exact ⟨0, lit "rId1", _, rfl, fun j s hj => by omega, List.mem_cons_self .., rfl, rfl, rfl⟩
  · rfl
  · rfl

/-- C150: sheet `A` of the first file is sheet `C` of the second, where it is hidden. -/
theorem C150_xls_witness (w : World) (ext : Ext) (fn fn' : Bytes) (hf : w.files fn = .ok (exTwoFile 0))
    (hf' : w.files fn' = .ok (exDressFile true)) (hb : w.bufs = List.replicate 512 512) :
    ∃ k, ∀ fuel, k ≤ fuel → ∀ t, Shipped { w with fuel := fuel } t → ∃ src src' r, openSrc t fn = .ok src ∧
      openSrc t fn' = .ok src' ∧ src.get ext (lit "A") = .ok (src, r) ∧ src'.get ext (lit "C") = .ok (src', r) := by
  have hb0 : ∀ k ∈ w.bufs, 0 < k := by rw [hb]; intro k hk; rw [(List.mem_replicate.1 hk).2]; decide
  exact C150_xls_partial w ext fn fn' _ _ hf hf' hb0 (exTwo_file w hb 0) (exDress_file true w hb) rfl rfl rfl _ _ _ _
    (exTwo_A 0 exTwoSheet rfl) (exDress_A true) (.inr exDress_same) (.inl (exTwoSheet_good 0))

end Grate.Props
