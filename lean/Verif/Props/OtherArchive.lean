import Verif.Props.Damaged
import Verif.Props.Close

/-! # C131: zip archives that are not workbooks -/

namespace Grate.Props

open Grate Grate.Spec Grate.Api

/-! ### What the formats do -/

namespace OtherArchive

/-- A file that is no compound document and that the xlsx format declines is left to the readers of text. -/
theorem declined (w : World) (fn file : Bytes) (hf : w.files fn = .ok file) (hn : NotCompound file) (e : GoErr)
    (hx : xlsxOpen w fn = .err e) (he : e.isNotInFormat = true) (t : List (Grate.Entry Source)) (ht : Shipped w t) :
    openSrc t fn = (openTrace fn [⟨"tsv", 10, tsvOpen w⟩, ⟨"csv", 15, csvOpen w⟩]).2 := by
  rw [shipped_open ht]
  simp [openSrc, openTrace, formats, xls_declines w fn file hf hn, hx, GoErr.isNotInFormat, he]

/-- What is opened does not depend on what the directory of an archive says if the xlsx format declines the file. -/
theorem as_no_zip (w : World) (fn file : Bytes) (hf : w.files fn = .ok file) (hn : NotCompound file) (e : GoErr)
    (hx : xlsxOpen w fn = .err e) (he : e.isNotInFormat = true) (t : List (Grate.Entry Source)) (ht : Shipped w t) :
    openSrc t fn = openSrc (formats { w with zip := fun _ => .error .eof }) fn := by
  rw [declined w fn file hf hn e hx he t ht]
  have hx' : xlsxOpen { w with zip := fun _ => .error .eof } fn = .err (wrapErr [.eof, .notInFormat]) := by
    unfold xlsxOpen
    simp only [hf]
  rw [declined { w with zip := fun _ => .error .eof } fn file hf hn _ hx' (C03_wrap_two _) _ (shipped_some _)]
  rfl

theorem package_declined (w : World) (fn file : Bytes) (hf : w.files fn = .ok file) (a : Xlsx.Archive)
    (hz : w.zip file = .ok a) (e : GoErr) (hb : BrokenPart a (lit "_rels/.rels") e) :
    xlsxOpen w fn = .err (wrapErr [e, .notInFormat]) := by
  unfold xlsxOpen
  simp only [hf, hz]
  unfold Xlsx.openFile Xlsx.openPart
  rcases broken_open hb with ho | ⟨ts, ho, he⟩
  · simp only [ho]; rfl
  · simp only [ho, Xlsx.notXlsx, GoRes.ok_bind, Xlsx.parseRels, finish_err _ he]; rfl

/-- Without a relationship to a document there is no document. -/
theorem no_document (base : Bytes) : ∀ (ts : List Xlsx.Tok) (st : Xlsx.RelSt),
    (∀ attrs, Xlsx.Tok.start (lit "Relationship") attrs ∈ ts → Distinct attrs ∧ ¬ Has attrs "Type" (relType "officeDocument")) →
    (Xlsx.relsLoop base ts st).primaryDoc = st.primaryDoc := by
  have hrec : ∀ (t : Xlsx.Tok) (ts : List Xlsx.Tok),
      (∀ attrs, Xlsx.Tok.start (lit "Relationship") attrs ∈ t :: ts → Distinct attrs ∧ ¬ Has attrs "Type" (relType "officeDocument")) →
      ∀ attrs, Xlsx.Tok.start (lit "Relationship") attrs ∈ ts → Distinct attrs ∧ ¬ Has attrs "Type" (relType "officeDocument") :=
    fun t ts h attrs hm => h attrs (List.mem_cons_of_mem _ hm)
  intro ts
  induction ts with
  | nil => intro st _; rfl
  | cons t ts ih =>
    intro st h
    cases t with
    | start name attrs =>
      unfold Xlsx.relsLoop
      rw [ih _ (hrec _ _ h)]
      by_cases hn : name = lit "Relationship"
      · subst hn
        rw [if_pos rfl]
        obtain ⟨hd, ht⟩ := h attrs (by simp)
        unfold Xlsx.relElem
        simp only
        rw [if_neg]
        exact Xlsx.attr_ne hd ht (by decide +kernel)
      · rw [if_neg hn]
    | stop n => exact ih _ (hrec _ _ h)
    | chars s => exact ih _ (hrec _ _ h)
    | other => exact ih _ (hrec _ _ h)

/-- A relationship part with a relationship to a document names it. -/
theorem one_document (dir : List Bytes) (hd : ∀ s ∈ dir, RealName s) (ts : List Xlsx.Tok) (before after : List Relation) (r : Relation)
    (h : RelToks dir ts (before ++ r :: after)) (hty : r.type = relType "officeDocument")
    (hl : ∀ x ∈ after, x.type ≠ relType "officeDocument") (st : Xlsx.RelSt) :
    (Xlsx.relsLoop (Xlsx.dirText dir) ts st).primaryDoc = r.target := by
  obtain ⟨_, h2, _⟩ := Xlsx.relsLoop_spec hd h st
  exact h2 before after r rfl hty hl

/-- A main part without elements `sheet` has no sheets. -/
theorem no_sheets {ts : List Xlsx.Tok} {ss : List (Bytes × Bytes)} (h : BookToks ts ss) (hs : ∀ x ∈ ts, ¬ Starts [lit "sheet"] x) :
    ss = [] := by
  induction h with
  | nil => rfl
  | other x ts ss _ _ ih => exact ih (fun y hy => hs y (by simp [hy]))
  | sheet attrs id name ts ss => exact absurd (by simp [Starts]) (hs (.start (lit "sheet") attrs) (by simp))

/-- The readers of text make texts. -/
theorem only_text {w : World} {fn : Bytes} {src : Source}
    (h : (openTrace fn [⟨"tsv", 10, tsvOpen w⟩, ⟨"csv", 15, csvOpen w⟩]).2 = .ok src) : ∃ f, src = .text f := by
  cases h1 : tsvOpen w fn with
  | ok s =>
    simp [openTrace, h1] at h
    subst h
    exact tsvOpen_kind h1
  | panic => simp [openTrace, h1] at h
  | err e =>
    cases he : e.isNotInFormat with
    | false => simp [openTrace, h1, he] at h
    | true =>
      cases h2 : csvOpen w fn with
      | ok s =>
        simp [openTrace, h1, h2, he] at h
        subst h
        exact csvOpen_kind h2
      | panic => simp [openTrace, h1, h2, he] at h
      | err e' => cases he' : e'.isNotInFormat <;> simp [openTrace, h1, h2, he, he'] at h

end OtherArchive

/-! ### The theorems -/

/-- C131, as far as it holds for archives that are no packages of the Open Packaging Conventions (OpenDocument files, program archives,
plain zip files): they have no readable part `_rels/.rels`. `Open` never takes them for a workbook, and answers ErrUnknownFormat exactly
when no line of the file has 64 KiB, the rule of C06 declines its lines, and it has fewer than ten CSV records or is not CSV. Missing:
that this is always so, which is false. -/
theorem C131_archive_partial (w : World) (fn file : Bytes) (hf : w.files fn = .ok file) (hn : NotCompound file)
    (a : Xlsx.Archive) (hz : w.zip file = .ok a) (e : GoErr) (hb : BrokenPart a (lit "_rels/.rels") e)
    (hi : ∀ m, (w.iter m).Perm m) (lines : List Bytes) (rows : List (List Bytes)) (hl : LinesOf file lines)
    (hr : All2 FieldsOf lines rows) (hsize : rows.length < 2 ^ 50) (t : List (Grate.Entry Source)) (ht : Shipped w t) :
    (∀ x d, openSrc t fn ≠ .ok (.xlsx x d)) ∧ (∀ b, openSrc t fn ≠ .ok (.xls b)) ∧
    (openSrc t fn = .err .unknownFormat ↔ ¬ HasLongLine file ∧ Declined rows ∧
      ((w.csv file).2 = .parseError ∨ (w.csv file).1.length < 10)) := by
  have hx := OtherArchive.package_declined w fn file hf a hz e hb
  have he := OtherArchive.as_no_zip w fn file hf hn _ hx (C03_wrap_two e) t ht
  refine ⟨?_, ?_, ?_⟩
  · intro x d ho
    rw [OtherArchive.declined w fn file hf hn _ hx (C03_wrap_two e) t ht] at ho
    obtain ⟨f, h⟩ := OtherArchive.only_text ho
    cases h
  · intro b ho
    rw [OtherArchive.declined w fn file hf hn _ hx (C03_wrap_two e) t ht] at ho
    obtain ⟨f, h⟩ := OtherArchive.only_text ho
    cases h
  · rw [he]
    exact C81_unknown_partial { w with zip := fun _ => .error .eof } fn file hf hn .eof rfl hi lines rows hl hr hsize _ (shipped_some _)

/-- C131 is false of such archives: every one of at most 25 lines (of bytes) opens as a text. -/
theorem C131_archive_counterexample (w : World) (fn file : Bytes) (hf : w.files fn = .ok file) (hn : NotCompound file)
    (a : Xlsx.Archive) (hz : w.zip file = .ok a) (e : GoErr) (hb : BrokenPart a (lit "_rels/.rels") e)
    (hi : ∀ m, (w.iter m).Perm m) (lines : List Bytes) (hlong : ¬ HasLongLine file) (hl : LinesOf file lines)
    (hfew : lines.length ≤ 25) (t : List (Grate.Entry Source)) (ht : Shipped w t) : ∃ f, openSrc t fn = .ok (.text f) := by
  have hx := OtherArchive.package_declined w fn file hf a hz e hb
  rw [OtherArchive.as_no_zip w fn file hf hn _ hx (C03_wrap_two e) t ht]
  exact C81_counterexample { w with zip := fun _ => .error .eof } fn file hf hn .eof rfl hi lines hlong hl hfew _ (shipped_some _)

/-- C131, packages without a relationship of the type for the main document (XPS documents, and workbooks in the strict form of the
standard, which has types of its own): `Open` fails, so that they are not taken for workbooks, but with the message "xlsx: invalid
document" and not with ErrUnknownFormat; no other format is tried. -/
theorem C131_package_partial (w : World) (fn file : Bytes) (hf : w.files fn = .ok file) (hn : NotCompound file)
    (a : Xlsx.Archive) (hz : w.zip file = .ok a) (ts : List Xlsx.Tok) (hp : HasPart a (lit "_rels/.rels") ts)
    (hd : ∀ attrs, Xlsx.Tok.start (lit "Relationship") attrs ∈ ts →
      Distinct attrs ∧ ¬ Has attrs "Type" (relType "officeDocument")) (t : List (Grate.Entry Source)) (ht : Shipped w t) :
    openSrc t fn = .err (.msg "xlsx: invalid document") := by
  have hx : xlsxOpen w fn = .err (.msg "xlsx: invalid document") := by
    unfold xlsxOpen
    simp only [hf, hz]
    unfold Xlsx.openFile
    simp only [Xlsx.openPart_has hp, Xlsx.notXlsx, GoRes.ok_bind, Xlsx.parseRels]
    have := OtherArchive.no_document [] ts ⟨[], []⟩ hd
    simp [Xlsx.finish, Xlsx.finErr, this]
  rw [shipped_open ht]
  simp [openSrc, openTrace, formats, xls_declines w fn file hf hn, hx, GoErr.isNotInFormat, GoErr.unwrap]

/-- C131 is false of the documents of other programs in this family (Word, PowerPoint): a package whose main document part has
relationships and no element `sheet` opens as a workbook without sheets. -/
theorem C131_document_counterexample (w : World) (ext : Ext) (fn file : Bytes) (hf : w.files fn = .ok file) (hn : NotCompound file)
    (a : Xlsx.Archive) (hz : w.zip file = .ok a) (ho : ∀ l, (w.order l).Perm l) (dir : List Bytes) (base : Bytes)
    (b : Spec.Book) (h : XlsxFile a dir base b) (ts : List Xlsx.Tok) (hm : HasPart a (pathOf (dir ++ [base])) ts)
    (hs : ∀ x ∈ ts, ¬ Starts [lit "sheet"] x) (t : List (Grate.Entry Source)) (ht : Shipped w t) :
    ∃ src, openSrc t fn = .ok src ∧ src.list = [] ∧ ∀ name, ∃ er, src.get ext name = .ok (src, .error er) := by
  have hb : b.sheets = [] := by
    obtain ⟨us, hu, hk⟩ := h.workbook
    have := Xlsx.openXML_has hu
    rw [Xlsx.openXML_has hm] at this
    cases this
    exact OtherArchive.no_sheets hk hs
  obtain ⟨src, h1, h2, h3, _⟩ := C78_xlsx_partial w ext fn file hf hn a hz ho dir base b h t ht
  rw [hb] at h2 h3
  exact ⟨src, h1, h2, fun name => h3 name (by simp)⟩

/-- C131, a document (of Word, say) whose main part has no relationships of its own: `Open` fails, with io.EOF. -/
theorem C131_bare_partial (w : World) (fn file : Bytes) (hf : w.files fn = .ok file) (hn : NotCompound file)
    (a : Xlsx.Archive) (hz : w.zip file = .ok a) (dir : List Bytes) (base : Bytes) (hdn : ∀ s ∈ dir, RealName s) (hbn : RealName base)
    (ts : List Xlsx.Tok) (before after : List Relation) (r : Relation) (hp : HasPart a (lit "_rels/.rels") ts)
    (hr : RelToks [] ts (before ++ r :: after)) (hty : r.type = relType "officeDocument") (htg : r.target = pathOf (dir ++ [base]))
    (hlast : ∀ x ∈ after, x.type ≠ relType "officeDocument") (hno : LacksPart a (relsPart dir base))
    (t : List (Grate.Entry Source)) (ht : Shipped w t) : openSrc t fn = .err .eof := by
  have hpd := OtherArchive.one_document [] (by simp) ts before after r hr hty hlast ⟨[], []⟩
  rw [htg] at hpd
  have hx : xlsxOpen w fn = .err .eof := by
    unfold xlsxOpen
    simp only [hf, hz]
    unfold Xlsx.openFile
    have hd0 : Xlsx.dirText [] = [] := rfl
    rw [hd0] at hpd
    have hne : pathOf (dir ++ [base]) ≠ [] := Xlsx.path_ne_nil (by
      intro s hs
      rcases List.mem_append.1 hs with h | h
      · exact (hdn s h).1
      · rw [List.mem_singleton] at h; subst h; exact hbn.1) (by simp)
    have ho : Xlsx.openPart a (relsPart dir base) = .err .eof := by
      unfold Xlsx.openPart
      rw [Xlsx.openXML_lacks hno]
    simp only [Xlsx.openPart_has hp, Xlsx.notXlsx, GoRes.ok_bind, Xlsx.parseRels, Xlsx.finish, Xlsx.finErr, hpd, if_neg hne,
      Xlsx.relsOf_spec dir base hdn hbn.1, ho]
    rfl
  rw [shipped_open ht]
  simp [openSrc, openTrace, formats, xls_declines w fn file hf hn, hx, GoErr.isNotInFormat, GoErr.unwrap]

/-! ### Examples -/

namespace OtherArchive

/-- A document of a word processor. -/
def exDocx : Xlsx.Archive :=
  [(lit "[Content_Types].xml", .ok ⟨[.start (lit "Types") [], .stop (lit "Types")], .eof⟩),
    (lit "_rels/.rels", .ok ⟨[exRelation (relType "officeDocument") (lit "rId1") (lit "word/document.xml")], .eof⟩),
    (lit "word/document.xml", .ok ⟨[.start (lit "document") [], .start (lit "body") [], .start (lit "p") [], .start (lit "r") [],
      .start (lit "t") [], .chars (lit "Dear"), .stop (lit "t"), .stop (lit "r"), .stop (lit "p"), .stop (lit "body"),
      .stop (lit "document")], .eof⟩),
    (lit "word/_rels/document.xml.rels", .ok ⟨[exRelation (relType "styles") (lit "rId1") (lit "styles.xml"),
      exRelation (relType "image") (lit "rId2") (lit "media/image1.png")], .eof⟩),
    (lit "word/styles.xml", .ok ⟨[.start (lit "styles") [], .start (lit "style") [], .stop (lit "style"), .stop (lit "styles")], .eof⟩)]

/-- What is taken for the workbook in it. -/
def exDocxBook : Spec.Book :=
  { rels := [⟨relType "styles", lit "rId1", lit "styles.xml", lit "word/styles.xml"⟩], sheets := [], formats := [], styles := [],
    strings := [] }

theorem exDocx_names : pathOf ([lit "word"] ++ [lit "document.xml"]) = lit "word/document.xml" ∧
    relsPart [lit "word"] (lit "document.xml") = lit "word/_rels/document.xml.rels" := by decide +kernel

theorem exDocx_main : HasPart exDocx (pathOf ([lit "word"] ++ [lit "document.xml"])) [.start (lit "document") [], .start (lit "body") [],
    .start (lit "p") [], .start (lit "r") [], .start (lit "t") [], .chars (lit "Dear"), .stop (lit "t"), .stop (lit "r"),
    .stop (lit "p"), .stop (lit "body"), .stop (lit "document")] := by
  refine ⟨[_, _], _, by rw [exDocx_names.1]; rfl, ?_⟩
  intro e he
  rw [exDocx_names.1]
  simp only [List.mem_cons, List.not_mem_nil, or_false] at he
  rcases he with rfl | rfl <;> decide +kernel

theorem exDocx_plain : ∀ x ∈ [Xlsx.Tok.start (lit "document") [], .start (lit "body") [],
    .start (lit "p") [], .start (lit "r") [], .start (lit "t") [], .chars (lit "Dear"), .stop (lit "t"), .stop (lit "r"),
    .stop (lit "p"), .stop (lit "body"), .stop (lit "document")], ¬ Starts [lit "sheet"] x := by
  intro x hx
  simp only [List.mem_cons, List.not_mem_nil, or_false] at hx
  rcases hx with rfl | rfl | rfl | rfl | rfl | rfl | rfl | rfl | rfl | rfl | rfl <;> simp only [Starts, List.mem_singleton] <;> decide +kernel

theorem exDocx_file : XlsxFile exDocx [lit "word"] (lit "document.xml") exDocxBook where
  dirNames := by
    intro s hs
    simp only [List.mem_singleton] at hs
    subst hs
    exact realName_of (by decide +kernel)
  baseName := realName_of (by decide +kernel)
  root := by
    refine ⟨_, [], [], ⟨relType "officeDocument", lit "rId1", lit "word/document.xml", lit "word/document.xml"⟩,
      ⟨[_], _, rfl, ?_⟩, exRel_toks ⟨relType "officeDocument", lit "rId1", lit "word/document.xml", lit "word/document.xml"⟩ ?_ .nil,
      rfl, exDocx_names.1.symm, by simp, ?_⟩
    · intro e he
      simp only [List.mem_singleton] at he
      subst he
      decide +kernel
    · simp only
      have := Refers.relative (dir := []) [lit "word", lit "document.xml"] [lit "word", lit "document.xml"] (by simp) ?_ ?_ (by simp)
      · have e : pathOf [lit "word", lit "document.xml"] = lit "word/document.xml" := by decide +kernel
        rwa [e] at this
      · intro s hs
        simp only [List.mem_cons, List.not_mem_nil, or_false] at hs
        rcases hs with rfl | rfl <;> exact (realName_of (by decide +kernel)).1
      · exact .down _ _ _ _ (realName_of (by decide +kernel)) (.down _ _ _ _ (realName_of (by decide +kernel)) (.done _))
    · intro x hx
      simp only [List.nil_append, List.mem_singleton] at hx
      subst hx
      decide +kernel
  rels := by
    refine ⟨_, ⟨[_, _, _], _, by rw [exDocx_names.2]; rfl, ?_⟩, ?_⟩
    · intro e he
      rw [exDocx_names.2]
      simp only [List.mem_cons, List.not_mem_nil, or_false] at he
      rcases he with rfl | rfl | rfl <;> decide +kernel
    · refine exRel_toks ⟨relType "styles", lit "rId1", lit "styles.xml", lit "word/styles.xml"⟩ ?_
        (.foreign _ (relType "image") _ _ ?_ ?_ ?_ .nil)
      · have := Refers.relative (dir := [lit "word"]) [lit "styles.xml"] [lit "word", lit "styles.xml"] (by simp) ?_ ?_ (by simp)
        · have e : pathOf [lit "styles.xml"] = lit "styles.xml" ∧ pathOf [lit "word", lit "styles.xml"] = lit "word/styles.xml" := by
            decide +kernel
          rwa [e.1, e.2] at this
        · intro s hs
          simp only [List.mem_cons, List.not_mem_nil, or_false] at hs
          subst hs
          exact (realName_of (by decide +kernel)).1
        · exact .down _ _ _ _ (realName_of (by decide +kernel)) (.done _)
      · unfold Distinct; simp only [List.map_cons, List.map_nil]; decide +kernel
      · unfold Has; simp
      · decide +kernel
  noOther := by
    intro x hx
    simp only [exDocxBook, List.mem_cons, List.not_mem_nil, or_false] at hx
    subst hx
    decide +kernel
  ids := by simp [exDocxBook]
  workbook := ⟨_, exDocx_main, by
    refine .other _ _ _ ?_ (.other _ _ _ ?_ (.other _ _ _ ?_ (.other _ _ _ ?_ (.other _ _ _ ?_ (.other _ _ _ ?_ (.other _ _ _ ?_
      (.other _ _ _ ?_ (.other _ _ _ ?_ (.other _ _ _ ?_ (.other _ _ _ ?_ .nil)))))))))) <;> exact exDocx_plain _ (by simp)⟩
  styles := by
    refine .inr ⟨lit "word/styles.xml", _, none, ?_, ⟨[_, _, _, _], [], rfl, ?_⟩, ?_, rfl⟩
    · decide +kernel
    · intro e he
      simp only [List.mem_cons, List.not_mem_nil, or_false] at he
      rcases he with rfl | rfl | rfl | rfl <;> decide +kernel
    · refine .other _ _ _ _ ?_ (.other _ _ _ _ ?_ (.other _ _ _ _ ?_ (.other _ _ _ _ ?_ .nil))) <;> simp only [Starts] <;> decide +kernel
  strings := .inl ⟨by decide +kernel, rfl⟩

/-- An OpenDocument spreadsheet. -/
def exOds : Xlsx.Archive :=
  [(lit "mimetype", .ok ⟨[.chars (lit "application/vnd.oasis.opendocument.spreadsheet")], .eof⟩),
    (lit "content.xml", .ok ⟨[.start (lit "document-content") [], .stop (lit "document-content")], .eof⟩)]

/-- A workbook in the strict form. -/
def exStrict : Xlsx.Archive :=
  [(lit "_rels/.rels", .ok ⟨[exRelation (lit "http://purl.oclc.org/ooxml/officeDocument/relationships/officeDocument") (lit "rId1")
    (lit "xl/workbook.xml")], .eof⟩)]

end OtherArchive

/-- C131: a document of a word processor is opened as a workbook without sheets. -/
theorem C131_witness (w : World) (ext : Ext) (ho : ∀ l, (w.order l).Perm l) (fn : Bytes) (hf : w.files fn = .ok [80, 75, 3, 4])
    (hz : w.zip [80, 75, 3, 4] = .ok OtherArchive.exDocx) (t : List (Grate.Entry Source)) (ht : Shipped w t) :
    ∃ src, openSrc t fn = .ok src ∧ src.list = [] ∧ ∀ name, ∃ er, src.get ext name = .ok (src, .error er) :=
  C131_document_counterexample w ext fn _ hf (.inr (by decide)) _ hz ho _ _ _ OtherArchive.exDocx_file _ OtherArchive.exDocx_main
    OtherArchive.exDocx_plain t ht

/-- C131: an OpenDocument file and a workbook in the strict form meet the hypotheses about archives and packages; so does the word
processor document without the relationships of its main part. -/
theorem C131_more_witness : BrokenPart OtherArchive.exOds (lit "_rels/.rels") .eof ∧
    (∃ ts, HasPart OtherArchive.exStrict (lit "_rels/.rels") ts ∧ (∃ attrs, Xlsx.Tok.start (lit "Relationship") attrs ∈ ts) ∧
      ∀ attrs, Xlsx.Tok.start (lit "Relationship") attrs ∈ ts → Distinct attrs ∧ ¬ Has attrs "Type" (relType "officeDocument")) ∧
    LacksPart (OtherArchive.exDocx.take 3) (relsPart [lit "word"] (lit "document.xml")) := by
  refine ⟨.missing ?_, ⟨_, ⟨[], [], rfl, by simp⟩, ⟨_, List.mem_cons_self ..⟩, ?_⟩, ?_⟩
  · intro e he
    simp only [OtherArchive.exOds, List.mem_cons, List.not_mem_nil, or_false] at he
    rcases he with rfl | rfl <;> decide +kernel
  · intro attrs h
    rw [List.mem_singleton] at h
    cases h
    refine ⟨by unfold Distinct; simp only [List.map_cons, List.map_nil]; decide +kernel, ?_⟩
    unfold Has
    decide +kernel
  · rw [OtherArchive.exDocx_names.2]
    intro e he
    simp only [OtherArchive.exDocx, List.take_succ_cons, List.take_zero, List.mem_cons, List.not_mem_nil, or_false] at he
    rcases he with rfl | rfl | rfl <;> decide +kernel

end Grate.Props
