import Verif.Props.ValidUtf8
import Verif.Props.SameStoredWitness

/-! # Examples for C129 -/

namespace Grate.Props

open Grate Grate.Spec Grate.Api Grate.Valid

/-! ### Workbooks with text -/

/-- The entry of the sheet. -/
def exWordEntry : SheetEntry := ⟨45, 0, 0, 0, [0x53]⟩

/-- The number of the format of the cells. -/
def exWordFormat (k : Fin 4) : Nat := if k = 1 then 3 else 0

/-- A formula in the first cell whose result is text. -/
def exFormula : Record := ⟨6, cellHead 0 0 0 [0, 0, 0, 0, 0, 0, 0xFF, 0xFF]⟩

/-- The text: the result `é` of a formula in 8-bit form, the result `xéé` of a formula in 16-bit form, a link to the file
`C:é`, and the result `é` of a formula in 16-bit form. -/
def exWordCell (k : Fin 4) : List Record :=
  if k = 0 then [exFormula, ⟨519, [1, 0, 0, 0xE9]⟩]
  else if k = 1 then [exFormula, ⟨519, [3, 0, 1, 0x78, 0, 0xE9, 0, 0xE9, 0]⟩]
  else if k = 2 then [⟨440, leBytes 2 0 ++ leBytes 2 0 ++ leBytes 2 0 ++ leBytes 2 0 ++ List.replicate 16 0 ++ leBytes 4 2 ++ leBytes 4 1 ++
    fileMonikerId ++ leBytes 2 0 ++ leBytes 4 3 ++ [0x43, 0x3A, 0xE9] ++ List.replicate 24 0 ++ leBytes 4 0⟩]
  else [exFormula, ⟨519, [1, 0, 1, 0xE9, 0]⟩]

/-- A record that fills the stream up. -/
def exWordFill (k : Fin 4) : Record := ⟨1, List.replicate (if k = 0 then 144 else if k = 1 then 139 else if k = 2 then 81 else 143) 0⟩

/-- The records of the sheet. -/
def exWordSheet (k : Fin 4) : List Record :=
  exBof 0x10 :: ⟨512, leBytes 4 0 ++ (leBytes 4 1 ++ (leBytes 2 0 ++ (leBytes 2 1 ++ [0, 0])))⟩ :: (exWordCell k ++ [exWordFill k, ⟨0x0A, []⟩])

/-- The workbooks. -/
def exWord (k : Fin 4) : List (List Record) :=
  [[exBof 5, ⟨224, leBytes 2 0 ++ (leBytes 2 (exWordFormat k) ++ [])⟩, ⟨0x85, exWordEntry.data⟩, ⟨0x0A, []⟩], exWordSheet k]

/-- What they say. -/
def exWordContent (k : Fin 4) : Content := ⟨[exWordEntry], 0, [], [], [exWordFormat k]⟩

/-- The files. -/
def exWordFile (k : Fin 4) : Bytes := wbFileOf (stream (exWord k).flatten) 0xFFFFFFFE wbSlots

theorem exWord_grouped (k : Fin 4) : Grouped (exWord k) ∧ ∀ r ∈ (exWord k).flatten, r.type ≠ 0x2F := by
  have pl : ∀ (r : Record) (rs : List Record), (r.type ≠ 0x809 ∧ r.type ≠ 0x0A) → Balanced rs → Balanced (r :: rs) :=
    fun r rs h hb => .plain r rs h.1 h.2 hb
  refine ⟨⟨by unfold Record.Fits; revert k; decide +kernel, ?_⟩, by revert k; decide +kernel⟩
  intro g hg
  simp only [exWord, List.mem_cons, List.not_mem_nil, or_false] at hg
  rcases hg with rfl | rfl
  · refine ⟨_, [_, _], _, rfl, rfl, rfl, ?_⟩
    refine pl _ _ ⟨by show (224 : Nat) ≠ _; decide, by show (224 : Nat) ≠ _; decide⟩ ?_
    refine pl _ _ (by decide) ?_
    exact .nil
  · have bal : ∀ (l : List Record), (∀ r ∈ l, r.type ≠ 0x809 ∧ r.type ≠ 0x0A) → Balanced l := by
      intro l
      induction l with
      | nil => intro _; exact .nil
      | cons r l ih => intro h; exact pl _ _ (h r (by simp)) (ih (fun x hx => h x (by simp [hx])))
    refine ⟨exBof 0x10, ⟨512, leBytes 4 0 ++ (leBytes 4 1 ++ (leBytes 2 0 ++ (leBytes 2 1 ++ [0, 0])))⟩ :: (exWordCell k ++ [exWordFill k]), ⟨0x0A, []⟩,
      by simp [exWordSheet], rfl, rfl, bal _ ?_⟩
    revert k
    decide +kernel

theorem exWord_content (k : Fin 4) : AllGlobals .empty (exWord k) (exWordContent k) := by
  have sk : ∀ (c : Content) (rs : List Record), (∀ r ∈ rs, r.data = [] ∨ ¬ telling r.type) → Globals c rs c := by
    intro c rs
    induction rs with
    | nil => intro _; exact .nil _
    | cons r rs ih => intro h; exact .skip _ _ _ _ (h r (by simp)) (ih (fun x hx => h x (by simp [hx])))
  refine .cons _ (exWordContent k) _ _ _ ?_ (.cons _ (exWordContent k) _ _ _ ?_ (.nil _))
  · refine .bof _ _ 5 _ _ _ _ (by decide) (by decide) ?_
    refine .style _ _ 0 (exWordFormat k) [] _ (by revert k; decide) ?_
    refine .sheet _ _ exWordEntry _ ?_ ?_
    · exact ⟨by decide, by unfold Spec.Scalar; decide +kernel, by unfold Fits; decide +kernel, by decide +kernel⟩
    exact .skip _ _ _ _ (Or.inl rfl) (.nil _)
  · refine .bof _ _ _ _ _ _ _ (by decide) (by decide) (sk _ _ ?_)
    unfold telling
    revert k
    decide +kernel

/-- The workbook with only the records of the sheet. -/
def exWordAlone (k : Fin 4) : Xls.Book := Xls.bookOf makeFormatter (exWordContent k) [(exWordSheet k).map Xls.alone] []

/-- How the files are opened. -/
theorem exWord_opens (w : World) (ext : Ext) (fn : Bytes) (hb : w.bufs = List.replicate 512 512) (k : Fin 4) (hf : w.files fn = .ok (exWordFile k)) :
    ∃ n b, LoadedXls (exWordContent k) (exWord k) b ∧ (∀ fuel, n ≤ fuel → ∀ t, Shipped { w with fuel := fuel } t → openSrc t fn = .ok (.xls b)) ∧
      ∀ s, Xls.parseSheet ext (exWordAlone k) 0 = .ok (some s) → (Source.xls b).get ext (lit "S") = .ok (.xls b, .ok (.sheet s)) := by
  have pos : ∀ k ∈ w.bufs, 0 < k := by rw [hb]; decide +kernel
  have l : ∀ k, (stream (exWord k).flatten).length = 261 := by decide +kernel
  have hn : utf8 exWordEntry.name = lit "S" := by decide +kernel
  have p : ∀ k, exWordEntry.position = position (exWord k) 1 := by decide +kernel
  have file : XlsFile w (exWordFile k) (exWordContent k) (exWord k) :=
    .plain _ (exWord_grouped k).1 (exWord_grouped k).2 (exWord_content k) (wbOf_stream _ (l k)) (by rw [l, hb]; decide +kernel)
  have stored : StoredAs (exWordContent k) (exWord k) (lit "S") (exWordSheet k) := ⟨[], [], exWordEntry, 1, rfl, by simp, hn, rfl, p k⟩
  obtain ⟨b, n, hl, ho⟩ := xlsFile_loaded w fn _ hf pos file
  obtain ⟨i, rs, g1, r1, v1⟩ := find_stored hl stored ext
  refine ⟨n, b, hl, ho, fun s hs => ?_⟩
  have hbk := hl.book
  have le := Xls.below_parseSheet ext (b := exWordAlone k) (b' := b) ⟨by rw [hbk]; rfl, by rw [hbk]; rfl, by rw [hbk]; rfl⟩ 0 i rfl r1
    (Xls.alone_below _ _ v1 (hl.sized rs (List.mem_of_getElem? r1)))
  have := Xls.leRes_eq le (by rw [hs]; intro h; cases h)
  simp only [Source.get, g1, this, hs]

/-- A single byte that is not ASCII is not valid. -/
theorem single_invalid {b : UInt8} (h : 128 ≤ b.toNat) : ¬ ValidUtf8 [b] := by
  rintro ⟨rs, hr, e⟩
  cases rs with
  | nil => simp [utf8] at e
  | cons r rs =>
    have hsr := hr r (by simp)
    by_cases hlow : r < 128
    · rw [Xlsx.utf8_cons, Xlsx.utf8_low r hlow] at e
      simp only [List.singleton_append, List.cons.injEq] at e
      rw [e.1, UInt8.toNat_ofNat'] at h
      omega
    · have hl := congrArg List.length e
      rw [Xlsx.utf8_cons, List.length_append] at hl
      have h1 : (utf8 [r]).length = (Char.ofNat r).utf8Size := by simp [utf8]
      have hv : (Char.ofNat r).val.toNat = r := by
        have hval : Nat.isValidChar r := by
          unfold Spec.Scalar at hsr
          unfold Nat.isValidChar
          omega
        unfold Char.ofNat
        rw [dif_pos hval]
        rfl
      have h2 : 2 ≤ (Char.ofNat r).utf8Size := by
        unfold Char.utf8Size
        simp only
        split
        · rename_i hle
          rw [UInt32.le_iff_toNat_le, hv] at hle
          have : r ≤ 127 := hle
          omega
        · split
          · omega
          · split <;> omega
      simp only [List.length_cons, List.length_nil] at hl
      omega

/-- C129 is false: the result `é` of a formula, in 8-bit form, is given as the byte E9. -/
theorem C129_formula_counterexample (w : World) (ext : Ext) (fn : Bytes) (hb : w.bufs = List.replicate 512 512)
    (hf : w.files fn = .ok (exWordFile 0)) : ∃ n, ∀ fuel, n ≤ fuel → ∀ t, Shipped { w with fuel := fuel } t → ∃ src s c,
      openSrc t fn = .ok src ∧ src.get ext (lit "S") = .ok (src, .ok (.sheet s)) ∧ s.next.1.raw = .ok [c] ∧ c.value = .str [0xE9] ∧
      s.next.1.strings ext = .ok [[0xE9]] ∧ ¬ ValidUtf8 [0xE9] := by
  obtain ⟨n, b, hl, ho, hs⟩ := exWord_opens w ext fn hb 0 hf
  have h : ∃ s c, Xls.parseSheet ext (exWordAlone 0) 0 = .ok (some s) ∧ s.next.1.raw = .ok [c] ∧ c.value = .str [0xE9] ∧
      s.next.1.strings ext = .ok [[0xE9]] := ⟨_, _, rfl, rfl, rfl, rfl⟩
  obtain ⟨s, c, h1, h2, h3, h4⟩ := h
  exact ⟨n, fun fuel hfu t ht => ⟨_, s, c, ho fuel hfu t ht, hs s h1, h2, h3, h4, single_invalid (by decide)⟩⟩

/-- C129 is false: the path in a link is given as its bytes. -/
theorem C129_link_counterexample (w : World) (ext : Ext) (fn : Bytes) (hb : w.bufs = List.replicate 512 512)
    (hf : w.files fn = .ok (exWordFile 2)) : ∃ n, ∀ fuel, n ≤ fuel → ∀ t, Shipped { w with fuel := fuel } t → ∃ src s c v,
      openSrc t fn = .ok src ∧ src.get ext (lit "S") = .ok (src, .ok (.sheet s)) ∧ s.next.1.raw = .ok [c] ∧ c.value = .str v ∧
      v = [0x20, 0x3C, 0x43, 0x3A, 0xE9, 0x3E] ∧ ¬ ValidUtf8 v := by
  obtain ⟨n, b, hl, ho, hs⟩ := exWord_opens w ext fn hb 2 hf
  have h : ∃ s c, Xls.parseSheet ext (exWordAlone 2) 0 = .ok (some s) ∧ s.next.1.raw = .ok [c] ∧
      c.value = .str [0x20, 0x3C, 0x43, 0x3A, 0xE9, 0x3E] := ⟨_, _, rfl, rfl, rfl⟩
  obtain ⟨s, c, h1, h2, h3⟩ := h
  refine ⟨n, fun fuel hfu t ht => ⟨_, s, c, _, ho fuel hfu t ht, hs s h1, h2, h3, rfl, fun hv => ?_⟩⟩
  have h1 := after (a := [0x20, 0x3C, 0x43, 0x3A]) (t := [0xE9, 0x3E]) (by unfold AsciiOnly; decide) hv
  exact single_invalid (by decide) (cut (a := [0xE9]) (b := 0x3E) (c := []) (by decide) h1).1

/-- C129 is false of `Strings`: a thousands separator is put into the character `é`. -/
theorem C129_commas_counterexample (w : World) (ext : Ext) (fn : Bytes) (hb : w.bufs = List.replicate 512 512)
    (hf : w.files fn = .ok (exWordFile 1)) : ∃ n, ∀ fuel, n ≤ fuel → ∀ t, Shipped { w with fuel := fuel } t → ∃ src s c v,
      openSrc t fn = .ok src ∧ src.get ext (lit "S") = .ok (src, .ok (.sheet s)) ∧ s.next.1.raw = .ok [c] ∧
      c.value = .str (utf8 [0x78, 0xE9, 0xE9]) ∧ s.next.1.strings ext = .ok [v] ∧ v = [0x78, 0xC3, 0x2C, 0xA9, 0xC3, 0xA9] ∧ ¬ ValidUtf8 v := by
  obtain ⟨n, b, hl, ho, hs⟩ := exWord_opens w ext fn hb 1 hf
  have h : ∃ s c, Xls.parseSheet ext (exWordAlone 1) 0 = .ok (some s) ∧ s.next.1.raw = .ok [c] ∧
      c.value = .str (utf8 [0x78, 0xE9, 0xE9]) ∧ s.next.1.strings ext = .ok [[0x78, 0xC3, 0x2C, 0xA9, 0xC3, 0xA9]] := ⟨_, _, rfl, rfl, rfl, rfl⟩
  obtain ⟨s, c, h1, h2, h3, h4⟩ := h
  refine ⟨n, fun fuel hfu t ht => ⟨_, s, c, _, ho fuel hfu t ht, hs s h1, h2, h3, h4, rfl, fun hv => ?_⟩⟩
  have h1 := (cut (a := [0x78, 0xC3]) (b := 0x2C) (c := [0xA9, 0xC3, 0xA9]) (by decide) hv).1
  exact single_invalid (by decide) (after (a := [0x78]) (t := [0xC3]) (by unfold AsciiOnly; decide) h1)

/-- The hypotheses of `C129_xls_partial` hold for a workbook with text that is not ASCII, which is given in UTF-8. -/
theorem C129_xls_witness (w : World) (ext : Ext) (hp : PrintsText ext) (fn : Bytes) (hb : w.bufs = List.replicate 512 512)
    (hf : w.files fn = .ok (exWordFile 3)) : ∃ n, ∀ fuel, n ≤ fuel → ∃ b s c, xlsOpen { w with fuel := fuel } fn = .ok (.xls b) ∧
      (∀ rs ∈ b.subs, NoCodePage (rs.map Xls.Rec.view)) ∧ SourceValid ext (.xls b) ∧
      (Source.xls b).get ext (lit "S") = .ok (.xls b, .ok (.sheet s)) ∧ s.next.1.raw = .ok [c] ∧ c.value = .str [0xC3, 0xA9] := by
  obtain ⟨n, b, hl, ho, hs⟩ := exWord_opens w ext fn hb 3 hf
  have h : ∃ s c, Xls.parseSheet ext (exWordAlone 3) 0 = .ok (some s) ∧ s.next.1.raw = .ok [c] ∧
      c.value = .str [0xC3, 0xA9] := ⟨_, _, rfl, rfl, rfl⟩
  obtain ⟨s, c, h1, h2, h3⟩ := h
  have hn : ∀ rs ∈ b.subs, NoCodePage (rs.map Xls.Rec.view) := by
    intro rs hrs
    have hm : rs.map Xls.Rec.view ∈ exWord 3 := by rw [← hl.view]; exact List.mem_map_of_mem hrs
    generalize rs.map Xls.Rec.view = l at hm
    have key : ∀ l ∈ exWord 3, (∀ r ∈ l, r.type = 519 → r.data = [1, 0, 1, 0xE9, 0]) ∧ (∀ r ∈ l, r.type ≠ 60 ∧ r.type ≠ 440) := by decide +kernel
    obtain ⟨k1, k2⟩ := key l hm
    refine ⟨fun pre r post e ht flags hfl h0 => ?_, fun pre r ct x post e _ _ hx => ?_, fun r hr ht => ?_⟩
    · rw [k1 r (by rw [e]; simp) ht] at hfl
      cases hfl
      exact absurd h0 (by decide)
    · exact absurd hx (k2 x (by rw [e]; simp)).1
    · exact absurd ht (k2 r hr).2
  refine ⟨n, fun fuel hfu => ?_⟩
  have ho' : xlsOpen { w with fuel := fuel } fn = .ok (.xls b) := by
    have := ho fuel hfu _ (shipped_some _)
    rcases open_files { w with fuel := fuel } fn _ hf with ⟨_, h2⟩ | ⟨_, h2 | h2 | h2 | h2⟩ <;> rw [h2] at this
    · exact this
    · obtain ⟨_, _, e⟩ := xlsxOpen_kind this; cases e
    · obtain ⟨_, e⟩ := tsvOpen_kind this; cases e
    · obtain ⟨_, e⟩ := csvOpen_kind this; cases e
    · cases this
  exact ⟨b, s, c, ho', hn, C129_xls_partial _ ext hp fn b ho' hn, hs s h1, h2, h3⟩

/-! ### An xlsx file -/

/-- The parts of a workbook with the sheet `é` that has the text `é` in its first cell. -/
def exWordParts : Xlsx.Files :=
  [(lit "_rels/.rels", .ok (lit "<Relationship Id=\"r1\" Type=\"" ++ relType "officeDocument" ++ lit "\" Target=\"book.xml\"/>", .eof)),
   (lit "_rels/book.xml.rels", .ok (lit "<Relationship Id=\"r1\" Type=\"" ++ relType "worksheet" ++ lit "\" Target=\"sheet.xml\"/>", .eof)),
   (lit "book.xml", .ok (lit "<workbook><sheet name=\"" ++ [0xC3, 0xA9] ++ lit "\" r:id=\"r1\"/></workbook>", .eof)),
   (lit "sheet.xml", .ok (lit "<c r=\"A1\" t=\"str\"><v>" ++ [0xC3, 0xA9] ++ lit "</v></c>", .eof))]

/-- A system with this file. -/
def exWordWorld (p : Crypto.Prims) (T : Xlsx.XmlTables) : World :=
  { orderWorld p with files := fun _ => .ok [0], zip := fun _ => .ok (exWordParts.archive T) }

/-- The tokens of its parts. -/
def exWordToks : Xlsx.Archive :=
  [(lit "_rels/.rels", .ok ⟨[.start (lit "Relationship") [(lit "Id", lit "r1"), (lit "Type", relType "officeDocument"), (lit "Target", lit "book.xml")],
      .stop (lit "Relationship")], .eof⟩),
   (lit "_rels/book.xml.rels", .ok ⟨[.start (lit "Relationship") [(lit "Id", lit "r1"), (lit "Type", relType "worksheet"), (lit "Target", lit "sheet.xml")],
      .stop (lit "Relationship")], .eof⟩),
   (lit "book.xml", .ok ⟨[.start (lit "workbook") [], .start (lit "sheet") [(lit "name", [0xC3, 0xA9]), (lit "id", lit "r1")], .stop (lit "sheet"),
      .stop (lit "workbook")], .eof⟩),
   (lit "sheet.xml", .ok ⟨[.start (lit "c") [(lit "r", lit "A1"), (lit "t", lit "str")], .start (lit "v") [], .chars [0xC3, 0xA9], .stop (lit "v"),
      .stop (lit "c")], .eof⟩)]

set_option maxRecDepth 20000 in
theorem exWord_toks (T : Xlsx.XmlTables) : exWordParts.archive T = exWordToks := by
  have hp : ∀ (n : Bytes) (b : Bytes) (l : Xlsx.Files) (l' : Xlsx.Archive) (q : Xlsx.Part), Xlsx.xmlPart T b .eof = q → l.archive T = l' →
      Xlsx.Files.archive T ((n, .ok (b, .eof)) :: l) = (n, .ok q) :: l' := by
    intro n b l l' q h1 h2
    subst h1 h2
    rfl
  refine hp _ _ _ _ _ ?_ (hp _ _ _ _ _ ?_ (hp _ _ _ _ _ ?_ (hp _ _ _ _ _ ?_ rfl)))
  · rfl
  · rfl
  · rfl
  · rfl

set_option maxRecDepth 20000 in
/-- The hypotheses of `C129_xlsx_partial` hold for this file. -/
theorem C129_xlsx_witness (p : Crypto.Prims) (T : Xlsx.XmlTables) (ext : Ext) (hp : PrintsText ext) (fn : Bytes) : ∃ src src' s c,
    xlsxOpen (exWordWorld p T) fn = .ok src ∧ src.list = [[0xC3, 0xA9]] ∧ SourceValid ext src ∧
    src.get ext [0xC3, 0xA9] = .ok (src', .ok (.sheet s)) ∧ s.next.1.raw = .ok [c] ∧ c.value = .str [0xC3, 0xA9] := by
  have h : ∃ d src' s c, Xlsx.openFile makeFormatter (fun l => l) (.ok exWordToks) = .ok d ∧ d.list = [[0xC3, 0xA9]] ∧
      (Source.xlsx exWordToks d).get ext [0xC3, 0xA9] = .ok (src', .ok (.sheet s)) ∧ s.next.1.raw = .ok [c] ∧ c.value = .str [0xC3, 0xA9] :=
    ⟨_, _, _, _, rfl, rfl, rfl, rfl, rfl⟩
  obtain ⟨d, src', s, c, h1, h2, h3, h4, h5⟩ := h
  have ho : xlsxOpen (exWordWorld p T) fn = .ok (.xlsx exWordToks d) := by
    unfold xlsxOpen exWordWorld
    simp only [exWord_toks]
    exact (congrArg (fun r => GoRes.bind r (fun d => .ok (Source.xlsx exWordToks d))) h1 :)
  exact ⟨_, src', s, c, ho, h2, C129_xlsx_partial (exWordWorld p T) ext hp T fn [0] rfl exWordParts rfl _ ho, h3, h4, h5⟩

/-- A system with a text file. -/
def exTextWorld (p : Crypto.Prims) : World :=
  { orderWorld p with files := fun _ => .ok [0xC3, 0xA9, 9, 0xC3, 0xA9, 10], zip := fun _ => .error .notInFormat }

/-- Text files: the hypotheses of `C129_text` hold for a file with the line `é`, tab, `é`. -/
theorem C129_text_witness (p : Crypto.Prims) (t : List (Grate.Entry Source)) (ht : Shipped (exTextWorld p) t) (fn : Bytes) :
    ∃ c f, (exTextWorld p).files fn = .ok c ∧ ValidUtf8 c ∧ openSrc t fn = .ok (.text f) ∧
      f.next.1.strings = .ok [[0xC3, 0xA9], [0xC3, 0xA9]] := by
  obtain ⟨f, hf, hs⟩ : ∃ f, tsvOpen (exTextWorld p) fn = .ok (.text f) ∧ f.next.1.strings = .ok [[0xC3, 0xA9], [0xC3, 0xA9]] := ⟨_, rfl, rfl⟩
  refine ⟨_, f, rfl, validB_ok (by decide +kernel), ?_, hs⟩
  rw [shipped_open ht]
  have hx : xlsxOpen (exTextWorld p) fn = .err (wrapErr [.notInFormat, .notInFormat]) := rfl
  have hn : (wrapErr [.notInFormat, .notInFormat]).isNotInFormat = true := by decide +kernel
  have hc : GoErr.notInFormat.isNotInFormat = true := by decide +kernel
  simp only [openSrc, openTrace, formats, xls_declines (exTextWorld p) fn _ rfl (.inr (by decide)), hf, hx, hn, hc, if_true]

end Grate.Props
