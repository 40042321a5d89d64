import Verif.Lemmas.XlsLoad
import Verif.Props.XlsxDoc
import Verif.Spec.XlsxText

/-! # Properties C97–C100: strings, dates and cells of Office Open XML documents -/

namespace Grate.Props

open Grate Grate.Spec Grate.Xlsx

/-! ### C97: the text of shared strings -/

theorem item_plain {inner : List Tok} {u : Bytes} (h : ItemText False False inner u) :
    textOf inner = u ∧ ∀ t ∈ inner, ¬ Starts [lit "si"] t ∧ ¬ Stops [lit "si"] t := by
  have hn : lit "t" ≠ lit "si" := lit_si.2.1
  have hap : ∀ a b : List Tok, textOf (a ++ b) = textOf a ++ textOf b := by
    intro a b
    induction a with
    | nil => rfl
    | cons x xs ih => cases x <;> simp [textOf, ih]
  induction h with
  | nil => exact ⟨rfl, by simp⟩
  | text a inner ts u hin _ ih =>
    refine ⟨by simp [textOf, hap, ih.1], ?_⟩
    intro t ht
    rcases List.mem_cons.1 ht with rfl | ht
    · simp [Starts, Stops, hn]
    · rcases List.mem_append.1 ht with ht | ht
      · rcases hin t ht with ⟨s, rfl⟩ | rfl <;> simp [Starts, Stops]
      · rcases List.mem_cons.1 ht with rfl | ht
        · simp [Starts, Stops, hn]
        · exact ih.2 t ht
  | mark x ts u hx h1 h2 _ ih =>
    refine ⟨?_, ?_⟩
    · cases x with
      | chars s => exact absurd rfl (hx s)
      | start n a => simpa [textOf] using ih.1
      | stop n => simpa [textOf] using ih.1
      | other => simpa [textOf] using ih.1
    · intro t ht
      rcases List.mem_cons.1 ht with rfl | ht
      · refine ⟨fun hs => h1 ?_, fun hs => h2 ?_⟩
        · cases t <;> simp_all [Starts]
        · cases t <;> simp_all [Stops]
      · exact ih.2 t ht
  | white _ _ _ h => exact h.elim
  | phonetic _ _ _ _ h => exact h.elim

/-- C97 for strings without phonetic runs and without white space between their elements: the shared strings are the
texts of their `t` elements. Missing: the others, where it is false. -/
theorem C97_strings_partial (ts : List Tok) (ss : List Bytes) (h : SstItems False False ts ss) :
    parseSharedStrings ⟨ts, .eof⟩ [] = .ok ss := by
  refine C56_strings ts ss ?_
  induction h with
  | nil => exact .nil
  | other t ts ss h1 h2 _ ih => exact .other t ts ss h1 h2 ih
  | item attrs inner ts u ss hi _ ih =>
    obtain ⟨rfl, h2⟩ := item_plain hi
    exact .item attrs inner ts ss h2 ih

theorem lit_item : lit "r" ∉ [lit "si", lit "t", lit "rPh"] ∧ lit "phoneticPr" ∉ [lit "si", lit "t", lit "rPh"] ∧
    lit "t" ∉ [lit "si", lit "rPh"] ∧ lit "sst" ≠ lit "si" := by decide +kernel

/-- A part with an item of two runs. -/
theorem C97_witness : SstItems False False [.start (lit "sst") [], .start (lit "si") [], .start (lit "r") [],
    .start (lit "t") [], .chars (lit "a "), .stop (lit "t"), .stop (lit "r"), .start (lit "r") [], .start (lit "t") [],
    .chars (lit "b"), .other, .chars (lit "c"), .stop (lit "t"), .stop (lit "r"), .stop (lit "si")] [lit "a bc"] := by
  have e : lit "a bc" = textOf [.chars (lit "a ")] ++ (textOf [.chars (lit "b"), .other, .chars (lit "c")] ++ []) := by
    decide +kernel
  rw [e]
  refine .other _ _ _ (by simp [Starts, lit_si]) (by simp [Stops]) (.item [] [.start (lit "r") [],
    .start (lit "t") [], .chars (lit "a "), .stop (lit "t"), .stop (lit "r"), .start (lit "r") [], .start (lit "t") [],
    .chars (lit "b"), .other, .chars (lit "c"), .stop (lit "t"), .stop (lit "r")] [] _ [] ?_ .nil)
  have hr := lit_item.1
  refine .mark _ _ _ (by simp) (by simpa [Starts] using hr) (by simp [Stops]) ?_
  refine .text [] [.chars (lit "a ")] _ _ (by simp) ?_
  refine .mark _ _ _ (by simp) (by simp [Starts]) (by simpa [Stops] using hr) ?_
  refine .mark _ _ _ (by simp) (by simpa [Starts] using hr) (by simp [Stops]) ?_
  refine .text [] [.chars (lit "b"), .other, .chars (lit "c")] _ _ (by simp) ?_
  exact .mark _ _ _ (by simp) (by simp [Starts]) (by simpa [Stops] using hr) .nil

/-- A string with phonetic runs, as Japanese programs write it, and one whose elements stand on lines of their own. -/
def exPhonetic : List Tok :=
  [.start (lit "si") [], .start (lit "t") [], .chars (lit "東京"), .stop (lit "t"),
    .start (lit "rPh") [(lit "sb", lit "0"), (lit "eb", lit "2")], .start (lit "t") [], .chars (lit "トウキョウ"),
    .stop (lit "t"), .stop (lit "rPh"), .stop (lit "si"),
    .start (lit "si") [], .chars (lit "\n  "), .start (lit "t") [], .chars (lit "x"), .stop (lit "t"), .chars (lit "\n"),
    .stop (lit "si")]

/-- C97 is false in general: the text of the phonetic run is shown after the string, and so is white space. -/
theorem C97_counterexample : SstItems True True exPhonetic [lit "東京", lit "x"] ∧
    parseSharedStrings ⟨exPhonetic, .eof⟩ [] = .ok [lit "東京トウキョウ", lit "\n  x\n"] := by
  constructor
  · have e : lit "東京" = textOf [.chars (lit "東京")] ++ [] ∧ lit "x" = textOf [.chars (lit "x")] ++ [] := by decide +kernel
    rw [e.1, e.2]
    refine .item [] [.start (lit "t") [], .chars (lit "東京"), .stop (lit "t"),
      .start (lit "rPh") [(lit "sb", lit "0"), (lit "eb", lit "2")], .start (lit "t") [], .chars (lit "トウキョウ"),
      .stop (lit "t"), .stop (lit "rPh")] _ _ _ ?_ (.item [] [.chars (lit "\n  "), .start (lit "t") [], .chars (lit "x"),
        .stop (lit "t"), .chars (lit "\n")] _ _ _ ?_ .nil)
    · rw [← e.1]
      have := ItemText.text (ph := True) (ws := True) [] [.chars (lit "東京")] _ _ (by simp)
        (.phonetic [(lit "sb", lit "0"), (lit "eb", lit "2")] [.start (lit "t") [], .chars (lit "トウキョウ"),
          .stop (lit "t")] [] [] trivial ?_ .nil)
      · rw [← e.1] at this
        exact this
      · have h3 := lit_item.2.2.1
        simp only [List.mem_cons, List.not_mem_nil, or_false, forall_eq_or_imp, forall_eq, Starts, Stops]
        exact ⟨⟨by simpa using h3, by simp⟩, ⟨by simp, by simp⟩, by simp, by simpa using h3⟩
    · rw [← e.2]
      have := ItemText.text (ph := True) (ws := True) [] [.chars (lit "x")] [.chars (lit "\n")] [] (by simp)
        (.white _ _ _ trivial (by unfold XmlWhite; decide +kernel) .nil)
      rw [← e.2] at this
      exact .white _ _ _ trivial (by unfold XmlWhite; decide +kernel) this
  · have e : stringsLoop exPhonetic [] [] = [lit "東京トウキョウ", lit "\n  x\n"] := by decide +kernel
    unfold parseSharedStrings
    rw [e]
    rfl

/-! ### C98: escaped characters -/

/-- Without escapes a text means itself. -/
theorem xstring_plain {s t : Bytes} (h : XString s t) (hn : ∀ e n, Escape e n → ¬ e <:+: s) : t = s := by
  induction h with
  | nil => rfl
  | plain b s t _ _ ih => rw [ih (fun e n he hi => hn e n he (hi.trans (List.suffix_cons b s).isInfix))]
  | escape e n s t he _ _ => exact absurd (List.prefix_append e s).isInfix (hn e n he)

/-- C98 for strings without escapes: what is shown is what is meant. Missing: the others, where it is false. -/
theorem C98_plain_partial (ts : List Tok) (ss : List Bytes) (h : SstToks ts ss)
    (hn : ∀ s ∈ ss, ∀ e n, Escape e n → ¬ e <:+: s) :
    ∃ out, parseSharedStrings ⟨ts, .eof⟩ [] = .ok out ∧ out.length = ss.length ∧
      ∀ (i : Nat) (s t : Bytes), ss[i]? = some s → XString s t → out[i]? = some t := by
  refine ⟨ss, C56_strings ts ss h, rfl, ?_⟩
  intro i s t hi hx
  rw [xstring_plain hx (hn s (List.mem_of_getElem? hi)), hi]

/-- Any text without underscores meets the hypothesis. -/
theorem C98_witness (s : Bytes) (h : (95 : UInt8) ∉ s) : (∀ e n, Escape e n → ¬ e <:+: s) ∧ XString s s := by
  have hu : ∀ e n, Escape e n → (95 : UInt8) ∈ e := by
    rintro e n ⟨x, _, _, rfl⟩
    have : (95 : UInt8) ∈ lit "_" := by decide +kernel
    simp [this]
  refine ⟨fun e n he hi => h (hi.subset (hu e n he)), ?_⟩
  induction s with
  | nil => exact .nil
  | cons b s ih =>
    exact .plain b s s (fun e n he hp => h (hp.subset (hu e n he))) (ih (fun hm => h (by simp [hm])))

/-- C98 is false in general: a carriage return, written as `_x000D_`, is shown like that. -/
theorem C98_counterexample :
    SstToks [.start (lit "si") [], .start (lit "t") [], .chars (lit "a_x000D_b"), .stop (lit "t"), .stop (lit "si")]
      [lit "a_x000D_b"] ∧ XString (lit "a_x000D_b") (lit "a\rb") ∧
    parseSharedStrings ⟨[.start (lit "si") [], .start (lit "t") [], .chars (lit "a_x000D_b"), .stop (lit "t"),
      .stop (lit "si")], .eof⟩ [] = .ok [lit "a_x000D_b"] := by
  have hs : SstToks [.start (lit "si") [], .start (lit "t") [], .chars (lit "a_x000D_b"), .stop (lit "t"), .stop (lit "si")]
      [lit "a_x000D_b"] := by
    have e : lit "a_x000D_b" = textOf [.start (lit "t") [], .chars (lit "a_x000D_b"), .stop (lit "t")] := by decide +kernel
    have := SstToks.item [] [.start (lit "t") [], .chars (lit "a_x000D_b"), .stop (lit "t")] [] []
      (by simp [Starts, Stops, lit_si]) .nil
    rw [← e] at this
    exact this
  refine ⟨hs, ?_, C56_strings _ _ hs⟩
  have e1 : lit "a_x000D_b" = 97 :: (lit "_x000D_" ++ lit "b") := by decide +kernel
  have e2 : lit "a\rb" = 97 :: (utf8 [13] ++ lit "b") := by decide +kernel
  have hb := (C98_witness (lit "b") (by decide +kernel)).2
  have he : Escape (lit "_x000D_") 13 := by
    refine ⟨lit "000D", by decide +kernel, ?_, by decide +kernel⟩
    have e : lit "000D" = [48] ++ [48] ++ [48] ++ [68] := by decide +kernel
    rw [e]
    exact .more _ 0 68 13 (.more _ 0 48 0 (.more _ 0 48 0 (.one 48 0 (by decide)) (by decide)) (by decide)) (by decide)
  rw [e1, e2]
  refine .plain 97 _ _ ?_ (.escape _ 13 _ _ he hb)
  rintro e n ⟨x, _, _, rfl⟩ hp
  have e3 : lit "_x" = [95, 120] := by decide +kernel
  rw [e3] at hp
  simp at hp

/-! ### C99: the date system -/

theorem stylesLoop_mode (mk : Bytes → Fmt × CellType) : ∀ (ts : List Tok) (st st' : StyleSt),
    stylesLoop mk ts st = .ok st' → st'.fmt.mode1904 = st.fmt.mode1904 := by
  intro ts
  induction ts with
  | nil => intro st st' h; cases h; rfl
  | cons t ts ih =>
    intro st st' h
    cases t with
    | start name attrs =>
      rw [stylesLoop, GoRes.bind_eq_ok] at h
      obtain ⟨s1, h1, h2⟩ := h
      refine (ih s1 st' h2).trans ?_
      unfold styleElem at h1
      split at h1
      · cases h1; exact Grate.Props.add_mode _ _ _ _
      · split at h1
        · cases h1; rfl
        · split at h1
          · rw [GoRes.bind_eq_ok] at h1
            obtain ⟨_, _, h1⟩ := h1
            cases h1; rfl
          · split at h1
            · unfold xfElem at h1
              simp only at h1
              split at h1
              · cases h1; rfl
              · split at h1
                · rw [GoRes.bind_eq_ok] at h1
                  obtain ⟨_, _, h1⟩ := h1
                  cases h1; rfl
                · cases h1
            · cases h1; rfl
    | stop name =>
      rw [stylesLoop] at h
      refine (ih _ st' h).trans ?_
      split <;> rfl
    | chars s => exact ih st st' h
    | other => exact ih st st' h

/-- Every open document has the 1900 date system. -/
theorem open_mode (mk : Bytes → Fmt × CellType) (order : List Bytes → List Bytes) (file : Except (GoErr × Bool) Archive)
    (d : Doc) (h : openFile mk order file = .ok d) : d.fmt.mode1904 = false := by
  have hp : ∀ (a : Archive) (ns : List Bytes) (st st' : Formatter × List Nat),
      stylesParts mk a ns st = .ok st' → st'.1.mode1904 = st.1.mode1904 := by
    intro a ns
    induction ns with
    | nil => intro st st' h; cases h; rfl
    | cons n ns ih =>
      intro st st' h
      rw [stylesParts, GoRes.bind_eq_ok] at h
      obtain ⟨p, _, h⟩ := h
      rw [GoRes.bind_eq_ok] at h
      obtain ⟨q, hq, h⟩ := h
      refine (ih q st' h).trans ?_
      unfold parseStyles at hq
      rw [GoRes.bind_eq_ok] at hq
      obtain ⟨s1, h1, h2⟩ := hq
      unfold finish at h2
      split at h2
      · cases h2; exact stylesLoop_mode mk _ _ _ h1
      · cases h2
  unfold openFile at h
  split at h
  · cases h
  · cases h
  · rw [GoRes.bind_eq_ok] at h
    obtain ⟨p, _, h⟩ := h
    rw [GoRes.bind_eq_ok] at h
    obtain ⟨st, _, h⟩ := h
    split at h
    · cases h
    · simp only [GoRes.bind_eq_ok] at h
      obtain ⟨_, _, _, _, _, _, _, _, q, hq, ss, _, h⟩ := h
      cases h
      exact hp _ _ _ _ hq

/-- C99 for workbooks with the 1900 date system: in every open document, whatever its parts are, numbers with a date
format are converted with the 1900 epoch (C31). Missing: the 1904 date system, where it is false. -/
theorem C99_1900_partial (mk : Bytes → Fmt × CellType) (order : List Bytes → List Bytes) (ext : Ext)
    (file : Except (GoErr × Bool) Archive) (d : Doc) (h : openFile mk order file = .ok d) (x : Float) (n : Nat) (h0 : n ≠ 0)
    (hf : d.fmt.getCellType n = some .date) (c : Cell) (hc : Shows ext d.fmt (.value (.f64 x) n) c) :
    c.value = .time (convertToDate false x) ∧ c.type = .date := by
  rw [date_cell ext d.fmt x n h0 c hf hc, open_mode mk order file d h]
  exact ⟨rfl, rfl⟩

/-- The workbook part of a workbook with the 1904 date system. -/
def ex1904Book : List Tok := [.start (lit "workbook") [], .start (lit "workbookPr") [(lit "date1904", lit "1")],
  .stop (lit "workbookPr"), .start (lit "sheet") [(lit "name", lit "S"), (lit "id", lit "rId1")], .stop (lit "sheet")]

/-- An archive with it, and a sheet whose first cell has the serial 100 with a date format. -/
def ex1904 : Archive :=
  [(lit "_rels/.rels", .ok ⟨[exRelation (relType "officeDocument") (lit "rId1") (lit "book.xml")], .eof⟩),
    (lit "_rels/book.xml.rels", .ok ⟨[exRelation (relType "worksheet") (lit "rId1") (lit "sheet.xml"),
      exRelation (relType "styles") (lit "rId2") (lit "styles.xml")], .eof⟩),
    (lit "book.xml", .ok ⟨ex1904Book, .eof⟩),
    (lit "styles.xml", .ok ⟨[.start (lit "cellXfs") [(lit "count", lit "1")], .start (lit "xf") [(lit "numFmtId", lit "14")],
      .stop (lit "xf"), .stop (lit "cellXfs")], .eof⟩),
    (lit "sheet.xml", .ok ⟨[.start (lit "c") [(lit "r", lit "A1"), (lit "s", lit "0")], .start (lit "v") [],
      .chars (lit "100"), .stop (lit "v"), .stop (lit "c")], .eof⟩)]

/-- C99 is false as stated: the serial 100 in a workbook with the 1904 date system is 1904-04-10; the cell holds
1900-04-09. -/
theorem C99_counterexample (mk : Bytes → Fmt × CellType) (order : List Bytes → List Bytes) (ho : ∀ l, (order l).Perm l)
    (ext : Ext) (hx : ext.parseFloat (lit "100") = (f64OfNat 100, none)) :
    Declares1904 ex1904Book ∧
    ∃ d d' s, openFile mk order (.ok ex1904) = .ok d ∧ d.get ext ex1904 (lit "S") = .ok (d', 0, none) ∧
      Loaded d' 0 s none ∧ s.cell? 0 0 = some (.full (.time (goDate 1900 4 9 * dayNs)) .date (some 14) []) ∧
      convertToDate true (f64OfNat 100) = goDate 1904 4 10 * dayNs := by
  refine ⟨⟨[(lit "date1904", lit "1")], by simp [ex1904Book], Or.inl (by simp [Has])⟩, ?_⟩
  have h0 : order [] = [] := List.perm_nil.1 (ho [])
  have h1 : order [lit "styles.xml"] = [lit "styles.xml"] := List.perm_singleton.1 (ho _)
  have hex := F64.ofNat_exact 100 (by norm_num)
  have hd := fun m => C31_civil m (f64OfNat 100) 100 hex.1 (by simpa using hex.2) (by norm_num)
  have e : openFile mk order (.ok ex1904) = .ok ⟨[(tOfficeDocument, lit "rId1", lit "book.xml"),
      (tWorksheet, lit "rId1", lit "sheet.xml"), (tStyles, lit "rId2", lit "styles.xml")], lit "book.xml",
      [⟨lit "S", lit "sheet.xml", none⟩], [], [14], Formatter.new⟩ := by
    have e1 : openFile mk order (.ok ex1904) = (do
      let (fmt, xfs) ← stylesParts mk ex1904 (order [lit "styles.xml"]) (Formatter.new, [])
      let strings ← stringsParts ex1904 (order []) []
      pure ⟨[(tOfficeDocument, lit "rId1", lit "book.xml"),
        (tWorksheet, lit "rId1", lit "sheet.xml"), (tStyles, lit "rId2", lit "styles.xml")], lit "book.xml",
        [⟨lit "S", lit "sheet.xml", none⟩], strings, xfs, fmt⟩) := rfl
    rw [e1, h0, h1]
    rfl
  generalize hD : (⟨[(tOfficeDocument, lit "rId1", lit "book.xml"),
      (tWorksheet, lit "rId1", lit "sheet.xml"), (tStyles, lit "rId2", lit "styles.xml")], lit "book.xml",
      [⟨lit "S", lit "sheet.xml", none⟩], [], [14], Formatter.new⟩ : Doc) = d at e
  have hw : WsPart ext d.strings d.xfs (targetOf []) [.start (lit "c") [(lit "r", lit "A1"), (lit "s", lit "0")], .start (lit "v") [],
      .chars (lit "100"), .stop (lit "v"), .stop (lit "c")] (0, 0) [⟨0, 0, .value (.f64 (f64OfNat 100)) 14⟩] := by
    subst hD
    refine .plain _ _ (.cell [(lit "r", lit "A1"), (lit "s", lit "0")] 0 0 0 (lit "A1") none
      [.start (lit "v") [], .chars (lit "100"), .stop (lit "v")] (some (.f64 (f64OfNat 100))) [] [] ?_ ?_ exA1 (by decide)
      (by decide) (Or.inr ⟨lit "0", ?_, ?_, ?_⟩) (by decide) (Or.inl ⟨?_, rfl⟩) ?_ .nil)
    · unfold Distinct; decide +kernel
    · simp [Has]
    · simp [Has]
    · unfold IsDigits; decide +kernel
    · decide +kernel
    · intro v hv
      have hn : lit "t" ≠ lit "r" ∧ lit "t" ≠ lit "s" := by decide +kernel
      simp [hn] at hv
    · exact .value [] [] (lit "v") (lit "100") [] _ (by simp) (by simp) (Or.inl rfl) (.number none _ _ (Or.inl rfl) hx)
  obtain ⟨s, hs, hh, _⟩ := C58_sheet_partial ext ex1904 d [] (lit "sheet.xml") (by simp) (realName_of (by decide +kernel)).1 _
    ⟨[_, _, _, _], [], rfl, by
      intro x hx
      simp only [List.mem_cons, List.not_mem_nil, or_false] at hx
      rcases hx with rfl | rfl | rfl | rfl <;> decide +kernel⟩ []
    (Or.inl ⟨by
      have hrel : relsPart [] (lit "sheet.xml") = lit "_rels/sheet.xml.rels" := by decide +kernel
      rw [hrel]
      intro x hx
      simp only [ex1904, List.mem_cons, List.not_mem_nil, or_false] at hx
      rcases hx with rfl | rfl | rfl | rfl | rfl <;> decide +kernel, rfl⟩) _ _ hw
  have hmode := open_mode mk order _ d e
  obtain ⟨x, hx1, hx2⟩ := hh.written 0 0 _ rfl
  have hxc := date_cell ext d.fmt _ 14 (by decide) x (by subst hD; rfl) hx1
  rw [hmode, hd false, show (serialZero false).after 100 = ⟨1900, 4, 9⟩ by decide +kernel] at hxc
  refine ⟨d, { d with sheets := [⟨lit "S", lit "sheet.xml", some (s, none)⟩] }, s, e, ?_, ⟨⟨lit "S", lit "sheet.xml", some (s, none)⟩, s.curRow, rfl, rfl⟩, ?_, ?_⟩
  rotate_left
  · have h0 : s.cell? 0 0 = some x := hx2
    rw [h0, hxc]
  · rw [hd true, show (serialZero true).after 100 = ⟨1904, 4, 10⟩ by decide +kernel]
  · subst hD
    unfold Doc.get
    have hf : Doc.find ⟨[(tOfficeDocument, lit "rId1", lit "book.xml"),
      (tWorksheet, lit "rId1", lit "sheet.xml"), (tStyles, lit "rId2", lit "styles.xml")], lit "book.xml",
      [⟨lit "S", lit "sheet.xml", none⟩], [], [14], Formatter.new⟩ (lit "S") = some 0 := by
      unfold Doc.find
      simp
    rw [hf]
    simp only [List.getElem?_cons_zero]
    have hs' := hs
    rw [show pathOf ([] ++ [lit "sheet.xml"]) = lit "sheet.xml" from rfl] at hs'
    rw [hs']
    rfl

/-! ### C100: cells without a reference -/

/-- A cell element without a reference changes nothing. -/
theorem C100_dropped (ext : Ext) (d : Doc) (links : Bytes → Bytes) (attrs : List (Bytes × Bytes)) (inner : List Tok)
    (k : Nat) (hr : Lacks attrs "r") (hd : Distinct attrs) (hk : NumAttr attrs "s" 0 k) (hlt : k < 2 ^ 63)
    (hin : ∀ x ∈ inner, ¬ Starts sheetNames x) (st : WsSt) :
    ∃ st', sheetLoop ext d links (.start (lit "c") attrs :: (inner ++ [.stop (lit "c")])) st = .ok st' ∧
      st'.sheet = st.sheet ∧ st'.cell = [] := by
  have hc : ∃ st1, cElem d attrs st = .ok st1 ∧ st1.sheet = st.sheet ∧ st1.cell = [] := by
    unfold cElem
    simp only
    rw [attr_lacks hr, numAttr_val 64 (by decide) hd hk (by omega)]
    by_cases h : k < d.xfs.length
    · rw [if_pos (by omega)]
      unfold index
      rw [if_pos (by omega), Int.toNat_natCast, List.getElem?_eq_getElem h]
      exact ⟨_, rfl, rfl, rfl⟩
    · rw [if_neg (by omega)]
      exact ⟨_, rfl, rfl, rfl⟩
  obtain ⟨st1, h1, h2, h3⟩ := hc
  have hs : sheetTok ext d links (.start (lit "c") attrs) st = .ok st1 := by
    unfold sheetTok
    simp only
    rw [if_neg lit_names.1, if_pos trivial, h1]
  rw [sheetLoop_step ext d links _ _ st st1 hs, sheetLoop_head ext d links _ st1 h3 inner hin]
  exact ⟨{ st1 with cell := [] }, by simp [sheetLoop, sheetTok], h2, rfl⟩

/-- A row of two cells without references, as the standard allows: they are A1 and B1. -/
def exNoRefs : List Tok :=
  [.start (lit "row") [(lit "r", lit "1")], .start (lit "c") [], .start (lit "v") [], .chars (lit "1"), .stop (lit "v"),
    .stop (lit "c"), .start (lit "c") [(lit "t", lit "b")], .start (lit "v") [], .chars (lit "1"), .stop (lit "v"),
    .stop (lit "c"), .stop (lit "row")]

/-- C100 is false: the cells are not in the sheet, and there is no error. -/
theorem C100_counterexample (ext : Ext) :
    parseSheet ext [(lit "s", .ok ⟨exNoRefs, .eof⟩)] exXlsxDoc (lit "s") = .ok (Sheet.new exXlsxDoc.fmt, none) := by
  rfl

/-- The cells meet the hypotheses of `C100_dropped`. -/
theorem C100_witness : Lacks [(lit "t", lit "b")] "r" ∧ Distinct [(lit "t", lit "b")] ∧ NumAttr [(lit "t", lit "b")] "s" 0 0 ∧
    ∀ x ∈ [Tok.start (lit "v") [], .chars (lit "1"), .stop (lit "v")], ¬ Starts sheetNames x := by
  have hn : lit "r" ≠ lit "t" ∧ lit "s" ≠ lit "t" ∧ lit "v" ∉ sheetNames := by decide +kernel
  refine ⟨by simp [Lacks, hn], by simp [Distinct], Or.inl ⟨by simp [Lacks, hn], rfl⟩, by simp [Starts, hn]⟩

end Grate.Props
