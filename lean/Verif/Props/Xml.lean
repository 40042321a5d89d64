import Verif.Lemmas.GoXmlBad
import Verif.Props.Open

/-! # Properties C95 and C96: the texts of the parts of Office Open XML documents -/

namespace Grate.Props

open Grate Grate.Spec Grate.Xlsx Grate.Api

/-! ### C95: the ways to write a part -/

/-- C95 for a part: however its tokens are written, they are what is read. -/
theorem C95_part (T : XmlTables) (ts : List Tok) (bs : Bytes) (h : XmlText ts bs) :
    xmlPart T bs .eof = ⟨ts, .eof⟩ := xmlPart_text T h

/-- C95 for two texts of the same tokens. -/
theorem C95_same (T : XmlTables) (ts : List Tok) (bs bs' : Bytes) (h : XmlText ts bs) (h' : XmlText ts bs') :
    xmlPart T bs .eof = xmlPart T bs' .eof := by rw [C95_part T ts bs h, C95_part T ts bs' h']

/-- C95 for files: a zip archive with the parts of a document, each written in any way, with or without a byte order
mark, is read as C78 says of its tokens. -/
theorem C95_file (w : World) (ext : Ext) (T : XmlTables) (fn file : Bytes) (hf : w.files fn = .ok file)
    (hn : NotCompound file) (a : Xlsx.Archive) (z : Xlsx.Files) (hz : w.zip file = .ok (z.archive T))
    (hw : WritesParts a z) (ho : ∀ l, (w.order l).Perm l) (dir : List Bytes) (base : Bytes)
    (b : Spec.Book) (h : XlsxFile a dir base b) (t : List (Grate.Entry Source)) (ht : Shipped w t) :
    ∃ src, openSrc t fn = .ok src ∧ src.list = b.sheets.map Prod.snd ∧
      (∀ name, name ∉ b.sheets.map Prod.snd → ∃ er, src.get ext name = .ok (src, .error er)) ∧
      ∀ (i : Nat) (id name : Bytes), b.sheets[i]? = some (id, name) →
        (∀ (j : Nat) (s : Bytes × Bytes), j < i → b.sheets[j]? = some s → s.2 ≠ name) →
        ∀ r ∈ b.rels, r.type = relType "worksheet" → r.id = id → ∀ (sdir : List Bytes) (sbase : Bytes),
        (∀ s ∈ sdir, RealName s) → PathName sbase → r.part = pathOf (sdir ++ [sbase]) → ∀ (ts : List Xlsx.Tok),
        HasPart a r.part ts → ∀ ls : List (Bytes × Bytes),
        ((LacksPart a (relsPart sdir sbase) ∧ ls = []) ∨ ∃ us, HasPart a (relsPart sdir sbase) us ∧ LinkToks us ls) →
        ∀ (m : Nat × Nat) (ws : List Write), WsPart ext b.strings b.styles (targetOf ls) ts m ws →
        ∃ src' s, src.get ext name = .ok (src', .ok (.sheet s)) ∧ Holds ext (formatterOf b.formats) ws s ∧
          SizeIs m.1 m.2 ws s ∧ Rectangular s := by
  have hm := writes_marked T hw
  obtain ⟨src, h1, h2, h3, h4⟩ := C78_xlsx_partial w ext fn file hf hn (z.archive T) hz ho dir base b (hm.xlsxFile h) t ht
  refine ⟨src, h1, h2, h3, ?_⟩
  intro i id name hi hfirst r hr hty hid sdir sbase hsd hsb hpart ts hp ls hlk m ws hws
  obtain ⟨us, hu, hus⟩ := hm.of hp
  have hws' : WsPart ext b.strings b.styles (targetOf ls) us m ws := by
    rcases hus with rfl | rfl
    · exact hws
    · exact marked_sheet hws _
  refine h4 i id name hi hfirst r hr hty hid sdir sbase hsd hsb hpart us hu ls ?_ m ws hws'
  rcases hlk with ⟨hl, rfl⟩ | ⟨vs, hv, hl⟩
  · exact Or.inl ⟨hm.2 _ hl, rfl⟩
  · obtain ⟨xs, hx, rfl | rfl⟩ := hm.of hv
    · exact Or.inr ⟨_, hx, hl⟩
    · exact Or.inr ⟨_, hx, .other _ _ _ (by simp [Starts]) hl⟩

/-! #### One way to write tokens -/

/-- Printable characters without meaning in XML. -/
def plainByte (b : UInt8) : Bool := 32 ≤ b.toNat && b.toNat ≤ 126 && b != 34 && b != 38 && b != 60 && b != 62

/-- A name. -/
def ncName : Bytes → Bool
  | [] => false
  | c :: t =>
    let letter (b : UInt8) : Bool := (65 ≤ b && b ≤ 90) || (97 ≤ b && b ≤ 122) || b == 95
    letter c && t.all (fun b => letter b || (48 ≤ b && b ≤ 57) || b == 45 || b == 46)

/-- Attributes in double quotes. -/
def attrsText : List (Bytes × Bytes) → Bytes
  | [] => []
  | (k, v) :: as => 32 :: k ++ 61 :: 34 :: v ++ 34 :: attrsText as

/-- A token. -/
def tokText : Tok → Bytes
  | .start n as => 60 :: n ++ attrsText as ++ [62]
  | .stop n => 60 :: 47 :: n ++ [62]
  | .chars s => s
  | .other => lit "<!---->"

/-- The tokens that can be written like this. -/
def plainToks : List Tok → Bool
  | [] => true
  | .start n as :: ts => ncName n && as.all (fun a => ncName a.1 && a.2.all plainByte) && plainToks ts
  | .stop n :: ts => ncName n && plainToks ts
  | .chars s :: ts => s != [] && s.all (fun b => plainByte b || b == 10) &&
    (match ts with | .chars _ :: _ => false | _ => true) && plainToks ts
  | .other :: ts => plainToks ts

theorem ncName_of {s : Bytes} (h : ncName s = true) : NcName s := by
  cases s with
  | nil => cases h
  | cons c t =>
    unfold ncName at h
    simp only [Bool.and_eq_true, Bool.or_eq_true, decide_eq_true_eq, beq_iff_eq, List.all_eq_true] at h
    refine ⟨c, t, rfl, ?_, ?_⟩
    · unfold Letter
      tauto
    · intro b hb
      have := h.2 b hb
      unfold Letter
      tauto

theorem written_ascii {plain : Nat → Prop} {refs nl : Prop} : ∀ {s : Bytes},
    (∀ b ∈ s, b.toNat < 128 ∧ XmlChar b.toNat ∧ plain b.toNat) → Written plain refs nl (s.map UInt8.toNat) s ∧
      utf8 (s.map UInt8.toNat) = s
  | [], _ => ⟨.nil, rfl⟩
  | b :: s, h => by
    obtain ⟨h1, h2⟩ := written_ascii (s := s) (plain := plain) (refs := refs) (nl := nl) (fun x hx => h x (by simp [hx]))
    obtain ⟨g1, g2, g3⟩ := h b (by simp)
    have e : utf8 [b.toNat] = [b] := by rw [utf8_low _ g1, UInt8.ofNat_toNat]
    constructor
    · have := Written.char (refs := refs) (nl := nl) b.toNat _ _ g2 g3 h1
      rw [e] at this
      exact this
    · rw [List.map_cons, utf8_cons, e, h2]
      rfl

theorem plainByte_iff {b : UInt8} (h : plainByte b = true) :
    32 ≤ b.toNat ∧ b.toNat ≤ 126 ∧ b ≠ 34 ∧ b ≠ 38 ∧ b ≠ 60 ∧ b ≠ 62 := by
  unfold plainByte at h
  simp only [Bool.and_eq_true, decide_eq_true_eq, bne_iff_ne, ne_eq] at h
  tauto

theorem toNat_ne {b : UInt8} (n : UInt8) (h : b ≠ n) : b.toNat ≠ n.toNat := fun e => h (UInt8.toNat_inj.1 e)

theorem attrs_text : ∀ {as : List (Bytes × Bytes)}, as.all (fun a => ncName a.1 && a.2.all plainByte) = true →
    Attributes as (attrsText as)
  | [], _ => .nil
  | (k, v) :: as, h => by
    simp only [List.all_cons, Bool.and_eq_true] at h
    have ih := attrs_text (as := as) h.2
    have hv := written_ascii (s := v) (refs := True) (nl := False)
      (plain := fun c => c ≠ 9 ∧ c ≠ 10 ∧ c ≠ 13 ∧ c ≠ 38 ∧ c ≠ 60 ∧ c ≠ (34 : UInt8).toNat) (by
      intro b hb
      obtain ⟨g1, g2, g3, g4, g5, g6⟩ := plainByte_iff ((List.all_eq_true.1 h.1.2) b hb)
      have g3' := toNat_ne 34 g3
      have g4' := toNat_ne 38 g4
      have g5' := toNat_ne 60 g5
      change b.toNat ≠ 34 at g3'
      change b.toNat ≠ 38 at g4'
      change b.toNat ≠ 60 at g5'
      refine ⟨by omega, by unfold XmlChar; omega, by omega, by omega, by omega, by omega, by omega, ?_⟩
      exact g3')
    have := Attributes.cons k k [32] [] [] 34 (v.map UInt8.toNat) v as (attrsText as) ⟨ncName_of h.1.1, Or.inl rfl⟩
      (by intro b hb; simp at hb; simp [hb]) (by simp) (by intro b hb; simp at hb) (by intro b hb; simp at hb)
      (Or.inl rfl) hv.1 ih
    rw [hv.2] at this
    simpa [attrsText] using this

/-- The tokens are written. -/
theorem toks_text : ∀ {ts : List Tok}, plainToks ts = true → XmlText ts (ts.flatMap tokText)
  | [], _ => .nil
  | .start n as :: ts, h => by
    simp only [plainToks, Bool.and_eq_true] at h
    have := XmlText.start n n [] (attrsText as) as ts _ ⟨ncName_of h.1.1, Or.inl rfl⟩ (attrs_text h.1.2)
      (by intro b hb; simp at hb) (toks_text h.2)
    simpa [tokText] using this
  | .stop n :: ts, h => by
    simp only [plainToks, Bool.and_eq_true] at h
    have := XmlText.stop n n [] ts _ ⟨ncName_of h.1, Or.inl rfl⟩ (by intro b hb; simp at hb) (toks_text h.2)
    simpa [tokText] using this
  | .chars s :: ts, h => by
    simp only [plainToks, Bool.and_eq_true, bne_iff_ne, ne_eq] at h
    obtain ⟨⟨⟨hne, hs⟩, hnext⟩, hts⟩ := h
    have hb := fun b hb => (List.all_eq_true.1 hs) b hb
    have hp : ∀ b ∈ s, b.toNat = 10 ∨ (32 ≤ b.toNat ∧ b.toNat ≤ 126 ∧ b.toNat ≠ 38 ∧ b.toNat ≠ 60) := by
      intro b hm
      have h1 := hb b hm
      simp only [Bool.or_eq_true, beq_iff_eq] at h1
      rcases h1 with h1 | rfl
      · obtain ⟨g1, g2, _, g4, g5, _⟩ := plainByte_iff h1
        exact Or.inr ⟨g1, g2, toNat_ne 38 g4, toNat_ne 60 g5⟩
      · exact Or.inl rfl
    have hv := written_ascii (s := s) (refs := True) (nl := True) (plain := fun c => c ≠ 13 ∧ c ≠ 38 ∧ c ≠ 60) (by
      intro b hm
      have := hp b hm
      refine ⟨by omega, by unfold XmlChar; omega, by omega, by omega, by omega⟩)
    have hcd : NoCdEnd s := by
      intro hc
      have h62 : (62 : UInt8) ∈ s := by
        have : (62 : UInt8) ∈ lit "]]>" := by decide +kernel
        exact hc.subset this
      have h1 := hb 62 h62
      revert h1
      decide
    have hhead : ts.flatMap tokText = [] ∨ (ts.flatMap tokText).head? = some 60 := by
      match ts, hnext with
      | [], _ => exact Or.inl rfl
      | .start n as :: ts, _ => exact Or.inr rfl
      | .stop n :: ts, _ => exact Or.inr rfl
      | .other :: ts, _ =>
        right
        have : tokText .other = 60 :: (lit "!---->") := by decide +kernel
        rw [List.flatMap_cons, this]
        rfl
    have := XmlText.text (s.map UInt8.toNat) s ts _ ⟨hv.1, hcd⟩ (by simpa using hne) hhead (toks_text hts)
    rw [hv.2] at this
    simpa [tokText] using this
  | .other :: ts, h => by
    simp only [plainToks] at h
    have := XmlText.comment [] ts _ (by decide +kernel) (toks_text h)
    have e : lit "<!--" ++ [] ++ lit "-->" = tokText .other := by decide +kernel
    rw [e] at this
    exact this

/-- The bytes of an archive of tokens. -/
def bytesOf (a : Xlsx.Archive) : Xlsx.Files :=
  a.map (fun e => (e.1, e.2.map (fun p => (p.toks.flatMap tokText, p.fin))))

theorem bytesOf_writes (a : Xlsx.Archive)
    (h : a.all (fun e => match e.2 with | .ok p => plainToks p.toks | .error _ => true) = true) :
    WritesParts a (bytesOf a) where
  has := by
    rintro n ts ⟨before, after, rfl, hb⟩
    refine ⟨ts.flatMap tokText, ⟨bytesOf before, bytesOf after, by simp [bytesOf, Except.map], ?_⟩, Or.inl (toks_text ?_)⟩
    · intro e he
      unfold bytesOf at he
      rw [List.mem_map] at he
      obtain ⟨x, hx, rfl⟩ := he
      exact hb x hx
    · have := (List.all_eq_true.1 h) (n, .ok ⟨ts, .eof⟩) (by simp)
      exact this
  lacks := by
    intro n hn e he
    unfold bytesOf at he
    rw [List.mem_map] at he
    obtain ⟨x, hx, rfl⟩ := he
    exact hn x hx

/-- The example archive of C61, written as bytes, meets the hypotheses of `C95_file`. -/
theorem C95_witness : WritesParts exZip (bytesOf exZip) ∧ XlsxFile exZip [lit "xl"] (lit "workbook.xml") exXlsxBook :=
  ⟨bytesOf_writes exZip (by decide +kernel), C61_witness⟩

/-- A text with a declaration, prefixes, single quotes, white space, references, an empty element, a comment, a CDATA
section and an instruction. -/
def exText : Bytes :=
  lit "<?xml version='1.0' encoding=\"Utf-8\" ?><x:si><x:t xml:space = 'a&#x62;&amp;' /><!-- - -->&lt;1\r\n<![CDATA[<&]]><?go on?></x:si >"

theorem white_of {s : Bytes} (h : s.all (fun b => b == 32 || b == 9 || b == 10 || b == 13) = true) : XmlWhite s := by
  intro b hb
  have := (List.all_eq_true.1 h) b hb
  simp only [Bool.or_eq_true, beq_iff_eq] at this
  tauto

theorem char_step {plain : Nat → Prop} {refs nl : Prop} (b : UInt8) {cs : List Nat} {bs : Bytes} (h : b.toNat < 128)
    (hx : XmlChar b.toNat) (hp : plain b.toNat) (hw : Written plain refs nl cs bs) :
    Written plain refs nl (b.toNat :: cs) (b :: bs) := by
  have := Written.char (refs := refs) (nl := nl) b.toNat cs bs hx hp hw
  rwa [utf8_low _ h, UInt8.ofNat_toNat] at this

/-- The text meets the hypotheses of `C95_part`. -/
theorem C95_text_witness : XmlText [.other, .start (lit "si") [], .start (lit "t") [(lit "space", lit "ab&")], .stop (lit "t"),
    .other, .chars (lit "<1\n"), .chars (lit "<&"), .other, .stop (lit "si")] exText := by
  have q : ∀ s, ncName s = true → QName s (lit "x" ++ 58 :: s) := fun s h => ⟨ncName_of h, Or.inr ⟨lit "x", ncName_of (by decide +kernel), rfl⟩⟩
  have h9 := XmlText.stop (lit "si") (lit "x" ++ 58 :: lit "si") [32] [] [] (q _ (by decide +kernel)) (white_of (by decide +kernel)) .nil
  have h8 := XmlText.instruction (lit "go") (lit "on") [32] _ _ (ncName_of (by decide +kernel)) (by decide +kernel)
    (white_of (by decide +kernel)) (Or.inr (by simp)) (by decide +kernel) h9
  have h7 := XmlText.cdata [60, 38] (lit "<&") _ _ ⟨by
    have := written_ascii (s := lit "<&") (plain := fun c => c ≠ 13) (refs := False) (nl := True) (by
      have e : lit "<&" = [60, 38] := by decide +kernel
      rw [e]
      intro b hb
      simp only [List.mem_cons, List.not_mem_nil, or_false] at hb
      rcases hb with rfl | rfl <;> simp [XmlChar])
    have e : (lit "<&").map UInt8.toNat = [60, 38] := by decide +kernel
    rw [e] at this
    exact this.1, by unfold NoCdEnd; decide +kernel⟩ h8
  have h6 := XmlText.text [60, 49, 10] (lit "&lt;" ++ [49, 13, 10]) _ _ ⟨.ref _ _ _ _ trivial (by simp [XmlChar]) .lt
    (char_step 49 (by decide) (by simp [XmlChar]) (by simp) (.crlf _ _ trivial .nil)), by unfold NoCdEnd; decide +kernel⟩
    (by simp) (Or.inr (by decide +kernel)) h7
  have h5 := XmlText.comment (lit " - ") _ _ (by decide +kernel) h6
  have h4a : AttrText 39 [97, 98, 38] (97 :: (lit "&#x" ++ lit "62" ++ [59] ++ (lit "&amp;" ++ []))) := by
    refine char_step 97 (by decide) (by simp [XmlChar]) (by decide) (.ref _ _ _ _ trivial (by simp [XmlChar]) (.hex _ _ ?_)
      (.ref _ _ _ _ trivial (by simp [XmlChar]) .amp .nil))
    have e : lit "62" = [54] ++ [50] := by decide +kernel
    rw [e]
    exact HexNum.more [54] 6 50 2 (.one 54 6 (by decide)) (by decide)
  have h4 := XmlText.empty (lit "t") (lit "x" ++ 58 :: lit "t") [32] _ _ _ _ (q _ (by decide +kernel))
    (.cons (lit "space") (lit "xml" ++ 58 :: lit "space") [32] [32] [32] 39 _ _ [] []
      ⟨ncName_of (by decide +kernel), Or.inr ⟨lit "xml", ncName_of (by decide +kernel), rfl⟩⟩
      (white_of (by decide +kernel)) (by simp) (white_of (by decide +kernel)) (white_of (by decide +kernel)) (Or.inr rfl) h4a .nil)
    (white_of (by decide +kernel)) h5
  have h2 := XmlText.start (lit "si") (lit "x" ++ 58 :: lit "si") [] [] [] _ _ (q _ (by decide +kernel)) .nil (white_of rfl) h4
  have h1 := XmlText.declaration (lit " version='1.0'" ++ lit " encoding=\"Utf-8\"" ++ [] ++ [32]) _ _
    ⟨_, _, _, _, ⟨[32], [], [], 39, white_of rfl, by simp, white_of rfl, white_of rfl, Or.inr rfl, by decide +kernel⟩,
      Or.inr ⟨lit "Utf-8", ⟨85, 116, 102, Or.inl rfl, Or.inr rfl, Or.inr rfl, by decide +kernel⟩,
        [32], [], [], 34, white_of rfl, by simp, white_of rfl, white_of rfl, Or.inl rfl, by decide +kernel⟩,
      Or.inl rfl, white_of rfl, rfl⟩ h2
  have e1 : utf8 [60, 49, 10] = lit "<1\n" ∧ utf8 [60, 38] = lit "<&" ∧ utf8 [97, 98, 38] = lit "ab&" := by decide +kernel
  rw [e1.1, e1.2.1, e1.2.2] at h1
  convert h1 using 1
  decide +kernel

/-! ### C96: encodings -/

/-- C96 is false: a part in UTF-16, whatever it says, has no content for this reader; a document whose relationships are
in UTF-16 is declined as if it were of another format. -/
theorem C96_counterexample (T : XmlTables) (mk : Bytes → Fmt × CellType) (order : List Bytes → List Bytes) (z : Xlsx.Files)
    (bs : Bytes) (h : Utf16Start bs) (hz : HasBytes z (lit "_rels/.rels") bs) :
    openFile mk order (.ok (z.archive T)) = .err (wrapErr [xmlSyntax, .notInFormat]) := by
  unfold openFile
  simp only
  unfold openPart
  rw [archive_open T hz, xmlPart_utf16 T bs h]
  rfl

/-- C96, what is true: a part in UTF-16 is never read as something else, it is an error: of `Open` if it is the workbook,
its relationships, styles or strings, of `Get` if it is a sheet. -/
theorem C96_reported_partial (T : XmlTables) (bs : Bytes) (h : Utf16Start bs) :
    (∀ basedir st, parseRels basedir (xmlPart T bs .eof) st = .err xmlSyntax) ∧
    (∀ rels, parseWorkbook rels (xmlPart T bs .eof) = .err xmlSyntax) ∧
    (∀ mk f, parseStyles mk (xmlPart T bs .eof) f = .err xmlSyntax) ∧
    (∀ ss, parseSharedStrings (xmlPart T bs .eof) ss = .err xmlSyntax) ∧
    (∀ ext z d name, HasBytes z name bs →
      parseSheet ext (Xlsx.Files.archive T z) d name = .ok (Sheet.new d.fmt, some xmlSyntax)) := by
  rw [xmlPart_utf16 T bs h]
  refine ⟨fun _ _ => rfl, fun _ => rfl, fun _ _ => rfl, fun _ => rfl, ?_⟩
  intro ext z d name hz
  unfold parseSheet
  rw [archive_open T hz, xmlPart_utf16 T bs h]
  rfl

/-- The bytes of a text in UTF-16, little-endian, with its mark: they meet the hypothesis. -/
theorem C96_witness : Utf16Start (0xFF :: 0xFE :: (lit "<?xml?><sst/>").flatMap (fun b => [b, 0])) ∧
    HasBytes [(lit "_rels/.rels", .ok (0xFF :: 0xFE :: (lit "<a/>").flatMap (fun b => [b, 0]), .eof))] (lit "_rels/.rels")
      (0xFF :: 0xFE :: (lit "<a/>").flatMap (fun b => [b, 0])) :=
  ⟨⟨_, Or.inl rfl⟩, [], [], rfl, by simp⟩

/-! ### More about C58 and C62 -/

/-- C58 is false of a value with a comment in it: only the text after the comment is kept. -/
theorem C58_text_counterexample (T : XmlTables) (ext : Ext) :
    ∃ s, parseSheet ext (Xlsx.Files.archive T [(lit "s", .ok (lit "<c r=\"A1\" t=\"str\"><v>ab<!-- -->cd</v></c>", .eof))])
        exXlsxDoc (lit "s") = .ok (s, none) ∧ s.cell? 0 0 = some (.full (.str (lit "cd")) .string none []) := by
  refine ⟨_, rfl, rfl⟩

/-- C62 is false of a well-formed text: an empty CDATA section in a boolean cell ends the program. -/
theorem C62_text_counterexample (T : XmlTables) (ext : Ext) :
    parseSheet ext (Xlsx.Files.archive T [(lit "s", .ok (lit "<c r=\"A1\" t=\"b\"><v><![CDATA[]]></v></c>", .eof))])
      exXlsxDoc (lit "s") = .panic := by
  rfl

end Grate.Props
