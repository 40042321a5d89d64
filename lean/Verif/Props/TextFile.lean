import Verif.Props.Zip
import Verif.Props.Open

/-! # C79, C80, C81 from the bytes of the file alone

The theorems of `Verif.Props.Open` suppose that the file is no compound file and that the zip reader refuses it. Texts without
control characters are never compound files, and the model of the zip reader refuses them. -/

namespace Grate.Props

open Grate Grate.Spec Grate.Xlsx Grate.Api Grate.Zip

/-- Text without control characters other than tabs and line ends; characters above 127 are in any encoding. -/
def PlainText (file : Bytes) : Prop := ∀ b ∈ file, b = 9 ∨ b = 10 ∨ b = 13 ∨ 32 ≤ b

theorem PlainText.notCompound {file : Bytes} (h : PlainText file) : NotCompound file := by
  left
  intro hs
  have h11 : (0x11 : UInt8) ∈ signature := by decide
  exact absurd (h _ (hs.subset h11)) (by decide)

theorem PlainText.notZip {Z : ZipLib} {T : XmlTables} {w : World} (hzip : ReadsZip Z T w) {fn file : Bytes}
    (hf : w.files fn = .ok file) (h : PlainText file) : ∃ e, w.zip file = .error e :=
  C140_text Z T w hzip fn file hf (fun h5 => absurd (h _ h5) (by decide))

/-- **C79 (from the bytes).** A text without control characters, without lines of 64 KiB, that the rule of C06 does not decline, in
any program with all formats: `Open` succeeds; the source lists one sheet, the base name of the file; `Get` with any name gives
the collection whose rows are the lines of the file split at tabs. -/
theorem C79_plain (Z : ZipLib) (T : XmlTables) (w : World) (hzip : ReadsZip Z T w) (ext : Ext) (dir : List Bytes) (base : Bytes)
    (hb : PathName base) (file : Bytes) (hf : w.files (pathOf (dir ++ [base])) = .ok file) (hp : PlainText file)
    (hi : ∀ m, (w.iter m).Perm m) (lines : List Bytes) (rows : List (List Bytes)) (hlong : ¬ HasLongLine file)
    (hl : LinesOf file lines) (hr : All2 FieldsOf lines rows) (hsize : rows.length < 2 ^ 50) (hd : ¬ Declined rows)
    (t : List (Grate.Entry Source)) (ht : Shipped w t) :
    ∃ f, openSrc t (pathOf (dir ++ [base])) = .ok (.text f) ∧ (Source.text f).list = [base] ∧
      (∀ name, (Source.text f).get ext name = .ok (.text f, .ok (.text f))) ∧
      drain Simple.File.next Simple.File.strings (rows.length + 1) f = some (.ok rows) := by
  obtain ⟨ez, hz⟩ := hp.notZip hzip hf
  exact C79_text w ext dir base hb file hf hp.notCompound ez hz hi lines rows hlong hl hr hsize hd t ht

theorem plain_csv {rows : List (List Bytes)} (h : ∀ r ∈ rows, ∀ c ∈ r, ∀ b ∈ c, 32 ≤ b) : PlainText (csvText rows) := by
  intro b hb
  obtain ⟨r, hr, hb⟩ := List.mem_flatMap.1 hb
  rcases List.mem_append.1 hb with hb | hb
  · rcases mem_intercalate hb with rfl | ⟨c, hc, hb⟩
    · decide
    · exact .inr (.inr (.inr (h r hr c hc b hb)))
  · simp only [List.mem_singleton] at hb
    exact .inr (.inl hb)

/-- **C80 (from the bytes).** False for every CSV file of plain fields without control characters with a row of two or more fields:
it opens as a text with one field per line. -/
theorem C80_plain_counterexample (Z : ZipLib) (T : XmlTables) (w : World) (hzip : ReadsZip Z T w) (fn : Bytes)
    (rows : List (List Bytes)) (hp : ∀ r ∈ rows, ∀ c ∈ r, PlainField c) (hc : ∀ r ∈ rows, ∀ c ∈ r, ∀ b ∈ c, 32 ≤ b)
    (hlen : ∀ r ∈ rows, ([(44 : UInt8)].intercalate r).length < 65536) (hf : w.files fn = .ok (csvText rows))
    (hi : ∀ m, (w.iter m).Perm m) (hsize : rows.length < 2 ^ 50) (hmany : ∃ r ∈ rows, 2 ≤ r.length)
    (t : List (Grate.Entry Source)) (ht : Shipped w t) :
    ∃ f got, openSrc t fn = .ok (.text f) ∧
      drain Simple.File.next Simple.File.strings (rows.length + 1) f = some (.ok got) ∧ got ≠ rows ∧
      ∀ r ∈ got, r.length = 1 := by
  obtain ⟨ez, hz⟩ := (plain_csv hc).notZip hzip hf
  exact C80_counterexample w fn rows hp hlen hf (plain_csv hc).notCompound ez hz hi hsize hmany t ht

/-- A text of two lines and two columns, with a character above 127, meets the hypotheses of `C79_plain`; a CSV table those of
`C80_plain_counterexample`. -/
theorem C79_plain_witness : PlainText [97, 9, 0xc3, 0xa9, 10, 99, 9, 10] ∧
    LinesOf [97, 9, 0xc3, 0xa9, 10, 99, 9, 10] [[97, 9, 0xc3, 0xa9], [99, 9]] ∧
    All2 FieldsOf [[97, 9, 0xc3, 0xa9], [99, 9]] [[[97], [0xc3, 0xa9]], [[99], []]] ∧
    ¬ HasLongLine [97, 9, 0xc3, 0xa9, 10, 99, 9, 10] ∧ ¬ Declined [[[97], [0xc3, 0xa9]], [[99], []]] ∧
    (∀ r ∈ [[lit "a", lit "b"], [lit "1", lit "2"]], ∀ c ∈ r, ∀ b ∈ c, 32 ≤ b) := by
  refine ⟨by unfold PlainText; decide,
    .lf (l := [97, 9, 0xc3, 0xa9]) (by decide) (by decide) (.lf (l := [99, 9]) (by decide) (by decide) .nil),
    .cons ?_ (.cons ?_ .nil), ?_, few_rows (by decide), by decide +kernel⟩
  · unfold FieldsOf; decide +kernel
  · unfold FieldsOf; decide +kernel
  · rintro ⟨a, l, b, h, hl, _⟩
    have := congrArg List.length h
    simp at this
    omega

end Grate.Props
