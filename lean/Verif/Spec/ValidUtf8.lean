import Verif.Spec.Utf16
import Verif.Spec.Display

/-! # Specification: valid UTF-8 (C129) -/

namespace Grate.Spec

/-- The UTF-8 form of some text. -/
def ValidUtf8 (s : Bytes) : Prop := ∃ rs, (∀ r ∈ rs, Scalar r) ∧ s = utf8 rs

/-- Only ASCII characters. -/
def AsciiOnly (s : Bytes) : Prop := ∀ b ∈ s, b.toNat < 128

/-- What is known of Go's printing: numbers are ASCII, and a date in a valid layout is valid. -/
structure PrintsText (ext : Ext) : Prop where
  floatF : ∀ x, AsciiOnly (ext.floatF x)
  floatG6 : ∀ x, AsciiOnly (ext.floatG6 x)
  floatV : ∀ x, AsciiOnly (ext.floatV x)
  sprintfFloat : ∀ fs x, AsciiOnly fs → AsciiOnly (ext.sprintfFloat fs x)
  sprintfInt : ∀ fs n, AsciiOnly fs → AsciiOnly (ext.sprintfInt fs n)
  timeString : ∀ t, AsciiOnly (ext.timeString t)
  timeFormat : ∀ l t, ValidUtf8 l → ValidUtf8 (ext.timeFormat l t)

/-- The formatting function puts no thousands separators. -/
def NoSeparator : Fmt → Prop
  | .surround _ f _ => NoSeparator f
  | .negParens f => NoSeparator f
  | .commas _ => False
  | .zeroDash f => NoSeparator f
  | .switch4 a b c d => NoSeparator a ∧ NoSeparator b ∧ NoSeparator c ∧ NoSeparator d
  | _ => True

/-- A destination of `Scan` holds valid text, if it is for text. -/
def DestValid : SDest → Prop
  | .str v => ValidUtf8 v
  | _ => True

/-- All text a sheet gives, apart from Strings, is valid: the values and links of its cells, what Scan stores, and the
names of types and formats. -/
structure TextValid (s : Sheet) : Prop where
  values : ∀ s' cs, After s s' → s'.raw = .ok cs → ∀ c ∈ cs, (∀ t, c.value = .str t → ValidUtf8 t) ∧
    ∀ u, c.url = some u → ValidUtf8 u
  scan : ∀ s' args res, After s s' → (∀ d ∈ args, DestValid d) → s'.scan args = .ok res → ∀ d ∈ res.1, DestValid d
  types : ∀ s' ts, After s s' → s'.types = .ok ts → ∀ t ∈ ts, ValidUtf8 t
  formats : ∀ s' ts, After s s' → s'.formats = .ok ts → ∀ t ∈ ts, ValidUtf8 t

/-- Where no separators are put into text that is not ASCII, Strings gives valid text. -/
def StringsValid (ext : Ext) (s : Sheet) : Prop :=
  ∀ s' cs ss, After s s' → s'.raw = .ok cs →
    (∀ c ∈ cs, ∀ t, c.value = .str t → AsciiOnly t ∨ NoSeparator (s.fmtr.get c.formatNo).1) →
    s'.strings ext = .ok ss → ∀ t ∈ ss, ValidUtf8 t

/-- The class ID of file monikers ([MS-OSHARED] 2.3.7.8), in which paths are in the code page of the author. -/
def fileMonikerId : Bytes :=
  [0x03, 0x03, 0x00, 0x00, 0x00, 0x00, 0x00, 0x00, 0xC0, 0x00, 0x00, 0x00, 0x00, 0x00, 0x00, 0x46]

/-- The records of a substream hold no 8-bit text that is copied without being converted: the results of formulas in
8-bit form (records 519 and the 60 after them) are valid UTF-8 themselves, and links (440) are not to files. -/
structure NoCodePage (rs : List Record) : Prop where
  text : ∀ pre r post, rs = pre ++ r :: post → r.type = 519 → ∀ flags, r.data[2]? = some flags → flags.toNat % 2 = 0 →
    ValidUtf8 (r.data.drop 3)
  more : ∀ pre r cont c post, rs = pre ++ r :: (cont ++ c :: post) → r.type = 519 → (∀ x ∈ cont, x.type = 60) → c.type = 60 →
    ∀ flags, c.data[0]? = some flags → flags.toNat % 2 = 0 → ValidUtf8 (c.data.drop 1)
  link : ∀ r ∈ rs, r.type = 440 → ¬ fileMonikerId <:+: r.data

end Grate.Spec
