import Verif.Model.Tokens
import Verif.Spec.Decimal
import Verif.Spec.Utf16

/-! # Specification: XML documents (XML 1.0, Namespaces in XML), independent of the models

The ways to write a sequence of tokens as a text in UTF-8. Names are those of ASCII letters, digits and marks; document
type declarations, which Office Open XML forbids, are left out. -/

namespace Grate.Spec

open Grate Grate.Xlsx

/-- XML characters (2.2). -/
def XmlChar (r : Nat) : Prop :=
  r = 9 ∨ r = 10 ∨ r = 13 ∨ (0x20 ≤ r ∧ r ≤ 0xD7FF) ∨ (0xE000 ≤ r ∧ r ≤ 0xFFFD) ∨ (0x10000 ≤ r ∧ r ≤ 0x10FFFF)

/-- White space (2.3). -/
def XmlWhite (s : Bytes) : Prop := ∀ b ∈ s, b = 32 ∨ b = 9 ∨ b = 10 ∨ b = 13

/-- Letters. -/
def Letter (b : UInt8) : Prop := (65 ≤ b ∧ b ≤ 90) ∨ (97 ≤ b ∧ b ≤ 122) ∨ b = 95

/-- Names without colons (Namespaces, 3). -/
def NcName (s : Bytes) : Prop :=
  ∃ c t, s = c :: t ∧ Letter c ∧ ∀ b ∈ t, Letter b ∨ (48 ≤ b ∧ b ≤ 57) ∨ b = 45 ∨ b = 46

/-- A qualified name (Namespaces, 4): its local part, alone or with a prefix. -/
def QName (l w : Bytes) : Prop := NcName l ∧ (w = l ∨ ∃ p, NcName p ∧ w = p ++ 58 :: l)

/-- Hexadecimal digits. -/
def hexDigitVal (b : UInt8) : Option Nat :=
  if 48 ≤ b ∧ b ≤ 57 then some (b.toNat - 48)
  else if 65 ≤ b ∧ b ≤ 70 then some (b.toNat - 55)
  else if 97 ≤ b ∧ b ≤ 102 then some (b.toNat - 87)
  else none

/-- Hexadecimal numerals. -/
inductive HexNum : Bytes → Nat → Prop
  | one (b : UInt8) (d : Nat) : hexDigitVal b = some d → HexNum [b] d
  | more (s : Bytes) (n : Nat) (b : UInt8) (d : Nat) : HexNum s n → hexDigitVal b = some d → HexNum (s ++ [b]) (16 * n + d)

/-- References to a character (4.1, 4.6). -/
inductive Reference : Nat → Bytes → Prop
  | lt : Reference 60 (lit "&lt;")
  | gt : Reference 62 (lit "&gt;")
  | amp : Reference 38 (lit "&amp;")
  | apos : Reference 39 (lit "&apos;")
  | quot : Reference 34 (lit "&quot;")
  | dec (ds : Bytes) : IsDigits ds → Reference (digitsVal ds) (lit "&#" ++ ds ++ [59])
  | hex (ds : Bytes) (n : Nat) : HexNum ds n → Reference n (lit "&#x" ++ ds ++ [59])

/-- Ways to write a text: characters as they are, as references, or, where `nl` holds, ends of lines as CR LF or CR
(2.11). -/
inductive Written (plain : Nat → Prop) (refs nl : Prop) : List Nat → Bytes → Prop
  | nil : Written plain refs nl [] []
  | char (c : Nat) (cs : List Nat) (bs : Bytes) : XmlChar c → plain c → Written plain refs nl cs bs →
      Written plain refs nl (c :: cs) (utf8 [c] ++ bs)
  | ref (c : Nat) (w : Bytes) (cs : List Nat) (bs : Bytes) : refs → XmlChar c → Reference c w → Written plain refs nl cs bs →
      Written plain refs nl (c :: cs) (w ++ bs)
  | crlf (cs : List Nat) (bs : Bytes) : nl → Written plain refs nl cs bs → Written plain refs nl (10 :: cs) (13 :: 10 :: bs)
  | cr (cs : List Nat) (bs : Bytes) : nl → bs.head? ≠ some 10 → Written plain refs nl cs bs →
      Written plain refs nl (10 :: cs) (13 :: bs)

/-- The end of a CDATA section does not occur. -/
def NoCdEnd (s : Bytes) : Prop := ¬ lit "]]>" <:+: s

/-- The text of an element (2.4). -/
def XmlContent (cs : List Nat) (raw : Bytes) : Prop :=
  Written (fun c => c ≠ 13 ∧ c ≠ 38 ∧ c ≠ 60) True True cs raw ∧ NoCdEnd raw

/-- The text of a CDATA section (2.7). -/
def CdText (cs : List Nat) (raw : Bytes) : Prop :=
  Written (fun c => c ≠ 13) False True cs raw ∧ NoCdEnd raw

/-- An attribute value in quotes (2.3): tabs and ends of lines are written as references. -/
def AttrText (q : UInt8) (cs : List Nat) (raw : Bytes) : Prop :=
  Written (fun c => c ≠ 9 ∧ c ≠ 10 ∧ c ≠ 13 ∧ c ≠ 38 ∧ c ≠ 60 ∧ c ≠ q.toNat) True False cs raw

/-- Attributes, with white space before each. -/
inductive Attributes : List (Bytes × Bytes) → Bytes → Prop
  | nil : Attributes [] []
  | cons (k w sp s1 s2 : Bytes) (q : UInt8) (cs : List Nat) (raw : Bytes) (as : List (Bytes × Bytes)) (bs : Bytes) :
      QName k w → XmlWhite sp → sp ≠ [] → XmlWhite s1 → XmlWhite s2 → q = 34 ∨ q = 39 → AttrText q cs raw →
      Attributes as bs → Attributes ((k, utf8 cs) :: as) (sp ++ w ++ s1 ++ 61 :: s2 ++ q :: raw ++ q :: bs)

/-- `name = "value"` in a declaration. -/
def DeclField (name value s : Bytes) : Prop :=
  ∃ sp s1 s2 q, XmlWhite sp ∧ sp ≠ [] ∧ XmlWhite s1 ∧ XmlWhite s2 ∧ (q = 34 ∨ q = 39) ∧
    s = sp ++ name ++ s1 ++ 61 :: s2 ++ q :: value ++ [q]

/-- The name of the encoding, in letters of any case. -/
def IsUtf8Name (e : Bytes) : Prop :=
  ∃ u t f, (u = 85 ∨ u = 117) ∧ (t = 84 ∨ t = 116) ∧ (f = 70 ∨ f = 102) ∧ e = [u, t, f, 45, 56]

/-- An XML declaration (2.8) after `<?xml`: version 1.0, UTF-8. -/
def XmlDecl (s : Bytes) : Prop :=
  ∃ v e a sp, DeclField (lit "version") (lit "1.0") v ∧ (e = [] ∨ ∃ n, IsUtf8Name n ∧ DeclField (lit "encoding") n e) ∧
    (a = [] ∨ DeclField (lit "standalone") (lit "yes") a ∨ DeclField (lit "standalone") (lit "no") a) ∧ XmlWhite sp ∧
    s = v ++ e ++ a ++ sp

/-- The text of a sequence of tokens. -/
inductive XmlText : List Tok → Bytes → Prop
  | nil : XmlText [] []
  | start (n w sp ab : Bytes) (as : List (Bytes × Bytes)) (ts : List Tok) (bs : Bytes) : QName n w → Attributes as ab →
      XmlWhite sp → XmlText ts bs → XmlText (.start n as :: ts) (60 :: w ++ ab ++ sp ++ 62 :: bs)
  | empty (n w sp ab : Bytes) (as : List (Bytes × Bytes)) (ts : List Tok) (bs : Bytes) : QName n w → Attributes as ab →
      XmlWhite sp → XmlText ts bs → XmlText (.start n as :: .stop n :: ts) (60 :: w ++ ab ++ sp ++ 47 :: 62 :: bs)
  | stop (n w sp : Bytes) (ts : List Tok) (bs : Bytes) : QName n w → XmlWhite sp → XmlText ts bs →
      XmlText (.stop n :: ts) (60 :: 47 :: w ++ sp ++ 62 :: bs)
  /-- a text, up to the next markup -/
  | text (cs : List Nat) (raw : Bytes) (ts : List Tok) (bs : Bytes) : XmlContent cs raw → cs ≠ [] →
      (bs = [] ∨ bs.head? = some 60) → XmlText ts bs → XmlText (.chars (utf8 cs) :: ts) (raw ++ bs)
  | cdata (cs : List Nat) (raw : Bytes) (ts : List Tok) (bs : Bytes) : CdText cs raw → XmlText ts bs →
      XmlText (.chars (utf8 cs) :: ts) (lit "<![CDATA[" ++ raw ++ lit "]]>" ++ bs)
  /-- a comment (2.5) -/
  | comment (c : Bytes) (ts : List Tok) (bs : Bytes) : ¬ lit "--" <:+: c ++ [45] → XmlText ts bs →
      XmlText (.other :: ts) (lit "<!--" ++ c ++ lit "-->" ++ bs)
  | declaration (d : Bytes) (ts : List Tok) (bs : Bytes) : XmlDecl d → XmlText ts bs →
      XmlText (.other :: ts) (lit "<?xml" ++ d ++ lit "?>" ++ bs)
  /-- a processing instruction (2.6) -/
  | instruction (n d sp : Bytes) (ts : List Tok) (bs : Bytes) : NcName n → n ≠ lit "xml" → XmlWhite sp →
      (d = [] ∨ sp ≠ []) → ¬ lit "?>" <:+: d → XmlText ts bs →
      XmlText (.other :: ts) (lit "<?" ++ n ++ sp ++ d ++ lit "?>" ++ bs)

/-- The archive has a part with the text, complete and readable; the first entry with its name counts. -/
def HasBytes (z : List (Bytes × Except GoErr (Bytes × GoErr))) (name bs : Bytes) : Prop :=
  ∃ before after, z = before ++ (name, .ok (bs, .eof)) :: after ∧ ∀ e ∈ before, e.1 ≠ name

end Grate.Spec
