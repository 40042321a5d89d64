import Verif.Model.Unicode
import Verif.Model.XlsxRefs

/-! # The XML tokenizer: `encoding/xml` (standard library), as `/repo/xlsx` uses it

`/repo/xlsx` reads its parts with `(*xml.Decoder).RawToken` of a decoder made by `xml.NewDecoder`
(`/repo/xlsx/xlsx.go:145`, `/repo/xlsx/sheets.go:40,63`, `/repo/xlsx/workbook.go:16,60,109,186`): strict, without
entities and without a `CharsetReader`. The functions of that package are modelled here one by one, on the bytes of the
part and the error `fin` at their end (`io.EOF`, or the error of the reader). All syntax errors are the same error.
Positions (`InputOffset`) and the contents of comments, directives and processing instructions are left out: nothing in
`/repo/xlsx` looks at them. -/

namespace Grate.Xlsx

open Grate

/-- Tables of the package for characters from U+0080 on in names, and what it does with names with more than one colon
or a colon at their beginning or end (this differs between versions): the local name, or an error. -/
structure XmlTables where
  first : Nat → Bool
  second : Nat → Bool
  oddName : Bytes → Option Bytes

/-- `(*Decoder).syntaxError` -/
def xmlSyntax : GoErr := .msg "XML syntax error"

/-- `(*Decoder).mustgetc` at the end of the input. -/
def endErr (fin : GoErr) : GoErr :=
  match fin with
  | .eof => xmlSyntax
  | e => e

/-! ### Characters -/

/-- `isInCharacterRange` -/
def inCharRange (r : Nat) : Bool :=
  r = 0x09 || r = 0x0A || r = 0x0D || (0x20 ≤ r && r ≤ 0xD7FF) || (0xE000 ≤ r && r ≤ 0xFFFD) ||
    (0x10000 ≤ r && r ≤ 0x10FFFF)

/-- The inspection of each rune at the end of `(*Decoder).text`; `skip` bytes are left of the current rune. -/
def charsOk : Nat → Bytes → Bool
  | _, [] => true
  | k + 1, _ :: rest => charsOk k rest
  | 0, b :: rest =>
    !((decodeRune b rest).1 = 0xFFFD && (decodeRune b rest).2 = 1) && inCharRange (decodeRune b rest).1 &&
      charsOk ((decodeRune b rest).2 - 1) rest

/-! ### Names -/

/-- `isNameByte` -/
def isNameByte (c : UInt8) : Bool :=
  inRange 65 90 c || inRange 97 122 c || inRange 48 57 c || c = 95 || c = 58 || c = 46 || c = 45

/-- The bytes `(*Decoder).readName` goes over. -/
def nameish (c : UInt8) : Bool := 0x80 ≤ c || isNameByte c

/-- `unicode.Is(first, c)` -/
def isFirst (T : XmlTables) (c : Nat) : Bool :=
  if c < 0x80 then c = 58 || (65 ≤ c && c ≤ 90) || c = 95 || (97 ≤ c && c ≤ 122) else T.first c

/-- `unicode.Is(second, c)` -/
def isSecond (T : XmlTables) (c : Nat) : Bool :=
  if c < 0x80 then c = 45 || c = 46 || (48 ≤ c && c ≤ 57) else T.second c

/-- The loop of `isName`; `skip` bytes are left of the current rune. -/
def isNameTail (T : XmlTables) : Nat → Bytes → Bool
  | _, [] => true
  | k + 1, _ :: rest => isNameTail T k rest
  | 0, b :: rest =>
    !((decodeRune b rest).1 = 0xFFFD && (decodeRune b rest).2 = 1) &&
      (isFirst T (decodeRune b rest).1 || isSecond T (decodeRune b rest).1) && isNameTail T ((decodeRune b rest).2 - 1) rest

/-- `isName` -/
def isName (T : XmlTables) : Bytes → Bool
  | [] => false
  | b :: rest =>
    !((decodeRune b rest).1 = 0xFFFD && (decodeRune b rest).2 = 1) && isFirst T (decodeRune b rest).1 &&
      isNameTail T ((decodeRune b rest).2 - 1) rest

/-- `(*Decoder).name`, with `readName`; no name is a syntax error for all callers. -/
def xmlName (T : XmlTables) (fin : GoErr) (bs : Bytes) : Except GoErr (Bytes × Bytes) :=
  match bs with
  | [] => .error (endErr fin)
  | b :: _ =>
    if nameish b then
      match bs.dropWhile nameish with
      | [] => .error (endErr fin)
      | rest => if isName T (bs.takeWhile nameish) then .ok (bs.takeWhile nameish, rest) else .error xmlSyntax
    else .error xmlSyntax

/-- The local name in `(*Decoder).nsname`. -/
def localName (T : XmlTables) (s : Bytes) : Option Bytes :=
  match splitByte 58 s with
  | [l] => some l
  | [p, l] => if p = [] ∨ l = [] then T.oddName s else some l
  | _ => T.oddName s

/-- `(*Decoder).nsname`: the local name. -/
def xmlNsName (T : XmlTables) (fin : GoErr) (bs : Bytes) : Except GoErr (Bytes × Bytes) :=
  match xmlName T fin bs with
  | .error e => .error e
  | .ok (s, rest) =>
    match localName T s with
    | some l => .ok (l, rest)
    | none => .error xmlSyntax

/-- The bytes `(*Decoder).space` goes over. -/
def isXmlSpace (b : UInt8) : Bool := b = 32 || b = 13 || b = 10 || b = 9

/-- `(*Decoder).space` -/
def xmlSpace (bs : Bytes) : Bytes := bs.dropWhile isXmlSpace

/-! ### Text -/

/-- May the byte continue a reference, after `e` behind the `&`? -/
def entByte (e : Bytes) (b : UInt8) : Bool :=
  match e with
  | [] => b = 35 || nameish b
  | [35] => b = 120 || inRange 48 57 b
  | 35 :: 120 :: _ => inRange 48 57 b || inRange 97 102 b || inRange 65 70 b
  | 35 :: _ => inRange 48 57 b
  | _ => nameish b

/-- A digit of `strconv.ParseUint`. -/
def hexVal (b : UInt8) : Nat :=
  if b ≤ 57 then b.toNat - 48 else if b ≤ 70 then b.toNat - 55 else b.toNat - 87

/-- `strconv.ParseUint(s, base, 64)` of digits, without the limit of 64 bits. -/
def uintVal (base : Nat) (ds : Bytes) : Nat := ds.foldl (fun n b => n * base + hexVal b) 0

/-- The text of a reference by number. -/
def charRef (base : Nat) (ds : Bytes) : Option Bytes :=
  if ds ≠ [] ∧ uintVal base ds ≤ 0x10FFFF then some (utf8Rune (uintVal base ds)) else none

/-- The text of a reference: by number, or one of the five names in `entity`. -/
def entText (e : Bytes) : Option Bytes :=
  match e with
  | 35 :: 120 :: ds => charRef 16 ds
  | 35 :: ds => charRef 10 ds
  | _ =>
    if e = lit "lt" then some [60]
    else if e = lit "gt" then some [62]
    else if e = lit "amp" then some [38]
    else if e = lit "apos" then some [39]
    else if e = lit "quot" then some [34]
    else none

/-- The loop of `(*Decoder).text`: `q` is the quote of an attribute value, `ent` what was read of a reference, `b0` and
`b1` are the last two bytes, `buf` the text so far. The text and the input after it. -/
def textLoop (fin : GoErr) (q : Option UInt8) (cdata : Bool) :
    Bytes → Option Bytes → UInt8 → UInt8 → Bytes → Except GoErr (Bytes × Bytes)
  | [], none, _, _, buf => if cdata then .error (endErr fin) else .ok (buf, [])
  | [], some _, _, _, _ => .error (endErr fin)
  | b :: rest, some e, _, _, buf =>
    if entByte e b then textLoop fin q cdata rest (some (e ++ [b])) 0 0 buf
    else if b = 59 then
      match entText e with
      | some t => textLoop fin q cdata rest none 0 0 (buf ++ t)
      | none => .error xmlSyntax
    else .error xmlSyntax
  | b :: rest, none, b0, b1, buf =>
    if q = none ∧ b0 = 93 ∧ b1 = 93 ∧ b = 62 then
      if cdata then .ok (buf.take (buf.length - 2), rest) else .error xmlSyntax
    else if b = 60 ∧ cdata = false then
      if q = none then .ok (buf, b :: rest) else .error xmlSyntax
    else if q = some b then .ok (buf, rest)
    else if b = 38 ∧ cdata = false then textLoop fin q cdata rest (some []) 0 0 buf
    else if b = 13 then textLoop fin q cdata rest none b1 b (buf ++ [10])
    else if b1 = 13 ∧ b = 10 then textLoop fin q cdata rest none b1 b buf
    else textLoop fin q cdata rest none b1 b (buf ++ [b])

/-- `(*Decoder).text` -/
def xmlText (fin : GoErr) (q : Option UInt8) (cdata : Bool) (bs : Bytes) : Except GoErr (Bytes × Bytes) :=
  match textLoop fin q cdata bs none 0 0 [] with
  | .error e => .error e
  | .ok (data, rest) => if charsOk 0 data then .ok (data, rest) else .error xmlSyntax

/-! ### Processing instructions, comments and directives -/

/-- The loop for a processing instruction: its data, without `?>`. -/
def piLoop (fin : GoErr) : Bytes → UInt8 → Bytes → Except GoErr (Bytes × Bytes)
  | [], _, _ => .error (endErr fin)
  | b :: rest, b0, buf =>
    if b0 = 63 ∧ b = 62 then .ok (buf.dropLast, rest) else piLoop fin rest b (buf ++ [b])

/-- The text after the first occurrence of a word. -/
def afterWord (w : Bytes) : Bytes → Option Bytes
  | [] => if w = [] then some [] else none
  | b :: rest => if w.isPrefixOf (b :: rest) then some ((b :: rest).drop w.length) else afterWord w rest

/-- `procInst` -/
def procInst (param s : Bytes) : Bytes :=
  match afterWord (param ++ [61]) s with
  | some (q :: v) =>
    if (q = 39 ∨ q = 34) ∧ q ∈ v then v.takeWhile (· != q) else []
  | _ => []

/-- `strings.EqualFold(enc, "utf-8")` on bytes (no other characters fold to these letters). -/
def foldsUtf8 (enc : Bytes) : Bool := enc.map (fun b => if inRange 65 90 b then b + 32 else b) = lit "utf-8"

/-- The version and the encoding of an XML declaration. -/
def declOk (data : Bytes) : Bool :=
  (procInst (lit "version") data = [] || procInst (lit "version") data = lit "1.0") &&
    (procInst (lit "encoding") data = [] || foldsUtf8 (procInst (lit "encoding") data))

/-- A processing instruction, after `<?`. -/
def xmlProcInst (T : XmlTables) (fin : GoErr) (bs : Bytes) : Except GoErr Bytes :=
  match xmlName T fin bs with
  | .error e => .error e
  | .ok (target, rest) =>
    match piLoop fin (xmlSpace rest) 0 [] with
    | .error e => .error e
    | .ok (data, rest) => if target = lit "xml" ∧ declOk data = false then .error (.msg "xml: declaration") else .ok rest

/-- A comment, after `<!--`. -/
def commentLoop (fin : GoErr) : Bytes → UInt8 → UInt8 → Except GoErr Bytes
  | [], _, _ => .error (endErr fin)
  | b :: rest, b0, b1 =>
    if b0 = 45 ∧ b1 = 45 then
      if b = 62 then .ok rest else .error xmlSyntax
    else commentLoop fin rest b1 b

/-- Where the loop over a directive is. -/
inductive DirMode where
  | plain
  /-- after `<` and so many bytes of `!--` -/
  | open (n : Nat)
  /-- in a comment, with the last two bytes -/
  | comment (b0 b1 : UInt8)

/-- A byte of a directive, from the label HandleB on: mode, quote and depth. -/
def dirByte (b : UInt8) (q : Option UInt8) (depth : Nat) : DirMode × Option UInt8 × Nat :=
  if q = some b then (.plain, none, depth)
  else if q ≠ none then (.plain, q, depth)
  else if b = 39 ∨ b = 34 then (.plain, some b, depth)
  else if b = 62 then (.plain, q, depth - 1)
  else if b = 60 then (.open 0, q, depth)
  else (.plain, q, depth)

/-- A directive, after `<!` and its first byte. -/
def dirLoop (fin : GoErr) : Bytes → DirMode → Option UInt8 → Nat → Except GoErr Bytes
  | [], _, _, _ => .error (endErr fin)
  | b :: rest, .plain, q, depth =>
    if q = none ∧ b = 62 ∧ depth = 0 then .ok rest
    else dirLoop fin rest (dirByte b q depth).1 (dirByte b q depth).2.1 (dirByte b q depth).2.2
  | b :: rest, .open n, q, depth =>
    if (lit "!--")[n]? = some b then dirLoop fin rest (if n = 2 then .comment 0 0 else .open (n + 1)) q depth
    else dirLoop fin rest (dirByte b q (depth + 1)).1 (dirByte b q (depth + 1)).2.1 (dirByte b q (depth + 1)).2.2
  | b :: rest, .comment b0 b1, q, depth =>
    if b0 = 45 ∧ b1 = 45 ∧ b = 62 then dirLoop fin rest .plain q depth else dirLoop fin rest (.comment b1 b) q depth

/-! ### Elements -/

/-- The attributes of an element, up to its end: also whether the element is empty. `n` bounds the number of
attributes; the length of the input is enough. -/
def attrsLoop (T : XmlTables) (fin : GoErr) : Nat → Bytes → List (Bytes × Bytes) →
    Except GoErr (List (Bytes × Bytes) × Bool × Bytes)
  | 0, _, _ => .error (.msg "out of steps")
  | n + 1, bs, attrs =>
    match xmlSpace bs with
    | [] => .error (endErr fin)
    | b :: rest =>
      if b = 47 then
        match rest with
        | [] => .error (endErr fin)
        | c :: rest => if c = 62 then .ok (attrs, true, rest) else .error xmlSyntax
      else if b = 62 then .ok (attrs, false, rest)
      else
        match xmlNsName T fin (b :: rest) with
        | .error e => .error e
        | .ok (k, rest) =>
          match xmlSpace rest with
          | [] => .error (endErr fin)
          | e :: rest =>
            if e ≠ 61 then .error xmlSyntax
            else
              match xmlSpace rest with
              | [] => .error (endErr fin)
              | q :: rest =>
                if q = 34 ∨ q = 39 then
                  match xmlText fin (some q) false rest with
                  | .error e => .error e
                  | .ok (v, rest) => attrsLoop T fin n rest (attrs ++ [(k, v)])
                else .error xmlSyntax

/-- A start element, after `<`: its token, and that of its end if it is empty. -/
def xmlStart (T : XmlTables) (fin : GoErr) (bs : Bytes) : Except GoErr (List Tok × Bytes) :=
  match xmlNsName T fin bs with
  | .error e => .error e
  | .ok (name, rest) =>
    match attrsLoop T fin (rest.length + 1) rest [] with
    | .error e => .error e
    | .ok (attrs, empty, rest) => .ok (if empty then [.start name attrs, .stop name] else [.start name attrs], rest)

/-- An end element, after `</`. -/
def xmlStop (T : XmlTables) (fin : GoErr) (bs : Bytes) : Except GoErr (List Tok × Bytes) :=
  match xmlNsName T fin bs with
  | .error e => .error e
  | .ok (name, rest) =>
    match xmlSpace rest with
    | [] => .error (endErr fin)
    | b :: rest => if b = 62 then .ok ([.stop name], rest) else .error xmlSyntax

/-- What follows `<!`. -/
def xmlBang (fin : GoErr) (bs : Bytes) : Except GoErr (List Tok × Bytes) :=
  match bs with
  | [] => .error (endErr fin)
  | 45 :: [] => .error (endErr fin)
  | 45 :: c :: rest =>
    if c = 45 then
      match commentLoop fin rest 0 0 with
      | .error e => .error e
      | .ok rest => .ok ([.other], rest)
    else .error xmlSyntax
  | 91 :: rest =>
    if (lit "CDATA[").isPrefixOf rest then
      match xmlText fin none true (rest.drop 6) with
      | .error e => .error e
      | .ok (t, rest) => .ok ([.chars t], rest)
    else if rest.isPrefixOf (lit "CDATA[") then .error (endErr fin)
    else .error xmlSyntax
  | _ :: rest =>
    match dirLoop fin rest .plain none 0 with
    | .error e => .error e
    | .ok rest => .ok ([.other], rest)

/-- `(*Decoder).rawToken`; the token after that of an empty element comes with it. The input is not at its end. -/
def rawToken (T : XmlTables) (fin : GoErr) (bs : Bytes) : Except GoErr (List Tok × Bytes) :=
  match bs with
  | 60 :: [] => .error (endErr fin)
  | 60 :: 47 :: rest => xmlStop T fin rest
  | 60 :: 63 :: rest =>
    match xmlProcInst T fin rest with
    | .error e => .error e
    | .ok rest => .ok ([.other], rest)
  | 60 :: 33 :: rest => xmlBang fin rest
  | 60 :: rest => xmlStart T fin rest
  | bs =>
    match xmlText fin none false bs with
    | .error e => .error e
    | .ok (t, rest) => .ok ([.chars t], rest)

/-- The tokens of a part and the error after them, as the loops of `/repo/xlsx` read them. `n` bounds their number; the
length of the input is enough (`xmlTokens_enough`). -/
def xmlTokens (T : XmlTables) (fin : GoErr) : Nat → Bytes → List Tok × GoErr
  | 0, _ => ([], .msg "out of steps")
  | _ + 1, [] => ([], fin)
  | n + 1, b :: rest =>
    match rawToken T fin (b :: rest) with
    | .error e => ([], e)
    | .ok (ts, rest) => (ts ++ (xmlTokens T fin n rest).1, (xmlTokens T fin n rest).2)

/-- A part from its bytes, and the error of the reader at their end. -/
def xmlPart (T : XmlTables) (bs : Bytes) (fin : GoErr) : Part :=
  ⟨(xmlTokens T fin (bs.length + 1) bs).1, (xmlTokens T fin (bs.length + 1) bs).2⟩

/-- An archive with the bytes of its parts. -/
abbrev Files := List (Bytes × Except GoErr (Bytes × GoErr))

/-- The archive of tokens. -/
def Files.archive (T : XmlTables) (z : Files) : List (Bytes × Except GoErr Part) :=
  z.map (fun e => (e.1, e.2.map (fun c => xmlPart T c.1 c.2)))

end Grate.Xlsx
