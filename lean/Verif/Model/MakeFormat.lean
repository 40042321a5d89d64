import Verif.Model.Format

/-! # Model of `makeFormatter`, `/repo/commonxl/formats.go:66-196`

The regular expressions are written out as functions on bytes, following the leftmost-first matching of
Go's `regexp`. `.` matches any character except a newline; a character is a UTF-8 sequence, and a byte
that does not begin one counts as a character. -/

namespace Grate

/-- Removes every span from `o` to the next `c`: `ReplaceAllString(s, "")` for the expressions
`\[[^\]]*\]` and `"[^"]*"`, `/repo/commonxl/formats.go:72-73`. `some buf` is the text since an opening
byte that may still turn out to have no closing byte. -/
def dropSpansGo (o c : UInt8) : Option Bytes → Bytes → Bytes
  | none, [] => []
  | some buf, [] => o :: buf
  | none, b :: bs => if b == o then dropSpansGo o c (some []) bs else b :: dropSpansGo o c none bs
  | some buf, b :: bs =>
    if b == c then dropSpansGo o c none bs else dropSpansGo o c (some (buf ++ [b])) bs

/-- `ReplaceAllString(s, "")` for a pair of brackets or quotes. -/
def dropSpans (o c : UInt8) (s : Bytes) : Bytes := dropSpansGo o c none s

/-- Number of bytes of the first character of a non-empty string (`utf8.DecodeRuneInString`). -/
def runeLen : Bytes → Nat
  | [] => 0
  | a :: s =>
    let cont := fun (i : Nat) (lo hi : UInt8) =>
      match s[i]? with
      | some b => lo ≤ b && b ≤ hi
      | none => false
    if 0xC2 ≤ a && a ≤ 0xDF then if cont 0 0x80 0xBF then 2 else 1
    else if 0xE0 ≤ a && a ≤ 0xEF then
      if cont 0 (if a == 0xE0 then 0xA0 else 0x80) (if a == 0xED then 0x9F else 0xBF) && cont 1 0x80 0xBF then 3 else 1
    else if 0xF0 ≤ a && a ≤ 0xF4 then
      if cont 0 (if a == 0xF0 then 0x90 else 0x80) (if a == 0xF4 then 0x8F else 0xBF) && cont 1 0x80 0xBF &&
        cont 2 0x80 0xBF then 4 else 1
    else 1

/-- `nonEsc.ReplaceAllString(s, "$1")` with ``([^"]|^)"``, `/repo/commonxl/formats.go:68`: a quote goes
if it is the first byte or follows a byte that is not a quote. -/
def unquoteGo : Bool → Bytes → Bytes
  | _, [] => []
  | prevQuote, b :: bs =>
    if b == 34 && !prevQuote then unquoteGo true bs else b :: unquoteGo (b == 34) bs

/-- `squash.ReplaceAllString(s, "")` with `[*_].`, `/repo/commonxl/formats.go:69`; the number counts the
bytes of the current match still to be dropped. -/
def squashGo : Nat → Bytes → Bytes
  | _, [] => []
  | k + 1, _ :: bs => squashGo k bs
  | 0, b :: bs =>
    if (b == 42 || b == 95) && (match bs with | [] => false | d :: _ => d != 10) then squashGo (runeLen bs) bs
    else b :: squashGo 0 bs

/-- `fixEsc.ReplaceAllString(s, "$1")` with `\\(.)`, `/repo/commonxl/formats.go:70`; the flag says that
the byte is the one kept after a backslash. -/
def unescapeGo : Bool → Bytes → Bytes
  | _, [] => []
  | true, b :: bs => b :: unescapeGo false bs
  | false, b :: bs =>
    if b == 92 && (match bs with | [] => false | d :: _ => d != 10) then unescapeGo true bs
    else b :: unescapeGo false bs

/-- The three replacements made on literal text, `/repo/commonxl/formats.go:122-124`, `175-177`, `187-189`. -/
def cleanText (s : Bytes) : Bytes := unescapeGo false (squashGo 0 (unquoteGo false s))

/-- `strings.Contains(s, old)`. -/
def hasSub (old : Bytes) : Bytes → Bool
  | [] => old == []
  | c :: cs => old.isPrefixOf (c :: cs) || hasSub old cs

/-- `strings.ContainsAny(s, chars)` for ASCII `chars`. -/
def hasAny (chars s : Bytes) : Bool := s.any (fun b => chars.contains b)

/-- `minsMatch.FindStringIndex(s)` with `h.*m.*s`, `/repo/commonxl/formats.go:67`: the text before, in and
after the match. It begins at the first `h` with an `m` and then an `s` after it on its line, and ends
with the last `s` of that line. -/
def minsSplit : Bytes → Option (Bytes × Bytes × Bytes)
  | [] => none
  | c :: cs =>
    let line := cs.takeWhile (· != 10)
    let fromM := line.dropWhile (· != 109)
    if c == 104 && fromM.contains 115 then
      let tail := (line.reverse.takeWhile (· != 115)).reverse
      let n := line.length - tail.length
      some ([], c :: cs.take n, cs.drop n)
    else
      match minsSplit cs with
      | none => none
      | some (p, i, q) => some (c :: p, i, q)

/-- The replacements of `/repo/commonxl/formats.go:104-117`, with the hour fields given. -/
def dateReps (hh h : Bytes) : List (Bytes × Bytes) :=
  [(lit "hh", hh), (lit "h", h), (lit "ss", lit "05"), (lit "s", lit "5"),
   (lit "mmmmm", lit "Jan"), (lit "mmmm", lit "January"), (lit "mmm", lit "Jan"), (lit "mm", lit "01"),
   (lit "m", lit "1"), (lit "dddd", lit "Monday"), (lit "ddd", lit "Mon"), (lit "dd", lit "02"), (lit "d", lit "2"),
   (lit "yyyy", lit "2006"), (lit "yy", lit "06")]

/-- The layout of a date format, `/repo/commonxl/formats.go:97-124`. -/
def dateLayout (s : Bytes) : Bytes :=
  let s :=
    match minsSplit s with
    | none => s
    | some (p, i, q) => p ++ replaceOnce (lit "m") (lit "4") (replaceOnce (lit "mm") (lit "04") i) ++ q
  let ampm := hasSub (lit "AM") s || hasSub (lit "PM") s
  let reps := if ampm then dateReps (lit "03") (lit "3") else dateReps (lit "15") (lit "15")
  cleanText (reps.foldl (fun s r => replaceOnce r.1 r.2 s) s)

/-- The rest of the string after a match of `[eE]+[+-]0+` at its beginning, `/repo/commonxl/formats.go:137`. -/
def expRest (s : Bytes) : Option Bytes :=
  match s.dropWhile (fun b => b == 101 || b == 69) with
  | sg :: z :: rest =>
    if (match s with | b :: _ => b == 101 || b == 69 | [] => false) && (sg == 43 || sg == 45) && z == 48 then
      some (rest.dropWhile (· == 48))
    else none
  | _ => none

/-- `ReplaceAllString(s, "")` for `[eE]+[+-]0+` (fuel: the string gets shorter). -/
def dropExp : Nat → Bytes → Bytes
  | 0, s => s
  | _ + 1, [] => []
  | n + 1, c :: cs =>
    match expRest (c :: cs) with
    | some r => dropExp n r
    | none => c :: dropExp n cs

/-- `strings.IndexAny(s, "0")`, `strings.IndexByte(s, '.')`: the first index, or -1. -/
def firstIndex (p : UInt8 → Bool) (s : Bytes) : Int :=
  match s.findIdx? p with
  | some i => i
  | none => -1

/-- `strings.LastIndexAny`: the last index, or -1. -/
def lastIndex (p : UInt8 → Bool) (s : Bytes) : Int :=
  match s.reverse.findIdx? p with
  | some i => (s.length : Int) - 1 - i
  | none => -1

/-- `mul` of `/repo/commonxl/formats.go:142-145` and `154-157`. -/
def percentMul (s : Bytes) : Nat := if s.contains 37 then 100 else 1

/-- `surReg.Split(s, 2)` with `[0#?,.]+`, `/repo/commonxl/formats.go:172-173`: the text around the first
run of digit placeholders, or `none` if there is no such run. -/
def splitDigits (s : Bytes) : Option (Bytes × Bytes) :=
  let isP : UInt8 → Bool := fun b => b == 48 || b == 35 || b == 63 || b == 44 || b == 46
  if s.any isP then
    some (s.takeWhile (fun b => !isP b), (s.dropWhile (fun b => !isP b)).dropWhile isP)
  else none

/-- The printing function and type of a number format, `/repo/commonxl/formats.go:130-165`; also the
format without its exponent. -/
def numberFmt (s : Bytes) : Bytes × Fmt × CellType :=
  if hasAny (lit ".Ee") s then
    let verb := if hasAny (lit "Ee") s then lit "E" else lit "f"
    let s := dropExp s.length s
    let s2 := s.filter (· != 44)
    let i1 := firstIndex (· == 48) s2
    let i2 := firstIndex (· == 46) s2
    let i3 := lastIndex (fun b => b == 48 || b == 46) s2
    (s, .sprintf (.f (37 :: decInt (i3 - i1) ++ 46 :: decInt (i3 - i2) ++ verb)) (percentMul s2), .float)
  else
    let s2 := s.filter (· != 44)
    let i1 := firstIndex (· == 48) s2
    let i2 := lastIndex (fun b => b == 48 || b == 46) s2
    -- both indexes are those of zeros (there is no point), so the width is not negative
    (s, .sprintf (.d (i2 - i1).toNat []) (percentMul s2), .integer)

/-- `makeFormatter` on a format without colour marks and sections, `/repo/commonxl/formats.go:90-196`.
(Line 91, the removal of escapes from `s2`, has no effect: line 92 computes `s2` from `s` again.) -/
def makeSection (s : Bytes) : Fmt × CellType :=
  if hasAny (lit "ymdhs") (dropSpans 34 34 s) then (.time (dateLayout s), .date)
  else
    let (s, ff, ctype) := numberFmt s
    let ff := if s.contains 44 then .commas ff else ff
    match splitDigits s with
    | none =>
      let pre := if s.isEmpty then s else cleanText s
      if pre == lit "@" then (.ident, .string) else (.static pre, .string)
    | some (pre, post) =>
      let pre := if pre.isEmpty then pre else cleanText pre
      if !pre.isEmpty || !post.isEmpty then (.surround pre ff (cleanText post), ctype)
      else (ff, ctype)

/-- `makeFormatter`, `/repo/commonxl/formats.go:76-196`. The sections have no semicolon, so the calls for
them do not recurse. -/
def makeFormatter (s : Bytes) : Fmt × CellType :=
  let s := dropSpans 91 93 s
  if s.contains 59 then
    match (splitByte 59 s).map (fun p => makeSection (dropSpans 91 93 p)) with
    | [] => (.ident, .string) -- `strings.Split` returns at least one part
    | p :: ps => (switchFmt p.1 (ps.map (·.1)), p.2)
  else makeSection s

end Grate
