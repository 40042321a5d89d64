import Verif.Spec.Decimal

/-! # Specification: number format codes (ECMA-376 part 1, 18.8.31), independent of the models -/

namespace Grate.Spec

/-- Literal text in a format code: in quotes, or nothing. -/
def quoted (t : Bytes) : Bytes := if t = [] then [] else 34 :: (t ++ [34])

/-- Text without the characters that mean something to the compiler of custom formats even between
quotes: `"`, `[`, `;`, `\`, `*`, `_`, `%`, the digit placeholders `0 # ? , .` and the letters `E`, `e`. -/
def PlainText (t : Bytes) : Prop :=
  ∀ b ∈ t, b ≠ 34 ∧ b ≠ 91 ∧ b ≠ 59 ∧ b ≠ 92 ∧ b ≠ 42 ∧ b ≠ 95 ∧ b ≠ 37 ∧ b ≠ 48 ∧ b ≠ 35 ∧ b ≠ 63 ∧
    b ≠ 44 ∧ b ≠ 46 ∧ b ≠ 69 ∧ b ≠ 101

/-- A number format: text before and after, thousands separators, decimals, percent. -/
structure NumCode where
  pre : Bytes
  group : Bool
  decimals : Nat
  percent : Bool
  post : Bytes

/-- The digits of the code: `0`, `0.00`, `#,##0`, `#,##0.00`, … -/
def NumCode.digits (c : NumCode) : Bytes :=
  (if c.group then [35, 44, 35, 35, 48] else [48]) ++
    (if c.decimals = 0 then [] else 46 :: List.replicate c.decimals 48)

/-- The sign after the number. -/
def NumCode.sign (c : NumCode) : Bytes := if c.percent then [37] else []

/-- The code as written in a workbook, for example `"about "#,##0.00%" of all"`. -/
def NumCode.text (c : NumCode) : Bytes := quoted c.pre ++ c.digits ++ c.sign ++ quoted c.post

/-- The factor of a percent format. -/
def NumCode.factor (c : NumCode) : Nat := if c.percent then 100 else 1

/-- What such a code should show, given the sign, the digits before the point and the rest of the number. -/
def NumCode.Shows (c : NumCode) (sgn whole frac out : Bytes) : Prop :=
  ∃ g, (if c.group then Grouped whole g else g = whole) ∧ out = c.pre ++ (sgn ++ g ++ frac) ++ (c.sign ++ c.post)

/-! ### Dates -/

/-- A field of a date or time, with the number of letters it is written with. -/
inductive DateField where
  | year (four : Bool)
  | month (letters : Nat)
  | day (letters : Nat)
  | hour (two : Bool)
  | minute (two : Bool)
  | second (two : Bool)
deriving DecidableEq

/-- Which part of a time it shows. -/
inductive DateKind where
  | year | month | day | hour | minute | second
deriving DecidableEq

def DateField.kind : DateField → DateKind
  | .year _ => .year
  | .month _ => .month
  | .day _ => .day
  | .hour _ => .hour
  | .minute _ => .minute
  | .second _ => .second

/-- The field in a format code. -/
def DateField.code : DateField → Bytes
  | .year four => List.replicate (if four then 4 else 2) 121
  | .month n => List.replicate n 109
  | .day n => List.replicate n 100
  | .hour two => List.replicate (if two then 2 else 1) 104
  | .minute two => List.replicate (if two then 2 else 1) 109
  | .second two => List.replicate (if two then 2 else 1) 115

/-- The field in a layout of Go's `time.Format` (the reference time `Mon Jan 2 15:04:05 2006`). -/
def DateField.layout : DateField → Bytes
  | .year four => if four then lit "2006" else lit "06"
  | .month 1 => lit "1"
  | .month 2 => lit "01"
  | .month 3 => lit "Jan"
  | .month 4 => lit "January"
  | .month _ => lit "Jan"
  | .day 1 => lit "2"
  | .day 2 => lit "02"
  | .day 3 => lit "Mon"
  | .day _ => lit "Monday"
  | .hour _ => lit "15"
  | .minute two => if two then lit "04" else lit "4"
  | .second two => if two then lit "05" else lit "5"

/-- Separating text, bare or in quotes. -/
inductive DateSep where
  | bare (t : Bytes)
  | quoted (t : Bytes)

def DateSep.text : DateSep → Bytes
  | .bare t => t
  | .quoted t => t

def DateSep.code : DateSep → Bytes
  | .bare t => t
  | .quoted t => Spec.quoted t

/-- Separators without field letters, quotes, brackets, semicolons, escapes, fill characters, line breaks and the
letter `M` (as in `AM`). -/
def PlainSep (s : DateSep) : Prop :=
  ∀ b ∈ s.text, b ≠ 121 ∧ b ≠ 109 ∧ b ≠ 100 ∧ b ≠ 104 ∧ b ≠ 115 ∧ b ≠ 34 ∧ b ≠ 91 ∧ b ≠ 59 ∧ b ≠ 92 ∧
    b ≠ 42 ∧ b ≠ 95 ∧ b ≠ 10 ∧ b ≠ 77

/-- A date format: separators around fields. -/
structure DateCode where
  first : DateSep
  rest : List (DateField × DateSep)

/-- The text of a date format, with the fields written in some way. -/
def DateCode.render (f : DateField → Bytes) (g : DateSep → Bytes) (c : DateCode) : Bytes :=
  g c.first ++ c.rest.flatMap (fun p => f p.1 ++ g p.2)

/-- As written in a workbook. -/
def DateCode.text (c : DateCode) : Bytes := c.render DateField.code DateSep.code

/-- As a layout of `time.Format`. -/
def DateCode.layout (c : DateCode) : Bytes := c.render DateField.layout DateSep.text

def DateCode.kinds (c : DateCode) : List DateKind := c.rest.map (fun p => p.1.kind)

/-- Months of one to five letters; days of one to three (`dddd`, the full name of the day, is left out). -/
def DateField.Plain : DateField → Prop
  | .month n => 1 ≤ n ∧ n ≤ 5
  | .day n => 1 ≤ n ∧ n ≤ 3
  | _ => True

/-- The date formats the compiler is proved to read: no field is shown twice; minutes stand between hours
and seconds, and no month does; a full month name is not directly followed by the year. -/
structure DateCode.Readable (c : DateCode) : Prop where
  some_field : c.rest ≠ []
  nodup : c.kinds.Nodup
  first_sep : PlainSep c.first
  seps : ∀ p ∈ c.rest, PlainSep p.2
  fields : ∀ p ∈ c.rest, p.1.Plain
  minutes : (DateKind.minute ∉ c.kinds ∧
      (DateKind.hour ∉ c.kinds ∨ DateKind.month ∉ c.kinds ∨ DateKind.second ∉ c.kinds)) ∨
    ∃ l₁ l₂ l₃ l₄, c.kinds = l₁ ++ DateKind.hour :: l₂ ++ DateKind.minute :: l₃ ++ DateKind.second :: l₄ ∧
      DateKind.month ∉ l₂ ∧ DateKind.month ∉ l₃
  full_month : ∀ l s y t r, c.rest = l ++ (.month 4, s) :: (.year y, t) :: r → s.text ≠ []

/-! ### Fields of codes and layouts -/

/-- A field of a code or a layout, reading from the left: its kind and what follows it. `m` is a month
unless hours come before it, or seconds follow with only minutes in between. -/
inductive CodeToken where
  | year | m | day | hour | second
deriving DecidableEq

/-- The runs of field letters outside quotes and brackets (`b` is the Buddhist year); hours may stand in
brackets. -/
def codeTokens : Option UInt8 → Option CodeToken → Bytes → List CodeToken
  | _, _, [] => []
  | some q, last, b :: bs =>
    if b == q then codeTokens none none bs else codeTokens (some q) last bs
  | none, last, b :: bs =>
    let emit := fun t => if last == some t then codeTokens none (some t) bs else t :: codeTokens none (some t) bs
    if b == 34 then codeTokens (some 34) none bs
    else if b == 121 || b == 98 then emit .year
    else if b == 109 then emit .m
    else if b == 100 then emit .day
    else if b == 104 then emit .hour
    else if b == 115 then emit .second
    else codeTokens none none bs

/-- `m` after hours or before seconds are minutes. -/
def resolve : Bool → List CodeToken → List DateKind
  | _, [] => []
  | _, .hour :: ts => .hour :: resolve true ts
  | h, .m :: ts => (if h || ts.head? == some .second then .minute else .month) :: resolve false ts
  | _, .year :: ts => .year :: resolve false ts
  | _, .day :: ts => .day :: resolve false ts
  | _, .second :: ts => .second :: resolve false ts

/-- The fields shown by a format code. -/
def codeKinds (code : Bytes) : List DateKind := resolve false (codeTokens none none code)

/-- The fields of the Go layouts that occur, longest first. -/
def layoutFields : List (Bytes × DateKind) :=
  [(lit "2006", .year), (lit "January", .month), (lit "Jan", .month), (lit "06", .year), (lit "01", .month),
   (lit "02", .day), (lit "15", .hour), (lit "03", .hour), (lit "04", .minute), (lit "05", .second),
   (lit "1", .month), (lit "2", .day), (lit "3", .hour), (lit "4", .minute), (lit "5", .second)]

/-- The fields shown by a layout (the counter drops the bytes of a field). -/
def layoutKinds : Nat → Bytes → List DateKind
  | _, [] => []
  | n + 1, _ :: bs => layoutKinds n bs
  | 0, b :: bs =>
    match layoutFields.find? (fun f => f.1.isPrefixOf (b :: bs)) with
    | some f => f.2 :: layoutKinds (f.1.length - 1) bs
    | none => layoutKinds 0 bs

end Grate.Spec
