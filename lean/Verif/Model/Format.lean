import Verif.Model.Dates

/-! # Model of `/repo/commonxl/fmt.go` and `/repo/commonxl/formats.go` -/

namespace Grate

/-- `CellType`, `/repo/commonxl/cell.go:12-26`. -/
inductive CellType where
  | blank | integer | float | string | boolean | date | hyperlink | static
deriving DecidableEq, Repr

/-- `CellType.String`, `/repo/commonxl/cell.go:28-48`. -/
def CellType.name : CellType → Bytes
  | .blank => lit "blank"
  | .integer => lit "integer"
  | .float => lit "float"
  | .boolean => lit "boolean"
  | .date => lit "date"
  | .hyperlink => lit "hyperlink"
  | .static => lit "static"
  | .string => lit "string"

/-- The `fmt` format strings built by the code: `%<width>d<suffix>` (width 0 = absent), or a
floating-point verb given by its text. -/
inductive Verb where
  | d (width : Nat) (suffix : Bytes)
  | f (text : Bytes)
deriving DecidableEq

/-- `FmtFunc` values as a syntax tree: one constructor per combinator in `/repo/commonxl/fmt.go` and
`/repo/commonxl/dates.go:47-78`. `switch4` is `switchFmtFunc` after resolving missing sections. -/
inductive Fmt where
  | ident
  | static (s : Bytes)
  | surround (pre : Bytes) (f : Fmt) (post : Bytes)
  | negParens (f : Fmt)
  | commas (f : Fmt)
  | sprintf (v : Verb) (mul : Nat)
  | zeroDash (f : Fmt)
  | frac (n : Nat)
  | switch4 (pos neg zero text : Fmt)
  | time (layout : Bytes)
  | cnTime (layout : Bytes)
deriving DecidableEq

/-- `switchFmtFunc(pos, others...)`: defaults for missing sections, `/repo/commonxl/fmt.go:186-198`. -/
def switchFmt (pos : Fmt) (others : List Fmt) : Fmt :=
  .switch4 pos
    (match others with | n :: _ => n | _ => pos)
    (match others with | _ :: z :: _ => z | _ => pos)
    (match others with | _ :: _ :: t :: _ => t | _ => .ident)

/-- `convertToFloat64`, `/repo/commonxl/fmt.go:110-147`, on the dynamic types held by cells. -/
def convertToFloat64 (ext : Ext) : Val → Option Float
  | .float x => some x
  | .bool true => some 1
  | .bool false => some 0
  | .int n => some (f64OfInt n)
  | .str s =>
    match ext.parseFloat s with
    | (x, none) => some x
    | _ => none
  | _ => none

/-- `identFunc`, `/repo/commonxl/fmt.go:57-84`. -/
def identFmt (ext : Ext) (v : Val) : Bytes :=
  match v with
  | .bool true => lit "TRUE"
  | .bool false => lit "FALSE"
  | .int n =>
    let s := decInt n
    if s.length ≤ 11 then s else sprint ext v
  | .float x =>
    let s := ext.floatF x
    if s.length ≤ 11 || (s.length == 12 && x < 0) then s
    else
      let s := ext.floatG6 x
      if s.length ≤ 11 then s else sprint ext v
  | .str s => s
  | .time t => ext.timeString t
  | .nil => sprint ext v

/-- Left padding with spaces to a width (`%5d`). -/
def padLeft (w : Nat) (s : Bytes) : Bytes := List.replicate (w - s.length) 32 ++ s

/-- Insert a comma at `endIndex-3`, `endIndex-6`, …: the loop at `/repo/commonxl/fmt.go:46-49`
(fuel: `endIndex` decreases). -/
def commaLoop : Nat → Nat → Bytes → Bytes
  | 0, _, s => s
  | fuel + 1, endIndex, s =>
    if endIndex > 3 then
      commaLoop fuel (endIndex - 3) (s.take (endIndex - 3) ++ 44 :: s.drop (endIndex - 3))
    else s

/-- `strings.IndexAny(s, ".eE")`, or the length when absent (`/repo/commonxl/fmt.go:42-45`). -/
def numEnd (s : Bytes) : Nat := (s.takeWhile (fun b => !(b == 46 || b == 101 || b == 69))).length

/-- The body of `addCommas`, `/repo/commonxl/fmt.go:36-53`. -/
def addCommas (s1 : Bytes) : GoRes Bytes :=
  match s1 with
  | [] => .panic
  | c :: cs =>
    if c == 45 then .ok (45 :: commaLoop (numEnd cs) (numEnd cs) cs)
    else .ok (commaLoop (numEnd (c :: cs)) (numEnd (c :: cs)) (c :: cs))

/-- The body of `addNegParens`, `/repo/commonxl/fmt.go:26-30`. -/
def addNegParens (s1 : Bytes) : GoRes Bytes :=
  match s1 with
  | [] => .panic
  | c :: cs => if c == 45 then .ok (40 :: cs ++ [41]) else .ok (c :: cs)

/-- The body of `sprintfFunc`, `/repo/commonxl/fmt.go:86-103`; `wantInt64` holds iff the format
contains `%d` literally, i.e. has no width. -/
def sprintfFmt (ext : Ext) (verb : Verb) (mul : Nat) (v : Val) : Bytes :=
  match v with
  | .int n =>
    match verb with
    | .d w suf => padLeft w (decInt n) ++ suf
    | .f text => ext.sprintfInt text n
  | .float x =>
    let val := x * f64OfNat mul
    match verb with
    | .d 0 suf => decInt (f64ToInt val) ++ suf
    | .d w suf => ext.sprintfFloat (37 :: decNat w ++ 100 :: suf) val
    | .f text => ext.sprintfFloat text val
  | v => sprint ext v

/-- First-occurrence replacement (`strings.Replace(s, old, new, 1)`). -/
def replaceOnce (old new : Bytes) : Bytes → Bytes
  | [] => if old = [] then new else []
  | c :: cs =>
    if old.isPrefixOf (c :: cs) then new ++ (c :: cs).drop old.length
    else c :: replaceOnce old new cs

/-- Message of `/repo/commonxl/dates.go:53`. -/
def dateMsg : Bytes := lit "MUST BE time.Time OR numeric TO FORMAT CORRECTLY"

/-- Fuel given to the fraction loop when rendering (it needs far fewer steps for 1 or 2 digits). -/
def fracFuel : Nat := 200

/-- The body of `fracFmtFunc`, `/repo/commonxl/fmt.go:164-182`. Running out of fuel is shown as a
panic (stands for non-termination). -/
def fracFmt (ext : Ext) (n : Nat) (v : Val) : GoRes Bytes :=
  match convertToFloat64 ext v with
  | none => .ok (lit "MUST BE numeric TO FORMAT CORRECTLY")
  | some f =>
    match decimalToWholeFraction fracFuel f n n with
    | none => .panic
    | some (w, num, d) =>
      if num = 0 then .ok (decInt w)
      else if w = 0 then
        let num := if f < 0 && num > 0 then -num else num
        .ok (decInt num ++ 47 :: decInt d)
      else .ok (decInt w ++ 32 :: decInt num ++ 47 :: decInt d)

/-- Calling a `FmtFunc` on a value; `m1904` is the formatter's 1904 flag. -/
def Fmt.eval (ext : Ext) (m1904 : Bool) : Fmt → Val → GoRes Bytes
  | .ident, v => .ok (identFmt ext v)
  | .static s, _ => .ok s
  | .surround pre f post, v => do
    let s ← f.eval ext m1904 v
    pure (pre ++ s ++ post)
  | .negParens f, v => do addNegParens (← f.eval ext m1904 v)
  | .commas f, v => do addCommas (← f.eval ext m1904 v)
  | .sprintf verb mul, v => .ok (sprintfFmt ext verb mul v)
  | .zeroDash f, v =>
    match convertToFloat64 ext v with
    | none => .ok (sprint ext v)
    | some x => if x == 0 then .ok [45] else f.eval ext m1904 v
  | .frac n, v => fracFmt ext n v
  | .switch4 pos neg zero text, v =>
    match convertToFloat64 ext v with
    | none => text.eval ext m1904 v
    | some x =>
      if x == 0 then zero.eval ext m1904 v
      else if x < 0 then neg.eval ext m1904 v
      else pos.eval ext m1904 v
  | .time layout, v =>
    match v with
    | .time t => .ok (ext.timeFormat layout t)
    | v =>
      match convertToFloat64 ext v with
      | none => .ok dateMsg
      | some x => .ok (ext.timeFormat layout (convertToDate m1904 x))
  | .cnTime layout, v =>
    let post := fun s => replaceOnce (lit "PM") (lit "下午") (replaceOnce (lit "AM") (lit "上午") s)
    match v with
    | .time t => .ok (post (ext.timeFormat layout t))
    | v =>
      match convertToFloat64 ext v with
      | none => .ok dateMsg
      | some x => .ok (post (ext.timeFormat layout (convertToDate m1904 x)))

/-- `goFormatters`, `/repo/commonxl/fmt.go:215-303`. -/
def goFormatters : Nat → Option Fmt
  | 0 => some .ident
  | 49 => some .ident
  | 14 => some (.time (lit "01-02-06"))
  | 15 => some (.time (lit "2-Jan-06"))
  | 16 => some (.time (lit "2-Jan"))
  | 17 => some (.time (lit "Jan-06"))
  | 20 => some (.time (lit "15:04"))
  | 21 => some (.time (lit "15:04:05"))
  | 22 => some (.time (lit "1/2/06 15:04"))
  | 45 => some (.time (lit "04:05"))
  | 46 => some (.time (lit "3:04:05"))
  | 47 => some (.time (lit "0405.9"))
  | 27 => some (.time (lit "2006\"年\"1\"月\""))
  | 28 => some (.time (lit "1\"月\"2\"日\""))
  | 29 => some (.time (lit "1\"月\"2\"日\""))
  | 30 => some (.time (lit "1-2-06"))
  | 31 => some (.time (lit "2006\"年\"1\"月\"2\"日\""))
  | 32 => some (.time (lit "15\"时\"04\"分\""))
  | 33 => some (.time (lit "15\"时\"04\"分\"05\"秒\""))
  | 36 => some (.time (lit "2006\"年\"2\"月\""))
  | 50 => some (.time (lit "2006\"年\"2\"月\""))
  | 51 => some (.time (lit "1\"月\"2\"日\""))
  | 52 => some (.time (lit "2006\"年\"1\"月\""))
  | 53 => some (.time (lit "1\"月\"2\"日\""))
  | 54 => some (.time (lit "1\"月\"2\"日\""))
  | 57 => some (.time (lit "2006\"年\"1\"月\""))
  | 58 => some (.time (lit "1\"月\"2\"日\""))
  | 71 => some (.time (lit "2/1/2006"))
  | 72 => some (.time (lit "2-Jan-06"))
  | 73 => some (.time (lit "2-Jan"))
  | 74 => some (.time (lit "Jan-06"))
  | 75 => some (.time (lit "15:04"))
  | 76 => some (.time (lit "15:04:05"))
  | 77 => some (.time (lit "2/1/2006 15:04"))
  | 78 => some (.time (lit "04:05"))
  | 79 => some (.time (lit "15:04:05"))
  | 80 => some (.time (lit "04:05.9"))
  | 81 => some (.time (lit "2/1/06"))
  | 18 => some (.time (lit "3:04 PM"))
  | 19 => some (.time (lit "3:04:05 PM"))
  | 34 => some (.cnTime (lit "PM 3\"时\"04\"分\""))
  | 35 => some (.cnTime (lit "PM 3\"时\"04\"分\"05\"秒\""))
  | 55 => some (.cnTime (lit "PM 3\"时\"04\"分\""))
  | 56 => some (.cnTime (lit "PM 3\"时\"04\"分\"05\"秒"))
  | 12 => some (.frac 1)
  | 13 => some (.frac 2)
  | 69 => some (.frac 1)
  | 70 => some (.frac 2)
  | 1 => some (.sprintf (.d 0 []) 1)
  | 2 => some (.sprintf (.f (lit "%4.2f")) 1)
  | 59 => some (.sprintf (.d 0 []) 1)
  | 60 => some (.sprintf (.f (lit "%4.2f")) 1)
  | 9 => some (.sprintf (.d 0 [37]) 100)
  | 10 => some (.sprintf (.f (lit "%4.2f%%")) 100)
  | 67 => some (.sprintf (.d 0 [37]) 100)
  | 68 => some (.sprintf (.f (lit "%4.2f%%")) 100)
  | 3 => some (.commas (.sprintf (.d 0 []) 1))
  | 61 => some (.commas (.sprintf (.d 0 []) 1))
  | 37 => some (.negParens (.commas (.sprintf (.d 0 []) 1)))
  | 38 => some (.negParens (.commas (.sprintf (.d 0 []) 1)))
  | 4 => some (.commas (.sprintf (.f (lit "%4.2f")) 1))
  | 62 => some (.commas (.sprintf (.f (lit "%4.2f")) 1))
  | 39 => some (.negParens (.commas (.sprintf (.f (lit "%4.2f")) 1)))
  | 40 => some (.negParens (.commas (.sprintf (.f (lit "%4.2f")) 1)))
  | 11 => some (.sprintf (.f (lit "%4.2E")) 1)
  | 48 => some (.sprintf (.f (lit "%3.1E")) 1)
  | 41 => some (.zeroDash (.commas (.sprintf (.d 0 []) 1)))
  | 43 => some (.zeroDash (.commas (.sprintf (.f (lit "%4.2f")) 1)))
  | 42 => some (switchFmt (.surround (lit "$") (.commas (.sprintf (.d 0 []) 1)) [])
      [.surround (lit "$(") (.commas (.sprintf (.d 0 []) 1)) (lit ")"), .static (lit "$-")])
  | 44 => some (switchFmt (.surround (lit "$") (.commas (.sprintf (.f (lit "%4.2f")) 1)) [])
      [.surround (lit "$(") (.commas (.sprintf (.f (lit "%4.2f")) 1)) (lit ")"), .static (lit "$-")])
  | _ => none

/-- `builtInFormats`, `/repo/commonxl/formats.go:227-307`. -/
def builtInFormats : Nat → Option Bytes
  | 0 => some (lit "General")
  | 1 => some (lit "0")
  | 2 => some (lit "0.00")
  | 3 => some (lit "#,##0")
  | 4 => some (lit "#,##0.00")
  | 9 => some (lit "0%")
  | 10 => some (lit "0.00%")
  | 11 => some (lit "0.00E+00")
  | 12 => some (lit "# ?/?")
  | 13 => some (lit "# ??/??")
  | 14 => some (lit "mm-dd-yy")
  | 15 => some (lit "d-mmm-yy")
  | 16 => some (lit "d-mmm")
  | 17 => some (lit "mmm-yy")
  | 18 => some (lit "h:mm AM/PM")
  | 19 => some (lit "h:mm:ss AM/PM")
  | 20 => some (lit "h:mm")
  | 21 => some (lit "h:mm:ss")
  | 22 => some (lit "m/d/yy h:mm")
  | 37 => some (lit "#,##0 ;(#,##0)")
  | 38 => some (lit "#,##0 ;[Red](#,##0)")
  | 39 => some (lit "#,##0.00;(#,##0.00)")
  | 40 => some (lit "#,##0.00;[Red](#,##0.00)")
  | 41 => some (lit "_(* #,##0_);_(* \\(#,##0\\);_(* \"-\"_);_(@_)")
  | 42 => some (lit "_(\"$\"* #,##0_);_(\"$\"* \\(#,##0\\);_(\"$\"* \"-\"_);_(@_)")
  | 43 => some (lit "_(* #,##0.00_);_(* \\(#,##0.00\\);_(* \"-\"??_);_(@_)")
  | 44 => some (lit "_(\"$\"* #,##0.00_);_(\"$\"* \\(#,##0.00\\);_(\"$\"* \"-\"??_);_(@_)")
  | 45 => some (lit "mm:ss")
  | 46 => some (lit "[h]:mm:ss")
  | 47 => some (lit "mmss.0")
  | 48 => some (lit "##0.0E+0")
  | 49 => some (lit "@")
  | 27 => some (lit "yyyy\"年\"m\"月\"")
  | 28 => some (lit "m\"月\"d\"日\"")
  | 29 => some (lit "m\"月\"d\"日\"")
  | 30 => some (lit "m-d-yy")
  | 31 => some (lit "yyyy\"年\"m\"月\"d\"日\"")
  | 32 => some (lit "h\"时\"mm\"分\"")
  | 33 => some (lit "h\"时\"mm\"分\"ss\"秒\"")
  | 34 => some (lit "上午/下午 h\"时\"mm\"分\"")
  | 35 => some (lit "上午/下午 h\"时\"mm\"分\"ss\"秒\"")
  | 36 => some (lit "yyyy\"年\"m\"月\"")
  | 50 => some (lit "yyyy\"年\"m\"月\"")
  | 51 => some (lit "m\"月\"d\"日\"")
  | 52 => some (lit "yyyy\"年\"m\"月\"")
  | 53 => some (lit "m\"月\"d\"日\"")
  | 54 => some (lit "m\"月\"d\"日\"")
  | 55 => some (lit "上午/下午 h\"时\"mm\"分\"")
  | 56 => some (lit "上午/下午 h\"时\"mm\"分\"ss\"秒")
  | 57 => some (lit "yyyy\"年\"m\"月\"")
  | 58 => some (lit "m\"月\"d\"日\"")
  | 59 => some (lit "0")
  | 60 => some (lit "0.00")
  | 61 => some (lit "#,##0")
  | 62 => some (lit "#,##0.00")
  | 67 => some (lit "0%")
  | 68 => some (lit "0.00%")
  | 69 => some (lit "# ?/?")
  | 70 => some (lit "# ??/??")
  | 71 => some (lit "d/m/yyyy")
  | 72 => some (lit "d-mmm-yy")
  | 73 => some (lit "d-mmm")
  | 74 => some (lit "mmm-yy")
  | 75 => some (lit "h:mm")
  | 76 => some (lit "h:mm:ss")
  | 77 => some (lit "d/m/yyyy h:mm")
  | 78 => some (lit "mm:ss")
  | 79 => some (lit "[h]:mm:ss")
  | 80 => some (lit "mm:ss.0")
  | 81 => some (lit "d/m/bb")
  | _ => none

/-- `builtInFormatTypes`, `/repo/commonxl/formats.go:310-382`. -/
def builtInFormatTypes : Nat → Option CellType
  | 1 => some .integer
  | 2 => some .float
  | 3 => some .integer
  | 4 => some .float
  | 9 => some .float
  | 10 => some .float
  | 11 => some .float
  | 12 => some .float
  | 13 => some .float
  | 14 | 15 | 16 | 17 | 18 | 19 | 20 | 21 | 22 => some .date
  | 37 => some .integer
  | 38 => some .integer
  | 39 => some .float
  | 40 => some .float
  | 41 => some .integer
  | 42 => some .integer
  | 43 => some .float
  | 44 => some .float
  | 45 => some .date
  | 46 => some .date
  | 47 => some .date
  | 48 => some .float
  | 49 => some .string
  | 27 | 28 | 29 | 30 | 31 | 32 | 33 | 34 | 35 | 36 => some .date
  | 50 | 51 | 52 | 53 | 54 | 55 | 56 | 57 | 58 => some .date
  | 59 => some .integer
  | 60 => some .float
  | 61 => some .integer
  | 62 => some .float
  | 67 => some .float
  | 68 => some .float
  | 69 => some .float
  | 70 => some .float
  | 71 | 72 | 73 | 74 | 75 | 76 | 77 | 78 | 79 | 80 | 81 => some .date
  | _ => none

/-- `Formatter`, `/repo/commonxl/formats.go:11-15`. Absent maps are empty maps (reading a nil map is
reading an empty one; `Add` creates both maps). -/
structure Formatter where
  mode1904 : Bool
  codes : Nat → Option Fmt
  types : Nat → Option CellType

/-- A zero `Formatter`. -/
def Formatter.new : Formatter := ⟨false, fun _ => none, fun _ => none⟩

/-- `Mode1904`, `/repo/commonxl/formats.go:23-29`. -/
def Formatter.setMode1904 (x : Formatter) (enabled : Bool) : Formatter := { x with mode1904 := enabled }

/-- Map update. -/
def upd {α : Type} (m : Nat → Option α) (k : Nat) (v : α) : Nat → Option α :=
  fun j => if j = k then some v else m j

/-- ASCII lower-casing for the comparison with "general" (U+212A and U+017F do not occur in it, so
Unicode lower-casing gives the same answer). -/
def asciiLower (s : Bytes) : Bytes := s.map (fun b => if 65 ≤ b && b ≤ 90 then b + 32 else b)

/-- `Add`, `/repo/commonxl/formats.go:32-53`. `mk` is `makeFormatter` (`formats.go:76-196`). -/
def Formatter.add (mk : Bytes → Fmt × CellType) (x : Formatter) (id : Nat) (code : Bytes) :
    Formatter × Option GoErr :=
  if asciiLower code = lit "general" then ({ x with codes := upd x.codes id .ident }, none)
  else if (goFormatters id).isSome then
    (x, some (.msg "grate/commonxl: cannot replace default number formats"))
  else if (x.codes id).isSome then
    (x, some (.msg "grate/commonxl: cannot replace existing number formats"))
  else
    let (f, t) := mk code
    ({ x with codes := upd x.codes id f, types := upd x.types id t }, none)

/-- `getCellType`, `/repo/commonxl/formats.go:55-64`. -/
def Formatter.getCellType (x : Formatter) (id : Nat) : Option CellType :=
  match builtInFormatTypes id with
  | some t => some t
  | none => x.types id

/-- `Get`, `/repo/commonxl/formats.go:200-211`. -/
def Formatter.get (x : Formatter) (id : Nat) : Fmt × Bool :=
  match goFormatters id with
  | some f => (f, true)
  | none =>
    match x.codes id with
    | some f => (f, true)
    | none => (.ident, false)

/-- `Apply`, `/repo/commonxl/formats.go:215-224`. When the id is unknown `ff` is a nil function and
calling it panics. -/
def Formatter.apply (ext : Ext) (x : Formatter) (id : Nat) (v : Val) : GoRes (Bytes × Bool) :=
  match goFormatters id with
  | some f => do let s ← f.eval ext x.mode1904 v; pure (s, true)
  | none =>
    match x.codes id with
    | some f => do let s ← f.eval ext x.mode1904 v; pure (s, true)
    | none => .panic

end Grate
