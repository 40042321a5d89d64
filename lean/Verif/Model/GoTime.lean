import Verif.Model.Dates

/-! # Go's `time.Time.Format` (standard library, UTC)

`/repo/commonxl/dates.go:48-78` shows dates through `t.Format(layout)`. The theorems that do not need more leave that
function open (`Ext.timeFormat`); this file models it, after `time.nextStdChunk` and `Time.appendFormat` of Go 1.17 and
later. -/

namespace Grate

/-- Months of `time.daysBefore`: days before month `m0 + 1` (0-based `m0` up to 12). -/
def daysBefore13 (m0 : Int) : Int := if m0 = 12 then 365 else daysBefore m0

/-- `Time.Date` and `Time.YearDay`, from the days since 1970-01-01: `time.absDate`. (Go counts unsigned from a year far
in the past; here days are counted from 0001-01-01 and divisions round down.) -/
def goCivil (days : Int) : Int × Int × Int × Int :=
  let d := days + 719162
  let n := d / 146097
  let y := 400 * n
  let d := d - 146097 * n
  let n := d / 36524
  let n := n - n / 4
  let y := y + 100 * n
  let d := d - 36524 * n
  let n := d / 1461
  let y := y + 4 * n
  let d := d - 1461 * n
  let n := d / 365
  let n := n - n / 4
  let y := y + n
  let d := d - 365 * n
  let year := y + 1
  if isLeap year && d = 59 then (year, 2, 29, d)
  else
    let day := if isLeap year && d > 59 then d - 1 else d
    let month := day / 31
    let end_ := daysBefore13 (month + 1)
    if day ≥ end_ then (year, month + 2, day - end_ + 1, d)
    else (year, month + 1, day - daysBefore month + 1, d)

/-- `Time.Weekday`: 0 is Sunday. 1970-01-01 is a Thursday. -/
def goWeekday (days : Int) : Int := (days + 4) % 7

/-- `time.longMonthNames`. -/
def goMonth (m : Int) : Bytes :=
  [lit "January", lit "February", lit "March", lit "April", lit "May", lit "June", lit "July", lit "August",
    lit "September", lit "October", lit "November", lit "December"].getD (m.toNat - 1) []

/-- `time.longDayNames`. -/
def goDay (w : Int) : Bytes :=
  [lit "Sunday", lit "Monday", lit "Tuesday", lit "Wednesday", lit "Thursday", lit "Friday", lit "Saturday"].getD w.toNat []

/-- `time.appendInt`: a decimal numeral padded with zeros to a width. -/
def appendInt (x : Int) (width : Nat) : Bytes :=
  let u := decNat x.natAbs
  (if x < 0 then [45] else []) ++ List.replicate (width - u.length) 48 ++ u

/-- The elements of a layout. -/
inductive Std where
  | longMonth | month | numMonth | zeroMonth
  | longWeekDay | weekDay
  | day | underDay | zeroDay | underYearDay | zeroYearDay
  | hour | hour12 | zeroHour12
  | minute | zeroMinute | second | zeroSecond
  | longYear | year
  | pmUpper | pmLower
  | tz
  | zone (iso colon : Bool) (parts : Nat)
  | frac (sep : UInt8) (nines : Bool) (digits : Nat)
deriving DecidableEq

/-- The fixed elements, tried in order at each position: `time.nextStdChunk`. `Jan` and `Mon` are not elements before a
small letter. -/
def stdTable : List (Bytes × Std) :=
  [(lit "January", .longMonth), (lit "Jan", .month), (lit "Monday", .longWeekDay), (lit "Mon", .weekDay), (lit "MST", .tz),
   (lit "01", .zeroMonth), (lit "02", .zeroDay), (lit "03", .zeroHour12), (lit "04", .zeroMinute), (lit "05", .zeroSecond),
   (lit "06", .year), (lit "002", .zeroYearDay), (lit "15", .hour), (lit "1", .numMonth), (lit "2006", .longYear),
   (lit "2", .day), (lit "__2", .underYearDay), (lit "_2", .underDay), (lit "3", .hour12), (lit "4", .minute),
   (lit "5", .second), (lit "PM", .pmUpper), (lit "pm", .pmLower),
   (lit "-070000", .zone false false 3), (lit "-07:00:00", .zone false true 3), (lit "-0700", .zone false false 2),
   (lit "-07:00", .zone false true 2), (lit "-07", .zone false false 1),
   (lit "Z070000", .zone true false 3), (lit "Z07:00:00", .zone true true 3), (lit "Z0700", .zone true false 2),
   (lit "Z07:00", .zone true true 2), (lit "Z07", .zone true false 1)]

/-- Is there a small ASCII letter at the beginning? `time.startsWithLowerCase`. -/
def lowerFirst (l : Bytes) : Bool :=
  match l with
  | [] => false
  | b :: _ => 97 ≤ b && b ≤ 122

/-- An element of fractional seconds: a point or comma, then only zeros or only nines, then no digit. -/
def fracAt (l : Bytes) : Option (Std × Nat) :=
  match l with
  | s :: d :: rest =>
    if (s == 46 || s == 44) && (d == 48 || d == 57) then
      let n := (rest.takeWhile (· == d)).length
      match rest.drop n with
      | b :: _ => if isDigit b then none else some (.frac s (d == 57) (n + 1), n + 2)
      | [] => some (.frac s (d == 57) (n + 1), n + 2)
    else none
  | _ => none

/-- Does this entry of the table begin here? `_2006` is an underscore before the year. -/
def stdMatches (l : Bytes) (e : Bytes × Std) : Bool :=
  e.1.isPrefixOf l &&
    (match e.2 with
     | .month => !lowerFirst (l.drop 3)
     | .weekDay => !lowerFirst (l.drop 3)
     | .underDay => !(lit "_2006").isPrefixOf l
     | _ => true)

/-- The element that begins at the front of the rest of a layout, with its length. -/
def stdAt (l : Bytes) : Option (Std × Nat) :=
  match stdTable.find? (stdMatches l) with
  | some e => some (e.2, e.1.length)
  | none => fracAt l

/-- The digits of the nanoseconds: `time.appendNano`. -/
def nanoDigits (ns : Nat) : Bytes := List.replicate (9 - (decNat ns).length) 48 ++ decNat ns

/-- Without the zeros at the end. -/
def trimZeros (l : Bytes) : Bytes := (l.reverse.dropWhile (· == 48)).reverse

/-- What an element shows: `Time.appendFormat`, in UTC. -/
def stdShow (t : Time) : Std → Bytes
  | .longMonth => goMonth (goCivil (t / dayNs)).2.1
  | .month => (goMonth (goCivil (t / dayNs)).2.1).take 3
  | .numMonth => appendInt (goCivil (t / dayNs)).2.1 0
  | .zeroMonth => appendInt (goCivil (t / dayNs)).2.1 2
  | .longWeekDay => goDay (goWeekday (t / dayNs))
  | .weekDay => (goDay (goWeekday (t / dayNs))).take 3
  | .day => appendInt (goCivil (t / dayNs)).2.2.1 0
  | .underDay => (if (goCivil (t / dayNs)).2.2.1 < 10 then [32] else []) ++ appendInt (goCivil (t / dayNs)).2.2.1 0
  | .zeroDay => appendInt (goCivil (t / dayNs)).2.2.1 2
  | .underYearDay =>
    let n := (goCivil (t / dayNs)).2.2.2 + 1
    (if n < 100 then [32] else []) ++ (if n < 10 then [32] else []) ++ appendInt n 0
  | .zeroYearDay => appendInt ((goCivil (t / dayNs)).2.2.2 + 1) 3
  | .hour => appendInt (t % dayNs / 3600000000000) 2
  | .hour12 => let h := t % dayNs / 3600000000000 % 12; appendInt (if h = 0 then 12 else h) 0
  | .zeroHour12 => let h := t % dayNs / 3600000000000 % 12; appendInt (if h = 0 then 12 else h) 2
  | .minute => appendInt (t % dayNs / 60000000000 % 60) 0
  | .zeroMinute => appendInt (t % dayNs / 60000000000 % 60) 2
  | .second => appendInt (t % dayNs / 1000000000 % 60) 0
  | .zeroSecond => appendInt (t % dayNs / 1000000000 % 60) 2
  | .longYear => appendInt (goCivil (t / dayNs)).1 4
  | .year =>
    let y := (goCivil (t / dayNs)).1
    appendInt ((if y < 0 then 0 else y) % 100) 2
  | .pmUpper => if t % dayNs / 3600000000000 ≥ 12 then lit "PM" else lit "AM"
  | .pmLower => if t % dayNs / 3600000000000 ≥ 12 then lit "pm" else lit "am"
  | .tz => lit "UTC"
  | .zone iso colon parts =>
    if iso then lit "Z"
    else
      let sep := if colon then [58] else []
      43 :: (lit "00" ++ (if parts ≥ 2 then sep ++ lit "00" else []) ++ (if parts ≥ 3 then sep ++ lit "00" else []))
  | .frac sep nines digits =>
    let d := (nanoDigits (t % 1000000000).toNat).take digits
    if nines then (if trimZeros d = [] then [] else sep :: trimZeros d) else sep :: d

/-- `t.Format(layout)`: the elements are replaced from left to right, everything else is copied. (The counter drops the
bytes of an element.) -/
def goFormatFrom (t : Time) : Nat → Bytes → Bytes
  | _, [] => []
  | n + 1, _ :: bs => goFormatFrom t n bs
  | 0, b :: bs =>
    match stdAt (b :: bs) with
    | some (s, n) => stdShow t s ++ goFormatFrom t (n - 1) bs
    | none => b :: goFormatFrom t 0 bs

/-- `t.Format(layout)`. -/
def goFormat (layout : Bytes) (t : Time) : Bytes := goFormatFrom t 0 layout

end Grate
