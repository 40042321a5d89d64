import Verif.Spec.Calendar
import Verif.Spec.FormatCode

/-! # Specification: how a moment is written under a date format (ECMA-376 part 1, 18.8.31) -/

namespace Grate.Spec

/-- A moment: days after 1899-12-30, and the time of the day. -/
structure Moment where
  day : Nat
  hour : Nat
  minute : Nat
  second : Nat
  nano : Nat

/-- The date, counted day by day. -/
def Moment.date (m : Moment) : Date := (⟨1899, 12, 30⟩ : Date).after m.day

/-- A time of the day, in a year of four digits. -/
structure Moment.Valid (m : Moment) : Prop where
  hour : m.hour < 24
  minute : m.minute < 60
  second : m.second < 60
  nano : m.nano < 1000000000
  year : m.date.y ≤ 9999

/-- The moment in nanoseconds since 1970-01-01, which is 25569 days after 1899-12-30. -/
def Moment.time (m : Moment) : Int :=
  ((m.day : Int) - 25569) * 86400000000000 + ((m.hour * 60 + m.minute) * 60 + m.second : Nat) * 1000000000 + m.nano

/-- Whole seconds since the beginning of 1899-12-30. -/
def Moment.seconds (m : Moment) : Nat := ((m.day * 24 + m.hour) * 60 + m.minute) * 60 + m.second

/-- The days between 1899-12-30 and the day of serial 0. -/
def zeroOffset (mode1904 : Bool) : Nat := if mode1904 then 1462 else 0

def digit (n : Nat) : UInt8 := UInt8.ofNat (48 + n % 10)

/-- Two digits. -/
def two (n : Nat) : Bytes := [digit (n / 10), digit n]

/-- One or two digits. -/
def short (n : Nat) : Bytes := if n < 10 then [digit n] else two n

/-- Four digits. -/
def four (n : Nat) : Bytes := [digit (n / 1000), digit (n / 100), digit (n / 10), digit n]

def monthNames : List Bytes :=
  [lit "January", lit "February", lit "March", lit "April", lit "May", lit "June", lit "July", lit "August",
    lit "September", lit "October", lit "November", lit "December"]

def dayNames : List Bytes :=
  [lit "Sunday", lit "Monday", lit "Tuesday", lit "Wednesday", lit "Thursday", lit "Friday", lit "Saturday"]

/-- The full name of the month. -/
def Moment.monthName (m : Moment) : Bytes := monthNames.getD (m.date.m.toNat - 1) []

/-- The name of the weekday: 1899-12-30 was a Saturday. -/
def Moment.dayName (m : Moment) : Bytes := dayNames.getD ((m.day + 6) % 7) []

/-- What a field shows. -/
def DateField.shows (m : Moment) : DateField → Bytes
  | .year true => four m.date.y.toNat
  | .year false => two (m.date.y.toNat % 100)
  | .month 1 => short m.date.m.toNat
  | .month 2 => two m.date.m.toNat
  | .month 3 => m.monthName.take 3
  | .month 4 => m.monthName
  | .month _ => m.monthName.take 1
  | .day 1 => short m.date.d.toNat
  | .day 2 => two m.date.d.toNat
  | .day 3 => m.dayName.take 3
  | .day _ => m.dayName
  | .hour true => two m.hour
  | .hour false => short m.hour
  | .minute true => two m.minute
  | .minute false => short m.minute
  | .second true => two m.second
  | .second false => short m.second

/-- What a date format shows: its fields, with the text between them. -/
def DateCode.shows (c : DateCode) (m : Moment) : Bytes := c.render (DateField.shows m) DateSep.text

/-- Separating text without digits, underscores and the letters `J`, `M`, `P`, `p`, `Z`. -/
def DateSep.Free (s : DateSep) : Prop :=
  ∀ b ∈ s.text, ¬ (48 ≤ b ∧ b ≤ 57) ∧ b ≠ 74 ∧ b ≠ 77 ∧ b ≠ 80 ∧ b ≠ 112 ∧ b ≠ 90 ∧ b ≠ 95

/-- Text that does not begin with a small letter. -/
def NoSmall (t : Bytes) : Prop := ∀ b r, t = b :: r → ¬ (97 ≤ b ∧ b ≤ 122)

/-- The formats whose fields are shown one by one: separators are free; an abbreviated name is not directly followed by
a small letter; a month of one letter is not directly followed by seconds of one letter; months have one to four letters
(not five, which stand for the first letter of the name), days one to four. -/
structure DateCode.Apart (c : DateCode) : Prop where
  first : c.first.Free
  seps : ∀ p ∈ c.rest, p.2.Free
  letters : ∀ p ∈ c.rest, ∀ n, (p.1 = .month n ∨ p.1 = .day n) → 1 ≤ n ∧ n ≤ 4
  names : ∀ p ∈ c.rest, (p.1 = .month 3 ∨ p.1 = .day 3) → NoSmall p.2.text
  month : ∀ l s t r, c.rest = l ++ (.month 1, s) :: (.second false, t) :: r → s.text ≠ []

/-- Hours of one letter have no zero in front; this is the part of the day in which they need none. -/
def DateCode.HoursOk (c : DateCode) (m : Moment) : Prop :=
  10 ≤ m.hour ∨ ∀ p ∈ c.rest, p.1 ≠ .hour false

end Grate.Spec
