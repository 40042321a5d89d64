import Verif.Model.Value

/-! # Model of `/repo/commonxl/dates.go` and `/repo/commonxl/numbers.go` -/

namespace Grate

/-- Leap years of the proleptic Gregorian calendar (`time` package). -/
def isLeap (y : Int) : Bool := y % 4 = 0 && (y % 100 ≠ 0 || y % 400 = 0)

/-- Days before month `m0` (0-based) in a non-leap year: `time.daysBefore`. -/
def daysBefore (m0 : Int) : Int :=
  if m0 ≤ 0 then 0 else if m0 = 1 then 31 else if m0 = 2 then 59 else if m0 = 3 then 90
  else if m0 = 4 then 120 else if m0 = 5 then 151 else if m0 = 6 then 181 else if m0 = 7 then 212
  else if m0 = 8 then 243 else if m0 = 9 then 273 else if m0 = 10 then 304 else 334

/-- January 1st of year `y` (proleptic Gregorian) as days since 1970-01-01: 365 per year plus leap
days. -/
def daysToYear (y : Int) : Int :=
  365 * (y - 1970) + (y - 1) / 4 - (y - 1) / 100 + (y - 1) / 400 - 477

/-- `time.Date(y, m, d, 0,0,0,0, UTC)` as days since 1970-01-01 (standard library; month and day
overflow normalised). -/
def goDate (y m d : Int) : Int :=
  let m0 := m - 1
  let y' := y + m0 / 12
  let m' := m0 % 12
  daysToYear y' + daysBefore m' + (if isLeap y' && m' ≥ 2 then 1 else 0) + d - 1

/-- Nanoseconds per day. -/
def dayNs : Int := 86400000000000

/-- Year, month, day from a Julian day number: `/repo/commonxl/dates.go:23-32` (Go integer division
truncates; 64-bit wrap-around is not modelled). -/
def civilFromJD (JD : Int) : Int × Int × Int :=
  let L := JD + 68569
  let N := (4 * L).tdiv 146097
  let L := L - (146097 * N + 3).tdiv 4
  let I := (4000 * (L + 1)).tdiv 1461001
  let L := L - (1461 * I).tdiv 4 + 31
  let J := (80 * L).tdiv 2447
  let day := L - (2447 * J).tdiv 80
  let L := J.tdiv 11
  (100 * (N - 49) + I + L, J + 2 - 12 * L, day)

/-- `Formatter.ConvertToDate`, `/repo/commonxl/dates.go:10-45`. -/
def convertToDate (mode1904 : Bool) (val : Float) : Time :=
  let v := f64ToInt val
  if v < 61 then
    let jdate := val + 0.5
    let jdate := jdate + (if mode1904 then 2416480.5 else 2415018.5)
    let JD := f64ToInt jdate
    let frac := jdate - f64OfInt JD
    let (y, m, d) := civilFromJD JD
    let t := f64ToInt (f64OfInt dayNs * frac)
    goDate y m d * dayNs + t
  else
    let frac := val - f64OfInt v
    let date := if mode1904 then goDate 1904 1 1 else goDate 1899 12 30
    let t := f64ToInt (f64OfInt dayNs * frac)
    (date + v) * dayNs + t

/-! ### numbers.go -/

/-- `math.Floor` on finite values: the integer part, minus one for negative non-integers. -/
def f64Floor (x : Float) : Float :=
  let t := f64TruncInt x
  if !x.isFinite then x
  else if f64OfInt t == x then x
  else if x < 0 then f64OfInt (t - 1) else f64OfInt t

/-- `math.Modf` : integer and fractional parts (same sign as the argument); NaN gives (NaN, NaN) and
an infinity gives itself and NaN. -/
def f64Modf (x : Float) : Float × Float :=
  if !x.isFinite then (x, x - x)
  else if x < 1 then
    if x < 0 then
      let y := -x
      if y < 1 then (-0.0, x) else (-(f64OfInt (f64TruncInt y)), -(y - f64OfInt (f64TruncInt y)))
    else if x == 0 then (x, x)
    else (0, x)
  else (f64OfInt (f64TruncInt x), x - f64OfInt (f64TruncInt x))

/-- `math.Round` (half away from zero) on finite values; the sign of a zero result is not kept. -/
def f64Round (x : Float) : Float :=
  let t := f64TruncInt x
  if !x.isFinite then x
  else
    let d := x - f64OfInt t
    if d ≥ 0.5 then f64OfInt (t + 1) else if d ≤ -0.5 then f64OfInt (t - 1) else f64OfInt t

/-- State of the continued-fraction loop, `/repo/commonxl/numbers.go:54-57`. -/
structure FracState where
  z : Float
  diff : Float
  denom : Float
  numer : Float
  lastDenom : Float
  lastNumer : Float

/-- Result of one step: go on, or return numerator and denominator. -/
inductive FracStep where
  | next (s : FracState)
  | done (num den : Int)

/-- One pass through the loop head and body, `/repo/commonxl/numbers.go:58-73`. -/
def fracStep (val maxn maxd : Float) (sign : Int) (s : FracState) : FracStep :=
  if s.diff > 1e-10 && s.z != f64Floor s.z then
    let z := 1 / (s.z - f64Floor s.z)
    let tmp := s.denom
    let denom := (s.denom * f64Floor z) + s.lastDenom
    let lastNumer := s.numer
    let numer := f64Round (val * denom)
    if numer ≥ maxn || denom ≥ maxd then .done (sign * f64ToInt lastNumer) (f64ToInt tmp)
    else
      let diff := val - numer / denom
      let diff := if diff < 0 then -diff else diff
      .next ⟨z, diff, denom, numer, tmp, lastNumer⟩
  else .done (sign * f64ToInt s.numer) (f64ToInt s.denom)

/-- The loop with fuel; `none` when the fuel runs out. -/
def fracLoop (val maxn maxd : Float) (sign : Int) : Nat → FracState → Option (Int × Int)
  | 0, _ => none
  | fuel + 1, s =>
    match fracStep val maxn maxd sign s with
    | .next s' => fracLoop val maxn maxd sign fuel s'
    | .done n d => some (n, d)

/-- `DecimalToFraction`, `/repo/commonxl/numbers.go:26-74`. `math.Pow(10, n)` is taken to be the
float nearest to `10^n` (exact for the digit counts 1 and 2 used by the library). -/
def decimalToFraction (fuel : Nat) (val : Float) (nn nd : Nat) : Option (Int × Int) :=
  let sign : Int := if val < 0 then -1 else 1
  let z := if val < 0 then -val else val
  let nn := if nn = 0 then 2 else nn
  let nd := if nd = 0 then 2 else nd
  let maxn := f64OfNat (10 ^ nn)
  let maxd := f64OfNat (10 ^ nd)
  let fracPart := (f64Modf val).2
  if fracPart == 0 then some (f64ToInt z * sign, 1)
  else if fracPart < 1e-9 then some (sign, 1000000000)
  else if fracPart > 1e9 then some (1000000000 * sign, 1)
  else fracLoop val maxn maxd sign fuel ⟨z, 1, 1, 0, 0, 0⟩

/-- `DecimalToWholeFraction`, `/repo/commonxl/numbers.go:10-21`. -/
def decimalToWholeFraction (fuel : Nat) (val : Float) (nn nd : Nat) : Option (Int × Int × Int) :=
  let (wholeF, part) := f64Modf val
  if part == 0 then some (f64ToInt wholeF, 0, 1)
  else
    let part := if part < 0 then -part else part
    (decimalToFraction fuel part nn nd).map (fun p => (f64ToInt wholeF, p.1, p.2))

end Grate
