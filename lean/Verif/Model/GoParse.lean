import Verif.Model.Format

/-! # Model of `strconv.ParseFloat(s, 64)` on decimal numerals

Go's `strconv/atof.go` (`readFloat`, `ParseFloat`): an optional sign, digits with at most one point, an optional
exponent; the result is the float64 nearest to the decimal number, and an infinity with `ErrRange` beyond the range.
The fast paths and the 800 digits of the slow path compute the same number and are not modelled one by one. Texts
with other bytes (hexadecimal numerals, underscores, `inf`, `nan`) are left open. The Go library is not part of the
repository (it is called at `/repo/xlsx/sheets.go:84`, `/repo/commonxl/fmt.go:142`, `/repo/simple/simple.go:95` and
`/repo/commonxl/cell.go:175`): theorems use this model only through a hypothesis on `Ext.parseFloat`. -/

namespace Grate

open Float.Model

/-- An optional sign. -/
def splitSign : Bytes → Bool × Bytes
  | 43 :: r => (false, r)
  | 45 :: r => (true, r)
  | r => (false, r)

/-- The number written by digits. -/
def digitsNat (ds : Bytes) : Nat := ds.foldl (fun n b => n * 10 + (b.toNat - 48)) 0

/-- The number written by the digits of an exponent: digits behind a number of 10000 or more do not count. -/
def expDigits (ds : Bytes) : Nat := ds.foldl (fun e b => if e < 10000 then e * 10 + (b.toNat - 48) else e) 0

/-- The exponent: nothing, or `e`, an optional sign and digits. -/
def readExponent : Bytes → Option Int
  | [] => some 0
  | c :: r =>
    if c = 101 ∨ c = 69 then
      if (splitSign r).2 = [] ∨ (splitSign r).2.all isDigit = false then none
      else some (if (splitSign r).1 then -(expDigits (splitSign r).2 : Int) else expDigits (splitSign r).2)
    else none

/-- The digits after the point and what is behind them. -/
def readFraction : Bytes → Bytes × Bytes
  | 46 :: r => (r.takeWhile isDigit, r.drop (r.takeWhile isDigit).length)
  | r => ([], r)

/-- A numeral as sign, digits and power of ten. -/
def readDecimal (s : Bytes) : Option (Bool × Nat × Int) :=
  let r := (splitSign s).2
  let a := r.takeWhile isDigit
  let f := readFraction (r.drop a.length)
  if a ++ f.1 = [] then none
  else
    match readExponent f.2 with
    | none => none
    | some e => some ((splitSign s).1, digitsNat (a ++ f.1), e - f.1.length)

/-- The float64 nearest to `± n · 10^e` (core's division is correctly rounded for all sizes of the operands). -/
def decFloat (neg : Bool) (n : Nat) (e : Int) : Float :=
  let s := if neg then UnpackedFloat.Sign.negative else .positive
  if h : 0 < n then
    Float.ofModel (Float.Model.pack (UnpackedFloat.div .binary64
      (.finite s (n * 10 ^ e.toNat) 0 (Nat.mul_pos h (Nat.pow_pos (by decide))))
      (.finite .positive (10 ^ (-e).toNat) 0 (Nat.pow_pos (by decide)))))
  else Float.ofModel (Float.Model.pack (.zero s))

/-- The bytes of decimal numerals. -/
def numeralByte (b : UInt8) : Bool := isDigit b || b == 43 || b == 45 || b == 46 || b == 101 || b == 69

/-- `strconv.ParseFloat(s, 64)`; nothing for texts with other bytes. -/
def goParseFloat (s : Bytes) : Option (Float × Option NumErr) :=
  if s.all numeralByte then
    match readDecimal s with
    | none => some (0, some .syntax)
    | some (neg, n, e) =>
      let x := decFloat neg n e
      some (x, if x.isFinite then none else some .range)
  else none

/-- What is assumed of `strconv.ParseFloat`. -/
def GoParses (ext : Ext) : Prop := ∀ s r, goParseFloat s = some r → ext.parseFloat s = r

end Grate
