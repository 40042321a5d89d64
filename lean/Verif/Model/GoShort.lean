import Verif.Model.GoFloat

/-! # Model of Go's shortest printing of float64 values

`strconv.FormatFloat(x, 'f', -1, 64)`, `strconv.FormatFloat(x, 'g', 6, 64)` and `fmt.Sprint(x)`, which
`/repo/commonxl/fmt.go:70-83` calls (`strconv/ftoa.go`: `roundShortest`, `%f`, `%g`). The Go library is not part of
the repository: theorems use this model only through a hypothesis on `Ext.floatF`, `Ext.floatG6` and `Ext.floatV`. -/

namespace Grate

/-- A positive number, and the numbers that are read as it: `N/D`, from `Lo/D` to `Hi/D`, with the ends or without
them. -/
structure ShortIn where
  N : Nat
  D : Nat
  Lo : Nat
  Hi : Nat
  incl : Bool

/-- Of a mantissa and an exponent: half the distance to the next number on each side (the one below a power of two is
nearer); numbers in the middle are read as the one with an even mantissa. -/
def shortIn (m : Nat) (e : Int) : ShortIn :=
  let u := 2 ^ (e - 2).toNat
  { N := 4 * m * u
    D := 2 ^ (2 - e).toNat
    Lo := (if m = 2 ^ 52 ∧ -1074 < e then 4 * m - 1 else 4 * m - 2) * u
    Hi := (4 * m + 2) * u
    incl := m % 2 == 0 }

/-- Is `k · 10^j` read as the number? -/
def ShortIn.has (s : ShortIn) (k : Nat) (j : Int) : Bool :=
  let a := k * 10 ^ j.toNat * s.D
  let p := 10 ^ (-j).toNat
  if s.incl then s.Lo * p ≤ a && a ≤ s.Hi * p else s.Lo * p < a && a < s.Hi * p

/-- The `n` digits that are read as the number, if there are any: the nearest, if both neighbours will do. -/
def ShortIn.pick (s : ShortIn) (n : Nat) : Option (Nat × Int) :=
  let j := exponent10 s.N s.D + 1 - n
  let A := s.N * 10 ^ (-j).toNat
  let B := s.D * 10 ^ j.toNat
  let q := A / B
  match s.has q j, s.has (q + 1) j with
  | true, true => some (halfEven A B, j)
  | true, false => some (q, j)
  | false, true => some (q + 1, j)
  | false, false => none

/-- The first number of digits for which there are some; 17 digits always suffice. -/
def ShortIn.digits (s : ShortIn) : Nat × Int :=
  ((List.range 17).findSome? (fun i => s.pick (i + 1))).getD (0, 0)

/-- Zeros at the end of `k · 10^j` go to the exponent. -/
def stripZeros : Nat → Nat → Int → Nat × Int
  | 0, k, j => (k, j)
  | fuel + 1, k, j => if k ≠ 0 ∧ k % 10 = 0 then stripZeros fuel (k / 10) (j + 1) else (k, j)

/-- `k · 10^j` without exponent (`%f` with all digits). -/
def plainText (k : Nat) (j : Int) : Bytes :=
  if 0 ≤ j then decNat k ++ List.replicate j.toNat 48 else pointed (-j).toNat k

/-- `k · 10^j` with one digit before the point and an exponent (`%e` with all digits). -/
def sciText (k : Nat) (j : Int) : Bytes :=
  let nd := (decNat k).length
  pointed (nd - 1) k ++ 101 :: exponentText (nd + j - 1)

/-- The digits of a number and the power of ten of the last one, or a text for zero, infinities and NaN. -/
def shortParts (digits : Nat → Int → Nat × Int) (x : Float) : (Bool × Nat × Int) ⊕ Bytes :=
  match x.toModel.unpack with
  | .finite s m e _ => let d := digits m e; .inl (isNegative s, stripZeros 20 d.1 d.2)
  | .zero s => .inr (if isNegative s then lit "-0" else lit "0")
  | .infinity s => .inr (if isNegative s then lit "-Inf" else lit "+Inf")
  | .notANumber => .inr (lit "NaN")

/-- The shortest digits of a number. -/
def shortestDigits (m : Nat) (e : Int) : Nat × Int := (shortIn m e).digits

/-- The nearest number with six digits. -/
def sixDigits (m : Nat) (e : Int) : Nat × Int :=
  let N := m * 2 ^ e.toNat
  let D := 2 ^ (-e).toNat
  let j := exponent10 N D - 5
  (halfEven (N * 10 ^ (-j).toNat) (D * 10 ^ j.toNat), j)

/-- `strconv.FormatFloat(x, 'f', -1, 64)`. -/
def goShortF (x : Float) : Bytes :=
  match shortParts shortestDigits x with
  | .inr t => t
  | .inl (neg, k, j) => (if neg then [45] else []) ++ plainText k j

/-- `%g`: with an exponent if it is less than -4, or `eprec` or more. -/
def generalText (eprec : Nat) (k : Nat) (j : Int) : Bytes :=
  let exp := (decNat k).length + j - 1
  if exp < -4 ∨ (eprec : Int) ≤ exp then sciText k j else plainText k j

/-- `fmt.Sprint(x)`, which is `strconv.FormatFloat(x, 'g', -1, 64)`: an exponent is used from 6 on. -/
def goShortG (x : Float) : Bytes :=
  match shortParts shortestDigits x with
  | .inr t => t
  | .inl (neg, k, j) => (if neg then [45] else []) ++ generalText 6 k j

/-- `strconv.FormatFloat(x, 'g', 6, 64)`: an exponent is used if there are fewer digits than it says, or six. -/
def goSix (x : Float) : Bytes :=
  match shortParts sixDigits x with
  | .inr t => t
  | .inl (neg, k, j) =>
    let nd := (decNat k).length
    (if neg then [45] else []) ++ generalText (if nd < 6 ∧ j ≤ 0 then nd else 6) k j

/-- What is assumed of the printing of floats. -/
structure GoShort (ext : Ext) : Prop where
  plain : ∀ x, ext.floatF x = goShortF x
  six : ∀ x, ext.floatG6 x = goSix x
  sprint : ∀ x, ext.floatV x = goShortG x

end Grate
