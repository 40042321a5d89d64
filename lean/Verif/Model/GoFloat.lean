import Verif.Model.Format

/-! # Model of Go's printing of float64 values with a given number of digits

`strconv.FormatFloat` with the verbs `f` and `E` and a precision (Go 1.16 and later, `strconv/ftoa.go`), and the
part of `fmt.Sprintf` that the formats of `/repo/commonxl/fmt.go:215-303` and `/repo/commonxl/formats.go:130-165`
use: `%<width>.<precision>f` and `%<width>.<precision>E`, each with `%%` behind it or not. The Go library is not part of the
repository: theorems use this model only through a hypothesis on `Ext.sprintfFloat`. -/

namespace Grate

/-- The quotient of two integers, rounded to the nearest integer, and to the even one of two
(`strconv.shouldRoundUp`). -/
def halfEven (N D : Nat) : Nat :=
  let q := N / D
  let r := N % D
  if 2 * r < D ∨ (2 * r = D ∧ q % 2 = 0) then q else q + 1

/-- Is the sign negative? -/
def isNegative : Float.Model.UnpackedFloat.Sign → Bool
  | .negative => true
  | .positive => false

/-- The number as sign, numerator and denominator; for an infinity or NaN its text. -/
def floatParts (x : Float) : (Bool × Nat × Nat) ⊕ Bytes :=
  match x.toModel.unpack with
  | .finite s m e _ => .inl (isNegative s, m * 2 ^ e.toNat, 2 ^ (-e).toNat)
  | .zero s => .inl (isNegative s, 0, 1)
  | .infinity s => .inr (if isNegative s then lit "-Inf" else lit "+Inf")
  | .notANumber => .inr (lit "NaN")

/-- The last `p` decimal digits of a number, zeros in front if there are fewer. -/
def lowDigits : Nat → Nat → Bytes
  | 0, _ => []
  | p + 1, n => lowDigits p (n / 10) ++ [digitByte (n % 10)]

/-- `k / 10^p` with `p` decimals; no point if there are none. -/
def pointed (p k : Nat) : Bytes :=
  decNat (k / 10 ^ p) ++ (if p = 0 then [] else 46 :: lowDigits p k)

/-- `strconv.FormatFloat(x, 'f', p, 64)` (and `fmt` adds the sign of +Inf): the exact value is rounded to `p`
decimals. -/
def goFixed (p : Nat) (x : Float) : Bytes :=
  match floatParts x with
  | .inr t => t
  | .inl (neg, N, D) => (if neg then [45] else []) ++ pointed p (halfEven (N * 10 ^ p) D)

/-- The exponent `e` with `10^e ≤ N/D < 10^(e+1)`, for a positive `N/D`. -/
def exponent10 (N D : Nat) : Int :=
  if D ≤ N then (decNat (N / D)).length - 1
  else -((decNat ((D - 1) / N)).length : Int)

/-- The exponent as printed by `%e`: a sign and at least two digits. -/
def exponentText (e : Int) : Bytes :=
  (if e < 0 then 45 else 43) ::
    (if e.natAbs < 10 then 48 :: decNat e.natAbs else decNat e.natAbs)

/-- `strconv.FormatFloat(x, 'E', p, 64)`: the exact value is rounded to `p + 1` significant digits. -/
def goScience (p : Nat) (x : Float) : Bytes :=
  match floatParts x with
  | .inr t => t
  | .inl (neg, N, D) =>
    let sign : Bytes := if neg then [45] else []
    if N = 0 then sign ++ pointed p 0 ++ 69 :: exponentText 0
    else
      let e := exponent10 N D
      let k := halfEven (N * 10 ^ (p - e).toNat) (D * 10 ^ (e - p).toNat)
      if k = 10 ^ (p + 1) then sign ++ pointed p (10 ^ p) ++ 69 :: exponentText (e + 1)
      else sign ++ pointed p k ++ 69 :: exponentText e

/-- `fmt.Sprintf(fs, x)` for `%<width>.<precision><verb>` with the verb `f` or `E` and `%%` or nothing behind it;
nothing for other formats. Widths and precisions above a million are errors in `fmt`. -/
def goSprintf (fs : Bytes) (x : Float) : Option Bytes :=
  match fs with
  | 37 :: rest =>
    let w := rest.takeWhile isDigit
    match rest.drop w.length with
    | 46 :: rest =>
      let p := rest.takeWhile isDigit
      let width := (parseUintLoop 1000000 0 w)
      let prec := (parseUintLoop 1000000 0 p)
      if w.head? = some 48 ∨ w = [] ∨ width.2.isSome ∨ p = [] ∨ prec.2.isSome then none
      else
        match rest.drop p.length with
        | 102 :: [] => some (padLeft width.1 (goFixed prec.1 x))
        | 102 :: [37, 37] => some (padLeft width.1 (goFixed prec.1 x) ++ [37])
        | 69 :: [] => some (padLeft width.1 (goScience prec.1 x))
        | 69 :: [37, 37] => some (padLeft width.1 (goScience prec.1 x) ++ [37])
        | _ => none
    | _ => none
  | _ => none

/-- What is assumed of `fmt.Sprintf` on floats: it prints as `goSprintf` says, for the formats that covers. -/
def GoPrints (ext : Ext) : Prop := ∀ fs x out, goSprintf fs x = some out → ext.sprintfFloat fs x = out

end Grate
