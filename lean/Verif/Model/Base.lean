/-!
# Base: how Go computations are represented

Conventions shared by all models (nothing in `/repo` is modelled in this file except where cited).
-/

namespace Grate

/-- Go `[]byte` / `string` contents. -/
abbrev Bytes := List UInt8

/-- Go `error` values that the code can tell apart.
Sentinels of `/repo/errs.go:14-22`, the `io` sentinels, any other leaf error (`msg`), and
the wrapper `errx` of `/repo/errs.go:24-44`. -/
inductive GoErr where
  | notInFormat
  | unknownFormat
  | invalidScanType
  | eof
  | unexpectedEOF
  | msg (s : String)
  | errx (errs : List GoErr)

/-- Outcome of a Go call returning `(T, error)`: a value, an error, or a run-time panic.
(Where Go returns a value *together with* an error the callers in `/repo` ignore the value.) -/
inductive GoRes (α : Type) where
  | ok (a : α)
  | err (e : GoErr)
  | panic

namespace GoRes

/-- Sequencing: errors and panics end the computation. -/
def bind {α β : Type} (x : GoRes α) (f : α → GoRes β) : GoRes β :=
  match x with
  | ok a => f a
  | err e => err e
  | panic => panic

instance : Monad GoRes where
  pure := ok
  bind := bind

@[simp] theorem pure_eq {α : Type} (a : α) : (pure a : GoRes α) = ok a := rfl
@[simp] theorem ok_bind {α β : Type} (a : α) (f : α → GoRes β) : (ok a >>= f) = f a := rfl
@[simp] theorem err_bind {α β : Type} (e : GoErr) (f : α → GoRes β) : (err e >>= f) = err e := rfl
@[simp] theorem panic_bind {α β : Type} (f : α → GoRes β) : ((panic : GoRes α) >>= f) = panic := rfl

@[simp] theorem map_ok {α β : Type} (g : α → β) (a : α) : g <$> (ok a : GoRes α) = ok (g a) := rfl
@[simp] theorem map_err {α β : Type} (g : α → β) (e : GoErr) : g <$> (err e : GoRes α) = err e := rfl
@[simp] theorem map_panic {α β : Type} (g : α → β) : g <$> (panic : GoRes α) = panic := rfl

instance : LawfulMonad GoRes := LawfulMonad.mk'
  (id_map := by intro α x; cases x <;> rfl)
  (pure_bind := by intros; rfl)
  (bind_assoc := by intro α β γ x f g; cases x <;> rfl)

/-- The call completed with a value. -/
def isOk {α : Type} : GoRes α → Bool
  | ok _ => true
  | _ => false

theorem bind_eq_ok {α β : Type} {x : GoRes α} {f : α → GoRes β} {b : β} :
    (x >>= f) = ok b ↔ ∃ a, x = ok a ∧ f a = ok b := by
  cases x <;> simp

end GoRes

/-- The UTF-8 bytes of a Go string literal. -/
def lit (s : String) : Bytes := s.toUTF8.data.toList

/-- `binary.LittleEndian.Uint16` on two given bytes. -/
def le16 (a b : UInt8) : Nat := a.toNat + 256 * b.toNat

/-- `binary.LittleEndian.Uint32` on four given bytes. -/
def le32 (a b c d : UInt8) : Nat :=
  a.toNat + 256 * b.toNat + 65536 * c.toNat + 16777216 * d.toNat

/-- A Go `[]byte` with capacity: the visible bytes, and the bytes between `len` and `cap`
(which slice expressions `s[:n]` may expose). -/
structure Slice where
  val : Bytes
  rest : Bytes

namespace Slice

/-- `len(s)` -/
def len (s : Slice) : Nat := s.val.length

/-- `s[i]` : index expression, panics unless `i < len(s)`. -/
def idx (s : Slice) (i : Nat) : GoRes UInt8 :=
  match s.val[i]? with
  | some b => .ok b
  | none => .panic

/-- `s[lo:]` : the high bound defaults to `len(s)`. -/
def dropFrom (s : Slice) (lo : Nat) : GoRes Slice :=
  if lo ≤ s.val.length then .ok ⟨s.val.drop lo, s.rest⟩ else .panic

/-- `s[lo:hi]` : for slices `hi` may extend up to `cap(s)`. -/
def sub (s : Slice) (lo hi : Nat) : GoRes Slice :=
  if lo ≤ hi ∧ hi ≤ s.val.length + s.rest.length then
    .ok ⟨((s.val ++ s.rest).take hi).drop lo, (s.val ++ s.rest).drop hi⟩
  else .panic

/-- `binary.LittleEndian.Uint16(s)` : panics if `len(s) < 2`. -/
def u16 (s : Slice) : GoRes Nat :=
  match s.val with
  | a :: b :: _ => .ok (le16 a b)
  | _ => .panic

/-- `binary.LittleEndian.Uint32(s)` : panics if `len(s) < 4`. -/
def u32 (s : Slice) : GoRes Nat :=
  match s.val with
  | a :: b :: c :: d :: _ => .ok (le32 a b c d)
  | _ => .panic

/-- `binary.LittleEndian.Uint64(s)` : panics if `len(s) < 8`. -/
def u64 (s : Slice) : GoRes Nat :=
  match s.val with
  | a :: b :: c :: d :: e :: f :: g :: h :: _ => .ok (le32 a b c d + 4294967296 * le32 e f g h)
  | _ => .panic

end Slice

/-- Go conversion `float64(n)` of a non-negative integer (IEEE 754 round-to-nearest-even). -/
def f64OfNat (n : Nat) : Float := Float.ofModel (Float.Model.ofNat n)

/-- Go conversion `float64(n)` of an integer (IEEE 754 round-to-nearest-even). -/
def f64OfInt (n : Int) : Float := Float.ofModel (Float.Model.ofInt n)

/-! ### Decimal numerals (`strconv`) -/

/-- Decimal digit byte. -/
def digitByte (d : Nat) : UInt8 := UInt8.ofNat (48 + d)

/-- Digits of `n`, most significant first, given enough fuel. -/
def decNatAux : Nat → Nat → Bytes
  | 0, _ => []
  | fuel + 1, n => if n < 10 then [digitByte n] else decNatAux fuel (n / 10) ++ [digitByte (n % 10)]

/-- `strconv.FormatUint(n, 10)` (standard library: shortest decimal numeral). -/
def decNat (n : Nat) : Bytes := decNatAux (n + 1) n

/-- `strconv.FormatInt(n, 10)` (standard library), also `fmt.Sprint` / `%d` of an integer. -/
def decInt (n : Int) : Bytes :=
  if n < 0 then 45 :: decNat n.natAbs else decNat n.toNat

/-- Why `strconv.ParseInt` failed (`strconv.ErrSyntax` / `strconv.ErrRange`). -/
inductive NumErr where
  | syntax
  | range
deriving DecidableEq, Repr

/-- Is the byte an ASCII decimal digit? -/
def isDigit (b : UInt8) : Bool := 48 ≤ b && b ≤ 57

/-- `strconv.ParseUint(s, 10, bitSize)` loop (standard library) with `maxVal = 2^bitSize-1`:
value reached and error. A digit string overflowing `maxVal` stops with `maxVal, ErrRange`. -/
def parseUintLoop (maxVal : Nat) : Nat → Bytes → Nat × Option NumErr
  | n, [] => (n, none)
  | n, c :: cs =>
    if isDigit c then
      let n1 := n * 10 + (c.toNat - 48)
      if n1 > maxVal then (maxVal, some .range) else parseUintLoop maxVal n1 cs
    else (0, some .syntax)

/-- `strconv.ParseUint(s, 10, bitSize)`: empty input is a syntax error. -/
def parseUint (bits : Nat) (s : Bytes) : Nat × Option NumErr :=
  if s = [] then (0, some .syntax) else parseUintLoop (2 ^ bits - 1) 0 s

/-- `strconv.ParseInt(s, 10, bitSize)` (standard library): optional sign, digits, clamped on
range errors; returns the value together with the error as Go does. -/
def parseInt (bits : Nat) (s : Bytes) : Int × Option NumErr :=
  match s with
  | [] => (0, some .syntax)
  | c :: cs =>
    let neg : Bool := c == 45
    let body := if c == 43 || c == 45 then cs else c :: cs
    match parseUint bits body with
    | (_, some .syntax) => (0, some .syntax)
    | (un, e) =>
      let cutoff : Nat := 2 ^ (bits - 1)
      if !neg && cutoff ≤ un then ((cutoff : Int) - 1, some .range)
      else if neg && cutoff < un then (-(cutoff : Int), some .range)
      else if neg then (-(un : Int), e) else ((un : Int), e)

/-! ### `strings` -/

/-- `strings.Split(s, sep)` for a one-byte separator (standard library). Never empty. -/
def splitByte (sep : UInt8) : Bytes → List Bytes
  | [] => [[]]
  | c :: cs =>
    if c == sep then [] :: splitByte sep cs
    else
      match splitByte sep cs with
      | [] => [[c]]
      | p :: ps => (c :: p) :: ps

/-- `strings.Join(parts, sep)` for a one-byte separator (standard library). -/
def joinByte (sep : UInt8) : List Bytes → Bytes
  | [] => []
  | [p] => p
  | p :: ps => p ++ sep :: joinByte sep ps

end Grate
