import Verif.Model.Base

/-! # Unicode conversions of the Go standard library used by `/repo` -/

namespace Grate

/-- `utf8.RuneError`. -/
def runeError : Nat := 0xFFFD

/-- `utf8.AppendRune` (standard library): UTF-8 encoding; invalid runes become U+FFFD. -/
def utf8Rune (r : Nat) : Bytes :=
  if r < 0x80 then [UInt8.ofNat r]
  else if r < 0x800 then [UInt8.ofNat (0xC0 + r / 64), UInt8.ofNat (0x80 + r % 64)]
  else if (0xD800 ≤ r ∧ r < 0xE000) ∨ 0x10FFFF < r then [0xEF, 0xBF, 0xBD]
  else if r < 0x10000 then
    [UInt8.ofNat (0xE0 + r / 4096), UInt8.ofNat (0x80 + r / 64 % 64), UInt8.ofNat (0x80 + r % 64)]
  else
    [UInt8.ofNat (0xF0 + r / 262144), UInt8.ofNat (0x80 + r / 4096 % 64),
     UInt8.ofNat (0x80 + r / 64 % 64), UInt8.ofNat (0x80 + r % 64)]

/-- `string([]rune)` (Go conversion). -/
def utf8Encode (rs : List Nat) : Bytes := rs.flatMap utf8Rune

/-- `utf16.Decode` (standard library): surrogate pairs are combined, lone surrogates become
U+FFFD. -/
def utf16Decode : List Nat → List Nat
  | [] => []
  | [u] => if 0xD800 ≤ u ∧ u < 0xE000 then [runeError] else [u]
  | u :: v :: rest =>
    if 0xD800 ≤ u ∧ u < 0xDC00 ∧ 0xDC00 ≤ v ∧ v < 0xE000 then
      ((u - 0xD800) * 1024 + (v - 0xDC00) + 0x10000) :: utf16Decode rest
    else if 0xD800 ≤ u ∧ u < 0xE000 then runeError :: utf16Decode (v :: rest)
    else u :: utf16Decode (v :: rest)

end Grate
