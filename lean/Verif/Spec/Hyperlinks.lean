import Verif.Spec.XlsStrings

/-! # Specification: hyperlink objects in workbook streams (MS-OSHARED 2.3.7), independent of the models -/

namespace Grate.Spec

/-- Blanks that are trimmed from the text of a hyperlink: space, tab, line and page breaks, NUL. -/
def Blank (b : UInt8) : Prop := b = 32 ∨ b = 9 ∨ b = 10 ∨ b = 11 ∨ b = 12 ∨ b = 13 ∨ b = 0

/-- `t` is `s` without the blanks at both ends. -/
def Trims (s t : Bytes) : Prop :=
  ∃ a b, s = a ++ (t ++ b) ∧ (∀ x ∈ a, Blank x) ∧ (∀ x ∈ b, Blank x) ∧
    (∀ x, t.head? = some x → ¬ Blank x) ∧ (∀ x, t.getLast? = some x → ¬ Blank x)

/-- Texts that can be written: Unicode scalars with a 32-bit length. -/
def HyperOk (t : List Nat) : Prop := (∀ r ∈ t, Scalar r) ∧ 2 * (t.flatMap units).length + 40 < 2 ^ 32

/-- A HyperlinkString (2.3.7.9): the number of characters with the final NUL, the characters, NUL. -/
def hyperText (t : List Nat) : Bytes :=
  leBytes 4 ((t.flatMap units).length + 1) ++ charBytes true (t.flatMap units ++ [0])

/-- What a hyperlink points to. -/
inductive Target where
  /-- nothing -/
  | none
  /-- a moniker saved as a string -/
  | text (t : List Nat)
  /-- a URL moniker (2.3.7.6), with or without the 24 bytes after the NUL -/
  | url (t : List Nat) (extra : Option (List Nat))
  /-- a file moniker (2.3.7.8) with the 8-bit path only: up-levels, path, fixed fields -/
  | file (anti : Nat) (path : List Nat) (fixed : Bytes)
  /-- a file moniker with the Unicode path as well -/
  | fileUni (anti : Nat) (path : Bytes) (fixed : Bytes) (key : Nat) (t : List Nat)

/-- The text of the target. -/
def Target.show : Target → List Nat
  | .none => []
  | .text t => t
  | .url t _ => t
  | .file _ p _ => p
  | .fileUni _ _ _ _ t => t

/-- Targets that can be written. -/
def Target.Ok : Target → Prop
  | .none => True
  | .text t => HyperOk t
  | .url t extra => HyperOk t ∧ 0 ∉ t ∧ ∀ x, extra = some x → x.length = 12 ∧ ∀ u ∈ x, u < 65536
  | .file _ p fixed => (∀ c ∈ p, c < 128) ∧ p.length + 1 < 2 ^ 32 ∧ fixed.length = 24
  | .fileUni _ p fixed _ t => HyperOk t ∧ p.length < 2 ^ 32 ∧ fixed.length = 24

/-- The bytes of the target. -/
def Target.bytes : Target → Bytes
  | .none => []
  | .text t => hyperText t
  | .url t extra =>
    [0xE0, 0xC9, 0xEA, 0x79, 0xF9, 0xBA, 0xCE, 0x11, 0x8C, 0x82, 0x00, 0xAA, 0x00, 0x4B, 0xA9, 0x0B] ++
      (leBytes 4 (2 * ((t.flatMap units).length + 1 + (extra.getD []).length)) ++
        charBytes true (t.flatMap units ++ (0 :: extra.getD [])))
  | .file anti p fixed =>
    [0x03, 0x03, 0x00, 0x00, 0x00, 0x00, 0x00, 0x00, 0xC0, 0x00, 0x00, 0x00, 0x00, 0x00, 0x00, 0x46] ++
      (leBytes 2 anti ++ (leBytes 4 (p.length + 1) ++ (charBytes false (p ++ [0]) ++ (fixed ++ leBytes 4 0))))
  | .fileUni anti p fixed key t =>
    [0x03, 0x03, 0x00, 0x00, 0x00, 0x00, 0x00, 0x00, 0xC0, 0x00, 0x00, 0x00, 0x00, 0x00, 0x00, 0x46] ++
      (leBytes 2 anti ++ (leBytes 4 p.length ++ (p ++ (fixed ++
        (leBytes 4 (2 * (t.flatMap units).length + 6) ++ (leBytes 4 (2 * (t.flatMap units).length) ++
          (leBytes 2 key ++ charBytes true (t.flatMap units))))))))

/-- A hyperlink. -/
structure Hyper where
  display : Option (List Nat)
  frame : Option (List Nat)
  target : Target
  location : Option (List Nat)
  /-- the flags word: see `Hyper.Ok` -/
  flags : Nat

/-- Hyperlinks that can be written: the flags say which parts follow. -/
structure Hyper.Ok (h : Hyper) : Prop where
  display : ∀ t, h.display = some t → HyperOk t
  frame : ∀ t, h.frame = some t → HyperOk t
  target : h.target.Ok
  location : ∀ t, h.location = some t → HyperOk t
  flags : h.flags < 2 ^ 32
  fMoniker : h.flags.testBit 0 = true ↔ h.target ≠ .none
  fLocation : h.flags.testBit 3 = h.location.isSome
  fDisplay : h.flags.testBit 4 = h.display.isSome
  fFrame : h.flags.testBit 7 = h.frame.isSome
  fString : h.target ≠ .none → (h.flags.testBit 8 = true ↔ ∃ t, h.target = .text t)

/-- The bytes of an optional string. -/
def optText : Option (List Nat) → Bytes
  | none => []
  | some t => hyperText t

/-- A Hyperlink Object (2.3.7.1) after a class id of 16 bytes. -/
def Hyper.bytes (h : Hyper) (cls : Bytes) : Bytes :=
  cls ++ (leBytes 4 2 ++ (leBytes 4 h.flags ++ (optText h.display ++ (optText h.frame ++ (h.target.bytes ++
    optText h.location)))))

end Grate.Spec
