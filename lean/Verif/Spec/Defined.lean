import Verif.Model.MakeFormat
import Verif.Spec.XlsStream
import Verif.Spec.Xlsx

/-! # Specification: the number formats that a workbook defines (C135) -/

namespace Grate.Spec

/-- Among the definitions of a workbook there is one for the number `n`, and it is `code`. -/
def DefinedOnce (defs : List (Nat × Bytes)) (n : Nat) (code : Bytes) : Prop :=
  ∃ before after, defs = before ++ (n, code) :: after ∧ ∀ d ∈ before ++ after, d.1 ≠ n

/-- The definitions in the Format records of a workbook stream, as texts. -/
def Content.defs (c : Content) : List (Nat × Bytes) := c.formats.map (fun d => (d.1, utf8 d.2))

/-- The numbers with a fixed meaning here: those of ECMA-376 18.8.30 for all languages, and those for Chinese and Thai. -/
def Reserved (n : Nat) : Prop := n ≤ 4 ∨ 9 ≤ n ∧ n ≤ 22 ∨ 27 ≤ n ∧ n ≤ 62 ∨ 67 ≤ n ∧ n ≤ 81

/-- A program's own formatter to which one definition was added. -/
def onlyDefined (n : Nat) (code : Bytes) : Formatter := (Formatter.new.add makeFormatter n code).1

end Grate.Spec
