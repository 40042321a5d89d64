import Verif.Model.MakeFormat
import Verif.Spec.Sheet
import Verif.Spec.XlsSheet

/-! # Specification of displayed text (C74 to C76) -/

namespace Grate.Spec

open Grate

/-- What is assumed of the printing functions of Go's library: they never print nothing for a float64, an
int64 or a time (a `Sprintf` format being given). -/
structure Prints (ext : Ext) : Prop where
  float : ∀ x, ext.floatV x ≠ []
  time : ∀ t, ext.timeString t ≠ []
  sprintfFloat : ∀ fs x, fs ≠ [] → ext.sprintfFloat fs x ≠ []
  sprintfInt : ∀ fs n, fs ≠ [] → ext.sprintfInt fs n ≠ []

/-- The formatters a program can have: those made by `Add` and `Mode1904` from a new one. -/
inductive Made : Formatter → Prop
  | new : Made .new
  | add {x : Formatter} (id : Nat) (code : Bytes) : Made x → Made (x.add makeFormatter id code).1
  | mode {x : Formatter} (b : Bool) : Made x → Made (x.setMode1904 b)

/-- The format number is built in or was added. -/
def Known (x : Formatter) (n : Nat) : Prop := (x.get n).2 = true

/-- The cell that a formula leaves in a sheet: an empty text under the format of the cell, then the text of its
result (`Put` and `Set`). -/
def FormulaText (ext : Ext) (f : Formatter) (n : Nat) (t : Bytes) (c : Cell) : Prop :=
  ∃ s s', (Sheet.new f).put ext 0 0 (.str []) n = .ok s ∧ s.set 0 0 (.str t) = .ok s' ∧ s'.cell? 0 0 = some c

/-- The format number of a write is known, and a text set on its own is not empty. -/
def What.Fit (f : Formatter) : What → Prop
  | .value _ n => Known f n
  | .text t n => Known f n ∧ t ≠ []
  | .link _ => True

/-- The second sheet is the first after some calls of Next. -/
inductive After : Sheet → Sheet → Prop
  | here (s : Sheet) : After s s
  | next {s s' : Sheet} : After s s' → After s s'.next.1

end Grate.Spec
