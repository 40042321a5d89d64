import Verif.Model.Base

/-! # Independent specification for C01–C03 -/

namespace Grate.Spec

open Grate

/-- `errors.Is(·, ErrNotInFormat)` as a relation on error values, independent of the recursion used
by the model: the sentinel itself, or a wrapper of at least two errors whose second is recognised. -/
inductive Recognised : GoErr → Prop
  | here : Recognised .notInFormat
  | second (e0 e1 : GoErr) (es : List GoErr) : Recognised e1 → Recognised (.errx (e0 :: e1 :: es))

/-- An opener's answer that makes the caller go on to the next format. -/
def Declines {S : Type} (r : GoRes S) : Prop := ∃ e, r = .err e ∧ Recognised e

/-- Formats registered in a history (list of priority/opener pairs): `r` is a legal outcome of
opening `f`. -/
def LegalOutcome {S : Type} (hist : List (Int × (Bytes → GoRes S))) (f : Bytes) (r : GoRes S) : Prop :=
  (∃ p ∈ hist, p.2 f = r ∧ ¬ Declines r ∧ ∀ q ∈ hist, q.1 < p.1 → Declines (q.2 f)) ∨
  ((∀ p ∈ hist, Declines (p.2 f)) ∧ r = .err .unknownFormat)

end Grate.Spec
