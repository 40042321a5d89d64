/-! # Independent specification of the civil (proleptic Gregorian) calendar: day by day -/

namespace Grate.Spec

/-- Leap years. -/
def Leap (y : Int) : Prop := y % 4 = 0 ∧ (y % 100 = 0 → y % 400 = 0)

instance (y : Int) : Decidable (Leap y) := by unfold Leap; infer_instance

/-- Length of a month. -/
def monthLen (y m : Int) : Int :=
  if m = 2 then (if Leap y then 29 else 28)
  else if m = 4 ∨ m = 6 ∨ m = 9 ∨ m = 11 then 30 else 31

/-- A date. -/
structure Date where
  y : Int
  m : Int
  d : Int
deriving DecidableEq

/-- The dates that exist. -/
def Date.Valid (t : Date) : Prop := 1 ≤ t.m ∧ t.m ≤ 12 ∧ 1 ≤ t.d ∧ t.d ≤ monthLen t.y t.m

/-- The day after. -/
def Date.next (t : Date) : Date :=
  if t.d < monthLen t.y t.m then ⟨t.y, t.m, t.d + 1⟩
  else if t.m < 12 then ⟨t.y, t.m + 1, 1⟩
  else ⟨t.y + 1, 1, 1⟩

/-- `n` days after. -/
def Date.after (t : Date) : Nat → Date
  | 0 => t
  | n + 1 => (t.after n).next

end Grate.Spec
