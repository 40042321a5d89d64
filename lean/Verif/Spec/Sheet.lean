import Verif.Model.Sheet

/-! # Independent specification of sheet histories (C10–C18) -/

namespace Grate.Spec

open Grate

/-- A call made on a sheet. -/
inductive Op where
  | put (row col : Int) (v : GoVal) (fmt : Nat)
  | resize (rows cols : Int)
  | next

/-- Perform one call. -/
def Op.apply (ext : Ext) (s : Sheet) : Op → GoRes Sheet
  | .put r c v f => s.put ext r c v f
  | .resize r c => .ok (s.resize r c)
  | .next => .ok s.next.1

/-- Perform a sequence of calls. -/
def run (ext : Ext) : Sheet → List Op → GoRes Sheet
  | s, [] => .ok s
  | s, op :: ops => do
    let s' ← op.apply ext s
    run ext s' ops

/-- Coordinates and sizes are non-negative. -/
def Op.NonNeg : Op → Prop
  | .put r c _ _ => 0 ≤ r ∧ 0 ≤ c
  | .resize r c => 0 ≤ r ∧ 0 ≤ c
  | .next => True

/-- The value has a type `NewCell` documents. -/
def Supported : GoVal → Prop
  | .other => False
  | _ => True

/-- The values written are of supported types. -/
def Op.Supported : Op → Prop
  | .put _ _ v _ => Spec.Supported v
  | _ => True

/-- The last write addressed to (r,c). -/
def lastWrite (r c : Int) : List Op → Option (GoVal × Nat)
  | [] => none
  | op :: ops =>
    match lastWrite r c ops with
    | some w => some w
    | none =>
      match op with
      | .put r' c' v f => if r' = r ∧ c' = c then some (v, f) else none
      | _ => none

/-- Every resize in the history asks for at least the size the sheet has at that moment. -/
def Growing (ext : Ext) : Sheet → List Op → Prop
  | _, [] => True
  | s, op :: ops =>
    (match op with
      | .resize r c => s.numRows ≤ r ∧ s.numCols ≤ c
      | _ => True) ∧
    ∀ s', op.apply ext s = .ok s' → Growing ext s' ops

/-- The value has the Go type a type name promises. -/
def Truthful : CellType → Val → Prop
  | .boolean, .bool _ => True
  | .integer, .int _ => True
  | .float, .float _ => True
  | .string, .str _ => True
  | .date, .time _ => True
  | .blank, .nil => True
  | _, _ => False

/-- `Cell` values as they appear at the end of a `Put` on a fresh sheet: what a write builds. -/
def Builds (ext : Ext) (f : Formatter) (v : GoVal) (n : Nat) (c : Cell) : Prop :=
  ∃ s, (Sheet.new f).put ext 0 0 v n = .ok s ∧ s.cell? 0 0 = some c

/-- Destination `d'` is `d` overwritten with the value, which has exactly the destination's type. -/
inductive Filled : Val → SDest → SDest → Prop
  | bool (x d) : Filled (.bool x) (.bool d) (.bool x)
  | int (x d) : Filled (.int x) (.int64 d) (.int64 x)
  | float (x d) : Filled (.float x) (.float d) (.float x)
  | str (x d) : Filled (.str x) (.str d) (.str x)
  | time (x d) : Filled (.time x) (.time d) (.time x)

end Grate.Spec
