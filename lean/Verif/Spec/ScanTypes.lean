import Verif.Spec.Sheet
import Verif.Model.Simple

/-! # Specification of scanning by `Types` (C139), after the comments of `/repo/grate.go:32-44` -/

namespace Grate.Spec

open Grate

/-- The variables that the documentation has for the names that `Types` may give. -/
inductive VarOf : Bytes → SDest → Prop
  | boolean (d) : VarOf (lit "boolean") (.bool d)
  | integer (d) : VarOf (lit "integer") (.int64 d)
  | float (d) : VarOf (lit "float") (.float d)
  | string (d) : VarOf (lit "string") (.str d)
  | date (d) : VarOf (lit "date") (.time d)
  | blank (d) : VarOf (lit "blank") (.str d)
  | hyperlink (d) : VarOf (lit "hyperlink") (.str d)

/-- A variable for a text, where `Types` says so (texts have no other types). -/
inductive TextVarOf : Bytes → Simple.Dest → Prop
  | string (d) : TextVarOf (lit "string") (.str d)
  | blank (d) : TextVarOf (lit "blank") (.str d)

/-- The value is of the kind that the type says, blank cells and links being texts. -/
def Named : CellType → Val → Prop
  | .boolean, .bool _ => True
  | .integer, .int _ => True
  | .float, .float _ => True
  | .date, .time _ => True
  | .string, .str _ => True
  | .blank, .str _ => True
  | .hyperlink, .str _ => True
  | _, _ => False

/-- The variable holds the value. -/
inductive HoldsVal : Val → SDest → Prop
  | bool (x) : HoldsVal (.bool x) (.bool x)
  | int (x) : HoldsVal (.int x) (.int64 x)
  | float (x) : HoldsVal (.float x) (.float x)
  | str (x) : HoldsVal (.str x) (.str x)
  | time (x) : HoldsVal (.time x) (.time x)

end Grate.Spec
