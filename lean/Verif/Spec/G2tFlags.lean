import Verif.Spec.Grate2tsv

/-! # Specification of the flags of `grate2tsv` (C138): `-r`, `-w`, `-b` as their descriptions say -/

namespace Grate.Spec

open Grate

/-- `t` is the text of the cell `c`: with `-r` tabs, newlines and spaces are condensed, with `-w` white space at the ends is removed. -/
def CellText (r w : Bool) (c t : Bytes) : Prop :=
  ∃ d, (if r then Squeezed Gap 32 c d else d = c) ∧ (if w then Stripped d t else t = d)

/-- `content` is the tab-separated text of the rows `kept`: all rows with the texts of their cells, with `-b` without the blank ones. -/
def FlagText (r w b : Bool) (rows kept : List (List Bytes)) (content : Bytes) : Prop :=
  ∃ texts, All2 (All2 (CellText r w)) rows texts ∧
    kept = (if b then texts.filter (fun row => decide (HasText row)) else texts) ∧ content = tsvText kept

end Grate.Spec
