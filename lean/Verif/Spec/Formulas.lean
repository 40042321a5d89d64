import Verif.Spec.Xlsx

/-! # Specification: formulas in worksheets (C132)

ECMA-376, 18.3.1.40: a cell may have a formula (`f`) before its value (`v`), which is the result that the formula had when it was
computed last. A reader that does not compute takes the result. -/

namespace Grate.Spec

open Grate
open Grate.Xlsx (Tok)

/-- The second worksheet is the first without some of its formulas. A formula with a text is in a cell that has a result with a text
after it and that is not of the type of shared strings (no program writes the result of a formula as a shared string); a formula
without a text (one that refers to the formula of another cell) may be anywhere. -/
inductive WithoutFormulas : List Tok → List Tok → Prop where
  | nil : WithoutFormulas [] []
  | keep (t : Tok) (ts ts' : List Tok) : WithoutFormulas ts ts' → WithoutFormulas (t :: ts) (t :: ts')
  | empty (a : List (Bytes × Bytes)) (ts ts' : List Tok) : WithoutFormulas ts ts' →
      WithoutFormulas (.start (lit "f") a :: .stop (lit "f") :: ts) ts'
  | formula (attrs a b : List (Bytes × Bytes)) (pre mid : List Tok) (f s : Bytes) (ts ts' : List Tok) : Distinct attrs →
      ¬ Has attrs "t" (lit "s") → (∀ x ∈ pre, CellToken x) → (∀ x ∈ mid, CellToken x) → f ≠ [] → WithoutFormulas ts ts' →
      WithoutFormulas
        (.start (lit "c") attrs :: (pre ++ .start (lit "f") a :: .chars f :: .stop (lit "f") ::
          (mid ++ .start (lit "v") b :: .chars s :: .stop (lit "v") :: ts)))
        (.start (lit "c") attrs :: (pre ++ (mid ++ .start (lit "v") b :: .chars s :: .stop (lit "v") :: ts')))

/-- The second worksheet has, in place of some formulas without a result (as written by programs that do not compute) or with the
empty text as the result, values with the texts of the formulas. -/
inductive FormulasAsValues : List Tok → List Tok → Prop where
  | nil : FormulasAsValues [] []
  | keep (t : Tok) (ts ts' : List Tok) : FormulasAsValues ts ts' → FormulasAsValues (t :: ts) (t :: ts')
  | noResult (a : List (Bytes × Bytes)) (f : Bytes) (ts ts' : List Tok) : FormulasAsValues ts ts' →
      FormulasAsValues (.start (lit "f") a :: .chars f :: .stop (lit "f") :: ts)
        (.start (lit "v") [] :: .chars f :: .stop (lit "v") :: ts')
  | emptyResult (a b : List (Bytes × Bytes)) (f : Bytes) (ts ts' : List Tok) : FormulasAsValues ts ts' →
      FormulasAsValues (.start (lit "f") a :: .chars f :: .stop (lit "f") :: .start (lit "v") b :: .stop (lit "v") :: ts)
        (.start (lit "v") [] :: .chars f :: .stop (lit "v") :: ts')

/-- What was read from two entries of an archive: the same error, or parts whose texts are related and end alike. -/
inductive PartsBy (R : List Tok → List Tok → Prop) : Except GoErr Xlsx.Part → Except GoErr Xlsx.Part → Prop where
  | part (ts us : List Tok) (e : GoErr) : R ts us → PartsBy R (.ok ⟨ts, e⟩) (.ok ⟨us, e⟩)
  | error (e : GoErr) : PartsBy R (.error e) (.error e)

end Grate.Spec
