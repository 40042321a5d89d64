import Verif.Model.Base

/-! # Independent specification of row iteration -/

namespace Grate.Spec

open Grate

/-- A client loop `for c.Next() { out = append(out, c.Strings()) }`, for any object with a `Next`
and a `Strings` method. `none` if the loop has not ended after `fuel` calls to `Next`. -/
def drain {σ ρ : Type} (next : σ → σ × Bool) (strings : σ → GoRes ρ) :
    Nat → σ → Option (GoRes (List ρ))
  | 0, _ => none
  | fuel + 1, s =>
    match next s with
    | (_, false) => some (.ok [])
    | (s', true) =>
      match drain next strings fuel s' with
      | none => none
      | some rest => some (do let r ← strings s'; let rs ← rest; pure (r :: rs))

/-- The state after `k` calls to `Next`. -/
def afterNext {σ : Type} (next : σ → σ × Bool) : Nat → σ → σ
  | 0, s => s
  | k + 1, s => afterNext next k (next s).1

end Grate.Spec
