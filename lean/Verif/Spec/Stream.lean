import Verif.Model.Base

/-! # Specification: a byte stream with a position

A stream is a list of bytes and a position. Reading delivers a non-empty prefix of what remains, and EOF
only when nothing remains; seeking moves the position and reports it. -/

namespace Grate.Spec

/-- `results` are what successive reads with the buffer sizes `ks` may return on the stream `c` from
position `p`. -/
inductive Delivers (c : Bytes) : (p : Nat) → (ks : List Nat) → (results : List (GoRes Bytes)) → Prop where
  | nil (p : Nat) : Delivers c p [] []
  | data (p k : Nat) (b : Bytes) (ks : List Nat) (rs : List (GoRes Bytes)) : p < c.length → b ≠ [] →
      b.length ≤ k → b <+: c.drop p → Delivers c (p + b.length) ks rs →
      Delivers c p (k :: ks) (.ok b :: rs)
  | eof (p k : Nat) (ks : List Nat) (rs : List (GoRes Bytes)) : c.length ≤ p → Delivers c p ks rs →
      Delivers c p (k :: ks) (.err .eof :: rs)

/-- Where a seek starts counting. -/
inductive Base where
  | start
  | current
  | fromEnd

/-- The position a seek asks for. -/
def target (total cur : Nat) : Base → Int → Int
  | .start, o => o
  | .current, o => cur + o
  | .fromEnd, o => total + o

/-- Calls on a stream. -/
inductive Call where
  | read (k : Nat)
  | seek (b : Base) (o : Int)

/-- Results of calls. -/
inductive Ret where
  | bytes (b : Bytes)
  | eof
  | at (p : Nat)

/-- One call on the stream `c` at position `p` may return `r` and move to `p'`. -/
inductive Step (c : Bytes) : (p : Nat) → Call → Ret → (p' : Nat) → Prop where
  | data (p k : Nat) (b : Bytes) : p < c.length → b ≠ [] → b.length ≤ k → b <+: c.drop p →
      Step c p (.read k) (.bytes b) (p + b.length)
  | eof (p k : Nat) : c.length ≤ p → Step c p (.read k) .eof p
  | seek (p : Nat) (b : Base) (o : Int) (p' : Nat) : (p' : Int) = target c.length p b o →
      Step c p (.seek b o) (.at p') p'

/-- A history of calls. -/
inductive Steps (c : Bytes) : Nat → List Call → List Ret → Nat → Prop where
  | nil (p : Nat) : Steps c p [] [] p
  | cons (p p' p'' : Nat) (x : Call) (r : Ret) (xs : List Call) (rs : List Ret) :
      Step c p x r p' → Steps c p' xs rs p'' → Steps c p (x :: xs) (r :: rs) p''

end Grate.Spec
