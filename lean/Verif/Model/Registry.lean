import Verif.Model.Base

/-! # Model of `/repo/grate.go` and `/repo/errs.go` -/

namespace Grate

/-! ### errs.go -/

/-- `errx.Unwrap`, `/repo/errs.go:31-36`: the second error if there are at least two. Leaf errors
do not unwrap to any sentinel of this package (simplification: library errors such as
`*fs.PathError` do unwrap, but never to a `grate` sentinel). -/
def GoErr.unwrap : GoErr → Option GoErr
  | .errx (_ :: e1 :: _) => some e1
  | _ => none

/-- `WrapErr`, `/repo/errs.go:38-44`. -/
def wrapErr (es : List GoErr) : GoErr :=
  match es with
  | [e] => e
  | es => .errx es

theorem GoErr.unwrap_size {e e' : GoErr} (h : e.unwrap = some e') : sizeOf e' < sizeOf e := by
  unfold GoErr.unwrap at h
  split at h
  · simp only [Option.some.injEq] at h
    subst h
    simp
    omega
  · simp at h

/-- `errors.Is(err, grate.ErrNotInFormat)` (standard library, used at `/repo/grate.go:64`): walks
the `Unwrap` chain comparing with the sentinel. -/
def GoErr.isNotInFormat (e : GoErr) : Bool :=
  match e with
  | .notInFormat => true
  | e =>
    match _h : e.unwrap with
    | some e' => e'.isNotInFormat
    | none => false
termination_by sizeOf e
decreasing_by exact GoErr.unwrap_size (by assumption)

/-- `errx.Error`, `/repo/errs.go:28-30` : the message of the first error; an `errx` without errors
panics (`none`). Messages of leaf errors are the texts in `/repo/errs.go:14-22` / the leaf's own. -/
def GoErr.message : GoErr → Option String
  | .notInFormat => some "grate: file is not in this format"
  | .unknownFormat => some "grate: file format is not known/supported"
  | .invalidScanType =>
    some "grate: Scan only supports *bool, *int, *float64, *string, *time.Time arguments"
  | .eof => some "EOF"
  | .unexpectedEOF => some "unexpected EOF"
  | .msg s => some s
  | .errx [] => none
  | .errx (e :: _) => e.message

/-! ### grate.go -/

/-- One row of `srcTable`, `/repo/grate.go:74-78`. `S` is the type of sources; the opener is a
function of the file name (its file-system effects are part of the function). -/
structure Entry (S : Type) where
  name : String
  pri : Int
  op : Bytes → GoRes S

/-- `Register`, `/repo/grate.go:82-92`: appends and re-sorts with `sort.Slice`, which is not
stable. The model allows every priority-sorted permutation of the extended table. -/
def Registers {S : Type} (t : List (Entry S)) (e : Entry S) (t' : List (Entry S)) : Prop :=
  t'.Perm (t ++ [e]) ∧ t'.Pairwise (fun a b => a.pri ≤ b.pri)

/-- Tables reachable from the empty table (`/repo/grate.go:80`) by registering `hist` in order. -/
inductive Reachable {S : Type} : List (Entry S) → List (Entry S) → Prop
  | init : Reachable [] []
  | register {hist t t' : List (Entry S)} {e : Entry S} :
      Reachable hist t → Registers t e t' → Reachable (hist ++ [e]) t'

/-- `Open`, `/repo/grate.go:57-72`, returning also the entries whose opener was called, in order.
Debug logging is not modelled. -/
def openTrace {S : Type} (f : Bytes) : List (Entry S) → List (Entry S) × GoRes S
  | [] => ([], .err .unknownFormat)
  | o :: os =>
    match o.op f with
    | .ok src => ([o], .ok src)
    | .panic => ([o], .panic)
    | .err e =>
      if e.isNotInFormat then
        let r := openTrace f os
        (o :: r.1, r.2)
      else ([o], .err e)

/-- `Open`, `/repo/grate.go:57-72`. -/
def openSrc {S : Type} (t : List (Entry S)) (f : Bytes) : GoRes S := (openTrace f t).2

end Grate
