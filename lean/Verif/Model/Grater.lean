import Verif.Model.Open

/-! # Model of `/repo/cmd/grater/main.go` -/

namespace Grate.Grater

open Grate Grate.Api

/-- What the command writes: bytes on standard output, or the line of an error on standard error. -/
inductive Event where
  | out (b : Bytes)
  | err (e : GoErr)

/-- `strings.Join` (standard library). -/
def join (sep : Bytes) : List Bytes → Bytes
  | [] => []
  | [x] => x
  | x :: y :: xs => x ++ sep ++ join sep (y :: xs)

/-- `fmt.Println(strings.Join(row, "\t"))`. -/
def println (row : List Bytes) : Event := .out (join [9] row ++ [10])

/-- The rest of a program after a part of it that may not end, crash, or give a value. -/
def andThen {α β : Type} (x : Option (GoRes α)) (f : α → Option (GoRes β)) : Option (GoRes β) :=
  match x with
  | none => none
  | some .panic => some .panic
  | some (.err e) => some (.err e)
  | some (.ok a) => f a

/-- The loop over the rows, `main.go:46-53`: the collection afterwards and what was written. `none` if the loop has
not ended after `fuel` calls of `Next`. Writing always succeeds. -/
def rowLoop (ext : Ext) (v : Bool) : Nat → Coll → Option (GoRes (Coll × List Event))
  | 0, _ => none
  | fuel + 1, c =>
    andThen (some c.next) fun (c', more) =>
      if more then
        andThen (some (if v then do pure [println (← c'.types)] else .ok [])) fun ev =>
        andThen (some (c'.strings ext)) fun row =>
        andThen (rowLoop ext v fuel c') fun (c2, evs) => some (.ok (c2, ev ++ println row :: evs))
      else some (.ok (c', []))

/-- The loop over the sheets, `main.go:39-54`. -/
def sheetLoop (ext : Ext) (v : Bool) (fuel : Nat) : Source → List Bytes → Option (GoRes (List Event))
  | _, [] => some (.ok [])
  | src, s :: ss =>
    andThen (some (src.get ext s)) fun (src', r) =>
      match r with
      | .error e => andThen (sheetLoop ext v fuel src' ss) fun evs => some (.ok (.err e :: evs))
      | .ok c =>
        andThen (rowLoop ext v fuel c) fun (c', ev) =>
        andThen (sheetLoop ext v fuel (src'.used s c') ss) fun evs => some (.ok (ev ++ evs))

/-- The loop over the files, `main.go:25-56`. `List` has no errors for the shipped formats; `Close` has no effect that
is modelled. A panic ends the program. -/
def main (ext : Ext) (v : Bool) (fuel : Nat) (t : List (Entry Source)) : List Bytes → Option (GoRes (List Event))
  | [] => some (.ok [])
  | fn :: fns =>
    match openSrc t fn with
    | .panic => some .panic
    | .err e => andThen (main ext v fuel t fns) fun evs => some (.ok (.err e :: evs))
    | .ok src =>
      andThen (sheetLoop ext v fuel src src.list) fun ev =>
      andThen (main ext v fuel t fns) fun evs => some (.ok (ev ++ evs))

end Grate.Grater
