import Verif.Model.Grate2tsv
import Verif.Model.Grater

/-! # `processFile` of `/repo/cmd/grate2tsv/main.go` on the shipped sources

`Model/Grate2tsv` has `processFile` for any source, given by what its calls return. Here the source is one of those that are
shipped, so that its calls are those of `Model/Open`. -/

namespace Grate.G2t

open Grate Grate.Api
open Grate.Grater (andThen)

/-- `IsEmpty`, `/repo/commonxl/sheet.go:225-227`, `/repo/simple/simple.go:111-113`; on the nil sheet it crashes. -/
def collEmpty : Api.Coll → GoRes Bool
  | .sheet s => .ok s.isEmpty
  | .noSheet => .panic
  | .text f => .ok f.isEmpty

/-- The rows that the loop over `Next` and `Strings` delivers, `main.go:231-232`, and the collection afterwards. `none` if the
loop has not ended after `fuel` calls of `Next`. (The loop also assigns to the row it got, line 241. For text sources that
changes the row in the source, C104; it is not read again.) -/
def drainColl (ext : Ext) : Nat → Api.Coll → Option (GoRes (Api.Coll × List (List Bytes)))
  | 0, _ => none
  | fuel + 1, c =>
    andThen (some c.next) fun (c', more) =>
      if more then
        andThen (some (c'.strings ext)) fun row =>
        andThen (drainColl ext fuel c') fun (c2, rows) => some (.ok (c2, row :: rows))
      else some (.ok (c', []))

/-- The result for the sheets after one of them, with what that one adds. -/
def addTo (o : List Out) (st : Stats) (r : List Out × (List Stats ⊕ GoErr)) : List Out × (List Stats ⊕ GoErr) :=
  (o ++ r.1, match r.2 with
    | .inl res => .inl (st :: res)
    | .inr e => .inr e)

/-- The loop over the sheets, `main.go:196-264`. -/
def srcLoop (fl : Flags) (hex : Bytes → Bytes) (create : Bytes → Option GoErr) (ext : Ext) (fuel : Nat) (fn : Bytes) :
    Source → List Bytes → Option (GoRes (List Out × (List Stats ⊕ GoErr)))
  | _, [] => some (.ok ([], .inl []))
  | src, s :: ss =>
    andThen (some (src.get ext s)) fun (src', r) =>
      match r with
      | .error e =>
        andThen (srcLoop fl hex create ext fuel fn src' ss) fun r => some (.ok (addTo [] ⟨fn, s, ⟨0, 0⟩, some e⟩ r))
      | .ok c =>
        andThen (some (collEmpty c)) fun empty =>
          if empty then
            andThen (srcLoop fl hex create ext fuel fn src' ss) fun r => some (.ok (addTo [] ⟨fn, s, ⟨0, 0⟩, none⟩ r))
          else
            match (if fl.pretend then none else create (outPath hex fn s)) with
            | some e => some (.ok ([], .inr e))
            | none =>
              andThen (drainColl ext fuel c) fun (c', rows) =>
                let body := sheetLoop fl ⟨0, 0⟩ rows
                andThen (srcLoop fl hex create ext fuel fn (src'.used s c') ss) fun r =>
                  some (.ok (addTo (if fl.pretend then [] else [⟨outPath hex fn s, body.1⟩]) ⟨fn, s, body.2, none⟩ r))

/-- `processFile`, `main.go:175-266`. -/
def processSrc (fl : Flags) (hex : Bytes → Bytes) (create : Bytes → Option GoErr) (ext : Ext) (fuel : Nat)
    (t : List (Entry Source)) (fn : Bytes) : Option (GoRes (List Out × (List Stats ⊕ GoErr))) :=
  match openSrc t fn with
  | .panic => some .panic
  | .err e => some (.ok ([], .inr e))
  | .ok src => srcLoop fl hex create ext fuel fn src src.list

end Grate.G2t
