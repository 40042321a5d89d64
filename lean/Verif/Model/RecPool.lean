import Verif.Model.XlsStream

/-! # Model of the record pool of `/repo/xls/xls.go`: loading and closing of workbooks in memory

Records are objects in memory (`*rec`) that `nextRecord` takes from a pool shared by all workbooks of the process
(`recPool`, `/repo/xls/xls.go:340-344`) and that `Close`, and the second load of an encrypted stream, give back. A state holds
the memory, the pool and, for each workbook, where its goroutine is. A step is one access of one goroutine to the pool or to a
record; the goroutines interleave freely. A workbook is used by one goroutine at a time. Reading the records of a loaded
workbook (the processing pass and `Get`) does not change anything and is not a step. The data of the stream is never
written to, so slices of it are values. -/

namespace Grate.Pool

open Grate Grate.Xls

/-- `Groups` with the addresses of the records in place of the records. -/
structure HGroups where
  subs : List (List Nat)
  substr : Int
  nested : Int
  pos2 : List (Nat × Nat)
  fpos : Nat

/-- The state at the start, `/repo/xls/xls.go:176-190`. -/
def HGroups.init : HGroups := ⟨[], -1, 0, [], 0⟩

/-- The switch on the record type and the position, `/repo/xls/xls.go:195-207`; `nr` is what is in the record now. -/
def HGroups.count (g : HGroups) (nr : Rec) : HGroups :=
  let g :=
    if nr.type = recEOF then { g with nested := g.nested - 1 }
    else if nr.type = recBOF then
      let g := if g.nested = 0 then
        { g with substr := g.subs.length, subs := g.subs ++ [[]], pos2 := (g.fpos, g.subs.length) :: g.pos2 }
      else g
      { g with nested := g.nested + 1 }
    else g
  { g with fpos := g.fpos + (4 + nr.data.len) }

/-- `b.substreams[substr] = append(b.substreams[substr], nr)`, `/repo/xls/xls.go:228`. -/
def HGroups.place (g : HGroups) (a : Nat) : GoRes HGroups :=
  if 0 ≤ g.substr ∧ g.substr < g.subs.length then
    .ok { g with subs := g.subs.modify g.substr.toNat (· ++ [a]) }
  else .panic

/-- The records that a reader of the workbook sees. -/
def HGroups.deref (h : Nat → Rec) (g : HGroups) : Groups := ⟨g.subs.map (·.map h), g.substr, g.nested, g.pos2, g.fpos⟩

/-- Where the goroutine of a workbook is. -/
inductive Pc where
  /-- before the first load, or closed -/
  | idle
  /-- giving the records of an earlier load back (183-189), then loading `raw` -/
  | drop (todo : List Nat) (raw : Slice) (dec : Bool)
  /-- before `nextRecord` on the rest of the stream (193, 231) -/
  | next (raw : Slice) (dec : Bool) (g : HGroups)
  /-- with a record from the pool (350) -/
  | got (raw : Slice) (dec : Bool) (g : HGroups) (a : Nat)
  /-- type and size are written (352-353) -/
  | sized (raw : Slice) (dec : Bool) (g : HGroups) (a : Nat)
  /-- the data is written (358) -/
  | full (raw : Slice) (dec : Bool) (g : HGroups) (a : Nat)
  /-- the records are gathered -/
  | loaded (g : HGroups)
  /-- a FilePass record was found -/
  | filePass (data : Slice) (g : HGroups)
  /-- an error was returned -/
  | failed (e : GoErr) (g : HGroups)
  /-- a panic -/
  | crashed
  /-- in `Close`, with the records not yet given back (162-173) -/
  | closing (todo : List Nat)
  /-- in `Close`, after `r.Data = nil` (166) -/
  | cleared (a : Nat) (todo : List Nat)

/-- A state of the process. -/
structure St where
  /-- the records -/
  heap : Nat → Rec
  /-- the free records of `recPool` -/
  pool : List Nat
  /-- addresses from here on have never been used -/
  used : Nat
  pcs : Nat → Pc
  /-- the stream given to the last load of each workbook, and whether it is decrypted (no part of the program) -/
  src : Nat → Slice × Bool

/-- Assignment at one place. -/
def upd {α : Type} (f : Nat → α) (i : Nat) (x : α) : Nat → α := fun j => if j = i then x else f j

/-- The goroutine of workbook `i` goes on. -/
def St.at (s : St) (i : Nat) (pc : Pc) : St := { s with pcs := upd s.pcs i pc }

/-- Changing a record. -/
def St.write (s : St) (a : Nat) (r : Rec) : St := { s with heap := upd s.heap a r }

/-- `recPool.Put`. -/
def St.put (s : St) (a : Nat) : St := { s with pool := a :: s.pool }

/-- The start: no records, no workbooks. -/
def St.init : St := ⟨fun _ => ⟨0, 0, ⟨[], []⟩⟩, [], 0, fun _ => .idle, fun _ => (⟨[], []⟩, false)⟩

/-- The records of a workbook that `Close` or another load gives back. -/
inductive Holds : Pc → List Nat → Prop
  | idle : Holds .idle []
  | loaded (g : HGroups) : Holds (.loaded g) g.subs.flatten
  | filePass (d : Slice) (g : HGroups) : Holds (.filePass d g) g.subs.flatten
  | failed (e : GoErr) (g : HGroups) : Holds (.failed e g) g.subs.flatten

/-- One step. -/
inductive Step : St → St → Prop
  /-- the garbage collector empties a part of the pool -/
  | gc (s : St) (p : List Nat) : p.Sublist s.pool → Step s { s with pool := p }
  /-- `loadFromStream2`, `/repo/xls/xls.go:175-190`, of a new workbook or, decrypted, of an encrypted one -/
  | start (s : St) (i : Nat) (raw : Slice) (dec : Bool) (todo : List Nat) : Holds (s.pcs i) todo →
      Step s { s.at i (.drop todo raw dec) with src := upd s.src i (raw, dec) }
  | dropPut (s : St) (i a : Nat) (todo : List Nat) (raw : Slice) (dec : Bool) : s.pcs i = .drop (a :: todo) raw dec →
      Step s ((s.put a).at i (.drop todo raw dec))
  | dropDone (s : St) (i : Nat) (raw : Slice) (dec : Bool) : s.pcs i = .drop [] raw dec →
      Step s (s.at i (.next raw dec HGroups.init))
  /-- `io.EOF`, `/repo/xls/xls.go:347-349` and `233-235` -/
  | eof (s : St) (i : Nat) (raw : Slice) (dec : Bool) (g : HGroups) : s.pcs i = .next raw dec g → raw.len < 4 →
      Step s (s.at i (.loaded g))
  /-- `recPool.Get` with one of the pool, `/repo/xls/xls.go:350` -/
  | getOld (s : St) (i a : Nat) (raw : Slice) (dec : Bool) (g : HGroups) : s.pcs i = .next raw dec g → ¬ raw.len < 4 →
      a ∈ s.pool → Step s ({ s with pool := s.pool.erase a }.at i (.got raw dec g a))
  /-- `recPool.Get` with a new one, `/repo/xls/xls.go:340-344` -/
  | getNew (s : St) (i : Nat) (raw : Slice) (dec : Bool) (g : HGroups) : s.pcs i = .next raw dec g → ¬ raw.len < 4 →
      Step s ({ s with used := s.used + 1 }.at i (.got raw dec g s.used))
  /-- `/repo/xls/xls.go:352-353` -/
  | head (s : St) (i a t n : Nat) (raw : Slice) (dec : Bool) (g : HGroups) : s.pcs i = .got raw dec g a →
      (raw.sub 0 2 >>= Slice.u16) = .ok t → (raw.sub 2 4 >>= Slice.u16) = .ok n →
      Step s ((s.write a { s.heap a with type := t, size := n }).at i (.sized raw dec g a))
  /-- the record is cut, `/repo/xls/xls.go:354-357` -/
  | short (s : St) (i a : Nat) (raw rest : Slice) (dec : Bool) (g : HGroups) : s.pcs i = .sized raw dec g a →
      raw.dropFrom 4 = .ok rest → rest.len < (s.heap a).size → Step s ((s.put a).at i (.failed .unexpectedEOF g))
  /-- `/repo/xls/xls.go:358` -/
  | data (s : St) (i a : Nat) (raw rest d : Slice) (dec : Bool) (g : HGroups) : s.pcs i = .sized raw dec g a →
      raw.dropFrom 4 = .ok rest → ¬ rest.len < (s.heap a).size → raw.sub 4 ((4 + (s.heap a).size) % 65536) = .ok d →
      Step s ((s.write a { s.heap a with data := d }).at i (.full raw dec g a))
  | dataPanic (s : St) (i a : Nat) (raw rest : Slice) (dec : Bool) (g : HGroups) : s.pcs i = .sized raw dec g a →
      raw.dropFrom 4 = .ok rest → ¬ rest.len < (s.heap a).size → raw.sub 4 ((4 + (s.heap a).size) % 65536) = .panic →
      Step s (s.at i .crashed)
  /-- a record other than FilePass, `/repo/xls/xls.go:193-230` -/
  | place (s : St) (i a : Nat) (raw rest : Slice) (dec : Bool) (g g' : HGroups) : s.pcs i = .full raw dec g a →
      raw.dropFrom ((4 + (s.heap a).size) % 65536) = .ok rest → ¬ ((s.heap a).type = recFilePass ∧ dec = false) →
      (g.count (s.heap a)).place a = .ok g' → Step s (s.at i (.next rest dec g'))
  | placePanic (s : St) (i a : Nat) (raw rest : Slice) (dec : Bool) (g : HGroups) : s.pcs i = .full raw dec g a →
      raw.dropFrom ((4 + (s.heap a).size) % 65536) = .ok rest → ¬ ((s.heap a).type = recFilePass ∧ dec = false) →
      (g.count (s.heap a)).place a = .panic → Step s (s.at i .crashed)
  /-- a FilePass record, `/repo/xls/xls.go:211-228`; it is not kept -/
  | filePass (s : St) (i a : Nat) (raw rest : Slice) (dec : Bool) (g : HGroups) : s.pcs i = .full raw dec g a →
      raw.dropFrom ((4 + (s.heap a).size) % 65536) = .ok rest → (s.heap a).type = recFilePass → dec = false →
      Step s (s.at i (.filePass (s.heap a).data (g.count (s.heap a))))
  /-- `Close`, `/repo/xls/xls.go:162-173`, also of a closed workbook -/
  | close (s : St) (i : Nat) (todo : List Nat) : Holds (s.pcs i) todo → Step s (s.at i (.closing todo))
  | closeClear (s : St) (i a : Nat) (todo : List Nat) : s.pcs i = .closing (a :: todo) →
      Step s ((s.write a { s.heap a with data := ⟨[], []⟩ }).at i (.cleared a todo))
  | closePut (s : St) (i a : Nat) (todo : List Nat) : s.pcs i = .cleared a todo →
      Step s ((s.put a).at i (.closing todo))
  | closeDone (s : St) (i : Nat) : s.pcs i = .closing [] → Step s (s.at i .idle)

/-- The states of all executions. -/
inductive Reach : St → Prop
  | init : Reach St.init
  | step (s t : St) : Reach s → Step s t → Reach t

end Grate.Pool
