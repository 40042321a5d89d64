import Verif.Model.Workers
import Verif.Model.Grate2tsv

/-! # Model of `/repo/cmd/grate2tsv/main.go`: the goroutines with the files they write (lines 93-159, 219-262)

The states and steps of `Verif.Model.Workers`, together with the contents of the files and with panics. An output of a worker is
a buffered writer over an open file: what is written to it reaches the file when the buffer is full (in pieces of any size here), and
the rest when the cleanup goroutine flushes it. Every open file has its own offset. A panic in `processFile` ends the program at
once (no `recover` in the program). Not modelled: failing writes. -/

namespace Grate.Work

open Grate

/-- Writing `bs` at offset `pos` of a file with the contents `old` (POSIX `write`): a gap is filled with zeros. -/
def writeAt (old : Bytes) (pos : Nat) (bs : Bytes) : Bytes :=
  old.take pos ++ List.replicate (pos - old.length) 0 ++ bs ++ old.drop (pos + bs.length)

/-- The bytes `bs` written at offset `pos` of the file `p`. -/
def put (disk : Bytes → Option Bytes) (p : Bytes) (pos : Nat) (bs : Bytes) : Bytes → Option Bytes :=
  fun q => if q = p then some (writeAt ((disk p).getD []) pos bs) else disk q

/-- A state of the program with the files. -/
structure DSt (L : Type) where
  core : St G2t.Out L
  /-- how much of what is written to an output has reached its file: the offset of the open file -/
  sent : Nat → Nat
  /-- the contents of the files -/
  disk : Bytes → Option Bytes
  /-- a panic has ended the program -/
  crashed : Bool

/-- The state when `main` reaches line 126 with `n` workers; `disk` are the files that exist. -/
def dinit {L : Type} (n : Nat) (jobs : List (Job G2t.Out L)) (disk : Bytes → Option Bytes) : DSt L :=
  ⟨init n jobs, fun _ => 0, disk, false⟩

/-- One step; `bad` are the files in which `processFile` panics, after the outputs of the job have been created. -/
inductive DStep {L : Type} (bad : Job G2t.Out L → Bool) : DSt L → DSt L → Prop
  /-- a step that creates and writes no file; a file that panics does not get to the log -/
  | quiet {s t} : s.crashed = false → Step s.core t → t.created = s.core.created → t.flushed = s.core.flushed →
      (∀ j, Worker.lock j ∈ t.workers → bad j = false) → DStep bad s { s with core := t }
  /-- `os.Create`, which empties an existing file, and `outpool.Get()` giving a pooled object -/
  | getPool {s j f outs pre post p q} {o : Nat} : s.crashed = false → s.core.workers = pre ++ .work j (f :: outs) :: post →
      s.core.pool = p ++ o :: q →
      DStep bad s { s with
        core := { s.core with workers := pre ++ .hand j outs o :: post, pool := p ++ q,
                              file := fun x => if x = o then some f else s.core.file x, created := s.core.created ++ [f] }
        sent := fun x => if x = o then 0 else s.sent x
        disk := fun q => if q = f.path then some [] else s.disk q }
  /-- `os.Create` and `outpool.Get()` giving a new object -/
  | getNew {s j f outs pre post} : s.crashed = false → s.core.workers = pre ++ .work j (f :: outs) :: post →
      DStep bad s { s with
        core := { s.core with workers := pre ++ .hand j outs s.core.next :: post, next := s.core.next + 1,
                              file := fun x => if x = s.core.next then some f else s.core.file x,
                              created := s.core.created ++ [f] }
        sent := fun x => if x = s.core.next then 0 else s.sent x
        disk := fun q => if q = f.path then some [] else s.disk q }
  /-- a worker fills the buffer of its output, and some of it goes to the file: `w.Write`, `main.go:250-256` -/
  | spill {s j outs o pre post f n} : s.crashed = false → s.core.workers = pre ++ .hand j outs o :: post →
      s.core.file o = some f → s.sent o < n → n ≤ f.content.length →
      DStep bad s { s with
        sent := fun x => if x = o then n else s.sent x
        disk := put s.disk f.path (s.sent o) ((f.content.take n).drop (s.sent o)) }
  /-- `x.b.Flush()`: the rest goes to the file -/
  | flush {s o f} : s.crashed = false → s.core.cleaner = .flush o → s.core.file o = some f →
      DStep bad s { s with
        core := { s.core with cleaner := .close o, flushed := s.core.flushed ++ [f] }
        sent := fun x => if x = o then f.content.length else s.sent x
        disk := put s.disk f.path (s.sent o) (f.content.drop (s.sent o)) }
  /-- a panic in `processFile` -/
  | panic {s j w pre post} : s.crashed = false → bad j = true → s.core.workers = pre ++ w :: post →
      (w = .work j [] ∨ ∃ o, w = .hand j [] o) → DStep bad s { s with crashed := true }

/-- Any number of steps. -/
inductive DSteps {L : Type} (bad : Job G2t.Out L → Bool) : DSt L → DSt L → Prop
  | refl (s : DSt L) : DSteps bad s s
  | tail {s t u : DSt L} : DSteps bad s t → DStep bad t u → DSteps bad s u

end Grate.Work
