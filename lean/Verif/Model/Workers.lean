import Verif.Model.Base

/-! # Model of `/repo/cmd/grate2tsv/main.go`: the goroutines (lines 47-57, 92-159)

A state holds the program counters of `main`, of the workers (`runProcessor`) and of the cleanup
goroutine, the channels, the wait group, the mutex, the output pool and the files. A step is one
action of one goroutine, or a rendezvous on an unbuffered channel; goroutines interleave freely.
`processFile` is represented by a `Job`: the outputs it creates, one after the other, and the log
lines it ends with (`Verif.Model.Grate2tsv`). Not modelled: panics inside `processFile`, the early
exits through `log.Fatal` before the workers start, failing writes. -/

namespace Grate.Work

/-- A command-line file with what `processFile` does for it: the output files created, the lines
written to the log. `F` names output files, `L` log lines. -/
structure Job (F L : Type) where
  outs : List F
  lines : List L

/-- `main` after the set-up, `main.go:126-134`. -/
inductive MainPc (F L : Type) where
  /-- the loop sending the file names, with those not yet sent (126-128), then `close` (130) -/
  | sending (todo : List (Job F L))
  /-- `procWG.Wait()` (131) -/
  | waiting
  /-- `close(cleanup)` (132) -/
  | closing
  /-- `<-done` (133) -/
  | done
  /-- returned -/
  | exited

/-- A worker, `main.go:136-159`. Objects of the pool are numbers. -/
inductive Worker (F L : Type) where
  /-- receiving the next name (137) -/
  | recv
  /-- in `processFile` (139), with the outputs still to create -/
  | work (j : Job F L) (outs : List F)
  /-- in `processFile`, holding an output it fills and then sends to `cleanup` (225-262) -/
  | hand (j : Job F L) (outs : List F) (o : Nat)
  /-- `mu.Lock()` (140) -/
  | lock (j : Job F L)
  /-- writing lines to the log, then `mu.Unlock()` (141-156) -/
  | log (j : Job F L) (lines : List L)
  /-- after `procWG.Done()` (158) -/
  | gone

/-- The cleanup goroutine, `main.go:93-100`. -/
inductive Cleaner where
  /-- receiving the next output (94) -/
  | recv
  /-- `x.b.Flush()` (95) -/
  | flush (o : Nat)
  /-- `x.f.Close()` (96) -/
  | close (o : Nat)
  /-- `outpool.Put(x)` (97) -/
  | put (o : Nat)
  /-- `done <- 1` (99) -/
  | done
  /-- returned -/
  | gone

/-- A state of the program. -/
structure St (F L : Type) where
  main : MainPc F L
  /-- `filenameChan` has been closed -/
  namesClosed : Bool
  workers : List (Worker F L)
  /-- the counter of `procWG` -/
  wg : Nat
  /-- `outMu` is locked -/
  locked : Bool
  /-- the log file -/
  log : List L
  /-- the buffer of `cleanup`, oldest first -/
  queue : List Nat
  cleanupClosed : Bool
  cleaner : Cleaner
  /-- the free objects of `outpool` -/
  pool : List Nat
  /-- objects below this number have been allocated -/
  next : Nat
  /-- the file an object refers to (`ox.f`, `ox.b`) -/
  file : Nat → Option F
  /-- files created, flushed, closed so far -/
  created : List F
  flushed : List F
  closed : List F
  /-- the jobs received by workers so far -/
  started : List (Job F L)

/-- `cap(cleanup)`, `main.go:48`. -/
def queueCap : Nat := 100

/-- The state when `main` reaches line 126 with `n` workers. -/
def init {F L : Type} (n : Nat) (jobs : List (Job F L)) : St F L where
  main := .sending jobs
  namesClosed := false
  workers := List.replicate n .recv
  wg := n
  locked := false
  log := []
  queue := []
  cleanupClosed := false
  cleaner := .recv
  pool := []
  next := 0
  file := fun _ => none
  created := []
  flushed := []
  closed := []
  started := []

/-- `nparallel`, `main.go:121`. -/
def nparallel (numCPU : Nat) : Nat := numCPU / 2

/-- One step. -/
inductive Step {F L : Type} : St F L → St F L → Prop
  /-- `filenameChan <- fn` meets a receiving worker -/
  | send {s j todo pre post} : s.main = .sending (j :: todo) → s.namesClosed = false →
      s.workers = pre ++ .recv :: post →
      Step s { s with main := .sending todo, workers := pre ++ .work j j.outs :: post,
                      started := s.started ++ [j] }
  /-- `close(filenameChan)` -/
  | closeNames {s} : s.main = .sending [] → Step s { s with main := .waiting, namesClosed := true }
  /-- the wait group is down to zero -/
  | wait {s} : s.main = .waiting → s.wg = 0 → Step s { s with main := .closing }
  /-- `close(cleanup)` -/
  | closeCleanup {s} : s.main = .closing → Step s { s with main := .done, cleanupClosed := true }
  /-- `done <- 1` meets `<-done` -/
  | finish {s} : s.main = .done → s.cleaner = .done → Step s { s with main := .exited, cleaner := .gone }
  /-- a worker finds `filenameChan` closed and calls `procWG.Done()` -/
  | leave {s pre post} : s.workers = pre ++ .recv :: post → s.namesClosed = true →
      Step s { s with workers := pre ++ .gone :: post, wg := s.wg - 1 }
  /-- `os.Create` and `outpool.Get()` giving a pooled object -/
  | getPool {s j f outs pre post p q} {o : Nat} : s.workers = pre ++ .work j (f :: outs) :: post →
      s.pool = p ++ o :: q →
      Step s { s with workers := pre ++ .hand j outs o :: post, pool := p ++ q,
                      file := fun x => if x = o then some f else s.file x, created := s.created ++ [f] }
  /-- `os.Create` and `outpool.Get()` giving a new object -/
  | getNew {s j f outs pre post} : s.workers = pre ++ .work j (f :: outs) :: post →
      Step s { s with workers := pre ++ .hand j outs s.next :: post, next := s.next + 1,
                      file := fun x => if x = s.next then some f else s.file x,
                      created := s.created ++ [f] }
  /-- `cleanup <- ox` when there is room in the buffer -/
  | sendOut {s j outs o pre post} : s.workers = pre ++ .hand j outs o :: post →
      s.cleanupClosed = false → s.queue.length < queueCap →
      Step s { s with workers := pre ++ .work j outs :: post, queue := s.queue ++ [o] }
  /-- `processFile` returns -/
  | ret {s j pre post} : s.workers = pre ++ .work j [] :: post →
      Step s { s with workers := pre ++ .lock j :: post }
  /-- `mu.Lock()` -/
  | lock {s j pre post} : s.workers = pre ++ .lock j :: post → s.locked = false →
      Step s { s with workers := pre ++ .log j j.lines :: post, locked := true }
  /-- `fmt.Fprintf(fstats, ...)` -/
  | write {s j l ls pre post} : s.workers = pre ++ .log j (l :: ls) :: post →
      Step s { s with workers := pre ++ .log j ls :: post, log := s.log ++ [l] }
  /-- `mu.Unlock()` -/
  | unlock {s j pre post} : s.workers = pre ++ .log j [] :: post →
      Step s { s with workers := pre ++ .recv :: post, locked := false }
  /-- the cleanup goroutine receives an output -/
  | take {s o q} : s.cleaner = .recv → s.queue = o :: q → Step s { s with cleaner := .flush o, queue := q }
  /-- `x.b.Flush()` -/
  | flush {s o f} : s.cleaner = .flush o → s.file o = some f →
      Step s { s with cleaner := .close o, flushed := s.flushed ++ [f] }
  /-- `x.f.Close()` -/
  | close {s o f} : s.cleaner = .close o → s.file o = some f →
      Step s { s with cleaner := .put o, closed := s.closed ++ [f] }
  /-- `outpool.Put(x)` -/
  | put {s o} : s.cleaner = .put o → Step s { s with cleaner := .recv, pool := o :: s.pool }
  /-- the loop over `cleanup` ends: closed and drained -/
  | drained {s} : s.cleaner = .recv → s.queue = [] → s.cleanupClosed = true →
      Step s { s with cleaner := .done }

/-- Any number of steps. -/
inductive Steps {F L : Type} : St F L → St F L → Prop
  | refl (s : St F L) : Steps s s
  | tail {s t u : St F L} : Steps s t → Step t u → Steps s u

end Grate.Work
