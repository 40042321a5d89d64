import Verif.Lemmas.WorkersDisk
import Verif.Props.Workers

/-! # C123: what `grate2tsv` leaves on the disk -/

namespace Grate.Props

open Grate Work Spec

variable {L : Type}

/-- No two outputs of the command line have the same path. -/
def DistinctPaths (jobs : List (Job G2t.Out L)) : Prop := ((jobs.flatMap Job.outs).map G2t.Out.path).Nodup

/-- **C123 (result, partial).** In every execution that exits, on any number of workers: every output of every file is on the
disk with exactly its bytes, and no other file has changed. Missing: outputs with equal paths and files in which the program
panics, for which it is false, see `C123_mixed_counterexample` and `C123_crash_counterexample`. -/
theorem C123_disk_partial (n : Nat) (jobs : List (Job G2t.Out L)) (bad : Job G2t.Out L → Bool) (d0 : Bytes → Option Bytes)
    (hp : DistinctPaths jobs) (s : DSt L) (h : DSteps bad (dinit n jobs d0) s) (hx : s.core.main = .exited) :
    (∀ j ∈ jobs, ∀ f ∈ j.outs, s.disk f.path = some f.content) ∧
    (∀ p, (∀ j ∈ jobs, ∀ f ∈ j.outs, f.path ≠ p) → s.disk p = d0 p) := by
  have hd := onDisk hp h
  have hc := core_steps h
  obtain ⟨_, hf, _⟩ := C64_flushed n jobs s.core hc hx
  refine ⟨fun j hj f hm => ?_, fun p hq => ?_⟩
  · exact hd.flushed f (hf.mem_iff.2 (List.mem_flatMap.2 ⟨j, hj, hm⟩))
  · refine hd.frame p (fun f hf => ?_)
    obtain ⟨j, hj, hm⟩ := List.mem_flatMap.1 (created_outs hc f hf)
    exact hq j hj f hm

/-- **C123 (at any moment, partial).** At every moment of every execution, also after a panic, the file of an output is as it was
before or holds a first part of the bytes of that output, never anything else. Missing: outputs with equal paths. -/
theorem C123_running_partial (n : Nat) (jobs : List (Job G2t.Out L)) (bad : Job G2t.Out L → Bool) (d0 : Bytes → Option Bytes)
    (hp : DistinctPaths jobs) (s : DSt L) (h : DSteps bad (dinit n jobs d0) s) :
    (∀ j ∈ jobs, ∀ f ∈ j.outs, s.disk f.path = d0 f.path ∨ ∃ part, part <+: f.content ∧ s.disk f.path = some part) ∧
    (∀ p, (∀ j ∈ jobs, ∀ f ∈ j.outs, f.path ≠ p) → s.disk p = d0 p) := by
  have hd := onDisk hp h
  have hc := core_steps h
  obtain ⟨_, _, hfs⟩ := reach hc
  refine ⟨fun j hj f hm => ?_, fun p hq => ?_⟩
  · by_cases hcr : f ∈ s.core.created
    · right
      have : some f ∈ s.core.flushed.map some ++ s.core.live.map s.core.file :=
        hfs.flush.mem_iff.1 (List.mem_map.2 ⟨f, hcr, rfl⟩)
      rcases List.mem_append.1 this with hf | hf
      · obtain ⟨g, hg, e⟩ := List.mem_map.1 hf
        cases e
        exact ⟨f.content, List.prefix_refl _, hd.flushed f hg⟩
      · obtain ⟨o, ho, e⟩ := List.mem_map.1 hf
        exact ⟨_, List.take_prefix _ _, (hd.live o ho f e).2⟩
    · left
      refine hd.frame f.path (fun g hg e => hcr ?_)
      have := List.inj_on_of_nodup_map hp (created_outs hc g hg) (List.mem_flatMap.2 ⟨j, hj, hm⟩) e
      exact this ▸ hg
  · refine hd.frame p (fun f hf => ?_)
    obtain ⟨j, hj, hm⟩ := List.mem_flatMap.1 (created_outs hc f hf)
    exact hq j hj f hm

/-- **C123 (independence, partial).** Two executions that exit, with different files on the command line, numbers of workers,
schedules and disks at the start: a file on both command lines leaves the same outputs with the same bytes. -/
theorem C123_same_partial (n n' : Nat) (jobs jobs' : List (Job G2t.Out L)) (bad bad' : Job G2t.Out L → Bool)
    (d0 d0' : Bytes → Option Bytes) (hp : DistinctPaths jobs) (hp' : DistinctPaths jobs') (s s' : DSt L)
    (h : DSteps bad (dinit n jobs d0) s) (hx : s.core.main = .exited)
    (h' : DSteps bad' (dinit n' jobs' d0') s') (hx' : s'.core.main = .exited)
    (j : Job G2t.Out L) (hj : j ∈ jobs) (hj' : j ∈ jobs') (f : G2t.Out) (hf : f ∈ j.outs) :
    s.disk f.path = s'.disk f.path ∧ s.disk f.path = some f.content := by
  have a := (C123_disk_partial n jobs bad d0 hp s h hx).1 j hj f hf
  have b := (C123_disk_partial n' jobs' bad' d0' hp' s' h' hx').1 j hj' f hf
  exact ⟨a.trans b.symm, a⟩

/-! ### Executions -/

theorem _root_.Grate.Work.DSteps.head {bad : Job G2t.Out L → Bool} {s t u : DSt L} (h : DStep bad s t) (g : DSteps bad t u) : DSteps bad s u := by
  induction g with
  | refl => exact .tail (.refl _) h
  | tail _ hs ih => exact .tail ih hs

theorem dsteps_trans {bad : Job G2t.Out L → Bool} {s t u : DSt L} (h : DSteps bad s t) (g : DSteps bad t u) :
    DSteps bad s u := by
  induction g with
  | refl => exact h
  | tail _ hs ih => exact .tail ih hs

/-- Without panics every step of the goroutines is possible with the files. -/
theorem lift_step {bad : Job G2t.Out L → Bool} (hb : ∀ j, bad j = false) {s : DSt L} {t : St G2t.Out L}
    (hc : s.crashed = false) (h : Step s.core t) : ∃ u, DStep bad s u ∧ u.core = t ∧ u.crashed = false := by
  have q : t.created = s.core.created → t.flushed = s.core.flushed →
      ∃ u, DStep bad s u ∧ u.core = t ∧ u.crashed = false :=
    fun h1 h2 => ⟨_, .quiet hc h h1 h2 (fun j _ => hb j), rfl, hc⟩
  cases h with
  | getPool hw hp => exact ⟨_, .getPool hc hw hp, rfl, hc⟩
  | getNew hw => exact ⟨_, .getNew hc hw, rfl, hc⟩
  | flush hl hf => exact ⟨_, .flush hc hl hf, rfl, hc⟩
  | _ => exact q rfl rfl

theorem lift_steps {bad : Job G2t.Out L → Bool} (hb : ∀ j, bad j = false) {s : DSt L} {t : St G2t.Out L}
    (hc : s.crashed = false) (h : Steps s.core t) : ∃ u, DSteps bad s u ∧ u.core = t ∧ u.crashed = false := by
  generalize e : s.core = c at h
  induction h with
  | refl => exact ⟨s, .refl s, e, hc⟩
  | tail _ hs ih =>
    obtain ⟨u, h1, h2, h3⟩ := ih
    obtain ⟨v, h4, h5, h6⟩ := lift_step hb h3 (h2.symm ▸ hs)
    exact ⟨v, .tail h1 h4, h5, h6⟩

/-- **C123 (exits, partial).** Without a file that panics, on two or more processors, an exit is reachable from every state of every
execution: the hypotheses of the theorems above are met by an execution for every command line. Missing: one processor, where it is
false (`C64_counterexample`). -/
theorem C123_exits_partial (numCPU : Nat) (hcpu : 2 ≤ numCPU) (jobs : List (Job G2t.Out L)) (bad : Job G2t.Out L → Bool)
    (hb : ∀ j, bad j = false) (d0 : Bytes → Option Bytes) (s : DSt L)
    (h : DSteps bad (dinit (nparallel numCPU) jobs d0) s) :
    ∃ t, DSteps bad s t ∧ t.core.main = .exited ∧ t.crashed = false := by
  have hc : ∀ {s t : DSt L}, DSteps bad s t → s.crashed = false → t.crashed = false := by
    intro s t h hs
    induction h with
    | refl => exact hs
    | tail _ h ih =>
      cases h with
      | panic _ hbad => rw [hb] at hbad; cases hbad
      | _ => exact ih
  obtain ⟨t, ht, hx⟩ := C64_exits_partial numCPU hcpu jobs s.core (core_steps h)
  obtain ⟨u, h1, h2, h3⟩ := lift_steps hb (hc h rfl) ht
  exact ⟨u, h1, h2 ▸ hx, h3⟩

/-! ### Files -/

theorem all2_get {α β : Type} {R : α → β → Prop} {l : List α} {m : List β} (h : All2 R l m) :
    ∀ a ∈ l, ∃ b ∈ m, R a b := by
  induction h with
  | nil => simp
  | cons hr _ ih =>
    intro a ha
    rcases List.mem_cons.1 ha with rfl | ha
    · exact ⟨_, List.mem_cons_self, hr⟩
    · obtain ⟨b, hb, h⟩ := ih a ha
      exact ⟨b, List.mem_cons_of_mem _ hb, h⟩

theorem sheetsLoop_created (hex : Bytes → Bytes) (fl : G2t.Flags) (fn : Bytes) (get : Bytes → GoRes G2t.Coll)
    (sheets : List Bytes) (outs : List G2t.Out) (e : GoErr)
    (h : G2t.sheetsLoop fl hex (fun _ => none) fn get sheets = .ok (outs, .inr e)) : False := by
  obtain ⟨p, h⟩ := sheetsLoop_fatal _ _ _ _ _ _ _ _ h
  cases h

/-- **C123 (sheets, partial).** With the default flags, on any number of processors: when the program has exited, every sheet that
is not empty, of every file on the command line, is on the disk as the text of its rows (`SheetText`, as in C65), whatever the
other files are. -/
theorem C123_sheets_partial (hex : Bytes → Bytes) (n : Nat) (files : List (Bytes × GoRes G2t.Book))
    (jobs : List (Job G2t.Out G2t.LogLine))
    (hjobs : All2 (fun f j => jobOf {} hex (fun _ => none) f = some j) files jobs) (hp : DistinctPaths jobs)
    (bad : Job G2t.Out G2t.LogLine → Bool) (d0 : Bytes → Option Bytes) (s : DSt G2t.LogLine)
    (h : DSteps bad (dinit n jobs d0) s) (hx : s.core.main = .exited)
    (fn : Bytes) (b : G2t.Book) (hfile : (fn, GoRes.ok b) ∈ files) (sheets : List Bytes) (hl : b.list = .ok sheets)
    (sheet : Bytes) (hs : sheet ∈ sheets) (c : G2t.Coll) (hg : b.get sheet = .ok c) (he : c.isEmpty = false) :
    ∃ kept text, SheetText c.rows kept text ∧ s.disk (G2t.outPath hex fn sheet) = some text := by
  obtain ⟨j, hj, hjob⟩ := all2_get hjobs _ hfile
  have hd := (C123_disk_partial n jobs bad d0 hp s h hx).1 j hj
  unfold jobOf at hjob
  split at hjob
  · next outs res hpf =>
    cases hjob
    cases res with
    | inr e =>
      simp only [G2t.processFile, hl] at hpf
      exact (sheetsLoop_created _ _ _ _ _ _ _ hpf).elim
    | inl res =>
      obtain ⟨b', sheets', h1, h2, h3, _⟩ := C65_file hex _ fn _ outs res hpf
      cases h1
      rw [hl] at h2
      cases h2
      have hm : sheet ∈ sheets.filter (HasOutput b.get) :=
        List.mem_filter.2 ⟨hs, by simp [HasOutput, hg, he]⟩
      obtain ⟨o, ho, hout⟩ := all2_get h3 sheet hm
      obtain ⟨h4, c', kept, h5, h6⟩ := hout
      rw [hg] at h5
      cases h5
      exact ⟨kept, o.content, h6, h4 ▸ hd o ho⟩
  · cases hjob

/-! ### Counterexamples -/

/-- Two outputs with the same path, opened at the same time; the first is written first. -/
theorem mixed_first (p a b : Bytes) (la lb : L) (d0 : Bytes → Option Bytes) : ∃ s : DSt L,
    DSteps (fun _ => false) (dinit 2 [⟨[⟨p, a⟩], [la]⟩, ⟨[⟨p, b⟩], [lb]⟩] d0) s ∧ s.core.main = .exited ∧ s.crashed = false ∧
    s.disk p = some (b ++ a.drop b.length) := by
  refine ⟨_, .head (.quiet rfl (.send rfl rfl (pre := []) rfl) rfl rfl (fun _ _ => rfl)) <|
      .head (.quiet rfl (.send rfl rfl (pre := [_]) rfl) rfl rfl (fun _ _ => rfl)) <|
      .head (.getNew rfl (pre := []) rfl) <|
      .head (.getNew rfl (pre := [_]) rfl) <|
      .head (.quiet rfl (.sendOut (pre := []) rfl rfl (show 0 < 100 by decide)) rfl rfl (fun _ _ => rfl)) <|
      .head (.quiet rfl (.sendOut (pre := [_]) rfl rfl (show 1 < 100 by decide)) rfl rfl (fun _ _ => rfl)) <|
      .head (.quiet rfl (.take rfl rfl) rfl rfl (fun _ _ => rfl)) <|
      .head (.flush rfl rfl rfl) <|
      .head (.quiet rfl (.close rfl rfl) rfl rfl (fun _ _ => rfl)) <|
      .head (.quiet rfl (.put rfl) rfl rfl (fun _ _ => rfl)) <|
      .head (.quiet rfl (.take rfl rfl) rfl rfl (fun _ _ => rfl)) <|
      .head (.flush rfl rfl rfl) <|
      .head (.quiet rfl (.close rfl rfl) rfl rfl (fun _ _ => rfl)) <|
      .head (.quiet rfl (.put rfl) rfl rfl (fun _ _ => rfl)) <|
      .head (.quiet rfl (.ret (pre := []) rfl) rfl rfl (fun _ _ => rfl)) <|
      .head (.quiet rfl (.lock (pre := []) rfl rfl) rfl rfl (fun _ _ => rfl)) <|
      .head (.quiet rfl (.write (pre := []) rfl) rfl rfl (fun _ _ => rfl)) <|
      .head (.quiet rfl (.unlock (pre := []) rfl) rfl rfl (fun _ _ => rfl)) <|
      .head (.quiet rfl (.ret (pre := [_]) rfl) rfl rfl (fun _ _ => rfl)) <|
      .head (.quiet rfl (.lock (pre := [_]) rfl rfl) rfl rfl (fun _ _ => rfl)) <|
      .head (.quiet rfl (.write (pre := [_]) rfl) rfl rfl (fun _ _ => rfl)) <|
      .head (.quiet rfl (.unlock (pre := [_]) rfl) rfl rfl (fun _ _ => rfl)) <|
      .head (.quiet rfl (.closeNames rfl) rfl rfl (fun _ _ => rfl)) <|
      .head (.quiet rfl (.leave (pre := []) rfl rfl) rfl rfl (fun _ _ => rfl)) <|
      .head (.quiet rfl (.leave (pre := [_]) rfl rfl) rfl rfl (fun _ _ => rfl)) <|
      .head (.quiet rfl (.wait rfl rfl) rfl rfl (fun _ _ => rfl)) <|
      .head (.quiet rfl (.closeCleanup rfl) rfl rfl (fun _ _ => rfl)) <|
      .head (.quiet rfl (.drained rfl rfl rfl) rfl rfl (fun _ _ => rfl)) <|
      .head (.quiet rfl (.finish rfl rfl) rfl rfl (fun _ _ => rfl)) <| .refl _, rfl, rfl, ?_⟩
  simp [put, writeAt]

/-- The same two outputs; the second is written first. -/
theorem mixed_second (p a b : Bytes) (la lb : L) (d0 : Bytes → Option Bytes) : ∃ s : DSt L,
    DSteps (fun _ => false) (dinit 2 [⟨[⟨p, a⟩], [la]⟩, ⟨[⟨p, b⟩], [lb]⟩] d0) s ∧ s.core.main = .exited ∧ s.crashed = false ∧
    s.disk p = some (a ++ b.drop a.length) := by
  refine ⟨_, .head (.quiet rfl (.send rfl rfl (pre := []) rfl) rfl rfl (fun _ _ => rfl)) <|
      .head (.quiet rfl (.send rfl rfl (pre := [_]) rfl) rfl rfl (fun _ _ => rfl)) <|
      .head (.getNew rfl (pre := []) rfl) <|
      .head (.getNew rfl (pre := [_]) rfl) <|
      .head (.quiet rfl (.sendOut (pre := [_]) rfl rfl (show 0 < 100 by decide)) rfl rfl (fun _ _ => rfl)) <|
      .head (.quiet rfl (.sendOut (pre := []) rfl rfl (show 1 < 100 by decide)) rfl rfl (fun _ _ => rfl)) <|
      .head (.quiet rfl (.take rfl rfl) rfl rfl (fun _ _ => rfl)) <|
      .head (.flush rfl rfl rfl) <|
      .head (.quiet rfl (.close rfl rfl) rfl rfl (fun _ _ => rfl)) <|
      .head (.quiet rfl (.put rfl) rfl rfl (fun _ _ => rfl)) <|
      .head (.quiet rfl (.take rfl rfl) rfl rfl (fun _ _ => rfl)) <|
      .head (.flush rfl rfl rfl) <|
      .head (.quiet rfl (.close rfl rfl) rfl rfl (fun _ _ => rfl)) <|
      .head (.quiet rfl (.put rfl) rfl rfl (fun _ _ => rfl)) <|
      .head (.quiet rfl (.ret (pre := []) rfl) rfl rfl (fun _ _ => rfl)) <|
      .head (.quiet rfl (.lock (pre := []) rfl rfl) rfl rfl (fun _ _ => rfl)) <|
      .head (.quiet rfl (.write (pre := []) rfl) rfl rfl (fun _ _ => rfl)) <|
      .head (.quiet rfl (.unlock (pre := []) rfl) rfl rfl (fun _ _ => rfl)) <|
      .head (.quiet rfl (.ret (pre := [_]) rfl) rfl rfl (fun _ _ => rfl)) <|
      .head (.quiet rfl (.lock (pre := [_]) rfl rfl) rfl rfl (fun _ _ => rfl)) <|
      .head (.quiet rfl (.write (pre := [_]) rfl) rfl rfl (fun _ _ => rfl)) <|
      .head (.quiet rfl (.unlock (pre := [_]) rfl) rfl rfl (fun _ _ => rfl)) <|
      .head (.quiet rfl (.closeNames rfl) rfl rfl (fun _ _ => rfl)) <|
      .head (.quiet rfl (.leave (pre := []) rfl rfl) rfl rfl (fun _ _ => rfl)) <|
      .head (.quiet rfl (.leave (pre := [_]) rfl rfl) rfl rfl (fun _ _ => rfl)) <|
      .head (.quiet rfl (.wait rfl rfl) rfl rfl (fun _ _ => rfl)) <|
      .head (.quiet rfl (.closeCleanup rfl) rfl rfl (fun _ _ => rfl)) <|
      .head (.quiet rfl (.drained rfl rfl rfl) rfl rfl (fun _ _ => rfl)) <|
      .head (.quiet rfl (.finish rfl rfl) rfl rfl (fun _ _ => rfl)) <| .refl _, rfl, rfl, ?_⟩
  simp [put, writeAt]

/-- A book with one sheet `S` of one cell. -/
def oneCell (text : Bytes) : G2t.Book := ⟨.ok [lit "S"], fun _ => .ok ⟨false, [[text]]⟩⟩

/-- The files `x/a.xls` and `y/a.xls` of the command line. -/
def exClash : List (Bytes × GoRes G2t.Book) :=
  [(lit "x/a.xls", .ok (oneCell (lit "aaaa"))), (lit "y/a.xls", .ok (oneCell (lit "bb")))]

/-- **C123 is false of two files whose outputs have the same path.** `grate2tsv x/a.xls y/a.xls` with a cell `aaaa` in one and `bb`
in the other, on four processors: depending on the schedule the one output holds the lines `aaaa`, or the lines `bb` and `a`, of
which the second is in neither of the files. -/
theorem C123_mixed_counterexample :
    ∃ (jobs : List (Job G2t.Out G2t.LogLine)) (s s' : DSt G2t.LogLine) (p : Bytes),
      All2 (fun f j => jobOf {} (fun _ => lit "0123") (fun _ => none) f = some j) exClash jobs ∧
      DSteps (fun _ => false) (dinit (nparallel 4) jobs (fun _ => none)) s ∧ s.core.main = .exited ∧ s.crashed = false ∧
      DSteps (fun _ => false) (dinit (nparallel 4) jobs (fun _ => none)) s' ∧ s'.core.main = .exited ∧ s'.crashed = false ∧
      p = lit "results/01/23/a.S.tsv" ∧
      s.disk p = some [98, 98, 10, 97, 10] ∧ s'.disk p = some [97, 97, 97, 97, 10] := by
  obtain ⟨s, h1, h2, h3, h4⟩ := mixed_first (lit "results/01/23/a.S.tsv") [97, 97, 97, 97, 10] [98, 98, 10]
    (G2t.LogLine.sheet ⟨lit "x/a.xls", lit "S", ⟨1, 0⟩, none⟩) (.sheet ⟨lit "y/a.xls", lit "S", ⟨1, 0⟩, none⟩) (fun _ => none)
  obtain ⟨s', h1', h2', h3', h4'⟩ := mixed_second (lit "results/01/23/a.S.tsv") [97, 97, 97, 97, 10] [98, 98, 10]
    (G2t.LogLine.sheet ⟨lit "x/a.xls", lit "S", ⟨1, 0⟩, none⟩) (.sheet ⟨lit "y/a.xls", lit "S", ⟨1, 0⟩, none⟩) (fun _ => none)
  exact ⟨_, s, s', _, .cons rfl (.cons rfl .nil), h1, h2, h3, h1', h2', h3', rfl, h4, h4'⟩

/-- **C123 is false of a file in which the program panics.** On two processors, with any file that has one output and after it a file
in which `processFile` panics: the program can end when the first file is in the log but its output is still empty on the disk. -/
theorem C123_crash_counterexample (f : G2t.Out) (la : L) (d0 : Bytes → Option Bytes) (j : Job G2t.Out L)
    (bad : Job G2t.Out L → Bool) (h1 : bad ⟨[f], [la]⟩ = false) (h2 : bad j = true) (h3 : j.outs = []) :
    ∃ s : DSt L, DSteps bad (dinit (nparallel 2) [⟨[f], [la]⟩, j] d0) s ∧ s.crashed = true ∧ (¬ ∃ t, DStep bad s t) ∧
      s.core.log = [la] ∧ s.disk f.path = some [] := by
  obtain ⟨outs, lines⟩ := j
  cases h3
  refine ⟨_, .head (.quiet rfl (.send rfl rfl (pre := []) rfl) rfl rfl ?_) <|
    .head (.getNew rfl (pre := []) rfl) <|
    .head (.quiet rfl (.sendOut (pre := []) rfl rfl (show 0 < 100 by decide)) rfl rfl ?_) <|
    .head (.quiet rfl (.ret (pre := []) rfl) rfl rfl ?_) <|
    .head (.quiet rfl (.lock (pre := []) rfl rfl) rfl rfl ?_) <|
    .head (.quiet rfl (.write (pre := []) rfl) rfl rfl ?_) <|
    .head (.quiet rfl (.unlock (pre := []) rfl) rfl rfl ?_) <|
    .head (.quiet rfl (.send rfl rfl (pre := []) rfl) rfl rfl ?_) <|
    .head (.panic rfl h2 (pre := []) rfl (.inl rfl)) <| .refl _, rfl, ?_, rfl, ?_⟩
  · intro j hj; simp at hj
  · intro j hj; simp at hj
  · intro j hj
    simp at hj
    rw [hj]; exact h1
  · intro j hj; simp at hj
  · intro j hj; simp at hj
  · intro j hj; simp at hj
  · intro j hj; simp at hj
  · rintro ⟨t, h⟩
    cases h with
    | quiet h => cases h
    | getPool h => cases h
    | getNew h => cases h
    | spill h => cases h
    | flush h => cases h
    | panic h => cases h
  · simp

/-! ### The hypotheses are met -/

/-- Two files with three sheets. -/
def exTwoFiles : List (Bytes × GoRes G2t.Book) :=
  [(lit "a.xls", .ok ⟨.ok [lit "S", lit "T"], fun s => .ok ⟨false, [[s, lit "x"]]⟩⟩), (lit "b.xls", .ok (oneCell (lit "bb")))]

/-- The theorems of C123 apply: two files with three outputs of distinct paths, and an execution on four processors that exits. -/
theorem C123_witness : ∃ (jobs : List (Job G2t.Out G2t.LogLine)) (s : DSt G2t.LogLine),
    All2 (fun f j => jobOf {} (fun _ => lit "0123") (fun _ => none) f = some j) exTwoFiles jobs ∧ DistinctPaths jobs ∧
    DSteps (fun _ => false) (dinit (nparallel 4) jobs (fun _ => none)) s ∧ s.core.main = .exited ∧
    s.disk (lit "results/01/23/a.T.tsv") = some (lit "T	x
") ∧ s.disk (lit "results/01/23/b.S.tsv") = some (lit "bb
") := by
  obtain ⟨s, h1, h2, _⟩ := C123_exits_partial 4 (by decide)
    [⟨[⟨lit "results/01/23/a.S.tsv", lit "S	x
"⟩, ⟨lit "results/01/23/a.T.tsv", lit "T	x
"⟩],
      [G2t.LogLine.sheet ⟨lit "a.xls", lit "S", ⟨1, 1⟩, none⟩, .sheet ⟨lit "a.xls", lit "T", ⟨1, 1⟩, none⟩]⟩,
     ⟨[⟨lit "results/01/23/b.S.tsv", lit "bb
"⟩], [.sheet ⟨lit "b.xls", lit "S", ⟨1, 0⟩, none⟩]⟩]
    (fun _ => false) (fun _ => rfl) (fun _ => none) _ (.refl _)
  have hp : DistinctPaths [(⟨[⟨lit "results/01/23/a.S.tsv", lit "S	x
"⟩, ⟨lit "results/01/23/a.T.tsv", lit "T	x
"⟩],
      [G2t.LogLine.sheet ⟨lit "a.xls", lit "S", ⟨1, 1⟩, none⟩, .sheet ⟨lit "a.xls", lit "T", ⟨1, 1⟩, none⟩]⟩ :
        Job G2t.Out G2t.LogLine),
     ⟨[⟨lit "results/01/23/b.S.tsv", lit "bb
"⟩], [.sheet ⟨lit "b.xls", lit "S", ⟨1, 0⟩, none⟩]⟩] := by
    unfold DistinctPaths
    simp only [List.flatMap_cons, List.flatMap_nil, List.append_nil, List.cons_append, List.nil_append, List.map_cons, List.map_nil]
    decide +kernel
  have hd := (C123_disk_partial _ _ _ _ hp s h1 h2).1
  exact ⟨_, s, .cons rfl (.cons rfl .nil), hp, h1, h2,
    hd _ List.mem_cons_self _ (List.mem_cons_of_mem _ List.mem_cons_self),
    hd _ (List.mem_cons_of_mem _ List.mem_cons_self) _ List.mem_cons_self⟩

end Grate.Props
