import Verif.Lemmas.Workers
import Verif.Props.Grate2tsv

/-! # C63, C64: the goroutines of `grate2tsv` -/

namespace Grate.Props

open Grate Work Spec

variable {F L : Type}

theorem todo_exited {s : St F L} (h : s.main = .exited) : s.main.todo = [] := by rw [h]; rfl

/-- With `main` past the wait group no worker is doing anything. -/
theorem all_gone {n : Nat} {s : St F L} (hc : Ctl n s) (ho : s.main.over = true) :
    ∀ w ∈ s.workers, w = .gone := by
  intro w hw
  have h0 := hc.over ho
  rw [hc.wg] at h0
  have h1 := List.filter_eq_nil_iff.1 (List.length_eq_zero_iff.1 h0) w hw
  cases w with
  | gone => rfl
  | _ => exact absurd rfl h1

/-- **C63.** In every execution with any number of workers and any list of files: when the program has
exited, each file has been handed to a worker exactly once (in the order given), and the log is the
concatenation of the lines of all files in some order — the lines of a file are contiguous. -/
theorem C63_log (n : Nat) (jobs : List (Job F L)) (s : St F L) (h : Steps (init n jobs) s)
    (hx : s.main = .exited) :
    s.started = jobs ∧ ∃ order : List (Job F L), order.Perm jobs ∧ s.log = order.flatMap Job.lines := by
  obtain ⟨hc, hj, _⟩ := reach h
  obtain ⟨h1, fin, h2, h3⟩ := hj
  rw [todo_exited hx, List.append_nil] at h1
  have hall := all_gone hc (by rw [hx]; rfl)
  have hb : s.workers.flatMap Worker.busy = [] :=
    List.flatMap_eq_nil_iff.2 (fun w hw => by rw [hall w hw]; rfl)
  have hl : s.workers.flatMap Worker.logging = [] :=
    List.flatMap_eq_nil_iff.2 (fun w hw => by rw [hall w hw]; rfl)
  rw [hb, List.append_nil, h1] at h2
  refine ⟨h1, fin, h2, ?_⟩
  cases h3 with
  | free a b c => exact c
  | held j ls ws a b c d => rw [hl] at b; cases b

/-- **C63 (while running).** At every moment the log consists of the complete lines of some files and
the first lines of at most one more: lines of different files never interleave. -/
theorem C63_running (n : Nat) (jobs : List (Job F L)) (s : St F L) (h : Steps (init n jobs) s) :
    ∃ (fin : List (Job F L)) (ws : List L), s.log = fin.flatMap Job.lines ++ ws ∧
      (∃ rest, (fin ++ rest).Perm jobs ∧ (ws = [] ∨ ∃ j ∈ rest, ws <+: j.lines)) := by
  obtain ⟨hc, hj, _⟩ := reach h
  obtain ⟨h1, fin, h2, h3⟩ := hj
  have hp : (fin ++ (s.workers.flatMap Worker.busy ++ s.main.todo)).Perm jobs := by
    rw [← List.append_assoc, ← h1]
    exact h2.append_right _
  cases h3 with
  | free a b c => exact ⟨fin, [], by simpa using c, _, hp, .inl rfl⟩
  | held j ls ws a b c d =>
    refine ⟨fin, ws, d, _, hp, .inr ⟨j, ?_, ⟨ls, c.symm⟩⟩⟩
    have : (j, ls) ∈ s.workers.flatMap Worker.logging := by rw [b]; exact List.mem_singleton.2 rfl
    obtain ⟨v, hv, hm⟩ := List.mem_flatMap.1 this
    refine List.mem_append_left _ (List.mem_flatMap.2 ⟨v, hv, ?_⟩)
    cases v with
    | log j'' ls'' => cases List.mem_singleton.1 hm; exact List.mem_singleton.2 rfl
    | recv => cases hm
    | gone => cases hm
    | work _ _ => cases hm
    | hand _ _ _ => cases hm
    | lock _ => cases hm

theorem perm_of_map_some {α : Type} {a b : List α} (h : (a.map some).Perm (b.map some)) : a.Perm b := by
  have := h.filterMap id
  simpa using this

/-- **C64 (flushed).** In every execution, when the program has exited every output created by any file
has been flushed and closed exactly once, and there are no others. -/
theorem C64_flushed (n : Nat) (jobs : List (Job F L)) (s : St F L) (h : Steps (init n jobs) s)
    (hx : s.main = .exited) :
    s.created.Perm (jobs.flatMap Job.outs) ∧ s.flushed.Perm (jobs.flatMap Job.outs) ∧
    s.closed.Perm (jobs.flatMap Job.outs) := by
  obtain ⟨hc, hj, hf⟩ := reach h
  have h1 := hj.sent
  rw [todo_exited hx, List.append_nil] at h1
  have hall := all_gone hc (by rw [hx]; rfl)
  have hr : s.workers.flatMap Worker.rest = [] :=
    List.flatMap_eq_nil_iff.2 (fun w hw => by rw [hall w hw]; rfl)
  have hh : s.workers.flatMap Worker.held = [] :=
    List.flatMap_eq_nil_iff.2 (fun w hw => by rw [hall w hw]; rfl)
  have hg : s.cleaner = .gone := by
    have := hc.exit
    rw [hx] at this
    cases e : s.cleaner with
    | gone => rfl
    | _ => rw [e] at this; cases this
  have hq : s.queue = [] := (hc.drained (by rw [hg]; rfl)).1
  have a := hf.outs
  have b := hf.flush
  have c := hf.close
  rw [hr, List.append_nil, h1] at a
  rw [hh, hq, hg] at b
  rw [hg] at c
  simp only [Cleaner.unflushed, Cleaner.unclosed, List.append_nil, List.map_nil] at b c
  have b' := perm_of_map_some b
  have c' := perm_of_map_some c
  exact ⟨a, b'.symm.trans a, c'.symm.trans (b'.symm.trans a)⟩

/-- **C64 (safe).** In every reachable state: a worker about to send an output finds `cleanup` open; the
cleanup goroutine only touches objects that refer to a file; a worker leaving finds the wait group
positive; no object is in two hands; files are closed after they are flushed. -/
theorem C64_safe (n : Nat) (jobs : List (Job F L)) (s : St F L) (h : Steps (init n jobs) s) :
    (∀ j outs o, Worker.hand j outs o ∈ s.workers → s.cleanupClosed = false) ∧
    (∀ o, s.cleaner = .flush o ∨ s.cleaner = .close o → ∃ f, s.file o = some f) ∧
    (Worker.recv ∈ s.workers → 0 < s.wg) ∧ s.objects.Nodup ∧
    (∃ rest, s.flushed.Perm (s.closed ++ rest)) := by
  obtain ⟨hc, hj, hf⟩ := reach h
  refine ⟨?_, ?_, ?_, hf.nodup, ?_⟩
  · intro j outs o hw
    rw [hc.cleanup]
    cases hm : s.main with
    | done => exact absurd (all_gone hc (by rw [hm]; rfl) _ hw) (by simp)
    | exited => exact absurd (all_gone hc (by rw [hm]; rfl) _ hw) (by simp)
    | _ => rfl
  · rintro o (h | h)
    · exact file_of_flush hf h
    · exact file_of_close hf h
  · intro hw
    rw [hc.wg]
    exact List.length_pos_of_mem (List.mem_filter.2 ⟨hw, rfl⟩)
  · have c := hf.close
    cases hcl : s.cleaner with
    | close o =>
      obtain ⟨f, e⟩ := file_of_close hf hcl
      rw [hcl] at c
      simp only [Cleaner.unclosed, List.map_cons, List.map_nil, e] at c
      exact ⟨[f], perm_of_map_some (by simpa using c)⟩
    | _ =>
      rw [hcl] at c
      simp only [Cleaner.unclosed, List.map_nil, List.append_nil] at c
      exact ⟨[], by simpa using perm_of_map_some c⟩

/-- **C64 (no deadlock, partial).** With at least one worker (two CPUs), some goroutine can act in every
reachable state until the program has exited. Missing: machines with one CPU, where the claim is false,
see `C64_counterexample`. -/
theorem C64_progress_partial (numCPU : Nat) (hcpu : 2 ≤ numCPU) (jobs : List (Job F L)) (s : St F L)
    (h : Steps (init (nparallel numCPU) jobs) s) (hx : s.main ≠ .exited) : ∃ t, Step s t := by
  obtain ⟨hc, hj, hf⟩ := reach h
  exact progress (.inl (by unfold nparallel; omega)) hc hj hf hx

/-- **C64 (terminates).** No execution goes on for ever, on any machine. -/
theorem C64_terminates (n : Nat) (jobs : List (Job F L)) (run : Nat → St F L) (_h0 : run 0 = init n jobs) :
    ∃ k, ¬ Step (run k) (run (k + 1)) := by
  apply Classical.byContradiction
  intro hne
  have hall : ∀ k, Step (run k) (run (k + 1)) := fun k =>
    Classical.byContradiction fun h => hne ⟨k, h⟩
  have hk : ∀ k, (run k).weight + k ≤ (run 0).weight := by
    intro k
    induction k with
    | zero => omega
    | succ k ih =>
      have := weight_step (hall k)
      omega
  have := hk ((run 0).weight + 1)
  omega

theorem steps_trans {s t u : St F L} (h : Steps s t) (g : Steps t u) : Steps s u := by
  induction g with
  | refl => exact h
  | tail _ hs ih => exact .tail ih hs

/-- **C64 (exits, partial).** With at least two CPUs every execution can be, and if continued is,
completed to one that exits: from every reachable state an exit is reachable, and (with
`C64_progress_partial` and `C64_terminates`) every maximal execution ends there. -/
theorem C64_exits_partial (numCPU : Nat) (hcpu : 2 ≤ numCPU) (jobs : List (Job F L)) (s : St F L)
    (h : Steps (init (nparallel numCPU) jobs) s) : ∃ t, Steps s t ∧ t.main = .exited := by
  generalize hw : s.weight = w
  induction w using Nat.strongRecOn generalizing s with
  | _ w ih =>
    by_cases hx : s.main = .exited
    · exact ⟨s, .refl s, hx⟩
    · obtain ⟨t, ht⟩ := C64_progress_partial numCPU hcpu jobs s h hx
      obtain ⟨u, hu, hx⟩ := ih t.weight (by rw [← hw]; exact weight_step ht) t (.tail h ht) rfl
      exact ⟨u, steps_trans (.tail (.refl s) ht) hu, hx⟩

/-- On a machine with one CPU there are no workers: with any file on the command line the program is
stuck from the start. -/
theorem C64_counterexample (j : Job F L) (jobs : List (Job F L)) :
    nparallel 1 = 0 ∧ (init (nparallel 1) (j :: jobs)).main ≠ .exited ∧
    ¬ ∃ t, Step (init (nparallel 1) (j :: jobs)) t := by
  refine ⟨rfl, by simp [init], ?_⟩
  rintro ⟨t, h⟩
  generalize hs : init (nparallel 1) (j :: jobs) = s at h
  have hm : s.main = .sending (j :: jobs) := by rw [← hs]; rfl
  have hw : s.workers = [] := by rw [← hs]; rfl
  have hc : s.cleaner = .recv := by rw [← hs]; rfl
  have hq : s.queue = [] := by rw [← hs]; rfl
  have hcc : s.cleanupClosed = false := by rw [← hs]; rfl
  cases h with
  | send _ _ e => rw [hw] at e; simp at e
  | closeNames e => rw [hm] at e; cases e
  | wait e => rw [hm] at e; cases e
  | closeCleanup e => rw [hm] at e; cases e
  | finish e => rw [hm] at e; cases e
  | leave e => rw [hw] at e; simp at e
  | getPool e => rw [hw] at e; simp at e
  | getNew e => rw [hw] at e; simp at e
  | sendOut e => rw [hw] at e; simp at e
  | ret e => rw [hw] at e; simp at e
  | lock e => rw [hw] at e; simp at e
  | write e => rw [hw] at e; simp at e
  | unlock e => rw [hw] at e; simp at e
  | take _ e => rw [hq] at e; cases e
  | flush e => rw [hc] at e; cases e
  | close e => rw [hc] at e; cases e
  | put e => rw [hc] at e; cases e
  | drained _ _ e => rw [hcc] at e; cases e

/-- Executions that exit exist, for any list of files: here two files, one of them with two outputs. -/
theorem C63_witness : ∃ s : St Nat Nat,
    Steps (init (nparallel 4) [⟨[1, 2], [10, 11]⟩, ⟨[3], [12]⟩]) s ∧ s.main = .exited :=
  C64_exits_partial 4 (by decide) _ _ (.refl _)

/-! ### The lines of a file -/

/-- The work done for a file of the command line, as computed by the model of `processFile`. -/
def jobOf (fl : G2t.Flags) (hex : Bytes → Bytes) (create : Bytes → Option GoErr)
    (file : Bytes × GoRes G2t.Book) : Option (Job G2t.Out G2t.LogLine) :=
  match G2t.processFile fl hex create file.1 file.2 with
  | .ok (outs, res) => some ⟨outs, G2t.logLines file.1 res⟩
  | _ => none

/-- The lines logged for one file: a single line with the error that ended it — opening or listing it,
or creating an output —, or one line per sheet listed, in order, each as in `ReportOf`. -/
def FileLines (create : Bytes → Option GoErr) (file : Bytes × GoRes G2t.Book) (lines : List G2t.LogLine) : Prop :=
  (∃ e, lines = [.fatal file.1 e] ∧ (file.2 = .err e ∨ ∃ b, file.2 = .ok b ∧
    (b.list = .err e ∨ ∃ p, create p = some e))) ∨
  (∃ b sheets reports, file.2 = .ok b ∧ b.list = .ok sheets ∧ lines = reports.map .sheet ∧
    All2 (ReportOf file.1 b.get) sheets reports)

theorem all2_perm {α β : Type} {R : α → β → Prop} {bs bs' : List β} (hp : bs'.Perm bs) :
    ∀ {as : List α}, All2 R as bs → ∃ as', as'.Perm as ∧ All2 R as' bs' := by
  induction hp with
  | nil => intro as h; exact ⟨as, .refl _, h⟩
  | cons b _ ih =>
    intro as h
    cases h with
    | cons hr ht =>
      obtain ⟨as', hp, ha⟩ := ih ht
      exact ⟨_ :: as', hp.cons _, .cons hr ha⟩
  | swap x y l =>
    intro as h
    cases h with
    | cons h1 ht =>
      cases ht with
      | cons h2 ht => exact ⟨_, .swap _ _ _, .cons h2 (.cons h1 ht)⟩
  | trans _ _ ih1 ih2 =>
    intro as h
    obtain ⟨as', p1, h1⟩ := ih2 h
    obtain ⟨as'', p2, h2⟩ := ih1 h1
    exact ⟨as'', p2.trans p1, h2⟩

theorem all2_imp {α β : Type} {R S : α → β → Prop} (h : ∀ a b, R a b → S a b) {l : List α} {m : List β}
    (hr : All2 R l m) : All2 S l m := by
  induction hr with
  | nil => exact .nil
  | cons a _ ih => exact .cons (h _ _ a) ih

theorem all2_map_right {α β γ : Type} {R : α → γ → Prop} {f : β → γ} {l : List α} {m : List β}
    (h : All2 (fun a b => R a (f b)) l m) : All2 R l (m.map f) := by
  induction h with
  | nil => exact .nil
  | cons a _ ih => exact .cons a ih

theorem sheetsLoop_fatal (fl : G2t.Flags) (hex : Bytes → Bytes) (create : Bytes → Option GoErr) (fn : Bytes)
    (get : Bytes → GoRes G2t.Coll) (sheets : List Bytes) (outs : List G2t.Out) (e : GoErr)
    (h : G2t.sheetsLoop fl hex create fn get sheets = .ok (outs, .inr e)) : ∃ p, create p = some e := by
  induction sheets generalizing outs with
  | nil => cases h
  | cons s ss ih =>
    rw [G2t.sheetsLoop] at h
    split at h
    · cases h
    · obtain ⟨⟨o, r⟩, h1, h2⟩ := GoRes.bind_eq_ok.1 h
      cases r with
      | inl r => cases h2
      | inr e' => cases h2; exact ih _ h1
    · split at h
      · obtain ⟨⟨o, r⟩, h1, h2⟩ := GoRes.bind_eq_ok.1 h
        cases r with
        | inl r => cases h2
        | inr e' => cases h2; exact ih _ h1
      · dsimp only at h
        split at h
        · obtain ⟨⟨o, r⟩, h1, h2⟩ := GoRes.bind_eq_ok.1 h
          cases r with
          | inl r => cases h2
          | inr e' => cases h2; exact ih _ h1
        · split at h
          · next hc => cases h; exact ⟨_, hc⟩
          · obtain ⟨⟨o, r⟩, h1, h2⟩ := GoRes.bind_eq_ok.1 h
            cases r with
            | inl r => cases h2
            | inr e' => cases h2; exact ih _ h1

theorem jobOf_lines (hex : Bytes → Bytes) (create : Bytes → Option GoErr) (file : Bytes × GoRes G2t.Book)
    (j : Job G2t.Out G2t.LogLine) (h : jobOf {} hex create file = some j) : FileLines create file j.lines := by
  obtain ⟨fn, wb⟩ := file
  unfold jobOf at h
  split at h
  · next outs res hp =>
    cases h
    cases res with
    | inl res =>
      obtain ⟨b, sheets, h1, h2, _, h4⟩ := C65_file hex create fn wb outs res hp
      exact .inr ⟨b, sheets, res, h1, h2, rfl, h4⟩
    | inr e =>
      refine .inl ⟨e, rfl, ?_⟩
      cases wb with
      | panic => cases hp
      | err e' => cases hp; exact .inl rfl
      | ok b =>
        refine .inr ⟨b, rfl, ?_⟩
        simp only [G2t.processFile] at hp
        cases hl : b.list with
        | panic => rw [hl] at hp; cases hp
        | err e' => rw [hl] at hp; cases hp; exact .inl rfl
        | ok sheets =>
          rw [hl] at hp
          exact .inr (sheetsLoop_fatal _ _ _ _ _ _ _ _ hp)
  · cases h

/-- **C63 (lines).** With the default flags: when the program has exited, the log is made of one block
of lines per file of the command line, in some order of the files, each block being what `FileLines`
says. -/
theorem C63_files (hex : Bytes → Bytes) (create : Bytes → Option GoErr) (n : Nat)
    (files : List (Bytes × GoRes G2t.Book)) (jobs : List (Job G2t.Out G2t.LogLine))
    (hjobs : All2 (fun f j => jobOf {} hex create f = some j) files jobs)
    (s : St G2t.Out G2t.LogLine) (h : Steps (init n jobs) s) (hx : s.main = .exited) :
    ∃ order blocks, order.Perm files ∧ All2 (FileLines create) order blocks ∧ s.log = blocks.flatten := by
  obtain ⟨_, order, hp, hl⟩ := C63_log n jobs s h hx
  obtain ⟨forder, hfp, ha⟩ := all2_perm hp hjobs
  refine ⟨forder, order.map Job.lines, hfp, ?_, by rw [hl, List.flatMap]⟩
  exact all2_map_right (all2_imp (fun f j hj => jobOf_lines hex create f j hj) ha)

/-- The hypothesis of `C63_files` is met by a file that opens and one that does not. -/
example : ∃ jobs, All2 (fun f j => jobOf {} (fun _ => lit "0123") (fun _ => none) f = some j)
    [(lit "a.xls", GoRes.ok ⟨.ok [lit "S"], fun _ => .ok ⟨false, [[[97]]]⟩⟩), (lit "b", .err .unknownFormat)] jobs :=
  ⟨_, .cons rfl (.cons rfl .nil)⟩

end Grate.Props
