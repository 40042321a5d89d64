import Verif.Model.Workers

/-! # Invariants of the goroutines of `grate2tsv` -/

namespace Grate.Work

variable {F L : Type}

/-! ### Control -/

/-- Whether `main` has passed `procWG.Wait()`. -/
def MainPc.over : MainPc F L → Bool
  | .sending _ => false
  | .waiting => false
  | _ => true

/-- Whether `main` is still sending names. -/
def MainPc.isSending : MainPc F L → Bool
  | .sending _ => true
  | _ => false

/-- Whether `main` has closed `cleanup`. -/
def MainPc.late : MainPc F L → Bool
  | .done => true
  | .exited => true
  | _ => false

/-- Whether `main` has returned. -/
def MainPc.isExited : MainPc F L → Bool
  | .exited => true
  | _ => false

/-- Whether a worker has not left. -/
def Worker.alive : Worker F L → Bool
  | .gone => false
  | _ => true

/-- Whether the cleanup goroutine has left its loop. -/
def Cleaner.over : Cleaner → Bool
  | .done => true
  | .gone => true
  | _ => false

/-- Whether the cleanup goroutine has returned. -/
def Cleaner.isGone : Cleaner → Bool
  | .gone => true
  | _ => false

/-- Relations between the program counters and the channels. -/
structure Ctl (n : Nat) (s : St F L) : Prop where
  len : s.workers.length = n
  names : s.namesClosed = !s.main.isSending
  wg : s.wg = (s.workers.filter Worker.alive).length
  left : ∀ w ∈ s.workers, w.alive = false → s.namesClosed = true
  over : s.main.over = true → s.wg = 0
  cleanup : s.cleanupClosed = s.main.late
  drained : s.cleaner.over = true → s.queue = [] ∧ s.cleanupClosed = true
  exit : s.cleaner.isGone = s.main.isExited

theorem ctl_init (n : Nat) (jobs : List (Job F L)) : Ctl n (init n jobs) where
  len := by simp [init]
  names := rfl
  wg := by
    have : (List.replicate n (Worker.recv : Worker F L)).filter Worker.alive = List.replicate n .recv :=
      List.filter_eq_self.2 (fun w hw => by rw [List.eq_of_mem_replicate hw]; rfl)
    change n = ((List.replicate n (Worker.recv : Worker F L)).filter Worker.alive).length
    rw [this, List.length_replicate]
  left := by
    intro w hw h
    obtain rfl := List.eq_of_mem_replicate hw
    cases h
  over := by intro h; cases h
  cleanup := rfl
  drained := by intro h; cases h
  exit := rfl

/-- Replacing a live worker by a live worker. -/
theorem ctl_swap {n : Nat} {s : St F L} (h : Ctl n s) {pre post : List (Worker F L)} {w w' : Worker F L}
    (hw : s.workers = pre ++ w :: post) (hl : w.alive = true) (hl' : w'.alive = true) :
    (pre ++ w' :: post).length = n ∧ s.wg = ((pre ++ w' :: post).filter Worker.alive).length ∧
    (∀ v ∈ pre ++ w' :: post, v.alive = false → s.namesClosed = true) ∧ s.main.over = false := by
  have e : s.wg = (pre.filter Worker.alive).length + ((post.filter Worker.alive).length + 1) := by
    rw [h.wg, hw]; simp [hl]
  refine ⟨?_, ?_, ?_, ?_⟩
  · rw [← h.len, hw]; simp
  · rw [e]; simp [hl']
  · intro v hv hd
    rcases List.mem_append.1 hv with hv | hv
    · exact h.left v (by rw [hw]; exact List.mem_append_left _ hv) hd
    · rcases List.mem_cons.1 hv with rfl | hv
      · rw [hl'] at hd; cases hd
      · exact h.left v (by rw [hw]; simp [hv]) hd
  · cases ho : s.main.over with
    | false => rfl
    | true =>
      have := h.over ho
      omega

theorem ctl_step {n : Nat} {s t : St F L} (h : Ctl n s) (hs : Step s t) : Ctl n t := by
  cases hs with
  | send hm hn hw =>
    obtain ⟨a, b, c, _⟩ := ctl_swap h hw rfl rfl (w' := .work _ _)
    have hnames := h.names
    have hcl := h.cleanup
    have hex := h.exit
    rw [hm] at hnames hcl hex
    exact ⟨a, hnames, b, c, fun h' => (by cases h'), hcl, h.drained, hex⟩
  | closeNames hm =>
    have hcl := h.cleanup
    have hex := h.exit
    rw [hm] at hcl hex
    exact ⟨h.len, rfl, h.wg, fun _ _ _ => rfl, fun h' => (by cases h'), hcl, h.drained, hex⟩
  | wait hm hz =>
    have hnames := h.names
    have hcl := h.cleanup
    have hex := h.exit
    rw [hm] at hnames hcl hex
    exact ⟨h.len, hnames, h.wg, h.left, fun _ => hz, hcl, h.drained, hex⟩
  | closeCleanup hm =>
    have hnames := h.names
    have hex := h.exit
    have hov := h.over
    rw [hm] at hnames hex hov
    exact ⟨h.len, hnames, h.wg, h.left, fun _ => hov rfl, rfl, fun h' => ⟨(h.drained h').1, rfl⟩, hex⟩
  | finish hm hc =>
    have hnames := h.names
    have hov := h.over
    have hcl := h.cleanup
    have hdr := h.drained
    rw [hm] at hnames hov hcl
    rw [hc] at hdr
    exact ⟨h.len, hnames, h.wg, h.left, fun _ => hov rfl, hcl, fun _ => hdr rfl, rfl⟩
  | @leave pre post hw hn =>
    have e : s.wg = (pre.filter Worker.alive).length + ((post.filter Worker.alive).length + 1) := by
      rw [h.wg, hw, List.filter_append, List.filter_cons_of_pos rfl]; simp
    refine ⟨?_, h.names, ?_, fun _ _ _ => hn, ?_, h.cleanup, h.drained, h.exit⟩
    · rw [← h.len, hw]; simp
    · rw [List.filter_append, List.filter_cons_of_neg (fun h => by cases h), List.length_append]
      change s.wg - 1 = _
      omega
    · intro ho
      have := h.over ho
      omega
  | getPool hw hp =>
    obtain ⟨a, b, c, d⟩ := ctl_swap h hw rfl rfl (w' := .hand _ _ _)
    exact ⟨a, h.names, b, c, h.over, h.cleanup, h.drained, h.exit⟩
  | getNew hw =>
    obtain ⟨a, b, c, d⟩ := ctl_swap h hw rfl rfl (w' := .hand _ _ _)
    exact ⟨a, h.names, b, c, h.over, h.cleanup, h.drained, h.exit⟩
  | sendOut hw hc hq =>
    obtain ⟨a, b, c, d⟩ := ctl_swap h hw rfl rfl (w' := .work _ _)
    refine ⟨a, h.names, b, c, h.over, h.cleanup, fun ho => ?_, h.exit⟩
    have := (h.drained ho).2
    rw [hc] at this
    cases this
  | ret hw =>
    obtain ⟨a, b, c, d⟩ := ctl_swap h hw rfl rfl (w' := .lock _)
    exact ⟨a, h.names, b, c, h.over, h.cleanup, h.drained, h.exit⟩
  | lock hw _ =>
    obtain ⟨a, b, c, d⟩ := ctl_swap h hw rfl rfl (w' := .log _ _)
    exact ⟨a, h.names, b, c, h.over, h.cleanup, h.drained, h.exit⟩
  | write hw =>
    obtain ⟨a, b, c, d⟩ := ctl_swap h hw rfl rfl (w' := .log _ _)
    exact ⟨a, h.names, b, c, h.over, h.cleanup, h.drained, h.exit⟩
  | unlock hw =>
    obtain ⟨a, b, c, d⟩ := ctl_swap h hw rfl rfl (w' := .recv)
    exact ⟨a, h.names, b, c, h.over, h.cleanup, h.drained, h.exit⟩
  | take hc hq =>
    have hex := h.exit
    rw [hc] at hex
    exact ⟨h.len, h.names, h.wg, h.left, h.over, h.cleanup, fun h' => (by cases h'), hex⟩
  | flush hc _ =>
    have hex := h.exit
    rw [hc] at hex
    exact ⟨h.len, h.names, h.wg, h.left, h.over, h.cleanup, fun h' => (by cases h'), hex⟩
  | close hc _ =>
    have hex := h.exit
    rw [hc] at hex
    exact ⟨h.len, h.names, h.wg, h.left, h.over, h.cleanup, fun h' => (by cases h'), hex⟩
  | put hc =>
    have hex := h.exit
    rw [hc] at hex
    exact ⟨h.len, h.names, h.wg, h.left, h.over, h.cleanup, fun h' => (by cases h'), hex⟩
  | drained hc hq hd =>
    have hex := h.exit
    rw [hc] at hex
    exact ⟨h.len, h.names, h.wg, h.left, h.over, h.cleanup, fun _ => ⟨hq, hd⟩, hex⟩

/-! ### Jobs and the log -/

/-- The names not yet sent. -/
def MainPc.todo : MainPc F L → List (Job F L)
  | .sending t => t
  | _ => []

/-- The job a worker is busy with. -/
def Worker.busy : Worker F L → List (Job F L)
  | .work j _ => [j]
  | .hand j _ _ => [j]
  | .lock j => [j]
  | .log j _ => [j]
  | _ => []

/-- The job a worker is logging, with the lines still to write. -/
def Worker.logging : Worker F L → List (Job F L × List L)
  | .log j ls => [(j, ls)]
  | _ => []

/-- The log consists of the lines of finished jobs and of the part written by the holder of the lock. -/
inductive LogOk (s : St F L) (fin : List (Job F L)) : Prop
  | free : s.locked = false → s.workers.flatMap Worker.logging = [] → s.log = fin.flatMap Job.lines →
      LogOk s fin
  | held (j : Job F L) (ls ws : List L) : s.locked = true →
      s.workers.flatMap Worker.logging = [(j, ls)] → j.lines = ws ++ ls →
      s.log = fin.flatMap Job.lines ++ ws → LogOk s fin

/-- Every job is in exactly one place. -/
structure Jobs (jobs : List (Job F L)) (s : St F L) : Prop where
  sent : s.started ++ s.main.todo = jobs
  log : ∃ fin, (fin ++ s.workers.flatMap Worker.busy).Perm s.started ∧ LogOk s fin

theorem jobs_init (n : Nat) (jobs : List (Job F L)) : Jobs jobs (init n jobs) := by
  have h1 : (List.replicate n (Worker.recv : Worker F L)).flatMap Worker.busy = [] := by
    rw [List.flatMap_eq_nil_iff]
    intro w hw
    rw [List.eq_of_mem_replicate hw]; rfl
  have h2 : (List.replicate n (Worker.recv : Worker F L)).flatMap Worker.logging = [] := by
    rw [List.flatMap_eq_nil_iff]
    intro w hw
    rw [List.eq_of_mem_replicate hw]; rfl
  refine ⟨rfl, [], ?_, .free rfl h2 rfl⟩
  change ([] ++ (List.replicate n (Worker.recv : Worker F L)).flatMap Worker.busy).Perm []
  rw [h1]
  exact .refl _

/-- Replacing a worker by one with the same job that is not logging either. -/
theorem jobs_swap {jobs : List (Job F L)} {s t : St F L} (h : Jobs jobs s) {pre post : List (Worker F L)}
    {w w' : Worker F L} (hw : s.workers = pre ++ w :: post) (ht : t.workers = pre ++ w' :: post)
    (hb : w'.busy = w.busy) (hl : w'.logging = w.logging) (hs : t.started = s.started)
    (hm : t.main = s.main) (hk : t.locked = s.locked) (hg : t.log = s.log) : Jobs jobs t := by
  obtain ⟨h1, fin, h2, h3⟩ := h
  have e1 : t.workers.flatMap Worker.busy = s.workers.flatMap Worker.busy := by rw [hw, ht]; simp [hb]
  have e2 : t.workers.flatMap Worker.logging = s.workers.flatMap Worker.logging := by rw [hw, ht]; simp [hl]
  refine ⟨by rw [hs, hm]; exact h1, fin, by rw [e1, hs]; exact h2, ?_⟩
  cases h3 with
  | free a b c => exact .free (hk ▸ a) (e2 ▸ b) (hg ▸ c)
  | held j ls ws a b c d => exact .held j ls ws (hk ▸ a) (e2 ▸ b) c (hg ▸ d)

/-- A step that touches neither workers, nor jobs, nor the log. -/
theorem jobs_same {jobs : List (Job F L)} {s t : St F L} (h : Jobs jobs s) (ht : t.workers = s.workers)
    (hs : t.started = s.started) (hm : t.main.todo = s.main.todo) (hk : t.locked = s.locked)
    (hg : t.log = s.log) : Jobs jobs t := by
  obtain ⟨h1, fin, h2, h3⟩ := h
  refine ⟨by rw [hs, hm]; exact h1, fin, by rw [ht, hs]; exact h2, ?_⟩
  cases h3 with
  | free a b c => exact .free (hk ▸ a) (ht ▸ b) (hg ▸ c)
  | held j ls ws a b c d => exact .held j ls ws (hk ▸ a) (ht ▸ b) c (hg ▸ d)

theorem append_singleton_mid {α : Type} {a b : List α} {x y : α} (h : a ++ x :: b = [y]) :
    a = [] ∧ b = [] ∧ x = y := by
  cases a with
  | nil => cases h; exact ⟨rfl, rfl, rfl⟩
  | cons z a => simp at h

theorem jobs_step {jobs : List (Job F L)} {s t : St F L} (h : Jobs jobs s) (hs : Step s t) : Jobs jobs t := by
  cases hs with
  | @send j todo pre post hm hn hw =>
    obtain ⟨h1, fin, h2, h3⟩ := h
    refine ⟨?_, fin, ?_, ?_⟩
    · rw [hm] at h1
      rw [← h1]
      simp [MainPc.todo]
    · rw [hw] at h2
      simp only [List.flatMap_append, List.flatMap_cons, Worker.busy, List.nil_append] at h2 ⊢
      have : (fin ++ (pre.flatMap Worker.busy ++ ([j] ++ post.flatMap Worker.busy))).Perm
          ((fin ++ (pre.flatMap Worker.busy ++ post.flatMap Worker.busy)) ++ [j]) := by
        rw [List.append_assoc]
        refine List.Perm.append_left _ ?_
        rw [List.append_assoc]
        exact List.Perm.append_left _ List.perm_append_comm
      exact this.trans (h2.append_right _)
    · have e : ∀ w : Worker F L, w.logging = [] → (pre ++ w :: post).flatMap Worker.logging =
          pre.flatMap Worker.logging ++ post.flatMap Worker.logging := by
        intro w h; simp [h]
      cases h3 with
      | free a b c =>
        refine .free a ?_ c
        rw [hw, e _ rfl] at b
        rw [e _ rfl]; exact b
      | held j' ls ws a b c d =>
        refine .held j' ls ws a ?_ c d
        rw [hw, e _ rfl] at b
        rw [e _ rfl]; exact b
  | closeNames hm => exact jobs_same h rfl rfl (by rw [hm]; rfl) rfl rfl
  | wait hm hz => exact jobs_same h rfl rfl (by rw [hm]; rfl) rfl rfl
  | closeCleanup hm => exact jobs_same h rfl rfl (by rw [hm]; rfl) rfl rfl
  | finish hm hc => exact jobs_same h rfl rfl (by rw [hm]; rfl) rfl rfl
  | leave hw hn => exact jobs_swap h hw rfl rfl rfl rfl rfl rfl rfl
  | getPool hw hp => exact jobs_swap h hw rfl rfl rfl rfl rfl rfl rfl
  | getNew hw => exact jobs_swap h hw rfl rfl rfl rfl rfl rfl rfl
  | sendOut hw hc hq => exact jobs_swap h hw rfl rfl rfl rfl rfl rfl rfl
  | ret hw => exact jobs_swap h hw rfl rfl rfl rfl rfl rfl rfl
  | @lock j pre post hw hk =>
    obtain ⟨h1, fin, h2, h3⟩ := h
    refine ⟨h1, fin, ?_, ?_⟩
    · rw [hw] at h2
      simpa [Worker.busy] using h2
    · cases h3 with
      | held j' ls ws a b c d => rw [hk] at a; cases a
      | free a b c =>
        rw [hw] at b
        simp only [List.flatMap_append, List.flatMap_cons, List.append_eq_nil_iff] at b
        refine .held j j.lines [] rfl ?_ rfl (by simpa using c)
        simp [b.1, b.2.2, Worker.logging]
  | @write j l ls pre post hw =>
    obtain ⟨h1, fin, h2, h3⟩ := h
    refine ⟨h1, fin, ?_, ?_⟩
    · rw [hw] at h2
      simpa [Worker.busy] using h2
    · cases h3 with
      | free a b c =>
        rw [hw] at b
        simp [Worker.logging] at b
      | held j' ls' ws a b c d =>
        rw [hw] at b
        simp only [List.flatMap_append, List.flatMap_cons, Worker.logging, List.cons_append,
          List.nil_append] at b
        obtain ⟨b1, b2, b3⟩ := append_singleton_mid b
        cases b3
        refine .held j ls (ws ++ [l]) a ?_ (by simpa using c) (by simp [d])
        simp [b1, b2, Worker.logging]
  | @unlock j pre post hw =>
    obtain ⟨h1, fin, h2, h3⟩ := h
    cases h3 with
    | free a b c =>
      rw [hw] at b
      simp [Worker.logging] at b
    | held j' ls' ws a b c d =>
      rw [hw] at b
      simp only [List.flatMap_append, List.flatMap_cons, Worker.logging, List.cons_append,
        List.nil_append] at b
      obtain ⟨b1, b2, b3⟩ := append_singleton_mid b
      cases b3
      refine ⟨h1, fin ++ [j], ?_, .free rfl ?_ ?_⟩
      · rw [hw] at h2
        simp only [List.flatMap_append, List.flatMap_cons, Worker.busy, List.nil_append] at h2 ⊢
        refine List.Perm.trans ?_ h2
        rw [List.append_assoc]
        refine List.Perm.append_left _ ?_
        rw [← List.append_assoc, ← List.append_assoc]
        exact List.Perm.append_right _ List.perm_append_comm
      · simp [b1, b2, Worker.logging]
      · simp only [List.flatMap_append, List.flatMap_cons, List.flatMap_nil, List.append_nil]
        rw [d, c, List.append_nil]
  | take hc hq => exact jobs_same h rfl rfl rfl rfl rfl
  | flush hc _ => exact jobs_same h rfl rfl rfl rfl rfl
  | close hc _ => exact jobs_same h rfl rfl rfl rfl rfl
  | put hc => exact jobs_same h rfl rfl rfl rfl rfl
  | drained hc hq hd => exact jobs_same h rfl rfl rfl rfl rfl

/-! ### Output files -/

/-- The object a worker holds. -/
def Worker.held : Worker F L → List Nat
  | .hand _ _ o => [o]
  | _ => []

/-- The outputs a worker has still to create. -/
def Worker.rest : Worker F L → List F
  | .work _ outs => outs
  | .hand _ outs _ => outs
  | _ => []

/-- The object about to be flushed. -/
def Cleaner.unflushed : Cleaner → List Nat
  | .flush o => [o]
  | _ => []

/-- The object flushed but not closed. -/
def Cleaner.unclosed : Cleaner → List Nat
  | .close o => [o]
  | _ => []

/-- The object closed but not given back. -/
def Cleaner.used : Cleaner → List Nat
  | .put o => [o]
  | _ => []

/-- All places an object can be in. -/
def St.objects (s : St F L) : List Nat :=
  s.workers.flatMap Worker.held ++ (s.queue ++ (s.cleaner.unflushed ++ (s.cleaner.unclosed ++
    (s.cleaner.used ++ s.pool))))

/-- Every output is in exactly one place. -/
structure Files (s : St F L) : Prop where
  outs : (s.created ++ s.workers.flatMap Worker.rest).Perm (s.started.flatMap Job.outs)
  flush : (s.created.map some).Perm (s.flushed.map some ++
    (s.workers.flatMap Worker.held ++ (s.queue ++ s.cleaner.unflushed)).map s.file)
  close : (s.flushed.map some).Perm (s.closed.map some ++ s.cleaner.unclosed.map s.file)
  nodup : s.objects.Nodup
  bound : ∀ o ∈ s.objects, o < s.next

theorem files_init (n : Nat) (jobs : List (Job F L)) : Files (init n jobs) := by
  have h1 : (List.replicate n (Worker.recv : Worker F L)).flatMap Worker.rest = [] := by
    rw [List.flatMap_eq_nil_iff]
    intro w hw
    rw [List.eq_of_mem_replicate hw]; rfl
  have h2 : (List.replicate n (Worker.recv : Worker F L)).flatMap Worker.held = [] := by
    rw [List.flatMap_eq_nil_iff]
    intro w hw
    rw [List.eq_of_mem_replicate hw]; rfl
  have h3 : (init n jobs).objects = [] := by
    simp only [St.objects, init, h2]; rfl
  refine ⟨?_, ?_, .refl _, by rw [h3]; exact List.nodup_nil, by rw [h3]; simp⟩
  · simp only [init, h1]; exact .refl _
  · simp only [init, h2]; exact .refl _

/-- Replacing a worker by one with the same outputs. -/
theorem files_swap {s t : St F L} (h : Files s) {pre post : List (Worker F L)}
    {w w' : Worker F L} (hw : s.workers = pre ++ w :: post) (ht : t.workers = pre ++ w' :: post)
    (hh : w'.held = w.held) (hr : w'.rest = w.rest) (hs : t.started = s.started)
    (e1 : t.created = s.created) (e2 : t.flushed = s.flushed) (e3 : t.closed = s.closed)
    (e4 : t.queue = s.queue) (e5 : t.cleaner = s.cleaner) (e6 : t.pool = s.pool) (e7 : t.next = s.next)
    (e8 : t.file = s.file) : Files t := by
  have a1 : t.workers.flatMap Worker.held = s.workers.flatMap Worker.held := by rw [hw, ht]; simp [hh]
  have a2 : t.workers.flatMap Worker.rest = s.workers.flatMap Worker.rest := by rw [hw, ht]; simp [hr]
  have a3 : t.objects = s.objects := by simp only [St.objects, a1, e4, e5, e6]
  exact ⟨by rw [a2, hs, e1]; exact h.outs, by rw [a1, e1, e2, e4, e5, e8]; exact h.flush,
    by rw [e2, e3, e5, e8]; exact h.close, a3 ▸ h.nodup, by rw [a3, e7]; exact h.bound⟩

/-- A step that does not touch outputs. -/
theorem files_same {s t : St F L} (h : Files s) (ht : t.workers = s.workers)
    (hs : t.started = s.started)
    (e1 : t.created = s.created) (e2 : t.flushed = s.flushed) (e3 : t.closed = s.closed)
    (e4 : t.queue = s.queue) (e5 : t.cleaner.unflushed = s.cleaner.unflushed)
    (e5' : t.cleaner.unclosed = s.cleaner.unclosed) (e5'' : t.cleaner.used = s.cleaner.used)
    (e6 : t.pool = s.pool) (e7 : t.next = s.next)
    (e8 : t.file = s.file) : Files t := by
  have a3 : t.objects = s.objects := by simp only [St.objects, ht, e4, e5, e5', e5'', e6]
  exact ⟨by rw [ht, hs, e1]; exact h.outs, by rw [ht, e1, e2, e4, e5, e8]; exact h.flush,
    by rw [e2, e3, e5', e8]; exact h.close, a3 ▸ h.nodup, by rw [a3, e7]; exact h.bound⟩

theorem map_update {s : St F L} {o : Nat} {f : F} {l : List Nat} (h : o ∉ l) :
    l.map (fun x => if x = o then some f else s.file x) = l.map s.file := by
  refine List.map_congr_left (fun x hx => if_neg ?_)
  rintro rfl
  exact h hx

open Classical in
theorem files_get {s t : St F L} (h : Files s) {pre post : List (Worker F L)} {j : Job F L} {f : F}
    {outs : List F} {o : Nat} (hw : s.workers = pre ++ .work j (f :: outs) :: post)
    (ht : t.workers = pre ++ .hand j outs o :: post) (hs : t.started = s.started)
    (e1 : t.created = s.created ++ [f]) (e2 : t.flushed = s.flushed) (e3 : t.closed = s.closed)
    (e4 : t.queue = s.queue) (e5 : t.cleaner = s.cleaner)
    (e8 : t.file = fun x => if x = o then some f else s.file x)
    (hnot : o ∉ s.workers.flatMap Worker.held ++ (s.queue ++ (s.cleaner.unflushed ++ (s.cleaner.unclosed ++
      s.cleaner.used)))) (hnd : t.objects.Nodup) (hbd : ∀ x ∈ t.objects, x < t.next) : Files t := by
  simp only [List.mem_append, not_or] at hnot
  have hh : t.workers.flatMap Worker.held = pre.flatMap Worker.held ++ (o :: post.flatMap Worker.held) := by
    rw [ht]; simp [Worker.held]
  have hh' : s.workers.flatMap Worker.held = pre.flatMap Worker.held ++ post.flatMap Worker.held := by
    rw [hw]; simp [Worker.held]
  have hr : t.workers.flatMap Worker.rest = pre.flatMap Worker.rest ++ (outs ++ post.flatMap Worker.rest) := by
    rw [ht]; simp [Worker.rest]
  have hr' : s.workers.flatMap Worker.rest =
      pre.flatMap Worker.rest ++ (f :: outs ++ post.flatMap Worker.rest) := by
    rw [hw]; simp [Worker.rest]
  refine ⟨?_, ?_, ?_, hnd, hbd⟩
  · have := h.outs
    rw [hr'] at this
    rw [hr, e1, hs]
    rw [List.perm_iff_count] at this ⊢
    intro a
    have := this a
    simp only [List.count_append, List.count_cons, List.count_nil] at this ⊢
    omega
  · have h0 := h.flush
    have hn := hnot.1
    rw [hh'] at h0 hn
    simp only [List.mem_append, not_or] at hn
    rw [hh, e1, e2, e4, e5, e8]
    simp only [List.map_append, List.map_cons, map_update hn.1, map_update hn.2, map_update hnot.2.1,
      map_update hnot.2.2.1, if_true, List.map_nil] at h0 ⊢
    rw [List.perm_iff_count] at h0 ⊢
    intro a
    have := h0 a
    simp only [List.count_append, List.count_cons, List.count_nil] at this ⊢
    omega
  · rw [e2, e3, e5, e8, map_update hnot.2.2.2.1]
    exact h.close

open Classical in
theorem files_step {s t : St F L} (h : Files s) (hs : Step s t) : Files t := by
  cases hs with
  | @send j todo pre post hm hn hw =>
    have a1 : (pre ++ Worker.work j j.outs :: post).flatMap Worker.held = s.workers.flatMap Worker.held := by
      rw [hw]; simp [Worker.held]
    refine ⟨?_, ?_, h.close, ?_, ?_⟩
    · have := h.outs
      rw [hw] at this
      simp only [List.flatMap_append, List.flatMap_cons, List.flatMap_nil, Worker.rest] at this ⊢
      rw [List.perm_iff_count] at this ⊢
      intro a
      have := this a
      simp only [List.count_append, List.count_nil] at this ⊢
      omega
    · simp only [a1]; exact h.flush
    · simp only [St.objects, a1]; exact h.nodup
    · simp only [St.objects, a1]; exact h.bound
  | closeNames hm => exact files_same h rfl rfl rfl rfl rfl rfl rfl rfl rfl rfl rfl rfl
  | wait hm hz => exact files_same h rfl rfl rfl rfl rfl rfl rfl rfl rfl rfl rfl rfl
  | closeCleanup hm => exact files_same h rfl rfl rfl rfl rfl rfl rfl rfl rfl rfl rfl rfl
  | finish hm hc =>
    exact files_same h rfl rfl rfl rfl rfl rfl (by rw [hc]; rfl) (by rw [hc]; rfl) (by rw [hc]; rfl) rfl rfl rfl
  | leave hw hn => exact files_swap h hw rfl rfl rfl rfl rfl rfl rfl rfl rfl rfl rfl rfl
  | @getPool j f outs pre post p q o hw hp =>
    have hnd := h.nodup
    have hbd := h.bound
    have hh' : s.workers.flatMap Worker.held = pre.flatMap Worker.held ++ post.flatMap Worker.held := by
      rw [hw]; simp [Worker.held]
    have perm : ((pre ++ Worker.hand j outs o :: post).flatMap Worker.held ++ (s.queue ++
        (s.cleaner.unflushed ++ (s.cleaner.unclosed ++ (s.cleaner.used ++ (p ++ q)))))).Perm s.objects := by
      rw [List.perm_iff_count]
      intro a
      simp only [St.objects, hh', hp, List.flatMap_append, List.flatMap_cons, Worker.held,
        List.count_append, List.count_cons, List.count_nil]
      omega
    refine files_get h hw rfl rfl rfl rfl rfl rfl rfl rfl ?_ (perm.nodup_iff.2 hnd)
      (fun x hx => hbd x (perm.mem_iff.1 hx))
    intro hm
    have h1 := List.nodup_iff_count.1 hnd o
    have h2 := List.count_pos_iff.2 hm
    simp only [St.objects, hp, List.count_append, List.count_cons, beq_self_eq_true, if_true] at h1 h2
    omega
  | @getNew j f outs pre post hw =>
    have hnd := h.nodup
    have hbd := h.bound
    have hnew : s.next ∉ s.objects := fun hm => Nat.lt_irrefl _ (hbd _ hm)
    have hh' : s.workers.flatMap Worker.held = pre.flatMap Worker.held ++ post.flatMap Worker.held := by
      rw [hw]; simp [Worker.held]
    have perm : ((pre ++ Worker.hand j outs s.next :: post).flatMap Worker.held ++ (s.queue ++
        (s.cleaner.unflushed ++ (s.cleaner.unclosed ++ (s.cleaner.used ++ s.pool))))).Perm
          (s.next :: s.objects) := by
      rw [List.perm_iff_count]
      intro a
      simp only [St.objects, hh', List.flatMap_append, List.flatMap_cons, Worker.held,
        List.count_append, List.count_cons, List.count_nil]
      omega
    refine files_get h hw rfl rfl rfl rfl rfl rfl rfl rfl ?_
      (perm.nodup_iff.2 (List.nodup_cons.2 ⟨hnew, hnd⟩)) ?_
    · intro hm
      refine hnew ?_
      simp only [St.objects, List.mem_append] at hm ⊢
      rcases hm with hm | hm | hm | hm | hm
      · exact .inl hm
      · exact .inr (.inl hm)
      · exact .inr (.inr (.inl hm))
      · exact .inr (.inr (.inr (.inl hm)))
      · exact .inr (.inr (.inr (.inr (.inl hm))))
    · intro x hx
      rcases List.mem_cons.1 (perm.mem_iff.1 hx) with rfl | hx
      · exact Nat.lt_succ_self _
      · exact Nat.lt_succ_of_lt (hbd x hx)
  | @sendOut j outs o pre post hw hc hq =>
    have hh' : s.workers.flatMap Worker.held = pre.flatMap Worker.held ++ (o :: post.flatMap Worker.held) := by
      rw [hw]; simp [Worker.held]
    have perm : ((pre ++ Worker.work j outs :: post).flatMap Worker.held ++ ((s.queue ++ [o]) ++
        (s.cleaner.unflushed ++ (s.cleaner.unclosed ++ (s.cleaner.used ++ s.pool))))).Perm s.objects := by
      rw [List.perm_iff_count]
      intro a
      simp only [St.objects, hh', List.flatMap_append, List.flatMap_cons, Worker.held,
        List.count_append, List.count_cons, List.count_nil]
      omega
    refine ⟨?_, ?_, h.close, perm.nodup_iff.2 h.nodup, fun x hx => h.bound x (perm.mem_iff.1 hx)⟩
    · have := h.outs
      rw [hw] at this
      simpa [Worker.rest] using this
    · have h0 := h.flush
      rw [hh'] at h0
      rw [List.perm_iff_count] at h0 ⊢
      intro a
      have := h0 a
      simp only [List.flatMap_append, List.flatMap_cons, Worker.held, List.map_append, List.map_cons,
        List.map_nil, List.count_append, List.count_cons, List.count_nil] at this ⊢
      omega
  | ret hw => exact files_swap h hw rfl rfl rfl rfl rfl rfl rfl rfl rfl rfl rfl rfl
  | lock hw _ => exact files_swap h hw rfl rfl rfl rfl rfl rfl rfl rfl rfl rfl rfl rfl
  | write hw => exact files_swap h hw rfl rfl rfl rfl rfl rfl rfl rfl rfl rfl rfl rfl
  | unlock hw => exact files_swap h hw rfl rfl rfl rfl rfl rfl rfl rfl rfl rfl rfl rfl
  | @take o q hc hq =>
    have e : ∀ a, List.count a (q ++ [o]) = List.count a (o :: q) := by
      intro a; simp only [List.count_append, List.count_cons, List.count_nil]; omega
    have perm : (s.workers.flatMap Worker.held ++ (q ++
        ([o] ++ ([] ++ ([] ++ s.pool))))).Perm s.objects := by
      rw [List.perm_iff_count]
      intro a
      simp only [St.objects, hc, hq, Cleaner.unflushed, Cleaner.unclosed, Cleaner.used,
        List.count_append, List.count_cons, List.count_nil]
      omega
    have h1 := h.flush
    have h2 := h.close
    rw [hc, hq] at h1
    rw [hc] at h2
    refine ⟨h.outs, ?_, h2, perm.nodup_iff.2 h.nodup, fun x hx => h.bound x (perm.mem_iff.1 hx)⟩
    rw [List.perm_iff_count] at h1 ⊢
    intro a
    have := h1 a
    simp only [Cleaner.unflushed, List.map_append, List.map_cons, List.map_nil, List.count_append,
      List.count_cons, List.count_nil] at this ⊢
    omega
  | @flush o f hc hf =>
    have e : St.objects { s with cleaner := .close o, flushed := s.flushed ++ [f] } = s.objects := by
      simp only [St.objects, hc, Cleaner.unflushed, Cleaner.unclosed, Cleaner.used]; rfl
    have h1 := h.flush
    have h2 := h.close
    rw [hc] at h1 h2
    refine ⟨h.outs, ?_, ?_, e ▸ h.nodup, fun x hx => h.bound x (e ▸ hx)⟩
    · rw [List.perm_iff_count] at h1 ⊢
      intro a
      have := h1 a
      simp only [Cleaner.unflushed, List.map_append, List.map_cons, List.map_nil, List.count_append,
        List.count_cons, List.count_nil, hf] at this ⊢
      omega
    · rw [List.perm_iff_count] at h2 ⊢
      intro a
      have := h2 a
      simp only [Cleaner.unclosed, List.map_append, List.map_cons, List.map_nil, List.count_append,
        List.count_cons, List.count_nil, hf] at this ⊢
      omega
  | @close o f hc hf =>
    have e : St.objects { s with cleaner := .put o, closed := s.closed ++ [f] } = s.objects := by
      simp only [St.objects, hc, Cleaner.unflushed, Cleaner.unclosed, Cleaner.used]; rfl
    have h1 := h.flush
    have h2 := h.close
    rw [hc] at h1 h2
    refine ⟨h.outs, h1, ?_, e ▸ h.nodup, fun x hx => h.bound x (e ▸ hx)⟩
    rw [List.perm_iff_count] at h2 ⊢
    intro a
    have := h2 a
    simp only [Cleaner.unclosed, List.map_append, List.map_cons, List.map_nil, List.count_append,
      List.count_cons, List.count_nil, hf] at this ⊢
    omega
  | @put o hc =>
    have e : St.objects { s with cleaner := .recv, pool := o :: s.pool } = s.objects := by
      simp only [St.objects, hc, Cleaner.unflushed, Cleaner.unclosed, Cleaner.used]; rfl
    have h1 := h.flush
    have h2 := h.close
    rw [hc] at h1 h2
    exact ⟨h.outs, h1, h2, e ▸ h.nodup, fun x hx => h.bound x (e ▸ hx)⟩
  | drained hc hq hd =>
    exact files_same h rfl rfl rfl rfl rfl rfl (by rw [hc]; rfl) (by rw [hc]; rfl) (by rw [hc]; rfl) rfl rfl rfl

/-- An object in use refers to a file. -/
theorem file_of_flush {s : St F L} (h : Files s) {o : Nat} (hc : s.cleaner = .flush o) :
    ∃ f, s.file o = some f := by
  have : s.file o ∈ s.created.map some := by
    rw [h.flush.mem_iff]
    simp [hc, Cleaner.unflushed]
  obtain ⟨f, _, hf⟩ := List.mem_map.1 this
  exact ⟨f, hf.symm⟩

theorem file_of_close {s : St F L} (h : Files s) {o : Nat} (hc : s.cleaner = .close o) :
    ∃ f, s.file o = some f := by
  have : s.file o ∈ s.flushed.map some := by
    rw [h.close.mem_iff]
    simp [hc, Cleaner.unclosed]
  obtain ⟨f, _, hf⟩ := List.mem_map.1 this
  exact ⟨f, hf.symm⟩

/-! ### Termination -/

/-- Steps left for a job not yet sent. -/
def Job.weight (j : Job F L) : Nat := 7 * j.outs.length + j.lines.length + 4

/-- Steps left for a worker. -/
def Worker.weight : Worker F L → Nat
  | .gone => 0
  | .recv => 1
  | .log _ ls => ls.length + 2
  | .lock j => j.lines.length + 3
  | .work j outs => 7 * outs.length + j.lines.length + 4
  | .hand j outs _ => 7 * outs.length + j.lines.length + 10

/-- Steps left for `main`. -/
def MainPc.weight : MainPc F L → Nat
  | .sending t => (t.map Job.weight).sum + 4
  | .waiting => 3
  | .closing => 2
  | .done => 1
  | .exited => 0

/-- Steps left for the cleanup goroutine. -/
def Cleaner.weight : Cleaner → Nat
  | .recv => 2
  | .flush _ => 5
  | .close _ => 4
  | .put _ => 3
  | .done => 1
  | .gone => 0

/-- A bound on the number of steps left. -/
def St.weight (s : St F L) : Nat :=
  s.main.weight + (s.workers.map Worker.weight).sum + 5 * s.queue.length + s.cleaner.weight

theorem weight_step {s t : St F L} (h : Step s t) : t.weight < s.weight := by
  cases h with
  | send hm hn hw =>
    simp only [St.weight, hm, hw, MainPc.weight, Worker.weight, Job.weight, List.map_append, List.map_cons,
      List.sum_append, List.sum_cons]
    omega
  | closeNames hm => simp only [St.weight, hm, MainPc.weight, List.map_nil, List.sum_nil]; omega
  | wait hm hz => simp only [St.weight, hm, MainPc.weight]; omega
  | closeCleanup hm => simp only [St.weight, hm, MainPc.weight]; omega
  | finish hm hc => simp only [St.weight, hm, hc, MainPc.weight, Cleaner.weight]; omega
  | leave hw hn =>
    simp only [St.weight, hw, Worker.weight, List.map_append, List.map_cons, List.sum_append, List.sum_cons]
    omega
  | getPool hw hp =>
    simp only [St.weight, hw, Worker.weight, List.map_append, List.map_cons, List.sum_append, List.sum_cons,
      List.length_cons]
    omega
  | getNew hw =>
    simp only [St.weight, hw, Worker.weight, List.map_append, List.map_cons, List.sum_append, List.sum_cons,
      List.length_cons]
    omega
  | sendOut hw hc hq =>
    simp only [St.weight, hw, Worker.weight, List.map_append, List.map_cons, List.sum_append, List.sum_cons,
      List.length_append, List.length_cons, List.length_nil]
    omega
  | ret hw =>
    simp only [St.weight, hw, Worker.weight, List.map_append, List.map_cons, List.sum_append, List.sum_cons,
      List.length_nil]
    omega
  | lock hw _ =>
    simp only [St.weight, hw, Worker.weight, List.map_append, List.map_cons, List.sum_append, List.sum_cons]
    omega
  | write hw =>
    simp only [St.weight, hw, Worker.weight, List.map_append, List.map_cons, List.sum_append, List.sum_cons,
      List.length_cons]
    omega
  | unlock hw =>
    simp only [St.weight, hw, Worker.weight, List.map_append, List.map_cons, List.sum_append, List.sum_cons,
      List.length_nil]
    omega
  | take hc hq => simp only [St.weight, hc, hq, Cleaner.weight, List.length_cons]; omega
  | flush hc _ => simp only [St.weight, hc, Cleaner.weight]; omega
  | close hc _ => simp only [St.weight, hc, Cleaner.weight]; omega
  | put hc => simp only [St.weight, hc, Cleaner.weight]; omega
  | drained hc hq hd => simp only [St.weight, hc, Cleaner.weight]; omega

/-! ### Progress -/

/-- The cleanup goroutine can act unless it waits for an output or has left its loop. -/
theorem cleaner_progress {s : St F L} (hf : Files s)
    (h : s.cleaner.over = false) (hq : s.queue ≠ [] ∨ s.cleanupClosed = true) : ∃ t, Step s t := by
  cases hc : s.cleaner with
  | recv =>
    cases e : s.queue with
    | cons o q => exact ⟨_, .take hc e⟩
    | nil =>
      rcases hq with h | h
      · exact absurd e h
      · exact ⟨_, .drained hc e h⟩
  | flush o =>
    obtain ⟨f, hf⟩ := file_of_flush hf hc
    exact ⟨_, .flush hc hf⟩
  | close o =>
    obtain ⟨f, hf⟩ := file_of_close hf hc
    exact ⟨_, .close hc hf⟩
  | put o => exact ⟨_, .put hc⟩
  | done => rw [hc] at h; cases h
  | gone => rw [hc] at h; cases h

/-- Workers that are neither receiving nor gone make progress possible. -/
theorem worker_progress {n : Nat} {jobs : List (Job F L)} {s : St F L} (hc : Ctl n s) (hj : Jobs jobs s)
    (hf : Files s) {w : Worker F L} (hw : w ∈ s.workers) (h1 : w ≠ .recv) (h2 : w ≠ .gone) :
    ∃ t, Step s t := by
  obtain ⟨pre, post, e⟩ := List.append_of_mem hw
  cases w with
  | recv => exact absurd rfl h1
  | gone => exact absurd rfl h2
  | work j outs =>
    cases outs with
    | nil => exact ⟨_, .ret e⟩
    | cons f outs => exact ⟨_, .getNew e⟩
  | hand j outs o =>
    have hov : s.main.over = false := (ctl_swap hc e rfl (w' := .recv) rfl).2.2.2
    have hcl : s.cleanupClosed = false := by
      rw [hc.cleanup]
      cases hm : s.main with
      | done => rw [hm] at hov; cases hov
      | exited => rw [hm] at hov; cases hov
      | sending _ => rfl
      | waiting => rfl
      | closing => rfl
    by_cases hq : s.queue.length < queueCap
    · exact ⟨_, .sendOut e hcl hq⟩
    · refine cleaner_progress hf ?_ (.inl ?_)
      · cases ho : s.cleaner.over with
        | false => rfl
        | true =>
          have := (hc.drained ho).2
          rw [hcl] at this
          cases this
      · intro h0
        rw [h0] at hq
        exact hq (by decide)
  | lock j =>
    cases hl : s.locked with
    | false => exact ⟨_, .lock e hl⟩
    | true =>
      obtain ⟨_, fin, _, hlog⟩ := hj
      cases hlog with
      | free a => rw [hl] at a; cases a
      | held j' ls ws a b c d =>
        have : (j', ls) ∈ s.workers.flatMap Worker.logging := by rw [b]; exact List.mem_singleton.2 rfl
        obtain ⟨v, hv, hm⟩ := List.mem_flatMap.1 this
        obtain ⟨pre', post', e'⟩ := List.append_of_mem hv
        cases v with
        | log j'' ls'' =>
          cases ls'' with
          | nil => exact ⟨_, .unlock e'⟩
          | cons l ls'' => exact ⟨_, .write e'⟩
        | recv => cases hm
        | gone => cases hm
        | work _ _ => cases hm
        | hand _ _ _ => cases hm
        | lock _ => cases hm
  | log j ls =>
    cases ls with
    | nil => exact ⟨_, .unlock e⟩
    | cons l ls => exact ⟨_, .write e⟩

theorem progress {n : Nat} {jobs : List (Job F L)} {s : St F L} (hn : 1 ≤ n ∨ jobs = []) (hc : Ctl n s)
    (hj : Jobs jobs s) (hf : Files s) (hx : s.main ≠ .exited) : ∃ t, Step s t := by
  by_cases hall : ∀ w ∈ s.workers, w = .recv ∨ w = .gone
  · cases hm : s.main with
    | exited => exact absurd hm hx
    | sending todo =>
      cases todo with
      | nil => exact ⟨_, .closeNames hm⟩
      | cons j todo =>
        have hnames : s.namesClosed = false := by rw [hc.names, hm]; rfl
        have hne : s.workers ≠ [] := by
          intro h0
          have hlen := hc.len
          rw [h0] at hlen
          rcases hn with hn | hn
          · simp at hlen; omega
          · have := hj.sent
            rw [hm, hn] at this
            simp [MainPc.todo] at this
        obtain ⟨w, ws, e⟩ := List.exists_cons_of_ne_nil hne
        have hw := hall w (by rw [e]; exact List.mem_cons_self)
        rcases hw with rfl | rfl
        · exact ⟨_, .send (pre := []) hm hnames e⟩
        · have := hc.left .gone (by rw [e]; exact List.mem_cons_self) rfl
          rw [hnames] at this
          cases this
    | waiting =>
      by_cases hr : Worker.recv ∈ s.workers
      · obtain ⟨pre, post, e⟩ := List.append_of_mem hr
        exact ⟨_, .leave e (by rw [hc.names, hm]; rfl)⟩
      · refine ⟨_, .wait hm ?_⟩
        rw [hc.wg, List.filter_eq_nil_iff.2 (fun w hw h => ?_)]
        · rfl
        · rcases hall w hw with rfl | rfl
          · exact hr hw
          · cases h
    | closing => exact ⟨_, .closeCleanup hm⟩
    | done =>
      cases ho : s.cleaner.over with
      | false => exact cleaner_progress hf ho (.inr (by rw [hc.cleanup, hm]; rfl))
      | true =>
        cases hcl : s.cleaner with
        | done => exact ⟨_, .finish hm hcl⟩
        | gone =>
          have := hc.exit
          rw [hcl, hm] at this
          cases this
        | recv => rw [hcl] at ho; cases ho
        | flush _ => rw [hcl] at ho; cases ho
        | close _ => rw [hcl] at ho; cases ho
        | put _ => rw [hcl] at ho; cases ho
  · have : ∃ w ∈ s.workers, ¬ (w = .recv ∨ w = .gone) := Classical.byContradiction fun h =>
      hall fun w hw => Classical.byContradiction fun hw' => h ⟨w, hw, hw'⟩
    obtain ⟨w, hw, h⟩ := this
    exact worker_progress hc hj hf hw (fun e => h (.inl e)) (fun e => h (.inr e))

/-! ### Reachable states -/

theorem reach {n : Nat} {jobs : List (Job F L)} {s : St F L} (h : Steps (init n jobs) s) :
    Ctl n s ∧ Jobs jobs s ∧ Files s := by
  induction h with
  | refl => exact ⟨ctl_init n jobs, jobs_init n jobs, files_init n jobs⟩
  | tail _ hs ih =>
    obtain ⟨a, b, c⟩ := ih
    exact ⟨ctl_step a hs, jobs_step b hs, files_step c hs⟩

end Grate.Work
