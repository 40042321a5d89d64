import Verif.Model.WorkersDisk
import Verif.Lemmas.Workers
import Mathlib.Data.List.Nodup

/-! # What is on the disk while the goroutines of `grate2tsv` run -/

namespace Grate.Work

open Grate

variable {L : Type}

/-- The outputs that are open and not flushed. -/
def St.live {F : Type} (s : St F L) : List Nat :=
  s.workers.flatMap Worker.held ++ (s.queue ++ s.cleaner.unflushed)

/-- The executions with files are executions of the goroutines. -/
theorem core_step {bad : Job G2t.Out L → Bool} {s t : DSt L} (h : DStep bad s t) :
    Steps s.core t.core := by
  cases h with
  | quiet _ h _ _ _ => exact .tail (.refl _) h
  | getPool _ hw hp => exact .tail (.refl _) (.getPool hw hp)
  | getNew _ hw => exact .tail (.refl _) (.getNew hw)
  | spill => exact .refl _
  | flush _ hc hf => exact .tail (.refl _) (.flush hc hf)
  | panic => exact .refl _

theorem core_trans {F : Type} {s t u : St F L} (h : Steps s t) (g : Steps t u) : Steps s u := by
  induction g with
  | refl => exact h
  | tail _ hs ih => exact .tail ih hs

theorem core_steps {bad : Job G2t.Out L → Bool} {s t : DSt L} (h : DSteps bad s t) :
    Steps s.core t.core := by
  induction h with
  | refl => exact .refl _
  | tail _ hs ih => exact core_trans ih (core_step hs)

theorem append_self_ne {α : Type} {l : List α} {a : α} : l ++ [a] ≠ l := by
  intro h
  have := congrArg List.length h
  simp at this

/-- A step that creates and flushes nothing leaves the open outputs as they are. -/
theorem quiet_live {F : Type} {s t : St F L} (h : Step s t) (h1 : t.created = s.created) (h2 : t.flushed = s.flushed) :
    t.file = s.file ∧ ∀ o ∈ t.live, o ∈ s.live := by
  cases h with
  | send hm hn hw =>
    refine ⟨rfl, fun o => ?_⟩
    simp only [St.live, hw]; simp [Worker.held]
  | closeNames _ => exact ⟨rfl, fun o h => h⟩
  | wait _ _ => exact ⟨rfl, fun o h => h⟩
  | closeCleanup _ => exact ⟨rfl, fun o h => h⟩
  | finish _ hc =>
    refine ⟨rfl, fun o => ?_⟩
    simp only [St.live, hc]; simp [Cleaner.unflushed]
  | leave hw _ =>
    refine ⟨rfl, fun o => ?_⟩
    simp only [St.live, hw]; simp [Worker.held]
  | getPool _ _ => exact absurd h1 append_self_ne
  | getNew _ => exact absurd h1 append_self_ne
  | sendOut hw _ _ =>
    refine ⟨rfl, fun o => ?_⟩
    clear h1 h2
    simp only [St.live, hw, List.flatMap_append, List.flatMap_cons, Worker.held, List.mem_append, List.mem_cons,
      List.not_mem_nil, List.nil_append, or_false]
    tauto
  | ret hw =>
    refine ⟨rfl, fun o => ?_⟩
    simp only [St.live, hw]; simp [Worker.held]
  | lock hw _ =>
    refine ⟨rfl, fun o => ?_⟩
    simp only [St.live, hw]; simp [Worker.held]
  | write hw =>
    refine ⟨rfl, fun o => ?_⟩
    simp only [St.live, hw]; simp [Worker.held]
  | unlock hw =>
    refine ⟨rfl, fun o => ?_⟩
    simp only [St.live, hw]; simp [Worker.held]
  | take hc hq =>
    refine ⟨rfl, fun o => ?_⟩
    clear h1 h2
    simp only [St.live, hc, hq, Cleaner.unflushed, List.mem_append, List.mem_cons, List.not_mem_nil, or_false]
    tauto
  | flush _ _ => exact absurd h2 append_self_ne
  | close hc _ =>
    refine ⟨rfl, fun o => ?_⟩
    simp only [St.live, hc]; simp [Cleaner.unflushed]
  | put hc =>
    refine ⟨rfl, fun o => ?_⟩
    simp only [St.live, hc]; simp [Cleaner.unflushed]
  | drained hc _ _ =>
    refine ⟨rfl, fun o => ?_⟩
    simp only [St.live, hc]; simp [Cleaner.unflushed]

/-! ### The paths are distinct -/

theorem created_paths {n : Nat} {jobs : List (Job G2t.Out L)} {s : St G2t.Out L}
    (hp : ((jobs.flatMap Job.outs).map G2t.Out.path).Nodup) (h : Steps (init n jobs) s) :
    (s.created.map G2t.Out.path).Nodup := by
  obtain ⟨_, hj, hf⟩ := reach h
  rw [← hj.sent, List.flatMap_append, List.map_append, List.nodup_append] at hp
  have h1 := (hf.outs.map G2t.Out.path).nodup_iff.2 hp.1
  rw [List.map_append, List.nodup_append] at h1
  exact h1.1

theorem created_outs {n : Nat} {jobs : List (Job G2t.Out L)} {s : St G2t.Out L} (h : Steps (init n jobs) s) :
    ∀ f ∈ s.created, f ∈ jobs.flatMap Job.outs := by
  obtain ⟨_, hj, hf⟩ := reach h
  intro f hm
  rw [← hj.sent, List.flatMap_append]
  exact List.mem_append_left _ (hf.outs.mem_iff.1 (List.mem_append_left _ hm))

/-- Open outputs have been created, are not flushed, and no two have the same path. -/
structure Apart (s : St G2t.Out L) : Prop where
  mem : ∀ o ∈ s.live, ∀ f, s.file o = some f → f ∈ s.created
  one : ∀ o ∈ s.live, ∀ o' ∈ s.live, ∀ f f', s.file o = some f → s.file o' = some f' → f.path = f'.path → o = o'
  done : ∀ o ∈ s.live, ∀ f, s.file o = some f → ∀ g ∈ s.flushed, g.path ≠ f.path
  flushed : ∀ f ∈ s.flushed, f ∈ s.created

theorem apart {s : St G2t.Out L} (hf : Files s) (hp : (s.created.map G2t.Out.path).Nodup) : Apart s := by
  have h0 := hf.flush
  change (s.created.map some).Perm (s.flushed.map some ++ s.live.map s.file) at h0
  have h1 : (s.flushed.map (fun f => some f.path) ++ s.live.map (fun o => (s.file o).map G2t.Out.path)).Nodup := by
    have h2 := h0.map (Option.map G2t.Out.path)
    rw [List.map_append, List.map_map, List.map_map, List.map_map] at h2
    refine h2.nodup_iff.1 ?_
    have := hp.map (f := some) (fun a b h => Option.some.inj h)
    rw [List.map_map] at this
    exact this
  rw [List.nodup_append] at h1
  refine ⟨?_, ?_, ?_, ?_⟩
  · intro o ho f e
    have : some f ∈ s.created.map some := h0.mem_iff.2 (List.mem_append_right _ (List.mem_map.2 ⟨o, ho, e⟩))
    obtain ⟨g, hg, e⟩ := List.mem_map.1 this
    cases e; exact hg
  · intro o ho o' ho' f f' e e' hpath
    exact List.inj_on_of_nodup_map h1.2.1 ho ho' (by rw [e, e']; exact congrArg some hpath)
  · intro o ho f e g hg hgf
    exact h1.2.2 _ (List.mem_map.2 ⟨g, hg, rfl⟩) _ (List.mem_map.2 ⟨o, ho, rfl⟩) (by rw [e]; exact congrArg some hgf)
  · intro f hm
    have : some f ∈ s.created.map some := h0.mem_iff.2 (List.mem_append_left _ (List.mem_map.2 ⟨f, hm, rfl⟩))
    obtain ⟨g, hg, e⟩ := List.mem_map.1 this
    cases e; exact hg

/-! ### Writing -/

theorem writeAt_end (a b : Bytes) : writeAt a a.length b = a ++ b := by
  simp [writeAt]

theorem put_same (disk : Bytes → Option Bytes) (p a b : Bytes) (n : Nat) (h : disk p = some a) (hn : n = a.length) :
    put disk p n b p = some (a ++ b) := by
  subst hn
  simp [put, h, writeAt_end]

theorem put_other (disk : Bytes → Option Bytes) (p q b : Bytes) (n : Nat) (h : q ≠ p) : put disk p n b q = disk q := by
  simp [put, h]

/-! ### The invariant -/

/-- What is on the disk: `d0` are the files before the program started. -/
structure OnDisk (d0 : Bytes → Option Bytes) (s : DSt L) : Prop where
  live : ∀ o ∈ s.core.live, ∀ f, s.core.file o = some f →
    s.sent o ≤ f.content.length ∧ s.disk f.path = some (f.content.take (s.sent o))
  flushed : ∀ f ∈ s.core.flushed, s.disk f.path = some f.content
  frame : ∀ p, (∀ f ∈ s.core.created, f.path ≠ p) → s.disk p = d0 p

theorem onDisk_init (n : Nat) (jobs : List (Job G2t.Out L)) (d0 : Bytes → Option Bytes) :
    OnDisk d0 (dinit n jobs d0) := by
  refine ⟨?_, ?_, fun p _ => rfl⟩
  · intro o _ f h; cases h
  · intro f hf; cases hf

theorem onDisk_get {d0 : Bytes → Option Bytes} {s t : DSt L} (h : OnDisk d0 s) {f : G2t.Out} {o : Nat}
    (ha : Apart s.core) (hp : (t.core.created.map G2t.Out.path).Nodup)
    (hlive : ∀ x ∈ t.core.live, x = o ∨ (x ≠ o ∧ x ∈ s.core.live))
    (hc : t.core.created = s.core.created ++ [f]) (hfl : t.core.flushed = s.core.flushed)
    (hfile : t.core.file = fun x => if x = o then some f else s.core.file x)
    (hsent : t.sent = fun x => if x = o then 0 else s.sent x)
    (hdisk : t.disk = fun q => if q = f.path then some [] else s.disk q) : OnDisk d0 t := by
  have hnew : ∀ g ∈ s.core.created, g.path ≠ f.path := by
    rw [hc, List.map_append, List.nodup_append] at hp
    intro g hg
    exact hp.2.2 _ (List.mem_map.2 ⟨g, hg, rfl⟩) _ (by simp)
  refine ⟨?_, ?_, ?_⟩
  · intro x hx g hg
    rw [hfile] at hg
    rw [hsent, hdisk]
    rcases hlive x hx with rfl | ⟨hne, hx⟩
    · simp only [if_true] at hg ⊢
      cases hg
      simp
    · simp only [if_neg hne] at hg ⊢
      rw [if_neg (hnew g (ha.mem x hx g hg))]
      exact h.live x hx g hg
  · intro g hg
    rw [hfl] at hg
    rw [hdisk]
    simp only [if_neg (hnew g (ha.flushed g hg))]
    exact h.flushed g hg
  · intro p hp
    rw [hc] at hp
    rw [hdisk]
    simp only [if_neg (Ne.symm (hp f (by simp)))]
    exact h.frame p (fun g hg => hp g (List.mem_append_left _ hg))

theorem onDisk_step {n : Nat} {jobs : List (Job G2t.Out L)} {d0 : Bytes → Option Bytes} {bad : Job G2t.Out L → Bool}
    {s t : DSt L} (hp : ((jobs.flatMap Job.outs).map G2t.Out.path).Nodup) (hr : Steps (init n jobs) s.core)
    (h : OnDisk d0 s) (hs : DStep bad s t) : OnDisk d0 t := by
  obtain ⟨_, _, hf⟩ := reach hr
  have ha := apart hf (created_paths hp hr)
  have hpt := created_paths hp (core_trans hr (core_step hs))
  cases hs with
  | quiet _ hst h1 h2 _ =>
    obtain ⟨e, hl⟩ := quiet_live hst h1 h2
    refine ⟨fun o ho f hf => h.live o (hl o ho) f (e ▸ hf), fun f hf => h.flushed f (h2 ▸ hf), fun p hp => ?_⟩
    exact h.frame p (fun f hf => hp f (h1.symm ▸ hf))
  | @getPool j f outs pre post p q o _ hw hpool =>
    refine onDisk_get h ha hpt (o := o) ?_ rfl rfl rfl rfl rfl
    have hno : o ∉ s.core.live := by
      have := hf.nodup
      simp only [St.objects, ← List.append_assoc] at this
      rw [List.nodup_append] at this
      intro hm
      refine this.2.2 o ?_ o (by rw [hpool]; simp) rfl
      simp only [St.live, List.mem_append] at hm ⊢
      tauto
    intro x hx
    by_cases hxo : x = o
    · exact .inl hxo
    · refine .inr ⟨hxo, ?_⟩
      simp only [St.live, hw] at hx ⊢
      simp [Worker.held, hxo] at hx ⊢
      exact hx
  | @getNew j f outs pre post _ hw =>
    refine onDisk_get h ha hpt (o := s.core.next) ?_ rfl rfl rfl rfl rfl
    intro x hx
    by_cases hxo : x = s.core.next
    · exact .inl hxo
    · refine .inr ⟨hxo, ?_⟩
      simp only [St.live, hw] at hx ⊢
      simp [Worker.held, hxo] at hx ⊢
      exact hx
  | @spill j outs o pre post f n _ hw hfo hlt hle =>
    have ho : o ∈ s.core.live := by simp [St.live, hw, Worker.held]
    obtain ⟨h1, h2⟩ := h.live o ho f hfo
    have hlen : s.sent o = (f.content.take (s.sent o)).length := by rw [List.length_take]; omega
    refine ⟨?_, ?_, ?_⟩
    · intro x hx g hg
      by_cases hxo : x = o
      · subst hxo
        rw [hfo] at hg
        cases hg
        simp only [if_true]
        refine ⟨hle, ?_⟩
        rw [put_same _ _ _ _ _ h2 hlen]
        congr 1
        have : f.content.take (s.sent x) = (f.content.take n).take (s.sent x) := by
          rw [List.take_take, Nat.min_eq_left (by omega)]
        rw [this, List.take_append_drop]
      · simp only [if_neg hxo]
        rw [put_other _ _ _ _ _ (fun e => hxo (ha.one x hx o ho g f hg hfo e))]
        exact h.live x hx g hg
    · intro g hg
      change put _ _ _ _ _ = _
      rw [put_other _ _ _ _ _ (ha.done o ho f hfo g hg)]
      exact h.flushed g hg
    · intro p hp
      change put _ _ _ _ _ = _
      rw [put_other _ _ _ _ _ (Ne.symm (hp f (ha.mem o ho f hfo)))]
      exact h.frame p hp
  | @flush o f _ hc hfo =>
    have ho : o ∈ s.core.live := by simp [St.live, hc, Cleaner.unflushed]
    obtain ⟨h1, h2⟩ := h.live o ho f hfo
    have hlen : s.sent o = (f.content.take (s.sent o)).length := by rw [List.length_take]; omega
    have hnod : (s.core.workers.flatMap Worker.held ++ s.core.queue).Nodup ∧
        o ∉ s.core.workers.flatMap Worker.held ++ s.core.queue := by
      have := hf.nodup
      simp only [St.objects, hc, Cleaner.unflushed] at this
      rw [← List.append_assoc, List.nodup_append] at this
      exact ⟨this.1, fun hm => this.2.2 o hm o (by simp) rfl⟩
    refine ⟨?_, ?_, ?_⟩
    · intro x hx g hg
      have hx' : x ∈ s.core.workers.flatMap Worker.held ++ s.core.queue := by
        simp only [St.live, Cleaner.unflushed, List.append_nil] at hx
        exact hx
      have hxo : x ≠ o := fun e => hnod.2 (e ▸ hx')
      have hxl : x ∈ s.core.live := by
        simp only [St.live]
        rw [← List.append_assoc]
        exact List.mem_append_left _ hx'
      simp only [if_neg hxo]
      rw [put_other _ _ _ _ _ (fun e => hxo (ha.one x hxl o ho g f hg hfo e))]
      exact h.live x hxl g hg
    · intro g hg
      change put _ _ _ _ _ = _
      rcases List.mem_append.1 hg with hg | hg
      · rw [put_other _ _ _ _ _ (ha.done o ho f hfo g hg)]
        exact h.flushed g hg
      · cases List.mem_singleton.1 hg
        rw [put_same _ _ _ _ _ h2 hlen, List.take_append_drop]
    · intro p hp
      change put _ _ _ _ _ = _
      rw [put_other _ _ _ _ _ (Ne.symm (hp f (ha.mem o ho f hfo)))]
      exact h.frame p hp
  | panic _ _ _ _ => exact ⟨h.live, h.flushed, h.frame⟩

theorem onDisk {n : Nat} {jobs : List (Job G2t.Out L)} {d0 : Bytes → Option Bytes} {bad : Job G2t.Out L → Bool}
    {s : DSt L} (hp : ((jobs.flatMap Job.outs).map G2t.Out.path).Nodup) (h : DSteps bad (dinit n jobs d0) s) :
    OnDisk d0 s := by
  induction h with
  | refl => exact onDisk_init n jobs d0
  | tail h hs ih => exact onDisk_step hp (core_steps h) ih hs

end Grate.Work
