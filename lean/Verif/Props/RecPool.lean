import Verif.Lemmas.RecPool
import Verif.Props.XlsStream

/-! # Property C101: workbooks that are open at the same time do not disturb each other -/

namespace Grate.Props

open Grate Grate.Xls Grate.Pool

/-- C101: in every state of every interleaving, what a workbook has loaded is what loading its stream alone gives, and so are
its errors. -/
theorem C101_isolated {s : Pool.St} (h : Pool.Reach s) (i : Nat) :
    (∀ g, s.pcs i = .loaded g → gather (s.src i).2 (s.src i).1 Groups.init = .ok (.done (g.deref s.heap))) ∧
    (∀ d g, s.pcs i = .filePass d g → gather (s.src i).2 (s.src i).1 Groups.init = .ok (.filePass d)) ∧
    (∀ e g, s.pcs i = .failed e g → gather (s.src i).2 (s.src i).1 Groups.init = .err e) ∧
    (s.pcs i = .crashed → gather (s.src i).2 (s.src i).1 Groups.init = .panic) := by
  have hc := (inv_reach h).content i
  refine ⟨?_, ?_, ?_, ?_⟩
  · intro g hg; rw [hg] at hc; exact hc
  · intro d g hg; rw [hg] at hc; exact hc
  · intro e g hg; rw [hg] at hc; exact hc
  · intro hg; rw [hg] at hc; exact hc

/-- C101 for the workbook: going through the records in memory gives the workbook that loading the stream alone gives. -/
theorem C101_workbook (p : Crypto.Prims) (mk : Bytes → Fmt × CellType) (spare : Bytes) {s : Pool.St} (h : Pool.Reach s) (i : Nat)
    (g : HGroups) (hg : s.pcs i = .loaded g) :
    (∀ raw, s.src i = (raw, false) →
      processSubs mk (g.deref s.heap).subs (g.deref s.heap).book = loadStream p mk spare raw) ∧
    (∀ raw, s.src i = (raw, true) →
      processSubs mk (g.deref s.heap).subs (g.deref s.heap).book = loadDecrypted mk raw) := by
  have hc := (C101_isolated h i).1 g hg
  constructor
  · intro raw hr
    rw [hr] at hc
    unfold loadStream
    rw [hc]
    rfl
  · intro raw hr
    rw [hr] at hc
    unfold loadDecrypted
    rw [hc]
    rfl

/-- C101 for `Get`: whatever the others do after the workbook was opened, as long as it is not closed or loaded again, the sheets
are read from the same records. -/
theorem C101_get (mk : Bytes → Fmt × CellType) (ext : Ext) {s : Pool.St} (h : Pool.Reach s) (i : Nat) (g : HGroups)
    (hg : s.pcs i = .loaded g) (b : Book)
    (hb : (∃ raw p spare, s.src i = (raw, false) ∧ loadStream p mk spare raw = .ok b) ∨
      (∃ raw, s.src i = (raw, true) ∧ loadDecrypted mk raw = .ok b)) (name : Bytes) :
    Book.get ext { b with subs := (g.deref s.heap).subs } name = b.get ext name := by
  have key : processSubs mk (g.deref s.heap).subs (g.deref s.heap).book = .ok b := by
    rcases hb with ⟨raw, p, spare, h1, h2⟩ | ⟨raw, h1, h2⟩
    · rw [(C101_workbook p mk spare h i g hg).1 raw h1, h2]
    · rw [(C101_workbook ⟨fun x => x, fun _ _ => 0⟩ mk [] h i g hg).2 raw h1, h2]
  have hs : b.subs = (g.deref s.heap).subs := (processSubs_keeps mk _ _ _ key).1
  rw [← hs]

/-- C101 for the records: none is in two workbooks, twice in one, or both in a workbook and free; none is free twice. -/
theorem C101_exclusive {s : Pool.St} (h : Pool.Reach s) : s.pool.Nodup ∧
    ∀ i g, s.pcs i = .loaded g → g.subs.flatten.Nodup ∧ (∀ a ∈ g.subs.flatten, a ∉ s.pool) ∧
      ∀ j g', j ≠ i → s.pcs j = .loaded g' → ∀ a ∈ g.subs.flatten, a ∉ g'.subs.flatten := by
  have hi := inv_reach h
  refine ⟨hi.pool, ?_⟩
  intro i g hg
  have h1 := hi.nodup i; have h2 := hi.free i; have h3 := hi.apart i
  rw [hg] at h1 h2 h3
  refine ⟨h1, h2, ?_⟩
  intro j g' hj hg' a ha
  have := h3 j (Ne.symm hj) a ha
  rw [hg'] at this
  exact this

theorem sub_u16_ok {raw : Slice} {i : Nat} (h : i + 2 ≤ raw.len) : ∃ n, (raw.sub i (i + 2) >>= Slice.u16) = .ok n := by
  have hl : i + 2 ≤ raw.val.length := h
  unfold Slice.sub
  rw [if_pos (by constructor <;> omega), GoRes.ok_bind]
  unfold Slice.u16
  have : ((raw.val ++ raw.rest).take (i + 2)).drop i = ((raw.val ++ raw.rest).drop i).take 2 := by
    rw [List.drop_take]; congr 1; omega
  simp only [this]
  have hd : 2 ≤ ((raw.val ++ raw.rest).drop i).length := by simp; omega
  match (raw.val ++ raw.rest).drop i, hd with
  | x :: y :: l, _ => exact ⟨_, rfl⟩

/-- C101: no workbook waits for another: in the middle of loading or closing it can go on. -/
theorem C101_progress {s : Pool.St} (h : Pool.Reach s) (i : Nat) (hp : s.pcs i ≠ .idle) (h1 : ∀ g, s.pcs i ≠ .loaded g)
    (h2 : ∀ d g, s.pcs i ≠ .filePass d g) (h3 : ∀ e g, s.pcs i ≠ .failed e g) (h4 : s.pcs i ≠ .crashed) :
    ∃ t pc, Pool.Step s t ∧ t.pcs i = pc ∧ pc ≠ s.pcs i := by
  have hc := (inv_reach h).content i
  cases hpc : s.pcs i with
  | idle => exact absurd hpc hp
  | loaded g => exact absurd hpc (h1 g)
  | filePass d g => exact absurd hpc (h2 d g)
  | failed e g => exact absurd hpc (h3 e g)
  | crashed => exact absurd hpc h4
  | drop todo raw dec =>
    cases todo with
    | nil => exact ⟨_, _, .dropDone s i raw dec hpc, at_pc _ _ _, by simp⟩
    | cons a todo => exact ⟨_, _, .dropPut s i a todo raw dec hpc, at_pc _ _ _, by simp⟩
  | next raw dec g =>
    by_cases hl : raw.len < 4
    · exact ⟨_, _, .eof s i raw dec g hpc hl, at_pc _ _ _, by simp⟩
    · exact ⟨_, _, .getNew s i raw dec g hpc hl, at_pc _ _ _, by simp⟩
  | got raw dec g a =>
    rw [hpc] at hc
    have hl : 4 ≤ raw.len := Nat.le_of_not_lt hc.2.2
    obtain ⟨t, ht⟩ := sub_u16_ok (raw := raw) (i := 0) (by omega)
    obtain ⟨n, hn⟩ := sub_u16_ok (raw := raw) (i := 2) (by omega)
    exact ⟨_, _, .head s i a t n raw dec g hpc ht hn, at_pc _ _ _, by simp⟩
  | sized raw dec g a =>
    rw [hpc] at hc
    have hl : 4 ≤ raw.len := Nat.le_of_not_lt hc.2.2.1
    obtain ⟨rest, hr⟩ : ∃ rest, raw.dropFrom 4 = .ok rest := by
      have hl' : 4 ≤ raw.val.length := hl
      unfold Slice.dropFrom; rw [if_pos hl']; exact ⟨_, rfl⟩
    by_cases hs : rest.len < (s.heap a).size
    · exact ⟨_, _, .short s i a raw rest dec g hpc hr hs, at_pc _ _ _, by simp⟩
    · cases hd : raw.sub 4 ((4 + (s.heap a).size) % 65536) with
      | ok d => exact ⟨_, _, .data s i a raw rest d dec g hpc hr hs hd, at_pc _ _ _, by simp⟩
      | panic => exact ⟨_, _, .dataPanic s i a raw rest dec g hpc hr hs hd, at_pc _ _ _, by simp⟩
      | err e => unfold Slice.sub at hd; split at hd <;> cases hd
  | full raw dec g a =>
    rw [hpc] at hc
    obtain ⟨rest, hr⟩ : ∃ rest, raw.dropFrom ((4 + (s.heap a).size) % 65536) = .ok rest := by
      have hn := hc.2.2
      unfold nextRecord at hn
      split at hn
      · cases hn
      · rename_i hl
        simp only [GoRes.bind_eq_ok] at hn
        obtain ⟨_, _, t, _, _, _, n, _, rest, hrest, hn⟩ := hn
        split at hn
        · cases hn
        · rename_i hlt
          rw [GoRes.bind_eq_ok] at hn
          obtain ⟨d, hd, he⟩ := hn
          have he' := GoRes.ok.inj he
          have hsz : (s.heap a).size = n := by rw [← (Prod.mk.inj he').1]
          rw [hsz]
          unfold Slice.dropFrom at hrest
          split at hrest
          · cases hrest
            unfold Slice.len at hlt hl
            simp only [List.length_drop] at hlt
            unfold Slice.dropFrom
            rw [if_pos (by omega)]
            exact ⟨_, rfl⟩
          · cases hrest
    by_cases ht : (s.heap a).type = recFilePass ∧ dec = false
    · exact ⟨_, _, .filePass s i a raw rest dec g hpc hr ht.1 ht.2, at_pc _ _ _, by simp⟩
    · cases hg : (g.count (s.heap a)).place a with
      | ok g' => exact ⟨_, _, .place s i a raw rest dec g g' hpc hr ht hg, at_pc _ _ _, by simp⟩
      | panic => exact ⟨_, _, .placePanic s i a raw rest dec g hpc hr ht hg, at_pc _ _ _, by simp⟩
      | err e => unfold HGroups.place at hg; split at hg <;> cases hg
  | closing todo =>
    cases todo with
    | nil => exact ⟨_, _, .closeDone s i hpc, at_pc _ _ _, by simp⟩
    | cons a todo => exact ⟨_, _, .closeClear s i a todo hpc, at_pc _ _ _, by simp⟩
  | cleared a todo => exact ⟨_, _, .closePut s i a todo hpc, at_pc _ _ _, by simp⟩

/-- A stream of one record. -/
def exOneRec : Slice := ⟨[9, 8, 0, 0], []⟩

/-- An execution: one workbook is loaded and closed, another is loaded and gets the same record from the pool. -/
theorem C101_witness : ∃ s g, Pool.Reach s ∧ s.pcs 0 = .idle ∧ s.pcs 1 = .loaded g ∧ g.subs = [[0]] ∧ s.used = 1 ∧
    s.src 1 = (exOneRec, false) := by
  have step : ∀ {s t : Pool.St}, Pool.Reach s → Pool.Step s t → Pool.Reach t := fun h h' => .step _ _ h h'
  have r := Pool.Reach.init
  replace r := step r (.start _ 0 exOneRec false [] .idle)
  replace r := step r (.dropDone _ 0 exOneRec false rfl)
  replace r := step r (.getNew _ 0 exOneRec false _ rfl (by decide))
  replace r := step r (.head _ 0 0 2057 0 exOneRec false _ rfl rfl rfl)
  replace r := step r (.data _ 0 0 exOneRec ⟨[], []⟩ ⟨[], []⟩ false _ rfl rfl (by decide) rfl)
  replace r := step r (.place _ 0 0 exOneRec ⟨[], []⟩ false _ ⟨[[0]], 0, 1, [(0, 0)], 4⟩ rfl rfl (by decide) rfl)
  replace r := step r (.eof _ 0 ⟨[], []⟩ false _ rfl (by decide))
  replace r := step r (.close _ 0 [0] (.loaded ⟨[[0]], 0, 1, [(0, 0)], 4⟩))
  replace r := step r (.closeClear _ 0 0 [] rfl)
  replace r := step r (.closePut _ 0 0 [] rfl)
  replace r := step r (.closeDone _ 0 rfl)
  replace r := step r (.start _ 1 exOneRec false [] .idle)
  replace r := step r (.dropDone _ 1 exOneRec false rfl)
  replace r := step r (.getOld _ 1 0 exOneRec false _ rfl (by decide) (List.mem_cons_self))
  replace r := step r (.head _ 1 0 2057 0 exOneRec false _ rfl rfl rfl)
  replace r := step r (.data _ 1 0 exOneRec ⟨[], []⟩ ⟨[], []⟩ false _ rfl rfl (by decide) rfl)
  replace r := step r (.place _ 1 0 exOneRec ⟨[], []⟩ false _ ⟨[[0]], 0, 1, [(0, 0)], 4⟩ rfl rfl (by decide) rfl)
  replace r := step r (.eof _ 1 ⟨[], []⟩ false _ rfl (by decide))
  exact ⟨_, _, r, rfl, rfl, rfl, rfl, rfl⟩

end Grate.Props
