import Verif.Model.RecPool
import Verif.Lemmas.XlsLoad

/-! # Lemmas: the record pool -/

namespace Grate.Pool

open Grate Grate.Xls

/-- The records in the hands of a workbook. -/
def own : Pc → List Nat
  | .idle => []
  | .drop todo _ _ => todo
  | .next _ _ g => g.subs.flatten
  | .got _ _ g a => a :: g.subs.flatten
  | .sized _ _ g a => a :: g.subs.flatten
  | .full _ _ g a => a :: g.subs.flatten
  | .loaded g => g.subs.flatten
  | .filePass _ g => g.subs.flatten
  | .failed _ g => g.subs.flatten
  | .crashed => []
  | .closing todo => todo
  | .cleared a todo => a :: todo

/-- What is in the records of a workbook, given the stream of its last load. -/
def Content (h : Nat → Rec) (src : Slice × Bool) : Pc → Prop
  | .idle => True
  | .drop _ raw dec => (raw, dec) = src
  | .next raw dec g => dec = src.2 ∧ gather src.2 src.1 Groups.init = gather dec raw (g.deref h)
  | .got raw dec g _ => dec = src.2 ∧ gather src.2 src.1 Groups.init = gather dec raw (g.deref h) ∧ ¬ raw.len < 4
  | .sized raw dec g a => dec = src.2 ∧ gather src.2 src.1 Groups.init = gather dec raw (g.deref h) ∧ ¬ raw.len < 4 ∧
      (raw.sub 0 2 >>= Slice.u16) = .ok (h a).type ∧ (raw.sub 2 4 >>= Slice.u16) = .ok (h a).size
  | .full raw dec g a => dec = src.2 ∧ gather src.2 src.1 Groups.init = gather dec raw (g.deref h) ∧
      nextRecord raw = .ok (h a, (4 + (h a).size) % 65536)
  | .loaded g => gather src.2 src.1 Groups.init = .ok (.done (g.deref h))
  | .filePass d _ => gather src.2 src.1 Groups.init = .ok (.filePass d)
  | .failed e _ => gather src.2 src.1 Groups.init = .err e
  | .crashed => gather src.2 src.1 Groups.init = .panic
  | .closing _ => True
  | .cleared _ _ => True

theorem deref_congr {h h' : Nat → Rec} {g : HGroups} (e : ∀ a ∈ g.subs.flatten, h' a = h a) : g.deref h' = g.deref h := by
  unfold HGroups.deref
  have : g.subs.map (·.map h') = g.subs.map (·.map h) := by
    apply List.map_congr_left
    intro l hl
    apply List.map_congr_left
    intro a ha
    exact e a (List.mem_flatten.2 ⟨l, hl, ha⟩)
  rw [this]

theorem content_congr {h h' : Nat → Rec} {src : Slice × Bool} {pc : Pc} (e : ∀ a ∈ own pc, h' a = h a)
    (hc : Content h src pc) : Content h' src pc := by
  cases pc with
  | idle => trivial
  | drop todo raw dec => exact hc
  | next raw dec g => simp only [Content, deref_congr e] at hc ⊢; exact hc
  | got raw dec g a =>
    have e' : ∀ x ∈ g.subs.flatten, h' x = h x := fun x hx => e x (List.mem_cons_of_mem _ hx)
    simp only [Content, deref_congr e'] at hc ⊢; exact hc
  | sized raw dec g a =>
    have e' : ∀ x ∈ g.subs.flatten, h' x = h x := fun x hx => e x (List.mem_cons_of_mem _ hx)
    simp only [Content, deref_congr e', e a List.mem_cons_self] at hc ⊢; exact hc
  | full raw dec g a =>
    have e' : ∀ x ∈ g.subs.flatten, h' x = h x := fun x hx => e x (List.mem_cons_of_mem _ hx)
    simp only [Content, deref_congr e', e a List.mem_cons_self] at hc ⊢; exact hc
  | loaded g => simp only [Content, deref_congr e] at hc ⊢; exact hc
  | filePass d g => exact hc
  | failed x g => exact hc
  | crashed => exact hc
  | closing todo => trivial
  | cleared a todo => trivial

/-- The invariant. -/
structure Inv (s : St) : Prop where
  pool : s.pool.Nodup
  nodup : ∀ i, (own (s.pcs i)).Nodup
  apart : ∀ i j, i ≠ j → ∀ a ∈ own (s.pcs i), a ∉ own (s.pcs j)
  free : ∀ i, ∀ a ∈ own (s.pcs i), a ∉ s.pool
  oldPool : ∀ a ∈ s.pool, a < s.used
  old : ∀ i, ∀ a ∈ own (s.pcs i), a < s.used
  content : ∀ i, Content s.heap (s.src i) (s.pcs i)

/-- Steps of one workbook. -/
theorem inv_of {s t : St} (h : Inv s) (i : Nat) (hpcs : ∀ j, j ≠ i → t.pcs j = s.pcs j) (hsrc : ∀ j, j ≠ i → t.src j = s.src j)
    (hheap : ∀ a, a ∉ own (s.pcs i) → t.heap a = s.heap a) (hused : s.used ≤ t.used) (hpool : t.pool.Nodup)
    (hnod : (own (t.pcs i)).Nodup) (hfree : ∀ a ∈ own (t.pcs i), a ∉ t.pool)
    (hfrom : ∀ a ∈ t.pool, a ∈ s.pool ∨ a ∈ own (s.pcs i))
    (hown : ∀ a ∈ own (t.pcs i), a ∈ own (s.pcs i) ∨ a ∈ s.pool ∨ (s.used ≤ a ∧ a < t.used))
    (hc : Content t.heap (t.src i) (t.pcs i)) : Inv t := by
  have key : ∀ j, j ≠ i → ∀ a ∈ own (s.pcs j), a ∉ own (t.pcs i) := by
    intro j hj a ha ha'
    rcases hown a ha' with x | x | x
    · exact h.apart j i hj a ha x
    · exact h.free j a ha x
    · exact absurd (h.old j a ha) (by omega)
  refine ⟨hpool, ?_, ?_, ?_, ?_, ?_, ?_⟩
  · intro j
    by_cases hj : j = i
    · subst hj; exact hnod
    · rw [hpcs j hj]; exact h.nodup j
  · intro j k hjk a ha ha'
    by_cases hj : j = i
    · subst hj
      rw [hpcs k (Ne.symm hjk)] at ha'
      exact key k (Ne.symm hjk) a ha' ha
    · rw [hpcs j hj] at ha
      by_cases hk : k = i
      · subst hk; exact key j hj a ha ha'
      · rw [hpcs k hk] at ha'
        exact h.apart j k hjk a ha ha'
  · intro j a ha hp
    by_cases hj : j = i
    · subst hj; exact hfree a ha hp
    · rw [hpcs j hj] at ha
      rcases hfrom a hp with x | x
      · exact h.free j a ha x
      · exact h.apart j i hj a ha x
  · intro a ha
    rcases hfrom a ha with x | x
    · exact Nat.lt_of_lt_of_le (h.oldPool a x) hused
    · exact Nat.lt_of_lt_of_le (h.old i a x) hused
  · intro j a ha
    by_cases hj : j = i
    · subst hj
      rcases hown a ha with x | x | x
      · exact Nat.lt_of_lt_of_le (h.old j a x) hused
      · exact Nat.lt_of_lt_of_le (h.oldPool a x) hused
      · exact x.2
    · rw [hpcs j hj] at ha
      exact Nat.lt_of_lt_of_le (h.old j a ha) hused
  · intro j
    by_cases hj : j = i
    · subst hj; exact hc
    · rw [hpcs j hj, hsrc j hj]
      refine content_congr ?_ (h.content j)
      intro a ha
      exact hheap a (fun hi => h.apart j i hj a ha hi)

theorem upd_same {α : Type} (f : Nat → α) (i : Nat) (x : α) : upd f i x i = x := by simp [upd]
theorem upd_other {α : Type} (f : Nat → α) {i j : Nat} (x : α) (h : j ≠ i) : upd f i x j = f j := by simp [upd, h]

theorem at_pc (s : St) (i : Nat) (pc : Pc) : (s.at i pc).pcs i = pc := upd_same _ _ _
theorem at_other (s : St) (i : Nat) (pc : Pc) : ∀ j, j ≠ i → (s.at i pc).pcs j = s.pcs j := fun _ h => upd_other _ _ h

theorem holds_own {pc : Pc} {l : List Nat} (h : Holds pc l) : own pc = l := by cases h <;> rfl

/-! ### Grouping -/

theorem deref_init (h : Nat → Rec) : HGroups.init.deref h = Groups.init := rfl

theorem deref_count (h : Nat → Rec) (g : HGroups) (r : Rec) : (g.count r).deref h = (g.deref h).count r := by
  unfold HGroups.count Groups.count HGroups.deref
  by_cases h1 : r.type = recEOF
  · simp [h1]
  · by_cases h2 : r.type = recBOF
    · by_cases h3 : g.nested = 0 <;> simp [h1, h2, h3, show recBOF ≠ recEOF by decide]
    · simp [h1, h2]

theorem map_modify {α β : Type} (f : α → β) : ∀ (l : List (List α)) (n : Nat) (a : α),
    (l.modify n (· ++ [a])).map (·.map f) = (l.map (·.map f)).modify n (· ++ [f a])
  | [], n, a => by simp
  | x :: l, 0, a => by simp
  | x :: l, n + 1, a => by
    simp only [List.modify_succ_cons, List.map_cons]
    rw [map_modify f l n a]

theorem deref_place (h : Nat → Rec) (g : HGroups) (a : Nat) :
    (g.deref h).place (h a) = (match g.place a with
      | .ok g' => .ok (g'.deref h)
      | .err e => .err e
      | .panic => .panic) := by
  unfold Groups.place HGroups.place
  have hl : (g.deref h).subs.length = g.subs.length := by simp [HGroups.deref]
  have hs : (g.deref h).substr = g.substr := rfl
  rw [hl, hs]
  by_cases hc : 0 ≤ g.substr ∧ g.substr < g.subs.length
  · rw [if_pos hc, if_pos hc]
    simp only [HGroups.deref, map_modify]
  · rw [if_neg hc, if_neg hc]

theorem flatten_modify : ∀ (l : List (List Nat)) (n : Nat) (a : Nat), n < l.length →
    (l.modify n (· ++ [a])).flatten.Perm (a :: l.flatten)
  | [], n, a, h => absurd h (by simp)
  | x :: l, 0, a, _ => by
    simp only [List.modify_zero_cons, List.flatten_cons, List.append_assoc]
    exact List.perm_middle
  | x :: l, n + 1, a, h => by
    simp only [List.modify_succ_cons, List.flatten_cons]
    exact ((flatten_modify l n a (by simpa using h)).append_left x).trans List.perm_middle

theorem count_flatten (g : HGroups) (r : Rec) : (g.count r).subs.flatten = g.subs.flatten := by
  unfold HGroups.count
  by_cases h1 : r.type = recEOF
  · simp [h1]
  · by_cases h2 : r.type = recBOF
    · by_cases h3 : g.nested = 0 <;> simp [h1, h2, h3, show recBOF ≠ recEOF by decide]
    · simp [h1, h2]

theorem place_flatten {g g' : HGroups} {a : Nat} (h : g.place a = .ok g') : g'.subs.flatten.Perm (a :: g.subs.flatten) := by
  unfold HGroups.place at h
  split at h
  · rename_i hc
    cases h
    exact flatten_modify _ _ _ (by omega)
  · cases h

/-! ### The stream -/

theorem gather_eof {dec : Bool} {raw : Slice} {g : Groups} (h : raw.len < 4) : gather dec raw g = .ok (.done g) := by
  have hn : nextRecord raw = .err .eof := by unfold nextRecord; rw [if_pos h]
  rw [gather]
  split
  · rfl
  · rename_i e _ hx; rw [hn] at hx; cases hx; contradiction
  · rename_i hx; rw [hn] at hx; cases hx
  · rename_i hx; rw [hn] at hx; cases hx

theorem gather_err {dec : Bool} {raw : Slice} {g : Groups} {e : GoErr} (hn : nextRecord raw = .err e) (he : e ≠ .eof) :
    gather dec raw g = .err e := by
  rw [gather]
  split
  · rename_i hx; rw [hn] at hx; cases hx; exact absurd rfl he
  · rename_i hx; rw [hn] at hx; cases hx; rfl
  · rename_i hx; rw [hn] at hx; cases hx
  · rename_i hx; rw [hn] at hx; cases hx

theorem gather_panic {dec : Bool} {raw : Slice} {g : Groups} (hn : nextRecord raw = .panic) :
    gather dec raw g = .panic := by
  rw [gather]
  split
  · rename_i hx; rw [hn] at hx; cases hx
  · rename_i hx; rw [hn] at hx; cases hx
  · rfl
  · rename_i hx; rw [hn] at hx; cases hx

theorem gather_rec {dec : Bool} {raw rest : Slice} {g : Groups} {r : Rec} {no : Nat} (hn : nextRecord raw = .ok (r, no))
    (hr : raw.dropFrom no = .ok rest) : gather dec raw g =
      (if r.type = recFilePass ∧ dec = false then .ok (.filePass r.data)
       else match (g.count r).place r with
        | .ok g => gather dec rest g
        | .err e => .err e
        | .panic => .panic) := by
  rw [gather]
  split
  · rename_i hx; rw [hn] at hx; cases hx
  · rename_i hx; rw [hn] at hx; cases hx
  · rename_i hx; rw [hn] at hx; cases hx
  · rename_i nr no' hx
    rw [hn] at hx
    cases hx
    split
    · rename_i raw' hr'
      rw [hr] at hr'
      cases hr'
      rfl
    · rename_i hx; rw [hr] at hx; cases hx
    · rename_i hx; rw [hr] at hx; cases hx

theorem next_short {raw rest : Slice} {t n : Nat} (hl : ¬ raw.len < 4) (ht : (raw.sub 0 2 >>= Slice.u16) = .ok t)
    (hn : (raw.sub 2 4 >>= Slice.u16) = .ok n) (hr : raw.dropFrom 4 = .ok rest) :
    nextRecord raw = (if rest.len < n then .err .unexpectedEOF else do
      let data ← raw.sub 4 ((4 + n) % 65536)
      pure (⟨t, n, data⟩, (4 + n) % 65536)) := by
  obtain ⟨x, hx, hx'⟩ := GoRes.bind_eq_ok.1 ht
  obtain ⟨y, hy, hy'⟩ := GoRes.bind_eq_ok.1 hn
  unfold nextRecord
  rw [if_neg hl]
  simp only [hx, hx', hy, hy', hr, GoRes.ok_bind]

/-! ### Steps keep the invariant -/

theorem inv_init : Inv St.init :=
  ⟨List.nodup_nil, fun _ => List.nodup_nil, fun _ _ _ a ha => absurd ha (by simp [St.init, own]),
    fun _ a ha => absurd ha (by simp [St.init, own]), fun a ha => absurd ha (by simp [St.init]),
    fun _ a ha => absurd ha (by simp [St.init, own]), fun _ => trivial⟩

theorem inv_step {s t : St} (h : Inv s) (hs : Step s t) : Inv t := by
  cases hs with
  | gc p hp =>
    exact ⟨h.pool.sublist hp, h.nodup, h.apart, fun i a ha hx => h.free i a ha (hp.subset hx),
      fun a ha => h.oldPool a (hp.subset ha), h.old, h.content⟩
  | start i raw dec todo hh =>
    have ho := holds_own hh
    refine inv_of h i (at_other _ _ _) (fun j hj => upd_other _ _ hj) (fun _ _ => rfl) (Nat.le_refl _) h.pool ?_ ?_
      (fun a ha => .inl ha) ?_ ?_
    · show (own ((s.at i (.drop todo raw dec)).pcs i)).Nodup
      rw [at_pc, own, ← ho]; exact h.nodup i
    · show ∀ a ∈ own ((s.at i (.drop todo raw dec)).pcs i), a ∉ s.pool
      rw [at_pc, own, ← ho]; exact h.free i
    · show ∀ a ∈ own ((s.at i (.drop todo raw dec)).pcs i), _
      rw [at_pc, own, ← ho]; exact fun a ha => .inl ha
    · show Content s.heap (upd s.src i (raw, dec) i) ((s.at i (.drop todo raw dec)).pcs i)
      rw [at_pc, upd_same]; rfl
  | dropPut i a todo raw dec hp =>
    have hn := h.nodup i; have hf := h.free i; have hc := h.content i
    rw [hp] at hn hf hc
    rw [own, List.nodup_cons] at hn
    refine inv_of h i (at_other _ _ _) (fun j hj => rfl) (fun _ _ => rfl) (Nat.le_refl _)
      (List.nodup_cons.2 ⟨hf a List.mem_cons_self, h.pool⟩) ?_ ?_ ?_ ?_ ?_
    · rw [at_pc]; exact hn.2
    · rw [at_pc]
      intro b hb hx
      rcases List.mem_cons.1 hx with rfl | hx
      · exact hn.1 hb
      · exact hf b (List.mem_cons_of_mem _ hb) hx
    · intro b hb
      rcases List.mem_cons.1 hb with rfl | hb
      · right; rw [hp]; exact List.mem_cons_self
      · exact .inl hb
    · rw [at_pc, hp]; exact fun b hb => .inl (List.mem_cons_of_mem _ hb)
    · rw [at_pc]; exact hc
  | dropDone i raw dec hp =>
    have hc := h.content i
    rw [hp] at hc
    refine inv_of h i (at_other _ _ _) (fun j hj => rfl) (fun _ _ => rfl) (Nat.le_refl _) h.pool ?_ ?_ (fun a ha => .inl ha) ?_ ?_
    · rw [at_pc]; exact List.nodup_nil
    · rw [at_pc]; intro a ha; exact absurd ha (by simp [own, HGroups.init])
    · rw [at_pc]; intro a ha; exact absurd ha (by simp [own, HGroups.init])
    · rw [at_pc]
      have hc' : (raw, dec) = s.src i := hc
      show dec = (s.src i).2 ∧ gather (s.src i).2 (s.src i).1 Groups.init = gather dec raw (HGroups.init.deref s.heap)
      rw [← hc']; exact ⟨rfl, rfl⟩
  | eof i raw dec g hp hl =>
    have hn := h.nodup i; have hf := h.free i; have hc := h.content i
    rw [hp] at hn hf hc
    refine inv_of h i (at_other _ _ _) (fun j hj => rfl) (fun _ _ => rfl) (Nat.le_refl _) h.pool ?_ ?_ (fun a ha => .inl ha) ?_ ?_
    · rw [at_pc]; exact hn
    · rw [at_pc]; exact hf
    · rw [at_pc, hp]; exact fun a ha => .inl ha
    · rw [at_pc]
      exact hc.2.trans (gather_eof hl)
  | getOld i a raw dec g hp hl ha =>
    have hn := h.nodup i; have hf := h.free i; have hc := h.content i
    rw [hp] at hn hf hc
    refine inv_of h i (at_other _ _ _) (fun j hj => rfl) (fun _ _ => rfl) (Nat.le_refl _) (h.pool.erase a) ?_ ?_
      (fun a ha => .inl (List.mem_of_mem_erase ha)) ?_ ?_
    · rw [at_pc]; exact List.nodup_cons.2 ⟨fun hx => hf a hx ha, hn⟩
    · rw [at_pc]
      intro b hb hx
      rcases List.mem_cons.1 hb with rfl | hb
      · exact h.pool.not_mem_erase hx
      · exact hf b hb (List.mem_of_mem_erase hx)
    · rw [at_pc, hp]
      intro b hb
      rcases List.mem_cons.1 hb with rfl | hb
      · exact .inr (.inl ha)
      · exact .inl hb
    · rw [at_pc]; exact ⟨hc.1, hc.2, hl⟩
  | getNew i raw dec g hp hl =>
    have hn := h.nodup i; have hf := h.free i; have hc := h.content i; have hd := h.old i
    rw [hp] at hn hf hc hd
    refine inv_of h i (at_other _ _ _) (fun j hj => rfl) (fun _ _ => rfl) (Nat.le_succ _) h.pool ?_ ?_ (fun a ha => .inl ha) ?_ ?_
    · rw [at_pc]; exact List.nodup_cons.2 ⟨fun hx => absurd (hd _ hx) (by omega), hn⟩
    · rw [at_pc]
      intro b hb hx
      rcases List.mem_cons.1 hb with rfl | hb
      · exact absurd (h.oldPool _ hx) (by omega)
      · exact hf b hb hx
    · rw [at_pc, hp]
      intro b hb
      rcases List.mem_cons.1 hb with rfl | hb
      · exact .inr (.inr ⟨Nat.le_refl _, Nat.lt_succ_self _⟩)
      · exact .inl hb
    · rw [at_pc]; exact ⟨hc.1, hc.2, hl⟩
  | head i a t n raw dec g hp ht hz =>
    have hn := h.nodup i; have hf := h.free i; have hc := h.content i
    rw [hp] at hn hf hc
    have hn' : a ∉ g.subs.flatten := (List.nodup_cons.1 hn).1
    refine inv_of h i (at_other _ _ _) (fun j hj => rfl) ?_ (Nat.le_refl _) h.pool ?_ ?_ (fun a ha => .inl ha) ?_ ?_
    · intro b hb
      refine upd_other _ _ ?_
      rintro rfl
      exact hb (by rw [hp]; exact List.mem_cons_self)
    · rw [at_pc]; exact hn
    · rw [at_pc]; exact hf
    · rw [at_pc, hp]; exact fun a ha => .inl ha
    · rw [at_pc]
      have e : g.deref (upd s.heap a { s.heap a with type := t, size := n }) = g.deref s.heap :=
        deref_congr fun b hb => upd_other _ _ (by rintro rfl; exact hn' hb)
      refine ⟨hc.1, ?_, hc.2.2, ?_, ?_⟩
      · show _ = gather dec raw (g.deref (upd s.heap a { s.heap a with type := t, size := n }))
        rw [e]; exact hc.2.1
      · show _ = GoRes.ok (upd s.heap a { s.heap a with type := t, size := n } a).type
        rw [upd_same]; exact ht
      · show _ = GoRes.ok (upd s.heap a { s.heap a with type := t, size := n } a).size
        rw [upd_same]; exact hz
  | short i a raw rest dec g hp hr hlt =>
    have hn := h.nodup i; have hf := h.free i; have hc := h.content i
    rw [hp] at hn hf hc
    have hn' := List.nodup_cons.1 hn
    refine inv_of h i (at_other _ _ _) (fun j hj => rfl) (fun _ _ => rfl) (Nat.le_refl _)
      (List.nodup_cons.2 ⟨hf a List.mem_cons_self, h.pool⟩) ?_ ?_ ?_ ?_ ?_
    · rw [at_pc]; exact hn'.2
    · rw [at_pc]
      intro b hb hx
      rcases List.mem_cons.1 hx with rfl | hx
      · exact hn'.1 hb
      · exact hf b (List.mem_cons_of_mem _ hb) hx
    · intro b hb
      rcases List.mem_cons.1 hb with rfl | hb
      · right; rw [hp]; exact List.mem_cons_self
      · exact .inl hb
    · rw [at_pc, hp]; exact fun b hb => .inl (List.mem_cons_of_mem _ hb)
    · rw [at_pc]
      obtain ⟨_, h2, h3, h4, h5⟩ := hc
      refine h2.trans (gather_err ?_ (by simp))
      rw [next_short h3 h4 h5 hr, if_pos hlt]
  | data i a raw rest d dec g hp hr hlt hd =>
    have hn := h.nodup i; have hf := h.free i; have hc := h.content i
    rw [hp] at hn hf hc
    have hn' : a ∉ g.subs.flatten := (List.nodup_cons.1 hn).1
    refine inv_of h i (at_other _ _ _) (fun j hj => rfl) ?_ (Nat.le_refl _) h.pool ?_ ?_ (fun a ha => .inl ha) ?_ ?_
    · intro b hb
      refine upd_other _ _ ?_
      rintro rfl
      exact hb (by rw [hp]; exact List.mem_cons_self)
    · rw [at_pc]; exact hn
    · rw [at_pc]; exact hf
    · rw [at_pc, hp]; exact fun a ha => .inl ha
    · rw [at_pc]
      obtain ⟨h1, h2, h3, h4, h5⟩ := hc
      have e : g.deref (upd s.heap a { s.heap a with data := d }) = g.deref s.heap :=
        deref_congr fun b hb => upd_other _ _ (by rintro rfl; exact hn' hb)
      refine ⟨h1, ?_, ?_⟩
      · show _ = gather dec raw (g.deref (upd s.heap a { s.heap a with data := d }))
        rw [e]; exact h2
      · show _ = GoRes.ok (upd s.heap a { s.heap a with data := d } a, (4 + (upd s.heap a { s.heap a with data := d } a).size) % 65536)
        rw [upd_same, next_short h3 h4 h5 hr, if_neg hlt, hd]
        rfl
  | dataPanic i a raw rest dec g hp hr hlt hd =>
    have hc := h.content i
    rw [hp] at hc
    refine inv_of h i (at_other _ _ _) (fun j hj => rfl) (fun _ _ => rfl) (Nat.le_refl _) h.pool ?_ ?_ (fun a ha => .inl ha) ?_ ?_
    · rw [at_pc]; exact List.nodup_nil
    · rw [at_pc]; intro a ha; exact absurd ha (by simp [own])
    · rw [at_pc]; intro a ha; exact absurd ha (by simp [own])
    · rw [at_pc]
      obtain ⟨h1, h2, h3, h4, h5⟩ := hc
      refine h2.trans (gather_panic ?_)
      rw [next_short h3 h4 h5 hr, if_neg hlt, hd]
      rfl
  | place i a raw rest dec g g' hp hr ht hg =>
    have hn := h.nodup i; have hf := h.free i; have hc := h.content i
    rw [hp] at hn hf hc
    have hperm := place_flatten hg
    rw [count_flatten] at hperm
    refine inv_of h i (at_other _ _ _) (fun j hj => rfl) (fun _ _ => rfl) (Nat.le_refl _) h.pool ?_ ?_ (fun a ha => .inl ha) ?_ ?_
    · rw [at_pc]; exact hperm.nodup_iff.2 hn
    · rw [at_pc]; exact fun b hb => hf b (hperm.subset hb)
    · rw [at_pc, hp]; exact fun b hb => .inl (hperm.subset hb)
    · rw [at_pc]
      obtain ⟨h1, h2, h3⟩ := hc
      refine ⟨h1, h2.trans ?_⟩
      rw [gather_rec h3 hr, if_neg ht, ← deref_count, deref_place, hg]
      rfl
  | placePanic i a raw rest dec g hp hr ht hg =>
    have hc := h.content i
    rw [hp] at hc
    refine inv_of h i (at_other _ _ _) (fun j hj => rfl) (fun _ _ => rfl) (Nat.le_refl _) h.pool ?_ ?_ (fun a ha => .inl ha) ?_ ?_
    · rw [at_pc]; exact List.nodup_nil
    · rw [at_pc]; intro a ha; exact absurd ha (by simp [own])
    · rw [at_pc]; intro a ha; exact absurd ha (by simp [own])
    · rw [at_pc]
      obtain ⟨h1, h2, h3⟩ := hc
      refine h2.trans ?_
      rw [gather_rec h3 hr, if_neg ht, ← deref_count, deref_place, hg]
  | filePass i a raw rest dec g hp hr ht hd =>
    have hn := h.nodup i; have hf := h.free i; have hc := h.content i
    rw [hp] at hn hf hc
    refine inv_of h i (at_other _ _ _) (fun j hj => rfl) (fun _ _ => rfl) (Nat.le_refl _) h.pool ?_ ?_ (fun a ha => .inl ha) ?_ ?_
    · rw [at_pc, own, count_flatten]; exact (List.nodup_cons.1 hn).2
    · rw [at_pc, own, count_flatten]; exact fun b hb => hf b (List.mem_cons_of_mem _ hb)
    · rw [at_pc, hp, own, own, count_flatten]; exact fun b hb => .inl (List.mem_cons_of_mem _ hb)
    · rw [at_pc]
      obtain ⟨h1, h2, h3⟩ := hc
      refine h2.trans ?_
      rw [gather_rec h3 hr, if_pos ⟨ht, hd⟩]
  | close i todo hh =>
    have ho := holds_own hh
    refine inv_of h i (at_other _ _ _) (fun j hj => rfl) (fun _ _ => rfl) (Nat.le_refl _) h.pool ?_ ?_ (fun a ha => .inl ha) ?_ ?_
    · rw [at_pc, own, ← ho]; exact h.nodup i
    · rw [at_pc, own, ← ho]; exact h.free i
    · rw [at_pc, own, ← ho]; exact fun a ha => .inl ha
    · rw [at_pc]; trivial
  | closeClear i a todo hp =>
    have hn := h.nodup i; have hf := h.free i
    rw [hp] at hn hf
    refine inv_of h i (at_other _ _ _) (fun j hj => rfl) ?_ (Nat.le_refl _) h.pool ?_ ?_ (fun a ha => .inl ha) ?_ ?_
    · intro b hb
      refine upd_other _ _ ?_
      rintro rfl
      exact hb (by rw [hp]; exact List.mem_cons_self)
    · rw [at_pc]; exact hn
    · rw [at_pc]; exact hf
    · rw [at_pc, hp]; exact fun a ha => .inl ha
    · rw [at_pc]; trivial
  | closePut i a todo hp =>
    have hn := h.nodup i; have hf := h.free i
    rw [hp] at hn hf
    have hn' := List.nodup_cons.1 hn
    refine inv_of h i (at_other _ _ _) (fun j hj => rfl) (fun _ _ => rfl) (Nat.le_refl _)
      (List.nodup_cons.2 ⟨hf a List.mem_cons_self, h.pool⟩) ?_ ?_ ?_ ?_ ?_
    · rw [at_pc]; exact hn'.2
    · rw [at_pc]
      intro b hb hx
      rcases List.mem_cons.1 hx with rfl | hx
      · exact hn'.1 hb
      · exact hf b (List.mem_cons_of_mem _ hb) hx
    · intro b hb
      rcases List.mem_cons.1 hb with rfl | hb
      · right; rw [hp]; exact List.mem_cons_self
      · exact .inl hb
    · rw [at_pc, hp]; exact fun b hb => .inl (List.mem_cons_of_mem _ hb)
    · rw [at_pc]; trivial
  | closeDone i hp =>
    refine inv_of h i (at_other _ _ _) (fun j hj => rfl) (fun _ _ => rfl) (Nat.le_refl _) h.pool ?_ ?_ (fun a ha => .inl ha) ?_ ?_
    · rw [at_pc]; exact List.nodup_nil
    · rw [at_pc]; intro a ha; exact absurd ha (by simp [own])
    · rw [at_pc]; intro a ha; exact absurd ha (by simp [own])
    · rw [at_pc]; trivial

theorem inv_reach {s : St} (h : Reach s) : Inv s := by
  induction h with
  | init => exact inv_init
  | step s t _ hs ih => exact inv_step ih hs

end Grate.Pool
