import Verif.Model.Registry
import Verif.Spec.Registry

namespace Grate

open Spec

theorem isNotInFormat_iff (e : GoErr) : e.isNotInFormat = true ↔ Recognised e := by
  constructor
  · intro h
    fun_induction GoErr.isNotInFormat e with
    | case1 => exact .here
    | case2 e hne e' he ih =>
      unfold GoErr.unwrap at he
      split at he
      · simp only [Option.some.injEq] at he
        subst he
        exact .second _ _ _ (ih h)
      · simp at he
    | case3 => simp at h
  · intro h
    induction h with
    | here => simp [GoErr.isNotInFormat]
    | second e0 e1 es _ ih =>
      unfold GoErr.isNotInFormat
      split
      · rename_i h; simp [GoErr.unwrap] at h; subst h; exact ih
      · rename_i h; simp [GoErr.unwrap] at h

theorem reachable_perm {S : Type} {hist t : List (Entry S)} (h : Reachable hist t) : t.Perm hist := by
  induction h with
  | init => exact .nil
  | register _ hr ih => exact hr.1.trans (ih.append_right _)

theorem reachable_sorted {S : Type} {hist t : List (Entry S)} (h : Reachable hist t) :
    t.Pairwise (fun a b => a.pri ≤ b.pri) := by
  cases h with
  | init => exact .nil
  | register _ hr => exact hr.2

/-- Complete characterisation of the dispatch loop. -/
theorem openTrace_cases {S : Type} (f : Bytes) (t : List (Entry S)) :
    ((∀ e ∈ t, Declines (e.op f)) ∧ openTrace f t = (t, .err .unknownFormat)) ∨
    (∃ pre o post, t = pre ++ o :: post ∧ (∀ e ∈ pre, Declines (e.op f)) ∧ ¬ Declines (o.op f) ∧
      openTrace f t = (pre ++ [o], o.op f)) := by
  induction t with
  | nil => left; simp [openTrace]
  | cons o os ih =>
    by_cases hd : Declines (o.op f)
    · obtain ⟨e, he, hr⟩ := hd
      have hb := (isNotInFormat_iff e).2 hr
      rcases ih with ⟨hall, ht⟩ | ⟨pre, o', post, hs, hpre, hnd, ht⟩
      · left
        refine ⟨?_, ?_⟩
        · intro e' he'
          rcases List.mem_cons.1 he' with rfl | h
          · exact ⟨e, he, hr⟩
          · exact hall e' h
        · simp [openTrace, he, hb, ht]
      · right
        refine ⟨o :: pre, o', post, by simp [hs], ?_, hnd, ?_⟩
        · intro e' he'
          rcases List.mem_cons.1 he' with rfl | h
          · exact ⟨e, he, hr⟩
          · exact hpre e' h
        · simp [openTrace, he, hb, ht]
    · right
      refine ⟨[], o, os, by simp, by simp, hd, ?_⟩
      cases hop : o.op f with
      | ok s => simp [openTrace, hop]
      | panic => simp [openTrace, hop]
      | err e =>
        have : ¬ e.isNotInFormat = true := fun h => hd ⟨e, hop, (isNotInFormat_iff e).1 h⟩
        simp [openTrace, hop, this]

end Grate
