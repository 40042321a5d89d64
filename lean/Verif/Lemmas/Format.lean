import Verif.Model.Format
import Verif.Lemmas.Decimal

/-! # Helper lemmas about number rendering -/

namespace Grate

open Spec

/-- The loop only touches the part before `e`: what it does to `a ++ t` with `e = a.length`. -/
theorem commaLoop_spec : ∀ (fuel : Nat) (a t : Bytes), a ≠ [] → a.length ≤ fuel →
    ∃ s, commaLoop fuel a.length (a ++ t) = s ++ t ∧ Grouped a s
  | 0, a, t, h, hl => absurd (List.eq_nil_of_length_eq_zero (by omega)) h
  | fuel + 1, a, t, h, hl => by
    unfold commaLoop
    by_cases h3 : a.length > 3
    · rw [if_pos h3]
      have ht : (a ++ t).take (a.length - 3) = a.take (a.length - 3) := by
        rw [List.take_append_of_le_length (by omega)]
      have hd : (a ++ t).drop (a.length - 3) = a.drop (a.length - 3) ++ t := by
        rw [List.drop_append_of_le_length (by omega)]
      rw [ht, hd]
      have hlen : (a.take (a.length - 3)).length = a.length - 3 := by simp
      obtain ⟨s, hs, hg⟩ := commaLoop_spec fuel (a.take (a.length - 3))
        (44 :: (a.drop (a.length - 3) ++ t)) (by intro h0; rw [h0] at hlen; simp at hlen; omega)
        (by omega)
      rw [hlen] at hs
      rw [hs]
      refine ⟨s ++ 44 :: a.drop (a.length - 3), by simp, ?_⟩
      have := Grouped.more (a.drop (a.length - 3)) hg (by simp; omega)
      rwa [List.take_append_drop] at this
    · rw [if_neg h3]
      refine ⟨a, rfl, Grouped.base a ?_ (by omega)⟩
      cases a with
      | nil => exact absurd rfl h
      | cons => simp

theorem numEnd_digits {s : Bytes} (h : IsDigits s) : numEnd s = s.length := by
  have key : ∀ l : Bytes, (∀ b ∈ l, 48 ≤ b.toNat ∧ b.toNat ≤ 57) → numEnd l = l.length := by
    intro l
    induction l with
    | nil => intro _; rfl
    | cons b bs ih =>
      intro hl
      have := hl b (by simp)
      have h1 : b ≠ 46 := by rintro rfl; simp at this
      have h2 : b ≠ 101 := by rintro rfl; simp at this
      have h3 : b ≠ 69 := by rintro rfl; simp at this
      have ih' := ih (fun x hx => hl x (by simp [hx]))
      unfold numEnd at ih' ⊢
      rw [List.takeWhile_cons]
      have hp : (!(b == 46 || b == 101 || b == 69)) = true := by simp [h1, h2, h3]
      rw [if_pos hp, List.length_cons, ih', List.length_cons]
  exact key s h.2

/-- Commas on a string of digits. -/
theorem commas_digits {d : Bytes} (h : IsDigits d) :
    ∃ s, commaLoop (numEnd d) (numEnd d) d = s ∧ Grouped d s := by
  rw [numEnd_digits h]
  obtain ⟨s, hs, hg⟩ := commaLoop_spec d.length d [] h.1 (Nat.le_refl _)
  exact ⟨s, by simpa using hs, hg⟩

theorem digits_head_ne_minus {d : Bytes} (h : IsDigits d) : ∃ c cs, d = c :: cs ∧ (c == 45) = false := by
  cases d with
  | nil => exact absurd rfl h.1
  | cons c cs =>
    have := h.2 c (by simp)
    refine ⟨c, cs, rfl, ?_⟩
    have h1 : c ≠ 45 := by rintro rfl; simp at this
    simp [h1]

end Grate
