import Verif.Model.Cell

/-! # Helper lemmas about cell comparison -/

namespace Grate

theorem bytesLt_irrefl : ∀ a : Bytes, bytesLt a a = false
  | [] => rfl
  | a :: as => by simp [bytesLt, bytesLt_irrefl as]

theorem bytesLt_iff : ∀ a b : Bytes, bytesLt a b = true ↔ a < b
  | _, [] => by simp [bytesLt]
  | [], _ :: _ => by simp [bytesLt]
  | a :: as, b :: bs => by
    simp only [bytesLt, Bool.or_eq_true, decide_eq_true_eq, Bool.and_eq_true, beq_iff_eq,
      bytesLt_iff as bs, List.cons_lt_cons_iff]

theorem bytesLt_trans : ∀ a b c : Bytes, bytesLt a b = true → bytesLt b c = true → bytesLt a c = true
  | _, _, [], _, h2 => by simp [bytesLt] at h2
  | _, [], _ :: _, h1, _ => by simp [bytesLt] at h1
  | [], _ :: _, _ :: _, _, _ => by simp [bytesLt]
  | a :: as, b :: bs, c :: cs, h1, h2 => by
    simp only [bytesLt, Bool.or_eq_true, decide_eq_true_eq, Bool.and_eq_true, beq_iff_eq] at *
    rcases h1 with h1 | ⟨rfl, h1⟩
    · rcases h2 with h2 | ⟨rfl, h2⟩
      · exact .inl (UInt8.lt_trans h1 h2)
      · exact .inl h1
    · rcases h2 with h2 | ⟨rfl, h2⟩
      · exact .inl h2
      · exact .inr ⟨rfl, bytesLt_trans as bs cs h1 h2⟩

theorem bytesLt_asymm {a b : Bytes} (h : bytesLt a b = true) : bytesLt b a = false := by
  cases h' : bytesLt b a with
  | false => rfl
  | true =>
    have := bytesLt_trans a b a h h'
    rw [bytesLt_irrefl] at this
    cases this

theorem bytesLt_total : ∀ a b : Bytes, bytesLt a b = false → bytesLt b a = false → a = b
  | [], [], _, _ => rfl
  | [], _ :: _, h, _ => by simp [bytesLt] at h
  | _ :: _, [], _, h => by simp [bytesLt] at h
  | a :: as, b :: bs, h1, h2 => by
    simp only [bytesLt, Bool.or_eq_false_iff, decide_eq_false_iff_not, Bool.and_eq_false_iff] at h1 h2
    have hab : a = b := by
      apply UInt8.toNat_inj.mp
      have x1 := h1.1
      have x2 := h2.1
      rw [UInt8.lt_iff_toNat_lt] at x1 x2
      omega
    subst hab
    have e1 : bytesLt as bs = false := by rcases h1.2 with h | h <;> simp_all
    have e2 : bytesLt bs as = false := by rcases h2.2 with h | h <;> simp_all
    rw [bytesLt_total as bs e1 e2]

end Grate
