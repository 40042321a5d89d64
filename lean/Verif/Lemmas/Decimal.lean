import Verif.Spec.Decimal

namespace Grate

open Spec

theorem isDigit_iff (b : UInt8) : isDigit b = true ↔ 48 ≤ b.toNat ∧ b.toNat ≤ 57 := by
  simp only [isDigit, Bool.and_eq_true, decide_eq_true_eq]
  exact Iff.rfl

theorem parseUintLoop_ok (maxVal : Nat) (s : Bytes) (n : Nat)
    (hd : ∀ b ∈ s, 48 ≤ b.toNat ∧ b.toNat ≤ 57) (hm : n * 10 ^ s.length + digitsVal s ≤ maxVal) :
    parseUintLoop maxVal n s = (n * 10 ^ s.length + digitsVal s, none) := by
  induction s generalizing n with
  | nil => simp [parseUintLoop, digitsVal]
  | cons c cs ih =>
    have hc := hd c (by simp)
    have hi : isDigit c = true := (isDigit_iff c).2 hc
    have heq : n * 10 ^ (c :: cs).length + digitsVal (c :: cs)
        = (n * 10 + (c.toNat - 48)) * 10 ^ cs.length + digitsVal cs := by
      simp only [List.length_cons, digitsVal, Nat.pow_succ, Nat.add_mul]
      have : n * (10 ^ cs.length * 10) = n * 10 * 10 ^ cs.length := by
        rw [Nat.mul_comm (10 ^ cs.length) 10, Nat.mul_assoc]
      omega
    rw [heq] at hm ⊢
    have hle : n * 10 + (c.toNat - 48) ≤ (n * 10 + (c.toNat - 48)) * 10 ^ cs.length :=
      Nat.le_mul_of_pos_right _ (Nat.pow_pos (by omega))
    have hng : ¬ (n * 10 + (c.toNat - 48) > maxVal) := by omega
    simp only [parseUintLoop, hi, hng, if_true, if_false]
    exact ih _ (fun b hb => hd b (by simp [hb])) hm

theorem parseUintLoop_none (maxVal : Nat) (s : Bytes) (n v : Nat) (hn : n ≤ maxVal)
    (h : parseUintLoop maxVal n s = (v, none)) :
    (∀ b ∈ s, 48 ≤ b.toNat ∧ b.toNat ≤ 57) ∧ v = n * 10 ^ s.length + digitsVal s ∧ v ≤ maxVal := by
  induction s generalizing n with
  | nil => simp [parseUintLoop] at h; subst h; simp [digitsVal, hn]
  | cons c cs ih =>
    simp only [parseUintLoop] at h
    split at h
    · rename_i hi
      split at h
      · simp at h
      · rename_i hle
        obtain ⟨h1, h2, h3⟩ := ih _ (by omega) h
        have hc := (isDigit_iff c).1 hi
        refine ⟨?_, ?_, h3⟩
        · intro b hb
          rcases List.mem_cons.1 hb with rfl | hb
          · exact hc
          · exact h1 b hb
        · rw [h2]
          simp only [List.length_cons, digitsVal, Nat.pow_succ, Nat.add_mul]
          have : n * (10 ^ cs.length * 10) = n * 10 * 10 ^ cs.length := by
            rw [Nat.mul_comm (10 ^ cs.length) 10, Nat.mul_assoc]
          omega
    · simp at h

/-- On a digit string exceeding the maximum, the loop reports a range error with the maximum. -/
theorem parseUintLoop_range (maxVal : Nat) (s : Bytes) (n : Nat) (hn : n ≤ maxVal)
    (hd : ∀ b ∈ s, 48 ≤ b.toNat ∧ b.toNat ≤ 57) (hm : maxVal < n * 10 ^ s.length + digitsVal s) :
    parseUintLoop maxVal n s = (maxVal, some .range) := by
  induction s generalizing n with
  | nil => simp [digitsVal] at hm; omega
  | cons c cs ih =>
    have hi : isDigit c = true := (isDigit_iff c).2 (hd c (by simp))
    simp only [parseUintLoop, hi, if_true]
    split
    · rfl
    · refine ih _ (by omega) (fun b hb => hd b (by simp [hb])) ?_
      have heq : n * 10 ^ (c :: cs).length + digitsVal (c :: cs)
          = (n * 10 + (c.toNat - 48)) * 10 ^ cs.length + digitsVal cs := by
        simp only [List.length_cons, digitsVal, Nat.pow_succ, Nat.add_mul]
        have : n * (10 ^ cs.length * 10) = n * 10 * 10 ^ cs.length := by
          rw [Nat.mul_comm (10 ^ cs.length) 10, Nat.mul_assoc]
        omega
      omega

/-- `strconv.ParseInt(s, 10, bits)` succeeds exactly on decimal numerals in range, with their value. -/
theorem parseInt_ok_iff (bits : Nat) (hb : 0 < bits) (s : Bytes) (v : Int) :
    parseInt bits s = (v, none) ↔
      DecValue s v ∧ -(2 ^ (bits - 1) : Int) ≤ v ∧ v < (2 ^ (bits - 1) : Int) := by
  have hpow : 2 ^ bits = 2 * 2 ^ (bits - 1) := by
    obtain ⟨k, rfl⟩ : ∃ k, bits = k + 1 := ⟨bits - 1, by omega⟩
    simp [Nat.pow_succ, Nat.mul_comm]
  have hpos : 0 < 2 ^ (bits - 1) := Nat.pow_pos (by omega)
  have hcast : ((2 ^ (bits - 1) : Nat) : Int) = (2 : Int) ^ (bits - 1) := by simp
  -- the unsigned parser on a body
  have key : ∀ body : Bytes, ∀ un, parseUint bits body = (un, none) ↔
      IsDigits body ∧ un = digitsVal body ∧ un ≤ 2 ^ bits - 1 := by
    intro body un
    unfold parseUint
    by_cases hbody : body = []
    · simp [hbody, IsDigits]
    · rw [if_neg hbody]
      constructor
      · intro h
        have := parseUintLoop_none _ _ _ _ (Nat.zero_le _) h
        exact ⟨⟨hbody, this.1⟩, by simpa using this.2.1, this.2.2⟩
      · rintro ⟨hd, rfl, hle⟩
        have := parseUintLoop_ok (2 ^ bits - 1) body 0 hd.2 (by simpa using hle)
        simpa using this
  have keyr : ∀ body : Bytes, ∀ un, parseUint bits body = (un, some .range) → un = 2 ^ bits - 1 := by
    intro body un h
    unfold parseUint at h
    split at h
    · simp at h
    · clear key
      revert h
      generalize (0 : Nat) = n
      induction body generalizing n with
      | nil => simp [parseUintLoop]
      | cons c cs ih =>
        intro h
        simp only [parseUintLoop] at h
        split at h
        · split at h
          · simp at h; exact h.symm
          · by_cases hcs : cs = []
            · simp [hcs, parseUintLoop] at h
            · exact ih hcs _ h
        · simp at h
  have key0 : parseUint bits [] = (0, some .syntax) := by simp [parseUint]
  cases s with
  | nil =>
    constructor
    · intro h; simp [parseInt] at h
    · rintro ⟨h, _⟩
      cases h with
      | plain _ hd => exact absurd rfl hd.1
  | cons c cs =>
    constructor
    · intro h
      simp only [parseInt] at h
      split at h
      · simp at h
      · rename_i un e hnot hpu
        generalize hbody : (if (c == 43 || c == 45) = true then cs else c :: cs) = body at hpu
        have he : e = none := by
          split at h
          · simp at h
          · split at h
            · simp at h
            · split at h <;> simp at h <;> exact h.2
        subst he
        obtain ⟨hd, hun, _⟩ := (key body un).1 hpu
        by_cases hneg : c = 45
        · subst hneg
          simp only [BEq.rfl, Bool.or_true, if_true] at hbody
          simp only [BEq.rfl, Bool.not_true, Bool.false_and, Bool.false_eq_true, if_false,
            Bool.true_and, decide_eq_true_eq] at h
          split at h
          · simp at h
          · simp at h
            subst hbody hun h
            refine ⟨.minus _ hd, ?_, ?_⟩
            · rw [← hcast]; omega
            · rw [← hcast]; omega
        · have hc45 : (c == 45) = false := by simpa using hneg
          simp only [hc45, Bool.not_false, Bool.true_and, decide_eq_true_eq, Bool.false_and,
            Bool.false_eq_true, if_false] at h
          split at h
          · simp at h
          · rename_i hlt
            simp at h
            subst hun h
            refine ⟨?_, ?_, ?_⟩
            · simp only [hc45, Bool.or_false] at hbody
              split at hbody
              · rename_i h43
                have : c = 43 := by simpa using h43
                subst this hbody
                exact .plus _ hd
              · subst hbody
                exact .plain _ hd
            · rw [← hcast]; omega
            · rw [← hcast]; omega
    · rintro ⟨h, hlo, hhi⟩
      rw [← hcast] at hlo hhi
      generalize hs : c :: cs = s at h
      have fin : ∀ (ds : Bytes), IsDigits ds → digitsVal ds ≤ 2 ^ (bits - 1) →
          parseUint bits ds = (digitsVal ds, none) := by
        intro ds hd hle
        exact (key ds _).2 ⟨hd, rfl, by omega⟩
      cases h with
      | plain _ hd =>
        subst hs
        have h1 := hd.2 c (by simp)
        have hc43 : (c == 43) = false := by
          rw [beq_eq_false_iff_ne]; rintro rfl; simp at h1
        have hc45 : (c == 45) = false := by
          rw [beq_eq_false_iff_ne]; rintro rfl; simp at h1
        have := fin _ hd (by omega)
        simp only [parseInt, hc43, hc45, Bool.or_self, Bool.false_eq_true, if_false, this]
        have hng : ¬ (2 ^ (bits - 1) ≤ digitsVal (c :: cs)) := by omega
        simp [hng]
      | plus ds hd =>
        obtain ⟨rfl, rfl⟩ := List.cons.inj hs
        have := fin _ hd (by omega)
        have hng : ¬ (2 ^ (bits - 1) ≤ digitsVal cs) := by omega
        simp only [parseInt]
        simp [this, hng]
      | minus ds hd =>
        obtain ⟨rfl, rfl⟩ := List.cons.inj hs
        have := fin _ hd (by omega)
        have hng : ¬ (2 ^ (bits - 1) < digitsVal cs) := by omega
        simp only [parseInt]
        simp [this, hng]

/-! ### Printing -/

theorem digitByte_toNat (d : Nat) (h : d < 10) : (digitByte d).toNat = 48 + d := by
  simp [digitByte]; omega

theorem digitsVal_append (a b : Bytes) :
    digitsVal (a ++ b) = digitsVal a * 10 ^ b.length + digitsVal b := by
  induction a with
  | nil => simp [digitsVal]
  | cons d ds ih =>
    simp only [List.cons_append, digitsVal, ih, List.length_append, Nat.add_mul, Nat.pow_add]
    rw [Nat.mul_assoc]; omega

theorem decNatAux_spec (fuel n : Nat) (h : n < fuel) :
    IsDigits (decNatAux fuel n) ∧ digitsVal (decNatAux fuel n) = n := by
  induction fuel generalizing n with
  | zero => omega
  | succ f ih =>
    unfold decNatAux
    split
    · rename_i hlt
      refine ⟨⟨by simp, ?_⟩, ?_⟩
      · intro b hb
        simp at hb; subst hb
        rw [digitByte_toNat _ hlt]; omega
      · simp [digitsVal, digitByte_toNat _ hlt]
    · rename_i hge
      obtain ⟨hd, hv⟩ := ih (n / 10) (by omega)
      have hmod : n % 10 < 10 := Nat.mod_lt _ (by omega)
      refine ⟨⟨by simp, ?_⟩, ?_⟩
      · intro b hb
        rcases List.mem_append.1 hb with hb | hb
        · exact hd.2 b hb
        · simp at hb; subst hb; rw [digitByte_toNat _ hmod]; omega
      · rw [digitsVal_append, hv]
        simp [digitsVal, digitByte_toNat _ hmod]; omega

theorem decNat_isDigits (n : Nat) : IsDigits (decNat n) := (decNatAux_spec _ _ (by omega)).1
theorem decNat_val (n : Nat) : digitsVal (decNat n) = n := (decNatAux_spec _ _ (by omega)).2

theorem decInt_value (n : Int) : DecValue (decInt n) n := by
  unfold decInt
  split
  · have := DecValue.minus (decNat n.natAbs) (decNat_isDigits _)
    rw [decNat_val] at this
    have hn : -(n.natAbs : Int) = n := by omega
    rwa [hn] at this
  · have := DecValue.plain (decNat n.toNat) (decNat_isDigits _)
    rw [decNat_val] at this
    have hn : (n.toNat : Int) = n := by omega
    rwa [hn] at this

/-- Printing then parsing a 64-bit integer gives it back. -/
theorem parseInt_decInt (n : Int) (h1 : -(2 ^ 63 : Int) ≤ n) (h2 : n < (2 ^ 63 : Int)) :
    parseInt 64 (decInt n) = (n, none) :=
  (parseInt_ok_iff 64 (by omega) _ _).2 ⟨decInt_value n, h1, h2⟩

theorem decNatAux_head (fuel : Nat) : ∀ n, 0 < n → n < fuel → (decNatAux fuel n).head? ≠ some 48 := by
  induction fuel with
  | zero => intro n _ h; omega
  | succ fuel ih =>
    intro n hn h
    unfold decNatAux
    by_cases h10 : n < 10
    · rw [if_pos h10]
      simp only [List.head?_cons, ne_eq, Option.some.injEq]
      intro he
      have := congrArg UInt8.toNat he
      rw [digitByte_toNat n h10] at this
      simp at this
      omega
    · rw [if_neg h10]
      have ih' := ih (n / 10) (by omega) (by omega)
      cases hx : decNatAux fuel (n / 10) with
      | nil =>
        exfalso
        have := (decNatAux_spec fuel (n / 10) (by omega)).1.1
        exact this hx
      | cons c cs => rw [hx] at ih'; simpa using ih'

theorem decNat_numeral (n : Nat) : Numeral (decNat n) n := by
  refine ⟨decNat_isDigits n, decNat_val n, ?_⟩
  intro h
  rcases Nat.eq_zero_or_pos n with rfl | hn
  · rfl
  · exact absurd h (decNatAux_head (n + 1) n hn (by omega))

end Grate
