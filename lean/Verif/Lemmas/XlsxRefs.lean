import Verif.Lemmas.Decimal
import Verif.Model.XlsxRefs
import Verif.Spec.XlsxRefs

/-! # Lemmas about A1 references -/

namespace Grate.Xlsx

open Grate Grate.Spec

theorem int64_id {n : Int} (h1 : -(2 ^ 63 : Int) ≤ n) (h2 : n < 2 ^ 63) : int64 n = n := by
  unfold int64
  exact Int.bmod_eq_of_le (by omega) (by omega)

theorem runes_ascii : ∀ s : Bytes, (∀ b ∈ s, b.toNat < 128) → runes s = s.map UInt8.toNat := by
  intro s
  induction s with
  | nil => intro _; rfl
  | cons b s ih =>
    intro h
    have hb := h b (by simp)
    have hd : decodeRune b s = (b.toNat, 1) := by
      unfold decodeRune
      rw [if_pos (by rw [UInt8.lt_iff_toNat_lt]; simpa using hb)]
    have hi := ih (fun x hx => h x (by simp [hx]))
    unfold runes at *
    rw [runesFrom, hd, List.map_cons, ← hi]
    rfl

theorem lettersVal_append (s : Bytes) (b : UInt8) : lettersVal (s ++ [b]) = lettersVal s * 26 + (b.toNat - 64) := by
  induction s with
  | nil => simp [lettersVal]
  | cons x s ih =>
    rw [List.cons_append, lettersVal, lettersVal, ih, List.length_append, List.length_singleton, Nat.pow_succ]
    rw [Nat.add_mul, Nat.add_assoc, Nat.mul_assoc]

theorem lettersVal_bound (s : Bytes) (h : ∀ b ∈ s, b.toNat ≤ 90) : lettersVal s < 27 * 26 ^ s.length := by
  induction s with
  | nil => simp [lettersVal]
  | cons b s ih =>
    have := ih (fun x hx => h x (by simp [hx]))
    have hb := h b (by simp)
    rw [lettersVal, List.length_cons, Nat.pow_succ]
    have h2 : (b.toNat - 64) * 26 ^ s.length ≤ 26 * 26 ^ s.length := Nat.mul_le_mul_right _ (by omega)
    have h3 : 1 ≤ 26 ^ s.length := Nat.one_le_pow _ _ (by omega)
    omega

theorem col2intLoop_spec : ∀ (s : Bytes) (idx : Nat), (∀ b ∈ s, 65 ≤ b.toNat ∧ b.toNat ≤ 90) →
    idx * 26 ^ s.length + lettersVal s < 2 ^ 63 →
    col2intLoop (idx : Int) (s.map UInt8.toNat) = ((idx * 26 ^ s.length + lettersVal s : Nat) : Int) := by
  intro s
  induction s with
  | nil => intro idx _ _; simp [col2intLoop, lettersVal]
  | cons b s ih =>
    intro idx h hlt
    have hb := h b (by simp)
    have hlen : idx * 26 ^ (s.length + 1) = (idx * 26) * 26 ^ s.length := by
      rw [Nat.pow_succ, Nat.mul_comm (26 ^ s.length) 26, Nat.mul_assoc]
    rw [List.length_cons, lettersVal, hlen] at hlt ⊢
    have hone : 1 ≤ 26 ^ s.length := Nat.one_le_pow _ _ (by omega)
    have hsum : (idx * 26 + (b.toNat - 64)) * 26 ^ s.length + lettersVal s < 2 ^ 63 := by
      rw [Nat.add_mul]; omega
    have hsmall : idx * 26 + (b.toNat - 64) < 2 ^ 63 := by
      have : idx * 26 + (b.toNat - 64) ≤ (idx * 26 + (b.toNat - 64)) * 26 ^ s.length := Nat.le_mul_of_pos_right _ (by omega)
      omega
    rw [List.map_cons, col2intLoop]
    have e1 : int64 ((idx : Int) * 26) = ((idx * 26 : Nat) : Int) := by
      rw [int64_id (by omega) (by omega)]; push_cast; rfl
    rw [e1]
    have e2 : int64 (((idx * 26 : Nat) : Int) + ((b.toNat : Int) - 64)) = ((idx * 26 + (b.toNat - 64) : Nat) : Int) := by
      rw [int64_id (by omega) (by omega)]; omega
    rw [e2, ih _ (fun x hx => h x (by simp [hx])) hsum, Nat.add_mul]
    rw [Nat.add_assoc]

theorem col2int_spec {s : Bytes} {c : Nat} (h : ColumnName s c) (hc : c < 2 ^ 63 - 1) : col2int s = c := by
  obtain ⟨_, hb, hv⟩ := h
  unfold col2int
  rw [runes_ascii s (fun b hx => by have := hb b hx; omega)]
  have := col2intLoop_spec s 0 hb (by omega)
  rw [show ((0 : Nat) : Int) = 0 from rfl] at this
  rw [this, int64_id (by omega) (by omega)]
  omega

theorem parseInt_numeral {ds : Bytes} {n : Nat} (h : Numeral ds n) (hn : n < 2 ^ 63) : (parseInt 64 ds).1 = n := by
  have := (parseInt_ok_iff 64 (by omega) ds (n : Int)).2 ⟨by rw [← h.2.1]; exact .plain ds h.1, by omega, by
    have : (2 : Int) ^ (64 - 1) = 9223372036854775808 := by decide
    omega⟩
  rw [this]

theorem findIdx_first {p : UInt8 → Bool} : ∀ (s ds : Bytes) (d : UInt8), (∀ b ∈ s, p b = false) → p d = true →
    (s ++ d :: ds).findIdx? p = some s.length := by
  intro s
  induction s with
  | nil => intro ds d _ hd; simp [List.findIdx?_cons, hd]
  | cons b s ih =>
    intro ds d h hd
    rw [List.cons_append, List.findIdx?_cons, h b (by simp)]
    rw [ih ds d (fun x hx => h x (by simp [hx])) hd]
    simp

theorem digit_iff (b : UInt8) : isDigit b = true ↔ 48 ≤ b.toNat ∧ b.toNat ≤ 57 := by
  unfold isDigit
  simp [UInt8.le_iff_toNat_le]

/-- Letters and digits of a reference. -/
theorem refToIndexes_parts {s ds : Bytes} (hs : s ≠ []) (hl : ∀ b ∈ s, 65 ≤ b.toNat ∧ b.toNat ≤ 90) (hd : IsDigits ds) :
    refToIndexes (s ++ ds) = .ok (col2int s, int64 ((parseInt 64 ds).1 - 1)) := by
  obtain ⟨hd0, hd1⟩ := hd
  have hlen : 2 ≤ (s ++ ds).length := by
    have := List.length_pos_iff.2 hs
    have := List.length_pos_iff.2 hd0
    rw [List.length_append]; omega
  have hi : indexDigit (s ++ ds) = some s.length := by
    obtain ⟨d, ds', rfl⟩ := List.exists_cons_of_ne_nil hd0
    apply findIdx_first
    · intro b hb
      have := hl b hb
      have h2 := digit_iff b
      cases hx : isDigit b
      · rfl
      · have := h2.1 hx; omega
    · exact (digit_iff d).2 (hd1 d (by simp))
  have hC : indexByte 67 ds = none := by
    unfold indexByte
    rw [List.findIdx?_eq_none_iff]
    intro x hx
    have := hd1 x hx
    simp only [beq_eq_false_iff_ne, ne_eq]
    rintro rfl
    revert this
    decide
  unfold refToIndexes
  rw [if_neg (by omega), hi]
  obtain ⟨k, hk⟩ : ∃ k, s.length = k + 1 := ⟨s.length - 1, by have := List.length_pos_iff.2 hs; omega⟩
  simp only [hk]
  rw [← hk, List.drop_left, List.take_left, hC]

theorem refToIndexes_a1 {c r : Nat} {s : Bytes} (h : A1 c r s) (hc : c < 2 ^ 63 - 1) (hr : r < 2 ^ 63 - 1) :
    refToIndexes s = .ok ((c : Int), (r : Int)) := by
  obtain ⟨s, ds, h1, h2⟩ := h
  rw [refToIndexes_parts h1.1 h1.2.1 h2.1, col2int_spec h1 hc, parseInt_numeral h2 (by omega)]
  rw [int64_id (by omega) (by omega)]
  congr 2
  omega

/-! ### Every column has exactly one name -/

/-- The letters of a column. -/
def colName (n : Nat) : Bytes :=
  if h : n < 26 then [UInt8.ofNat (65 + n)] else colName (n / 26 - 1) ++ [UInt8.ofNat (65 + n % 26)]
termination_by n
decreasing_by omega

theorem letter_toNat (k : Nat) (h : k < 26) : (UInt8.ofNat (65 + k)).toNat = 65 + k := by
  simp; omega

theorem colName_spec (n : Nat) : ColumnName (colName n) n := by
  induction n using Nat.strongRecOn with
  | ind n ih =>
    rw [colName]
    split
    · rename_i h
      refine ⟨by simp, ?_, ?_⟩
      · intro b hb
        rw [List.mem_singleton] at hb
        subst hb
        rw [letter_toNat n h]; omega
      · rw [lettersVal, lettersVal, letter_toNat n h]; simp; omega
    · rename_i h
      obtain ⟨h1, h2, h3⟩ := ih (n / 26 - 1) (by omega)
      have hm := letter_toNat (n % 26) (Nat.mod_lt _ (by omega))
      refine ⟨by simp, ?_, ?_⟩
      · intro b hb
        rw [List.mem_append, List.mem_singleton] at hb
        rcases hb with hb | rfl
        · exact h2 b hb
        · rw [hm]; omega
      · rw [lettersVal_append, h3, hm]; omega

theorem lettersVal_pos {s : Bytes} (h0 : s ≠ []) (h : ∀ b ∈ s, 65 ≤ b.toNat ∧ b.toNat ≤ 90) : 1 ≤ lettersVal s := by
  obtain ⟨b, s', rfl⟩ := List.exists_cons_of_ne_nil h0
  have := h b (by simp)
  rw [lettersVal]
  have h3 : 1 ≤ 26 ^ s'.length := Nat.one_le_pow _ _ (by omega)
  have : 26 ^ s'.length ≤ (b.toNat - 64) * 26 ^ s'.length := Nat.le_mul_of_pos_left _ (by omega)
  omega

theorem letters_inj : ∀ (n : Nat) (s t : Bytes), s.length = n → (∀ b ∈ s, 65 ≤ b.toNat ∧ b.toNat ≤ 90) →
    (∀ b ∈ t, 65 ≤ b.toNat ∧ b.toNat ≤ 90) → lettersVal s = lettersVal t → s = t := by
  intro n
  induction n with
  | zero =>
    intro s t hn _ ht h
    have : s = [] := List.eq_nil_of_length_eq_zero hn
    subst this
    by_cases h0 : t = []
    · exact h0.symm
    · have := lettersVal_pos h0 ht
      rw [← h] at this
      simp [lettersVal] at this
  | succ n ih =>
    intro s t hn hs ht h
    have hs0 : s ≠ [] := by intro h0; subst h0; simp at hn
    have ht0 : t ≠ [] := by
      intro h0; subst h0
      have := lettersVal_pos hs0 hs
      rw [h] at this
      simp [lettersVal] at this
    rw [← List.dropLast_concat_getLast hs0, ← List.dropLast_concat_getLast ht0] at h ⊢
    rw [lettersVal_append, lettersVal_append] at h
    have l1 := hs _ (List.getLast_mem hs0)
    have l2 := ht _ (List.getLast_mem ht0)
    have hlast : s.getLast hs0 = t.getLast ht0 := by
      apply UInt8.toNat_inj.1
      omega
    have hv : lettersVal s.dropLast = lettersVal t.dropLast := by
      rw [hlast] at h
      omega
    have := ih s.dropLast t.dropLast (by simp [hn]) (fun b hb => hs b (List.dropLast_subset s hb))
      (fun b hb => ht b (List.dropLast_subset t hb)) hv
    rw [this, hlast]

/-! ### Numerals are unique -/

theorem digitsVal_lt (s : Bytes) (h : ∀ b ∈ s, 48 ≤ b.toNat ∧ b.toNat ≤ 57) : digitsVal s < 10 ^ s.length := by
  induction s with
  | nil => simp [digitsVal]
  | cons b s ih =>
    have := ih (fun x hx => h x (by simp [hx]))
    have hb := h b (by simp)
    rw [digitsVal, List.length_cons, Nat.pow_succ]
    have h2 : (b.toNat - 48) * 10 ^ s.length ≤ 9 * 10 ^ s.length := Nat.mul_le_mul_right _ (by omega)
    omega

theorem digits_inj : ∀ (s t : Bytes), s.length = t.length → (∀ b ∈ s, 48 ≤ b.toNat ∧ b.toNat ≤ 57) →
    (∀ b ∈ t, 48 ≤ b.toNat ∧ b.toNat ≤ 57) → digitsVal s = digitsVal t → s = t := by
  intro s
  induction s with
  | nil => intro t hl _ _ _; exact (List.eq_nil_of_length_eq_zero hl.symm).symm
  | cons a s ih =>
    intro t hl hs ht hv
    cases t with
    | nil => simp at hl
    | cons b t =>
      simp only [List.length_cons, Nat.add_right_cancel_iff] at hl
      have ha := hs a (by simp)
      have hb := ht b (by simp)
      have h1 := digitsVal_lt s (fun x hx => hs x (by simp [hx]))
      have h2 := digitsVal_lt t (fun x hx => ht x (by simp [hx]))
      rw [digitsVal, digitsVal, hl] at hv
      rw [hl] at h1
      have hpos : 0 < 10 ^ t.length := by omega
      have hq : a.toNat - 48 = b.toNat - 48 := by
        have e1 : ((a.toNat - 48) * 10 ^ t.length + digitsVal s) / 10 ^ t.length = a.toNat - 48 := by
          rw [Nat.mul_comm, Nat.mul_add_div hpos, Nat.div_eq_of_lt h1, Nat.add_zero]
        have e2 : ((b.toNat - 48) * 10 ^ t.length + digitsVal t) / 10 ^ t.length = b.toNat - 48 := by
          rw [Nat.mul_comm, Nat.mul_add_div hpos, Nat.div_eq_of_lt h2, Nat.add_zero]
        rw [hv, e2] at e1
        omega
      have hab : a = b := UInt8.toNat_inj.1 (by omega)
      subst hab
      rw [ih t hl (fun x hx => hs x (by simp [hx])) (fun x hx => ht x (by simp [hx])) (by omega)]

theorem digitsVal_ge {s : Bytes} (h : IsDigits s) (h0 : s.head? ≠ some 48) : 10 ^ (s.length - 1) ≤ digitsVal s := by
  obtain ⟨hne, hd⟩ := h
  obtain ⟨b, s', rfl⟩ := List.exists_cons_of_ne_nil hne
  have hb := hd b (by simp)
  have h1 : b.toNat ≠ 48 := by
    intro h
    apply h0
    rw [List.head?_cons]
    congr 1
    exact UInt8.toNat_inj.1 h
  rw [digitsVal, List.length_cons, Nat.add_sub_cancel]
  have : 10 ^ s'.length ≤ (b.toNat - 48) * 10 ^ s'.length := Nat.le_mul_of_pos_left _ (by omega)
  omega

theorem numeral_unique {s t : Bytes} {n : Nat} (hs : Numeral s (n + 1)) (ht : Numeral t (n + 1)) : s = t := by
  have nz : ∀ u : Bytes, Numeral u (n + 1) → u.head? ≠ some 48 := by
    intro u hu h
    have h1 := hu.2.2 h
    have h2 := hu.2.1
    rw [h1] at h2
    simp [digitsVal] at h2
  have g1 := digitsVal_ge hs.1 (nz s hs)
  have g2 := digitsVal_ge ht.1 (nz t ht)
  have l1 := digitsVal_lt s hs.1.2
  have l2 := digitsVal_lt t ht.1.2
  have p1 := List.length_pos_iff.2 hs.1.1
  have p2 := List.length_pos_iff.2 ht.1.1
  rw [hs.2.1] at g1 l1
  rw [ht.2.1] at g2 l2
  refine digits_inj s t ?_ hs.1.2 ht.1.2 (by rw [hs.2.1, ht.2.1])
  have a1 : s.length - 1 < t.length := (Nat.pow_lt_pow_iff_right (by decide : 1 < 10)).1 (by omega)
  have a2 : t.length - 1 < s.length := (Nat.pow_lt_pow_iff_right (by decide : 1 < 10)).1 (by omega)
  omega

/-- Letters and digits can be told apart. -/
theorem split_unique : ∀ (s t ds es : Bytes), (∀ b ∈ s, 65 ≤ b.toNat) → (∀ b ∈ t, 65 ≤ b.toNat) →
    (∀ b ∈ ds, b.toNat ≤ 57) → (∀ b ∈ es, b.toNat ≤ 57) → s ++ ds = t ++ es → s = t ∧ ds = es := by
  intro s
  induction s with
  | nil =>
    intro t ds es _ ht hd _ h
    cases t with
    | nil => exact ⟨rfl, h⟩
    | cons b t =>
      exfalso
      have h1 := ht b (by simp)
      have h2 := hd b (by rw [show ds = [] ++ ds from rfl, h]; simp)
      omega
  | cons a s ih =>
    intro t ds es hs ht hd he h
    cases t with
    | nil =>
      exfalso
      have h1 := hs a (by simp)
      have h2 := he a (by rw [show es = [] ++ es from rfl, ← h]; simp)
      omega
    | cons b t =>
      rw [List.cons_append, List.cons_append, List.cons.injEq] at h
      obtain ⟨h1, h2⟩ := ih t ds es (fun x hx => hs x (by simp [hx])) (fun x hx => ht x (by simp [hx])) hd he h.2
      exact ⟨by rw [h.1, h1], h2⟩

theorem a1_parts {c r c' r' : Nat} {s t : Bytes} (hs : A1 c r s) (ht : A1 c' r' t) (h : s = t) : c = c' ∧ r = r' := by
  obtain ⟨s, ds, h1, h2⟩ := hs
  obtain ⟨t, es, h3, h4⟩ := ht
  obtain ⟨e1, e2⟩ := split_unique s t ds es (fun b hb => (h1.2.1 b hb).1) (fun b hb => (h3.2.1 b hb).1)
    (fun b hb => (h2.1.2 b hb).2) (fun b hb => (h4.1.2 b hb).2) h
  subst e1 e2
  have a := h1.2.2
  have b := h3.2.2
  have c := h2.2.1
  have d := h4.2.1
  omega

theorem a1_unique {c r : Nat} {s t : Bytes} (hs : A1 c r s) (ht : A1 c r t) : s = t := by
  obtain ⟨s, ds, h1, h2⟩ := hs
  obtain ⟨t, es, h3, h4⟩ := ht
  rw [letters_inj _ s t rfl h1.2.1 h3.2.1 (by rw [h1.2.2, h3.2.2]), numeral_unique h2 h4]

theorem a1_exists (c r : Nat) : ∃ s, A1 c r s := ⟨_, .mk _ _ (colName_spec c) (decNat_numeral (r + 1))⟩

end Grate.Xlsx
