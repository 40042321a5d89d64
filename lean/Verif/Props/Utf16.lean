import Verif.Model.Unicode
import Verif.Spec.Utf16

/-! # C66: UTF-16 text is decoded faithfully -/

namespace Grate.Props

open Spec

theorem dec_one (u : Nat) : utf16Decode [u] = if 0xD800 ≤ u ∧ u < 0xE000 then [0xFFFD] else [u] := rfl

theorem dec_two (u v : Nat) (rest : List Nat) : utf16Decode (u :: v :: rest) =
    if 0xD800 ≤ u ∧ u < 0xDC00 ∧ 0xDC00 ≤ v ∧ v < 0xE000 then
      ((u - 0xD800) * 1024 + (v - 0xDC00) + 0x10000) :: utf16Decode rest
    else if 0xD800 ≤ u ∧ u < 0xE000 then 0xFFFD :: utf16Decode (v :: rest)
    else u :: utf16Decode (v :: rest) := by
  rw [utf16Decode]; rfl

/-- C66: the decoded UTF-16 form of any text is that text. -/
theorem C66_decode : ∀ (rs : List Nat), (∀ r ∈ rs, Scalar r) → utf16Decode (rs.flatMap units) = rs := by
  intro rs
  induction rs with
  | nil => intro _; rfl
  | cons r rs ih =>
    intro h
    have hr := h r (by simp)
    have ih := ih (fun x hx => h x (by simp [hx]))
    rw [List.flatMap_cons]
    unfold Scalar at hr
    by_cases h16 : r < 0x10000
    · rw [units, if_pos h16]
      have hn : ¬ (0xD800 ≤ r ∧ r < 0xE000) := by omega
      rw [List.cons_append, List.nil_append]
      cases ht : rs.flatMap units with
      | nil =>
        rw [ht] at ih
        rw [dec_one, if_neg hn, ← ih]
        rfl
      | cons v t =>
        rw [ht] at ih
        rw [dec_two, if_neg (by omega), if_neg hn, ih]
    · rw [units, if_neg h16, List.cons_append, List.cons_append, List.nil_append, dec_two, if_pos (by omega), ih]
      congr 1
      omega

/-- Decoding distributes over concatenation, except between the halves of a pair. -/
theorem C66_split (b : List Nat) : ∀ (a : List Nat),
    (∀ u v, a.getLast? = some u → b.head? = some v → ¬ (High u ∧ Low v)) →
    utf16Decode (a ++ b) = utf16Decode a ++ utf16Decode b := by
  intro a
  induction a using utf16Decode.induct with
  | case1 => intro _; rfl
  | case2 u h =>
    intro hab
    cases b with
    | nil => simp [utf16Decode]
    | cons v b =>
      have := hab u v rfl rfl
      unfold High Low at this
      rw [List.cons_append, List.nil_append, dec_two, if_neg (by omega), if_pos h, dec_one, if_pos h]
      rfl
  | case3 u h =>
    intro hab
    cases b with
    | nil => simp [utf16Decode]
    | cons v b =>
      rw [List.cons_append, List.nil_append, dec_two, if_neg (by omega), if_neg h, dec_one, if_neg h]
      rfl
  | case4 u v rest h ih =>
    intro hab
    rw [List.cons_append, List.cons_append, dec_two, if_pos h, dec_two, if_pos h, List.cons_append, ih]
    intro x y hx hy
    cases rest with
    | nil => simp at hx
    | cons w rest => exact hab x y (by simpa using hx) hy
  | case5 u v rest h h2 ih =>
    intro hab
    have ih := ih (fun x y hx hy => hab x y (by simpa using hx) hy)
    rw [List.cons_append] at ih
    rw [List.cons_append, List.cons_append, dec_two, if_neg h, if_pos h2, ih, dec_two, if_neg h, if_pos h2,
      List.cons_append]
  | case6 u v rest h h2 ih =>
    intro hab
    have ih := ih (fun x y hx hy => hab x y (by simpa using hx) hy)
    rw [List.cons_append] at ih
    rw [List.cons_append, List.cons_append, dec_two, if_neg h, if_neg h2, ih, dec_two, if_neg h, if_neg h2,
      List.cons_append]

/-- C66: an unpaired surrogate becomes U+FFFD and everything before and after it is decoded as if it were not
there. -/
theorem C66_unpaired (a b : List Nat) (s : Nat) (hs : High s ∨ Low s)
    (hb : High s → ∀ v, b.head? = some v → ¬ Low v) (ha : Low s → ∀ u, a.getLast? = some u → ¬ High u) :
    utf16Decode (a ++ s :: b) = utf16Decode a ++ 0xFFFD :: utf16Decode b := by
  rw [C66_split (s :: b) a, show s :: b = [s] ++ b from rfl, C66_split b [s]]
  · rw [dec_one, if_pos (by unfold High Low at hs; omega)]
    rfl
  · intro u v hu hv hx
    simp at hu
    subst hu
    exact hb hx.1 v hv hx.2
  · intro u v hu hv hx
    simp at hv
    subst hv
    exact ha hx.2 u hu hx.1

/-- C66: every unit outside the surrogates stands for itself. -/
theorem C66_plain (a b : List Nat) (u : Nat) (hu : ¬ (High u ∨ Low u)) :
    utf16Decode (a ++ u :: b) = utf16Decode a ++ u :: utf16Decode b := by
  unfold High Low at hu
  rw [C66_split (u :: b) a, show u :: b = [u] ++ b from rfl, C66_split b [u]]
  · rw [dec_one, if_neg (by omega)]
    rfl
  · intro x v hx hv hc
    simp at hx
    subst hx
    unfold High Low at hc
    omega
  · intro x v hx hv hc
    simp at hv
    subst hv
    unfold High Low at hc
    omega

theorem utf8Rune_eq (r : Nat) (h : Scalar r) : utf8Rune r = String.utf8EncodeChar (Char.ofNat r) := by
  have hv : r.isValidChar := by
    unfold Scalar at h
    rcases h with h | ⟨h1, h2⟩
    · exact Or.inl (by omega)
    · exact Or.inr ⟨by omega, by omega⟩
  have hn : (Char.ofNat r).val.toNat = r := by
    unfold Char.ofNat
    rw [dif_pos hv]
    rfl
  unfold Scalar at h
  unfold utf8Rune String.utf8EncodeChar
  rw [hn]
  simp only
  by_cases h1 : r < 0x80
  · rw [if_pos h1, if_pos (show r ≤ 127 by omega)]
  · rw [if_neg h1, if_neg (show ¬ r ≤ 127 by omega)]
    by_cases h2 : r < 0x800
    · rw [if_pos h2, if_pos (show r ≤ 2047 by omega), show 192 + r / 64 = r / 64 % 32 + 192 by omega,
        show 128 + r % 64 = r % 64 + 128 by omega]
    · rw [if_neg h2, if_neg (show ¬ r ≤ 2047 by omega), if_neg (by omega)]
      by_cases h3 : r < 0x10000
      · rw [if_pos h3, if_pos (show r ≤ 65535 by omega), show 224 + r / 4096 = r / 4096 % 16 + 224 by omega,
          show 128 + r / 64 % 64 = r / 64 % 64 + 128 by omega, show 128 + r % 64 = r % 64 + 128 by omega]
      · rw [if_neg h3, if_neg (show ¬ r ≤ 65535 by omega), show 240 + r / 262144 = r / 262144 % 8 + 240 by omega,
          show 128 + r / 4096 % 64 = r / 4096 % 64 + 128 by omega,
          show 128 + r / 64 % 64 = r / 64 % 64 + 128 by omega, show 128 + r % 64 = r % 64 + 128 by omega]

/-- C66: the encoded string is the UTF-8 form of the scalars. -/
theorem C66_encode (rs : List Nat) (h : ∀ r ∈ rs, Scalar r) : utf8Encode rs = utf8 rs := by
  unfold utf8Encode utf8
  induction rs with
  | nil => rfl
  | cons r rs ih =>
    rw [List.flatMap_cons, List.flatMap_cons, ih (fun x hx => h x (by simp [hx])), utf8Rune_eq r (h r (by simp))]

/-- C66: from the UTF-16 units in the file to the Go string. -/
theorem C66_text (rs : List Nat) (h : ∀ r ∈ rs, Scalar r) :
    utf8Encode (utf16Decode (rs.flatMap units)) = utf8 rs := by
  rw [C66_decode rs h, C66_encode rs h]

/-- The hypotheses are met: Latin, Greek, Chinese and an emoji; an unpaired surrogate between letters. -/
theorem C66_witness :
    (∀ r ∈ [0x41, 0x3B1, 0x4E2D, 0x1F600], Scalar r) ∧
    [0x41, 0x3B1, 0x4E2D, 0x1F600].flatMap units = [0x41, 0x3B1, 0x4E2D, 0xD83D, 0xDE00] ∧
    utf16Decode [0x41, 0xD83D, 0x42] = [0x41, 0xFFFD, 0x42] := by
  unfold Scalar
  decide +kernel

end Grate.Props
