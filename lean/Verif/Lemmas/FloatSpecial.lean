import Verif.Lemmas.FloatOrd
import Verif.Model.Dates

/-! # The three float64 values that are not finite -/

namespace Grate.F64

open Float.Model Float.Model.UnpackedFloat

theorem toNat_exponent (b : BitVec 64) :
    (unpackExponent (spec := Format.binary64) b).toNat = b.toNat / 2 ^ 52 % 2 ^ 11 := by
  unfold unpackExponent
  show ((b.extractLsb 62 52).cast _).toNat = _
  simp [BitVec.extractLsb, Nat.shiftRight_eq_div_pow]

theorem toNat_mantissa (b : BitVec 64) :
    (unpackMantissa (spec := Format.binary64) b).toNat = b.toNat % 2 ^ 52 := by
  unfold unpackMantissa
  show ((b.extractLsb 51 0).cast _).toNat = _
  simp [BitVec.extractLsb]

theorem float_ext {x y : Float} (h : x.toModel.toBits = y.toModel.toBits) : x = y := by
  obtain ⟨⟨a, ha⟩⟩ := x
  obtain ⟨⟨b, hb⟩⟩ := y
  simp only at h
  subst h
  rfl

/-- A value that is not finite is NaN or one of the infinities. -/
theorem nonfinite_cases (x : Float) (h : x.isFinite = false) : x = 0 / 0 ∨ x = 1 / 0 ∨ x = -(1 / 0) := by
  have he : unpackExponent (spec := Format.binary64) x.toModel.toBits.toBitVec = -1#11 := by
    by_contra hc
    revert h
    unfold Float.isFinite Float.Model.isFinite Float.Model.unpack UnpackedFloat.unpack UnpackedFloat.isFinite
    rw [if_neg hc]
    by_cases h0 : unpackExponent (spec := Format.binary64) x.toModel.toBits.toBitVec = 0#11
    · rw [if_pos h0]
      by_cases h1 : unpackMantissa (spec := Format.binary64) x.toModel.toBits.toBitVec = 0#52
      · rw [dif_pos h1]; simp
      · rw [dif_neg h1]; simp
    · rw [if_neg h0]; simp
  by_cases hm : unpackMantissa (spec := Format.binary64) x.toModel.toBits.toBitVec = 0#52
  · have e1 := congrArg BitVec.toNat he
    have e2 := congrArg BitVec.toNat hm
    rw [toNat_exponent] at e1
    rw [toNat_mantissa] at e2
    have hlt := x.toModel.toBits.toBitVec.isLt
    have e1' : x.toModel.toBits.toBitVec.toNat / 2 ^ 52 % 2 ^ 11 = 2047 := e1
    have e2' : x.toModel.toBits.toBitVec.toNat % 2 ^ 52 = 0 := e2
    have : x.toModel.toBits.toBitVec.toNat = 2047 * 2 ^ 52 ∨ x.toModel.toBits.toBitVec.toNat = 4095 * 2 ^ 52 := by
      omega
    right
    rcases this with h1 | h1
    · left
      apply float_ext
      apply UInt64.eq_of_toBitVec_eq
      apply BitVec.eq_of_toNat_eq
      rw [h1]
      decide +kernel
    · right
      apply float_ext
      apply UInt64.eq_of_toBitVec_eq
      apply BitVec.eq_of_toNat_eq
      rw [h1]
      decide +kernel
  · left
    have := x.toModel.valid.eq_packedNaN he hm
    apply float_ext
    apply UInt64.eq_of_toBitVec_eq
    rw [this]
    decide +kernel

end Grate.F64
