/-! # Packing and unpacking of binary64 values (core `Float.Model`) -/

namespace Grate.F64

open Float.Model Float.Model.UnpackedFloat

/-- The canonical, in-range unpacked binary64 values. -/
def Canon : UnpackedFloat → Prop
  | .finite _ m e _ => m < 2 ^ 53 ∧ -1074 ≤ e ∧ e ≤ 971 ∧ (2 ^ 52 ≤ m ∨ e = -1074)
  | _ => True

theorem unpackSign_packComponents {spec : Format} {sign exponent mantissa} :
    unpackSign (packComponents spec sign exponent mantissa) = sign.toBitVec := by
  ext i hi
  have : i = 0 := by omega
  subst this
  simp [unpackSign, packComponents, BitVec.getLsbD_append]
  rw [BitVec.getElem_append]
  simp

theorem ofBitVec_toBitVec (s : Sign) : Sign.ofBitVec s.toBitVec = s := by
  cases s <;> rfl

theorem one_append (m : BitVec 52) : (1#1 ++ m).toNat = 2 ^ 52 + m.toNat := by
  rw [BitVec.toNat_append]
  have := m.isLt
  rw [← Nat.shiftLeft_add_eq_or_of_lt this]
  simp [Nat.shiftLeft_eq]

theorem unpack_special (s : Sign) (m : BitVec 52) :
    UnpackedFloat.unpack Format.binary64 (packComponents Format.binary64 s (-1#11) m) =
      if m = 0#52 then .infinity s else .notANumber := by
  unfold UnpackedFloat.unpack
  simp only [unpackMantissa_packComponents, unpackExponent_packComponents,
    unpackSign_packComponents, ofBitVec_toBitVec]
  simp

theorem unpack_small (s : Sign) (m : BitVec 52) :
    UnpackedFloat.unpack Format.binary64 (packComponents Format.binary64 s 0#11 m) =
      if h : m = 0#52 then .zero s
      else .finite s m.toNat (-1074) (by simpa [BitVec.toNat_pos, BitVec.pos_iff_ne_zero]) := by
  unfold UnpackedFloat.unpack
  simp only [unpackMantissa_packComponents, unpackExponent_packComponents,
    unpackSign_packComponents, ofBitVec_toBitVec]
  rw [if_neg (by decide), if_pos trivial]
  split <;> rfl

theorem unpack_normal (s : Sign) (e : BitVec 11) (m : BitVec 52) (h1 : e ≠ -1#11) (h0 : e ≠ 0#11) :
    UnpackedFloat.unpack Format.binary64 (packComponents Format.binary64 s e m) =
      .finite s (2 ^ 52 + m.toNat) ((e.toNat : Int) - 1075) (by omega) := by
  unfold UnpackedFloat.unpack
  simp only [unpackMantissa_packComponents, unpackExponent_packComponents,
    unpackSign_packComponents, ofBitVec_toBitVec]
  rw [if_neg h1, if_neg h0]
  simp only [one_append]
  rfl

theorem log2_of_canon {m : Nat} (h1 : 2 ^ 52 ≤ m) (h2 : m < 2 ^ 53) : m.log2 = 52 :=
  (Nat.log2_eq_iff (by omega)).2 ⟨h1, h2⟩

theorem unpack_pack (u : UnpackedFloat) (h : Canon u) :
    UnpackedFloat.unpack Format.binary64 (UnpackedFloat.pack Format.binary64 u) = u := by
  cases u with
  | notANumber =>
    unfold UnpackedFloat.pack packedNaN
    simp only []
    rw [unpack_special, if_neg (by decide)]
  | infinity s =>
    unfold UnpackedFloat.pack packedInfinity
    simp only []
    rw [unpack_special, if_pos (by decide)]
  | zero s =>
    unfold UnpackedFloat.pack packedZero
    exact unpack_small s 0#52
  | finite s m e hm =>
    obtain ⟨h1, h2, h3, h4⟩ := h
    unfold UnpackedFloat.pack
    have hb : (e + (Format.binary64.exponentBias : Nat) + (Format.binary64.mantissaBitsWithoutImplicit : Nat)).toNat
        = (e + 1075).toNat := by
      have : (Format.binary64.exponentBias : Nat) = 1023 := rfl
      rw [this]; show (e + 1023 + 52).toNat = _; congr 1; omega
    simp only [hb]
    rw [if_neg (show ¬ 2 ^ 11 ≤ (e + 1075).toNat + 1 by omega)]
    by_cases hn : 2 ^ 52 ≤ m
    · have hl := log2_of_canon hn h1
      rw [if_pos (by rw [hl]; rfl)]
      have hlt : (e + 1075).toNat < 2047 := by omega
      have hpos : 0 < (e + 1075).toNat := by omega
      have e1 : (BitVec.ofNat 11 (e + 1075).toNat).toNat = (e + 1075).toNat := by
        rw [BitVec.toNat_ofNat]; omega
      refine (unpack_normal s (BitVec.ofNat 11 (e + 1075).toNat) (BitVec.ofNat 52 m) ?_ ?_).trans ?_
      · intro hc
        have := congrArg BitVec.toNat hc
        rw [e1] at this
        simp at this
        omega
      · intro hc
        have := congrArg BitVec.toNat hc
        rw [e1] at this
        simp at this
        omega
      · have e2 : 2 ^ 52 + (BitVec.ofNat 52 m).toNat = m := by
          rw [BitVec.toNat_ofNat]; omega
        have e3 : ((BitVec.ofNat 11 (e + 1075).toNat).toNat : Int) - 1075 = e := by
          rw [e1]; omega
        simp only [e2, e3]
    · have hl : m.log2 + 1 ≠ 53 := by
        intro hc
        have : m.log2 = 52 := by omega
        have := ((Nat.log2_eq_iff (by omega)).1 this).1
        omega
      rw [if_neg (show ¬ m.log2 + 1 = Format.binary64.mantissaBits from hl)]
      refine (unpack_small s (BitVec.ofNat 52 m)).trans ?_
      have e2 : (BitVec.ofNat 52 m).toNat = m := by
        rw [BitVec.toNat_ofNat]; omega
      rw [dif_neg]
      · have : e = -1074 := by omega
        simp only [e2, this]
      · intro hc
        have := congrArg BitVec.toNat hc
        rw [e2] at this
        simp at this
        omega

/-- Too large values pack to infinity. -/
theorem unpack_pack_overflow (s : Sign) (m : Nat) (e : Int) (hm : 0 < m) (he : 972 ≤ e) :
    UnpackedFloat.unpack Format.binary64 (UnpackedFloat.pack Format.binary64 (.finite s m e hm)) =
      .infinity s := by
  unfold UnpackedFloat.pack
  have hb : (e + (Format.binary64.exponentBias : Nat) + (Format.binary64.mantissaBitsWithoutImplicit : Nat)).toNat
      = (e + 1075).toNat := by
    have : (Format.binary64.exponentBias : Nat) = 1023 := rfl
    rw [this]; show (e + 1023 + 52).toNat = _; congr 1; omega
  simp only [hb]
  rw [if_pos (show 2 ^ 11 ≤ (e + 1075).toNat + 1 by omega)]
  unfold packedInfinity
  rw [unpack_special, if_pos (by decide)]

/-- Every bit pattern unpacks to a canonical value. -/
theorem canon_unpack (b : BitVec 64) : Canon (UnpackedFloat.unpack Format.binary64 b) := by
  unfold UnpackedFloat.unpack
  have hm := (unpackMantissa (spec := Format.binary64) b).isLt
  have he := (unpackExponent (spec := Format.binary64) b).isLt
  simp only []
  split
  · split <;> trivial
  · rename_i h1
    split
    · rename_i h0
      split
      · trivial
      · refine ⟨Nat.lt_of_lt_of_le hm (by decide), ?_, ?_, Or.inr ?_⟩ <;>
        · rw [h0]; decide
    · rename_i h0
      have h1' : (unpackExponent (spec := Format.binary64) b).toNat ≠ 2047 := fun hc =>
        h1 (BitVec.eq_of_toNat_eq (by rw [hc]; decide))
      have h0' : (unpackExponent (spec := Format.binary64) b).toNat ≠ 0 := fun hc =>
        h0 (BitVec.eq_of_toNat_eq (by rw [hc]; decide))
      have hb : (Format.binary64.exponentBias : Nat) = 1023 := rfl
      have e1 := one_append (unpackMantissa (spec := Format.binary64) b)
      have he' : (unpackExponent (spec := Format.binary64) b).toNat < 2048 := he
      have hm' : (unpackMantissa (spec := Format.binary64) b).toNat < 2 ^ 52 := hm
      simp only [Canon, hb]
      refine ⟨?_, ?_, ?_, Or.inl ?_⟩
      · exact e1 ▸ (by omega)
      · omega
      · omega
      · exact e1 ▸ (by omega)

theorem model_unpack_pack (u : UnpackedFloat) (h : Canon u) : (Float.Model.pack u).unpack = u :=
  unpack_pack u h

theorem model_canon (f : Float.Model) : Canon f.unpack := canon_unpack _

end Grate.F64
