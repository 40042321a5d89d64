import Verif.Model.GoCrc32
import Verif.Lemmas.CfbSafe

/-! # Lemmas about the checksum: what changes within four bytes do to it -/

namespace Grate.Zip

open Grate

theorem crcPoly_lt : crcPoly < 2 ^ 32 := by decide

theorem crcBit_lt {c : Nat} (h : c < 2 ^ 32) : crcBit c < 2 ^ 32 := by
  unfold crcBit
  split
  · exact Nat.xor_lt_two_pow (by omega) crcPoly_lt
  · omega

theorem xor_cancel {a b c : Nat} (h : a ^^^ c = b ^^^ c) : a = b := by
  have := congrArg (· ^^^ c) h
  simpa only [Nat.xor_assoc, Nat.xor_self, Nat.xor_zero] using this

theorem crcBit_inj {a b : Nat} (ha : a < 2 ^ 32) (hb : b < 2 ^ 32) (h : crcBit a = crcBit b) : a = b := by
  have key : ∀ x y : Nat, x < 2 ^ 32 → y < 2 ^ 32 → (x / 2) ^^^ crcPoly ≠ y / 2 := by
    intro x y hx hy e
    have h1 : ((x / 2) ^^^ crcPoly).testBit 31 = true := by
      rw [Nat.testBit_xor, Nat.testBit_lt_two_pow (x := x / 2) (by omega)]
      decide
    rw [e, Nat.testBit_lt_two_pow (x := y / 2) (by omega)] at h1
    cases h1
  unfold crcBit at h
  split at h <;> split at h
  · have := xor_cancel h
    omega
  · exact absurd h (key a b ha hb)
  · exact absurd h.symm (key b a hb ha)
  · omega

theorem crcBits_lt : ∀ (n : Nat) {c : Nat}, c < 2 ^ 32 → crcBits n c < 2 ^ 32
  | 0, _, h => h
  | n + 1, _, h => crcBits_lt n (crcBit_lt h)

theorem crcBits_inj : ∀ (n : Nat) {a b : Nat}, a < 2 ^ 32 → b < 2 ^ 32 → crcBits n a = crcBits n b → a = b
  | 0, _, _, _, _, h => h
  | n + 1, _, _, ha, hb, h => crcBit_inj ha hb (crcBits_inj n (crcBit_lt ha) (crcBit_lt hb) h)

theorem crcBits_add : ∀ (m n c : Nat), crcBits (m + n) c = crcBits n (crcBits m c)
  | 0, n, c => by rw [Nat.zero_add]; rfl
  | m + 1, n, c => by
    rw [show m + 1 + n = (m + n) + 1 by omega]
    exact crcBits_add m n (crcBit c)

theorem xor_half (a b : Nat) : (a ^^^ b) / 2 = (a / 2) ^^^ (b / 2) := by
  apply Nat.eq_of_testBit_eq
  intro i
  simp only [Nat.testBit_div_two, Nat.testBit_xor]

theorem xor_mod2 (a b : Nat) : (a ^^^ b) % 2 = (a % 2 + b % 2) % 2 := by
  have h : ∀ x : Nat, x.testBit 0 = decide (x % 2 = 1) := fun x => Nat.testBit_zero x
  have := Nat.testBit_xor (x := a) (y := b) (i := 0)
  rw [h, h, h] at this
  rcases Nat.mod_two_eq_zero_or_one a with ha | ha <;> rcases Nat.mod_two_eq_zero_or_one b with hb | hb <;>
    rcases Nat.mod_two_eq_zero_or_one (a ^^^ b) with hc | hc <;> simp_all

/-- The loop is linear. -/
theorem crcBit_xor (a b : Nat) : crcBit (a ^^^ b) = crcBit a ^^^ crcBit b := by
  unfold crcBit
  rw [xor_mod2, xor_half]
  rcases Nat.mod_two_eq_zero_or_one a with ha | ha <;> rcases Nat.mod_two_eq_zero_or_one b with hb | hb
  · simp [ha, hb]
  · simp [ha, hb, Nat.xor_assoc]
  · simp [ha, hb, Nat.xor_assoc, Nat.xor_comm (b / 2)]
  · simp only [ha, hb, if_true]
    rw [if_neg (by decide)]
    rw [Nat.xor_assoc, ← Nat.xor_assoc crcPoly, Nat.xor_comm crcPoly, Nat.xor_assoc (b / 2), Nat.xor_self, Nat.xor_zero]

theorem crcBits_xor : ∀ (n a b : Nat), crcBits n (a ^^^ b) = crcBits n a ^^^ crcBits n b
  | 0, _, _ => rfl
  | n + 1, a, b => by
    show crcBits n (crcBit (a ^^^ b)) = _
    rw [crcBit_xor]
    exact crcBits_xor n _ _

/-- Zero bits at the low end are shifted out. -/
theorem crcBits_shift : ∀ (n h : Nat), crcBits n (2 ^ n * h) = h
  | 0, h => by simp [crcBits]
  | n + 1, h => by
    show crcBits n (crcBit (2 ^ (n + 1) * h)) = h
    have e : 2 ^ (n + 1) * h = 2 * (2 ^ n * h) := by rw [Nat.pow_succ]; simp only [Nat.mul_comm, Nat.mul_left_comm]
    have : crcBit (2 ^ (n + 1) * h) = 2 ^ n * h := by
      unfold crcBit
      rw [e, if_neg (by omega)]
      omega
    rw [this]
    exact crcBits_shift n h

/-- Without carries, a sum is an exclusive or. -/
theorem add_xor (n a h : Nat) (ha : a < 2 ^ n) : 2 ^ n * h + a = 2 ^ n * h ^^^ a := by
  apply Nat.eq_of_testBit_eq
  intro i
  rw [Nat.testBit_xor, Nat.testBit_two_pow_mul_add _ ha, Nat.testBit_two_pow_mul]
  by_cases hi : i < n
  · rw [if_pos hi]
    simp only [show ¬ i ≥ n by omega, decide_false, Bool.false_and, Bool.false_xor]
  · rw [if_neg hi, Nat.testBit_lt_two_pow (x := a) (Nat.lt_of_lt_of_le ha (Nat.pow_le_pow_right (by omega) (by omega)))]
    simp only [show i ≥ n by omega, decide_true, Bool.true_and, Bool.xor_false]

theorem crcByte_eq (c : Nat) (v : UInt8) : crcByte c v = crcBits 8 (c ^^^ v.toNat) := by
  have hc : c = 2 ^ 8 * (c / 256) ^^^ (c % 256) := by
    rw [← add_xor 8 _ _ (by omega)]
    omega
  have h1 : c ^^^ v.toNat = 2 ^ 8 * (c / 256) ^^^ (c % 256 ^^^ v.toNat) := by
    rw [← Nat.xor_assoc, ← hc]
  rw [h1, crcBits_xor, crcBits_shift]
  unfold crcByte crcTable
  exact Nat.xor_comm _ _

/-- Several bytes at once: the checksum before them, changed by the number they make, goes through the loop. -/
theorem fold_eq : ∀ (bs : Bytes) (c : Nat), bs.foldl crcByte c = crcBits (8 * bs.length) (c ^^^ Cfb.leNat bs)
  | [], c => by simp [crcBits, Cfb.leNat]
  | b :: bs, c => by
    rw [List.foldl_cons, fold_eq bs, crcByte_eq]
    have e : c ^^^ Cfb.leNat (b :: bs) = (c ^^^ b.toNat) ^^^ 2 ^ 8 * Cfb.leNat bs := by
      have : Cfb.leNat (b :: bs) = 2 ^ 8 * Cfb.leNat bs + b.toNat := by show b.toNat + 256 * Cfb.leNat bs = _; omega
      rw [this, add_xor 8 _ _ (UInt8.toNat_lt b), Nat.xor_comm (2 ^ 8 * Cfb.leNat bs), Nat.xor_assoc]
    rw [e, show 8 * (b :: bs).length = 8 + 8 * bs.length by simp; omega, crcBits_add, crcBits_xor 8 (c ^^^ b.toNat),
      crcBits_shift]

theorem crcByte_lt {c : Nat} (h : c < 2 ^ 32) (v : UInt8) : crcByte c v < 2 ^ 32 := by
  rw [crcByte_eq]
  exact crcBits_lt 8 (Nat.xor_lt_two_pow h (Nat.lt_of_lt_of_le (UInt8.toNat_lt v) (by decide)))

theorem fold_lt : ∀ (bs : Bytes) {c : Nat}, c < 2 ^ 32 → bs.foldl crcByte c < 2 ^ 32
  | [], _, h => h
  | b :: bs, _, h => fold_lt bs (crcByte_lt h b)

theorem goCrc32_lt (bs : Bytes) : goCrc32 bs < 2 ^ 32 := Nat.xor_lt_two_pow (fold_lt bs (by decide)) (by decide)

/-- What has different checksums before some bytes has different checksums after them. -/
theorem fold_inj : ∀ (bs : Bytes) {a b : Nat}, a < 2 ^ 32 → b < 2 ^ 32 → bs.foldl crcByte a = bs.foldl crcByte b → a = b
  | [], _, _, _, _, h => h
  | v :: bs, a, b, ha, hb, h => by
    have h1 := fold_inj bs (crcByte_lt ha v) (crcByte_lt hb v) h
    rw [crcByte_eq, crcByte_eq] at h1
    have hv : v.toNat < 2 ^ 32 := Nat.lt_of_lt_of_le (UInt8.toNat_lt v) (by decide)
    exact xor_cancel (crcBits_inj 8 (Nat.xor_lt_two_pow ha hv) (Nat.xor_lt_two_pow hb hv) h1)

theorem leNat_inj : ∀ {a b : Bytes}, a.length = b.length → Cfb.leNat a = Cfb.leNat b → a = b
  | [], [], _, _ => rfl
  | x :: a, y :: b, hl, h => by
    simp only [Cfb.leNat] at h
    have hx := UInt8.toNat_lt x
    have hy := UInt8.toNat_lt y
    have h1 : x = y := UInt8.toNat_inj.1 (by omega)
    have h2 : a = b := leNat_inj (by simpa using hl) (by omega)
    rw [h1, h2]

/-- Changes within four bytes change the checksum. -/
theorem crc_burst {pre post a b : Bytes} (hl : a.length = b.length) (h4 : a.length ≤ 4)
    (h : goCrc32 (pre ++ (a ++ post)) = goCrc32 (pre ++ (b ++ post))) : a = b := by
  have h1 := xor_cancel h
  simp only [List.foldl_append] at h1
  have hs : pre.foldl crcByte 0xffffffff < 2 ^ 32 := fold_lt pre (by decide)
  have h2 := fold_inj post (fold_lt a hs) (fold_lt b hs) h1
  generalize pre.foldl crcByte 0xffffffff = s at hs h2
  rw [fold_eq a, fold_eq b, ← hl] at h2
  have hlt : ∀ x : Bytes, x.length ≤ 4 → Cfb.leNat x < 2 ^ 32 := by
    intro x hx
    refine Nat.lt_of_lt_of_le (Cfb.leNat_lt x) ?_
    exact Nat.le_trans (Nat.pow_le_pow_right (by decide) hx) (by decide)
  have h3 := crcBits_inj _ (Nat.xor_lt_two_pow hs (hlt a h4)) (Nat.xor_lt_two_pow hs (hlt b (by omega))) h2
  rw [Nat.xor_comm, Nat.xor_comm _ (Cfb.leNat b)] at h3
  exact leNat_inj hl (xor_cancel h3)

/-- Five bytes can be changed without changing the checksum. -/
theorem crc_five (pre post : Bytes) (a b c d e : UInt8) :
    goCrc32 (pre ++ ([a, b, c, d, e] ++ post)) =
      goCrc32 (pre ++ ([a ^^^ 0x41, b ^^^ 0x06, c ^^^ 0x71, d ^^^ 0xdb, e ^^^ 0x01] ++ post)) := by
  have hx : ∀ (x y : UInt8) (m n : Nat), (x ^^^ y).toNat + 256 * (m ^^^ n) = (x.toNat + 256 * m) ^^^ (y.toNat + 256 * n) := by
    intro x y m n
    have e1 : ∀ (x : UInt8) (m : Nat), x.toNat + 256 * m = 2 ^ 8 * m ^^^ x.toNat := by
      intro x m
      rw [← add_xor 8 _ _ (UInt8.toNat_lt x)]
      omega
    have e2 : 2 ^ 8 * (m ^^^ n) = 2 ^ 8 * m ^^^ 2 ^ 8 * n := by
      apply Nat.eq_of_testBit_eq
      intro i
      simp only [Nat.testBit_two_pow_mul, Nat.testBit_xor]
      cases decide (i ≥ 8) <;> simp
    rw [e1, e1, e1, e2, UInt8.toNat_xor]
    simp only [Nat.xor_assoc]
    congr 1
    rw [← Nat.xor_assoc, Nat.xor_comm (2 ^ 8 * n), Nat.xor_assoc]
  have hle : Cfb.leNat [a ^^^ 0x41, b ^^^ 0x06, c ^^^ 0x71, d ^^^ 0xdb, e ^^^ 0x01] =
      Cfb.leNat [a, b, c, d, e] ^^^ 0x1db710641 := by
    have h5 := hx e 0x01 0 0
    simp only [Nat.xor_self] at h5
    simp only [Cfb.leNat]
    rw [h5, hx, hx, hx, hx]
    rfl
  unfold goCrc32
  simp only [List.foldl_append]
  congr 2
  generalize pre.foldl crcByte 0xffffffff = s
  rw [fold_eq [a, b, c, d, e], fold_eq, hle, ← Nat.xor_assoc]
  show crcBits 40 _ = crcBits 40 _
  rw [crcBits_xor 40 (_ ^^^ Cfb.leNat [a, b, c, d, e])]
  rw [show crcBits 40 0x1db710641 = 0 by decide, Nat.xor_zero]

end Grate.Zip
