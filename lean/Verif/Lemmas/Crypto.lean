import Verif.Lemmas.CfbLoad
import Verif.Model.Crypto
import Verif.Spec.Crypto

/-! # Lemmas about the RC4 writer -/

namespace Grate.Crypto

open Spec

theorem put16_eq (n : Nat) : put16 n = leBytes 2 n := rfl

theorem put32_eq (n : Nat) : put32 n = leBytes 4 n := by
  unfold put32 put16
  simp only [leBytes, List.cons_append, List.nil_append]
  rw [show n % 65536 % 256 = n % 256 by omega, show n % 65536 / 256 % 256 = n / 256 % 256 by omega,
    show n / 65536 % 65536 % 256 = n / 256 / 256 % 256 by omega,
    show n / 65536 % 65536 / 256 % 256 = n / 256 / 256 / 256 % 256 by omega]

theorem xorKs_length (f : Nat → UInt8) : ∀ (b : Bytes) (i : Nat), (xorKs f i b).length = b.length := by
  intro b
  induction b with
  | nil => intro i; rfl
  | cons x b ih => intro i; simp [xorKs, ih]

theorem xorKs_append (f : Nat → UInt8) : ∀ (a b : Bytes) (i : Nat),
    xorKs f i (a ++ b) = xorKs f i a ++ xorKs f (i + a.length) b := by
  intro a
  induction a with
  | nil => intro b i; rfl
  | cons x a ih =>
    intro b i
    simp only [List.cons_append, xorKs, ih, List.length_cons]
    rw [show i + 1 + a.length = i + (a.length + 1) by omega]

theorem xorKs_mapIdx (f : Nat → UInt8) : ∀ (b : Bytes) (i : Nat),
    xorKs f i b = b.mapIdx (fun k x => x ^^^ f (i + k)) := by
  intro b
  induction b with
  | nil => intro i; rfl
  | cons x b ih =>
    intro i
    rw [xorKs, ih, List.mapIdx_cons]
    congr 1
    congr 1
    funext k y
    rw [show i + 1 + k = i + (k + 1) by omega]

theorem xorKs_eq_stream (f : Nat → UInt8) (b : Bytes) : xorKs f 0 b = xorStream f b := by
  rw [xorKs_mapIdx]
  unfold xorStream
  simp only [Nat.zero_add]

/-- The key stream for the encryption key `K`. -/
def streamOf (p : Prims) (K : Bytes) (k : Nat) : UInt8 :=
  p.rc4 (p.md5 (K.take 5 ++ leBytes 4 (k / 1024 % 2 ^ 32))) (k % 1024)

theorem xorKs_block (p : Prims) (K : Bytes) (n : Nat) : ∀ (b : Bytes) (i : Nat), i + b.length ≤ 1024 →
    xorKs (p.rc4 (p.md5 (K.take 5 ++ leBytes 4 (n % 2 ^ 32)))) i b = xorKs (streamOf p K) (1024 * n + i) b := by
  intro b
  induction b with
  | nil => intro i _; rfl
  | cons x b ih =>
    intro i h
    rw [List.length_cons] at h
    rw [xorKs, xorKs, ih (i + 1) (by omega)]
    congr 2
    unfold streamOf
    rw [show (1024 * n + i) / 1024 = n by omega, show (1024 * n + i) % 1024 = i by omega]

/-- The encryption key that the state uses is `K`. -/
def KeyIs (p : Prims) (d : Rc4) (K : Bytes) : Prop :=
  5 ≤ K.length ∧ (d.encKey = some K ∨
    d.encKey = none ∧ generateStd97Key p (defaultPassword.map UInt8.toNat) d.salt = .ok K)

theorem startBlock_eq {p : Prims} {d : Rc4} {K : Bytes} (h : KeyIs p d K) :
    startBlock p d = .ok ({ d with encKey := some K }, p.rc4 (p.md5 (K.take 5 ++ leBytes 4 d.block))) := by
  obtain ⟨hl, h | ⟨h, hg⟩⟩ := h
  · unfold startBlock
    rw [h]
    simp only [GoRes.pure_eq, GoRes.ok_bind, h]
    rw [if_neg (by omega), put32_eq]
    congr 1
    cases d
    simp only at h
    subst h
    rfl
  · unfold startBlock setPassword
    rw [h]
    simp only [hg, GoRes.pure_eq, GoRes.ok_bind]
    rw [if_neg (by omega), put32_eq]

/-- `d` is the state after the bytes `W` were written to a fresh writer with key `K`. -/
structure Rep (p : Prims) (K : Bytes) (d : Rc4) (W : Bytes) : Prop where
  key : KeyIs p d K
  len : d.bytes.length = 1024
  offset : d.offset = W.length % 1024
  block : d.block = W.length / 1024 % 2 ^ 32
  pending : d.bytes.take d.offset = W.drop (1024 * (W.length / 1024))
  buf : d.buf = xorKs (streamOf p K) 0 (W.take (1024 * (W.length / 1024)))

theorem flush_rep {p : Prims} {K : Bytes} {d : Rc4} {W : Bytes} (h : Rep p K d W) :
    ∃ d', flush p d = .ok d' ∧ d'.buf = xorKs (streamOf p K) 0 W := by
  have ho := h.offset
  have hlt : d.offset < 1024 := by omega
  unfold flush
  rw [if_neg (by omega)]
  simp only [startBlock_eq h.key, GoRes.ok_bind, GoRes.pure_eq]
  refine ⟨_, rfl, ?_⟩
  simp only
  rw [h.block, h.pending, h.buf]
  have hpl : (W.drop (1024 * (W.length / 1024))).length = d.offset := by rw [List.length_drop]; omega
  have ht : (xorKs (p.rc4 (p.md5 (K.take 5 ++ leBytes 4 (W.length / 1024 % 2 ^ 32)))) 0
      (W.drop (1024 * (W.length / 1024)) ++ List.replicate (1024 - d.offset) 0)).take d.offset =
      xorKs (streamOf p K) (1024 * (W.length / 1024)) (W.drop (1024 * (W.length / 1024))) := by
    rw [xorKs_append, List.take_append_of_le_length (by rw [xorKs_length, hpl]; omega),
      List.take_of_length_le (by rw [xorKs_length, hpl]; omega),
      xorKs_block p K _ _ 0 (by rw [hpl]; omega), Nat.add_zero]
  rw [show 1024 - (1024 - d.offset) = d.offset by omega, ht]
  conv => rhs; rw [← List.take_append_drop (1024 * (W.length / 1024)) W]
  rw [xorKs_append, List.length_take, Nat.min_eq_left (by omega), Nat.zero_add]

/-- A full block. -/
theorem flush_full {p : Prims} {K : Bytes} {d : Rc4} {W : Bytes} (hkey : KeyIs p d K) (hlen : d.bytes.length = 1024)
    (hoff : d.offset = 1024) (hW : W.length % 1024 = 0) (hWpos : 0 < W.length)
    (hblock : d.block = (W.length / 1024 - 1) % 2 ^ 32)
    (hbytes : d.bytes = W.drop (1024 * (W.length / 1024 - 1)))
    (hbuf : d.buf = xorKs (streamOf p K) 0 (W.take (1024 * (W.length / 1024 - 1)))) :
    ∃ d', flush p d = .ok d' ∧ Rep p K d' W := by
  unfold flush
  rw [if_neg (by omega)]
  simp only [startBlock_eq hkey, GoRes.ok_bind, GoRes.pure_eq]
  refine ⟨_, rfl, ?_⟩
  have hx : d.bytes.take d.offset ++ List.replicate (1024 - d.offset) 0 = d.bytes := by
    rw [hoff, List.take_of_length_le (by omega)]; simp
  rw [hx]
  refine ⟨⟨hkey.1, Or.inl rfl⟩, ?_, ?_, ?_, ?_, ?_⟩
  · simp only; rw [xorKs_length, hlen]
  · simp only; omega
  · simp only; rw [hblock]; omega
  · simp only
    rw [List.take_zero, List.drop_eq_nil_of_le (by omega)]
  · simp only
    rw [hoff, List.take_of_length_le (by rw [xorKs_length, hlen]; omega), hbuf, hblock,
      xorKs_block p K _ _ 0 (by omega), hbytes, show 1024 * (W.length / 1024) = W.length by omega,
      List.take_length]
    conv => rhs; rw [← List.take_append_drop (1024 * (W.length / 1024 - 1)) W]
    rw [xorKs_append, List.length_take, Nat.min_eq_left (by omega), Nat.zero_add, Nat.add_zero]

theorem write_rep (p : Prims) (K : Bytes) : ∀ (fuel : Nat) (data : Bytes) (d : Rc4) (W : Bytes), Rep p K d W →
    data.length < fuel → ∃ d', write p fuel d data = some (.ok d') ∧ Rep p K d' (W ++ data) := by
  intro fuel
  induction fuel with
  | zero => intro data d W _ h; omega
  | succ fuel ih =>
    intro data d W h hf
    unfold write
    by_cases h0 : data.length = 0
    · rw [if_pos h0]
      have : data = [] := List.length_eq_zero_iff.1 h0
      subst this
      exact ⟨d, rfl, by rwa [List.append_nil]⟩
    · have ho := h.offset
      have hl := h.len
      rw [if_neg h0, if_neg (by omega)]
      simp only
      have hsplit : W ++ data = (W ++ data.take (min (1024 - d.offset) data.length)) ++
          data.drop (min (1024 - d.offset) data.length) := by
        rw [List.append_assoc, List.take_append_drop]
      generalize hn : min (1024 - d.offset) data.length = n at hsplit ⊢
      have htl : (data.take n).length = n := by rw [List.length_take]; omega
      have hdl : (d.bytes.take d.offset).length = d.offset := by rw [List.length_take]; omega
      have hbl : (d.bytes.take d.offset ++ data.take n ++ d.bytes.drop (d.offset + n)).length = 1024 := by
        rw [List.length_append, List.length_append, htl, hdl, List.length_drop]; omega
      by_cases hfull : 1024 ≤ d.offset + n
      · rw [if_pos hfull]
        have hWl : (W ++ data.take n).length = W.length + n := by rw [List.length_append, htl]
        have hq : (W.length + n) / 1024 - 1 = W.length / 1024 := by omega
        obtain ⟨d', hfl, hrep⟩ := flush_full (p := p) (K := K)
          (d := { d with bytes := d.bytes.take d.offset ++ data.take n ++ d.bytes.drop (d.offset + n),
                         offset := d.offset + n }) (W := W ++ data.take n)
          ⟨h.key.1, h.key.2⟩ hbl (by simp only; omega) (by omega) (by omega)
          (by simp only; rw [hWl, hq, h.block])
          (by
            simp only
            rw [hWl, hq, List.drop_eq_nil_of_le (by omega), List.append_nil, h.pending,
              List.drop_append_of_le_length (by omega)])
          (by
            simp only
            rw [hWl, hq, h.buf, List.take_append_of_le_length (by omega)])
        rw [hfl]
        simp only
        obtain ⟨d'', hw, hr⟩ := ih (data.drop n) d' _ hrep (by rw [List.length_drop]; omega)
        exact ⟨d'', hw, hsplit ▸ hr⟩
      · rw [if_neg hfull]
        have hnl : n = data.length := by omega
        have hd0 : data.drop n = [] := by rw [hnl]; simp
        have ht : data.take n = data := by rw [hnl]; simp
        obtain ⟨d'', hw, hr⟩ := ih (data.drop n)
          { d with bytes := d.bytes.take d.offset ++ data.take n ++ d.bytes.drop (d.offset + n),
                   offset := d.offset + n } (W ++ data.take n)
          ⟨⟨h.key.1, h.key.2⟩, hbl, by simp only; rw [List.length_append, htl]; omega,
           by simp only; rw [List.length_append, htl, h.block]; congr 1; omega,
           by
            simp only
            rw [List.length_append, htl, show (W.length + n) / 1024 = W.length / 1024 by omega,
              List.take_append_of_le_length (by rw [List.length_append, htl, hdl]; omega),
              List.take_of_length_le (by rw [List.length_append, htl, hdl]; omega), h.pending,
              List.drop_append_of_le_length (by omega)],
           by
            simp only
            rw [List.length_append, htl, show (W.length + n) / 1024 = W.length / 1024 by omega, h.buf,
              List.take_append_of_le_length (by omega)]⟩
          (by rw [List.length_drop]; omega)
        exact ⟨d'', hw, hsplit ▸ hr⟩

theorem writeAll_rep {p : Prims} {K : Bytes} {d : Rc4} {W : Bytes} (h : Rep p K d W) (data : Bytes) :
    ∃ d', writeAll p d data = .ok d' ∧ Rep p K d' (W ++ data) := by
  obtain ⟨d', hw, hr⟩ := write_rep p K (data.length + 2) data d W h (by omega)
  exact ⟨d', by unfold writeAll; rw [hw]; rfl, hr⟩

/-- A fresh writer. -/
theorem rep_fresh {p : Prims} {K : Bytes} {d : Rc4} (hk : KeyIs p d K) (hl : d.bytes.length = 1024)
    (h1 : d.offset = 0) (h2 : d.block = 0) (h3 : d.buf = []) : Rep p K d [] :=
  ⟨hk, hl, by simpa using h1, by simpa using h2, by rw [h1]; simp, by rw [h3]; simp [xorKs]⟩


/-! ### The decryption pass -/

/-- The encrypted data of a record whose header is at `pos`. -/
def encData (f : Nat → UInt8) (pos : Nat) (r : Record) : Bytes :=
  if r.exempt then r.data
  else if r.type = 133 then r.data.take 4 ++ xorKs f (pos + 8) (r.data.drop 4)
  else xorKs f (pos + 4) r.data

/-- The encrypted record. -/
def encRec (f : Nat → UInt8) (pos : Nat) (r : Record) : Bytes :=
  leBytes 2 r.type ++ leBytes 2 r.data.length ++ encData f pos r

/-- The encrypted stream from position `pos`. -/
def encFrom (f : Nat → UInt8) : Nat → List Record → Bytes
  | _, [] => []
  | pos, r :: rs => encRec f pos r ++ encFrom f (pos + 4 + r.data.length) rs

theorem encData_length (f : Nat → UInt8) (pos : Nat) (r : Record) (hr : r.Ok) :
    (encData f pos r).length = r.data.length := by
  unfold encData
  split
  · rfl
  · split
    · rename_i h
      have := hr.2.2 h
      rw [List.length_append, xorKs_length, List.length_take, List.length_drop]; omega
    · rw [xorKs_length]

theorem mapIdx_from {α β : Type} (g : Nat → α → β) : ∀ (l : List α) (i : Nat),
    l.mapIdx (fun k => g (i + k)) = (l.zipIdx i).map (fun q => g q.2 q.1) := by
  intro l
  induction l with
  | nil => intro i; rfl
  | cons x l ih =>
    intro i
    rw [List.mapIdx_cons, List.zipIdx_cons, List.map_cons, ← ih (i + 1)]
    simp only [Nat.add_zero]
    congr 2
    funext k
    rw [show i + (k + 1) = i + 1 + k by omega]

/-- Masked XOR from position `i`. -/
def mask (f : Nat → UInt8) : Nat → Bytes → List Bool → Bytes
  | i, x :: xs, c :: cs => (if c then x else x ^^^ f i) :: mask f (i + 1) xs cs
  | _, _, _ => []

theorem mask_eq (f : Nat → UInt8) : ∀ (b : Bytes) (cs : List Bool) (i : Nat),
    (b.zip cs).mapIdx (fun k (q : UInt8 × Bool) => if q.2 then q.1 else q.1 ^^^ f (i + k)) = mask f i b cs := by
  intro b
  induction b with
  | nil => intro cs i; rfl
  | cons x b ih =>
    intro cs i
    cases cs with
    | nil => rfl
    | cons c cs =>
      rw [List.zip_cons_cons, List.mapIdx_cons, mask, ← ih cs (i + 1)]
      simp only [Nat.add_zero]
      congr 2
      funext k q
      rw [show i + (k + 1) = i + 1 + k by omega]

theorem mask_append (f : Nat → UInt8) : ∀ (a : Bytes) (ca : List Bool) (b : Bytes) (cb : List Bool) (i : Nat),
    a.length = ca.length → mask f i (a ++ b) (ca ++ cb) = mask f i a ca ++ mask f (i + a.length) b cb := by
  intro a
  induction a with
  | nil =>
    intro ca b cb i h
    have : ca = [] := List.length_eq_zero_iff.1 (by simpa using h.symm)
    subst this
    simp [mask]
  | cons x a ih =>
    intro ca b cb i h
    cases ca with
    | nil => simp at h
    | cons c ca =>
      simp only [List.cons_append, mask, List.length_cons]
      rw [ih ca b cb (i + 1) (by simpa using h), show i + 1 + a.length = i + (a.length + 1) by omega]

theorem mask_true (f : Nat → UInt8) : ∀ (a : Bytes) (i : Nat), mask f i a (List.replicate a.length true) = a := by
  intro a
  induction a with
  | nil => intro i; rfl
  | cons x a ih => intro i; rw [List.length_cons, List.replicate_succ, mask, if_pos rfl, ih]

theorem mask_false (f : Nat → UInt8) : ∀ (a : Bytes) (i : Nat),
    mask f i a (List.replicate a.length false) = xorKs f i a := by
  intro a
  induction a with
  | nil => intro i; rfl
  | cons x a ih => intro i; rw [List.length_cons, List.replicate_succ, mask, if_neg (by simp), ih, xorKs]

theorem bound_mask {n : Nat} (h : 4 ≤ n) :
    (List.replicate n true).mapIdx (fun i _ => decide (i < 4)) = List.replicate 4 true ++ List.replicate (n - 4) false := by
  apply List.ext_getElem
  · rw [List.length_mapIdx, List.length_append, List.length_replicate, List.length_replicate, List.length_replicate]
    omega
  · intro i h1 h2
    rw [List.getElem_mapIdx, List.getElem_append]
    split
    · rename_i h3
      rw [List.length_replicate] at h3
      rw [List.getElem_replicate]
      simpa using h3
    · rename_i h3
      rw [List.length_replicate] at h3
      rw [List.getElem_replicate]
      simpa using h3

theorem clear_length (r : Record) : r.clear.length = 4 + r.data.length := by
  unfold Record.clear
  rw [List.length_append, List.length_replicate]
  congr 1
  split
  · rw [List.length_replicate]
  · split
    · rw [List.length_mapIdx, List.length_replicate]
    · rw [List.length_replicate]

theorem recBytes_length (r : Record) : r.bytes.length = 4 + r.data.length := by
  unfold Record.bytes
  simp [leBytes]; omega

theorem mask_rec (f : Nat → UInt8) (pos : Nat) (r : Record) (hr : r.Ok) :
    mask f pos r.bytes r.clear = encRec f pos r := by
  unfold Record.bytes Record.clear encRec
  rw [mask_append f _ _ _ _ _ (by simp [leBytes])]
  rw [show List.replicate 4 true = List.replicate (leBytes 2 r.type ++ leBytes 2 r.data.length).length true by
    simp [leBytes], mask_true]
  congr 1
  rw [show pos + (leBytes 2 r.type ++ leBytes 2 r.data.length).length = pos + 4 by simp [leBytes]]
  unfold encData
  split
  · exact mask_true f _ _
  · split
    · rename_i h
      have h4 := hr.2.2 h
      rw [bound_mask h4]
      conv => lhs; rw [← List.take_append_drop 4 r.data]
      have hl : (r.data.take 4).length = 4 := by rw [List.length_take]; omega
      rw [mask_append f _ _ _ _ _ (by rw [hl]; rfl)]
      congr 1
      · have := mask_true f (r.data.take 4) (pos + 4)
        rwa [hl] at this
      · rw [hl, show (List.take 4 r.data ++ List.drop 4 r.data).length - 4 = (r.data.drop 4).length by
          rw [List.take_append_drop, List.length_drop]]
        exact mask_false f _ _
    · exact mask_false f _ _

theorem encrypted_eq (f : Nat → UInt8) (rs : List Record) (h : ∀ r ∈ rs, r.Ok) : encrypted f rs = encFrom f 0 rs := by
  have aux : ∀ (rs : List Record) (i : Nat), (∀ r ∈ rs, r.Ok) →
      mask f i (stream rs) (rs.flatMap Record.clear) = encFrom f i rs := by
    intro rs
    induction rs with
    | nil => intro i _; rfl
    | cons r rs ih =>
      intro i h
      unfold stream at ih ⊢
      rw [List.flatMap_cons, List.flatMap_cons, mask_append f _ _ _ _ _ (by rw [clear_length, recBytes_length]),
        mask_rec f i r (h r (by simp)), ih _ (fun r hr => h r (by simp [hr])), encFrom, recBytes_length,
        Nat.add_assoc]
  rw [← aux rs 0 h, ← mask_eq]
  unfold encrypted
  simp only [Nat.zero_add]

/-- What the pass feeds to the decrypter for a record. -/
def fed (f : Nat → UInt8) (pos : Nat) (r : Record) : Bytes :=
  leBytes 2 r.type ++ leBytes 2 r.data.length ++
    (if r.exempt then List.replicate r.data.length 0
     else if r.type = 133 then List.replicate 4 0 ++ xorKs f (pos + 8) (r.data.drop 4)
     else xorKs f (pos + 4) r.data)

theorem fed_length (f : Nat → UInt8) (pos : Nat) (r : Record) (hr : r.Ok) :
    (fed f pos r).length = 4 + r.data.length := by
  unfold fed
  rw [List.length_append]
  congr 1
  split
  · rw [List.length_replicate]
  · split
    · rename_i h
      have := hr.2.2 h
      rw [List.length_append, xorKs_length, List.length_replicate, List.length_drop]; omega
    · rw [xorKs_length]

def fedFrom (f : Nat → UInt8) : Nat → List Record → Bytes
  | _, [] => []
  | pos, r :: rs => fed f pos r ++ fedFrom f (pos + 4 + r.data.length) rs

/-- What the pass keeps for a record. -/
def overlayOf (pos : Nat) (r : Record) : Overlay :=
  ⟨pos, r.type, r.data.length, if r.exempt then r.data else if r.type = 133 then r.data.take 4 else []⟩

def overlays : Nat → List Record → List Overlay
  | _, [] => []
  | pos, r :: rs => overlayOf pos r :: overlays (pos + 4 + r.data.length) rs

/-- The records that the pass handles: a last record without data is left out. -/
def handled : List Record → List Record
  | [] => []
  | [r] => if r.data = [] then [] else [r]
  | r :: r' :: rs => r :: handled (r' :: rs)

theorem exempt_eq (r : Record) : exempt r.type = r.exempt := by
  unfold exempt Record.exempt
  simp only [List.mem_cons, List.not_mem_nil, or_false, Bool.decide_or, Bool.or_assoc]

theorem sub_mid (a b c rest : Bytes) (lo hi : Nat) (hlo : lo = a.length) (hhi : hi = a.length + b.length) :
    (⟨a ++ (b ++ c), rest⟩ : Slice).sub lo hi = .ok ⟨b, c ++ rest⟩ := by
  subst hlo hhi
  unfold Slice.sub
  rw [if_pos ⟨by omega, by simp only [List.length_append]; omega⟩]
  have e : a ++ (b ++ c) ++ rest = (a ++ b) ++ (c ++ rest) := by simp
  simp only [e]
  rw [← List.length_append, List.take_left, List.drop_left, List.drop_left]

theorem u16_le2 (n : Nat) (h : n < 65536) (rest : Bytes) : (⟨leBytes 2 n, rest⟩ : Slice).u16 = .ok n := by
  simp only [leBytes, Slice.u16, le16]
  congr 1
  simp
  omega

theorem copyAt_mid (a b b' c : Bytes) (offs : Nat) (h : b'.length = b.length) (ho : offs = a.length) :
    copyAt (a ++ (b ++ c)) offs b' = a ++ (b' ++ c) := by
  subst ho
  unfold copyAt
  rw [List.take_left, List.take_of_length_le (by simp [h]), List.append_assoc, h, ← List.append_assoc a b c,
    ← List.length_append, List.drop_left]


theorem decryptLoop_spec (p : Prims) (K : Bytes) (rest : Bytes) : ∀ (rs : List Record), (∀ r ∈ rs, r.Ok) →
    ∀ (pre : Bytes) (dec : Rc4) (W : Bytes), Rep p K dec W → W.length = pre.length →
    ∃ dec', decryptLoop p ⟨pre ++ encFrom (streamOf p K) pre.length rs, rest⟩ pre.length dec =
      .ok (dec', overlays pre.length (handled rs)) ∧
      Rep p K dec' (W ++ fedFrom (streamOf p K) pre.length (handled rs)) := by
  intro rs
  induction rs with
  | nil =>
    intro _ pre dec W hrep hW
    unfold decryptLoop
    rw [if_neg (by simp [Slice.len]), if_pos (by simp [Slice.len, encFrom])]
    exact ⟨dec, rfl, by simpa [handled, fedFrom] using hrep⟩
  | cons r rs ih =>
    intro hok pre dec W hrep hW
    have hr := hok r (by simp)
    have hel := encData_length (streamOf p K) pre.length r hr
    by_cases hstop : rs = [] ∧ r.data = []
    · obtain ⟨h1, h2⟩ := hstop
      subst h1
      have hz : (encData (streamOf p K) pre.length r).length = 0 := by rw [hel, h2]; rfl
      unfold decryptLoop
      rw [if_neg (by simp [Slice.len]),
        if_pos (by simp only [Slice.len, encFrom, encRec, List.length_append, hz]; simp [leBytes])]
      exact ⟨dec, by simp [handled, h2, overlays], by simpa [handled, h2, fedFrom] using hrep⟩
    · have hh : handled (r :: rs) = r :: handled rs := by
        cases rs with
        | nil => simp only [handled]; rw [if_neg (fun h => hstop ⟨rfl, h⟩)]
        | cons r' rs => rfl
      rw [hh]
      simp only [encFrom]
      have hpos : 0 < r.data.length + (encFrom (streamOf p K) (pre.length + 4 + r.data.length) rs).length := by
        by_cases h0 : r.data = []
        · cases rs with
          | nil => exact absurd ⟨rfl, h0⟩ hstop
          | cons r' rs => simp only [encFrom, encRec, List.length_append]; simp [leBytes]; omega
        · have := List.length_pos_iff.2 h0; omega
      -- the pieces of the record
      generalize hmore : encFrom (streamOf p K) (pre.length + 4 + r.data.length) rs = more at hpos
      have step : ∀ dec1, Rep p K dec1 (W ++ fed (streamOf p K) pre.length r) →
          ∃ dec', decryptLoop p ⟨pre ++ (encRec (streamOf p K) pre.length r ++ more), rest⟩
              (pre.length + 4 + r.data.length) dec1 =
            .ok (dec', overlays (pre.length + 4 + r.data.length) (handled rs)) ∧
            Rep p K dec' (W ++ fed (streamOf p K) pre.length r ++
              fedFrom (streamOf p K) (pre.length + 4 + r.data.length) (handled rs)) := by
        intro dec1 h1
        have hl : (pre ++ encRec (streamOf p K) pre.length r).length = pre.length + 4 + r.data.length := by
          unfold encRec
          simp only [List.length_append, hel]
          simp [leBytes]; omega
        have := ih (fun r hr => hok r (by simp [hr])) (pre ++ encRec (streamOf p K) pre.length r) dec1 _ h1
          (by rw [List.length_append, hl, fed_length _ _ _ hr, hW]; omega)
        rw [hl, hmore] at this
        simpa only [List.append_assoc] using this
      obtain ⟨d1, hw1, hr1⟩ := writeAll_rep hrep (leBytes 2 r.type)
      obtain ⟨d2, hw2, hr2⟩ := writeAll_rep hr1 (leBytes 2 r.data.length)
      unfold decryptLoop
      have hraw : pre ++ (encRec (streamOf p K) pre.length r ++ more) =
          pre ++ (leBytes 2 r.type ++ (leBytes 2 r.data.length ++ (encData (streamOf p K) pre.length r ++ more))) := by
        unfold encRec; simp
      have s1 := sub_mid pre (leBytes 2 r.type)
        (leBytes 2 r.data.length ++ (encData (streamOf p K) pre.length r ++ more)) rest pre.length (pre.length + 2)
        rfl (by simp [leBytes])
      have s2 := sub_mid (pre ++ leBytes 2 r.type) (leBytes 2 r.data.length)
        (encData (streamOf p K) pre.length r ++ more) rest (pre.length + 2) (pre.length + 4)
        (by simp [leBytes]) (by simp [leBytes])
      rw [List.append_assoc, ← hraw] at s2
      rw [← hraw] at s1
      have hlen : (⟨pre ++ (encRec (streamOf p K) pre.length r ++ more), rest⟩ : Slice).len =
          pre.length + 4 + r.data.length + more.length := by
        unfold Slice.len encRec
        simp only [List.length_append, hel]
        simp [leBytes]; omega
      have hd4 : r.data.length < 65536 := by have := hr.2.1; omega
      rw [if_neg (by rw [hlen]; omega), if_neg (by rw [hlen]; omega), s1, GoRes.ok_bind,
        u16_le2 _ hr.1, GoRes.ok_bind, s2, GoRes.ok_bind, u16_le2 _ hd4, GoRes.ok_bind, put16_eq, put16_eq, hw1,
        GoRes.ok_bind, hw2, GoRes.ok_bind, exempt_eq]
      have s3 := sub_mid (pre ++ leBytes 2 r.type ++ leBytes 2 r.data.length)
        (encData (streamOf p K) pre.length r) more rest (pre.length + 4) (pre.length + 4 + r.data.length)
        (by simp [leBytes]) (by rw [hel]; simp [leBytes])
      rw [List.append_assoc, List.append_assoc, ← hraw] at s3
      by_cases he : r.exempt = true
      · rw [if_pos he, s3, GoRes.ok_bind, if_neg (by have := hr.2.1; omega)]
        obtain ⟨d3, hw3, hr3⟩ := writeAll_rep hr2 (List.replicate r.data.length 0)
        obtain ⟨d', hd, hr'⟩ := step d3 (by
          have : fed (streamOf p K) pre.length r =
            leBytes 2 r.type ++ leBytes 2 r.data.length ++ List.replicate r.data.length 0 := by
            unfold fed; rw [if_pos he]
          rw [this]; simpa only [List.append_assoc] using hr3)
        rw [hw3, GoRes.ok_bind, hd, GoRes.ok_bind]
        refine ⟨d', ?_, ?_⟩
        · simp only [GoRes.pure_eq, overlays, overlayOf, if_pos he]
          unfold encData
          rw [if_pos he]
        · simpa only [fedFrom, List.append_assoc] using hr'
      · rw [if_neg he]
        by_cases hb : r.type = 133
        · rw [if_pos hb]
          have h4 := hr.2.2 hb
          have hed : encData (streamOf p K) pre.length r =
              r.data.take 4 ++ xorKs (streamOf p K) (pre.length + 8) (r.data.drop 4) := by
            unfold encData; rw [if_neg he, if_pos hb]
          have ht4 : (r.data.take 4).length = 4 := by rw [List.length_take]; omega
          have s4 := sub_mid (pre ++ leBytes 2 r.type ++ leBytes 2 r.data.length)
            (r.data.take 4) (xorKs (streamOf p K) (pre.length + 8) (r.data.drop 4) ++ more) rest
            (pre.length + 4) (pre.length + 8) (by simp [leBytes]) (by rw [ht4]; simp [leBytes])
          rw [← List.append_assoc (r.data.take 4), ← hed, List.append_assoc, List.append_assoc, ← hraw] at s4
          have s5 := sub_mid (pre ++ leBytes 2 r.type ++ leBytes 2 r.data.length ++ r.data.take 4)
            (xorKs (streamOf p K) (pre.length + 8) (r.data.drop 4)) more rest
            (pre.length + 8) (pre.length + 8 + (r.data.length - 4))
            (by rw [List.length_append, ht4]; simp [leBytes])
            (by rw [xorKs_length, List.length_append, ht4, List.length_drop]; simp [leBytes])
          rw [List.append_assoc _ (r.data.take 4), ← List.append_assoc (r.data.take 4), ← hed, List.append_assoc,
            List.append_assoc, ← hraw] at s5
          obtain ⟨d3, hw3, hr3⟩ := writeAll_rep hr2 (List.replicate 4 0)
          rw [s4, GoRes.ok_bind, hw3, GoRes.ok_bind]
          have hov : overlayOf pre.length r = ⟨pre.length, r.type, r.data.length, r.data.take 4⟩ := by
            unfold overlayOf; rw [if_neg he, if_pos hb]
          have hfed : fed (streamOf p K) pre.length r = leBytes 2 r.type ++ leBytes 2 r.data.length ++
              (List.replicate 4 0 ++ xorKs (streamOf p K) (pre.length + 8) (r.data.drop 4)) := by
            unfold fed; rw [if_neg he, if_pos hb]
          by_cases h5 : 4 < r.data.length
          · rw [if_pos h5, s5, GoRes.ok_bind]
            obtain ⟨d4, hw4, hr4⟩ := writeAll_rep hr3 (xorKs (streamOf p K) (pre.length + 8) (r.data.drop 4))
            obtain ⟨d', hd, hr'⟩ := step d4 (by rw [hfed]; simpa only [List.append_assoc] using hr4)
            rw [hw4, GoRes.ok_bind, show pre.length + 8 + (r.data.length - 4) = pre.length + 4 + r.data.length by omega,
              hd, GoRes.ok_bind]
            exact ⟨d', by simp only [GoRes.pure_eq, overlays, hov],
              by simpa only [fedFrom, List.append_assoc] using hr'⟩
          · rw [if_neg h5]
            have h44 : r.data.length = 4 := by omega
            have hdn : r.data.drop 4 = [] := List.drop_eq_nil_of_le (by omega)
            obtain ⟨d', hd, hr'⟩ := step d3 (by
              rw [hfed, hdn]; simpa only [List.append_assoc, xorKs, List.append_nil] using hr3)
            rw [h44] at hd
            rw [hd, GoRes.ok_bind]
            exact ⟨d', by simp only [GoRes.pure_eq, overlays, hov, h44],
              by simpa only [fedFrom, List.append_assoc] using hr'⟩
        · rw [if_neg hb, s3, GoRes.ok_bind]
          have hed : encData (streamOf p K) pre.length r = xorKs (streamOf p K) (pre.length + 4) r.data := by
            unfold encData; rw [if_neg he, if_neg hb]
          obtain ⟨d3, hw3, hr3⟩ := writeAll_rep hr2 (encData (streamOf p K) pre.length r)
          obtain ⟨d', hd, hr'⟩ := step d3 (by
            have : fed (streamOf p K) pre.length r =
              leBytes 2 r.type ++ leBytes 2 r.data.length ++ encData (streamOf p K) pre.length r := by
              unfold fed; rw [if_neg he, if_neg hb, hed]
            rw [this]; simpa only [List.append_assoc] using hr3)
          rw [hw3, GoRes.ok_bind, hd, GoRes.ok_bind]
          refine ⟨d', ?_, ?_⟩
          · simp only [GoRes.pure_eq, overlays, overlayOf, if_neg he, if_neg hb]
          · simpa only [fedFrom, List.append_assoc] using hr'

theorem byte_xor_self (x y : UInt8) : x ^^^ y ^^^ y = x := by
  rw [UInt8.xor_assoc, UInt8.xor_self, UInt8.xor_zero]

theorem xorKs_xorKs (f : Nat → UInt8) : ∀ (b : Bytes) (i : Nat), xorKs f i (xorKs f i b) = b := by
  intro b
  induction b with
  | nil => intro i; rfl
  | cons x b ih => intro i; rw [xorKs, xorKs, ih, byte_xor_self]

theorem applyOverlays_spec (f : Nat → UInt8) : ∀ (rs : List Record), (∀ r ∈ rs, r.Ok) → ∀ (pre : Bytes),
    applyOverlays (pre ++ xorKs f pre.length (fedFrom f pre.length rs)) (overlays pre.length rs) =
      .ok (pre ++ stream rs) := by
  intro rs
  induction rs with
  | nil => intro _ pre; simp [overlays, applyOverlays, fedFrom, xorKs, stream]
  | cons r rs ih =>
    intro hok pre
    have hr := hok r (by simp)
    have hfl := fed_length f pre.length r hr
    have hih := ih (fun r hr => hok r (by simp [hr])) (pre ++ r.bytes)
    rw [List.length_append, recBytes_length, show pre.length + (4 + r.data.length) = pre.length + 4 + r.data.length by omega]
      at hih
    simp only [overlays, fedFrom, applyOverlays]
    rw [xorKs_append, hfl, show pre.length + (4 + r.data.length) = pre.length + 4 + r.data.length by omega]
    generalize xorKs f (pre.length + 4 + r.data.length) (fedFrom f (pre.length + 4 + r.data.length) rs) = more at hih ⊢
    rw [if_neg (by simp only [List.length_append, xorKs_length, hfl, overlayOf]; omega)]
    have key : ∀ (D : Bytes), D.length = r.data.length →
        xorKs f pre.length (fed f pre.length r) =
          xorKs f pre.length (leBytes 2 r.type) ++ (xorKs f (pre.length + 2) (leBytes 2 r.data.length) ++ D) →
        (if 0 < (overlayOf pre.length r).data.length then
          copyAt (pre ++ leBytes 2 r.type ++ leBytes 2 r.data.length ++ D ++ more) (pre.length + 4)
            (overlayOf pre.length r).data
         else pre ++ leBytes 2 r.type ++ leBytes 2 r.data.length ++ D ++ more) = pre ++ r.bytes ++ more →
        applyOverlays
          (if 0 < (overlayOf pre.length r).data.length then
            copyAt (copyAt (copyAt (pre ++ (xorKs f pre.length (fed f pre.length r) ++ more))
              (overlayOf pre.length r).pos (put16 (overlayOf pre.length r).recType))
              ((overlayOf pre.length r).pos + 2) (put16 (overlayOf pre.length r).dataBytes))
              ((overlayOf pre.length r).pos + 4) (overlayOf pre.length r).data
           else copyAt (copyAt (pre ++ (xorKs f pre.length (fed f pre.length r) ++ more))
              (overlayOf pre.length r).pos (put16 (overlayOf pre.length r).recType))
              ((overlayOf pre.length r).pos + 2) (put16 (overlayOf pre.length r).dataBytes))
          (overlays (pre.length + 4 + r.data.length) rs) = .ok (pre ++ stream (r :: rs)) := by
      intro D hD hx hfin
      have c1 : copyAt (pre ++ (xorKs f pre.length (fed f pre.length r) ++ more))
          (overlayOf pre.length r).pos (put16 (overlayOf pre.length r).recType) =
          pre ++ leBytes 2 r.type ++ (xorKs f (pre.length + 2) (leBytes 2 r.data.length) ++ (D ++ more)) := by
        rw [hx, List.append_assoc, copyAt_mid pre (xorKs f pre.length (leBytes 2 r.type)) _ _ _
          (by rw [xorKs_length]; rfl) (show (overlayOf pre.length r).pos = pre.length from rfl)]
        simp only [List.append_assoc]; rfl
      have c2 : copyAt (pre ++ leBytes 2 r.type ++ (xorKs f (pre.length + 2) (leBytes 2 r.data.length) ++ (D ++ more)))
          ((overlayOf pre.length r).pos + 2) (put16 (overlayOf pre.length r).dataBytes) =
          pre ++ leBytes 2 r.type ++ leBytes 2 r.data.length ++ D ++ more := by
        rw [copyAt_mid _ (xorKs f (pre.length + 2) (leBytes 2 r.data.length)) _ _ _
          (by rw [xorKs_length]; rfl) (by simp [leBytes, overlayOf])]
        simp only [List.append_assoc]; rfl
      rw [c1, c2, show (overlayOf pre.length r).pos = pre.length from rfl, hfin, hih]
      simp [stream]
    have hsplit : ∀ D, xorKs f pre.length (leBytes 2 r.type ++ leBytes 2 r.data.length ++ D) =
        xorKs f pre.length (leBytes 2 r.type) ++ (xorKs f (pre.length + 2) (leBytes 2 r.data.length) ++
          xorKs f (pre.length + 4) D) := by
      intro D
      rw [xorKs_append, xorKs_append]
      simp [leBytes]
    have hb : pre ++ r.bytes ++ more = pre ++ leBytes 2 r.type ++ leBytes 2 r.data.length ++ r.data ++ more := by
      unfold Record.bytes; simp only [List.append_assoc]
    by_cases he : r.exempt = true
    · refine key (xorKs f (pre.length + 4) (List.replicate r.data.length 0))
        (by rw [xorKs_length, List.length_replicate]) ?_ ?_
      · unfold fed; rw [if_pos he]; exact hsplit _
      · have ho : (overlayOf pre.length r).data = r.data := by unfold overlayOf; rw [if_pos he]
        rw [ho, hb]
        by_cases h0 : 0 < r.data.length
        · rw [if_pos h0, List.append_assoc _ (xorKs _ _ _), copyAt_mid _ _ _ _ _
            (by rw [xorKs_length, List.length_replicate]) (by simp [leBytes])]
          simp only [List.append_assoc]
        · rw [if_neg h0]
          have : r.data = [] := List.length_eq_zero_iff.1 (by omega)
          rw [this]; rfl
    · by_cases h133 : r.type = 133
      · have h4 := hr.2.2 h133
        have ht4 : (r.data.take 4).length = 4 := by rw [List.length_take]; omega
        have ho : (overlayOf pre.length r).data = r.data.take 4 := by
          unfold overlayOf; rw [if_neg he, if_pos h133]
        refine key (xorKs f (pre.length + 4) (List.replicate 4 0) ++ r.data.drop 4)
          (by rw [List.length_append, xorKs_length, List.length_replicate, List.length_drop]; omega) ?_ ?_
        · unfold fed
          rw [if_neg he, if_pos h133, hsplit, xorKs_append f (List.replicate 4 0), List.length_replicate,
            show pre.length + 4 + 4 = pre.length + 8 by omega, xorKs_xorKs]
        · rw [ho, ht4, if_pos (by omega), hb, List.append_assoc _ (_ ++ _) more,
            List.append_assoc (xorKs f (pre.length + 4) (List.replicate 4 0)), copyAt_mid _ _ _ _ _
            (by rw [xorKs_length, List.length_replicate, ht4]) (by simp [leBytes]), ← List.append_assoc (r.data.take 4),
            List.take_append_drop]
          simp only [List.append_assoc]
      · have ho : (overlayOf pre.length r).data = [] := by
          unfold overlayOf; rw [if_neg he, if_neg h133]
        refine key r.data rfl ?_ ?_
        · unfold fed; rw [if_neg he, if_neg h133, hsplit, xorKs_xorKs]
        · rw [ho, hb]; rfl

theorem handled_mem {r : Record} : ∀ {rs : List Record}, r ∈ handled rs → r ∈ rs := by
  intro rs
  induction rs with
  | nil => intro h; exact h
  | cons a rs ih =>
    intro h
    cases rs with
    | nil =>
      simp only [handled] at h
      split at h
      · simp at h
      · exact h
    | cons b rs =>
      simp only [handled] at h
      rcases List.mem_cons.1 h with h | h
      · rw [h]; simp
      · exact List.mem_cons_of_mem _ (ih h)

theorem handled_concat : ∀ (rs : List Record) (r : Record),
    handled (rs ++ [r]) = if r.data = [] then rs else rs ++ [r] := by
  intro rs
  induction rs with
  | nil => intro r; rfl
  | cons a rs ih =>
    intro r
    cases rs with
    | nil => simp only [List.cons_append, List.nil_append, handled]; split <;> rfl
    | cons b rs =>
      have := ih r
      simp only [List.cons_append] at this ⊢
      rw [handled, this]
      split <;> rfl

/-- The pass on an encrypted stream. -/
theorem decryptStream_spec {p : Prims} {K : Bytes} {dec : Rc4} (rest : Bytes) (rs : List Record)
    (hrep : Rep p K dec []) (hok : ∀ r ∈ rs, r.Ok) :
    decryptStream p ⟨encrypted (streamOf p K) rs, rest⟩ dec = .ok (stream (handled rs)) := by
  rw [encrypted_eq _ _ hok]
  unfold decryptStream
  obtain ⟨d', hd, hr⟩ := decryptLoop_spec p K rest rs hok [] dec [] hrep rfl
  simp only [List.nil_append, List.length_nil] at hd hr
  rw [hd, GoRes.ok_bind]
  obtain ⟨d'', hf, hbuf⟩ := flush_rep hr
  simp only [hf, GoRes.ok_bind, hbuf]
  have := applyOverlays_spec (streamOf p K) (handled rs) (fun r h => hok r (handled_mem h)) []
  simpa only [List.nil_append, List.length_nil] using this

end Grate.Crypto
