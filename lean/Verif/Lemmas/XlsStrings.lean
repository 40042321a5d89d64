import Verif.Lemmas.Crypto
import Verif.Model.XlsStrings
import Verif.Spec.XlsStrings

/-! # Lemmas about strings in workbook streams -/

namespace Grate.Xls

open Spec

/-! ### Flags -/

theorem byte_all (P : UInt8 → Prop) (h : ∀ n : Fin 256, P (UInt8.ofNat n.val)) (f : UInt8) : P f := by
  have := h ⟨f.toNat, f.toNat_lt⟩
  rwa [UInt8.ofNat_toNat] at this

theorem flag0 (f : UInt8) : (f &&& 1 = 0) ↔ bit f 0 = false := by
  revert f; apply byte_all; unfold bit; decide +kernel

theorem flag3 (f : UInt8) : (f &&& 8 ≠ 0) ↔ bit f 3 = true := by
  revert f; apply byte_all; unfold bit; decide +kernel

theorem flag2 (f : UInt8) : (f &&& 4 ≠ 0) ↔ bit f 2 = true := by
  revert f; apply byte_all; unfold bit; decide +kernel

theorem bit_clear (f : UInt8) : bit (f &&& 0xFE) 0 = false := by
  revert f; apply byte_all; unfold bit; decide +kernel

theorem bit_set (f : UInt8) : bit (f ||| 1) 0 = true := by
  revert f; apply byte_all; unfold bit; decide +kernel

/-! ### Slices that start with given bytes -/

theorem drop_here (b c rest : Bytes) (n : Nat) (h : n = b.length) :
    (⟨b ++ c, rest⟩ : Slice).dropFrom n = .ok ⟨c, rest⟩ := by
  subst h
  unfold Slice.dropFrom
  rw [if_pos (by simp)]
  simp

theorem sub_here (b c rest : Bytes) (n : Nat) (h : n = b.length) :
    (⟨b ++ c, rest⟩ : Slice).sub 0 n = .ok ⟨b, c ++ rest⟩ := by
  have := Crypto.sub_mid [] b c rest 0 n rfl (by simp [h])
  simpa using this

theorem u16_here (n : Nat) (h : n < 65536) (c rest : Bytes) : (⟨leBytes 2 n ++ c, rest⟩ : Slice).u16 = .ok n := by
  simp only [leBytes, List.cons_append, List.nil_append, Slice.u16, le16]
  congr 1
  simp
  omega

theorem u32_here (n : Nat) (h : n < 2 ^ 32) (c rest : Bytes) : (⟨leBytes 4 n ++ c, rest⟩ : Slice).u32 = .ok n := by
  simp only [leBytes, List.cons_append, List.nil_append, Slice.u32, le32]
  congr 1
  simp
  omega

theorem leBytes_one (u : Nat) (h : u < 256) : ∃ b : UInt8, leBytes 1 u = [b] ∧ b.toNat = u :=
  ⟨UInt8.ofNat u, by simp [leBytes, Nat.mod_eq_of_lt h], by simp [Nat.mod_eq_of_lt h]⟩

theorem charBytes_cons (wide : Bool) (u : Nat) (us : List Nat) :
    charBytes wide (u :: us) = leBytes (if wide then 2 else 1) u ++ charBytes wide us := by
  unfold charBytes; rw [List.flatMap_cons]

theorem charBytes_length (wide : Bool) (us : List Nat) :
    (charBytes wide us).length = us.length * (if wide then 2 else 1) := by
  induction us with
  | nil => simp [charBytes]
  | cons u us ih =>
    rw [charBytes_cons, List.length_append, ih, List.length_cons]
    cases wide <;> simp [leBytes] <;> omega

/-! ### Strings in one piece -/

theorem read16s_spec : ∀ (us : List Nat) (c rest : Bytes), Fits true us →
    read16s us.length ⟨charBytes true us ++ c, rest⟩ = .ok (us, ⟨c, rest⟩) := by
  intro us
  induction us with
  | nil => intro c rest _; rfl
  | cons u us ih =>
    intro c rest h
    have hu : u < 65536 := h u (by simp)
    rw [List.length_cons, read16s, charBytes_cons, if_pos rfl, List.append_assoc,
      sub_here _ _ _ _ (by simp [leBytes]), GoRes.ok_bind]
    have := u16_here u hu [] (charBytes true us ++ c ++ rest)
    rw [List.append_nil] at this
    simp only [this, GoRes.ok_bind, drop_here (leBytes 2 u) (charBytes true us ++ c) rest 2 (by simp [leBytes]),
      ih c rest (fun x hx => h x (by simp [hx]))]
    rfl

theorem narrow_map (us : List Nat) (h : Fits false us) : (charBytes false us).map UInt8.toNat = us := by
  induction us with
  | nil => rfl
  | cons u us ih =>
    have hu : u < 256 := h u (by simp)
    obtain ⟨b, hb, hn⟩ := leBytes_one u hu
    have he : leBytes (if false = true then 2 else 1) u = [b] := hb
    rw [charBytes_cons, he, List.cons_append, List.nil_append, List.map_cons, hn,
      ih (fun x hx => h x (by simp [hx]))]

theorem decodeChars_spec (wide : Bool) (flags : UInt8) (hf : bit flags 0 = wide) (us : List Nat) (h : Fits wide us)
    (head : Nat) (c rest : Bytes) :
    decodeChars us.length flags head ⟨charBytes wide us ++ c, rest⟩ =
      .ok (u16str us, (charBytes wide us).length + head) := by
  unfold decodeChars
  cases wide with
  | false =>
    rw [if_pos ((flag0 flags).2 hf), sub_here _ _ _ _ (by rw [charBytes_length]; simp), GoRes.ok_bind]
    simp only [narrow_map us h, charBytes_length]
    simp
  | true =>
    rw [if_neg (fun hc => by rw [(flag0 flags).1 hc] at hf; simp at hf), read16s_spec us c rest h, GoRes.ok_bind,
      charBytes_length]
    simp only [if_pos]
    rw [show us.length + us.length = us.length * 2 by omega]
    rfl

/-! ### Reading from records -/

/-- The reader stands at the sequence `s`. -/
def At (buf : Slice) (later : List Slice) (s : List (Option UInt8)) : Prop :=
  buf.val = (recordsOf s).1 ∧ later.map Slice.val = (recordsOf s).2

theorem recordsOf_some (b : Bytes) (s : List (Option UInt8)) :
    recordsOf (b.map some ++ s) = (b ++ (recordsOf s).1, (recordsOf s).2) := by
  induction b with
  | nil => rfl
  | cons x b ih => rw [List.map_cons, List.cons_append, recordsOf, ih]; rfl

theorem at_some {buf : Slice} {later : List Slice} {b : Bytes} {s : List (Option UInt8)}
    (h : At buf later (b.map some ++ s)) :
    buf = ⟨b ++ (recordsOf s).1, buf.rest⟩ ∧ At ⟨(recordsOf s).1, buf.rest⟩ later s := by
  obtain ⟨h1, h2⟩ := h
  rw [recordsOf_some] at h1 h2
  cases buf
  simp only at h1
  subst h1
  exact ⟨rfl, rfl, h2⟩

theorem at_cons {buf : Slice} {later : List Slice} {b : UInt8} {s : List (Option UInt8)}
    (h : At buf later (some b :: s)) :
    buf = ⟨b :: (recordsOf s).1, buf.rest⟩ ∧ At ⟨(recordsOf s).1, buf.rest⟩ later s :=
  at_some (b := [b]) h

theorem drop_one (b : UInt8) (c rest : Bytes) : (⟨b :: c, rest⟩ : Slice).dropFrom 1 = .ok ⟨c, rest⟩ :=
  drop_here [b] c rest 1 rfl

theorem at_none {buf : Slice} {later : List Slice} {s : List (Option UInt8)} (h : At buf later (none :: s)) :
    buf.val = [] ∧ ∃ r later', later = r :: later' ∧ At r later' s := by
  obtain ⟨h1, h2⟩ := h
  refine ⟨h1, ?_⟩
  cases later with
  | nil => simp [recordsOf] at h2
  | cons r later' =>
    simp only [recordsOf, List.map_cons, List.cons.injEq] at h2
    exact ⟨r, later', rfl, h2.1, h2.2⟩

theorem readChars_chunk (flags : UInt8) (wide : Bool) (hf : bit flags 0 = wide) (later : List Slice)
    (s : List (Option UInt8)) (m : Nat) : ∀ (us : List Nat), Fits wide us →
    (wide = true → us ≠ [] → (recordsOf s).1.length ≠ 1) → ∀ (buf : Slice),
    At buf later ((charBytes wide us).map some ++ s) →
    ∃ buf', At buf' later s ∧ readChars (us.length + m) flags buf later =
      (readChars m flags buf' later >>= fun x => .ok (us ++ x.1, x.2.1, x.2.2)) := by
  intro us
  induction us with
  | nil =>
    intro _ _ buf h
    refine ⟨buf, h, ?_⟩
    rw [List.length_nil, Nat.zero_add]
    cases readChars m flags buf later <;> rfl
  | cons u us ih =>
    intro hfit hodd buf h
    have hu := hfit u (by simp)
    rw [charBytes_cons, List.map_append, List.append_assoc] at h
    obtain ⟨hbuf, h1⟩ := at_some h
    obtain ⟨buf', hat, hr⟩ := ih (fun x hx => hfit x (by simp [hx]))
      (fun hw hne => hodd hw (by simp)) _ h1
    refine ⟨buf', hat, ?_⟩
    rw [show (u :: us).length + m = us.length + m + 1 by simp; omega, readChars]
    have hlen : buf.len ≠ 0 := by
      rw [hbuf]; unfold Slice.len; cases wide <;> simp [leBytes]
    rw [if_neg hlen]
    simp only [GoRes.pure_eq, GoRes.ok_bind]
    have hc : readChar flags buf = .ok (u, ⟨(recordsOf ((charBytes wide us).map some ++ s)).1, buf.rest⟩) := by
      unfold readChar
      cases wide with
      | false =>
        obtain ⟨b, hb, hn⟩ := leBytes_one u hu
        have he : leBytes (if false = true then 2 else 1) u = [b] := hb
        rw [he] at hbuf
        rw [if_pos ((flag0 flags).2 hf), hbuf]
        simp only [Slice.idx, List.cons_append, List.getElem?_cons_zero, GoRes.ok_bind, List.nil_append]
        have := drop_here [b] (recordsOf ((charBytes false us).map some ++ s)).1 buf.rest 1 rfl
        rw [List.cons_append, List.nil_append] at this
        simp only [this, GoRes.ok_bind, hn]
        rfl
      | true =>
        rw [if_pos rfl] at hbuf
        rw [if_neg (fun hc => by rw [(flag0 flags).1 hc] at hf; simp at hf), hbuf,
          sub_here _ _ _ _ (by simp [leBytes]), GoRes.ok_bind]
        have := u16_here u hu [] ((recordsOf ((charBytes true us).map some ++ s)).1 ++ buf.rest)
        rw [List.append_nil] at this
        rw [this, GoRes.ok_bind, drop_here _ _ _ _ (by simp [leBytes]), GoRes.ok_bind, if_neg]
        · rfl
        · unfold Slice.len
          simp only
          rw [recordsOf_some]
          simp only [List.length_append, charBytes_length]
          have := hodd rfl (by simp)
          simp only [if_pos]
          omega
    rw [hc, GoRes.ok_bind, hr]
    cases readChars m flags buf' later <;> rfl

theorem readChars_next (flags f : UInt8) (us : List Nat) (hne : us ≠ []) (s : List (Option UInt8)) (m : Nat)
    (buf : Slice) (later : List Slice)
    (h : At buf later (none :: some f :: ((charBytes (bit f 0) us).map some ++ s))) :
    ∃ flags' buf' later', bit flags' 0 = bit f 0 ∧ At buf' later' ((charBytes (bit f 0) us).map some ++ s) ∧
      readChars (m + 1) flags buf later = readChars (m + 1) flags' buf' later' := by
  obtain ⟨h0, r, later', rfl, hat⟩ := at_none h
  obtain ⟨hr, hat'⟩ := at_cons hat
  refine ⟨if f &&& 1 = 0 then flags &&& 0xFE else flags ||| 1, _, later', ?_, hat', ?_⟩
  · split
    · rename_i hc
      rw [bit_clear, (flag0 f).1 hc]
    · rename_i hc
      rw [bit_set]
      cases hb : bit f 0 with
      | false => exact absurd ((flag0 f).2 hb) hc
      | true => rfl
  · rw [readChars, if_pos (by unfold Slice.len; rw [h0]; rfl), readChars, if_neg]
    · simp only [nextChars]
      rw [hr]
      simp only [Slice.idx, List.getElem?_cons_zero, GoRes.ok_bind, drop_one, GoRes.pure_eq]
    · unfold Slice.len
      simp only
      rw [recordsOf_some]
      have := List.length_pos_iff.2 hne
      rw [List.length_append, charBytes_length]
      have h2 : 0 < us.length * (if bit f 0 = true then 2 else 1) := Nat.mul_pos this (by split <;> omega)
      omega

theorem readChars_others (s : List (Option UInt8)) : ∀ (others : List (UInt8 × List Nat)) (flags f0 : UInt8)
    (buf : Slice) (later : List Slice), (∀ c ∈ others, c.2 ≠ [] ∧ Fits (bit c.1 0) c.2) →
    bit flags 0 = bit f0 0 → (bit ((others.map Prod.fst).getLastD f0) 0 = true → (recordsOf s).1.length ≠ 1) →
    At buf later (others.flatMap (fun c => none :: some c.1 :: (charBytes (bit c.1 0) c.2).map some) ++ s) →
    ∃ buf' later', At buf' later' s ∧
      readChars (others.map Prod.snd).flatten.length flags buf later =
        .ok ((others.map Prod.snd).flatten, buf', later') := by
  intro others
  induction others with
  | nil =>
    intro flags f0 buf later _ _ _ h
    exact ⟨buf, later, h, rfl⟩
  | cons c others ih =>
    intro flags f0 buf later hok hf hodd h
    obtain ⟨hne, hfit⟩ := hok c (by simp)
    rw [List.flatMap_cons, List.cons_append, List.cons_append, List.cons_append, List.cons_append,
      List.append_assoc] at h
    rw [List.map_cons, List.flatten_cons, List.length_append]
    obtain ⟨k, hk⟩ : ∃ k, c.2.length + ((others.map Prod.snd).flatten).length = k + 1 := by
      have := List.length_pos_iff.2 hne
      exact ⟨c.2.length + ((others.map Prod.snd).flatten).length - 1, by omega⟩
    obtain ⟨flags', buf1, later1, hf1, hat1, hr1⟩ := readChars_next flags c.1 c.2 hne _ k buf later h
    rw [hk, hr1, ← hk]
    have hodd1 : bit c.1 0 = true → c.2 ≠ [] →
        (recordsOf (others.flatMap (fun c => none :: some c.1 :: (charBytes (bit c.1 0) c.2).map some) ++ s)).1.length
          ≠ 1 := by
      intro hw _
      cases others with
      | nil => exact hodd hw
      | cons d others => simp [recordsOf]
    obtain ⟨buf2, hat2, hr2⟩ := readChars_chunk flags' (bit c.1 0) hf1 later1 _
      ((others.map Prod.snd).flatten.length) c.2 hfit hodd1 buf1 hat1
    obtain ⟨buf3, later3, hat3, hr3⟩ := ih flags' c.1 buf2 later1 (fun d hd => hok d (by simp [hd])) hf1
      (by
        intro hw
        apply hodd
        cases others with
        | nil => exact hw
        | cons d others => exact hw) hat2
    exact ⟨buf3, later3, hat3, by rw [hr2, hr3]; rfl⟩

/-- The number of bytes of a sequence. -/
def byteCount (t : List (Option UInt8)) : Nat := (t.filterMap id).length

theorem split_cases : ∀ (t : List (Option UInt8)),
    (∃ (bs : Bytes) (j : Nat), t = bs.map some ++ List.replicate j none ∧ byteCount t = bs.length) ∨
    (∃ (bs : Bytes) (t' : List (Option UInt8)), t = bs.map some ++ none :: t' ∧ byteCount t = bs.length + byteCount t' ∧ 0 < byteCount t') := by
  intro t
  induction t with
  | nil => exact Or.inl ⟨[], 0, rfl, rfl⟩
  | cons x t ih =>
    cases x with
    | some b =>
      rcases ih with ⟨bs, j, ht, hc⟩ | ⟨bs, t', ht, hc, hp⟩
      · exact Or.inl ⟨b :: bs, j, by rw [ht]; rfl, by unfold byteCount at hc ⊢; simp; rw [hc]⟩
      · exact Or.inr ⟨b :: bs, t', by rw [ht]; rfl, by unfold byteCount at hc ⊢; simp; rw [hc]; omega, hp⟩
    | none =>
      have hcn : byteCount (none :: t) = byteCount t := by unfold byteCount; simp
      by_cases h0 : byteCount t = 0
      · rcases ih with ⟨bs, j, ht, hc⟩ | ⟨bs, t', ht, hc, hp⟩
        · have : bs = [] := List.length_eq_zero_iff.1 (by omega)
          subst this
          exact Or.inl ⟨[], j + 1, by rw [ht]; rfl, by rw [hcn]; exact h0⟩
        · omega
      · exact Or.inr ⟨[], t, rfl, by rw [hcn]; simp, by omega⟩

theorem at_bytes_none {buf : Slice} {later : List Slice} {bs : Bytes} {s : List (Option UInt8)}
    (h : At buf later (bs.map some ++ none :: s)) :
    buf.val = bs ∧ ∃ r later', later = r :: later' ∧ At r later' s := by
  obtain ⟨hb, h1⟩ := at_some h
  obtain ⟨h2, h3⟩ := at_none h1
  refine ⟨?_, h3⟩
  rw [hb]
  simp [recordsOf]

theorem skipData_spec (s : List (Option UInt8)) : ∀ (later : List Slice) (buf : Slice) (t : List (Option UInt8)),
    At buf later (t ++ s) →
    ∃ buf' later' j, skipData (byteCount t) buf later = .ok (buf', later') ∧
      At buf' later' (List.replicate j none ++ s) := by
  intro later
  induction later with
  | nil =>
    intro buf t h
    rcases split_cases t with ⟨bs, j, ht, hc⟩ | ⟨bs, t', ht, hc, hp⟩
    · rw [hc]
      unfold skipData
      rw [ht, List.append_assoc] at h
      by_cases h0 : bs.length = 0
      · rw [if_pos h0]
        have : bs = [] := List.length_eq_zero_iff.1 h0
        subst this
        exact ⟨buf, [], j, rfl, h⟩
      · obtain ⟨hb, h1⟩ := at_some h
        rw [if_neg h0, if_pos (by rw [hb]; unfold Slice.len; simp), hb, drop_here _ _ _ _ rfl]
        exact ⟨_, _, j, rfl, h1⟩
    · rw [ht, List.append_assoc] at h
      obtain ⟨_, r, l, hl, _⟩ := at_bytes_none h
      cases hl
  | cons r later ih =>
    intro buf t h
    rcases split_cases t with ⟨bs, j, ht, hc⟩ | ⟨bs, t', ht, hc, hp⟩
    · rw [hc]
      unfold skipData
      rw [ht, List.append_assoc] at h
      by_cases h0 : bs.length = 0
      · rw [if_pos h0]
        have : bs = [] := List.length_eq_zero_iff.1 h0
        subst this
        exact ⟨buf, _, j, rfl, h⟩
      · obtain ⟨hb, h1⟩ := at_some h
        rw [if_neg h0, if_pos (by rw [hb]; unfold Slice.len; simp), hb, drop_here _ _ _ _ rfl]
        exact ⟨_, _, j, rfl, h1⟩
    · rw [ht, List.append_assoc] at h
      obtain ⟨hv, r', l, hl, h1⟩ := at_bytes_none h
      cases hl
      obtain ⟨b', l', j, hs, ha⟩ := ih r t' h1
      refine ⟨b', l', j, ?_, ha⟩
      unfold skipData
      have hbl : buf.len = bs.length := by unfold Slice.len; rw [hv]
      rw [hc, if_neg (by omega), if_neg (by omega)]
      simp only
      rw [hbl, show bs.length + byteCount t' - bs.length = byteCount t' by omega, hs]

theorem byteCount_append (a b : List (Option UInt8)) : byteCount (a ++ b) = byteCount a + byteCount b := by
  unfold byteCount; rw [List.filterMap_append, List.length_append]

theorem byteCount_some (b : Bytes) : byteCount (b.map some) = b.length := by
  unfold byteCount; rw [List.filterMap_map]; simp

theorem byteCount_pieces : ∀ (ps : List Bytes), byteCount (pieces ps) = ps.flatten.length := by
  intro ps
  induction ps with
  | nil => rfl
  | cons p ps ih =>
    cases ps with
    | nil => simp [pieces, byteCount_some]
    | cons q ps =>
      rw [pieces, byteCount_append, byteCount_some, List.flatten_cons, List.length_append]
      · congr 1
      · simp

theorem byteCount_replicate (j : Nat) : byteCount (List.replicate j none) = 0 := by
  unfold byteCount
  induction j with
  | zero => rfl
  | succ j ih => simp

/-- The layout of a string without the record break before it. -/
def body (s : SstString) : List (Option UInt8) := SstString.layout { s with newRecord := false }

theorem layout_eq (s : SstString) : s.layout = List.replicate (if s.newRecord then 1 else 0) none ++ body s := by
  unfold body SstString.layout
  cases s.newRecord <;> rfl

theorem recordsOf_append_ne (s t : List (Option UInt8)) (h : (recordsOf s).1.length ≠ 1)
    (ht : (recordsOf t).1.length = 0 ∨ 2 ≤ (recordsOf t).1.length) : (recordsOf (s ++ t)).1.length ≠ 1 := by
  have key : (recordsOf (s ++ t)).1.length = (recordsOf s).1.length ∨
      (recordsOf (s ++ t)).1.length = (recordsOf s).1.length + (recordsOf t).1.length := by
    clear h ht
    induction s with
    | nil => right; simp [recordsOf]
    | cons x s ih =>
      cases x with
      | none => left; rfl
      | some b =>
        simp only [List.cons_append, recordsOf, List.length_cons]
        rcases ih with h | h
        · left; rw [h]
        · right; rw [h]; omega
  omega

theorem readString_spec (s : SstString) (hok : s.Ok) (hlone : NoLoneByte s) (t : List (Option UInt8))
    (ht : (recordsOf t).1.length = 0 ∨ 2 ≤ (recordsOf t).1.length)
    (buf : Slice) (later : List Slice) (h : At buf later (body s ++ t)) :
    ∃ buf' later' j, readString buf later = .ok (u16str s.units, buf', later') ∧
      At buf' later' (List.replicate j none ++ t) := by
  unfold body SstString.layout at h
  simp only [Bool.false_eq_true, if_false, List.nil_append] at h
  have hun : SstString.units { s with newRecord := false } = s.units := rfl
  rw [hun, List.map_append, List.map_cons, List.append_assoc, List.append_assoc, List.append_assoc,
    List.append_assoc, List.cons_append, List.map_append, List.map_append] at h
  simp only [List.append_assoc] at h
  unfold readString
  obtain ⟨hb, h1⟩ := at_some h
  rw [hb, u16_here _ hok.count, GoRes.ok_bind, drop_here _ _ _ _ (by simp [leBytes]), GoRes.ok_bind]
  clear hb h
  generalize (⟨_, buf.rest⟩ : Slice) = buf1 at h1 ⊢
  obtain ⟨hb, h2⟩ := at_cons h1
  rw [hb]
  simp only [Slice.idx, List.getElem?_cons_zero, GoRes.ok_bind, drop_one]
  clear hb h1
  generalize (⟨_, buf1.rest⟩ : Slice) = buf2 at h2 ⊢
  -- the two counts
  have hruns := hok.runs
  have hphon := hok.phonetic
  obtain ⟨h3, e3⟩ : ∃ buf3 : Slice, At buf3 later
      (List.map some (if bit s.flags 2 = true then leBytes 4 s.phonetic.flatten.length else []) ++
        (List.map some (charBytes (bit s.flags 0) s.first) ++
          (List.flatMap (fun c => none :: some c.1 :: (charBytes (bit c.1 0) c.2).map some) s.others ++
            (pieces s.runs ++ (pieces s.phonetic ++ t))))) ∧
      runBytes s.flags buf2 = .ok (s.runs.flatten.length, buf3) := by
    unfold runBytes
    by_cases hc : bit s.flags 3 = true
    · rw [if_pos hc] at hruns
      rw [if_pos hc] at h2
      obtain ⟨hb, h3⟩ := at_some h2
      refine ⟨_, h3, ?_⟩
      rw [if_pos ((flag3 _).2 hc), hb, u16_here _ hruns.2, GoRes.ok_bind, drop_here _ _ _ _ (by simp [leBytes]),
        GoRes.ok_bind, show s.runs.flatten.length / 4 * 4 = s.runs.flatten.length by omega]
      rfl
    · rw [if_neg hc] at hruns
      rw [if_neg hc] at h2
      refine ⟨buf2, h2, ?_⟩
      rw [if_neg (fun hx => hc ((flag3 _).1 hx)), hruns]
      rfl
  rw [e3.2, GoRes.ok_bind]
  have e4 := e3.1
  clear e3 h2
  generalize h3 = buf3 at e4 ⊢
  obtain ⟨h4, e5, e6⟩ : ∃ buf4 : Slice, At buf4 later
        (List.map some (charBytes (bit s.flags 0) s.first) ++
          (List.flatMap (fun c => none :: some c.1 :: (charBytes (bit c.1 0) c.2).map some) s.others ++
            (pieces s.runs ++ (pieces s.phonetic ++ t)))) ∧
      extBytes s.flags buf3 = .ok (s.phonetic.flatten.length, buf4) := by
    unfold extBytes
    by_cases hc : bit s.flags 2 = true
    · rw [if_pos hc] at hphon
      rw [if_pos hc] at e4
      obtain ⟨hb, h3⟩ := at_some e4
      refine ⟨_, h3, ?_⟩
      rw [if_pos ((flag2 _).2 hc), hb, u32_here _ hphon, GoRes.ok_bind, drop_here _ _ _ _ (by simp [leBytes]),
        GoRes.ok_bind]
      rfl
    · rw [if_neg hc] at hphon
      rw [if_neg hc] at e4
      refine ⟨buf3, e4, ?_⟩
      rw [if_neg (fun hx => hc ((flag2 _).1 hx)), hphon]
      rfl
  rw [e6, GoRes.ok_bind]
  clear e4 e6
  -- the characters
  have hlone2 : lastWide s = true → (recordsOf (pieces s.runs ++ (pieces s.phonetic ++ t))).1.length ≠ 1 := by
    intro hw
    rw [← List.append_assoc]
    exact recordsOf_append_ne _ _ (hlone hw) ht
  obtain ⟨buf5, hat5, hr5⟩ := readChars_chunk s.flags (bit s.flags 0) rfl later _
    ((s.others.map Prod.snd).flatten.length) s.first hok.first
    (by
      intro hw _
      cases ho : s.others with
      | nil =>
        apply hlone2
        unfold lastWide
        rw [ho]
        exact hw
      | cons c others => simp [recordsOf]) h4 e5
  obtain ⟨buf6, later6, hat6, hr6⟩ := readChars_others _ s.others s.flags s.flags buf5 later hok.others rfl hlone2 hat5
  have hcount : s.units.length = s.first.length + (s.others.map Prod.snd).flatten.length := by
    unfold SstString.units; rw [List.length_append]
  rw [hcount, hr5, hr6]
  simp only [GoRes.ok_bind]
  -- the data
  obtain ⟨buf7, later7, j7, hr7, hat7⟩ := skipData_spec _ later6 buf6 (pieces s.runs) hat6
  rw [byteCount_pieces] at hr7
  rw [hr7, GoRes.ok_bind]
  rw [← List.append_assoc] at hat7
  obtain ⟨buf8, later8, j8, hr8, hat8⟩ := skipData_spec _ later7 buf7 (List.replicate j7 none ++ pieces s.phonetic) hat7
  rw [byteCount_append, byteCount_replicate, Nat.zero_add, byteCount_pieces] at hr8
  simp only [hr8, GoRes.ok_bind]
  exact ⟨buf8, later8, j8, rfl, hat8⟩

/-! ### The whole table -/

theorem recordsOf_layouts (ss : List SstString) :
    (recordsOf (ss.flatMap SstString.layout)).1.length = 0 ∨
      2 ≤ (recordsOf (ss.flatMap SstString.layout)).1.length := by
  cases ss with
  | nil => left; rfl
  | cons s ss =>
    rw [List.flatMap_cons]
    unfold SstString.layout
    cases s.newRecord with
    | true => left; simp [recordsOf]
    | false =>
      right
      simp only [Bool.false_eq_true, if_false, List.nil_append, List.append_assoc]
      rw [recordsOf_some]
      simp only [List.length_append, List.length_cons, leBytes]
      omega

theorem sstLoop_spec : ∀ (fuel j : Nat) (ss : List SstString) (buf : Slice) (later : List Slice),
    (∀ s ∈ ss, s.Ok ∧ NoLoneByte s) → At buf later (List.replicate j none ++ ss.flatMap SstString.layout) →
    sstLoop fuel buf later = none ∨
      sstLoop fuel buf later = some (.ok (ss.map (fun s => u16str s.units))) := by
  intro fuel
  induction fuel with
  | zero => intro j ss buf later _ _; left; rfl
  | succ fuel ih =>
    intro j ss buf later hss h
    unfold sstLoop
    cases j with
    | succ j =>
      rw [List.replicate_succ, List.cons_append] at h
      obtain ⟨hv, r, later', rfl, h1⟩ := at_none h
      rw [if_neg (by unfold Slice.len; rw [hv]; simp)]
      exact ih j ss r later' hss h1
    | zero =>
      rw [List.replicate_zero, List.nil_append] at h
      cases ss with
      | nil =>
        obtain ⟨h1, h2⟩ := h
        have h1 : buf.val = [] := h1
        have h2 : later.map Slice.val = [] := h2
        have h3 : later = [] := List.map_eq_nil_iff.1 h2
        subst h3
        right
        rw [if_neg (by unfold Slice.len; rw [h1]; simp)]
        rfl
      | cons s ss =>
        rw [List.flatMap_cons, layout_eq] at h
        cases hn : s.newRecord with
        | true =>
          rw [hn, if_pos rfl, List.append_assoc, List.replicate_succ, List.cons_append] at h
          obtain ⟨hv, r, later', rfl, h1⟩ := at_none h
          rw [if_neg (by unfold Slice.len; rw [hv]; simp)]
          have h2 : At r later' (List.replicate 0 none ++
              ({ s with newRecord := false } :: ss).flatMap SstString.layout) := by
            rw [List.flatMap_cons]; exact h1
          have := ih 0 ({ s with newRecord := false } :: ss) r later' (by
            intro x hx
            rcases List.mem_cons.1 hx with rfl | hx
            · obtain ⟨a, b⟩ := hss s (by simp)
              exact ⟨⟨a.count, a.first, a.others, a.runs, a.phonetic⟩, b⟩
            · exact hss x (by simp [hx])) h2
          exact this
        | false =>
          rw [hn] at h
          simp only [Bool.false_eq_true, if_false, List.replicate_zero, List.nil_append] at h
          obtain ⟨a, b⟩ := hss s (by simp)
          obtain ⟨buf', later', j', hr, hat⟩ := readString_spec s a b _ (recordsOf_layouts ss) buf later h
          have hlen : 0 < buf.len := by
            have h1 := h.1
            unfold body SstString.layout at h1
            simp only [Bool.false_eq_true, if_false, List.nil_append, List.append_assoc] at h1
            rw [recordsOf_some] at h1
            unfold Slice.len
            rw [h1]
            simp only [List.length_append, List.length_cons]
            omega
          rw [if_pos hlen, hr]
          simp only
          rcases ih j' ss buf' later' (fun x hx => hss x (by simp [hx])) hat with hq | hq
          · left; rw [hq]
          · right; rw [hq]; rfl

/-! ### Termination -/

theorem dropFrom_len {s b : Slice} {n : Nat} (h : s.dropFrom n = .ok b) : b.len + n = s.len := by
  unfold Slice.dropFrom at h
  split at h
  · cases h
    unfold Slice.len
    simp
    omega
  · cases h

theorem readChar_size {flags : UInt8} {buf b : Slice} {c : Nat} (h : readChar flags buf = .ok (c, b)) :
    b.len ≤ buf.len := by
  unfold readChar at h
  split at h
  · simp only [GoRes.bind_eq_ok] at h
    obtain ⟨_, _, b', hb, h⟩ := h
    cases h
    have := dropFrom_len hb
    omega
  · simp only [GoRes.bind_eq_ok] at h
    obtain ⟨_, _, _, _, b', hb, h⟩ := h
    split at h
    · cases h
    · cases h
      have := dropFrom_len hb
      omega

theorem nextChars_size {flags f : UInt8} {buf b : Slice} {later l : List Slice}
    (h : nextChars flags later = .ok (f, b, l)) : sstFuel b l ≤ sstFuel buf later := by
  unfold nextChars at h
  cases later with
  | nil => cases h
  | cons r later =>
    simp only [GoRes.bind_eq_ok] at h
    obtain ⟨_, _, b', hb, h⟩ := h
    cases h
    have := dropFrom_len hb
    unfold sstFuel
    simp only [List.map_cons, List.sum_cons]
    omega

theorem readChars_size : ∀ (n : Nat) (flags : UInt8) (buf : Slice) (later : List Slice) (cs : List Nat) (b : Slice)
    (l : List Slice), readChars n flags buf later = .ok (cs, b, l) → sstFuel b l ≤ sstFuel buf later := by
  intro n
  induction n with
  | zero => intro _ _ _ _ _ _ h; cases h; exact Nat.le_refl _
  | succ n ih =>
    intro flags buf later cs b l h
    rw [readChars] at h
    have step : ∀ (flags : UInt8) (buf : Slice) (later : List Slice),
        (do let (c, buf) ← readChar flags buf
            let (cs, buf, later) ← readChars n flags buf later
            pure (c :: cs, buf, later) : GoRes (List Nat × Slice × List Slice)) = .ok (cs, b, l) →
        sstFuel b l ≤ sstFuel buf later := by
      intro flags buf later h
      simp only [GoRes.bind_eq_ok] at h
      obtain ⟨⟨c, b1⟩, h1, ⟨cs2, b2, l2⟩, h2, h3⟩ := h
      cases h3
      have e1 := readChar_size h1
      have e2 := ih _ _ _ _ _ _ h2
      unfold sstFuel at e2 ⊢
      simp only at e2 ⊢
      omega
    split at h
    · rw [GoRes.bind_eq_ok] at h
      obtain ⟨⟨f, b1, l1⟩, h1, h2⟩ := h
      exact Nat.le_trans (step f b1 l1 h2) (nextChars_size h1)
    · exact step flags buf later h

theorem skipData_size : ∀ (later : List Slice) (n : Nat) (buf b : Slice) (l : List Slice),
    skipData n buf later = .ok (b, l) → sstFuel b l ≤ sstFuel buf later := by
  intro later
  induction later with
  | nil =>
    intro n buf b l h
    unfold skipData at h
    split at h
    · cases h; exact Nat.le_refl _
    · split at h
      · simp only [GoRes.bind_eq_ok] at h
        obtain ⟨b', hb, h⟩ := h
        cases h
        have := dropFrom_len hb
        unfold sstFuel
        omega
      · cases h
  | cons r later ih =>
    intro n buf b l h
    unfold skipData at h
    split at h
    · cases h; exact Nat.le_refl _
    · split at h
      · simp only [GoRes.bind_eq_ok] at h
        obtain ⟨b', hb, h⟩ := h
        cases h
        have := dropFrom_len hb
        unfold sstFuel
        omega
      · have := ih _ _ _ _ h
        unfold sstFuel at this ⊢
        simp only [List.map_cons, List.sum_cons]
        omega

theorem runBytes_size {flags : UInt8} {buf b : Slice} {n : Nat} (h : runBytes flags buf = .ok (n, b)) :
    b.len ≤ buf.len := by
  unfold runBytes at h
  split at h
  · simp only [GoRes.bind_eq_ok] at h
    obtain ⟨_, _, b', hb, h⟩ := h
    cases h
    have := dropFrom_len hb
    omega
  · cases h; exact Nat.le_refl _

theorem extBytes_size {flags : UInt8} {buf b : Slice} {n : Nat} (h : extBytes flags buf = .ok (n, b)) :
    b.len ≤ buf.len := by
  unfold extBytes at h
  split at h
  · simp only [GoRes.bind_eq_ok] at h
    obtain ⟨_, _, b', hb, h⟩ := h
    cases h
    have := dropFrom_len hb
    omega
  · cases h; exact Nat.le_refl _

theorem readString_size {buf b : Slice} {later l : List Slice} {s : Bytes}
    (h : readString buf later = .ok (s, b, l)) : sstFuel b l < sstFuel buf later := by
  unfold readString at h
  simp only [GoRes.bind_eq_ok] at h
  obtain ⟨_, _, b1, h1, _, _, b2, h2, ⟨n3, b3⟩, h3, ⟨n4, b4⟩, h4, ⟨us, b5, l5⟩, h5, ⟨b6, l6⟩, h6, ⟨b7, l7⟩, h7, h8⟩ := h
  cases h8
  have e1 := dropFrom_len h1
  have e2 := dropFrom_len h2
  have e3 := runBytes_size h3
  have e4 := extBytes_size h4
  have e5 := readChars_size _ _ _ _ _ _ _ h5
  have e6 := skipData_size _ _ _ _ _ h6
  have e7 := skipData_size _ _ _ _ _ h7
  simp only at e4 e5 e6 e7
  unfold sstFuel at *
  simp only at *
  omega

/-- The loops end: the fuel always suffices. -/
theorem sstLoop_fuel : ∀ (fuel : Nat) (buf : Slice) (later : List Slice), sstFuel buf later ≤ fuel →
    sstLoop fuel buf later ≠ none := by
  intro fuel
  induction fuel with
  | zero => intro buf later h; unfold sstFuel at h; omega
  | succ fuel ih =>
    intro buf later h
    unfold sstLoop
    split
    · cases hr : readString buf later with
      | err e => simp
      | panic => simp
      | ok x =>
        obtain ⟨s, b, l⟩ := x
        have := readString_size hr
        have hne := ih b l (by omega)
        simp only
        cases hq : sstLoop fuel b l with
        | none => exact absurd hq hne
        | some y => cases y <;> simp
    · cases later with
      | nil => simp
      | cons r later =>
        apply ih
        unfold sstFuel at h ⊢
        simp only [List.map_cons, List.sum_cons] at h
        omega

end Grate.Xls
