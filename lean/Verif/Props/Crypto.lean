import Verif.Lemmas.Crypto

/-! # C40-C42: decryption of workbooks

`p : Prims` are MD5 and RC4; all that is used about them is that digests have 16 bytes. -/

namespace Grate.Props

open Crypto Spec

/-- Digests have 16 bytes. -/
def Digest (p : Prims) : Prop := ∀ b, (p.md5 b).length = 16

theorem utf16_password (password : Bytes) :
    (password.map UInt8.toNat).flatMap (fun c => put16 (c % 65536)) = passwordBytes password := by
  unfold passwordBytes
  induction password with
  | nil => rfl
  | cons c cs ih =>
    rw [List.map_cons, List.flatMap_cons, List.flatMap_cons, ih]
    congr 1
    have h := c.toNat_lt
    unfold put16
    rw [show c.toNat % 65536 % 256 = c.toNat by omega, show c.toNat % 65536 / 256 % 256 = 0 by omega]
    simp

theorem generate_eq (p : Prims) (password salt : Bytes) (h : password ≠ []) (hs : salt.length = 16) :
    generateStd97Key p (password.map UInt8.toNat) salt = .ok (encryptionKey p.md5 password salt) := by
  unfold generateStd97Key encryptionKey
  rw [if_neg (by rw [List.length_map]; have := List.length_pos_iff.2 h; omega), utf16_password]

theorem streamOf_eq (p : Prims) (password salt : Bytes) :
    streamOf p (encryptionKey p.md5 password salt) = keyStream p.md5 p.rc4 password salt := rfl

theorem default_ne : defaultPassword ≠ [] := by decide +kernel

/-- A header as stored in the FilePass record. -/
structure Header where
  major : Bytes
  minor : Nat
  salt : Bytes
  verifier : Bytes
  hash : Bytes

/-- The bytes of a header. -/
def Header.bytes (h : Header) : Bytes := h.major ++ leBytes 2 h.minor ++ h.salt ++ h.verifier ++ h.hash

/-- The sizes of the fields. -/
def Header.Ok (h : Header) : Prop :=
  h.major.length = 2 ∧ h.minor < 65536 ∧ h.salt.length = 16 ∧ h.verifier.length = 16 ∧ h.hash.length = 16

/-- The header matches the password: decrypt verifier and hash as one stretch of 32 bytes from the start of
the key stream, the first half must hash to the second. -/
def Header.Matches (p : Prims) (h : Header) (password : Bytes) : Prop :=
  let plain := xorStream (keyStream p.md5 p.rc4 password h.salt) (h.verifier ++ h.hash)
  p.md5 (plain.take 16) = plain.drop 16

/-- The decrypter in its initial state for a salt: nothing written, default password in use. -/
def initial (p : Prims) (salt : Bytes) : Rc4 :=
  ⟨0, 0, List.replicate 1024 0, [], some (encryptionKey p.md5 defaultPassword salt), salt⟩

theorem newBasic_eq (p : Prims) (hd : Digest p) (h : Header) (hk : h.Ok) :
    newBasicRC4 p h.bytes =
      (if h.minor ≠ 1 then .err (.msg "xls: unknown basic-RC4 minor version")
       else if p.md5 (xorKs (keyStream p.md5 p.rc4 defaultPassword h.salt) 0 h.verifier) =
           xorKs (keyStream p.md5 p.rc4 defaultPassword h.salt) 16 h.hash then .ok (initial p h.salt)
       else .err (.msg "verification failed")) := by
  obtain ⟨h1, h2, h3, h4, h5⟩ := hk
  have hl : h.bytes.length = 52 := by
    unfold Header.bytes; simp only [List.length_append, h1, h3, h4, h5]; simp [leBytes]
  have e2 : (h.bytes.drop 2).take 2 = leBytes 2 h.minor := by
    unfold Header.bytes
    simp only [List.append_assoc]
    rw [← h1, List.drop_left, h1]
    exact List.take_left' (by simp [leBytes])
  have e4 : (h.bytes.drop 4).take 16 = h.salt := by
    unfold Header.bytes
    rw [List.append_assoc, List.append_assoc, List.drop_left' (by simp [h1, leBytes]), List.take_left' h3]
  have e20 : (h.bytes.drop 20).take 16 = h.verifier := by
    unfold Header.bytes
    rw [List.append_assoc, List.drop_left' (by simp [h1, h3, leBytes]), List.take_left' h4]
  have e36 : (h.bytes.drop 36).take 16 = h.hash := by
    unfold Header.bytes
    rw [List.drop_left' (by simp [h1, h3, h4, leBytes]), List.take_of_length_le (by omega)]
  unfold newBasicRC4
  rw [if_neg (by omega), if_neg (by omega), e2, e4, e20, e36]
  have hm : leBytes 2 h.minor ≠ [1, 0] ↔ h.minor ≠ 1 := by
    constructor
    · rintro h e; exact h (by rw [e]; rfl)
    · intro hn e
      simp only [leBytes, List.cons.injEq, and_true] at e
      have a := congrArg UInt8.toNat e.1
      have b := congrArg UInt8.toNat e.2
      simp at a b
      omega
  by_cases hmin : h.minor = 1
  · rw [if_neg (fun h => hm.1 h hmin), if_neg (by omega), if_neg (by simpa using hmin)]
    unfold verify reset
    have hkey : KeyIs p (⟨0, 0, List.replicate 1024 0, [], none, h.salt⟩ : Rc4)
        (encryptionKey p.md5 defaultPassword h.salt) :=
      ⟨by have : (encryptionKey p.md5 defaultPassword h.salt).length = 16 := hd _
          omega, Or.inr ⟨rfl, generate_eq p _ _ default_ne h3⟩⟩
    simp only [startBlock_eq hkey, GoRes.ok_bind]
    have hx := xorKs_block p (encryptionKey p.md5 defaultPassword h.salt) 0
    simp only [Nat.zero_mod, Nat.mul_zero, Nat.zero_add, streamOf_eq] at hx
    rw [hx h.verifier 0 (by omega), h4, hx h.hash 16 (by omega)]
    rfl
  · rw [if_pos (hm.2 hmin), if_pos hmin]

/-- C42: an encryption header is accepted exactly if its version is supported and its verifier matches under
the default password; then the decrypter is ready to decrypt with that password and the header's salt. In all
other cases there is an error, for any bytes. -/
theorem C42_verify (p : Prims) (hd : Digest p) :
    (∀ h : Header, h.Ok → (newBasicRC4 p h.bytes = .ok (initial p h.salt) ↔
      h.minor = 1 ∧ h.Matches p defaultPassword)) ∧
    (∀ b : Bytes, (∃ d, newBasicRC4 p b = .ok d) ↔
      ∃ h : Header, h.Ok ∧ h.bytes = b ∧ h.minor = 1 ∧ h.Matches p defaultPassword) ∧
    (∀ b : Bytes, newBasicRC4 p b ≠ .panic) := by
  have hmatch : ∀ h : Header, h.Ok → (h.Matches p defaultPassword ↔
      p.md5 (xorKs (keyStream p.md5 p.rc4 defaultPassword h.salt) 0 h.verifier) =
           xorKs (keyStream p.md5 p.rc4 defaultPassword h.salt) 16 h.hash) := by
    intro h hk
    unfold Header.Matches
    simp only
    have hl : (xorKs (keyStream p.md5 p.rc4 defaultPassword h.salt) 0 h.verifier).length = 16 := by
      rw [xorKs_length, hk.2.2.2.1]
    rw [← xorKs_eq_stream, xorKs_append, List.take_left' hl, List.drop_left' hl, hk.2.2.2.1]
  have first : ∀ h : Header, h.Ok → (newBasicRC4 p h.bytes = .ok (initial p h.salt) ↔
      h.minor = 1 ∧ h.Matches p defaultPassword) := by
    intro h hk
    rw [newBasic_eq p hd h hk, hmatch h hk]
    by_cases h1 : h.minor = 1
    · rw [if_neg (by simpa using h1)]
      split
      · rename_i h2; exact ⟨fun _ => ⟨h1, h2⟩, fun _ => rfl⟩
      · rename_i h2; exact ⟨fun hx => by simp at hx, fun hx => absurd hx.2 h2⟩
    · rw [if_pos h1]
      exact ⟨fun hx => by simp at hx, fun hx => absurd hx.1 h1⟩
  have parse : ∀ b : Bytes, b.length = 52 → ∃ h : Header, h.Ok ∧ h.bytes = b := by
    intro b hb
    refine ⟨⟨b.take 2, ((b.drop 2).headD 0).toNat + 256 * ((b.drop 3).headD 0).toNat, (b.drop 4).take 16,
      (b.drop 20).take 16, b.drop 36⟩, ?_, ?_⟩
    · refine ⟨?_, ?_, ?_, ?_, ?_⟩
      · simp only [List.length_take]; omega
      · simp only
        have h1 := ((b.drop 2).headD 0).toNat_lt
        have h2 := ((b.drop 3).headD 0).toNat_lt
        omega
      · simp only [List.length_take, List.length_drop]; omega
      · simp only [List.length_take, List.length_drop]; omega
      · simp only [List.length_drop]; omega
    · unfold Header.bytes
      simp only
      have e1 : leBytes 2 (((b.drop 2).headD 0).toNat + 256 * ((b.drop 3).headD 0).toNat) = (b.drop 2).take 2 := by
        match b, hb with
        | a0 :: a1 :: a2 :: a3 :: rest, _ =>
          simp only [List.drop_succ_cons, List.drop_zero, List.headD_cons, List.take_succ_cons, List.take_zero, leBytes]
          have h2 := a2.toNat_lt
          have h3 := a3.toNat_lt
          rw [show (a2.toNat + 256 * a3.toNat) % 256 = a2.toNat by omega,
            show (a2.toNat + 256 * a3.toNat) / 256 % 256 = a3.toNat by omega, UInt8.ofNat_toNat, UInt8.ofNat_toNat]
      rw [e1]
      have j : ∀ (i k : Nat), b.take i ++ (b.drop i).take k = b.take (i + k) := by
        intro i k; rw [List.take_add]
      rw [j, j, j, List.take_append_drop]
  have other : ∀ b : Bytes, b.length ≠ 52 → ∃ e, newBasicRC4 p b = .err e := by
    intro b hb
    unfold newBasicRC4
    split
    · exact ⟨_, rfl⟩
    · split
      · exact ⟨_, rfl⟩
      · split
        · exact ⟨_, rfl⟩
        · exact ⟨_, rfl⟩
  refine ⟨first, ?_, ?_⟩
  · intro b
    constructor
    · rintro ⟨d, hdk⟩
      by_cases hb : b.length = 52
      · obtain ⟨h, hk, rfl⟩ := parse b hb
        have hdk2 := hdk
        rw [newBasic_eq p hd h hk] at hdk2
        split at hdk2
        · simp at hdk2
        · split at hdk2
          · rename_i h1 h2
            exact ⟨h, hk, rfl, by simpa using h1, (hmatch h hk).2 h2⟩
          · simp at hdk2
      · obtain ⟨e, he⟩ := other b hb
        rw [he] at hdk; simp at hdk
    · rintro ⟨h, hk, rfl, h1, h2⟩
      exact ⟨_, (first h hk).2 ⟨h1, h2⟩⟩
  · intro b hp
    by_cases hb : b.length = 52
    · obtain ⟨h, hk, rfl⟩ := parse b hb
      rw [newBasic_eq p hd h hk] at hp
      split at hp
      · simp at hp
      · split at hp <;> simp at hp
    · obtain ⟨e, he⟩ := other b hb
      rw [he] at hp; simp at hp

/-- A decrypter that is ready: as it comes out of the header check, or after `SetPassword` on such a one, or
after `Reset` of anything that was written to it. -/
def Ready (p : Prims) (salt password : Bytes) (d : Rc4) : Prop :=
  d.block = 0 ∧ d.offset = 0 ∧ d.buf = [] ∧ d.bytes.length = 1024 ∧ d.salt = salt ∧
    d.encKey = some (encryptionKey p.md5 password salt)

theorem initial_ready (p : Prims) (salt : Bytes) : Ready p salt defaultPassword (initial p salt) :=
  ⟨rfl, rfl, rfl, List.length_replicate, rfl, rfl⟩

theorem setPassword_ready (p : Prims) {salt old password : Bytes} {d : Rc4} (h : Ready p salt old d)
    (hs : salt.length = 16) (hp : password ≠ []) : ∃ d', setPassword p d password = .ok d' ∧ Ready p salt password d' := by
  obtain ⟨h1, h2, h3, h4, h5, h6⟩ := h
  refine ⟨{ d with encKey := some (encryptionKey p.md5 password salt) }, ?_, h1, h2, h3, h4, h5, rfl⟩
  unfold setPassword
  rw [h5, generate_eq p password salt hp hs]
  rfl

theorem ready_rep {p : Prims} (hd : Digest p) {salt password : Bytes} {d : Rc4} (h : Ready p salt password d) :
    Rep p (encryptionKey p.md5 password salt) d [] := by
  obtain ⟨h1, h2, h3, h4, h5, h6⟩ := h
  have : (encryptionKey p.md5 password salt).length = 16 := hd _
  exact rep_fresh ⟨by omega, Or.inl h6⟩ h4 h2 h1 h3

/-- `Write` for each of a list of chunks. -/
def writes (p : Prims) (d : Rc4) (ws : List Bytes) : GoRes Rc4 := ws.foldlM (writeAll p) d

theorem writes_rep {p : Prims} {K : Bytes} : ∀ (ws : List Bytes) (d : Rc4) (W : Bytes), Rep p K d W →
    ∃ d', writes p d ws = .ok d' ∧ Rep p K d' (W ++ ws.flatten) := by
  intro ws
  induction ws with
  | nil => intro d W h; exact ⟨d, rfl, by simpa using h⟩
  | cons w ws ih =>
    intro d W h
    obtain ⟨d1, hw, h1⟩ := writeAll_rep h w
    obtain ⟨d2, hws, h2⟩ := ih d1 _ h1
    refine ⟨d2, ?_, by rw [List.flatten_cons, ← List.append_assoc]; exact h2⟩
    unfold writes at hws ⊢
    rw [List.foldlM_cons, hw, GoRes.ok_bind, hws]

/-- C40: whatever chunks are written, after `Flush` the readable bytes are the concatenation XOR the key
stream, byte `k` with byte `k % 1024` of the stream of block `k / 1024`. Before `Flush` the readable bytes are
those of the complete blocks. -/
theorem C40_chunks (p : Prims) (hd : Digest p) {salt password : Bytes} {d : Rc4} (h : Ready p salt password d)
    (ws : List Bytes) :
    ∃ d' d'', writes p d ws = .ok d' ∧ flush p d' = .ok d'' ∧
      d'.buf = xorStream (keyStream p.md5 p.rc4 password salt) (ws.flatten.take (1024 * (ws.flatten.length / 1024))) ∧
      d''.buf = xorStream (keyStream p.md5 p.rc4 password salt) ws.flatten := by
  obtain ⟨d', hw, hr⟩ := writes_rep ws d [] (ready_rep hd h)
  rw [List.nil_append] at hr
  obtain ⟨d'', hf, hb⟩ := flush_rep hr
  refine ⟨d', d'', hw, hf, ?_, ?_⟩
  · rw [hr.buf, streamOf_eq, xorKs_eq_stream]
  · rw [hb, streamOf_eq, xorKs_eq_stream]

/-- C40: two ways of cutting the same bytes give the same output. -/
theorem C40_same (p : Prims) (hd : Digest p) {salt password : Bytes} {d : Rc4} (h : Ready p salt password d)
    (ws ws' : List Bytes) (hsame : ws.flatten = ws'.flatten) :
    ∃ d1 d2, (writes p d ws >>= flush p) = .ok d1 ∧ (writes p d ws' >>= flush p) = .ok d2 ∧ d1.buf = d2.buf := by
  obtain ⟨a, b, h1, h2, _, h4⟩ := C40_chunks p hd h ws
  obtain ⟨a', b', h1', h2', _, h4'⟩ := C40_chunks p hd h ws'
  exact ⟨b, b', by rw [h1, GoRes.ok_bind, h2], by rw [h1', GoRes.ok_bind, h2'], by rw [h4, h4', hsame]⟩

theorem flush_keeps {p : Prims} {d d' : Rc4} {K : Bytes} (h : flush p d = .ok d') (hk : d.encKey = some K) :
    d'.encKey = some K ∧ d'.salt = d.salt := by
  unfold flush startBlock at h
  split at h
  · simp at h
  · simp only [hk, GoRes.pure_eq, GoRes.ok_bind] at h
    split at h
    · simp at h
    · simp only [GoRes.ok_bind] at h
      cases h
      exact ⟨hk, rfl⟩

theorem write_keeps {p : Prims} {K : Bytes} : ∀ (fuel : Nat) (d d' : Rc4) (w : Bytes), write p fuel d w = some (.ok d') →
    d.encKey = some K → d'.encKey = some K ∧ d'.salt = d.salt := by
  intro fuel
  induction fuel with
  | zero => intro d d' w h; simp [write] at h
  | succ fuel ih =>
    intro d d' w h hk
    unfold write at h
    split at h
    · simp at h; subst h; exact ⟨hk, rfl⟩
    · split at h
      · simp at h
      · simp only at h
        split at h
        · split at h
          · rename_i d1 hf
            have h1 := flush_keeps hf hk
            have h2 := ih d1 d' _ h h1.1
            exact ⟨h2.1, h2.2.trans h1.2⟩
          · simp at h
          · simp at h
        · have h2 := ih _ d' _ h (show _ = some K from hk)
          exact ⟨h2.1, h2.2⟩

theorem writes_keeps {p : Prims} {K : Bytes} : ∀ (ws : List Bytes) (d d' : Rc4), writes p d ws = .ok d' →
    d.encKey = some K → d'.encKey = some K ∧ d'.salt = d.salt := by
  intro ws
  induction ws with
  | nil => intro d d' h hk; cases h; exact ⟨hk, rfl⟩
  | cons w ws ih =>
    intro d d' h hk
    unfold writes at h ih
    rw [List.foldlM_cons] at h
    obtain ⟨d1, h1, h2⟩ := GoRes.bind_eq_ok.1 h
    have hw : d1.encKey = some K ∧ d1.salt = d.salt := by
      unfold writeAll at h1
      cases hx : write p (w.length + 2) d w with
      | none => rw [hx] at h1; simp at h1
      | some x =>
        rw [hx] at h1
        simp only [Option.getD_some] at h1
        subst h1
        exact write_keeps _ _ _ _ hx hk
    have h3 := ih d1 d' h2 hw.1
    exact ⟨h3.1, h3.2.trans hw.2⟩

/-- C40: `Reset` makes a used decrypter ready again, whatever was written. -/
theorem C40_reset (p : Prims) (hd : Digest p) {salt password : Bytes} {d d' : Rc4} (h : Ready p salt password d)
    (ws : List Bytes) (hw : writes p d ws = .ok d') : Ready p salt password (reset d') := by
  obtain ⟨d1, hw1, hr⟩ := writes_rep ws d [] (ready_rep hd h)
  have hk := writes_keeps ws d d' hw h.2.2.2.2.2
  rw [hw] at hw1
  cases hw1
  exact ⟨rfl, rfl, rfl, hr.len, hk.2.trans h.2.2.2.2.1, hk.1⟩

/-- C41: an encrypted stream whose last record has data is restored exactly. -/
theorem C41_restores_partial (p : Prims) (hd : Digest p) {salt password : Bytes} {d : Rc4}
    (h : Ready p salt password d) (rs : List Record) (r : Record) (hok : ∀ x ∈ rs ++ [r], x.Ok) (hr : r.data ≠ [])
    (rest : Bytes) :
    decryptStream p ⟨encrypted (keyStream p.md5 p.rc4 password salt) (rs ++ [r]), rest⟩ d =
      .ok (stream (rs ++ [r])) := by
  have := decryptStream_spec rest (rs ++ [r]) (ready_rep hd h) hok
  rw [handled_concat, if_neg hr] at this
  exact this

/-- C41: but if the last record has no data (such as the final EOF record of every workbook) it is lost, and
all others are restored. -/
theorem C41_actual (p : Prims) (hd : Digest p) {salt password : Bytes} {d : Rc4}
    (h : Ready p salt password d) (rs : List Record) (r : Record) (hok : ∀ x ∈ rs ++ [r], x.Ok) (hr : r.data = [])
    (rest : Bytes) :
    decryptStream p ⟨encrypted (keyStream p.md5 p.rc4 password salt) (rs ++ [r]), rest⟩ d = .ok (stream rs) := by
  have := decryptStream_spec rest (rs ++ [r]) (ready_rep hd h) hok
  rw [handled_concat, if_pos hr] at this
  exact this

/-! ### Witnesses -/

/-- Stand-ins for MD5 and RC4 to compute examples with. -/
def toy : Prims where
  md5 b := (List.range 16).map (fun i => b.foldl (fun a x => 3 * a + x) (UInt8.ofNat i))
  rc4 k i := UInt8.ofNat (7 * i) + k.getD (i % 16) 0

theorem toy_digest : Digest toy := by intro b; simp [toy]

/-- A header made with the default password, and the same with one bit of the hash changed. -/
def exHeader (flip : UInt8) : Header :=
  let salt := (List.range 16).map UInt8.ofNat
  let plain := List.replicate 16 (42 : UInt8)
  let c := xorStream (keyStream toy.md5 toy.rc4 defaultPassword salt) (plain ++ toy.md5 plain)
  ⟨[1, 0], 1, salt, c.take 16, (c.drop 16).take 15 ++ [(c.getD 31 0) ^^^ flip]⟩

theorem C42_witness :
    (exHeader 0).Ok ∧ (exHeader 0).Matches toy defaultPassword ∧ (exHeader 1).Ok ∧
    ¬ (exHeader 1).Matches toy defaultPassword := by
  unfold Header.Ok Header.Matches
  decide +kernel

/-- The decrypter is ready after checking the header. -/
theorem C40_witness :
    ∃ d, newBasicRC4 toy (exHeader 0).bytes = .ok d ∧ Ready toy (exHeader 0).salt defaultPassword d :=
  ⟨_, ((C42_verify toy toy_digest).1 _ C42_witness.1).2 ⟨rfl, C42_witness.2.1⟩, initial_ready _ _⟩

/-- BOF, BoundSheet8, some other record, EOF. -/
def exRecords : List Record :=
  [⟨0x809, [0, 6, 5, 0]⟩, ⟨0x85, [9, 9, 9, 9, 1, 2, 3]⟩, ⟨0x204, List.replicate 1500 77⟩, ⟨0x0A, []⟩]

theorem C41_witness : (∀ r ∈ exRecords, r.Ok) ∧
    encrypted (keyStream toy.md5 toy.rc4 defaultPassword (exHeader 0).salt) exRecords ≠ stream exRecords := by
  unfold Record.Ok
  decide +kernel

/-- C41 is false as stated: the EOF record at the end is lost. -/
theorem C41_counterexample : ∃ (p : Prims) (salt : Bytes) (d : Rc4) (rs : List Record),
    Digest p ∧ Ready p salt defaultPassword d ∧ (∀ r ∈ rs, r.Ok) ∧
    decryptStream p ⟨encrypted (keyStream p.md5 p.rc4 defaultPassword salt) rs, []⟩ d ≠ .ok (stream rs) := by
  refine ⟨toy, (exHeader 0).salt, initial toy _, exRecords, toy_digest, initial_ready _ _, C41_witness.1, ?_⟩
  have := C41_actual toy toy_digest (initial_ready toy (exHeader 0).salt) (exRecords.take 3) ⟨0x0A, []⟩
    C41_witness.1 rfl []
  rw [show exRecords = exRecords.take 3 ++ [⟨0x0A, []⟩] from rfl, this]
  intro h
  have h2 := congrArg List.length (GoRes.ok.inj h)
  revert h2
  decide +kernel

end Grate.Props
