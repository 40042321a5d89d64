import Verif.Model.GoCrypto
import Verif.Model.Protected
import Verif.Props.EncryptedWitness

/-! # C40, C41, C42, C77 with the MD5 and RC4 of the Go library, and C127

The theorems on encrypted workbooks hold for any digest and any key stream; here they are used with the functions the
code calls. -/

namespace Grate.Props

open Grate Grate.Spec Grate.Api

/-! ### The functions -/

theorem put32_length (n : Nat) : (Crypto.put32 n).length = 4 := rfl

theorem go_digest : Digest GoCrypto.prims := by
  intro b
  show (Crypto.put32 _ ++ Crypto.put32 _ ++ Crypto.put32 _ ++ Crypto.put32 _).length = 16
  simp [put32_length]

/-- Some of the digests of RFC 1321, appendix A.5 (a test of the model, not a proof about it). -/
theorem md5_vectors :
    GoCrypto.md5 [] = [0xd4, 0x1d, 0x8c, 0xd9, 0x8f, 0x00, 0xb2, 0x04, 0xe9, 0x80, 0x09, 0x98, 0xec, 0xf8, 0x42, 0x7e] ∧
    GoCrypto.md5 (lit "message digest") =
      [0xf9, 0x6b, 0x69, 0x7d, 0x7c, 0xb7, 0x93, 0x8d, 0x52, 0x5a, 0x2f, 0x31, 0xaa, 0xf1, 0x61, 0xd0] ∧
    GoCrypto.md5 (lit "12345678901234567890123456789012345678901234567890123456789012345678901234567890") =
      [0x57, 0xed, 0xf4, 0xa2, 0x2b, 0xe3, 0xc9, 0x55, 0xac, 0x49, 0xda, 0x2e, 0x21, 0x07, 0xb6, 0x7a] := by
  decide +kernel

/-- The usual example of RC4 (a test of the model, not a proof about it). -/
theorem rc4_vector :
    (GoCrypto.bytes 9 ⟨GoCrypto.schedule (lit "Key"), 0, 0⟩).zipWith (· ^^^ ·) (lit "Plaintext") =
      [0xBB, 0xF3, 0x16, 0xE8, 0xD9, 0x40, 0xAF, 0x0A, 0xD3] := by
  decide +kernel

theorem go_swap_perm (s : List Nat) (i j : Nat) (hi : i < s.length) (hj : j < s.length) :
    (GoCrypto.swap s i j).Perm s := by
  unfold GoCrypto.swap
  have ei : s.getD i 0 = s[i] := by simp [hi]
  have ej : s.getD j 0 = s[j] := by simp [hj]
  rw [ei, ej]
  exact List.set_set_perm hi hj

/-- The state of a cipher is a permutation of the bytes, after the key schedule and after every byte of the key stream. -/
structure Permuted (c : GoCrypto.Rc4) : Prop where
  perm : c.s.Perm (List.range 256)
  i : c.i < 256
  j : c.j < 256

theorem schedule_perm (key : Bytes) (r : List Nat) (hr : r.length = 256) (l : List Nat) (p : List Nat × Nat)
    (ha : ∀ i ∈ l, i < 256) (hp : p.1.Perm r) :
    (l.foldl (fun (p : List Nat × Nat) i =>
      let j := (p.2 + p.1.getD i 0 + (key.getD (i % key.length) 0).toNat) % 256
      (GoCrypto.swap p.1 i j, j)) p).1.Perm r := by
  induction l generalizing p with
  | nil => exact hp
  | cons a l ih =>
    have hl : p.1.length = 256 := by rw [hp.length_eq, hr]
    rw [List.foldl_cons]
    refine ih _ (fun i hi => ha i (List.mem_cons_of_mem _ hi)) ?_
    exact (go_swap_perm _ _ _ (by rw [hl]; exact ha a List.mem_cons_self)
      (by rw [hl]; exact Nat.mod_lt _ (by decide))).trans hp

theorem schedule_permuted (key : Bytes) : Permuted ⟨GoCrypto.schedule key, 0, 0⟩ where
  perm := by
    have h : ∀ r : List Nat, r.length = 256 → (∀ i ∈ r, i < 256) → (r.foldl (fun (p : List Nat × Nat) i =>
        let j := (p.2 + p.1.getD i 0 + (key.getD (i % key.length) 0).toNat) % 256
        (GoCrypto.swap p.1 i j, j)) (r, 0)).1.Perm r :=
      fun r hr hi => schedule_perm key r hr r (r, 0) hi (List.Perm.refl r)
    have h2 := h (List.range 256) List.length_range (fun _ hi => List.mem_range.1 hi)
    dsimp only
    unfold GoCrypto.schedule
    exact h2
  i := by show 0 < 256; omega
  j := by show 0 < 256; omega

theorem next_permuted {c : GoCrypto.Rc4} (h : Permuted c) : Permuted (GoCrypto.next c).2 := by
  have hl : c.s.length = 256 := by rw [h.perm.length_eq, List.length_range]
  exact ⟨(go_swap_perm _ _ _ (by rw [hl]; exact Nat.mod_lt _ (by decide))
    (by rw [hl]; exact Nat.mod_lt _ (by decide))).trans h.perm, Nat.mod_lt _ (by decide), Nat.mod_lt _ (by decide)⟩

theorem skip_permuted (n : Nat) {c : GoCrypto.Rc4} (h : Permuted c) : Permuted (GoCrypto.skip n c) := by
  induction n generalizing c with
  | zero => exact h
  | succ n ih => exact ih (next_permuted h)

theorem rc4_bytes (n : Nat) (c : GoCrypto.Rc4) (k : Nat) (hk : k < n) :
    (GoCrypto.bytes n c).getD k 0 = (GoCrypto.next (GoCrypto.skip k c)).1 := by
  induction n generalizing c k with
  | zero => omega
  | succ n ih =>
    cases k with
    | zero => rfl
    | succ k =>
      show (GoCrypto.bytes n (GoCrypto.next c).2).getD k 0 = _
      rw [ih _ _ (by omega)]
      rfl

/-! ### The properties -/

/-- C41 with the functions of the Go library: the last record of an encrypted stream is not restored. -/
theorem C41_go_counterexample : ∃ (salt : Bytes) (d : Crypto.Rc4) (rs : List Record),
    Ready GoCrypto.prims salt Crypto.defaultPassword d ∧ (∀ r ∈ rs, r.Ok) ∧
    Crypto.decryptStream GoCrypto.prims
      ⟨encrypted (keyStream GoCrypto.md5 GoCrypto.rc4 Crypto.defaultPassword salt) rs, []⟩ d ≠ .ok (stream rs) := by
  refine ⟨(exHeader 0).salt, initial GoCrypto.prims _, exRecords, initial_ready _ _, C41_witness.1, ?_⟩
  have := C41_actual GoCrypto.prims go_digest (initial_ready GoCrypto.prims (exHeader 0).salt) (exRecords.take 3) ⟨0x0A, []⟩
    C41_witness.1 rfl []
  rw [show exRecords = exRecords.take 3 ++ [⟨0x0A, []⟩] from rfl]
  intro h
  have h2 := congrArg List.length (GoRes.ok.inj (this.symm.trans h))
  revert h2
  decide +kernel

/-- C77 for encrypted workbooks, with the functions of the Go library. Missing: as in `C77_encrypted_partial`. -/
theorem C77_go_partial (w : World) (hp : w.prims = GoCrypto.prims) (ext : Ext) (fn file : Bytes)
    (hf : w.files fn = .ok file) (groups : List (List Record)) (last : List Record) (h : Header)
    (he : EncryptedFile GoCrypto.prims file groups last h) {c : Content} (hc : AllGlobals .empty (groups ++ [last]) c)
    (hb : ∀ k ∈ w.bufs, 0 < k) (hbl : (stream (groups.flatten ++ last ++ [⟨0x0A, []⟩])).length < w.bufs.length) :
    Opens w ext fn c (groups ++ [last]) :=
  C77_encrypted_partial w ext fn file hf (by rw [hp]; exact go_digest) groups last h (by rw [hp]; exact he) hc hb hbl

/-! ### An example

A workbook encrypted with MD5, RC4 and the default password; the key, its schedule and the key stream were computed outside
of Lean. -/

/-- The key of the first block. -/
def goKey : Bytes :=
  [224, 240, 243, 171, 91, 44, 85, 166, 255, 246, 217, 154, 227, 6, 145, 251]

/-- Its schedule. -/
def goSchedule : List Nat :=
  [224, 122, 157, 116, 145, 211, 95, 37, 19, 73, 245, 149, 57, 151, 54, 64, 238, 91, 243, 60, 79, 226, 98, 184, 4,
   222, 159, 40, 133, 47, 87, 58, 31, 186, 80, 28, 228, 173, 34, 125, 164, 195, 2, 30, 11, 169, 104, 121, 33, 158,
   29, 27, 144, 102, 201, 166, 92, 132, 128, 244, 0, 86, 183, 120, 202, 9, 205, 41, 163, 178, 77, 212, 3, 140, 115,
   160, 247, 42, 74, 242, 13, 99, 61, 55, 85, 152, 103, 112, 16, 26, 5, 135, 221, 155, 138, 156, 90, 181, 170, 83,
   35, 10, 111, 153, 65, 210, 130, 176, 182, 232, 231, 215, 23, 50, 172, 179, 214, 124, 82, 75, 229, 17, 21, 251,
   8, 67, 177, 218, 66, 204, 189, 174, 219, 69, 191, 216, 196, 105, 52, 167, 192, 220, 185, 101, 209, 237, 168,
   249, 227, 154, 246, 190, 197, 36, 175, 108, 136, 255, 236, 203, 200, 141, 150, 44, 89, 97, 53, 46, 59, 7, 123,
   241, 72, 62, 146, 217, 223, 162, 143, 230, 71, 213, 117, 14, 38, 22, 193, 63, 94, 234, 107, 93, 248, 106, 12,
   70, 56, 206, 126, 84, 142, 76, 240, 1, 194, 180, 165, 235, 147, 199, 25, 207, 113, 137, 20, 39, 100, 239, 131,
   68, 109, 171, 134, 110, 118, 78, 188, 252, 32, 6, 253, 139, 187, 254, 148, 15, 43, 119, 48, 250, 225, 24, 129,
   45, 161, 208, 114, 81, 18, 49, 233, 96, 88, 51, 127, 198]

/-- The first bytes of the key stream. -/
def goKs : Bytes :=
  [101, 152, 40, 98, 180, 7, 100, 25, 144, 169, 217, 78, 5, 25, 26, 240, 98, 166, 239, 107, 6, 171, 132, 197, 182,
   92, 238, 223, 186, 192, 223, 70, 100, 160, 131, 144, 99, 154, 199, 174, 162, 206, 166, 80, 238, 35, 103, 35,
   167, 17, 61, 18, 129, 2, 194, 87, 142, 215, 59, 161, 111, 239, 213, 254, 62, 95, 186, 156, 76, 38, 106, 179, 60,
   189, 168, 67, 196, 196, 40, 33, 80, 113, 17, 15, 216, 161, 64, 230, 250, 205, 25, 177, 146, 31, 116, 143, 146,
   96, 88, 4, 51, 201, 15, 17, 61, 137, 57, 96, 79, 55, 237, 249, 188, 209, 62, 39, 250, 19, 56, 37, 201, 212, 102,
   23, 53, 40, 220, 152, 178, 30, 106, 253, 136, 107, 24, 52, 4, 192, 128, 128, 34, 19, 249, 113, 11, 101, 85, 3,
   84, 221, 174, 146, 64, 253, 102, 198, 79, 7, 113, 93, 200, 18, 103, 189, 111, 181, 18, 183, 206, 183, 103, 32,
   35, 147, 80, 115, 251, 121, 197, 216, 249, 0, 170, 102, 81, 113, 255, 224, 1, 207, 27, 179, 203, 82, 213, 191,
   187, 98, 22, 132, 153, 183, 27, 112, 116, 222, 242, 146, 173, 31, 17, 45, 198, 82, 151, 188, 65, 231, 47, 108,
   124, 36, 77, 140, 111, 181, 73, 96, 52, 98, 156, 100, 64, 47, 10, 156, 152, 106, 186, 196, 159, 205, 198, 250,
   216, 90, 202, 84, 1, 56, 59, 175, 7, 160, 121, 11, 113, 176, 123, 27, 204, 136, 145, 37, 127, 201, 32, 180, 44,
   182, 103, 216, 30, 193, 134, 53, 193, 183, 241, 216, 175, 60, 202, 60, 158, 163, 251, 25, 131, 238, 170, 148,
   83, 144, 140, 179, 174, 225, 233, 243, 210, 90, 6, 206, 57, 43, 1, 4, 74, 155, 43, 120, 1, 188, 107, 205, 135,
   187, 226]

/-- The header of the encryption. -/
def goHeader : Header where
  major := [1, 0]
  minor := 1
  salt := [0, 1, 2, 3, 4, 5, 6, 7, 8, 9, 10, 11, 12, 13, 14, 15]
  verifier :=
  [79, 178, 2, 72, 158, 45, 78, 51, 186, 131, 243, 100, 47, 51, 48, 218]
  hash :=
  [29, 177, 28, 19, 108, 94, 204, 106, 248, 118, 81, 46, 75, 88, 150, 229]

theorem go_key : blockKey GoCrypto.md5 Crypto.defaultPassword goHeader.salt 0 = goKey := by decide +kernel

theorem go_schedule : GoCrypto.schedule goKey = goSchedule := by decide +kernel

theorem go_bytes : GoCrypto.bytes 319 ⟨goSchedule, 0, 0⟩ = goKs := by decide +kernel

theorem go_ks (k : Nat) (hk : k < 319) :
    keyStream GoCrypto.md5 GoCrypto.rc4 Crypto.defaultPassword goHeader.salt k = goKs.getD k 0 := by
  unfold keyStream
  rw [show k / 1024 % 2 ^ 32 = 0 by omega, show k % 1024 = k by omega, go_key]
  unfold GoCrypto.rc4
  rw [go_schedule, ← rc4_bytes 319 _ k hk, go_bytes]

theorem xorStream_same {f g : Nat → UInt8} (b : Bytes) (h : ∀ k, k < b.length → f k = g k) :
    xorStream f b = xorStream g b := by
  unfold xorStream
  refine List.ext_getElem (by simp) ?_
  intro i h1 h2
  simp only [List.length_mapIdx] at h1
  simp [h i h1]

theorem encrypted_same {f g : Nat → UInt8} (rs : List Record) (h : ∀ k, k < (stream rs).length → f k = g k) :
    encrypted f rs = encrypted g rs := by
  unfold encrypted
  refine List.ext_getElem (by simp) ?_
  intro i h1 h2
  simp only [List.length_mapIdx, List.length_zip] at h1
  simp [h i (by omega)]

/-- The header belongs to the default password. -/
theorem goHeader_matches : goHeader.Matches GoCrypto.prims Crypto.defaultPassword := by
  have e : xorStream (keyStream GoCrypto.prims.md5 GoCrypto.prims.rc4 Crypto.defaultPassword goHeader.salt)
      (goHeader.verifier ++ goHeader.hash) =
      xorStream (fun k => goKs.getD k 0) (goHeader.verifier ++ goHeader.hash) :=
    xorStream_same _ (fun k hk => go_ks k (by
      have : (goHeader.verifier ++ goHeader.hash).length = 32 := rfl
      omega))
  unfold Header.Matches
  simp only [e]
  decide +kernel

/-- C42 with the functions of the Go library: the header is accepted. -/
theorem C42_go_witness : Crypto.newBasicRC4 GoCrypto.prims goHeader.bytes = .ok (initial GoCrypto.prims goHeader.salt) :=
  ((C42_verify GoCrypto.prims go_digest).1 goHeader (by unfold Header.Ok; decide)).2 ⟨rfl, goHeader_matches⟩

/-- The globals of the example workbook. -/
def goGlobals : List Record :=
  [exBof 5, ⟨0x2F, leBytes 2 1 ++ goHeader.bytes⟩, ⟨34, leBytes 2 1 ++ []⟩, ⟨224, leBytes 2 0 ++ (leBytes 2 14 ++ [])⟩,
    ⟨224, leBytes 2 0 ++ (leBytes 2 0 ++ [])⟩, ⟨0x85, encEntry.data⟩,
    ⟨252, [1, 0, 0, 0, 1, 0, 0, 0, 2, 0, 0, 0x68, 0x69]⟩, ⟨0x0A, []⟩]

/-- The stream, encrypted. -/
def goStream : Bytes :=
  encrypted (fun k => goKs.getD k 0) ([goGlobals].flatten ++ (exBof 0x10 :: encSheet) ++ [⟨0x0A, []⟩])

theorem go_stream : encrypted (keyStream GoCrypto.md5 GoCrypto.rc4 Crypto.defaultPassword goHeader.salt)
    ([goGlobals].flatten ++ (exBof 0x10 :: encSheet) ++ [⟨0x0A, []⟩]) = goStream :=
  encrypted_same _ (fun k hk => go_ks k (by
    have : (stream ([goGlobals].flatten ++ (exBof 0x10 :: encSheet) ++ [⟨0x0A, []⟩])).length = 319 := by decide +kernel
    omega))

/-- The file. -/
def goFile : Bytes := (wbFileOf goStream 0xFFFFFFFE encSlots).take 2560

theorem goDoc : Spec.Doc goFile exHead (table goFile 9 [0]) encSlots where
  header := ⟨goFile.drop 512, by decide +kernel⟩
  numFAT := by decide
  firstDir := by decide
  firstMiniFAT := by decide
  numMiniFAT := by decide
  firstDIFAT := by decide
  numDIFAT := by decide
  headFAT := by decide
  table := ⟨[], Or.inr ⟨rfl, rfl⟩, by
    intro i hi
    have : i = 0 := by simpa [exHead] using hi
    subst this
    exact ⟨by unfold Regular; decide, by unfold HasSector; decide +kernel⟩, rfl⟩
  dir := ⟨[1], .cons 1 0xFFFFFFFE [] (by decide +kernel) .done, by
    intro i hi
    have : i = 1 := by simpa using hi
    subst this
    exact ⟨by unfold Regular; decide, by unfold HasSector; decide +kernel⟩, by decide +kernel⟩
  slotsOk := by
    intro s hs
    have h2 : encDirEntry.Ok := by refine ⟨?_, ?_, ?_, ?_, ?_⟩ <;> decide
    simp only [encSlots, List.mem_cons, List.not_mem_nil, or_false] at hs
    rcases hs with rfl | rfl | rfl | rfl
    · exact ⟨wbEntry_ok.1, by decide⟩
    · exact ⟨h2, by decide⟩
    · exact ⟨by decide, by decide⟩
    · exact ⟨by decide, by decide⟩
  root := ⟨wbRoot, exMid, _, rfl, rfl, by decide⟩

theorem goStreamIn : StreamIn goFile (lit "Workbook") goStream := by
  have h := StreamIn.small (file := goFile) (name := lit "Workbook") exHead _ wbRoot exMid [] [exFree, exFree] encDirEntry exMid
    [3] [0, 1, 2, 3, 4] (sector goFile 9 3) goDoc (by unfold Regular; decide)
    (by unfold HasSector; decide +kernel) (by decide) (by simp) (by decide) (by simp [entries]) (by decide +kernel) rfl (by decide)
    (.cons _ 0xFFFFFFFE _ (by decide +kernel) .done)
    (by
      intro i hi
      have : i = 3 := by simpa using hi
      subst this
      exact ⟨by unfold Regular; decide, by unfold HasSector; decide +kernel⟩) (by decide) (by simp)
    (.cons _ 1 _ (by decide +kernel) (.cons _ 2 _ (by decide +kernel) (.cons _ 3 _ (by decide +kernel)
      (.cons _ 4 _ (by decide +kernel) (.cons _ 0xFFFFFFFE _ (by decide +kernel) .done))))) (by decide)
    (by
      intro i hi
      have hl : (sector goFile 9 3).length = 512 := by decide +kernel
      have : i ≤ 4 := by revert i; decide
      refine ⟨by unfold Regular; omega, by omega⟩)
  have e : ((([0, 1, 2, 3, 4] : List Nat).map (miniSector (sector goFile 9 3))).flatten).take encDirEntry.size =
      goStream := by decide +kernel
  rw [e] at h
  exact h

/-- The example file is an encrypted workbook (and its stream is not the plain one). -/
theorem goFile_encrypted : EncryptedFile GoCrypto.prims goFile [goGlobals] (exBof 0x10 :: encSheet) goHeader ∧
    goStream ≠ stream ([goGlobals].flatten ++ (exBof 0x10 :: encSheet) ++ [⟨0x0A, []⟩]) := by
  have pl : ∀ (r : Record) (rs : List Record), (r.type ≠ 0x809 ∧ r.type ≠ 0x0A) → Balanced rs → Balanced (r :: rs) :=
    fun r rs h hb => .plain r rs h.1 h.2 hb
  refine ⟨⟨?_, ?_, by unfold Record.Ok; decide +kernel, ⟨[exBof 5], _, rfl, by decide +kernel⟩,
    ⟨by unfold Header.Ok; decide, rfl, goHeader_matches⟩, by show StreamIn _ _ (encrypted (keyStream GoCrypto.md5 GoCrypto.rc4 _ _) _); rw [go_stream]; exact goStreamIn⟩, by decide +kernel⟩
  · intro g hg
    simp only [List.mem_singleton] at hg
    subst hg
    refine ⟨_, [_, _, _, _, _, _], _, rfl, rfl, rfl, ?_⟩
    iterate 6 refine pl _ _ (by decide) ?_
    exact .nil
  · refine ⟨_, [_, _, _, _, _, _, _, _, _, _], rfl, rfl, ?_⟩
    iterate 3 refine pl _ _ (by decide) ?_
    refine .block _ _ [_] [_, _, _, _] rfl rfl (pl _ _ (by decide) .nil) ?_
    iterate 4 refine pl _ _ (by decide) ?_
    exact .nil

theorem go_content : AllGlobals .empty ([goGlobals] ++ [exBof 0x10 :: encSheet]) encContent := by
  have sk : ∀ (c c' : Content) (r : Record) (rs : List Record), ¬ telling r.type → Globals c rs c' →
      Globals c (r :: rs) c' := fun c c' r rs h => .skip c c' r rs (Or.inr h)
  refine .cons _ encContent _ _ _ ?_ (.cons _ encContent _ _ _ ?_ (.nil _))
  · refine .bof _ _ 5 _ _ _ _ (by decide) (by decide) ?_
    refine sk _ _ _ _ (by unfold telling; decide) ?_
    refine .dateMode _ _ 1 [] _ (by decide) ?_
    refine .style _ _ 0 14 [] _ (by decide) ?_
    refine .style _ _ 0 0 [] _ (by decide) ?_
    refine .sheet _ _ encEntry _ ?_ ?_
    · exact ⟨by decide, by unfold Scalar; decide +kernel, by unfold Fits; decide +kernel, by decide +kernel⟩
    refine .strings _ _ [1, 0, 0, 0, 1, 0, 0, 0] [⟨false, 0, [0x68, 0x69], [], [], []⟩] [[0x68, 0x69]]
      [1, 0, 0, 0, 1, 0, 0, 0, 2, 0, 0, 0x68, 0x69] [] _ rfl ?_ ?_ ?_ (by decide +kernel) (by decide +kernel) ?_ ?_
    · intro s hs
      rw [List.mem_singleton] at hs
      subst hs
      exact ⟨by decide +kernel, by unfold Fits; decide +kernel, by unfold Fits; decide +kernel, by decide +kernel,
        by decide +kernel⟩
    · unfold NoLoneByte; decide +kernel
    · unfold Scalar; decide +kernel
    · intro r hr
      cases hr
      decide
    · exact .skip _ _ _ _ (Or.inl rfl) (.nil _)
  · refine .bof _ _ _ _ _ _ _ (by decide) (by decide) ?_
    iterate 3 refine sk _ _ _ _ (by unfold telling; decide) ?_
    refine .bof _ _ _ _ _ _ _ (by decide) (by decide) ?_
    refine sk _ _ _ _ (by unfold telling; decide) ?_
    refine .skip _ _ _ _ (Or.inl rfl) ?_
    iterate 4 refine sk _ _ _ _ (by unfold telling; decide) ?_
    exact .nil _

/-- C77 with the functions of the Go library: the example file meets the hypotheses; `Open`, `List` and `Get` on it. -/
theorem C77_go_witness (w : World) (ext : Ext) (fn : Bytes) (hf : w.files fn = .ok goFile) (hp : w.prims = GoCrypto.prims)
    (hb : w.bufs = List.replicate 512 512) :
    ∃ b n, (∀ k, n ≤ k → ∀ t, Shipped { w with fuel := k } t → openSrc t fn = .ok (.xls b)) ∧
      (Source.xls b).list = [lit "S"] ∧
      ∃ s, (Source.xls b).get ext (lit "S") = .ok (.xls b, .ok (.sheet s)) ∧ Holds ext Formatter.new exWrites s := by
  obtain ⟨b, n, h1, h2, h3, _⟩ := C77_go_partial w hp ext fn _ hf _ _ _ goFile_encrypted.1 go_content
    (by rw [hb]; intro k hk; rw [(List.mem_replicate.1 hk).2]; decide) (by rw [hb]; decide +kernel)
  obtain ⟨s, g1, g2, _⟩ := h3 [] [] encEntry rfl (by simp) 1 (exBof 0x10) encSheet rfl (by decide +kernel) 4 4
    encSheet_declares exWrites encSheet_recs
  exact ⟨b, n, h1, h2, s, g1, g2⟩

/-- C127, the half that holds: `IsProtected` is false for workbooks that are not encrypted. Missing: it is false for the others as
well, see `C127_counterexample`. -/
theorem C127_plain_partial (w : World) (ext : Ext) (fn file : Bytes) (hf : w.files fn = .ok file)
    {groups : List (List Record)} (h : Grouped groups) (hp : ∀ r ∈ groups.flatten, r.type ≠ 0x2F) {c : Content}
    (hc : AllGlobals .empty groups c) (hs : StreamIn file (lit "Workbook") (stream groups.flatten))
    (hb : ∀ k ∈ w.bufs, 0 < k) (hbl : (stream groups.flatten).length < w.bufs.length) :
    ∃ b n, (∀ k, n ≤ k → ∀ t, Shipped { w with fuel := k } t → openSrc t fn = .ok (.xls b)) ∧ b.isProtected = false := by
  obtain ⟨b, n, h1, _⟩ := opens_plain w ext fn file hf h hp hc hs hb hbl
  exact ⟨b, n, h1, rfl⟩

/-- C127 fails: a workbook that is encrypted opens, and `IsProtected` is false. -/
theorem C127_counterexample (w : World) (ext : Ext) (fn : Bytes) (hf : w.files fn = .ok goFile) (hp : w.prims = GoCrypto.prims)
    (hb : w.bufs = List.replicate 512 512) :
    EncryptedFile GoCrypto.prims goFile [goGlobals] (exBof 0x10 :: encSheet) goHeader ∧
    ∃ b n, (∀ k, n ≤ k → ∀ t, Shipped { w with fuel := k } t → openSrc t fn = .ok (.xls b)) ∧ b.isProtected = false := by
  obtain ⟨b, n, h1, _⟩ := C77_go_partial w hp ext fn _ hf _ _ _ goFile_encrypted.1 go_content
    (by rw [hb]; intro k hk; rw [(List.mem_replicate.1 hk).2]; decide) (by rw [hb]; decide +kernel)
  exact ⟨goFile_encrypted.1, b, n, h1, rfl⟩

end Grate.Props
