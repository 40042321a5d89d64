import Verif.Lemmas.Cfb

/-! # Lemmas about loading compound documents -/

namespace Grate.Cfb

open Spec SliceReader

/-! ### Little-endian fields -/

theorem leNat_leBytes : ∀ (k n : Nat), leNat (leBytes k n) = n % 256 ^ k := by
  intro k
  induction k with
  | zero => intro n; simp [leBytes, leNat, Nat.mod_one]
  | succ k ih =>
    intro n
    rw [leBytes, leNat, ih]
    have h1 : (UInt8.ofNat (n % 256)).toNat = n % 256 := by
      rw [UInt8.toNat_ofNat']; omega
    rw [h1, Nat.pow_succ, Nat.mul_comm (256 ^ k) 256, Nat.mod_mul]

theorem leBytes_length : ∀ (k n : Nat), (leBytes k n).length = k := by
  intro k
  induction k with
  | zero => intro n; rfl
  | succ k ih => intro n; simp [leBytes, ih]

theorem field_at (a b : Bytes) (i k n : Nat) (hi : a.length = i) (hn : n < 256 ^ k) :
    field (a ++ (leBytes k n ++ b)) i k = n := by
  unfold field
  rw [← hi, List.drop_left, List.take_append_of_le_length (by rw [leBytes_length]; omega),
    List.take_of_length_le (by rw [leBytes_length]; omega), leNat_leBytes, Nat.mod_eq_of_lt hn]

theorem flatMap_le_length (k : Nat) (ns : List Nat) : (ns.flatMap (leBytes k)).length = ns.length * k := by
  induction ns with
  | nil => simp
  | cons n ns ih =>
    rw [List.flatMap_cons, List.length_append, leBytes_length, ih, List.length_cons, Nat.add_mul, Nat.one_mul,
      Nat.add_comm]

theorem fields_at (k : Nat) : ∀ (ns : List Nat), (∀ n ∈ ns, n < 256 ^ k) → ∀ (a b : Bytes) (i : Nat), a.length = i →
    (List.range ns.length).map (fun j => field (a ++ (ns.flatMap (leBytes k) ++ b)) (i + k * j) k) = ns := by
  intro ns hn a b i hi
  apply List.ext_getElem?
  intro j
  by_cases hj : j < ns.length
  · rw [List.getElem?_map, List.getElem?_range hj]
    simp only [Option.map_some]
    rw [List.getElem?_eq_getElem hj]
    congr 1
    have hsplit : ns = ns.take j ++ ns[j] :: ns.drop (j + 1) := by
      rw [← List.drop_eq_getElem_cons hj, List.take_append_drop]
    have : a ++ (ns.flatMap (leBytes k) ++ b) =
        (a ++ (ns.take j).flatMap (leBytes k)) ++ (leBytes k ns[j] ++ ((ns.drop (j + 1)).flatMap (leBytes k) ++ b)) := by
      have e : ns.flatMap (leBytes k) = (ns.take j).flatMap (leBytes k) ++
          (leBytes k ns[j] ++ (ns.drop (j + 1)).flatMap (leBytes k)) := by
        conv => lhs; rw [hsplit]
        rw [List.flatMap_append, List.flatMap_cons]
      rw [e]
      simp only [List.append_assoc]
    rw [this]
    apply field_at
    · rw [List.length_append, hi, flatMap_le_length, List.length_take, Nat.min_eq_left (by omega), Nat.mul_comm]
    · exact hn _ (List.getElem_mem hj)
  · rw [List.getElem?_eq_none (by simp; omega), List.getElem?_eq_none (by omega)]

/-! ### The header -/

/-- Numbers that fit their header fields. -/
structure HeadOk (h : Head) : Prop where
  numFAT : h.numFAT < 2 ^ 31 - 1
  firstDir : h.firstDir < 2 ^ 32
  firstMiniFAT : h.firstMiniFAT < 2 ^ 32
  numMiniFAT : h.numMiniFAT < 2 ^ 31 - 1
  firstDIFAT : h.firstDIFAT < 2 ^ 32
  numDIFAT : h.numDIFAT < 2 ^ 31
  fat : h.fatSectors.length ≤ 109
  reg : ∀ i ∈ h.fatSectors, Regular i

/-- The header as read from the bytes of a well-formed one. -/
def headerOf (h : Head) : Header :=
  { signature := 0xe11ab1a1e011cfd0, classID := (0, 0), minor := h.minor % 65536, major := 3,
    byteOrder := 0xFFFE, sectorShift := 9, miniSectorShift := 6, reserved := List.replicate 6 0,
    numDirSectors := 0, numFATSectors := h.numFAT, firstDir := h.firstDir, cutoff := 0x1000,
    firstMiniFAT := h.firstMiniFAT, numMiniFAT := h.numMiniFAT, firstDIFAT := h.firstDIFAT,
    numDIFAT := h.numDIFAT, difat := h.fatSectors ++ List.replicate (109 - h.fatSectors.length) 0xFFFFFFFF }

theorem toI32_small {n : Nat} (h : n < 2 ^ 31) : toI32 n = n := by
  unfold toI32
  rw [if_pos (by omega)]

theorem head_length (h : Head) (ho : HeadOk h) : h.bytes.length = 512 := by
  have := ho.fat
  unfold Head.bytes
  simp only [List.length_append, leBytes_length, flatMap_le_length, List.length_replicate, List.length_cons,
    List.length_nil, signature]
  omega

theorem field_skip (a b : Bytes) (i k : Nat) (h : a.length ≤ i) :
    field (a ++ b) i k = field b (i - a.length) k := by
  unfold field
  rw [List.drop_append, List.drop_eq_nil_of_le h, List.nil_append]

theorem drop_skip (a b : Bytes) (i : Nat) (h : a.length ≤ i) : (a ++ b).drop i = b.drop (i - a.length) := by
  rw [List.drop_append, List.drop_eq_nil_of_le h, List.nil_append]

theorem field_here (k n : Nat) (b : Bytes) : field (leBytes k n ++ b) 0 k = n % 256 ^ k := by
  unfold field
  rw [List.drop_zero, List.take_append_of_le_length (by rw [leBytes_length]; omega),
    List.take_of_length_le (by rw [leBytes_length]; omega), leNat_leBytes]

theorem field_sig (b : Bytes) : field (signature ++ b) 0 8 = 0xe11ab1a1e011cfd0 := by
  unfold field
  rw [List.drop_zero, List.take_append_of_le_length (by decide)]
  decide

/-- The header bytes in right-nested form. -/
theorem head_split (h : Head) (rest : Bytes) : h.bytes ++ rest =
    signature ++ (leBytes 8 0 ++ (leBytes 8 0 ++ (leBytes 2 h.minor ++ (leBytes 2 3 ++ (leBytes 2 0xFFFE ++
    (leBytes 2 9 ++ (leBytes 2 6 ++ (List.replicate 6 0 ++ (leBytes 4 0 ++ (leBytes 4 h.numFAT ++
    (leBytes 4 h.firstDir ++ (leBytes 4 h.trans ++ (leBytes 4 0x1000 ++ (leBytes 4 h.firstMiniFAT ++
    (leBytes 4 h.numMiniFAT ++ (leBytes 4 h.firstDIFAT ++ (leBytes 4 h.numDIFAT ++
    ((h.fatSectors ++ List.replicate (109 - h.fatSectors.length) 0xFFFFFFFF).flatMap (leBytes 4) ++
      rest)))))))))))))))))) := by
  unfold Head.bytes
  simp only [List.append_assoc]

theorem sig_length : signature.length = 8 := rfl

theorem rep6_length : (List.replicate 6 (0 : UInt8)).length = 6 := rfl

theorem drop_le (k n : Nat) (b : Bytes) (i : Nat) (h : k ≤ i) : (leBytes k n ++ b).drop i = b.drop (i - k) := by
  rw [drop_skip _ _ _ (by rw [leBytes_length]; exact h), leBytes_length]

theorem drop_sig (b : Bytes) (i : Nat) (h : 8 ≤ i) : (signature ++ b).drop i = b.drop (i - 8) :=
  drop_skip _ _ _ h

theorem field_le (k n : Nat) (b : Bytes) (i m : Nat) (h : k ≤ i) :
    field (leBytes k n ++ b) i m = field b (i - k) m := by
  rw [field_skip _ _ _ _ (by rw [leBytes_length]; exact h), leBytes_length]

theorem field_past_sig (b : Bytes) (i m : Nat) (h : 8 ≤ i) : field (signature ++ b) i m = field b (i - 8) m :=
  field_skip _ _ _ _ h

theorem field_rep (b : Bytes) (i m : Nat) (h : 6 ≤ i) :
    field (List.replicate 6 0 ++ b) i m = field b (i - 6) m :=
  field_skip _ _ _ _ h

theorem parseHeader_head (h : Head) (ho : HeadOk h) (rest : Bytes) :
    parseHeader (h.bytes ++ rest) = headerOf h := by
  have hlen := head_length h ho
  have hfit : ¬ (h.bytes ++ rest).length < 512 := by rw [List.length_append]; omega
  have h1 := ho.numFAT
  have h2 := ho.firstDir
  have h3 := ho.firstMiniFAT
  have h4 := ho.numMiniFAT
  have h5 := ho.firstDIFAT
  have h6 := ho.numDIFAT
  have hd : (List.range 109).map (fun i => field (h.bytes ++ rest) (76 + 4 * i) 4) =
      h.fatSectors ++ List.replicate (109 - h.fatSectors.length) 0xFFFFFFFF := by
    have hl : (h.fatSectors ++ List.replicate (109 - h.fatSectors.length) 0xFFFFFFFF).length = 109 := by
      have := ho.fat; simp; omega
    have := fields_at 4 (h.fatSectors ++ List.replicate (109 - h.fatSectors.length) 0xFFFFFFFF)
      (by
        intro n hn
        rcases List.mem_append.1 hn with hn | hn
        · have := ho.reg n hn; unfold Regular at this; omega
        · rw [(List.mem_replicate.1 hn).2]; decide)
      (signature ++ leBytes 8 0 ++ leBytes 8 0 ++ leBytes 2 h.minor ++ leBytes 2 3 ++ leBytes 2 0xFFFE ++
        leBytes 2 9 ++
        leBytes 2 6 ++ List.replicate 6 0 ++ leBytes 4 0 ++ leBytes 4 h.numFAT ++ leBytes 4 h.firstDir ++
        leBytes 4 h.trans ++ leBytes 4 0x1000 ++ leBytes 4 h.firstMiniFAT ++ leBytes 4 h.numMiniFAT ++
        leBytes 4 h.firstDIFAT ++ leBytes 4 h.numDIFAT) rest 76 (by
          simp only [List.length_append, leBytes_length, sig_length, rep6_length])
    rw [hl, ← List.append_assoc] at this
    exact this
  have hres : ((h.bytes ++ rest).drop 34).take 6 = List.replicate 6 0 := by
    rw [head_split]
    simp (disch := decide) only [drop_le, drop_sig, Nat.reduceSub, List.drop_zero]
    rw [List.take_append_of_le_length (by decide)]
    rfl
  unfold parseHeader
  simp only
  rw [if_neg hfit, hd, hres]
  rw [head_split]
  simp (disch := decide) only [field_le, field_past_sig, field_rep, field_here, field_sig, Nat.reduceSub]
  rw [Nat.mod_eq_of_lt (a := h.numFAT) (by omega), Nat.mod_eq_of_lt (a := h.firstDir) (by omega),
    Nat.mod_eq_of_lt (a := h.firstMiniFAT) (by omega), Nat.mod_eq_of_lt (a := h.numMiniFAT) (by omega),
    Nat.mod_eq_of_lt (a := h.firstDIFAT) (by omega), Nat.mod_eq_of_lt (a := h.numDIFAT) (by omega),
    toI32_small (n := h.numFAT) (by omega), toI32_small (n := h.numMiniFAT) (by omega),
    toI32_small (n := h.numDIFAT) (by omega), toI32_small (n := 0 % 256 ^ 4) (by decide),
    toI32_small (n := 4096 % 256 ^ 4) (by decide)]
  simp only [Nat.reduceMod, Nat.reducePow]
  rfl

theorem headerErr_head (h : Head) : headerErr (headerOf h) = none := by
  unfold headerErr headerOf
  simp

/-! ### FAT sectors -/

theorem u32_words (a b c d : UInt8) : le32 a b c d = a.toNat + 256 * (b.toNat + 256 * (c.toNat + 256 * d.toNat)) := by
  unfold le32; omega

theorem readU32s_words : ∀ (n : Nat) (s : Slice), 4 * n ≤ s.val.length →
    readU32s n s = .ok (words (s.val.take (4 * n)), ⟨s.val.drop (4 * n), s.rest⟩) := by
  intro n
  induction n with
  | zero => intro s _; simp [readU32s, words]
  | succ n ih =>
    intro s h
    obtain ⟨v, rest⟩ := s
    simp only at h
    match v, h with
    | a :: b :: c :: d :: v, h =>
      have hl : 4 * n ≤ v.length := by simp at h; omega
      have e : 4 * (n + 1) = 4 * n + 4 := by omega
      unfold readU32s
      have h1 : (⟨a :: b :: c :: d :: v, rest⟩ : Slice).u32 = .ok (le32 a b c d) := rfl
      have h2 : (⟨a :: b :: c :: d :: v, rest⟩ : Slice).dropFrom 4 = .ok ⟨v, rest⟩ := by
        unfold Slice.dropFrom
        rw [if_pos (by simp)]
        rfl
      rw [h1, h2]
      simp only [GoRes.ok_bind]
      rw [ih ⟨v, rest⟩ hl]
      simp only [GoRes.ok_bind, GoRes.pure_eq, e, List.take_succ_cons, List.drop_succ_cons, words, u32_words]
    | [], h => simp at h
    | [_], h => simp at h; omega
    | [_, _], h => simp at h; omega
    | [_, _, _], h => simp at h; omega

theorem four_pow {shift : Nat} (h : 2 ≤ shift) : 4 * 2 ^ (shift - 2) = 2 ^ shift := by
  rw [show (4 : Nat) = 2 ^ 2 from rfl, ← Nat.pow_add]
  congr 1
  omega

theorem readFatSector_eq (data : Slice) {shift i : Nat} (h2 : 2 ≤ shift) (hr : Regular i)
    (hs : HasSector data.val shift i) : readFatSector data shift i = .ok (words (sector data.val shift i)) := by
  have hl := hasSector_le hs
  have hp : 0 < 2 ^ shift := Nat.two_pow_pos _
  unfold readFatSector
  rw [secOff_eq hr, if_neg (by unfold Slice.len; omega)]
  unfold Slice.dropFrom
  rw [if_pos hl.1]
  simp only [GoRes.ok_bind]
  rw [readU32s_words _ _ (by show _ ≤ (data.val.drop _).length; rw [four_pow h2, List.length_drop]; omega), four_pow h2]
  rfl

theorem loadHeaderDifat_eq (data : Slice) {shift : Nat} (h2 : 2 ≤ shift) : ∀ (sids : List Nat) (k : Nat),
    (∀ i ∈ sids, Regular i ∧ HasSector data.val shift i) →
    loadHeaderDifat data shift (sids ++ List.replicate k 0xFFFFFFFF) = .ok (table data.val shift sids) := by
  intro sids
  induction sids with
  | nil =>
    intro k _
    cases k with
    | zero => rfl
    | succ k =>
      rw [List.nil_append, List.replicate_succ, loadHeaderDifat, if_pos (show (4294967295 : Nat) = secFree from rfl)]
      rfl
  | cons i sids ih =>
    intro k hs
    obtain ⟨hr, hsec⟩ := hs i (by simp)
    rw [List.cons_append, loadHeaderDifat, if_neg (fun h => regular_ne hr (Or.inr h))]
    rw [readFatSector_eq data h2 hr hsec, ih k (fun j hj => hs j (by simp [hj]))]
    simp [table]

/-! ### Termination -/

theorem minifat_total (data : Slice) {shift : Nat} (numMini : Int) : ∀ (fuel sid : Nat) (acc : List Nat),
    numMini < (acc.length : Int) + fuel * 2 ^ (shift - 2) ∨ numMini ≤ acc.length → 0 < fuel →
    minifatLoop data shift numMini fuel sid acc ≠ none := by
  intro fuel
  induction fuel with
  | zero => intro sid acc _ h; omega
  | succ fuel ih =>
    intro sid acc hb _
    have hp : (0 : Int) < 2 ^ (shift - 2) := by
      have := Nat.two_pow_pos (shift - 2); exact_mod_cast this
    unfold minifatLoop
    split
    · simp
    split
    · simp
    split
    · rename_i vs s heq
      have hvs : (vs.length : Int) = 2 ^ (shift - 2) := by
        have hlen : ∀ (n : Nat) (s : Slice) (r : List Nat × Slice), readU32s n s = .ok r → r.1.length = n := by
          intro n
          induction n with
          | zero => intro s r h; simp [readU32s] at h; subst h; rfl
          | succ n ih =>
            intro s r h
            unfold readU32s at h
            obtain ⟨v, _, h⟩ := GoRes.bind_eq_ok.1 h
            obtain ⟨s', _, h⟩ := GoRes.bind_eq_ok.1 h
            obtain ⟨⟨ws, s''⟩, h3, h⟩ := GoRes.bind_eq_ok.1 h
            have := ih _ _ h3
            cases h
            simpa using this
        obtain ⟨s0, _, h0⟩ := GoRes.bind_eq_ok.1 heq
        have := hlen _ _ _ h0
        simp only at this
        rw [this]; push_cast; rfl
      split
      · simp
      · rename_i hlt
        have hacc : ((acc ++ vs).length : Int) = acc.length + 2 ^ (shift - 2) := by
          rw [List.length_append]; push_cast; rw [hvs]
        split
        · cases fuel with
          | zero =>
            exfalso
            rcases hb with hb | hb
            · push_cast at hb
              omega
            · omega
          | succ fuel =>
            apply ih _ _ _ (by omega)
            left
            rcases hb with hb | hb
            · rw [hacc]
              have e : ((fuel + 1 + 1 : Nat) : Int) * 2 ^ (shift - 2) =
                  ((fuel + 1 : Nat) : Int) * 2 ^ (shift - 2) + 2 ^ (shift - 2) := by
                push_cast
                rw [Int.add_mul _ 1, Int.one_mul]
              omega
            · omega
        · simp
        · simp
    · simp
    · simp

/-- The pointer at the end of a DIFAT sector. -/
def difatNext (file : Bytes) (shift sid : Nat) : Nat :=
  field file (secOff shift sid + 4 * (2 ^ (shift - 2) - 1)) 4

/-- Following the pointers of the DIFAT sectors from `s` reaches the end-of-chain mark after `n` sectors. -/
inductive DifatEnds (file : Bytes) (shift : Nat) : Nat → Nat → Prop where
  | done : DifatEnds file shift 0xFFFFFFFE 0
  | step (s n : Nat) : DifatEnds file shift (difatNext file shift s) n → DifatEnds file shift s (n + 1)

theorem u32_field {s : Slice} {v : Nat} (h : s.u32 = .ok v) : v = field s.val 0 4 := by
  obtain ⟨val, rest⟩ := s
  unfold Slice.u32 at h
  split at h
  · rename_i a b c d _ heq
    simp only at heq
    subst heq
    cases h
    show le32 a b c d = leNat [a, b, c, d]
    simp [le32, leNat]
    omega
  · cases h

theorem loadDifatSector_rest (data : Slice) (shift : Nat) : ∀ (n : Nat) (s : Slice) (r : List Nat × Slice),
    loadDifatSector data shift n s = .ok r → r.2.val = s.val.drop (4 * n) := by
  intro n
  induction n with
  | zero => intro s r h; simp [loadDifatSector] at h; subst h; simp
  | succ n ih =>
    intro s r h
    unfold loadDifatSector at h
    obtain ⟨v, _, h⟩ := GoRes.bind_eq_ok.1 h
    have h : ∃ vs, (do
        let s' ← s.dropFrom 4
        let (ws, s'') ← loadDifatSector data shift n s'
        pure (vs ++ ws, s'') : GoRes (List Nat × Slice)) = .ok r := by
      split at h
      · exact ⟨[], h⟩
      · obtain ⟨vs, _, h⟩ := GoRes.bind_eq_ok.1 h
        exact ⟨vs, h⟩
    obtain ⟨vs, h⟩ := h
    obtain ⟨s', hs', h⟩ := GoRes.bind_eq_ok.1 h
    obtain ⟨⟨ws, s''⟩, h3, h⟩ := GoRes.bind_eq_ok.1 h
    have hi := ih _ _ h3
    cases h
    simp only at hi ⊢
    rw [hi]
    unfold Slice.dropFrom at hs'
    split at hs'
    · cases hs'
      show (s.val.drop 4).drop (4 * n) = _
      rw [List.drop_drop]
      congr 1
      omega
    · cases hs'

theorem difat_total (data : Slice) (shift : Nat) : ∀ (n sid fuel : Nat), DifatEnds data.val shift sid n → n < fuel →
    difatLoop data shift fuel sid ≠ none := by
  intro n
  induction n with
  | zero =>
    intro sid fuel he hf
    obtain ⟨fuel, rfl⟩ : ∃ k, fuel = k + 1 := ⟨fuel - 1, by omega⟩
    cases he
    unfold difatLoop
    rw [if_pos (show (4294967294 : Nat) = secEndOfChain from rfl)]
    simp
  | succ n ih =>
    intro sid fuel he hf
    obtain ⟨fuel, rfl⟩ : ∃ k, fuel = k + 1 := ⟨fuel - 1, by omega⟩
    cases he with
    | step _ _ he' =>
      unfold difatLoop
      split
      · simp
      split
      · rename_i vs nxt heq
        obtain ⟨s, hs, h⟩ := GoRes.bind_eq_ok.1 heq
        obtain ⟨⟨ws, s'⟩, h1, h⟩ := GoRes.bind_eq_ok.1 h
        obtain ⟨v, h2, h⟩ := GoRes.bind_eq_ok.1 h
        cases h
        have hr := loadDifatSector_rest _ _ _ _ _ h1
        have hv := u32_field h2
        unfold Slice.dropFrom at hs
        split at hs
        · cases hs
          simp only at hr
          have hn : nxt = difatNext data.val shift sid := by
            rw [hv, hr]
            unfold difatNext field
            simp only [List.drop_drop, Nat.add_zero]
          rw [hn]
          have := ih _ fuel he' (by omega)
          cases hd : difatLoop data shift fuel (difatNext data.val shift sid) with
          | none => exact absurd hd this
          | some r => simp
        · cases hs
      · simp
      · simp

end Grate.Cfb
