import Verif.Lemmas.CfbLoad

/-! # Loading a well-formed compound document -/

namespace Grate.Cfb

open Spec

theorem words_length : ∀ (n : Nat) (b : Bytes), b.length = 4 * n → (words b).length = n := by
  intro n
  induction n with
  | zero => intro b h; cases b with
    | nil => rfl
    | cons a b => simp at h
  | succ n ih =>
    intro b h
    match b, h with
    | a :: b :: c :: d :: v, h => simp only [words, List.length_cons]; rw [ih v (by simp at h; omega)]
    | [], h => simp at h
    | [_], h => simp at h; omega
    | [_, _], h => simp at h; omega
    | [_, _, _], h => simp at h; omega

theorem words_take_drop : ∀ (n : Nat) (b : Bytes), 4 * n ≤ b.length →
    words (b.take (4 * n)) = (words b).take n ∧ words (b.drop (4 * n)) = (words b).drop n := by
  intro n
  induction n with
  | zero => intro b _; simp [words]
  | succ n ih =>
    intro b h
    match b, h with
    | a :: b :: c :: d :: v, h =>
      have := ih v (by simp at h; omega)
      rw [show 4 * (n + 1) = 4 * n + 4 by omega]
      simp only [List.take_succ_cons, List.drop_succ_cons, words]
      rw [this.1, this.2]
      exact ⟨rfl, rfl⟩
    | [], h => simp at h
    | [_], h => simp at h; omega
    | [_, _], h => simp at h; omega
    | [_, _, _], h => simp at h; omega

theorem loadDifatSector_eq (data : Slice) : ∀ (n : Nat) (s : Slice), 4 * n ≤ s.val.length →
    (∀ i ∈ (words (s.val.take (4 * n))).filter (fun i => i ≠ 0xFFFFFFFF ∧ i ≠ 0xFFFFFFFE),
      Regular i ∧ HasSector data.val 9 i) →
    loadDifatSector data 9 n s = .ok (table data.val 9 ((words (s.val.take (4 * n))).filter
      (fun i => i ≠ 0xFFFFFFFF ∧ i ≠ 0xFFFFFFFE)), ⟨s.val.drop (4 * n), s.rest⟩) := by
  intro n
  induction n with
  | zero => intro s _ _; simp [loadDifatSector, words, table]
  | succ n ih =>
    intro s h hs
    obtain ⟨v, rest⟩ := s
    simp only at h hs
    match v, h with
    | a :: b :: c :: d :: v, h =>
      have hl : 4 * n ≤ v.length := by simp at h; omega
      have e : 4 * (n + 1) = 4 * n + 4 := by omega
      unfold loadDifatSector
      have h1 : (⟨a :: b :: c :: d :: v, rest⟩ : Slice).u32 = .ok (le32 a b c d) := rfl
      have h2 : (⟨a :: b :: c :: d :: v, rest⟩ : Slice).dropFrom 4 = .ok ⟨v, rest⟩ := by
        unfold Slice.dropFrom
        rw [if_pos (by simp)]
        rfl
      rw [h1]
      simp only [GoRes.ok_bind, e, List.take_succ_cons, List.drop_succ_cons, words] at hs ⊢
      rw [← u32_words] at hs ⊢
      by_cases hw : le32 a b c d = secFree ∨ le32 a b c d = secEndOfChain
      · have hf : decide (le32 a b c d ≠ 0xFFFFFFFF ∧ le32 a b c d ≠ 0xFFFFFFFE) = false := by
          unfold secFree secEndOfChain at hw
          simp only [decide_eq_false_iff_not]
          omega
        rw [List.filter_cons_of_neg (by simpa using hf)] at hs ⊢
        rw [if_pos hw]
        simp only [GoRes.pure_eq, GoRes.ok_bind, h2]
        rw [ih ⟨v, rest⟩ hl hs]
        rfl
      · have hf : decide (le32 a b c d ≠ 0xFFFFFFFF ∧ le32 a b c d ≠ 0xFFFFFFFE) = true := by
          unfold secFree secEndOfChain at hw
          simp only [decide_eq_true_iff]
          omega
        rw [List.filter_cons_of_pos (by simpa using hf)] at hs ⊢
        rw [if_neg hw]
        obtain ⟨hr, hsec⟩ := hs (le32 a b c d) (by simp)
        rw [readFatSector_eq data (by omega) hr hsec]
        simp only [GoRes.ok_bind, h2]
        rw [ih ⟨v, rest⟩ hl (fun i hi => hs i (List.mem_cons_of_mem _ hi))]
        simp [table]
    | [], h => simp at h
    | [_], h => simp at h; omega
    | [_, _], h => simp at h; omega
    | [_, _, _], h => simp at h; omega

/-- The DIFAT loop loads the table of the listed sectors. -/
theorem difatLoop_eq (data : Slice) (s : Nat) (ids : List Nat) (hd : Difat data.val s ids)
    (hs : ∀ i ∈ ids, Regular i ∧ HasSector data.val 9 i) :
    ∃ n, ∀ fuel, n ≤ fuel → difatLoop data 9 fuel s = some (.ok (table data.val 9 ids)) := by
  induction hd with
  | done =>
    refine ⟨1, fun fuel hf => ?_⟩
    obtain ⟨fuel, rfl⟩ : ∃ k, fuel = k + 1 := ⟨fuel - 1, by omega⟩
    unfold difatLoop
    rw [if_pos (show (4294967294 : Nat) = secEndOfChain from rfl)]
    rfl
  | cons s ids hr hsec hrest ih =>
    obtain ⟨n, ihn⟩ := ih (fun i hi => hs i (List.mem_append_right _ hi))
    refine ⟨n + 1, fun fuel hf => ?_⟩
    obtain ⟨fuel, rfl⟩ : ∃ k, fuel = k + 1 := ⟨fuel - 1, by omega⟩
    have hl := hasSector_le hsec
    have hlen := sector_length hsec
    have hdl : 512 ≤ (data.val.drop ((s + 1) * 2 ^ 9)).length := by rw [List.length_drop]; omega
    have hsecEq : (data.val.drop ((s + 1) * 2 ^ 9)).take 512 = sector data.val 9 s := rfl
    have htk : (data.val.drop ((s + 1) * 2 ^ 9)).take (4 * 127) = (sector data.val 9 s).take (4 * 127) := by
      rw [← hsecEq, List.take_take]; rfl
    have hw := words_take_drop 127 (sector data.val 9 s) (by rw [hlen]; decide)
    unfold difatLoop
    rw [if_neg (fun h => regular_ne hr (Or.inl h))]
    have hdf : data.dropFrom (secOff 9 s) = .ok ⟨data.val.drop ((s + 1) * 2 ^ 9), data.rest⟩ := by
      rw [secOff_eq hr]; unfold Slice.dropFrom; rw [if_pos hl.1]
    have hsect := loadDifatSector_eq data 127 ⟨data.val.drop ((s + 1) * 2 ^ 9), data.rest⟩ (by simp only; omega)
      (by
        simp only
        rw [htk, hw.1]
        exact fun i hi => hs i (List.mem_append_left _ hi))
    simp only at hsect
    rw [htk, hw.1] at hsect
    have hu : (⟨(data.val.drop ((s + 1) * 2 ^ 9)).drop (4 * 127), data.rest⟩ : Slice).u32 =
        .ok ((words (sector data.val 9 s))[127]?.getD 0) := by
      have hcut : ((data.val.drop ((s + 1) * 2 ^ 9)).drop (4 * 127)) =
          (sector data.val 9 s).drop (4 * 127) ++ (data.val.drop ((s + 1) * 2 ^ 9)).drop 512 := by
        rw [← hsecEq]
        conv => lhs; rw [← List.take_append_drop 512 (data.val.drop ((s + 1) * 2 ^ 9))]
        rw [List.drop_append_of_le_length (by rw [List.length_take]; omega)]
      rw [hcut]
      have h4 : ((sector data.val 9 s).drop (4 * 127)).length = 4 := by rw [List.length_drop, hlen]
      have hw2 := hw.2
      match hx : (sector data.val 9 s).drop (4 * 127), h4 with
      | [a, b, c, d], _ =>
        rw [hx] at hw2
        have : (words (sector data.val 9 s))[127]? = some (le32 a b c d) := by
          have h0 : ((words (sector data.val 9 s)).drop 127)[0]? = some (le32 a b c d) := by
            rw [← hw2, u32_words]; rfl
          rw [List.getElem?_drop] at h0
          simpa using h0
        rw [this]
        rfl
    rw [hdf]
    simp only [GoRes.ok_bind, show 2 ^ (9 - 2) - 1 = 127 from rfl, hsect, hu, GoRes.pure_eq]
    rw [ihn fuel (by omega)]
    simp [table]

/-! ### Directory entries -/

/-- An entry as read by the code. -/
def toDir (e : Entry) : Dir :=
  { name := e.name ++ List.replicate (32 - e.name.length) 0, nameByteLen := 2 * (e.name.length + 1 : Nat),
    objType := e.objType, start := e.start, size := e.size }

theorem entry_split (e : Entry) (mid : Bytes) : e.bytes mid =
    (e.name ++ List.replicate (32 - e.name.length) 0).flatMap (leBytes 2) ++
    (leBytes 2 (2 * (e.name.length + 1)) ++ (leBytes 1 e.objType ++ (mid ++ (leBytes 4 e.start ++
      (leBytes 8 e.size ++ []))))) := by
  unfold Entry.bytes
  simp only [List.append_assoc, List.append_nil]

theorem entry_names_length {e : Entry} (ho : e.Ok) :
    ((e.name ++ List.replicate (32 - e.name.length) 0).flatMap (leBytes 2)).length = 64 := by
  have := ho.nameLen
  rw [flatMap_le_length]
  simp
  omega

theorem entry_length {e : Entry} (ho : e.Ok) {mid : Bytes} (hm : mid.length = 49) : (e.bytes mid).length = 128 := by
  rw [entry_split, List.length_append, entry_names_length ho]
  simp only [List.length_append, leBytes_length, hm, List.length_nil]

theorem slot_length {s : Slot} (h : s.Ok) : s.bytes.length = 128 := by
  cases s with
  | used e mid => exact entry_length h.1 h.2
  | free b => exact h.1

/-- Reading an entry. -/
theorem readDir_used (b : Bytes) (off : Nat) {e : Entry} (ho : e.Ok) {mid : Bytes} (hm : mid.length = 49)
    (hb : (b.drop off).take 128 = e.bytes mid) : readDir b off 3 = toDir e := by
  have hl := entry_length ho hm
  have hlen : ¬ b.length < off + 128 := by
    have := congrArg List.length hb
    rw [List.length_take, List.length_drop, hl] at this
    omega
  have hn := entry_names_length ho
  have h1 := ho.nameLen
  have h2 := ho.objType
  have h3 := ho.start
  have h4 := ho.size
  have hnames : (List.range 32).map (fun i => field (e.bytes mid) (2 * i) 2) =
      e.name ++ List.replicate (32 - e.name.length) 0 := by
    have hl32 : (e.name ++ List.replicate (32 - e.name.length) 0).length = 32 := by simp; omega
    have := fields_at 2 (e.name ++ List.replicate (32 - e.name.length) 0)
      (by
        intro n hn
        rcases List.mem_append.1 hn with hn | hn
        · exact ho.nameU16 n hn
        · rw [(List.mem_replicate.1 hn).2]; decide) [] (leBytes 2 (2 * (e.name.length + 1)) ++ (leBytes 1 e.objType ++
          (mid ++ (leBytes 4 e.start ++ (leBytes 8 e.size ++ []))))) 0 rfl
    rw [hl32, List.nil_append, ← entry_split] at this
    simpa only [Nat.zero_add] using this
  have f1 : field (e.bytes mid) 64 2 = 2 * (e.name.length + 1) := by
    rw [entry_split, field_skip _ _ _ _ (by omega), hn]
    simp (disch := decide) only [field_here, Nat.reduceSub]
    exact Nat.mod_eq_of_lt (by omega)
  have f2 : field (e.bytes mid) 66 1 = e.objType := by
    rw [entry_split, field_skip _ _ _ _ (by omega), hn]
    simp (disch := decide) only [field_here, field_le, Nat.reduceSub]
    exact Nat.mod_eq_of_lt (by omega)
  have f3 : field (e.bytes mid) 116 4 = e.start := by
    rw [entry_split, field_skip _ _ _ _ (by omega), hn]
    simp (disch := decide) only [field_le, Nat.reduceSub]
    rw [field_skip _ _ _ _ (by omega), hm, field_here]
    exact Nat.mod_eq_of_lt (by omega)
  have f4 : field (e.bytes mid) 120 8 = e.size := by
    rw [entry_split, field_skip _ _ _ _ (by omega), hn]
    simp (disch := decide) only [field_le, Nat.reduceSub]
    rw [field_skip _ _ _ _ (by omega), hm]
    simp (disch := decide) only [field_here, field_le, Nat.reduceSub]
    exact Nat.mod_eq_of_lt (by omega)
  unfold readDir
  simp only
  rw [if_neg hlen, hb, hnames, f1, f2, f3, f4, if_pos trivial, Nat.mod_eq_of_lt (by omega)]
  unfold toDir toI16
  rw [if_pos (by omega)]
  rfl

/-- Reading an unused slot. -/
theorem readDir_free (b : Bytes) (off : Nat) {x : Bytes} (h1 : x.length = 128) (h2 : x[66]? = some 0)
    (hb : (b.drop off).take 128 = x) : (readDir b off 3).objType = 0 := by
  have hlen : ¬ b.length < off + 128 := by
    have := congrArg List.length hb
    rw [List.length_take, List.length_drop, h1] at this
    omega
  unfold readDir
  simp only
  rw [if_neg hlen, hb]
  unfold field
  have : (x.drop 66).take 1 = [0] := by
    have h66 : 66 < x.length := by omega
    rw [List.drop_eq_getElem_cons h66]
    rw [List.getElem?_eq_getElem h66] at h2
    injection h2 with h2
    rw [h2]
    rfl
  rw [this]
  rfl

/-- The entries in front of the first unused slot. -/
def front : List Slot → List Entry
  | .used e _ :: s => e :: front s
  | _ => []

/-- The root entry found last. -/
def rootOf : List Entry → Option (Nat × Nat)
  | [] => none
  | e :: es => match rootOf es with
    | some m => some m
    | none => if e.objType = 5 then some (e.start, e.size % 4294967296) else none

theorem buildDirs_eq (b : Bytes) : ∀ (slots : List Slot) (off : Nat), (∀ s ∈ slots, s.Ok) →
    (∀ k s, slots[k]? = some s → (b.drop (off + 128 * k)).take 128 = s.bytes) →
    buildDirs b 3 slots.length off = ((front slots).map toDir, rootOf (front slots)) := by
  intro slots
  induction slots with
  | nil => intro off _ _; rfl
  | cons s slots ih =>
    intro off hok hb
    rw [List.length_cons, buildDirs]
    have h0 := hb 0 s rfl
    rw [Nat.mul_zero, Nat.add_zero] at h0
    cases s with
    | free x =>
      obtain ⟨h1, h2⟩ := hok _ List.mem_cons_self
      simp only
      rw [if_pos (readDir_free b off h1 h2 h0)]
      rfl
    | used e mid =>
      obtain ⟨h1, h2⟩ := hok _ List.mem_cons_self
      simp only
      rw [readDir_used b off h1 h2 h0, if_neg (show ¬ (toDir e).objType = 0 by show ¬ e.objType = 0; have := h1.objType; omega)]
      rw [ih (off + 128) (fun s hs => hok s (List.mem_cons_of_mem _ hs)) (by
        intro k s hs
        have := hb (k + 1) s (by simpa using hs)
        rw [← this]
        congr 2
        omega)]
      rfl

/-- The slots of the first directory sector. -/
theorem dir_slots {file : Bytes} {fat : List Nat} {first : Nat} {ids : List Nat} {slots : List Slot}
    (hc : Chain fat first ids) (hs : ∀ i ∈ ids, Regular i ∧ HasSector file 9 i)
    (hf : (ids.map (sector file 9)).flatten = slots.flatMap Slot.bytes) (hok : ∀ s ∈ slots, s.Ok)
    (hne : slots ≠ []) :
    Regular first ∧ HasSector file 9 first ∧ slots.length = 4 * ids.length ∧
    ∀ k s, (slots.take 4)[k]? = some s → (file.drop ((first + 1) * 2 ^ 9 + 128 * k)).take 128 = s.bytes := by
  have hlen : (slots.flatMap Slot.bytes).length = 128 * slots.length := by
    clear hf hne
    induction slots with
    | nil => rfl
    | cons s slots ih =>
      rw [List.flatMap_cons, List.length_append, slot_length (hok s (by simp)),
        ih (fun s hs => hok s (by simp [hs])), List.length_cons]
      omega
  have hlen2 := sectors_length file 9 ids (fun i hi => (hs i hi).2)
  rw [hf, hlen] at hlen2
  have hl4 : slots.length = 4 * ids.length := by omega
  have hpos := List.length_pos_iff.2 hne
  cases hc with
  | done => rw [List.length_nil] at hl4; omega
  | cons _ t ids ht hrest =>
    obtain ⟨hr, hsec⟩ := hs first (by simp)
    refine ⟨hr, hsec, hl4, ?_⟩
    intro k s hk
    have hk4 : k < 4 := by
      have := (List.getElem?_eq_some_iff.1 hk).1
      rw [List.length_take] at this
      omega
    have hk' : slots[k]? = some s := by rwa [List.getElem?_take_of_lt hk4] at hk
    have c1 := chunk_get (n := 128) (slots.map Slot.bytes) (by
      intro c hc
      obtain ⟨s, hs, rfl⟩ := List.mem_map.1 hc
      exact slot_length (hok s hs)) k 0 128 s.bytes (by rw [List.getElem?_map, hk']; rfl) (by omega)
    have c2 := chunk_get (n := 2 ^ 9) ((first :: ids).map (sector file 9)) (by
      intro c hc
      obtain ⟨i, hi, rfl⟩ := List.mem_map.1 hc
      exact sector_length (hs i hi).2) 0 (128 * k) 128 (sector file 9 first) rfl (by omega)
    rw [← List.flatMap_def, ← hf] at c1
    rw [Nat.zero_mul, Nat.zero_add] at c2
    rw [Nat.add_zero, Nat.mul_comm k 128, c2, List.drop_zero,
      List.take_of_length_le (l := s.bytes) (by rw [slot_length (hok s (List.mem_of_getElem? hk'))]; omega)] at c1
    rw [← c1]
    unfold sector
    rw [List.drop_take, List.drop_drop, List.take_take, Nat.min_eq_left (by omega)]

/-! ### Loading -/

theorem front_of_take {slots : List Slot} : ∀ (n : Nat), front (slots.take n) = (front slots).take n := by
  induction slots with
  | nil => intro n; simp [front]
  | cons s slots ih =>
    intro n
    cases n with
    | zero => simp [front]
    | succ n => cases s with
      | free b => simp [front]
      | used e mid => simp [front, ih]

theorem doc_headOk {file : Bytes} {h : Head} {fat : List Nat} {slots : List Slot} (hd : Doc file h fat slots) :
    HeadOk h := by
  obtain ⟨ids, _, hs, _⟩ := hd.table
  exact ⟨hd.numFAT, hd.firstDir, hd.firstMiniFAT, hd.numMiniFAT, hd.firstDIFAT, hd.numDIFAT, hd.headFAT,
    fun i hi => (hs i (by simp [hi])).1⟩

theorem minifatLoop_eq (data : Slice) (h : Head) (mf : List Nat) (hm : MiniLoaded data.val h mf) (fuel : Nat) :
    minifatLoop data 9 h.numMiniFAT (fuel + 1) h.firstMiniFAT [] = some (.ok mf) := by
  unfold minifatLoop
  cases hm with
  | none he => rw [he, if_pos (show (4294967294 : Nat) = secEndOfChain from rfl)]
  | one hr hs hn =>
    have hl := hasSector_le hs
    have hlen := sector_length hs
    rw [if_neg (fun h => regular_ne hr (Or.inl h)), secOff_eq hr, if_neg (by unfold Slice.len; omega)]
    unfold Slice.dropFrom
    rw [if_pos hl.1]
    simp only [GoRes.ok_bind]
    rw [readU32s_words _ _ (by show _ ≤ (data.val.drop _).length; rw [List.length_drop]; omega)]
    simp only
    have hw : words ((data.val.drop ((h.firstMiniFAT + 1) * 2 ^ 9)).take (4 * 2 ^ (9 - 2))) =
        words (sector data.val 9 h.firstMiniFAT) := rfl
    have hwl := words_length 128 _ (show (sector data.val 9 h.firstMiniFAT).length = 4 * 128 by rw [hlen])
    rw [hw, List.nil_append, hwl, if_pos (by omega)]

/-- Loading a well-formed document. -/
theorem load_doc (data : Slice) (h : Head) (fat : List Nat) (slots : List Slot) (mf : List Nat)
    (hd : Doc data.val h fat slots) (hm : MiniLoaded data.val h mf) :
    ∃ n, ∀ fuel, n ≤ fuel → load fuel data = some (.ok ⟨data, headerOf h, ((front slots).take 4).map toDir, fat, mf,
      ((rootOf ((front slots).take 4)).getD (0, 0)).1, ((rootOf ((front slots).take 4)).getD (0, 0)).2⟩) := by
  have ho := doc_headOk hd
  obtain ⟨rest, hfile⟩ := hd.header
  obtain ⟨ids, hdif, hids, hfat⟩ := hd.table
  obtain ⟨dids, hchain, hdids, hdir⟩ := hd.dir
  have hslots : slots ≠ [] := by obtain ⟨e, m, s, hs, _⟩ := hd.root; rw [hs]; simp
  obtain ⟨hr, hsec, hl4, hget⟩ := dir_slots hchain hdids hdir hd.slotsOk hslots
  have hdl : ∃ n, ∀ fuel, n ≤ fuel → (if 0 < (headerOf h).numDIFAT then
      difatLoop data (headerOf h).sectorShift fuel (headerOf h).firstDIFAT else some (.ok [])) =
      some (.ok (table data.val 9 ids)) := by
    rcases hdif with ⟨h0, hdif⟩ | ⟨h0, rfl⟩
    · obtain ⟨n, hn⟩ := difatLoop_eq data _ _ hdif (fun i hi => hids i (by simp [hi]))
      refine ⟨n, fun fuel hf => ?_⟩
      rw [if_pos (show (0 : Int) < (headerOf h).numDIFAT by show (0 : Int) < (h.numDIFAT : Int); omega)]
      exact hn fuel hf
    · refine ⟨0, fun fuel _ => ?_⟩
      rw [if_neg (show ¬ (0 : Int) < (headerOf h).numDIFAT by show ¬ (0 : Int) < (h.numDIFAT : Int); omega)]
      rfl
  obtain ⟨n, hn⟩ := hdl
  refine ⟨n + 1, fun fuel hf => ?_⟩
  have h1 := hd.numFAT
  have h2 := hd.numMiniFAT
  unfold load
  simp only
  have hp : parseHeader data.val = headerOf h := by rw [hfile]; exact parseHeader_head h ho rest
  rw [hp, headerErr_head]
  simp only
  rw [if_neg (by
    show ¬ ((h.numFAT : Int) < -1 ∨ (h.numFAT : Int) = 2147483647 ∨ (h.numMiniFAT : Int) < -1 ∨
      (h.numMiniFAT : Int) = 2147483647)
    omega)]
  have hh : loadHeaderDifat data (headerOf h).sectorShift (headerOf h).difat =
      .ok (table data.val 9 h.fatSectors) :=
    loadHeaderDifat_eq data (shift := 9) (by omega) h.fatSectors _ (fun i hi => hids i (by simp [hi]))
  rw [hh]
  simp only
  rw [hn fuel (by omega)]
  simp only
  have hmf : minifatLoop data (headerOf h).sectorShift (headerOf h).numMiniFAT fuel (headerOf h).firstMiniFAT [] =
      some (.ok mf) := by
    obtain ⟨fuel, rfl⟩ : ∃ k, fuel = k + 1 := ⟨fuel - 1, by omega⟩
    exact minifatLoop_eq data h mf hm fuel
  rw [hmf]
  simp only
  have hlen4 : (slots.take 4).length = 4 := by
    have := List.length_pos_iff.2 hslots
    rw [List.length_take]; omega
  have hb := buildDirs_eq data.val (slots.take 4) ((h.firstDir + 1) * 2 ^ 9)
    (fun s hs => hd.slotsOk s (List.mem_of_mem_take hs)) hget
  rw [hlen4, front_of_take] at hb
  have hb' : buildDirs data.val (headerOf h).major 4 (secOff (headerOf h).sectorShift (headerOf h).firstDir) =
      (((front slots).take 4).map toDir, rootOf ((front slots).take 4)) := by
    rw [← hb]
    show buildDirs data.val 3 4 (secOff 9 h.firstDir) = _
    rw [secOff_eq hr]
  rw [hb']
  simp only
  have : fat = table data.val 9 h.fatSectors ++ table data.val 9 ids := by
    rw [hfat]; unfold table; rw [List.flatMap_append]
  rw [this]

end Grate.Cfb
