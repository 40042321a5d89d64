import Verif.Model.Cfb
import Verif.Spec.Cfb
import Verif.Lemmas.SliceReader

/-! # Lemmas about compound documents -/

namespace Grate.Cfb

open Spec SliceReader

/-! ### Slices -/

/-- Everything a slice can expose. -/
def full (s : Slice) : Bytes := s.val ++ s.rest

theorem sub_eq (s : Slice) {lo hi : Nat} (h : lo ≤ hi) (h2 : hi ≤ (full s).length) :
    s.sub lo hi = .ok ⟨((full s).take hi).drop lo, (full s).drop hi⟩ := by
  unfold Slice.sub
  rw [if_pos ⟨h, by unfold full at h2; simpa using h2⟩]
  rfl

theorem full_sub (b : Bytes) {lo hi : Nat} (h : lo ≤ hi) (h2 : hi ≤ b.length) :
    full ⟨(b.take hi).drop lo, b.drop hi⟩ = b.drop lo := by
  unfold full
  simp only
  conv => rhs; rw [← List.take_append_drop hi b]
  rw [List.drop_append_of_le_length (by rw [List.length_take]; omega)]

theorem full_cut (s : Slice) (n : Nat) : full (cut s n).1 = full s := by
  unfold cut full
  split
  · simp only
    rw [← List.append_assoc, List.take_append_drop]
  · rfl

theorem cut_val (s : Slice) (n : Nat) : (cut s n).1.val = s.val.take n := by
  unfold cut
  split
  · rfl
  · rename_i h
    exact (List.take_of_length_le (show s.val.length ≤ n by unfold Slice.len at h; omega)).symm

theorem cut_left (s : Slice) (n : Nat) : (cut s n).2 = n - s.val.length := by
  unfold cut Slice.len
  split
  · simp only; omega
  · rfl

theorem secOff_eq {shift i : Nat} (h : Regular i) : secOff shift i = (i + 1) * 2 ^ shift := by
  unfold secOff Regular at *
  rw [Nat.mod_eq_of_lt (by omega), Nat.add_comm]

theorem regular_ne {i : Nat} (h : Regular i) : ¬ (i = secEndOfChain ∨ i = secFree) := by
  unfold Regular secEndOfChain secFree at *
  omega

theorem hasSector_le {file : Bytes} {shift i : Nat} (h : HasSector file shift i) :
    (i + 1) * 2 ^ shift ≤ file.length ∧ (i + 1) * 2 ^ shift + 2 ^ shift ≤ file.length := by
  unfold HasSector at h
  rw [show (i + 2) * 2 ^ shift = (i + 1) * 2 ^ shift + 2 ^ shift by
    rw [show i + 2 = (i + 1) + 1 from rfl, Nat.add_mul (i + 1) 1, Nat.one_mul]] at h
  exact ⟨Nat.le_trans (Nat.le_add_right _ _) h, h⟩

theorem sector_length {file : Bytes} {shift i : Nat} (h : HasSector file shift i) :
    (sector file shift i).length = 2 ^ shift := by
  have := hasSector_le h
  unfold sector
  rw [List.length_take, List.length_drop]
  omega

/-- The slice of one sector. -/
theorem sub_sector (s : Slice) {shift i : Nat} (hr : Regular i) (hs : HasSector s.val shift i) :
    ∃ sl, s.sub (secOff shift i) (secOff shift i + 2 ^ shift) = .ok sl ∧ sl.val = sector s.val shift i ∧
      full sl = (full s).drop ((i + 1) * 2 ^ shift) := by
  have hl := hasSector_le hs
  have hlen : (full s).length = s.val.length + s.rest.length := by unfold full; simp
  have hp : 0 < 2 ^ shift := Nat.two_pow_pos _
  rw [secOff_eq hr]
  refine ⟨_, sub_eq s (by omega) (by omega), ?_, ?_⟩
  · show ((full s).take _).drop _ = _
    unfold full sector
    rw [List.take_append_of_le_length (by omega), List.drop_take]
    congr 1
    omega
  · exact full_sub _ (by omega) (by omega)

/-! ### FAT streams -/

theorem streamLoop_run (d : Document) : ∀ (ids : List Nat) (start size slots : Nat),
    Run d.fat start ids → (∀ i ∈ ids, Regular i ∧ HasSector d.data.val d.header.sectorShift i) →
    0 < size → size ≤ ids.length * 2 ^ d.header.sectorShift →
    (ids.length - 1) * 2 ^ d.header.sectorShift < size → ids.length ≤ slots →
    ∃ ds, streamLoop d slots start size = .ok (ds, 0) ∧ (∀ x ∈ ds, x ≠ []) ∧ ds.length ≤ slots ∧
      ds.flatten = ((ids.map (sector d.data.val d.header.sectorShift)).flatten).take size := by
  intro ids
  induction ids with
  | nil => intro start size slots hrun; cases hrun
  | cons i ids ih =>
    intro start size slots hrun hs h0 h1 h2 hsl
    have hstart : start = i := by cases hrun <;> rfl
    subst hstart
    obtain ⟨hr, hsec⟩ := hs start (by simp)
    obtain ⟨sl, hsub, hval, _⟩ := sub_sector d.data hr hsec
    have hlen : sl.val.length = 2 ^ d.header.sectorShift := by rw [hval]; exact sector_length hsec
    have hpos : 0 < 2 ^ d.header.sectorShift := Nat.two_pow_pos _
    obtain ⟨slots, rfl⟩ : ∃ k, slots = k + 1 := ⟨slots - 1, by simp at hsl; omega⟩
    have hne : sl.val.take size ≠ [] := by
      apply List.ne_nil_of_length_pos
      rw [List.length_take, hlen]; omega
    have hoff := hasSector_le hsec
    unfold streamLoop
    rw [if_neg (regular_ne hr), if_neg (by rw [secOff_eq hr]; unfold Slice.len; omega)]
    simp only [hsub, GoRes.ok_bind]
    rw [cut_left, cut_val, hlen]
    by_cases hz : size - 2 ^ d.header.sectorShift = 0
    · rw [if_pos hz]
      refine ⟨_, rfl, by simpa using hne, by simp, ?_⟩
      have hnil : ids = [] := by
        cases ids with
        | nil => rfl
        | cons j js =>
          exfalso
          simp only [List.length_cons, Nat.add_sub_cancel] at h2
          have : 1 * 2 ^ d.header.sectorShift ≤ (js.length + 1) * 2 ^ d.header.sectorShift :=
            Nat.mul_le_mul_right _ (by omega)
          omega
      subst hnil
      simp [hval]
    · rw [if_neg hz]
      cases hrun with
      | one =>
        exfalso
        simp at h1
        omega
      | cons _ t _ hfat hrun' =>
        rw [hfat]
        simp only [List.length_cons, Nat.add_sub_cancel] at h1 h2 hsl
        rw [Nat.add_mul, Nat.one_mul] at h1
        have hidl : 1 ≤ ids.length := by cases hrun' <;> simp
        obtain ⟨ds, hds, hne', hl', hflat⟩ := ih t (size - 2 ^ d.header.sectorShift) slots hrun'
          (fun j hj => hs j (by simp [hj])) (by omega) (by omega)
          (by
            have : ids.length * 2 ^ d.header.sectorShift =
                (ids.length - 1) * 2 ^ d.header.sectorShift + 2 ^ d.header.sectorShift := by
              conv => lhs; rw [show ids.length = (ids.length - 1) + 1 by omega, Nat.add_mul, Nat.one_mul]
            omega) (by omega)
        simp only [hds, GoRes.ok_bind]
        refine ⟨_, rfl, ?_, ?_, ?_⟩
        · intro x hx
          rcases List.mem_cons.1 hx with rfl | hx
          · exact hne
          · exact hne' x hx
        · simp; omega
        · rw [List.flatten_cons, hflat, List.map_cons, List.flatten_cons, List.take_append, hval]
          congr 2
          rw [sector_length hsec]

theorem getStreamReader_run (d : Document) (ids : List Nat) (start size : Nat)
    (hrun : Run d.fat start ids) (hs : ∀ i ∈ ids, Regular i ∧ HasSector d.data.val d.header.sectorShift i)
    (h0 : 0 < size) (h1 : size ≤ ids.length * 2 ^ d.header.sectorShift)
    (h2 : (ids.length - 1) * 2 ^ d.header.sectorShift < size) (h3 : size < 2 ^ 32) :
    ∃ ds n, getStreamReader d start size = .ok (SliceReader.mk' (ds ++ List.replicate n [])) ∧
      (∀ x ∈ ds, x ≠ []) ∧
      ds.flatten = ((ids.map (sector d.data.val d.header.sectorShift)).flatten).take size := by
  have hpos : 0 < 2 ^ d.header.sectorShift := Nat.two_pow_pos _
  obtain ⟨ds, h, hne, hl, hf⟩ := streamLoop_run d ids start size (1 + size / 2 ^ d.header.sectorShift)
    hrun hs h0 h1 h2 (by
      have : ids.length - 1 ≤ size / 2 ^ d.header.sectorShift :=
        (Nat.le_div_iff_mul_le hpos).2 (Nat.le_of_lt h2)
      omega)
  refine ⟨ds, 1 + size / 2 ^ d.header.sectorShift - ds.length, ?_, hne, hf⟩
  unfold getStreamReader
  have hle : size / 2 ^ d.header.sectorShift ≤ size := Nat.div_le_self _ _
  simp only
  rw [if_neg (by omega)]
  simp only [h, GoRes.ok_bind]
  rw [if_neg (by simp)]
  rfl

/-! ### Mini streams -/

theorem miniSectors_chain (d : Document) : ∀ (fids : List Nat) (start size slots : Nat),
    Chain d.fat start fids → (∀ i ∈ fids, Regular i ∧ HasSector d.data.val d.header.sectorShift i) →
    fids.length ≤ slots →
    ∃ fs, miniSectorsLoop d slots start size = .ok fs ∧ fs.length = fids.length ∧
      ∀ k i : Nat, fids[k]? = some i → ∃ sl, fs[k]? = some sl ∧
        full sl = (full d.data).drop ((i + 1) * 2 ^ d.header.sectorShift) := by
  intro fids
  induction fids with
  | nil =>
    intro start size slots hc _ _
    cases hc
    refine ⟨[], ?_, rfl, by simp⟩
    unfold miniSectorsLoop
    rw [if_pos (Or.inl (show (4294967294 : Nat) = secEndOfChain from rfl))]
  | cons i ids ih =>
    intro start size slots hc hs hsl
    cases hc with
    | cons _ t _ hfat hc' =>
      obtain ⟨hr, hsec⟩ := hs i (by simp)
      obtain ⟨sl, hsub, hval, hfull⟩ := sub_sector d.data hr hsec
      obtain ⟨slots, rfl⟩ : ∃ k, slots = k + 1 := ⟨slots - 1, by simp at hsl; omega⟩
      obtain ⟨fs, hfs, hlen, hget⟩ := ih t (cut sl size).2 slots hc' (fun j hj => hs j (by simp [hj]))
        (by simp at hsl; omega)
      refine ⟨(cut sl size).1 :: fs, ?_, by simp [hlen], ?_⟩
      · unfold miniSectorsLoop
        rw [if_neg (regular_ne hr)]
        simp only [hsub, GoRes.ok_bind, hfat, hfs]
        rfl
      · intro k j hk
        cases k with
        | zero =>
          simp at hk
          subst hk
          exact ⟨_, rfl, by rw [full_cut, hfull]⟩
        | succ k =>
          simpa using hget k j (by simpa using hk)

/-- Reading inside one of many chunks of equal length. -/
theorem chunk_get {n : Nat} : ∀ (cs : List Bytes), (∀ c ∈ cs, c.length = n) → ∀ (k o l : Nat) (c : Bytes),
    cs[k]? = some c → o + l ≤ n → (cs.flatten.drop (k * n + o)).take l = (c.drop o).take l := by
  intro cs
  induction cs with
  | nil => intro _ k o l c h; simp at h
  | cons a as ih =>
    intro hlen k o l c h hol
    have ha : a.length = n := hlen a (by simp)
    cases k with
    | zero =>
      simp at h
      subst h
      rw [List.flatten_cons, Nat.zero_mul, Nat.zero_add, List.drop_append_of_le_length (by omega),
        List.take_append_of_le_length (by rw [List.length_drop]; omega)]
    | succ k =>
      rw [List.flatten_cons, List.drop_append, List.drop_eq_nil_of_le (by
        rw [ha, Nat.add_mul, Nat.one_mul]; omega), List.nil_append]
      rw [show (k + 1) * n + o - a.length = k * n + o by rw [ha, Nat.add_mul, Nat.one_mul]; omega]
      exact ih (fun c hc => hlen c (by simp [hc])) k o l c (by simpa using h) hol

theorem sectors_length (file : Bytes) (shift : Nat) (ids : List Nat)
    (hs : ∀ i ∈ ids, HasSector file shift i) :
    ((ids.map (sector file shift)).flatten).length = ids.length * 2 ^ shift := by
  induction ids with
  | nil => simp
  | cons i ids ih =>
    rw [List.map_cons, List.flatten_cons, List.length_append, sector_length (hs i (by simp)),
      ih (fun j hj => hs j (by simp [hj])), List.length_cons, Nat.add_mul, Nat.one_mul, Nat.add_comm]

theorem miniStream_chain (d : Document) (hms : d.header.miniSectorShift = 6) (h6 : 6 ≤ d.header.sectorShift)
    (fids : List Nat) (fs : List Slice)
    (hfid : ∀ i ∈ fids, Regular i ∧ HasSector d.data.val d.header.sectorShift i)
    (hget : ∀ k i : Nat, fids[k]? = some i → ∃ sl, fs[k]? = some sl ∧
        full sl = (full d.data).drop ((i + 1) * 2 ^ d.header.sectorShift))
    (M : Bytes) (hM : M = (fids.map (sector d.data.val d.header.sectorShift)).flatten) :
    ∀ (mids : List Nat) (start size slots : Nat), Chain d.minifat start mids →
    (∀ i ∈ mids, Regular i ∧ (i + 1) * 64 ≤ M.length) → mids.length ≤ slots →
    ∃ ds, miniStreamLoop d fs slots start size = .ok ds ∧ ds.length = mids.length ∧ Layout ds ∧
      (size = 0 → ds.flatten = []) ∧
      ds.flatten = ((mids.map (miniSector M)).flatten).take size := by
  have hpos : 0 < 2 ^ d.header.sectorShift := Nat.two_pow_pos _
  have hMlen : M.length = fids.length * 2 ^ d.header.sectorShift := by
    rw [hM]; exact sectors_length _ _ _ (fun i hi => (hfid i hi).2)
  obtain ⟨q, hq⟩ : ∃ q, 2 ^ d.header.sectorShift = 64 * q :=
    ⟨2 ^ (d.header.sectorShift - 6), by
      rw [show (64 : Nat) = 2 ^ 6 from rfl, ← Nat.pow_add]; congr 1; omega⟩
  intro mids
  induction mids with
  | nil =>
    intro start size slots hc _ _
    cases hc
    refine ⟨[], ?_, rfl, ⟨[], 0, rfl, by simp⟩, by simp, by simp⟩
    unfold miniStreamLoop
    rw [if_pos (Or.inl (show (4294967294 : Nat) = secEndOfChain from rfl))]
  | cons i ids ih =>
    intro start size slots hc hs hsl
    cases hc with
    | cons _ t _ hmf hc' =>
      obtain ⟨hr, hin⟩ := hs i (by simp)
      obtain ⟨slots, rfl⟩ : ∃ k, slots = k + 1 := ⟨slots - 1, by simp at hsl; omega⟩
      -- which sector and where
      have hk : i * 64 / 2 ^ d.header.sectorShift < fids.length := by
        rw [Nat.div_lt_iff_lt_mul hpos, ← hMlen]; omega
      have hmod : i * 64 % 2 ^ d.header.sectorShift + 64 ≤ 2 ^ d.header.sectorShift := by
        rw [hq, Nat.mul_comm i 64, Nat.mul_mod_mul_left]
        have hq0 : 0 < q := by
          rcases Nat.eq_zero_or_pos q with h | h
          · rw [h] at hq; omega
          · exact h
        have := Nat.mod_lt i hq0
        omega
      obtain ⟨sl, hsl', hfull⟩ := hget _ _ (List.getElem?_eq_getElem hk)
      obtain ⟨hfr, hfs⟩ := hfid _ (List.getElem_mem hk)
      generalize hF : fids[i * 64 / 2 ^ d.header.sectorShift] = F at *
      have hFb := hasSector_le hfs
      have hfl : (full d.data).length = d.data.val.length + d.data.rest.length := by unfold full; simp
      have hsub := sub_eq sl (lo := i * 64 % 2 ^ d.header.sectorShift)
        (hi := i * 64 % 2 ^ d.header.sectorShift + 64) (by omega)
        (by rw [hfull, List.length_drop]; omega)
      have hval : ((full sl).take (i * 64 % 2 ^ d.header.sectorShift + 64)).drop
          (i * 64 % 2 ^ d.header.sectorShift) = miniSector M i := by
        have hcs : ∀ c ∈ fids.map (sector d.data.val d.header.sectorShift), c.length = 2 ^ d.header.sectorShift := by
          intro c hc
          obtain ⟨j, hj, rfl⟩ := List.mem_map.1 hc
          exact sector_length (hfid j hj).2
        have hFget : (fids.map (sector d.data.val d.header.sectorShift))[i * 64 / 2 ^ d.header.sectorShift]? =
            some (sector d.data.val d.header.sectorShift F) := by
          rw [List.getElem?_map, List.getElem?_eq_getElem hk, hF]; rfl
        have := chunk_get _ hcs _ (i * 64 % 2 ^ d.header.sectorShift) 64 _ hFget hmod
        rw [Nat.div_add_mod', ← hM] at this
        unfold miniSector
        rw [this, hfull, List.drop_take, Nat.add_sub_cancel_left]
        unfold sector
        rw [List.drop_drop, List.drop_take, List.take_take, List.drop_drop]
        rw [Nat.min_eq_left (by omega)]
        unfold full
        rw [List.drop_append_of_le_length (by omega), List.take_append_of_le_length (by
          rw [List.length_drop]; omega)]
      have hmlen : (miniSector M i).length = 64 := by
        unfold miniSector
        rw [List.length_take, List.length_drop]; omega
      obtain ⟨ds, hds, hlen, hlay, hzero, hflat⟩ := ih t (size - 64) slots hc' (fun j hj => hs j (by simp [hj]))
        (by simp at hsl; omega)
      refine ⟨(miniSector M i).take size :: ds, ?_, by simp [hlen], ?_, ?_, ?_⟩
      · unfold miniStreamLoop
        rw [if_neg (regular_ne hr)]
        rw [hms, show (2 : Nat) ^ 6 = 64 from rfl]
        simp only [hsl', hsub, GoRes.ok_bind, cut_val, cut_left, hval, hmlen, hmf, hds]
        rfl
      · by_cases hz : size = 0
        · subst hz
          have h1 := hzero (by omega)
          refine ⟨[], ds.length + 1, ?_, by simp⟩
          have : ds = List.replicate ds.length [] := by
            rw [List.eq_replicate_iff]
            refine ⟨rfl, fun b hb => ?_⟩
            exact List.flatten_eq_nil_iff.1 h1 b hb
          rw [List.take_zero, List.nil_append, List.replicate_succ]
          rw [← this]
        · obtain ⟨es, n, he, hne⟩ := hlay
          refine ⟨(miniSector M i).take size :: es, n, by rw [he]; rfl, ?_⟩
          intro x hx
          rcases List.mem_cons.1 hx with rfl | hx
          · apply List.ne_nil_of_length_pos
            rw [List.length_take, hmlen]; omega
          · exact hne x hx
      · intro hz
        rw [hz, List.take_zero, List.flatten_cons, hzero (by omega)]
        rfl
      · rw [List.flatten_cons, hflat, List.map_cons, List.flatten_cons, List.take_append, hmlen]

theorem getMiniStreamReader_chain (d : Document) (hms : d.header.miniSectorShift = 6)
    (h6 : 6 ≤ d.header.sectorShift) (fids mids : List Nat) (start size : Nat)
    (hf : Chain d.fat d.mstart fids)
    (hfid : ∀ i ∈ fids, Regular i ∧ HasSector d.data.val d.header.sectorShift i)
    (hfl : fids.length ≤ 1 + d.msize / 2 ^ d.header.sectorShift)
    (hm : Chain d.minifat start mids) (hml : mids.length ≤ 1 + size / 64)
    (M : Bytes) (hM : M = (fids.map (sector d.data.val d.header.sectorShift)).flatten)
    (hmid : ∀ i ∈ mids, Regular i ∧ (i + 1) * 64 ≤ M.length) :
    ∃ ds n, getMiniStreamReader d start size = .ok (SliceReader.mk' (ds ++ List.replicate n [])) ∧
      (∀ x ∈ ds, x ≠ []) ∧ ds.flatten = ((mids.map (miniSector M)).flatten).take size := by
  obtain ⟨fs, hfs, hfsl, hget⟩ := miniSectors_chain d fids d.mstart d.msize _ hf hfid hfl
  have hget' : ∀ k i : Nat, fids[k]? = some i → ∃ sl,
      (fs ++ List.replicate (1 + d.msize / 2 ^ d.header.sectorShift - fs.length) (⟨[], []⟩ : Slice))[k]? = some sl ∧
        full sl = (full d.data).drop ((i + 1) * 2 ^ d.header.sectorShift) := by
    intro k i hk
    obtain ⟨sl, h1, h2⟩ := hget k i hk
    exact ⟨sl, by rw [List.getElem?_append_left (List.getElem?_eq_some_iff.1 h1).1]; exact h1, h2⟩
  obtain ⟨ds, hds, hdl, hlay, _, hflat⟩ := miniStream_chain d hms h6 fids _ hfid hget' M hM mids start size
    (1 + size / 64) hm hmid hml
  obtain ⟨es, n, he, hne⟩ := hlay
  refine ⟨es, n + (1 + size / 64 - ds.length), ?_, hne, ?_⟩
  · unfold getMiniStreamReader
    simp only [hfs, GoRes.ok_bind, hms, show (2 : Nat) ^ 6 = 64 from rfl, hds]
    rw [he, List.append_assoc, List.replicate_append_replicate]
    rfl
  · rw [← hflat, he]
    simp

end Grate.Cfb
