import Verif.Lemmas.CfbLoad
import Verif.Lemmas.XlsSafe
import Verif.Spec.CfbSafe

/-! # Lemmas: reading a compound file whose pieces are there does not crash -/

namespace Grate.Cfb

open Grate Grate.Spec SliceReader Grate.Xls

theorem number_leNat : ∀ b : Bytes, number b = leNat b := by
  intro b
  induction b with
  | nil => rfl
  | cons a b ih => simp [number, leNat, ih]

theorem numAt_field (file : Bytes) (i n : Nat) : numAt file i n = field file i n := number_leNat _

theorem leNat_lt : ∀ b : Bytes, leNat b < 256 ^ b.length := by
  intro b
  induction b with
  | nil => simp [leNat]
  | cons a b ih =>
    have := a.toNat_lt
    rw [leNat, List.length_cons, Nat.pow_succ]
    omega

theorem field_lt (b : Bytes) (i n : Nat) : field b i n < 256 ^ n := by
  unfold field
  refine Nat.lt_of_lt_of_le (leNat_lt _) (Nat.pow_le_pow_right (by decide) ?_)
  rw [List.length_take]
  omega

theorem words_lt : ∀ (b : Bytes), ∀ v ∈ words b, v < 2 ^ 32
  | a :: b :: c :: d :: rest, v, hv => by
    rw [words] at hv
    rcases List.mem_cons.1 hv with rfl | hv
    · have := a.toNat_lt
      have := b.toNat_lt
      have := c.toNat_lt
      have := d.toNat_lt
      omega
    · exact words_lt rest v hv
  | [], v, hv => by cases hv
  | [_], v, hv => by cases hv
  | [_, _], v, hv => by cases hv
  | [_, _, _], v, hv => by cases hv

theorem table_lt (file : Bytes) (bits : Nat) (ids : List Nat) : ∀ v ∈ table file bits ids, v < 2 ^ 32 := by
  intro v hv
  obtain ⟨i, _, hi⟩ := List.mem_flatMap.1 hv
  exact words_lt _ v hi

/-- A sector that begins inside a file of whole sectors ends inside it. -/
theorem whole_sector {len p m : Nat} (hd : p ∣ len) (h : m * p < len) : (m + 1) * p ≤ len := by
  obtain ⟨k, rfl⟩ := hd
  have hp : 0 < p := by
    rcases Nat.eq_zero_or_pos p with rfl | hp
    · simp at h
    · exact hp
  rw [Nat.mul_comm p k] at h ⊢
  have : m < k := Nat.lt_of_mul_lt_mul_right h
  exact Nat.mul_le_mul_right _ this

theorem secOff_small {bits s : Nat} (h : s < 2 ^ 32 - 1) : secOff bits s = (s + 1) * 2 ^ bits := by
  unfold secOff
  rw [Nat.mod_eq_of_lt (by omega), Nat.add_comm]

theorem readFatSector_whole (data : Slice) {shift s : Nat} (h2 : 2 ≤ shift) (hd : 2 ^ shift ∣ data.val.length)
    (hs : s < 2 ^ 32) (hf : s ≠ secFree) :
    Safe (readFatSector data shift s) (fun r => r = words (sector data.val shift s)) := by
  have hs' : s < 2 ^ 32 - 1 := by unfold secFree at hf; omega
  unfold readFatSector
  rw [secOff_small hs']
  split
  · trivial
  · rename_i hlt
    have hlt : (s + 1) * 2 ^ shift < data.val.length := by unfold Slice.len at hlt; omega
    have hle := whole_sector hd hlt
    rw [Nat.add_mul (s + 1), Nat.one_mul] at hle
    unfold Slice.dropFrom
    rw [if_pos (by omega)]
    simp only [GoRes.ok_bind]
    rw [readU32s_words _ _ (by show _ ≤ (data.val.drop _).length; rw [four_pow h2, List.length_drop]; omega), four_pow h2]
    exact rfl

theorem loadHeaderDifat_whole (data : Slice) {shift : Nat} (h2 : 2 ≤ shift) (hd : 2 ^ shift ∣ data.val.length) :
    ∀ sids : List Nat, (∀ s ∈ sids, s < 2 ^ 32) →
    Safe (loadHeaderDifat data shift sids) (fun r => r = table data.val shift (sids.takeWhile (· ≠ 0xFFFFFFFF))) := by
  intro sids
  induction sids with
  | nil => intro _; exact rfl
  | cons s sids ih =>
    intro hs
    unfold loadHeaderDifat
    by_cases hf : s = secFree
    · rw [if_pos hf, List.takeWhile_cons_of_neg (by simp [hf, secFree])]
      exact rfl
    · rw [if_neg hf, List.takeWhile_cons_of_pos (by simpa [secFree] using hf)]
      refine (readFatSector_whole data h2 hd (hs s (by simp)) hf).bind (fun vs hv => ?_)
      refine (ih (fun x hx => hs x (by simp [hx]))).bind (fun ws hw => ?_)
      subst hv hw
      exact safe_ok (by simp [table])

theorem loadDifatSector_whole (data : Slice) {shift : Nat} (h2 : 2 ≤ shift) (hd : 2 ^ shift ∣ data.val.length) :
    ∀ (n : Nat) (s : Slice), 4 * n ≤ s.val.length → Safe (loadDifatSector data shift n s) (fun r =>
      r.1 = table data.val shift ((words (s.val.take (4 * n))).filter (fun i => i ≠ 0xFFFFFFFF ∧ i ≠ 0xFFFFFFFE)) ∧
      r.2.val = s.val.drop (4 * n)) := by
  intro n
  induction n with
  | zero => intro s _; exact ⟨rfl, by simp⟩
  | succ n ih =>
    intro s h
    obtain ⟨v, rest⟩ := s
    simp only at h
    match v, h with
    | a :: b :: c :: d :: v, h =>
      have hl : 4 * n ≤ v.length := by simp at h; omega
      have e : 4 * (n + 1) = 4 * n + 4 := by omega
      unfold loadDifatSector
      have h1 : (⟨a :: b :: c :: d :: v, rest⟩ : Slice).u32 = .ok (le32 a b c d) := rfl
      have h2' : (⟨a :: b :: c :: d :: v, rest⟩ : Slice).dropFrom 4 = .ok ⟨v, rest⟩ := by
        unfold Slice.dropFrom
        rw [if_pos (by simp)]
        rfl
      rw [h1, h2']
      simp only [GoRes.ok_bind]
      rw [e]
      simp only [List.take_succ_cons, List.drop_succ_cons, words, ← u32_words]
      have hlt : le32 a b c d < 2 ^ 32 := by
        have := words_lt [a, b, c, d] (le32 a b c d) (by rw [words, u32_words]; simp)
        exact this
      have hfin : ∀ (vs : List Nat), vs = table data.val shift ([le32 a b c d].filter (fun i => i ≠ 0xFFFFFFFF ∧ i ≠ 0xFFFFFFFE)) →
          Safe (do
            let (ws, s'') ← loadDifatSector data shift n ⟨v, rest⟩
            pure (vs ++ ws, s'') : GoRes (List Nat × Slice)) (fun r =>
            r.1 = table data.val shift ((le32 a b c d :: words (v.take (4 * n))).filter
              (fun i => i ≠ 0xFFFFFFFF ∧ i ≠ 0xFFFFFFFE)) ∧ r.2.val = v.drop (4 * n)) := by
        intro vs hvs
        refine (ih ⟨v, rest⟩ hl).bind (fun r hr => ?_)
        obtain ⟨ws, s''⟩ := r
        obtain ⟨hw, hr⟩ := hr
        simp only at hw hr
        refine safe_ok ⟨?_, hr⟩
        simp only
        rw [hvs, hw, ← List.singleton_append (l := words _), List.filter_append]
        simp [table]
      split
      · rename_i hx
        simp only [GoRes.pure_eq, GoRes.ok_bind]
        refine hfin [] ?_
        rw [List.filter_cons_of_neg (by simp [secFree, secEndOfChain] at hx ⊢; omega)]
        rfl
      · rename_i hx
        refine (readFatSector_whole data h2 hd hlt (fun h => hx (Or.inl h))).bind (fun vs hv => hfin vs ?_)
        rw [List.filter_cons_of_pos (by simp [secFree, secEndOfChain] at hx ⊢; omega)]
        simp [table, hv]
    | [], h => simp at h
    | [_], h => simp at h; omega
    | [_, _], h => simp at h; omega
    | [_, _, _], h => simp at h; omega

theorem words_take : ∀ (n : Nat) (b : Bytes), 4 * n ≤ b.length → words (b.take (4 * n)) = (words b).take n := by
  intro n
  induction n with
  | zero => intro b _; simp [words]
  | succ n ih =>
    intro b h
    match b, h with
    | x :: y :: z :: w :: b, h =>
      rw [show 4 * (n + 1) = 4 * n + 4 by omega]
      simp only [List.take_succ_cons, words]
      rw [ih b (by simp at h; omega)]
    | [], h => simp at h
    | [_], h => simp at h; omega
    | [_, _], h => simp at h; omega
    | [_, _, _], h => simp at h; omega

theorem words_drop_u32 : ∀ (n : Nat) (b rest : Bytes), 4 * n + 4 ≤ b.length →
    (⟨b.drop (4 * n), rest⟩ : Slice).u32 = .ok ((words b)[n]?.getD 0) := by
  intro n
  induction n with
  | zero =>
    intro b rest h
    match b, h with
    | x :: y :: z :: w :: b, h =>
      show GoRes.ok (le32 x y z w) = _
      rw [words, u32_words]
      rfl
    | [], h => simp at h
    | [_], h => simp at h
    | [_, _], h => simp at h
    | [_, _, _], h => simp at h
  | succ n ih =>
    intro b rest h
    match b, h with
    | x :: y :: z :: w :: b, h =>
      rw [show 4 * (n + 1) = 4 * n + 4 by omega]
      simp only [List.drop_succ_cons, words, List.getElem?_cons_succ]
      exact ih b rest (by simp at h; omega)
    | [], h => simp at h
    | [_], h => simp at h
    | [_, _], h => simp at h
    | [_, _, _], h => simp at h

theorem difatLoop_whole (data : Slice) {shift : Nat} (h2 : 2 ≤ shift) (hd : 2 ^ shift ∣ data.val.length) {s : Nat}
    {ids : List Nat} (h : Listed data.val shift s ids) : ∃ n, ∀ fuel, n ≤ fuel →
      ∃ r, difatLoop data shift fuel s = some r ∧ Safe r (fun x => x = table data.val shift ids) := by
  induction h with
  | done =>
    refine ⟨1, fun fuel hf => ?_⟩
    obtain ⟨fuel, rfl⟩ : ∃ k, fuel = k + 1 := ⟨fuel - 1, by omega⟩
    exact ⟨.ok [], by unfold difatLoop; rw [if_pos (show (4294967294 : Nat) = secEndOfChain from rfl)], rfl⟩
  | cons s ids hr hs _ ih =>
    obtain ⟨n, hn⟩ := ih
    refine ⟨n + 1, fun fuel hf => ?_⟩
    obtain ⟨fuel, rfl⟩ : ∃ k, fuel = k + 1 := ⟨fuel - 1, by omega⟩
    obtain ⟨r', hr', hsafe⟩ := hn fuel (by omega)
    have hl := hasSector_le hs
    have hp4 := four_pow h2
    have hp : 0 < 2 ^ (shift - 2) := Nat.two_pow_pos _
    unfold difatLoop
    rw [if_neg (fun h => regular_ne hr (Or.inl h)), secOff_eq hr]
    have hdrop : data.dropFrom ((s + 1) * 2 ^ shift) = .ok ⟨data.val.drop ((s + 1) * 2 ^ shift), data.rest⟩ := by
      unfold Slice.dropFrom
      rw [if_pos hl.1]
    rw [hdrop]
    simp only [GoRes.ok_bind]
    have hlen : 4 * (2 ^ (shift - 2) - 1) + 4 ≤ (data.val.drop ((s + 1) * 2 ^ shift)).length := by
      rw [List.length_drop]
      omega
    have hsec := loadDifatSector_whole data h2 hd (2 ^ (shift - 2) - 1) ⟨data.val.drop ((s + 1) * 2 ^ shift), data.rest⟩
      (by simp only; omega)
    cases hx : loadDifatSector data shift (2 ^ (shift - 2) - 1) ⟨data.val.drop ((s + 1) * 2 ^ shift), data.rest⟩ with
    | panic => rw [hx] at hsec; exact hsec.elim
    | err e => exact ⟨.err e, rfl, trivial⟩
    | ok p =>
      obtain ⟨vs, s'⟩ := p
      rw [hx] at hsec
      obtain ⟨hv, hrest⟩ := hsec
      simp only at hv hrest
      have hs' : s' = ⟨(data.val.drop ((s + 1) * 2 ^ shift)).drop (4 * (2 ^ (shift - 2) - 1)), s'.rest⟩ := by
        rw [← hrest]
      have htake : ∀ m, 4 * m ≤ 2 ^ shift → (data.val.drop ((s + 1) * 2 ^ shift)).take (4 * m) = (sector data.val shift s).take (4 * m) := by
        intro m hm
        unfold sector
        rw [List.take_take]
        congr 1
        omega
      have hu : s'.u32 = .ok ((words (sector data.val shift s))[2 ^ (shift - 2) - 1]?.getD 0) := by
        rw [hs', words_drop_u32 _ _ _ hlen]
        congr 2
        have e1 := words_take (2 ^ (shift - 2)) (data.val.drop ((s + 1) * 2 ^ shift)) (by omega)
        have e2 : words (sector data.val shift s) = (words (data.val.drop ((s + 1) * 2 ^ shift))).take (2 ^ (shift - 2)) := by
          rw [← e1, hp4]
          rfl
        rw [e2, List.getElem?_take_of_lt (by omega)]
      simp only [GoRes.ok_bind, hu, GoRes.pure_eq, hr', Option.map_some]
      refine ⟨_, rfl, ?_⟩
      cases r' with
      | panic => exact hsafe.elim
      | err e => trivial
      | ok x =>
        have hxe : x = table data.val shift ids := hsafe
        show vs ++ x = _
        rw [hxe, hv, htake _ (by omega), words_take _ _ (by rw [sector_length hs]; omega)]
        unfold table
        rw [List.flatMap_append]

theorem minifatLoop_whole (data : Slice) {shift : Nat} (h2 : 2 ≤ shift) (hd : 2 ^ shift ∣ data.val.length) (numMini : Int)
    (hm : numMini ≤ ((2 ^ (shift - 2) : Nat) : Int)) (fuel sid : Nat) :
    ∃ r, minifatLoop data shift numMini (fuel + 1) sid [] = some r ∧ r ≠ .panic := by
  unfold minifatLoop
  split
  · exact ⟨_, rfl, (fun h => by cases h)⟩
  split
  · exact ⟨_, rfl, (fun h => by cases h)⟩
  · rename_i hlt
    have hlt : (1 + sid) % 4294967296 * 2 ^ shift < data.val.length := by unfold Slice.len secOff at hlt; omega
    have hle := whole_sector hd hlt
    rw [Nat.add_mul _ 1, Nat.one_mul] at hle
    unfold Slice.dropFrom secOff
    rw [if_pos (by omega)]
    simp only [GoRes.ok_bind]
    rw [readU32s_words _ _ (by show _ ≤ (data.val.drop _).length; rw [four_pow h2, List.length_drop]; omega), four_pow h2]
    simp only
    rw [if_pos]
    · exact ⟨_, rfl, (fun h => by cases h)⟩
    · have hwl : ∀ (n : Nat) (b : Bytes), b.length = 4 * n → (words b).length = n := by
        intro n
        induction n with
        | zero =>
          intro b hb
          have : b = [] := List.length_eq_zero_iff.1 (by omega)
          subst this
          rfl
        | succ n ih =>
          intro b hb
          match b, hb with
          | x :: y :: z :: w :: b, hb => rw [words, List.length_cons, ih b (by simp at hb; omega)]
          | [], hb => simp at hb
          | [_], hb => simp at hb; omega
          | [_, _], hb => simp at hb; omega
          | [_, _, _], hb => simp at hb; omega
      rw [List.nil_append, hwl (2 ^ (shift - 2)) _ (by rw [List.length_take, List.length_drop, four_pow h2]; omega)]
      exact hm

/-! ### Streams -/

theorem streamLoop_follow (d : Document) (hlt : ∀ t ∈ d.fat, Followable d.data.val d.header.sectorShift d.fat t) :
    ∀ (slots sid size : Nat), Followable d.data.val d.header.sectorShift d.fat sid → 0 < size →
      size ≤ slots * 2 ^ d.header.sectorShift →
      Safe (streamLoop d slots sid size) (fun r => (∀ x ∈ r.1, x ≠ []) ∧ r.1.length ≤ slots ∧
        (r.2 = 0 → ChainBytes d.data.val d.header.sectorShift d.fat sid size r.1.flatten)) := by
  intro slots
  induction slots with
  | zero => intro sid size _ h0 h1; simp at h1; omega
  | succ slots ih =>
    intro sid size hf h0 h1
    have hpos : 0 < 2 ^ d.header.sectorShift := Nat.two_pow_pos _
    unfold streamLoop
    split
    · exact safe_ok ⟨by simp, by simp, fun h => by simp at h; omega⟩
    · rename_i hmark
      rcases hf with hf | hf | ⟨hs, hin, hsec⟩ | ⟨hs, hout⟩
      · exact absurd (Or.inl hf) hmark
      · exact absurd (Or.inr hf) hmark
      · have hl := hasSector_le hsec
        rw [secOff_small (by omega)]
        rw [if_neg (by unfold Slice.len; omega)]
        have hsub : Safe (d.data.sub ((sid + 1) * 2 ^ d.header.sectorShift)
            ((sid + 1) * 2 ^ d.header.sectorShift + 2 ^ d.header.sectorShift)) (fun sl => sl.val = sector d.data.val d.header.sectorShift sid) := by
          refine (safe_sub d.data _ _ (by omega) hl.2).mono (fun sl h => ?_)
          rw [h, List.drop_take]
          unfold sector
          congr 1
          omega
        refine hsub.bind (fun sl hval => ?_)
        have hlen : sl.val.length = 2 ^ d.header.sectorShift := by rw [hval]; exact sector_length hsec
        have hne : sl.val.take size ≠ [] := by
          apply List.ne_nil_of_length_pos
          rw [List.length_take, hlen]; omega
        simp only
        rw [cut_left, cut_val, hlen]
        split
        · rename_i hz
          refine safe_ok ⟨by simpa using hne, by simp, fun _ => ⟨[sid], .one _, by simpa using hsec, by simp; omega, ?_⟩⟩
          simp [hval]
        · rename_i hz
          have hget : d.fat[sid]? = some d.fat[sid] := List.getElem?_eq_getElem hin
          rw [hget]
          simp only
          rw [Nat.add_mul, Nat.one_mul] at h1
          refine (ih d.fat[sid] (size - 2 ^ d.header.sectorShift) (hlt _ (List.getElem_mem hin)) (by omega)
            (by omega)).bind (fun r hr => ?_)
          obtain ⟨ds, left⟩ := r
          obtain ⟨hne', hl', hfin⟩ := hr
          simp only at hne' hl' hfin
          refine safe_ok ⟨?_, by simp; omega, fun hz0 => ?_⟩
          · intro x hx
            rcases List.mem_cons.1 hx with rfl | hx
            · exact hne
            · exact hne' x hx
          · obtain ⟨ids, hrun, hids, hsz, hb⟩ := hfin hz0
            refine ⟨sid :: ids, .cons _ _ _ hget hrun, ?_, ?_, ?_⟩
            · intro i hi
              rcases List.mem_cons.1 hi with rfl | hi
              · exact hsec
              · exact hids i hi
            · rw [List.length_cons, Nat.add_mul, Nat.one_mul]
              omega
            · simp only
              rw [List.flatten_cons, hb, List.map_cons, List.flatten_cons, List.take_append, hval]
              congr 2
              rw [sector_length hsec]
      · rw [if_pos (by rw [secOff_small (by omega)]; exact hout)]
        trivial

theorem getStreamReader_follow (d : Document) (hlt : ∀ t ∈ d.fat, Followable d.data.val d.header.sectorShift d.fat t)
    (h9 : 9 ≤ d.header.sectorShift) {sid size : Nat} (hf : Followable d.data.val d.header.sectorShift d.fat sid) (h0 : 0 < size)
    (h1 : size < 2 ^ 50) :
    Safe (getStreamReader d sid size) (fun r => ∃ ds n, r = SliceReader.mk' (ds ++ List.replicate n []) ∧
      (∀ x ∈ ds, x ≠ []) ∧ ChainBytes d.data.val d.header.sectorShift d.fat sid size ds.flatten) := by
  have hpos : 0 < 2 ^ d.header.sectorShift := Nat.two_pow_pos _
  have hbig : 512 ≤ 2 ^ d.header.sectorShift := Nat.pow_le_pow_right (n := 2) (by decide) h9
  have hq : size / 2 ^ d.header.sectorShift ≤ size / 512 := Nat.div_le_div_left hbig (by decide)
  unfold getStreamReader
  simp only
  rw [if_neg (by omega)]
  have hslots : size ≤ (1 + size / 2 ^ d.header.sectorShift) * 2 ^ d.header.sectorShift := by
    have := Nat.div_add_mod size (2 ^ d.header.sectorShift)
    have := Nat.mod_lt size hpos
    rw [Nat.add_mul, Nat.one_mul, Nat.mul_comm (size / _)]
    omega
  refine (streamLoop_follow d hlt _ sid size hf h0 hslots).bind (fun r hr => ?_)
  obtain ⟨ds, left⟩ := r
  obtain ⟨hne, _, hfin⟩ := hr
  simp only at hne hfin ⊢
  split
  · trivial
  · rename_i hz
    exact safe_ok ⟨ds, _, rfl, hne, hfin (by omega)⟩

end Grate.Cfb
