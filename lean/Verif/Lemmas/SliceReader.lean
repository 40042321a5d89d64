import Verif.Model.SliceReader
import Verif.Spec.Stream

/-! # Lemmas about `SliceReader` -/

namespace Grate.SliceReader

/-- Number of bytes in the first `i` slices. -/
def before (data : List Bytes) (i : Nat) : Nat := ((data.take i).map List.length).sum

/-- Position in the concatenation. -/
def pos (s : SliceReader) : Nat := before s.data s.index + s.offset

/-- Non-empty slices followed by empty ones. -/
def Layout (data : List Bytes) : Prop :=
  ∃ ds n, data = ds ++ List.replicate n [] ∧ ∀ d ∈ ds, d ≠ []

/-- The state invariant. -/
structure Good (s : SliceReader) : Prop where
  layout : Layout s.data
  cache : s.csize.length = s.data.length → s.csize = cumul 0 s.data
  cur : match s.data[s.index]? with
    | none => s.offset = 0
    | some d => s.offset < d.length ∨ (s.offset = d.length ∧ (s.data.drop (s.index + 1)).flatten = [])

theorem before_zero (data : List Bytes) : before data 0 = 0 := rfl

theorem before_succ {data : List Bytes} {i : Nat} {d : Bytes} (h : data[i]? = some d) :
    before data (i + 1) = before data i + d.length := by
  unfold before
  rw [List.take_add_one, h]
  simp

theorem before_of_ge {data : List Bytes} {i : Nat} (h : data.length ≤ i) :
    before data i = data.flatten.length := by
  unfold before
  rw [List.take_of_length_le h, List.length_flatten]

theorem before_le_succ (data : List Bytes) (i : Nat) : before data i ≤ before data (i + 1) := by
  cases h : data[i]? with
  | some d => rw [before_succ h]; omega
  | none =>
    have := List.getElem?_eq_none_iff.1 h
    rw [before_of_ge this, before_of_ge (by omega)]; exact Nat.le_refl _

theorem before_mono (data : List Bytes) {i j : Nat} (h : i ≤ j) : before data i ≤ before data j := by
  induction h with
  | refl => exact Nat.le_refl _
  | step _ ih => exact Nat.le_trans ih (before_le_succ _ _)

theorem before_le_total (data : List Bytes) (i : Nat) : before data i ≤ data.flatten.length := by
  rcases Nat.le_total data.length i with h | h
  · rw [before_of_ge h]; exact Nat.le_refl _
  · rw [← before_of_ge (Nat.le_refl data.length)]; exact before_mono _ h

theorem flatten_drop : ∀ (data : List Bytes) (i o : Nat) (d : Bytes), data[i]? = some d → o ≤ d.length →
    data.flatten.drop (before data i + o) = d.drop o ++ (data.drop (i + 1)).flatten := by
  intro data
  induction data with
  | nil => intro i o d h; simp at h
  | cons e es ih =>
    intro i o d h ho
    cases i with
    | zero =>
      simp at h
      subst h
      rw [before_zero, Nat.zero_add]
      simp [List.drop_append_of_le_length ho]
    | succ i =>
      have h' : es[i]? = some d := by simpa using h
      have hb : before (e :: es) (i + 1) = e.length + before es i := by
        simp [before]
      rw [hb, List.flatten_cons, Nat.add_assoc]
      rw [List.drop_append, List.drop_eq_nil_of_le (by omega), List.nil_append]
      rw [show e.length + (before es i + o) - e.length = before es i + o from by omega]
      rw [ih i o d h' ho]
      rfl

theorem cumul_length (z : Int) (data : List Bytes) : (cumul z data).length = data.length := by
  induction data generalizing z with
  | nil => rfl
  | cons d ds ih => simp [cumul, ih]

theorem cumul_get (z : Int) (data : List Bytes) (i : Nat) :
    (cumul z data)[i]? = if i < data.length then some (z + before data i) else none := by
  induction data generalizing z i with
  | nil => simp [cumul]
  | cons d ds ih =>
    cases i with
    | zero => simp [cumul, before]
    | succ i =>
      rw [show (cumul z (d :: ds))[i + 1]? = (cumul (z + d.length) ds)[i]? from rfl, ih]
      simp [before, Int.add_assoc]

theorem Layout.rest_empty {data : List Bytes} (h : Layout data) {i : Nat} (hi : data[i]? = some []) :
    (data.drop (i + 1)).flatten = [] := by
  obtain ⟨ds, n, rfl, hd⟩ := h
  have hlen : ds.length ≤ i := by
    rcases Nat.lt_or_ge i ds.length with hc | hc
    · rw [List.getElem?_append_left hc] at hi
      exact absurd rfl (hd [] (List.mem_of_getElem? hi))
    · exact hc
  rw [List.drop_append, List.drop_eq_nil_of_le (by omega)]
  simp

theorem good_zero_offset {s : SliceReader} (hl : Layout s.data)
    (hc : s.csize.length = s.data.length → s.csize = cumul 0 s.data) (ho : s.offset = 0) : Good s := by
  refine ⟨hl, hc, ?_⟩
  cases h : s.data[s.index]? with
  | none => exact ho
  | some d =>
    cases d with
    | nil => exact Or.inr ⟨by simp [ho], hl.rest_empty h⟩
    | cons a as => exact Or.inl (by simp [ho])

/-- Either there is a current slice with bytes left, or the end is reached. -/
theorem Good.cases {s : SliceReader} (h : Good s) :
    (∃ d, s.data[s.index]? = some d ∧ s.offset < d.length ∧ pos s < s.data.flatten.length) ∨
    (pos s = s.data.flatten.length ∧ (∀ d, s.data[s.index]? = some d → s.offset = d.length)) := by
  have hc := h.cur
  cases hd : s.data[s.index]? with
  | none =>
    rw [hd] at hc
    refine Or.inr ⟨?_, by simp⟩
    unfold pos
    rw [before_of_ge (List.getElem?_eq_none_iff.1 hd)]
    simp only at hc
    omega
  | some d =>
    rw [hd] at hc
    rcases hc with hc | ⟨hc, hr⟩
    · refine Or.inl ⟨d, rfl, hc, ?_⟩
      have h1 := before_succ hd
      have h2 := before_le_total s.data (s.index + 1)
      unfold pos
      omega
    · refine Or.inr ⟨?_, by intro e he; cases he; exact hc⟩
      have h1 := congrArg List.length (flatten_drop s.data s.index d.length d hd (Nat.le_refl _))
      rw [hr] at h1
      simp at h1
      have h2 := before_le_total s.data (s.index + 1)
      rw [before_succ hd] at h2
      unfold pos
      rw [hc]
      have h3 : s.data.flatten.length = (List.map List.length s.data).sum := List.length_flatten ..
      omega

theorem read_spec {s : SliceReader} (h : Good s) {k : Nat} (hk : 0 < k) :
    (pos s < s.data.flatten.length → ∃ b s', s.read k = .ok (b, s') ∧ b ≠ [] ∧ b.length ≤ k ∧
      s'.data = s.data ∧ pos s' = pos s + b.length ∧ Good s' ∧
      s.data.flatten.drop (pos s) = b ++ s.data.flatten.drop (pos s')) ∧
    (s.data.flatten.length ≤ pos s → s.read k = .err .eof) := by
  rcases h.cases with ⟨d, hd, ho, hp⟩ | ⟨hp, ho⟩
  · refine ⟨fun _ => ?_, fun hc => absurd hp (by omega)⟩
    have hne : 0 < ((d.drop s.offset).take k).length := by
      rw [List.length_take, List.length_drop]; omega
    have hpos : s.data.flatten.drop (pos s) = d.drop s.offset ++ (s.data.drop (s.index + 1)).flatten :=
      flatten_drop _ _ _ _ hd (by omega)
    unfold read
    rw [hd]
    simp only
    rw [if_neg (by omega), if_pos hne]
    have hsub : s.offset + ((d.drop s.offset).take k).length ≤ d.length := by
      rw [List.length_take, List.length_drop]; omega
    have key : ∀ s' : SliceReader, s'.data = s.data → pos s' = pos s + ((d.drop s.offset).take k).length →
        s.data.flatten.drop (pos s) = (d.drop s.offset).take k ++ s.data.flatten.drop (pos s') := by
      intro s' _ hp'
      rw [hp', ← List.drop_drop, hpos]
      rw [List.drop_append_of_le_length (by rw [List.length_take]; omega)]
      rw [← List.append_assoc]
      congr 1
      conv => lhs; rw [← List.take_append_drop k (d.drop s.offset)]
      congr 1
      rw [List.length_take]
      rcases Nat.le_total k (d.drop s.offset).length with h1 | h1
      · rw [Nat.min_eq_left h1]
      · rw [Nat.min_eq_right h1, List.drop_eq_nil_of_le h1, List.drop_eq_nil_of_le (Nat.le_refl _)]
    by_cases hfull : s.offset + ((d.drop s.offset).take k).length = d.length
    · rw [if_pos hfull]
      have hp' : pos { s with offset := 0, index := s.index + 1 } =
          pos s + ((d.drop s.offset).take k).length := by
        show before s.data (s.index + 1) + 0 = before s.data s.index + s.offset + _
        rw [before_succ hd]
        omega
      exact ⟨_, _, rfl, List.ne_nil_of_length_pos hne, by rw [List.length_take]; omega, rfl, hp',
        good_zero_offset h.layout h.cache rfl, key _ rfl hp'⟩
    · rw [if_neg hfull]
      have hp' : pos { s with offset := s.offset + ((d.drop s.offset).take k).length } =
          pos s + ((d.drop s.offset).take k).length := by
        show before s.data s.index + (s.offset + _) = before s.data s.index + s.offset + _
        rw [Nat.add_assoc]
      refine ⟨_, _, rfl, List.ne_nil_of_length_pos hne, by rw [List.length_take]; omega, rfl, hp',
        ⟨h.layout, h.cache, ?_⟩, key _ rfl hp'⟩
      show match s.data[s.index]? with
        | none => _
        | some d => _
      rw [hd]
      exact Or.inl (show s.offset + ((d.drop s.offset).take k).length < d.length by omega)
  · refine ⟨fun hc => absurd hp (by omega), fun _ => ?_⟩
    unfold read
    cases hd : s.data[s.index]? with
    | none => rfl
    | some d =>
      have := ho d hd
      simp only
      rw [if_neg (by omega), this, List.drop_eq_nil_of_le (Nat.le_refl _)]
      simp

/-! ### Seek -/

/-- The seek ended at `want`. -/
def Sought (want : Int) (s : SliceReader) (r : Option (GoRes (Int × SliceReader))) : Prop :=
  ∃ s', r = some (.ok (want, s')) ∧ s'.data = s.data ∧ s'.csize = s.csize ∧ (pos s' : Int) = want ∧
    Good s'

/-- Positions that the loop can stop at. -/
def Reach (data : List Bytes) (want : Int) : Prop :=
  want < data.flatten.length ∨ want ≤ before data (data.length - 1)

/-- Unfolding of one loop step. -/
theorem seekLoop_succ (want : Int) (fuel : Nat) (s : SliceReader) (t : Int) (d : Bytes)
    (hcs : s.csize = cumul 0 s.data) (hd : s.data[s.index]? = some d) :
    seekLoop want (fuel + 1) s t =
      if t = want then some (.ok (want, s))
      else if (before s.data s.index : Int) < want ∧ want < before s.data s.index + d.length then
        some (.ok (want, { s with offset := (want - before s.data s.index).toNat }))
      else if want < t then
        if s.index = 0 then some .panic
        else seekLoop want fuel { s with index := s.index - 1, offset := 0 } (before s.data (s.index - 1))
      else if s.index + 1 < s.data.length then
        seekLoop want fuel { s with index := s.index + 1, offset := 0 } (before s.data (s.index + 1))
      else some .panic := by
  have hi : s.index < s.data.length := (List.getElem?_eq_some_iff.1 hd).1
  rw [seekLoop, hd]
  rw [show s.csize[s.index]? = some (before s.data s.index : Int) by
    rw [hcs, cumul_get, if_pos hi]; simp]
  simp only
  split
  · rfl
  split
  · rfl
  split
  · split
    · rfl
    · rw [hcs, cumul_get, if_pos (by omega)]
      simp
  · rw [hcs, cumul_get]
    by_cases h : s.index + 1 < s.data.length
    · rw [if_pos h, if_pos h]; simp
    · rw [if_neg h, if_neg h]

theorem within_good {s : SliceReader} {d : Bytes} {want : Int} (h : Layout s.data)
    (hcs : s.csize = cumul 0 s.data) (hd : s.data[s.index]? = some d)
    (h1 : (before s.data s.index : Int) < want) (h2 : want < before s.data s.index + d.length) :
    Sought want s (some (.ok (want, { s with offset := (want - before s.data s.index).toNat }))) := by
  refine ⟨_, rfl, rfl, rfl, ?_, h, fun _ => hcs, ?_⟩
  · show ((before s.data s.index + (want - before s.data s.index).toNat : Nat) : Int) = want
    omega
  · show match s.data[s.index]? with
      | none => _
      | some d => _
    rw [hd]
    exact Or.inl (by show (want - before s.data s.index).toNat < _; omega)

theorem at_good {s : SliceReader} {want : Int} (h : Layout s.data)
    (hcs : s.csize = cumul 0 s.data) (ho : s.offset = 0) (h1 : (before s.data s.index : Int) = want) :
    Sought want s (some (.ok (want, s))) :=
  ⟨s, rfl, rfl, rfl, by show ((before s.data s.index + s.offset : Nat) : Int) = want; omega,
    good_zero_offset h (fun _ => hcs) ho⟩

theorem seek_down (want : Int) : ∀ (i fuel : Nat) (s : SliceReader) (d : Bytes), Layout s.data →
    s.csize = cumul 0 s.data → s.index = i → s.offset = 0 → s.data[i]? = some d →
    want < before s.data i + d.length → i < fuel →
    (0 ≤ want → Sought want s (seekLoop want fuel s (before s.data i))) ∧
    (want < 0 → seekLoop want fuel s (before s.data i) = some .panic) := by
  intro i
  induction i with
  | zero =>
    intro fuel s d hl hcs hi ho hd hw hf
    obtain ⟨fuel, rfl⟩ : ∃ f, fuel = f + 1 := ⟨fuel - 1, by omega⟩
    have hd' : s.data[s.index]? = some d := by rw [hi]; exact hd
    rw [seekLoop_succ want fuel s _ d hcs hd']
    rw [before_zero] at hw ⊢
    have hb : before s.data s.index = 0 := by rw [hi]; rfl
    constructor
    · intro h0
      by_cases he : want = 0
      · rw [if_pos (by simp [he])]
        exact at_good hl hcs ho (by omega)
      · rw [if_neg (by omega), if_pos (by omega)]
        exact within_good hl hcs hd' (by omega) (by omega)
    · intro h0
      rw [if_neg (by omega), if_neg (by omega), if_pos (by omega), if_pos hi]
  | succ i ih =>
    intro fuel s d hl hcs hi ho hd hw hf
    obtain ⟨fuel, rfl⟩ : ∃ f, fuel = f + 1 := ⟨fuel - 1, by omega⟩
    have hd' : s.data[s.index]? = some d := by rw [hi]; exact hd
    rw [seekLoop_succ want fuel s _ d hcs hd']
    by_cases he : (before s.data (i + 1) : Int) = want
    · rw [if_pos he]
      exact ⟨fun _ => at_good hl hcs ho (by rw [hi]; exact he), fun h => absurd he (by omega)⟩
    rw [if_neg he]
    by_cases hin : (before s.data s.index : Int) < want ∧ want < before s.data s.index + d.length
    · rw [if_pos hin]
      exact ⟨fun _ => within_good hl hcs hd' hin.1 hin.2, fun h => absurd hin.1 (by omega)⟩
    rw [if_neg hin]
    rw [hi] at hin
    have hlt : want < (before s.data (i + 1) : Int) := by omega
    rw [if_pos hlt, if_neg (by omega)]
    have hil : i < s.data.length := by
      have := (List.getElem?_eq_some_iff.1 hd).1; omega
    have hd2 : s.data[i]? = some s.data[i] := List.getElem?_eq_getElem hil
    have := ih fuel { s with index := s.index - 1, offset := 0 } s.data[i] hl hcs
      (by show s.index - 1 = i; omega) rfl hd2 (by rw [before_succ hd2] at hlt; push_cast at hlt; exact hlt)
      (by omega)
    have e : s.index - 1 = i := by omega
    rw [e] at this ⊢
    refine ⟨fun h => ?_, this.2⟩
    exact this.1 h

theorem seek_up (want : Int) : ∀ (n fuel : Nat) (s : SliceReader), Layout s.data →
    s.csize = cumul 0 s.data → s.index < s.data.length → s.offset = 0 → s.data.length - s.index = n →
    (before s.data s.index : Int) ≤ want → n < fuel →
    (Reach s.data want → Sought want s (seekLoop want fuel s (before s.data s.index))) ∧
    (¬ Reach s.data want → seekLoop want fuel s (before s.data s.index) = some .panic) := by
  intro n
  induction n with
  | zero => intro fuel s hl hcs hi ho hn; omega
  | succ n ih =>
    intro fuel s hl hcs hi ho hn hw hf
    obtain ⟨fuel, rfl⟩ : ∃ f, fuel = f + 1 := ⟨fuel - 1, by omega⟩
    have hd : s.data[s.index]? = some s.data[s.index] := List.getElem?_eq_getElem hi
    rw [seekLoop_succ want fuel s _ _ hcs hd]
    by_cases he : (before s.data s.index : Int) = want
    · rw [if_pos he]
      refine ⟨fun _ => at_good hl hcs ho he, fun h => absurd (Or.inr ?_) h⟩
      have := before_mono s.data (i := s.index) (j := s.data.length - 1) (by omega)
      omega
    rw [if_neg he]
    have hs := before_succ hd
    have ht := before_le_total s.data (s.index + 1)
    by_cases hin : (before s.data s.index : Int) < want ∧ want < before s.data s.index + s.data[s.index].length
    · rw [if_pos hin]
      exact ⟨fun _ => within_good hl hcs hd hin.1 hin.2, fun h => absurd (Or.inl (by omega)) h⟩
    rw [if_neg hin, if_neg (by omega)]
    by_cases hlast : s.index + 1 < s.data.length
    · rw [if_pos hlast]
      have := ih fuel { s with index := s.index + 1, offset := 0 } hl hcs hlast rfl
        (by show s.data.length - (s.index + 1) = n; omega)
        (by show (before s.data (s.index + 1) : Int) ≤ want; omega) (by omega)
      exact this
    · rw [if_neg hlast]
      refine ⟨fun h => ?_, fun _ => rfl⟩
      exfalso
      have hl1 : s.data.length - 1 = s.index := by omega
      have h2 := before_of_ge (data := s.data) (i := s.index + 1) (by omega)
      rcases h with h | h
      · omega
      · rw [hl1] at h; omega

/-- The loop from any state: everything it can do. -/
theorem seek_loop_spec (want : Int) (fuel : Nat) (s : SliceReader) (d : Bytes) (h : Good s)
    (hcs : s.csize = cumul 0 s.data) (hd : s.data[s.index]? = some d) (hf : s.data.length + 1 < fuel) :
    (0 < want ∧ Reach s.data want → Sought want s (seekLoop want fuel s (pos s))) ∧
    (want = 0 → s.index ≠ 0 ∨ s.offset = 0 → Sought want s (seekLoop want fuel s (pos s))) ∧
    (want = 0 → s.index = 0 → s.offset ≠ 0 → seekLoop want fuel s (pos s) = some .panic) ∧
    (want < 0 → seekLoop want fuel s (pos s) = some .panic) ∧
    (¬ Reach s.data want → want ≠ pos s → seekLoop want fuel s (pos s) = some .panic) ∧
    (want = pos s → Sought want s (seekLoop want fuel s (pos s))) := by
  obtain ⟨fuel, rfl⟩ : ∃ f, fuel = f + 1 := ⟨fuel - 1, by omega⟩
  have hi : s.index < s.data.length := (List.getElem?_eq_some_iff.1 hd).1
  have ho : s.offset ≤ d.length := by
    have := h.cur
    rw [hd] at this
    omega
  have hp : pos s = before s.data s.index + s.offset := rfl
  have hs := before_succ hd
  have ht := before_le_total s.data (s.index + 1)
  rw [seekLoop_succ want fuel s _ d hcs hd]
  by_cases he : ((pos s : Nat) : Int) = want
  · rw [if_pos he]
    have good : Sought want s (some (.ok (want, s))) := ⟨s, rfl, rfl, rfl, he, h⟩
    refine ⟨fun _ => good, fun _ _ => good, fun h0 h1 h2 => ?_, fun h0 => by omega, fun _ hne => absurd he.symm hne,
      fun _ => good⟩
    omega
  rw [if_neg he]
  by_cases hin : (before s.data s.index : Int) < want ∧ want < before s.data s.index + d.length
  · rw [if_pos hin]
    refine ⟨fun _ => within_good h.layout hcs hd hin.1 hin.2, fun h0 => by omega, fun h0 => by omega,
      fun h0 => by omega, fun hr => absurd (Or.inl (by omega)) hr, fun h0 => absurd h0.symm he⟩
  rw [if_neg hin]
  by_cases hlt : want < ((pos s : Nat) : Int)
  · rw [if_pos hlt]
    have hle : want ≤ before s.data s.index := by omega
    have hreach : Reach s.data want := Or.inr (by
      have := before_mono s.data (i := s.index) (j := s.data.length - 1) (by omega)
      omega)
    by_cases h0 : s.index = 0
    · rw [if_pos h0]
      have hb : before s.data s.index = 0 := by rw [h0]; rfl
      refine ⟨fun hh => by omega, fun hz hh => ?_, fun _ _ _ => rfl, fun _ => rfl, fun _ _ => rfl,
        fun hh => absurd hh.symm he⟩
      omega
    · rw [if_neg h0]
      have hil : s.index - 1 < s.data.length := by omega
      have hd2 : s.data[s.index - 1]? = some s.data[s.index - 1] := List.getElem?_eq_getElem hil
      have hb := before_succ hd2
      rw [show s.index - 1 + 1 = s.index by omega] at hb
      by_cases hw : want < before s.data s.index
      · have := seek_down want (s.index - 1) fuel { s with index := s.index - 1, offset := 0 } _ h.layout hcs
          rfl rfl hd2 (by show want < (before s.data (s.index - 1) : Int) + _; omega) (by omega)
        refine ⟨fun hh => this.1 (by omega), fun hh _ => this.1 (by omega), fun _ hh => absurd hh h0, this.2,
          fun hh => absurd hreach hh, fun hh => absurd hh.symm he⟩
      · have hwe : want = before s.data s.index := by omega
        have := seek_up want _ fuel { s with index := s.index - 1, offset := 0 } h.layout hcs
          hil rfl rfl (by show (before s.data (s.index - 1) : Int) ≤ want; omega)
          (by show s.data.length - (s.index - 1) < fuel; omega)
        refine ⟨fun hh => this.1 hreach, fun hh _ => this.1 hreach, fun _ hh => absurd hh h0, fun hh => by omega,
          fun hh => absurd hreach hh, fun hh => absurd hh.symm he⟩
  · rw [if_neg hlt]
    have hge : (before s.data (s.index + 1) : Int) ≤ want := by omega
    by_cases hlast : s.index + 1 < s.data.length
    · rw [if_pos hlast]
      have := seek_up want _ fuel { s with index := s.index + 1, offset := 0 } h.layout hcs
        hlast rfl rfl hge (by show s.data.length - (s.index + 1) < fuel; omega)
      refine ⟨fun hh => this.1 hh.2, fun hh _ => this.1 (Or.inr (by rw [hh]; exact Int.natCast_nonneg _)),
        fun hh => by omega, fun hh => by omega, fun hh _ => this.2 hh, fun hh => absurd hh.symm he⟩
    · rw [if_neg hlast]
      have hnr : ¬ Reach s.data want := by
        have h2 := before_of_ge (data := s.data) (i := s.index + 1) (by omega)
        have hl1 : s.data.length - 1 = s.index := by omega
        rintro (hr | hr)
        · omega
        · rw [hl1] at hr; omega
      refine ⟨fun hh => absurd hh.2 hnr, fun hh _ => by omega, fun _ _ _ => rfl, fun _ => rfl, fun _ _ => rfl,
        fun hh => absurd hh.symm he⟩

end Grate.SliceReader
