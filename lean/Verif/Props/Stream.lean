import Verif.Lemmas.SliceReader

/-! # C33, C34: reading and seeking in streams assembled from sectors -/

namespace Grate.Props

open SliceReader Spec

/-- The results of successive `Read` calls with buffers of the sizes `ks`. An error leaves the reader as
it is. -/
def readResults : SliceReader → List Nat → List (GoRes Bytes)
  | _, [] => []
  | s, k :: ks =>
    match s.read k with
    | .ok (b, s') => .ok b :: readResults s' ks
    | .err e => .err e :: readResults s ks
    | .panic => [.panic]

/-- C33. Reading with any sequence of positive buffer sizes delivers the concatenation of the slices in
order, and EOF exactly at its end (every list of non-empty slices; unused empty slots may follow). -/
theorem C33_read (ds : List Bytes) (n : Nat) (hne : ∀ d ∈ ds, d ≠ []) (ks : List Nat)
    (hk : ∀ k ∈ ks, 0 < k) :
    Delivers ds.flatten 0 ks (readResults (SliceReader.mk' (ds ++ List.replicate n [])) ks) := by
  have hl : Layout (ds ++ List.replicate n []) := ⟨ds, n, rfl, hne⟩
  have hflat : (ds ++ List.replicate n ([] : Bytes)).flatten = ds.flatten := by simp
  have key : ∀ (ks : List Nat) (s : SliceReader), (∀ k ∈ ks, 0 < k) → Good s →
      Delivers s.data.flatten (pos s) ks (readResults s ks) := by
    intro ks
    induction ks with
    | nil => intro s _ _; exact .nil _
    | cons k ks ih =>
      intro s hk hg
      obtain ⟨h1, h2⟩ := read_spec hg (hk k (by simp))
      rcases Nat.lt_or_ge (pos s) s.data.flatten.length with hp | hp
      · obtain ⟨b, s', hr, hb, hbk, hd, hp', hg', heq⟩ := h1 hp
        unfold readResults
        rw [hr]
        refine .data _ _ _ _ _ hp hb hbk ⟨_, heq.symm⟩ ?_
        have := ih s' (fun k h => hk k (by simp [h])) hg'
        rw [hd, hp'] at this
        exact this
      · unfold readResults
        rw [h2 hp]
        exact .eof _ _ _ _ hp (ih s (fun k h => hk k (by simp [h])) hg)
  have := key ks (SliceReader.mk' (ds ++ List.replicate n [])) hk
    (good_zero_offset hl (by
      intro h
      cases hh : ds ++ List.replicate n ([] : Bytes) with
      | nil => simp [SliceReader.mk', cumul]
      | cons a as => simp [SliceReader.mk', hh] at h) rfl)
  rw [show pos (SliceReader.mk' (ds ++ List.replicate n [])) = 0 from rfl] at this
  rw [show (SliceReader.mk' (ds ++ List.replicate n [])).data.flatten = ds.flatten from hflat] at this
  exact this

/-- C33. `io.ReadAll` with any positive buffer sizes returns exactly the concatenation, and more reads
than bytes are always enough to see the end. -/
theorem C33_readAll (ds : List Bytes) (n : Nat) (hne : ∀ d ∈ ds, d ≠ []) (ks : List Nat)
    (hk : ∀ k ∈ ks, 0 < k) :
    (∀ r, (SliceReader.mk' (ds ++ List.replicate n [])).readAll ks = some r → r = .ok ds.flatten) ∧
    (ds.flatten.length < ks.length →
      (SliceReader.mk' (ds ++ List.replicate n [])).readAll ks = some (.ok ds.flatten)) := by
  have hl : Layout (ds ++ List.replicate n []) := ⟨ds, n, rfl, hne⟩
  have hflat : (ds ++ List.replicate n ([] : Bytes)).flatten = ds.flatten := by simp
  have key : ∀ (ks : List Nat) (s : SliceReader), (∀ k ∈ ks, 0 < k) → Good s →
      (∀ r, s.readAll ks = some r → r = .ok (s.data.flatten.drop (pos s))) ∧
      (s.data.flatten.length - pos s < ks.length →
        s.readAll ks = some (.ok (s.data.flatten.drop (pos s)))) := by
    intro ks
    induction ks with
    | nil => intro s _ _; exact ⟨by intro r h; simp [readAll] at h, by intro h; simp at h⟩
    | cons k ks ih =>
      intro s hk hg
      obtain ⟨h1, h2⟩ := read_spec hg (hk k (by simp))
      rcases Nat.lt_or_ge (pos s) s.data.flatten.length with hp | hp
      · obtain ⟨b, s', hr, hb, hbk, hd, hp', hg', heq⟩ := h1 hp
        obtain ⟨i1, i2⟩ := ih s' (fun k h => hk k (by simp [h])) hg'
        rw [hd] at i1 i2
        have hbpos : 0 < b.length := List.length_pos_iff.2 hb
        unfold readAll
        rw [hr, heq]
        simp only
        constructor
        · intro r h
          cases hra : s'.readAll ks with
          | none => simp [hra] at h
          | some r' =>
            rw [hra, i1 r' hra] at h
            simp at h
            exact h.symm
        · intro hlen
          rw [List.length_cons] at hlen
          rw [i2 (by rw [hp']; omega)]
          rfl
      · unfold readAll
        rw [h2 hp, List.drop_eq_nil_of_le hp]
        exact ⟨fun r h => (Option.some.inj h).symm, fun _ => rfl⟩
  have := key ks (SliceReader.mk' (ds ++ List.replicate n [])) hk
    (good_zero_offset hl (by
      intro h
      cases hh : ds ++ List.replicate n ([] : Bytes) with
      | nil => simp [SliceReader.mk', cumul]
      | cons a as => simp [SliceReader.mk', hh] at h) rfl)
  rw [show pos (SliceReader.mk' (ds ++ List.replicate n [])) = 0 from rfl] at this
  rw [show (SliceReader.mk' (ds ++ List.replicate n [])).data.flatten = ds.flatten from hflat] at this
  simpa using this

example : readResults (SliceReader.mk' [[1, 2, 3], [4, 5], []]) [2, 2, 9, 1] =
    [.ok [1, 2], .ok [3], .ok [4, 5], .err .eof] := rfl

/-- An empty slice in front of others ends the data early: the slices must be non-empty. -/
theorem C33_interior_empty : readResults (SliceReader.mk' [[], [4, 5]]) [2, 2] = [.err .eof, .err .eof] := rfl

/-! ## Seek -/

/-- The `whence` argument. -/
def whence : Spec.Base → Whence
  | .start => .start
  | .current => .current
  | .fromEnd => .fromEnd

/-- Fuel that is always enough for the loop of `Seek`. -/
def seekFuel (s : SliceReader) : Nat := s.data.length + 2

theorem getLast?_eq {α : Type} (l : List α) : l.getLast? = l[l.length - 1]? := by
  exact List.getLast?_eq_getElem?

/-- `Seek` from any state of a reader over at least one slice: state at the start of the loop. -/
theorem seek_unfold (s : SliceReader) (hg : Good s) (hne : s.data ≠ []) (b : Spec.Base) (o : Int) (fuel : Nat) :
    ∃ s1 d, Good s1 ∧ s1.data = s.data ∧ s1.csize = cumul 0 s.data ∧ s1.data[s1.index]? = some d ∧
      pos s1 = pos s ∧
      s.seek fuel o (whence b) =
        match b with
        | .current => if o = 0 then some (.ok ((pos s1 : Int), s1))
            else seekLoop (o + pos s1) fuel s1 (pos s1)
        | .start => if o < 0 then some (.err (.msg "xls: invalid seek offset"))
            else seekLoop o fuel { s1 with index := 0, offset := 0 } 0
        | .fromEnd => if 0 < o then some (.err (.msg "xls: invalid seek offset"))
            else seekLoop (o + s.data.flatten.length) fuel
              { s1 with index := s.data.length - 1, offset := (s.data.getLast hne).length }
              s.data.flatten.length := by
  have hlen : 0 < s.data.length := List.length_pos_iff.2 hne
  -- cache
  obtain ⟨s0, hs0, hd0, hc0, hi0, ho0⟩ : ∃ s0 : SliceReader,
      s0 = s.cached ∧
      s0.data = s.data ∧ s0.csize = cumul 0 s.data ∧ s0.index = s.index ∧ s0.offset = s.offset := by
    refine ⟨_, rfl, ?_⟩
    unfold cached
    by_cases h : s.csize.length ≠ s.data.length
    · rw [if_pos h]; exact ⟨rfl, rfl, rfl, rfl⟩
    · rw [if_neg h]; exact ⟨rfl, hg.cache (by simpa using h), rfl, rfl⟩
  have hcl : s0.csize.length = s.data.length := by rw [hc0, cumul_length]
  have hlast : s.data.getLast? = some (s.data.getLast hne) := List.getLast?_eq_some_getLast hne
  have hlastIdx : s.data[s.data.length - 1]? = some (s.data.getLast hne) := by
    rw [← getLast?_eq, hlast]
  have htot : (before s.data (s.data.length - 1) : Int) + (s.data.getLast hne).length = s.data.flatten.length := by
    have := before_succ hlastIdx
    rw [show s.data.length - 1 + 1 = s.data.length by omega, before_of_ge (Nat.le_refl _)] at this
    omega
  have hclast : s0.csize.getLast? = some (before s.data (s.data.length - 1) : Int) := by
    rw [getLast?_eq, hcl, hc0, cumul_get, if_pos (by omega)]
    simp
  -- normalised state
  obtain ⟨s1, d, hs1, hg1, hd1, hc1, hx1, hp1⟩ : ∃ s1 d,
      s0.clamped = some s1 ∧ Good s1 ∧ s1.data = s.data ∧ s1.csize = cumul 0 s.data ∧
      s1.data[s1.index]? = some d ∧ pos s1 = pos s := by
    unfold clamped
    by_cases h : s0.csize.length ≤ s0.index
    · have e : s0.data.getLast? = some (s.data.getLast hne) := by rw [hd0, hlast]
      rw [if_pos h, e]
      refine ⟨_, s.data.getLast hne, rfl, ⟨?_, ?_, ?_⟩, hd0, hc0, ?_, ?_⟩
      · show Layout s0.data
        rw [hd0]; exact hg.layout
      · intro _
        show s0.csize = cumul 0 s0.data
        rw [hc0, hd0]
      · show match s0.data[s0.csize.length - 1]? with
          | none => _
          | some d => _
        rw [hd0, hcl, hlastIdx]
        refine Or.inr ⟨rfl, ?_⟩
        show (s.data.drop (s.data.length - 1 + 1)).flatten = []
        rw [List.drop_eq_nil_of_le (by omega)]
        rfl
      · show s0.data[s0.csize.length - 1]? = _
        rw [hd0, hcl, hlastIdx]
      · show before s0.data (s0.csize.length - 1) + (s.data.getLast hne).length =
          before s.data s.index + s.offset
        rw [hd0, hcl]
        rw [hcl, hi0] at h
        have hcur := hg.cur
        rw [List.getElem?_eq_none h] at hcur
        rw [before_of_ge h]
        have hcur' : s.offset = 0 := hcur
        omega
    · rw [if_neg h]
      refine ⟨s0, s.data[s0.index]'(by omega), rfl, ⟨by rw [hd0]; exact hg.layout, fun _ => by rw [hc0, hd0], ?_⟩, hd0,
        hc0, by rw [hd0]; exact List.getElem?_eq_getElem _, by show before s0.data s0.index + s0.offset = _; rw [hd0, hi0, ho0]; rfl⟩
      rw [hd0, hi0, ho0]
      exact hg.cur
  refine ⟨s1, d, hg1, hd1, hc1, hx1, hp1, ?_⟩
  unfold seek
  rw [← hs0, hs1]
  simp only
  have hi1 : s1.index < s.data.length := by
    have := (List.getElem?_eq_some_iff.1 hx1).1
    rw [hd1] at this; exact this
  have hcur : s1.csize[s1.index]? = some (before s.data s1.index : Int) := by
    rw [hc1, cumul_get, if_pos hi1]; simp
  rw [hcur]
  simp only
  have hpp : ((s1.offset : Int) + (before s.data s1.index : Int)) = (pos s1 : Nat) := by
    show _ = ((before s1.data s1.index + s1.offset : Nat) : Int)
    rw [hd1]; omega
  rw [hpp]
  cases b with
  | current => rfl
  | start => rfl
  | fromEnd =>
    have e1 : s1.data.getLast? = some (s.data.getLast hne) := by rw [hd1, hlast]
    have e2 : s1.csize.getLast? = some (before s.data (s.data.length - 1) : Int) := by
      rw [hc1, ← hc0, hclast]
    show (if 0 < o then _ else _) = _
    rw [e1, e2]
    simp only
    rw [show ((s.data.getLast hne).length : Int) + (before s.data (s.data.length - 1) : Int) =
      s.data.flatten.length by omega, hd1]

/-- C34. A seek whose target lies strictly inside the stream succeeds from every state, reports the
target, and moves there; so do seeks to the start counted from the start, asking for the position, and
seeking to the end counted from the end. Missing: the start counted otherwise and the end counted
otherwise, where the code crashes (`C34_counterexample_*`). -/
theorem C34_seek_partial (s : SliceReader) (hg : Good s) (hne : s.data ≠ []) (b : Spec.Base) (o : Int)
    (hw : (0 < Spec.target s.data.flatten.length (pos s) b o ∧
        Spec.target s.data.flatten.length (pos s) b o < s.data.flatten.length) ∨
      (b = .start ∧ o = 0) ∨ (b = .current ∧ o = 0) ∨ (b = .fromEnd ∧ o = 0)) :
    ∃ s', s.seek (seekFuel s) o (whence b) =
        some (.ok (Spec.target s.data.flatten.length (pos s) b o, s')) ∧
      s'.data = s.data ∧ (pos s' : Int) = Spec.target s.data.flatten.length (pos s) b o ∧ Good s' := by
  obtain ⟨s1, d, hg1, hd1, hc1, hx1, hp1, heq⟩ := seek_unfold s hg hne b o (seekFuel s)
  have hlen : 0 < s.data.length := List.length_pos_iff.2 hne
  rw [heq]
  have fin : ∀ {w : Int} {t : SliceReader} {r}, t.data = s.data → Sought w t r →
      ∃ s', r = some (.ok (w, s')) ∧ s'.data = s.data ∧ (pos s' : Int) = w ∧ Good s' := by
    rintro w t r ht ⟨s', h1, h2, _, h4, h5⟩
    exact ⟨s', h1, h2.trans ht, h4, h5⟩
  cases b with
  | current =>
    show ∃ s', (if o = 0 then _ else _) = _ ∧ _
    simp only [Spec.target] at hw ⊢
    by_cases h0 : o = 0
    · rw [if_pos h0, h0]
      exact ⟨s1, by rw [hp1]; simp, hd1, by rw [hp1]; simp, hg1⟩
    · rw [if_neg h0]
      have hw' : 0 < ((pos s : Int) + o) ∧ (pos s : Int) + o < s.data.flatten.length := by
        rcases hw with h | ⟨h, _⟩ | ⟨_, h⟩ | ⟨h, _⟩
        · exact h
        · cases h
        · exact absurd h h0
        · cases h
      have := (seek_loop_spec (o + pos s1) (seekFuel s) s1 d hg1 (by rw [hc1, hd1]) hx1
        (by unfold seekFuel; rw [hd1]; omega)).1 ⟨by rw [hp1]; omega, Or.inl (by rw [hp1, hd1]; omega)⟩
      have := fin hd1 this
      rw [hp1, Int.add_comm] at this
      rw [hp1, Int.add_comm]
      exact this
  | start =>
    show ∃ s', (if o < 0 then _ else _) = _ ∧ _
    simp only [Spec.target] at hw ⊢
    have ho : 0 ≤ o ∧ (o = 0 ∨ o < s.data.flatten.length) := by
      rcases hw with h | ⟨_, h⟩ | ⟨h, _⟩ | ⟨h, _⟩
      · omega
      · omega
      · cases h
      · cases h
    rw [if_neg (by omega)]
    have hg2 : Good { s1 with index := 0, offset := 0 } :=
      good_zero_offset hg1.layout hg1.cache rfl
    have hx : s1.data[0]? = some (s.data[0]'hlen) := by rw [hd1]; exact List.getElem?_eq_getElem _
    have spec := seek_loop_spec o (seekFuel s) { s1 with index := 0, offset := 0 } _ hg2
      (by show s1.csize = cumul 0 s1.data; rw [hc1, hd1]) hx (by unfold seekFuel; show s1.data.length + 1 < _; rw [hd1]; omega)
    rw [show pos { s1 with index := 0, offset := 0 } = 0 from rfl] at spec
    refine fin hd1 (t := { s1 with index := 0, offset := 0 }) ?_
    rcases Int.lt_or_eq_of_le ho.1 with h | h
    · exact spec.1 ⟨h, Or.inl (by show o < (s1.data.flatten.length : Int); rw [hd1]; omega)⟩
    · exact spec.2.1 h.symm (Or.inr rfl)
  | fromEnd =>
    show ∃ s', (if 0 < o then _ else _) = _ ∧ _
    simp only [Spec.target] at hw ⊢
    have ho : o ≤ 0 ∧ (o = 0 ∨ 0 < s.data.flatten.length + o) := by
      rcases hw with h | ⟨h, _⟩ | ⟨h, _⟩ | ⟨_, h⟩
      · omega
      · cases h
      · cases h
      · omega
    rw [if_neg (by omega)]
    have hlastIdx : s1.data[s.data.length - 1]? = some (s.data.getLast hne) := by
      rw [hd1, ← getLast?_eq]; exact List.getLast?_eq_some_getLast hne
    have hg2 : Good { s1 with index := s.data.length - 1, offset := (s.data.getLast hne).length } := by
      refine ⟨hg1.layout, hg1.cache, ?_⟩
      show match s1.data[s.data.length - 1]? with
          | none => _
          | some d => _
      rw [hlastIdx]
      refine Or.inr ⟨rfl, ?_⟩
      show (s1.data.drop (s.data.length - 1 + 1)).flatten = []
      rw [hd1, List.drop_eq_nil_of_le (by omega)]
      rfl
    have hpos : pos { s1 with index := s.data.length - 1, offset := (s.data.getLast hne).length } =
        s.data.flatten.length := by
      show before s1.data (s.data.length - 1) + (s.data.getLast hne).length = _
      have := before_succ hlastIdx
      rw [show s.data.length - 1 + 1 = s.data.length by omega, hd1, before_of_ge (Nat.le_refl _)] at this
      rw [hd1]; omega
    have spec := seek_loop_spec (o + s.data.flatten.length) (seekFuel s)
      { s1 with index := s.data.length - 1, offset := (s.data.getLast hne).length } _ hg2
      (by show s1.csize = cumul 0 s1.data; rw [hc1, hd1]) hlastIdx
      (by unfold seekFuel; show s1.data.length + 1 < _; rw [hd1]; omega)
    rw [hpos] at spec
    rw [Int.add_comm] at spec ⊢
    refine fin hd1 (t := { s1 with index := s.data.length - 1, offset := (s.data.getLast hne).length }) ?_
    rcases ho.2 with h | h
    · exact spec.2.2.2.2.2 (by rw [h]; simp)
    · by_cases hz : o = 0
      · exact spec.2.2.2.2.2 (by rw [hz]; simp)
      · exact spec.1 ⟨h, Or.inl (by show _ < (s1.data.flatten.length : Int); rw [hd1]; omega)⟩

/-- C34. `Seek` always returns (with a position, an error, or a crash): its loop ends, for every state,
offset and base. -/
theorem C34_terminates (s : SliceReader) (hg : Good s) (hne : s.data ≠ []) (b : Spec.Base) (o : Int) :
    s.seek (seekFuel s) o (whence b) ≠ none := by
  obtain ⟨s1, d, hg1, hd1, hc1, hx1, hp1, heq⟩ := seek_unfold s hg hne b o (seekFuel s)
  have hlen : 0 < s.data.length := List.length_pos_iff.2 hne
  have total : ∀ (want : Int) (t : SliceReader) (d : Bytes), Good t → t.csize = cumul 0 t.data →
      t.data = s.data → t.data[t.index]? = some d → seekLoop want (seekFuel s) t (pos t) ≠ none := by
    intro want t d h1 h2 h3 h4
    obtain ⟨a1, a2, a3, a4, a5, a6⟩ := seek_loop_spec want (seekFuel s) t d h1 h2 h4
      (by unfold seekFuel; rw [h3]; omega)
    have ofSought : ∀ {r}, Sought want t r → r ≠ none := by
      rintro r ⟨s', h, _⟩ hc; rw [h] at hc; cases hc
    rcases Int.lt_trichotomy want 0 with h | h | h
    · rw [a4 h]; simp
    · by_cases hi : t.index ≠ 0 ∨ t.offset = 0
      · exact ofSought (a2 h hi)
      · rw [not_or] at hi
        rw [a3 h (by simpa using hi.1) hi.2]; simp
    · by_cases hr : want < t.data.flatten.length ∨ want ≤ before t.data (t.data.length - 1)
      · exact ofSought (a1 ⟨h, hr⟩)
      · by_cases hp : want = pos t
        · exact ofSought (a6 hp)
        · rw [a5 hr hp]; simp
  rw [heq]
  cases b with
  | current =>
    show (if o = 0 then _ else _) ≠ _
    split
    · simp
    · exact total _ s1 d hg1 (by rw [hc1, hd1]) hd1 hx1
  | start =>
    show (if o < 0 then _ else _) ≠ _
    split
    · simp
    · exact total o { s1 with index := 0, offset := 0 } (s.data[0]'hlen)
        (good_zero_offset hg1.layout hg1.cache rfl) (by show s1.csize = cumul 0 s1.data; rw [hc1, hd1]) hd1
        (by show s1.data[0]? = _; rw [hd1]; exact List.getElem?_eq_getElem _)
  | fromEnd =>
    show (if 0 < o then _ else _) ≠ _
    split
    · simp
    · have hlastIdx : s1.data[s.data.length - 1]? = some (s.data.getLast hne) := by
        rw [hd1, ← getLast?_eq]; exact List.getLast?_eq_some_getLast hne
      have hpos : pos { s1 with index := s.data.length - 1, offset := (s.data.getLast hne).length } =
          s.data.flatten.length := by
        show before s1.data (s.data.length - 1) + (s.data.getLast hne).length = _
        have := before_succ hlastIdx
        rw [show s.data.length - 1 + 1 = s.data.length by omega, hd1, before_of_ge (Nat.le_refl _)] at this
        rw [hd1]; omega
      rw [← hpos]
      refine total _ { s1 with index := s.data.length - 1, offset := (s.data.getLast hne).length } _
        ⟨hg1.layout, hg1.cache, ?_⟩ (by show s1.csize = cumul 0 s1.data; rw [hc1, hd1]) hd1 hlastIdx
      show match s1.data[s.data.length - 1]? with
          | none => _
          | some d => _
      rw [hlastIdx]
      refine Or.inr ⟨rfl, ?_⟩
      show (s1.data.drop (s.data.length - 1 + 1)).flatten = []
      rw [hd1, List.drop_eq_nil_of_le (by omega)]
      rfl

/-- C34. Negative offsets from the start and positive offsets from the end are errors. -/
theorem C34_invalid (s : SliceReader) (hg : Good s) (hne : s.data ≠ []) (o : Int) (fuel : Nat) :
    (o < 0 → s.seek fuel o .start = some (.err (.msg "xls: invalid seek offset"))) ∧
    (0 < o → s.seek fuel o .fromEnd = some (.err (.msg "xls: invalid seek offset"))) := by
  constructor
  · intro h
    obtain ⟨s1, d, _, _, _, _, _, heq⟩ := seek_unfold s hg hne .start o fuel
    exact heq.trans (if_pos h)
  · intro h
    obtain ⟨s1, d, _, _, _, _, _, heq⟩ := seek_unfold s hg hne .fromEnd o fuel
    exact heq.trans (if_pos h)

/-- Calls on a reader and their results; the history stops at errors of `Seek` and crashes. -/
def runCalls : SliceReader → List Call → Option (List Ret)
  | _, [] => some []
  | s, .read k :: xs =>
    match s.read k with
    | .ok (b, s') => (runCalls s' xs).map (.bytes b :: ·)
    | .err .eof => (runCalls s xs).map (.eof :: ·)
    | _ => none
  | s, .seek b o :: xs =>
    match s.seek (seekFuel s) o (whence b) with
    | some (.ok (p, s')) => (runCalls s' xs).map (.at p.toNat :: ·)
    | _ => none

/-- The calls the theorem is about: reads with a non-empty buffer, seeks from the start or the end with a
target strictly inside the stream (or the start itself, or the end itself). -/
def Fine (total : Nat) : Call → Prop
  | .read k => 0 < k
  | .seek .start o => 0 ≤ o ∧ o < total
  | .seek .fromEnd o => o ≤ 0 ∧ 0 < total + o
  | .seek .current o => o = 0

/-- C34. Any history of reads and of seeks to valid positions behaves like a byte stream with a
position. Relative seeks other than position queries are covered by `C34_seek_partial`. -/
theorem C34_history (ds : List Bytes) (n : Nat) (hne : ∀ d ∈ ds, d ≠ []) (hds : ds ≠ []) (xs : List Call)
    (hx : ∀ x ∈ xs, Fine ds.flatten.length x) :
    ∃ rs p, runCalls (SliceReader.mk' (ds ++ List.replicate n [])) xs = some rs ∧
      Steps ds.flatten 0 xs rs p := by
  have key : ∀ (xs : List Call) (s : SliceReader), Good s → s.data ≠ [] →
      (∀ x ∈ xs, Fine s.data.flatten.length x) →
      ∃ rs p, runCalls s xs = some rs ∧ Steps s.data.flatten (pos s) xs rs p := by
    intro xs
    induction xs with
    | nil => intro s _ _ _; exact ⟨[], _, rfl, .nil _⟩
    | cons x xs ih =>
      intro s hg hd hx
      have hx0 := hx x (by simp)
      have hxs : ∀ y ∈ xs, Fine s.data.flatten.length y := fun y h => hx y (by simp [h])
      cases x with
      | read k =>
        obtain ⟨h1, h2⟩ := read_spec hg (k := k) hx0
        unfold runCalls
        rcases Nat.lt_or_ge (pos s) s.data.flatten.length with hp | hp
        · obtain ⟨b, s', hr, hb, hbk, hds, hp', hg', heq⟩ := h1 hp
          obtain ⟨rs, p, hrs, hst⟩ := ih s' hg' (by rw [hds]; exact hd) (by rw [hds]; exact hxs)
          rw [hr]
          simp only
          rw [hrs]
          refine ⟨_, p, rfl, .cons _ _ _ _ _ _ _ (.data _ _ b hp hb hbk ⟨_, heq.symm⟩) ?_⟩
          rw [hds, hp'] at hst
          exact hst
        · obtain ⟨rs, p, hrs, hst⟩ := ih s hg hd hxs
          rw [h2 hp]
          simp only
          rw [hrs]
          exact ⟨_, p, rfl, .cons _ _ _ _ _ _ _ (.eof _ _ hp) hst⟩
      | seek b o =>
        obtain ⟨s', h1, h2, h3, h4⟩ := C34_seek_partial s hg hd b o (by
          cases b with
          | start =>
            simp only [Fine] at hx0
            simp only [Spec.target]
            by_cases h0 : o = 0
            · exact Or.inr (Or.inl ⟨trivial, h0⟩)
            · exact Or.inl (by omega)
          | current => exact Or.inr (Or.inr (Or.inl ⟨rfl, hx0⟩))
          | fromEnd =>
            simp only [Fine] at hx0
            simp only [Spec.target]
            by_cases h0 : o = 0
            · exact Or.inr (Or.inr (Or.inr ⟨trivial, h0⟩))
            · exact Or.inl (by omega))
        obtain ⟨rs, p, hrs, hst⟩ := ih s' h4 (by rw [h2]; exact hd) (by rw [h2]; exact hxs)
        unfold runCalls
        rw [h1]
        simp only
        rw [hrs]
        refine ⟨_, p, rfl, ?_⟩
        rw [h2] at hst
        have hto : (Spec.target s.data.flatten.length (pos s) b o).toNat = pos s' := by omega
        rw [hto]
        exact .cons _ _ _ _ _ _ _ (.seek _ _ _ _ h3) hst
  have hflat : (ds ++ List.replicate n ([] : Bytes)).flatten = ds.flatten := by simp
  have hne2 : ds ++ List.replicate n ([] : Bytes) ≠ [] := by simp [hds]
  have := key xs (SliceReader.mk' (ds ++ List.replicate n []))
    (good_zero_offset ⟨ds, n, rfl, hne⟩ (by
      intro h
      exfalso
      exact hne2 (List.eq_nil_of_length_eq_zero h.symm)) rfl) hne2
    (by rw [show (SliceReader.mk' (ds ++ List.replicate n [])).data.flatten = ds.flatten from hflat]; exact hx)
  rw [show pos (SliceReader.mk' (ds ++ List.replicate n [])) = 0 from rfl] at this
  rw [show (SliceReader.mk' (ds ++ List.replicate n [])).data.flatten = ds.flatten from hflat] at this
  exact this

example : runCalls (SliceReader.mk' [[1, 2, 3], [4, 5], []])
    [.seek .start 3, .read 1, .seek .fromEnd (-3), .read 9, .seek .current 0, .seek .fromEnd 0, .read 1] =
    some [.at 3, .bytes [4], .at 2, .bytes [3], .at 3, .at 5, .eof] := by rfl

/-- C34 is false of the code: going back to the start of the stream from within the first slice with a
relative seek crashes. -/
theorem C34_counterexample_rewind : ∃ s : SliceReader, Good s ∧ s.data = [[1, 2, 3], [4]] ∧ pos s = 1 ∧
    Spec.target s.data.flatten.length (pos s) .current (-1) = 0 ∧
    s.seek (seekFuel s) (-1) (whence .current) = some .panic := by
  refine ⟨⟨[], [[1, 2, 3], [4]], 0, 1⟩, ⟨⟨[[1, 2, 3], [4]], 0, by simp, by simp⟩, by simp, ?_⟩, rfl, rfl, rfl, rfl⟩
  exact Or.inl (by decide)

/-- C34 is false of the code: seeking to the end counted from the start crashes, and so does every
position after the end. -/
theorem C34_counterexample_end (o : Int) (ho : 4 ≤ o) :
    (SliceReader.mk' [[1, 2, 3], [4]]).seek (seekFuel (SliceReader.mk' [[1, 2, 3], [4]])) o (whence .start) =
      some .panic := by
  have hg : Good (SliceReader.mk' [[1, 2, 3], [4]]) :=
    good_zero_offset ⟨[[1, 2, 3], [4]], 0, by simp [SliceReader.mk'], by simp⟩ (by simp [SliceReader.mk']) rfl
  obtain ⟨s1, d, hg1, hd1, hc1, hx1, hp1, heq⟩ := seek_unfold _ hg (by simp [SliceReader.mk']) .start o
    (seekFuel (SliceReader.mk' [[1, 2, 3], [4]]))
  refine heq.trans ?_
  show (if o < 0 then _ else _) = _
  rw [if_neg (by omega)]
  have hx : s1.data[0]? = some [1, 2, 3] := by rw [hd1]; rfl
  refine (seek_loop_spec o _ { s1 with index := 0, offset := 0 } _
    (good_zero_offset hg1.layout hg1.cache rfl) (by show s1.csize = cumul 0 s1.data; rw [hc1, hd1]) hx
    (by show s1.data.length + 1 < _; rw [hd1]; decide)).2.2.2.2.1 ?_ ?_
  · show ¬ Reach s1.data o
    rw [hd1]
    rintro (h | h)
    · simp [SliceReader.mk'] at h; omega
    · simp [SliceReader.mk', before] at h; omega
  · show o ≠ ((0 : Nat) : Int)
    omega

end Grate.Props
