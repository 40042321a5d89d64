import Verif.Model.Simple
import Verif.Spec.Text

namespace Grate.Simple

open Grate Spec

/-! ### Splitting -/

theorem splitByte_ne_nil (sep : UInt8) (s : Bytes) : splitByte sep s ≠ [] := by
  induction s with
  | nil => simp [splitByte]
  | cons c cs ih =>
    simp only [splitByte]
    split
    · simp
    · split <;> simp

theorem splitByte_spec (sep : UInt8) (s : Bytes) :
    (∀ f ∈ splitByte sep s, sep ∉ f) ∧ [sep].intercalate (splitByte sep s) = s := by
  induction s with
  | nil => simp [splitByte, List.intercalate]
  | cons c cs ih =>
    have hne := splitByte_ne_nil sep cs
    simp only [splitByte]
    split
    · rename_i h
      have : c = sep := by simpa using h
      subst this
      refine ⟨?_, ?_⟩
      · intro f hf
        rcases List.mem_cons.1 hf with rfl | hf
        · simp
        · exact ih.1 f hf
      · revert ih hne
        cases splitByte c cs with
        | nil => intro ih hne; exact absurd rfl hne
        | cons p ps =>
          intro ih hne
          have := ih.2
          simp [List.intercalate, List.intersperse] at this ⊢
          exact this
    · rename_i h
      have hcs : c ≠ sep := by simpa using h
      revert ih hne
      cases hsp : splitByte sep cs with
      | nil => intro ih hne; exact absurd rfl hne
      | cons p ps =>
        intro ih hne
        refine ⟨?_, ?_⟩
        · intro f hf
          simp only [List.mem_cons] at hf
          rcases hf with rfl | hf
          · have := ih.1 p (by simp)
            simp only [List.mem_cons, not_or]
            exact ⟨fun h => hcs h.symm, this⟩
          · exact ih.1 f (by simp [hf])
        · have := ih.2
          cases ps with
          | nil => simp [List.intercalate] at this ⊢; exact this
          | cons q qs => simp [List.intercalate] at this ⊢; exact this

theorem splitByte_noSep (sep : UInt8) (s : Bytes) (h : sep ∉ s) : splitByte sep s = [s] := by
  induction s with
  | nil => rfl
  | cons c cs ih =>
    simp only [List.mem_cons, not_or] at h
    have hc : (c == sep) = false := by simpa using fun h' => h.1 h'.symm
    simp [splitByte, hc, ih h.2]

theorem splitByte_append (sep : UInt8) (a b : Bytes) (h : sep ∉ a) :
    splitByte sep (a ++ sep :: b) = a :: splitByte sep b := by
  induction a with
  | nil => simp [splitByte]
  | cons c cs ih =>
    simp only [List.mem_cons, not_or] at h
    have hc : (c == sep) = false := by simpa using fun h' => h.1 h'.symm
    simp [splitByte, hc, ih h.2]

theorem splitByte_intercalate (sep : UInt8) (fs : List Bytes) (hne : fs ≠ [])
    (h : ∀ f ∈ fs, sep ∉ f) : splitByte sep ([sep].intercalate fs) = fs := by
  induction fs with
  | nil => exact absurd rfl hne
  | cons p ps ih =>
    cases ps with
    | nil => simpa [List.intercalate] using splitByte_noSep sep p (h p (by simp))
    | cons q qs =>
      have hi := ih (by simp) (fun f hf => h f (by simp [hf]))
      have he : [sep].intercalate (p :: q :: qs) = p ++ sep :: [sep].intercalate (q :: qs) := by
        simp [List.intercalate, List.intersperse]
      rw [he, splitByte_append sep _ _ (h p (by simp)), hi]

/-! ### Lines -/

theorem rawLines_nil_iff (s : Bytes) : rawLines s = [] ↔ s = [] := by
  cases s with
  | nil => simp [rawLines]
  | cons c cs =>
    simp only [rawLines]
    split
    · simp
    · split <;> simp

theorem rawLines_append (a b : Bytes) (h : (10 : UInt8) ∉ a) :
    rawLines (a ++ 10 :: b) = a :: rawLines b := by
  induction a with
  | nil => simp [rawLines]
  | cons c cs ih =>
    simp only [List.mem_cons, not_or] at h
    have hc : (c == 10) = false := by simpa using fun h' => h.1 h'.symm
    simp [rawLines, hc, ih h.2]

theorem rawLines_noLF (a : Bytes) (hne : a ≠ []) (h : (10 : UInt8) ∉ a) : rawLines a = [a] := by
  induction a with
  | nil => exact absurd rfl hne
  | cons c cs ih =>
    simp only [List.mem_cons, not_or] at h
    have hc : (c == 10) = false := by simpa using fun h' => h.1 h'.symm
    by_cases hcs : cs = []
    · subst hcs; simp [rawLines, hc]
    · simp [rawLines, hc, ih hcs h.2]

/-- Case analysis of a byte string by its first line. -/
theorem firstLine_cases (s : Bytes) :
    s = [] ∨ (s ≠ [] ∧ (10 : UInt8) ∉ s) ∨ ∃ a b, s = a ++ 10 :: b ∧ (10 : UInt8) ∉ a := by
  induction s with
  | nil => simp
  | cons c cs ih =>
    right
    by_cases hc : c = 10
    · right; exact ⟨[], cs, by simp [hc], by simp⟩
    · rcases ih with rfl | ⟨hne, h⟩ | ⟨a, b, rfl, h⟩
      · left; simp; exact fun h => hc h.symm
      · left; simp [h]; exact fun h => hc h.symm
      · right; exact ⟨c :: a, b, by simp, by simp [h]; exact fun h => hc h.symm⟩

theorem dropCR_append (l : Bytes) : dropCR (l ++ [13]) = l := by
  simp [dropCR]

theorem dropCR_of_ne (l : Bytes) (h : l.getLast? ≠ some 13) : dropCR l = l := by
  unfold dropCR
  split
  · rename_i h'; exact absurd h' h
  · rfl

theorem eq_of_getLast? {l : Bytes} {b : UInt8} (h : l.getLast? = some b) : ∃ l', l = l' ++ [b] :=
  List.getLast?_eq_some_iff.1 h

theorem linesOf_rawLines (s : Bytes) : LinesOf s ((rawLines s).map dropCR) := by
  generalize hn : s.length = n
  induction n using Nat.strongRecOn generalizing s with
  | _ n ih =>
    rcases firstLine_cases s with rfl | ⟨hne, h⟩ | ⟨a, b, rfl, h⟩
    · exact .nil
    · rw [rawLines_noLF s hne h]
      by_cases hcr : s.getLast? = some 13
      · obtain ⟨l, rfl⟩ := eq_of_getLast? hcr
        simp only [List.map_cons, List.map_nil, dropCR_append]
        exact .lastCR (by simpa using h)
      · simp only [List.map_cons, List.map_nil, dropCR_of_ne _ hcr]
        exact .last hne h hcr
    · rw [rawLines_append a b h]
      have hb := ih b.length (by simp at hn; omega) b rfl
      by_cases hcr : a.getLast? = some 13
      · obtain ⟨l, rfl⟩ := eq_of_getLast? hcr
        simp only [List.map_cons, dropCR_append]
        rw [show l ++ [13] ++ 10 :: b = l ++ 13 :: 10 :: b by simp]
        exact .crlf (by simpa using h) hb
      · simp only [List.map_cons, dropCR_of_ne _ hcr]
        exact .lf h hcr hb

/-- The grammar is unambiguous: it determines the lines. -/
theorem linesOf_unique {s : Bytes} {ls : List Bytes} (h : LinesOf s ls) :
    ls = (rawLines s).map dropCR := by
  induction h with
  | nil => rfl
  | lf h1 h2 _ ih => rw [rawLines_append _ _ h1]; simp [dropCR_of_ne _ h2, ih]
  | @crlf l rest ls h1 _ ih =>
    rw [show l ++ 13 :: 10 :: rest = (l ++ [13]) ++ 10 :: rest by simp,
      rawLines_append _ _ (by simpa using h1)]
    simp [dropCR_append, ih]
  | last h1 h2 h3 => rw [rawLines_noLF _ h1 h2]; simp [dropCR_of_ne _ h3]
  | lastCR h1 => rw [rawLines_noLF _ (by simp) (by simpa using h1)]; simp [dropCR_append]

theorem longLine_iff (s : Bytes) :
    (rawLines s).any (fun l => maxTokenSize ≤ l.length) = true ↔ HasLongLine s := by
  generalize hn : s.length = n
  induction n using Nat.strongRecOn generalizing s with
  | _ n ih =>
    rcases firstLine_cases s with rfl | ⟨hne, h⟩ | ⟨a, b, rfl, h⟩
    · simp [rawLines, HasLongLine]
    · rw [rawLines_noLF s hne h]
      simp only [List.any_cons, List.any_nil, Bool.or_false, decide_eq_true_eq]
      constructor
      · intro hl; exact ⟨[], s, [], by simp, hl, h⟩
      · rintro ⟨a, l, b, rfl, hl, _⟩; simp [maxTokenSize]; omega
    · rw [rawLines_append a b h]
      have hb := ih b.length (by simp at hn; omega) b rfl
      simp only [List.any_cons, Bool.or_eq_true, decide_eq_true_eq]
      rw [hb]
      constructor
      · rintro (hl | ⟨x, l, y, rfl, hl, hnl⟩)
        · exact ⟨[], a, 10 :: b, by simp, hl, h⟩
        · exact ⟨a ++ 10 :: x, l, y, by simp, hl, hnl⟩
      · rintro ⟨x, l, y, he, hl, hnl⟩
        -- the newline after `a` is in `x` or in `y`
        rcases Nat.lt_or_ge a.length x.length with hx | hx
        · right
          have hxa : ∃ x', x = a ++ 10 :: x' := by
            have hpre : (a ++ [10]) <+: x := by
              have h1 : (a ++ [10]) <+: (x ++ l ++ y) := ⟨b, by rw [← he]; simp⟩
              have h2 : x <+: (x ++ l ++ y) := ⟨l ++ y, by simp⟩
              exact List.prefix_of_prefix_length_le h1 h2 (by simp; omega)
            obtain ⟨x', hx'⟩ := hpre
            exact ⟨x', by rw [← hx']; simp⟩
          obtain ⟨x', rfl⟩ := hxa
          refine ⟨x', l, y, ?_, hl, hnl⟩
          simpa using he
        · left
          rcases Nat.lt_or_ge a.length (x ++ l).length with hxl | hxl
          · exfalso
            have hpre : (a ++ [10]) <+: (x ++ l) := by
              have h1 : (a ++ [10]) <+: (x ++ l ++ y) := ⟨b, by rw [← he]; simp⟩
              exact List.prefix_of_prefix_length_le h1 ⟨y, rfl⟩ (by simp at hxl ⊢; omega)
            obtain ⟨t, ht⟩ := hpre
            have hin : l = (a.drop x.length ++ [10]) ++ t := by
              have := congrArg (List.drop x.length) ht
              simpa [List.drop_append, Nat.sub_eq_zero_of_le hx] using this.symm
            exact hnl (by rw [hin]; simp)
          · simp [maxTokenSize] at hxl ⊢; omega

/-! ### Counting -/

/-- Sum of counts recorded for a key (keys are unique, see `colCounts_keys`). -/
def lookupCount (k : Nat) : List (Nat × Nat) → Nat
  | [] => 0
  | (k', n) :: m => if k = k' then n else lookupCount k m

theorem lookupCount_bump (k j : Nat) (m : List (Nat × Nat)) :
    lookupCount k (bump j m) = lookupCount k m + (if k = j then 1 else 0) := by
  induction m with
  | nil => simp [bump, lookupCount]
  | cons e m ih =>
    obtain ⟨k', n⟩ := e
    simp only [bump]
    split
    · rename_i h; subst h
      simp only [lookupCount]
      split <;> simp_all
    · simp only [lookupCount]
      split
      · rename_i h1 h2; subst h2
        simp; intro h; exact absurd h.symm h1
      · exact ih

theorem keys_bump (j : Nat) (m : List (Nat × Nat)) :
    (bump j m).map (·.1) = if j ∈ m.map (·.1) then m.map (·.1) else m.map (·.1) ++ [j] := by
  induction m with
  | nil => simp [bump]
  | cons e m ih =>
    obtain ⟨k', n⟩ := e
    simp only [bump]
    split
    · rename_i h; subst h; simp
    · rename_i h
      simp only [List.map_cons, ih, List.mem_cons, h, false_or]
      split <;> simp

theorem colCounts_snoc (rows : List (List Bytes)) (r : List Bytes) :
    colCounts (rows ++ [r]) = bump r.length (colCounts rows) := by
  simp [colCounts]

/-- snoc-induction on lists -/
theorem snoc_induction {α : Type} {P : List α → Prop} (h0 : P []) (h1 : ∀ l a, P l → P (l ++ [a]))
    (l : List α) : P l := by
  have : ∀ r : List α, P r.reverse := by
    intro r
    induction r with
    | nil => simpa using h0
    | cons a r ih => simpa using h1 _ a ih
  simpa using this l.reverse

theorem colCounts_keys_nodup (rows : List (List Bytes)) : ((colCounts rows).map (·.1)).Nodup := by
  induction rows using snoc_induction with
  | h0 => simp [colCounts]
  | h1 l a ih =>
    rw [colCounts_snoc, keys_bump]
    split
    · exact ih
    · rename_i h
      rw [List.nodup_append]
      refine ⟨ih, by simp, ?_⟩
      intro x hx y hy
      simp at hy; subst hy
      rintro rfl; exact h hx

theorem lookup_colCounts (rows : List (List Bytes)) (w : Nat) :
    lookupCount w (colCounts rows) = widthCount rows w := by
  induction rows using snoc_induction with
  | h0 => simp [colCounts, lookupCount, widthCount]
  | h1 l a ih =>
    rw [colCounts_snoc, lookupCount_bump, ih]
    simp only [widthCount, List.filter_append, List.length_append]
    congr 1
    by_cases h : w = a.length
    · simp [h]
    · simp [h, show ¬ a.length = w from fun h' => h h'.symm]

theorem lookup_of_mem {m : List (Nat × Nat)} (hn : (m.map (·.1)).Nodup) {k n : Nat}
    (h : (k, n) ∈ m) : lookupCount k m = n := by
  induction m with
  | nil => simp at h
  | cons e m ih =>
    obtain ⟨k', n'⟩ := e
    simp only [List.map_cons, List.nodup_cons] at hn
    rcases List.mem_cons.1 h with h | hm
    · cases h; simp [lookupCount]
    · have hk : k ≠ k' := by
        rintro rfl
        exact hn.1 (List.mem_map.2 ⟨(k, n), hm, rfl⟩)
      simp [lookupCount, hk, ih hn.2 hm]

theorem mem_of_lookup {m : List (Nat × Nat)} {k : Nat} (h : lookupCount k m ≠ 0) :
    (k, lookupCount k m) ∈ m := by
  induction m with
  | nil => simp [lookupCount] at h
  | cons e m ih =>
    obtain ⟨k', n'⟩ := e
    simp only [lookupCount] at h ⊢
    split
    · rename_i hk; subst hk; simp
    · rename_i hk; rw [if_neg hk] at h; exact List.mem_cons_of_mem _ (ih h)

/-- A property of non-zero widths counts holds of some map entry iff it holds of some width. -/
theorem exists_entry_iff (rows : List (List Bytes)) (P : Nat → Nat → Prop)
    (hP : ∀ w, ¬ P w 0) :
    (∃ e ∈ colCounts rows, P e.1 e.2) ↔ ∃ w, P w (widthCount rows w) := by
  constructor
  · rintro ⟨⟨k, n⟩, hm, hp⟩
    refine ⟨k, ?_⟩
    rw [← lookup_colCounts, lookup_of_mem (colCounts_keys_nodup rows) hm]
    exact hp
  · rintro ⟨w, hp⟩
    rw [← lookup_colCounts] at hp
    have hne : lookupCount w (colCounts rows) ≠ 0 := fun h => hP w (h ▸ hp)
    exact ⟨_, mem_of_lookup hne, hp⟩

/-! ### The detection loop -/

/-- An entry accepted outright. -/
def isBig (total : Nat) (e : Nat × Nat) : Bool := decide (2 ≤ e.1) && (decide (e.2 > 10) && over80 e.2 total)

/-- An entry that makes the loop doubt. -/
def isMid (e : Nat × Nat) : Bool := decide (2 ≤ e.1) && decide (e.2 > 25)

/-- Verdict from "accepted outright" and "doubtful". -/
def verdict (a b : Bool) : Nat := bif a then 2 else bif b then 1 else 0

theorem detectStep_foldl (total : Nat) (es : List (Nat × Nat)) (g : Nat) (hg : g ≤ 2) :
    es.foldl (detectStep total) g =
      verdict (g == 2 || es.any (isBig total)) (g == 1 || es.any isMid) := by
  induction es generalizing g with
  | nil =>
    have : g = 0 ∨ g = 1 ∨ g = 2 := by omega
    rcases this with h | h | h <;> simp [h, verdict]
  | cons e es ih =>
    obtain ⟨w, n⟩ := e
    have hcase : g = 0 ∨ g = 1 ∨ g = 2 := by omega
    rw [List.foldl_cons, List.any_cons, List.any_cons]
    by_cases hw : w ≤ 1
    · have hb : isBig total (w, n) = false := by
        simp only [isBig]; rw [decide_eq_false (by omega)]; rfl
      have hm : isMid (w, n) = false := by
        simp only [isMid]; rw [decide_eq_false (by omega)]; rfl
      have hs : detectStep total g (w, n) = g := by simp [detectStep, hw]
      rw [hs, ih g hg, hb, hm]
      simp
    · by_cases hb : (n > 10 && over80 n total) = true
      · have hb' : isBig total (w, n) = true := by
          have : 2 ≤ w := by omega
          simp only [Bool.and_eq_true, decide_eq_true_eq] at hb
          simp [isBig, this, hb]
        have hs : detectStep total g (w, n) = 2 := by simp only [detectStep, if_neg hw, if_pos hb]
        rw [hs, ih 2 (by omega), hb']
        simp [verdict]
      · have hb' : isBig total (w, n) = false := by
          have h2 : 2 ≤ w := by omega
          simp only [isBig, decide_eq_true h2, Bool.true_and]
          simpa using hb
        by_cases hm : n > 25
        · have hm' : isMid (w, n) = true := by simp [isMid]; omega
          have hs : detectStep total g (w, n) = if g = 0 then 1 else g := by
            simp only [detectStep, if_neg hw, if_neg hb]
            simp [hm]
          rw [hs, ih _ (by split <;> omega), hb', hm']
          rcases hcase with h | h | h <;> simp [h, verdict]
        · have hm' : isMid (w, n) = false := by simp [isMid]; omega
          have hs : detectStep total g (w, n) = g := by
            simp only [detectStep, if_neg hw, if_neg hb]
            simp [hm]
          rw [hs, ih g hg, hb', hm']
          simp

theorem detect_eq_one_iff (total : Nat) (es : List (Nat × Nat)) :
    detect total es = 1 ↔ (∃ e ∈ es, isMid e = true) ∧ ¬ ∃ e ∈ es, isBig total e = true := by
  unfold detect
  rw [detectStep_foldl total es 0 (by omega), ← List.any_eq_true, ← List.any_eq_true]
  generalize es.any (isBig total) = a
  generalize es.any isMid = b
  cases a <;> cases b <;> simp [verdict]

end Grate.Simple
