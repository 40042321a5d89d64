import Verif.Model.Grate2tsv
import Verif.Spec.Grate2tsv
import Verif.Lemmas.Simple

/-! # Lemmas about the output of `grate2tsv` -/

namespace Grate.G2t

open Grate Spec

/-! ### Runs replaced -/

theorem collapse_true_run (cls : UInt8 → Bool) (rep : Bytes) (g c : Bytes) (hg : ∀ b ∈ g, cls b = true) :
    collapse cls rep true (g ++ c) = collapse cls rep true c := by
  induction g with
  | nil => rfl
  | cons b g ih =>
    rw [List.cons_append, collapse, if_pos (hg b List.mem_cons_self), if_pos rfl, List.nil_append]
    exact ih (fun x hx => hg x (List.mem_cons_of_mem _ hx))

theorem collapse_start (cls : UInt8 → Bool) (rep : Bytes) (c : Bytes)
    (hc : ∀ b, c.head? = some b → cls b = false) : collapse cls rep true c = collapse cls rep false c := by
  cases c with
  | nil => rfl
  | cons b s => simp [collapse, hc b rfl]

theorem collapse_of_squeezed {P : UInt8 → Prop} {cls : UInt8 → Bool} (hP : ∀ b, cls b = true ↔ P b)
    {r : UInt8} {c d : Bytes} (h : Squeezed P r c d) : collapse cls [r] false c = d := by
  induction h with
  | nil => rfl
  | byte hb _ ih => rw [collapse, if_neg (fun h => hb ((hP _).1 h)), ih]
  | @run g c d hg hall hc _ ih =>
    obtain ⟨b, g, rfl⟩ := List.exists_cons_of_ne_nil hg
    have hf : ∀ b, cls b = false ↔ ¬ P b := fun b => by rw [← hP, Bool.not_eq_true]
    rw [List.cons_append, collapse, if_pos ((hP _).2 (hall b List.mem_cons_self)),
      collapse_true_run _ _ _ _ (fun x hx => (hP _).2 (hall x (List.mem_cons_of_mem _ hx))),
      collapse_start _ _ _ (fun x hx => (hf x).2 (hc x hx)), ih]
    rfl

theorem exists_squeezed (P : UInt8 → Prop) [DecidablePred P] (r : UInt8) (n : Nat) :
    ∀ c : Bytes, c.length ≤ n → ∃ d, Squeezed P r c d := by
  induction n with
  | zero =>
    intro c h
    obtain rfl : c = [] := List.length_eq_zero_iff.1 (by omega)
    exact ⟨[], .nil⟩
  | succ n ih =>
    intro c h
    cases c with
    | nil => exact ⟨[], .nil⟩
    | cons b s =>
      by_cases hb : P b
      · have e : b :: s = (b :: s.takeWhile (decide <| P ·)) ++ s.dropWhile (decide <| P ·) := by
          simp [List.takeWhile_append_dropWhile]
        have hl : (s.dropWhile (decide <| P ·)).length ≤ s.length := (List.dropWhile_sublist _).length_le
        obtain ⟨d, hd⟩ := ih (s.dropWhile (decide <| P ·)) (by simp at h; omega)
        refine ⟨r :: d, ?_⟩
        rw [e]
        refine .run (by simp) ?_ ?_ hd
        · intro x hx
          rcases List.mem_cons.1 hx with rfl | hx
          · exact hb
          · exact of_decide_eq_true (List.all_eq_true.1 (List.all_takeWhile (p := fun x => decide (P x))) x hx)
        · intro x hx hp
          have := List.head?_dropWhile_not (fun x => decide (P x)) s
          rw [hx] at this
          simp [hp] at this
      · obtain ⟨d, hd⟩ := ih s (by simp at h; omega)
        exact ⟨b :: d, .byte hb hd⟩

theorem squeezed_collapse {P : UInt8 → Prop} {cls : UInt8 → Bool} (hP : ∀ b, cls b = true ↔ P b)
    (r : UInt8) (c : Bytes) : Squeezed P r c (collapse cls [r] false c) := by
  haveI : DecidablePred P := fun b => decidable_of_iff _ (hP b)
  obtain ⟨d, hd⟩ := exists_squeezed P r c.length c (Nat.le_refl _)
  rw [collapse_of_squeezed hP hd]
  exact hd

theorem squeezed_mem {P : UInt8 → Prop} {r : UInt8} {c d : Bytes} (h : Squeezed P r c d) :
    ∀ b ∈ d, b = r ∨ ¬ P b := by
  induction h with
  | nil => simp
  | byte hb _ ih =>
    intro x hx
    rcases List.mem_cons.1 hx with rfl | hx
    · exact .inr hb
    · exact ih x hx
  | run _ _ _ _ ih =>
    intro x hx
    rcases List.mem_cons.1 hx with rfl | hx
    · exact .inl rfl
    · exact ih x hx

theorem blankClass_iff (b : UInt8) : blankClass b = true ↔ Gap b := by
  simp [blankClass, Gap, or_assoc]

/-! ### White space -/

/-- The code points of `spaceRunes`. -/
def spacePoints : List Nat :=
  [9, 10, 11, 12, 13, 32, 0x85, 0xA0, 0x1680, 0x2000, 0x2001, 0x2002, 0x2003, 0x2004, 0x2005, 0x2006,
   0x2007, 0x2008, 0x2009, 0x200A, 0x2028, 0x2029, 0x202F, 0x205F, 0x3000]

theorem spaceRunes_eq : spaceRunes = spacePoints.map (fun r => utf8 [r]) := by decide +kernel

theorem white_iff (r : Nat) : White r ↔ r ∈ spacePoints := by
  simp only [White, spacePoints, List.mem_cons, List.not_mem_nil, or_false]
  omega

theorem utf8_append (a b : List Nat) : utf8 (a ++ b) = utf8 a ++ utf8 b := by simp [utf8]

theorem spaceRunes_ne : ∀ t ∈ spaceRunes, t ≠ [] := by decide

theorem stripFront_spec (toks : List Bytes) (hne : ∀ t ∈ toks, t ≠ []) (n : Nat) :
    ∀ s : Bytes, s.length ≤ n → ∃ ts : List Bytes, (∀ t ∈ ts, t ∈ toks) ∧
      s = ts.flatten ++ stripFront toks n s ∧ (∀ t ∈ toks, ¬ t <+: stripFront toks n s) := by
  induction n with
  | zero =>
    intro s h
    obtain rfl : s = [] := List.length_eq_zero_iff.1 (by omega)
    refine ⟨[], by simp, rfl, fun t ht h => hne t ht ?_⟩
    exact List.prefix_nil.1 h
  | succ n ih =>
    intro s h
    rw [stripFront]
    cases hf : toks.find? (fun t => t.isPrefixOf s) with
    | none =>
      refine ⟨[], by simp, rfl, fun t ht hp => ?_⟩
      have := List.find?_eq_none.1 hf t ht
      exact this (List.isPrefixOf_iff_prefix.2 hp)
    | some t =>
      have hmem := List.mem_of_find?_eq_some hf
      have hpre : t <+: s := by
        have := List.find?_some hf
        exact List.isPrefixOf_iff_prefix.1 this
      obtain ⟨u, rfl⟩ := hpre
      have hpos : 0 < t.length := List.length_pos_iff.2 (hne t hmem)
      simp only [List.drop_left]
      obtain ⟨ts, h1, h2, h3⟩ := ih u (by simp at h; omega)
      refine ⟨t :: ts, ?_, ?_, h3⟩
      · intro x hx
        rcases List.mem_cons.1 hx with rfl | hx
        · exact hmem
        · exact h1 x hx
      · rw [List.flatten_cons, List.append_assoc, ← h2]

theorem flatten_points (ts : List Bytes) (h : ∀ t ∈ ts, t ∈ spaceRunes) :
    ∃ a : List Nat, (∀ r ∈ a, White r) ∧ ts.flatten = utf8 a := by
  induction ts with
  | nil => exact ⟨[], by simp, rfl⟩
  | cons t ts ih =>
    obtain ⟨a, ha, e⟩ := ih (fun x hx => h x (List.mem_cons_of_mem _ hx))
    have ht := h t List.mem_cons_self
    rw [spaceRunes_eq] at ht
    obtain ⟨r, hr, rfl⟩ := List.mem_map.1 ht
    refine ⟨r :: a, ?_, ?_⟩
    · intro x hx
      rcases List.mem_cons.1 hx with rfl | hx
      · exact (white_iff _).2 hr
      · exact ha x hx
    · rw [List.flatten_cons, e]
      exact (utf8_append [r] a).symm

theorem trimSpace_spec (s : Bytes) : Stripped s (trimSpace s) := by
  obtain ⟨ts, h1, h2, h3⟩ := stripFront_spec spaceRunes spaceRunes_ne s.length s (Nat.le_refl _)
  generalize ha : stripFront spaceRunes s.length s = a at h2 h3
  obtain ⟨us, g1, g2, g3⟩ := stripFront_spec (spaceRunes.map List.reverse) (by
      intro t ht
      obtain ⟨u, hu, rfl⟩ := List.mem_map.1 ht
      exact fun h => spaceRunes_ne u hu (List.reverse_eq_nil_iff.1 h)) a.length a.reverse (by simp)
  have et : trimSpace s = (stripFront (spaceRunes.map List.reverse) a.length a.reverse).reverse := by
    rw [trimSpace, ha]
  generalize stripFront (spaceRunes.map List.reverse) a.length a.reverse = u at g2 g3 et
  obtain ⟨p, hp, ep⟩ := flatten_points ts h1
  obtain ⟨q, hq, eq⟩ := flatten_points (us.map List.reverse).reverse (by
    intro t ht
    obtain ⟨v, hv, rfl⟩ := List.mem_map.1 (List.mem_reverse.1 ht)
    obtain ⟨w, hw, rfl⟩ := List.mem_map.1 (g1 v hv)
    rwa [List.reverse_reverse])
  have ea : a = u.reverse ++ utf8 q := by
    have := congrArg List.reverse g2
    rw [List.reverse_reverse, List.reverse_append, List.reverse_flatten] at this
    rw [this, eq]
  refine ⟨p, q, hp, hq, ?_, ?_, ?_⟩
  · rw [et, h2, ep, List.append_assoc, ← ea]
  · intro r hr hpre
    refine h3 (utf8 [r]) ?_ ?_
    · rw [spaceRunes_eq]; exact List.mem_map.2 ⟨r, (white_iff r).1 hr, rfl⟩
    · rw [et] at hpre
      rw [ea]
      exact hpre.trans (List.prefix_append _ _)
  · intro r hr hsuf
    refine g3 (utf8 [r]).reverse ?_ ?_
    · refine List.mem_map.2 ⟨utf8 [r], ?_, rfl⟩
      rw [spaceRunes_eq]; exact List.mem_map.2 ⟨r, (white_iff r).1 hr, rfl⟩
    · rw [et] at hsuf
      have := List.reverse_prefix.2 hsuf
      rwa [List.reverse_reverse] at this

theorem stripped_mem {s t : Bytes} (h : Stripped s t) : ∀ b ∈ t, b ∈ s := by
  obtain ⟨a, b, _, _, rfl, _⟩ := h
  intro x hx
  simp [hx]

/-! ### The specification determines the text -/

theorem points_prefix : ∀ r ∈ spacePoints, ∀ r' ∈ spacePoints,
    (utf8 [r]).isPrefixOf (utf8 [r']) = true → r = r' := by decide +kernel

theorem points_suffix : ∀ r ∈ spacePoints, ∀ r' ∈ spacePoints,
    (utf8 [r]).isSuffixOf (utf8 [r']) = true → r = r' := by decide +kernel

/-- A continuation byte of UTF-8. -/
def isCont (b : UInt8) : Bool := 0x80 ≤ b && b < 0xC0

theorem points_shape : ∀ r ∈ spacePoints,
    ((utf8 [r]).head?.any (fun b => !isCont b) && (utf8 [r]).tail.all isCont) = true := by decide +kernel

theorem white_head {r : Nat} (hr : White r) :
    ∃ h t, utf8 [r] = h :: t ∧ isCont h = false ∧ ∀ b ∈ t, isCont b = true := by
  have := points_shape r ((white_iff r).1 hr)
  cases e : utf8 [r] with
  | nil => rw [e] at this; simp at this
  | cons h t =>
    rw [e] at this
    simp only [List.head?_cons, Option.any_some, List.tail_cons, Bool.and_eq_true, Bool.not_eq_true',
      List.all_eq_true] at this
    exact ⟨h, t, rfl, this.1, this.2⟩

theorem white_prefix {r r' : Nat} (hr : White r) (hr' : White r') {s : Bytes} (h : utf8 [r] <+: s)
    (h' : utf8 [r'] <+: s) : r = r' := by
  rcases List.prefix_or_prefix_of_prefix h h' with h | h
  · exact points_prefix r ((white_iff r).1 hr) r' ((white_iff r').1 hr') (List.isPrefixOf_iff_prefix.2 h)
  · exact (points_prefix r' ((white_iff r').1 hr') r ((white_iff r).1 hr)
      (List.isPrefixOf_iff_prefix.2 h)).symm

theorem white_suffix {r r' : Nat} (hr : White r) (hr' : White r') {s : Bytes} (h : utf8 [r] <:+ s)
    (h' : utf8 [r'] <:+ s) : r = r' := by
  rcases List.suffix_or_suffix_of_suffix h h' with h | h
  · exact points_suffix r ((white_iff r).1 hr) r' ((white_iff r').1 hr') (List.isSuffixOf_iff_suffix.2 h)
  · exact (points_suffix r' ((white_iff r').1 hr') r ((white_iff r).1 hr)
      (List.isSuffixOf_iff_suffix.2 h)).symm

theorem utf8_cons (r : Nat) (a : List Nat) : utf8 (r :: a) = utf8 [r] ++ utf8 a := utf8_append [r] a

theorem front_unique {a a' : List Nat} {u u' : Bytes} (ha : ∀ r ∈ a, White r) (ha' : ∀ r ∈ a', White r)
    (hu : ∀ r, White r → ¬ utf8 [r] <+: u) (hu' : ∀ r, White r → ¬ utf8 [r] <+: u')
    (h : utf8 a ++ u = utf8 a' ++ u') : u = u' := by
  induction a generalizing a' with
  | nil =>
    cases a' with
    | nil => exact h
    | cons r a' =>
      refine absurd ?_ (hu r (ha' r List.mem_cons_self))
      change u = _ at h
      rw [h, utf8_cons r a', List.append_assoc]
      exact List.prefix_append _ _
  | cons r a ih =>
    cases a' with
    | nil =>
      refine absurd ?_ (hu' r (ha r List.mem_cons_self))
      change _ = u' at h
      rw [← h, utf8_cons r a, List.append_assoc]
      exact List.prefix_append _ _
    | cons r' a' =>
      rw [utf8_cons, utf8_cons r', List.append_assoc, List.append_assoc] at h
      obtain rfl : r = r' := white_prefix (ha r List.mem_cons_self) (ha' r' List.mem_cons_self)
        (List.prefix_append _ _) (by rw [h]; exact List.prefix_append _ _)
      exact ih (fun x hx => ha x (List.mem_cons_of_mem _ hx)) (fun x hx => ha' x (List.mem_cons_of_mem _ hx))
        (List.append_cancel_left h)

theorem back_unique (n : Nat) : ∀ {b b' : List Nat} {u u' : Bytes}, b.length ≤ n → (∀ r ∈ b, White r) →
    (∀ r ∈ b', White r) → (∀ r, White r → ¬ utf8 [r] <:+ u) → (∀ r, White r → ¬ utf8 [r] <:+ u') →
    u ++ utf8 b = u' ++ utf8 b' → u = u' := by
  induction n with
  | zero =>
    intro b b' u u' hl hb hb' hu hu' h
    obtain rfl : b = [] := List.length_eq_zero_iff.1 (by omega)
    rcases List.eq_nil_or_concat b' with rfl | ⟨c, r, rfl⟩
    · simpa [utf8] using h
    · refine absurd ?_ (hu r (hb' r (by simp)))
      change u ++ [] = _ at h
      rw [List.append_nil] at h
      rw [h, List.concat_eq_append, utf8_append, ← List.append_assoc]
      exact List.suffix_append _ _
  | succ n ih =>
    intro b b' u u' hl hb hb' hu hu' h
    rcases List.eq_nil_or_concat b with rfl | ⟨c, r, rfl⟩
    · exact ih (by simp) hb hb' hu hu' h
    · rcases List.eq_nil_or_concat b' with rfl | ⟨c', r', rfl⟩
      · refine absurd ?_ (hu' r (hb r (by simp)))
        change _ = u' ++ [] at h
        rw [List.append_nil] at h
        rw [← h, List.concat_eq_append, utf8_append, ← List.append_assoc]
        exact List.suffix_append _ _
      · simp only [List.concat_eq_append, utf8_append, ← List.append_assoc] at h
        simp only [List.concat_eq_append, List.mem_append, List.mem_singleton] at hb hb'
        obtain rfl : r = r' := white_suffix (hb r (.inr rfl)) (hb' r' (.inr rfl))
          (List.suffix_append (u ++ utf8 c) _) (by rw [h]; exact List.suffix_append _ _)
        exact ih (by simpa using hl) (fun x hx => hb x (.inl hx)) (fun x hx => hb' x (.inl hx)) hu hu'
          (List.append_cancel_right h)

theorem no_white_prefix {t : Bytes} {b : List Nat} (ht : t ≠ []) (hb : ∀ r ∈ b, White r)
    (hp : ∀ r, White r → ¬ utf8 [r] <+: t) : ∀ r, White r → ¬ utf8 [r] <+: t ++ utf8 b := by
  intro r hr h
  rcases List.prefix_or_prefix_of_prefix h (List.prefix_append t (utf8 b)) with h' | h'
  · exact hp r hr h'
  · obtain ⟨v, hv⟩ := h'
    rw [← hv] at h
    have hvb : v <+: utf8 b := (List.prefix_append_right_inj t).1 h
    obtain ⟨x, t, rfl⟩ := List.exists_cons_of_ne_nil ht
    cases v with
    | nil => exact hp r hr (by rw [← hv, List.append_nil]; exact List.prefix_refl _)
    | cons y v =>
      obtain ⟨h0, t0, e0, _, hc⟩ := white_head hr
      rw [e0, List.cons_append] at hv
      have hy : isCont y = true := hc y (by rw [← (List.cons.inj hv).2]; simp)
      cases b with
      | nil => exact absurd (List.prefix_nil.1 hvb) (by simp)
      | cons r' b =>
        obtain ⟨h1, t1, e1, hn, _⟩ := white_head (hb r' List.mem_cons_self)
        rw [utf8_cons, e1, List.cons_append] at hvb
        obtain ⟨z, hz⟩ := hvb
        rw [List.cons_append] at hz
        rw [(List.cons.inj hz).1, hn] at hy
        cases hy

theorem stripped_unique {s t t' : Bytes} (h : Stripped s t) (h' : Stripped s t') : t = t' := by
  obtain ⟨a, b, ha, hb, e, hp, hs⟩ := h
  obtain ⟨a', b', ha', hb', e', hp', hs'⟩ := h'
  have empty : ∀ r, White r → ¬ utf8 [r] <+: [] := by
    intro r hr h
    obtain ⟨h0, t0, e0, _⟩ := white_head hr
    rw [e0] at h
    exact absurd (List.prefix_nil.1 h) (by simp)
  have key : ∀ {a b a' b' : List Nat} {t' : Bytes}, (∀ r ∈ a, White r) → (∀ r ∈ b, White r) →
      (∀ r ∈ a', White r) → (∀ r ∈ b', White r) → (∀ r, White r → ¬ utf8 [r] <+: t') →
      utf8 a ++ [] ++ utf8 b = utf8 a' ++ t' ++ utf8 b' → t' = [] := by
    intro a b a' b' t' ha hb ha' hb' hp' e
    refine Decidable.not_not.1 fun ht => ?_
    rw [List.append_nil, ← utf8_append, ← List.append_nil (utf8 (a ++ b)), List.append_assoc] at e
    have := front_unique (a := a ++ b) (fun r hr => (List.mem_append.1 hr).elim (ha r) (hb r)) ha' empty
      (no_white_prefix ht hb' hp') e
    exact ht (List.append_eq_nil_iff.1 this.symm).1
  rw [e] at e'
  by_cases ht : t = []
  · subst ht
    exact (key ha hb ha' hb' hp' e').symm
  · by_cases ht' : t' = []
    · subst ht'
      exact key ha' hb' ha hb hp e'.symm
    · rw [List.append_assoc, List.append_assoc] at e'
      have := front_unique ha ha' (no_white_prefix ht hb hp) (no_white_prefix ht' hb' hp') e'
      exact back_unique b.length (Nat.le_refl _) hb hb' hs hs' this

theorem tidy_unique {c t t' : Bytes} (h : Tidy c t) (h' : Tidy c t') : t = t' := by
  obtain ⟨d, h1, h2⟩ := h
  obtain ⟨d', h1', h2'⟩ := h'
  rw [← collapse_of_squeezed blankClass_iff h1] at h2
  rw [← collapse_of_squeezed blankClass_iff h1'] at h2'
  exact stripped_unique h2 h2'

/-- The cell text as written with the default flags. -/
def tidy (c : Bytes) : Bytes := trimSpace (collapse blankClass [32] false c)

theorem tidy_spec (c : Bytes) : Tidy c (tidy c) :=
  ⟨_, squeezed_collapse blankClass_iff 32 c, trimSpace_spec _⟩

theorem tidy_clean {c t : Bytes} (h : Tidy c t) : (9 : UInt8) ∉ t ∧ (10 : UInt8) ∉ t ∧ (13 : UInt8) ∉ t := by
  obtain ⟨d, h1, h2⟩ := h
  have key : ∀ b : UInt8, Gap b → b ≠ 32 → b ∉ t := by
    intro b hb hne hm
    rcases squeezed_mem h1 b (stripped_mem h2 b hm) with h | h
    · exact hne h
    · exact h hb
  exact ⟨key 9 (by simp [Gap]) (by decide), key 10 (by simp [Gap]) (by decide),
    key 13 (by simp [Gap]) (by decide)⟩

end Grate.G2t

namespace Grate.G2t

open Grate Spec

/-! ### Rows and sheets -/

/-- The highest index of a non-empty cell, counted from `i`, or `nc` if that is more. -/
def lastCol : (i nc : Nat) → List Bytes → Nat
  | _, nc, [] => nc
  | i, nc, x :: xs => lastCol (i + 1) (if x ≠ [] then max nc i else nc) xs

theorem rowLoop_default (i nc : Nat) (row : List Bytes) :
    rowLoop {} i nc row = (row.map tidy, decide (HasText (row.map tidy)), lastCol i nc (row.map tidy)) := by
  induction row generalizing i nc with
  | nil => simp [rowLoop, HasText, lastCol]
  | cons v vs ih =>
    have e : (if nc < i then i else nc) = max nc i := by split <;> omega
    simp only [rowLoop, ih, if_true, List.map_cons, e]
    refine Prod.ext rfl (Prod.ext ?_ rfl)
    simp only [HasText, List.mem_cons, exists_eq_or_imp, Bool.decide_or]
    rfl

theorem cellWrites_pos (i : Nat) (hi : i ≠ 0) (vs : List Bytes) :
    cellWrites i vs = vs.flatMap (fun v => 9 :: v) := by
  induction vs generalizing i with
  | nil => rfl
  | cons v vs ih => simp [cellWrites, hi, ih (i + 1)]

theorem cellWrites_eq (vs : List Bytes) : cellWrites 0 vs = [(9 : UInt8)].intercalate vs := by
  cases vs with
  | nil => rfl
  | cons v vs =>
    rw [cellWrites, cellWrites_pos 1 (by decide)]
    simp only [ne_eq, not_true_eq_false, if_false, List.nil_append]
    induction vs generalizing v with
    | nil => simp [List.intercalate]
    | cons w ws ih =>
      have := ih w
      simp only [List.intercalate, List.intersperse, List.flatten_cons, List.flatMap_cons] at this ⊢
      rw [← this]
      simp

/-- The rows of the file written with the default flags. -/
def keptRows (rows : List (List Bytes)) : List (List Bytes) := (rows.map (·.map tidy)).filter (fun r => decide (HasText r))

theorem sheetLoop_default (ps : Counts) (rows : List (List Bytes)) :
    sheetLoop {} ps rows = (tsvText (keptRows rows),
      ⟨ps.numRows + (keptRows rows).length, (keptRows rows).foldl (lastCol 0) ps.numCols⟩) := by
  induction rows generalizing ps with
  | nil => simp [sheetLoop, keptRows, tsvText]
  | cons row rows ih =>
    rw [sheetLoop, rowLoop_default]
    by_cases h : HasText (row.map tidy)
    · have hk : keptRows (row :: rows) = row.map tidy :: keptRows rows := by simp [keptRows, h]
      rw [hk]
      simp only [h, decide_true, Bool.true_or, if_true, ih, cellWrites_eq]
      refine Prod.ext ?_ ?_
      · simp [tsvText]
      · simp only [List.length_cons, List.foldl_cons, Counts.mk.injEq, and_true]
        omega
    · have hk : keptRows (row :: rows) = keptRows rows := by simp [keptRows, h]
      have hl : ∀ (xs : List Bytes) (i nc : Nat), ¬ HasText xs → lastCol i nc xs = nc := by
        intro xs
        induction xs with
        | nil => intros; rfl
        | cons x xs ihx =>
          intro i nc hx
          have hx0 : x = [] := Decidable.not_not.1 fun hn => hx ⟨x, List.mem_cons_self, hn⟩
          rw [lastCol, if_neg (by simp [hx0])]
          exact ihx _ _ (fun ⟨c, hc, hn⟩ => hx ⟨c, List.mem_cons_of_mem _ hc, hn⟩)
      rw [hk]
      simp only [h, decide_false, Bool.false_or, ih, hl _ _ _ h]
      rfl

end Grate.G2t
