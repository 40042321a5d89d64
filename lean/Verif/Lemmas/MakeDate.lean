import Verif.Lemmas.MakeFormat
import Mathlib.Tactic.IntervalCases

/-! # Lemmas about the compiler of custom date formats -/

namespace Grate

open Grate.Spec

/-! ### Replacing a run of letters -/

theorem not_run_prefix (L : UInt8) : ∀ (j k : Nat) (b : Bytes), j < k → b.head? ≠ some L →
    (List.replicate k L).isPrefixOf (List.replicate j L ++ b) = false
  | _, 0, _, h, _ => absurd h (by omega)
  | 0, k + 1, [], _, _ => rfl
  | 0, k + 1, c :: b, _, h => by
    have : (L == c) = false := by
      simp at h
      simpa using fun e : L = c => h e.symm
    simp [List.replicate_succ, List.isPrefixOf, this]
  | j + 1, k + 1, b, h, hb => by
    have := not_run_prefix L j k b (by omega) hb
    simp [List.replicate_succ, this]

theorem replaceOnce_step {old new : Bytes} {c : UInt8} {s : Bytes} (h : old.isPrefixOf (c :: s) = false) :
    replaceOnce old new (c :: s) = c :: replaceOnce old new s := by
  rw [replaceOnce, h]
  simp

theorem run_prefix_ne {L c : UInt8} (h : c ≠ L) {k : Nat} (hk : 0 < k) (s : Bytes) :
    (List.replicate k L).isPrefixOf (c :: s) = false :=
  not_run_prefix L 0 k (c :: s) hk (by simpa using h)

theorem replaceOnce_free (L : UInt8) (new : Bytes) {k : Nat} (hk : 0 < k) : ∀ s : Bytes, L ∉ s →
    replaceOnce (List.replicate k L) new s = s
  | [], _ => by
    have : List.replicate k L ≠ [] := by simp; omega
    simp [replaceOnce, this]
  | c :: s, h => by
    simp only [List.mem_cons, not_or] at h
    rw [replaceOnce_step (run_prefix_ne (fun e => h.1 e.symm) hk s), replaceOnce_free L new hk s h.2]

theorem replaceOnce_skip (L : UInt8) (new : Bytes) {k : Nat} (hk : 0 < k) (t : Bytes) : ∀ a : Bytes, L ∉ a →
    replaceOnce (List.replicate k L) new (a ++ t) = a ++ replaceOnce (List.replicate k L) new t
  | [], _ => rfl
  | c :: a, h => by
    simp only [List.mem_cons, not_or] at h
    rw [List.cons_append, replaceOnce_step (run_prefix_ne (fun e => h.1 e.symm) hk _), replaceOnce_skip L new hk t a h.2]
    rfl

theorem replaceOnce_short (L : UInt8) (new b : Bytes) (k : Nat) (hb : b.head? ≠ some L) : ∀ j, j < k →
    replaceOnce (List.replicate k L) new (List.replicate j L ++ b) =
      List.replicate j L ++ replaceOnce (List.replicate k L) new b
  | 0, _ => rfl
  | j + 1, h => by
    rw [List.replicate_succ, List.cons_append, replaceOnce_step, replaceOnce_short L new b k hb j (by omega)]
    · rfl
    · exact not_run_prefix L (j + 1) k b h hb

theorem replaceOnce_hit (L : UInt8) (new b : Bytes) {k : Nat} (hk : 0 < k) :
    replaceOnce (List.replicate k L) new (List.replicate k L ++ b) = new ++ b := by
  obtain ⟨k, rfl⟩ := Nat.exists_eq_succ_of_ne_zero (by omega : k ≠ 0)
  rw [List.replicate_succ, List.cons_append, replaceOnce, if_pos]
  · simp
  · rw [List.isPrefixOf_iff_prefix, ← List.cons_append]
    exact List.prefix_append _ _

theorem head_of_free {L : UInt8} {b : Bytes} (h : L ∉ b) : b.head? ≠ some L := by
  cases b with
  | nil => simp
  | cons c b =>
    simp only [List.mem_cons, not_or] at h
    simpa using fun e : c = L => h.1 e.symm

/-- A shorter run is left alone. -/
theorem run_lt (L : UInt8) (new a b : Bytes) {j k : Nat} (h : j < k) (ha : L ∉ a) (hb : L ∉ b) :
    replaceOnce (List.replicate k L) new (a ++ List.replicate j L ++ b) = a ++ List.replicate j L ++ b := by
  rw [List.append_assoc, replaceOnce_skip L new (by omega) _ a ha, replaceOnce_short L new b k (head_of_free hb) j h,
    replaceOnce_free L new (by omega) b hb]

/-- A run of the same length is replaced. -/
theorem run_eq (L : UInt8) (new a b : Bytes) {k : Nat} (h : 0 < k) (ha : L ∉ a) :
    replaceOnce (List.replicate k L) new (a ++ List.replicate k L ++ b) = a ++ new ++ b := by
  rw [List.append_assoc, replaceOnce_skip L new h _ a ha, replaceOnce_hit L new b h, List.append_assoc]

/-- Replacing runs of decreasing lengths by texts without the letter. -/
def runReps (L : UInt8) (reps : List (Nat × Bytes)) (s : Bytes) : Bytes :=
  reps.foldl (fun s r => replaceOnce (List.replicate r.1 L) r.2 s) s

theorem runReps_free (L : UInt8) : ∀ (reps : List (Nat × Bytes)) (s : Bytes), (∀ r ∈ reps, 0 < r.1) → L ∉ s →
    runReps L reps s = s
  | [], _, _, _ => rfl
  | r :: reps, s, h, hs => by
    unfold runReps
    rw [List.foldl_cons, replaceOnce_free L r.2 (h r (by simp)) s hs]
    exact runReps_free L reps s (fun r hr => h r (by simp [hr])) hs

theorem runReps_run (L : UInt8) (j : Nat) (new a b : Bytes) (ha : L ∉ a) (hb : L ∉ b) (hn : L ∉ new) :
    ∀ (pre post : List (Nat × Bytes)), (∀ r ∈ pre, j < r.1) → 0 < j → (∀ r ∈ post, 0 < r.1) →
      runReps L (pre ++ (j, new) :: post) (a ++ List.replicate j L ++ b) = a ++ new ++ b
  | [], post, _, hj, hpost => by
    unfold runReps
    rw [List.nil_append, List.foldl_cons, run_eq L new a b hj ha]
    refine runReps_free L post _ hpost ?_
    simp only [List.mem_append, not_or]
    exact ⟨⟨ha, hn⟩, hb⟩
  | r :: pre, post, h, hj, hpost => by
    unfold runReps
    rw [List.cons_append, List.foldl_cons, run_lt L r.2 a b (h r (by simp)) ha hb]
    exact runReps_run L j new a b ha hb hn pre post (fun r hr => h r (by simp [hr])) hj hpost

/-! ### Sparse letters -/

/-- The letter never stands twice in a row. -/
def sparse (L : UInt8) : Bytes → Bool
  | c :: d :: r => !(c == L && d == L) && sparse L (d :: r)
  | _ => true

theorem sparse_append {L : UInt8} : ∀ {x y : Bytes}, sparse L x = true → sparse L y = true → y.head? ≠ some L →
    sparse L (x ++ y) = true
  | [], _, _, hy, _ => hy
  | [c], [], _, _, _ => rfl
  | [c], d :: y, _, hy, h => by
    have : (d == L) = false := by simpa using h
    simp [sparse, this, hy]
  | c :: d :: x, y, hx, hy, h => by
    simp only [sparse, Bool.and_eq_true] at hx
    have := sparse_append (x := d :: x) hx.2 hy h
    simp only [List.cons_append] at this ⊢
    simp only [sparse, Bool.and_eq_true]
    exact ⟨hx.1, this⟩

/-- Sparse, and not beginning with the letter. -/
def Good (L : UInt8) (x : Bytes) : Prop := sparse L x = true ∧ x.head? ≠ some L

theorem Good.append {L : UInt8} {x y : Bytes} (hx : Good L x) (hy : Good L y) : Good L (x ++ y) := by
  refine ⟨sparse_append hx.1 hy.1 hy.2, ?_⟩
  cases x with
  | nil => exact hy.2
  | cons c x => exact hx.2

theorem good_free {L : UInt8} : ∀ {x : Bytes}, L ∉ x → Good L x
  | x, h => ⟨go x h, head_of_free h⟩
where
  go : ∀ x : Bytes, L ∉ x → sparse L x = true
  | [], _ => rfl
  | [_], _ => rfl
  | c :: d :: r, h => by
    simp only [List.mem_cons, not_or] at h
    simp only [sparse, Bool.and_eq_true]
    refine ⟨?_, go (d :: r) (by simpa using h.2)⟩
    have : (c == L) = false := by simpa using fun e : c = L => h.1 e.symm
    simp [this]

theorem replaceOnce_sparse (L : UInt8) (new : Bytes) {k : Nat} (hk : 2 ≤ k) : ∀ s : Bytes, sparse L s = true →
    replaceOnce (List.replicate k L) new s = s
  | [], _ => by
    have : List.replicate k L ≠ [] := by simp; omega
    simp [replaceOnce, this]
  | [c], _ => by
    have hp : (List.replicate k L).isPrefixOf [c] = false := by
      by_cases e : c = L
      · subst e
        exact not_run_prefix c 1 k [] (by omega) (by simp)
      · exact run_prefix_ne e (by omega) _
    have : List.replicate k L ≠ [] := by simp; omega
    rw [replaceOnce_step hp]
    simp [replaceOnce, this]
  | c :: d :: s, h => by
    simp only [sparse, Bool.and_eq_true] at h
    rw [replaceOnce_step, replaceOnce_sparse L new hk (d :: s) h.2]
    by_cases e : c = L
    · subst e
      refine not_run_prefix c 1 k (d :: s) (by omega) ?_
      simpa using h.1
    · exact run_prefix_ne e (by omega) _

theorem replaceOnce_skip_sparse (L : UInt8) (new t : Bytes) {k : Nat} (hk : 2 ≤ k) : ∀ a : Bytes,
    sparse L a = true → a.getLast? ≠ some L →
    replaceOnce (List.replicate k L) new (a ++ t) = a ++ replaceOnce (List.replicate k L) new t
  | [], _, _ => rfl
  | [c], _, h => by
    have : c ≠ L := by simpa using h
    rw [List.cons_append, replaceOnce_step (run_prefix_ne this (by omega) _)]
    rfl
  | c :: d :: a, h, hl => by
    simp only [sparse, Bool.and_eq_true] at h
    rw [List.cons_append, replaceOnce_step, replaceOnce_skip_sparse L new t hk (d :: a) h.2 (by simpa using hl)]
    · rfl
    · by_cases e : c = L
      · subst e
        refine not_run_prefix c 1 k (d :: a ++ t) (by omega) ?_
        simpa using h.1
      · exact run_prefix_ne e (by omega) _

/-! ### Splitting around minutes -/

theorem minsSplit_none : ∀ s : Bytes, (104 ∉ s ∨ 109 ∉ s ∨ 115 ∉ s) → minsSplit s = none
  | [], _ => rfl
  | c :: cs, h => by
    have hr : minsSplit cs = none := minsSplit_none cs (by
      rcases h with h | h | h
      · exact .inl (fun hm => h (by simp [hm]))
      · exact .inr (.inl (fun hm => h (by simp [hm])))
      · exact .inr (.inr (fun hm => h (by simp [hm]))))
    rw [minsSplit]
    simp only [hr]
    rw [if_neg]
    simp only [Bool.and_eq_true, beq_iff_eq, List.contains_iff_mem, not_and]
    rintro rfl hs
    have h1 := List.dropWhile_subset _ hs
    have h2 := List.takeWhile_subset _ h1
    rcases h with h | h | h
    · exact h (by simp)
    · have hm : (cs.takeWhile (· != 10)).dropWhile (· != 109) = [] := by
        have := dropWhile_all (· != (109 : UInt8)) (cs.takeWhile (· != 10)) [] ?_ (by simp)
        · simpa using this
        intro x hx
        have := List.takeWhile_subset _ hx
        simp only [bne_iff_ne]
        rintro rfl
        exact h (by simp [this])
      rw [hm] at hs
      simp at hs
    · exact h (by simp [h2])

theorem mem_fromM (W : Bytes) (h : (115 : UInt8) ∈ W) : ∀ X : Bytes,
    115 ∈ (X ++ 109 :: W).dropWhile (· != 109)
  | [] => by simp [h]
  | c :: X => by
    rw [List.cons_append, List.dropWhile_cons]
    split
    · exact mem_fromM W h X
    · simp [h]

theorem minsSplit_at (X Y Z : Bytes) (hX : 10 ∉ X) (hY : 10 ∉ Y) (hZ : 10 ∉ Z) (hs : 115 ∉ Z) : ∀ P : Bytes, 104 ∉ P →
    minsSplit (P ++ 104 :: (X ++ 109 :: (Y ++ 115 :: Z))) = some (P, 104 :: (X ++ 109 :: (Y ++ [115])), Z)
  | [], _ => by
    have hline : (X ++ 109 :: (Y ++ 115 :: Z)).takeWhile (· != (10 : UInt8)) = X ++ 109 :: (Y ++ 115 :: Z) := by
      have := List.takeWhile_append_of_pos (p := (· != (10 : UInt8))) (l₁ := X ++ 109 :: (Y ++ 115 :: Z)) (l₂ := []) ?_
      · simpa using this
      intro x hx
      simp only [List.mem_append, List.mem_cons] at hx
      simp only [bne_iff_ne]
      rintro rfl
      rcases hx with h | h | h | h | h
      · exact hX h
      · exact absurd h (by decide)
      · exact hY h
      · exact absurd h (by decide)
      · exact hZ h
    have htail : ((X ++ 109 :: (Y ++ 115 :: Z)).reverse.takeWhile (· != (115 : UInt8))).reverse = Z := by
      have e : (X ++ 109 :: (Y ++ 115 :: Z)).reverse = Z.reverse ++ 115 :: (Y.reverse ++ 109 :: X.reverse) := by
        simp
      rw [e, (takeWhile_stop (· != (115 : UInt8)) Z.reverse 115 _ (fun x hx => by
        simp only [bne_iff_ne]
        rintro rfl
        exact hs (by simpa using hx)) (by rfl)).1]
      simp
    rw [List.nil_append, minsSplit]
    simp only [hline, htail]
    rw [if_pos]
    · have n : (X ++ 109 :: (Y ++ 115 :: Z)).length - Z.length = (X ++ 109 :: (Y ++ [115])).length := by
        simp
        omega
      rw [n]
      have e : X ++ 109 :: (Y ++ 115 :: Z) = (X ++ 109 :: (Y ++ [115])) ++ Z := by simp
      rw [e, List.take_left, List.drop_left]
    · simp only [beq_self_eq_true, Bool.true_and, List.contains_iff_mem]
      exact mem_fromM _ (by simp) X
  | c :: P, h => by
    simp only [List.mem_cons, not_or] at h
    rw [List.cons_append, minsSplit]
    simp only [minsSplit_at X Y Z hX hY hZ hs P h.2]
    rw [if_neg]
    simp only [Bool.and_eq_true, beq_iff_eq, not_and]
    intro e
    exact absurd e.symm h.1

theorem hasSub_false {old : Bytes} {b : UInt8} (hb : b ∈ old) : ∀ s : Bytes, b ∉ s → hasSub old s = false
  | [], _ => by
    cases old with
    | nil => simp at hb
    | cons => rfl
  | c :: cs, h => by
    rw [hasSub, hasSub_false hb cs (fun hm => h (by simp [hm])), Bool.or_false, Bool.eq_false_iff]
    intro hp
    exact h (List.isPrefixOf_iff_prefix.1 hp |>.subset hb)

/-! ### Fields -/

/-- The fields of the readable formats. -/
def plainFields : List DateField :=
  [.year true, .year false, .month 1, .month 2, .month 3, .month 4, .month 5, .day 1, .day 2, .day 3,
   .hour true, .hour false, .minute true, .minute false, .second true, .second false]

theorem plain_mem {f : DateField} (h : f.Plain) : f ∈ plainFields := by
  cases f with
  | year b => cases b <;> decide
  | month n =>
    obtain ⟨h1, h2⟩ := h
    interval_cases n <;> decide
  | day n =>
    obtain ⟨h1, h2⟩ := h
    interval_cases n <;> decide
  | hour b => cases b <;> decide
  | minute b => cases b <;> decide
  | second b => cases b <;> decide

/-- A field with the fields of some kinds already replaced. -/
def stage (ks : List DateKind) (f : DateField) : Bytes := if f.kind ∈ ks then f.layout else f.code

/-- The text of a date format with the fields of some kinds replaced. -/
def stageText (ks : List DateKind) (l : List (DateField × DateSep)) : Bytes :=
  l.flatMap (fun p => stage ks p.1 ++ p.2.code)

theorem stageText_append (ks : List DateKind) (a b : List (DateField × DateSep)) :
    stageText ks (a ++ b) = stageText ks a ++ stageText ks b := by simp [stageText]

theorem stageText_cons (ks : List DateKind) (p : DateField × DateSep) (b : List (DateField × DateSep)) :
    stageText ks (p :: b) = stage ks p.1 ++ p.2.code ++ stageText ks b := by simp [stageText]

theorem sepCode_mem {s : DateSep} {b : UInt8} (h : b ∈ s.code) : b = 34 ∨ b ∈ s.text := by
  cases s with
  | bare t => exact .inr h
  | quoted t => exact quoted_mem h

theorem stageText_free {L : UInt8} {ks : List DateKind} {l : List (DateField × DateSep)} (hL : L ≠ 34)
    (hs : ∀ p ∈ l, L ∉ p.2.text) (hf : ∀ p ∈ l, L ∉ stage ks p.1) : L ∉ stageText ks l := by
  intro h
  unfold stageText at h
  obtain ⟨p, hp, h⟩ := List.mem_flatMap.1 h
  rcases List.mem_append.1 h with h | h
  · exact hf p hp h
  · rcases sepCode_mem h with h | h
    · exact hL h
    · exact hs p hp h

theorem stageText_congr {ks ks' : List DateKind} {l : List (DateField × DateSep)}
    (h : ∀ p ∈ l, stage ks p.1 = stage ks' p.1) : stageText ks l = stageText ks' l := by
  unfold stageText
  rw [List.flatMap_def, List.flatMap_def]
  congr 1
  exact List.map_congr_left (fun p hp => by rw [h p hp])

theorem stage_of_kind {ks : List DateKind} {k : DateKind} {f : DateField} (h : f.kind ≠ k) :
    stage (k :: ks) f = stage ks f := by
  unfold stage
  simp [h]

/-- One stage of the replacements. -/
theorem stage_step (op : Bytes → Bytes) (L : UInt8) (k : DateKind) (ks : List DateKind) (hL : L ≠ 34)
    (hop0 : ∀ s, L ∉ s → op s = s)
    (hop1 : ∀ f a b, f ∈ plainFields → f.kind = k → L ∉ a → L ∉ b → op (a ++ stage ks f ++ b) = a ++ stage (k :: ks) f ++ b)
    (hfree : ∀ f ∈ plainFields, f.kind ≠ k → L ∉ stage ks f)
    (a : Bytes) (l : List (DateField × DateSep)) (ha : L ∉ a) (hn : (l.map (fun p => p.1.kind)).Nodup)
    (hs : ∀ p ∈ l, L ∉ p.2.text) (hp : ∀ p ∈ l, p.1.Plain) :
    op (a ++ stageText ks l) = a ++ stageText (k :: ks) l := by
  by_cases hk : k ∈ l.map (fun p => p.1.kind)
  · obtain ⟨p, hpm, hpk⟩ := List.mem_map.1 hk
    obtain ⟨l1, l2, rfl⟩ := List.append_of_mem hpm
    rw [List.map_append, List.map_cons, List.nodup_append, List.nodup_cons] at hn
    obtain ⟨n1, ⟨n2, n3⟩, n4⟩ := hn
    have k1 : ∀ q ∈ l1, q.1.kind ≠ k := fun q hq e => n4 q.1.kind (List.mem_map.2 ⟨q, hq, rfl⟩) p.1.kind (by simp) (by rw [e, hpk])
    have k2 : ∀ q ∈ l2, q.1.kind ≠ k := fun q hq e => n2 (List.mem_map.2 ⟨q, hq, by rw [e, hpk]⟩)
    have f1 : L ∉ a ++ stageText ks l1 := by
      simp only [List.mem_append, not_or]
      exact ⟨ha, stageText_free hL (fun q hq => hs q (by simp [hq]))
        (fun q hq => hfree q.1 (plain_mem (hp q (by simp [hq]))) (k1 q hq))⟩
    have f2 : L ∉ p.2.code ++ stageText ks l2 := by
      simp only [List.mem_append, not_or]
      refine ⟨fun h => ?_, stageText_free hL (fun q hq => hs q (by simp [hq]))
        (fun q hq => hfree q.1 (plain_mem (hp q (by simp [hq]))) (k2 q hq))⟩
      rcases sepCode_mem h with h | h
      · exact hL h
      · exact hs p (by simp) h
    have := hop1 p.1 _ _ (plain_mem (hp p (by simp))) hpk f1 f2
    rw [stageText_append, stageText_cons, stageText_append, stageText_cons,
      ← stageText_congr (ks := ks) (ks' := k :: ks) (l := l1) (fun q hq => (stage_of_kind (k1 q hq)).symm),
      ← stageText_congr (ks := ks) (ks' := k :: ks) (l := l2) (fun q hq => (stage_of_kind (k2 q hq)).symm)]
    simpa [List.append_assoc] using this
  · have hne : ∀ q ∈ l, q.1.kind ≠ k := fun q hq e => hk (List.mem_map.2 ⟨q, hq, e⟩)
    rw [← stageText_congr (ks := ks) (ks' := k :: ks) (l := l) (fun q hq => (stage_of_kind (hne q hq)).symm)]
    refine hop0 _ ?_
    simp only [List.mem_append, not_or]
    exact ⟨ha, stageText_free hL hs (fun q hq => hfree q.1 (plain_mem (hp q hq)) (hne q hq))⟩

/-! ### The stages -/

def hourReps : List (Nat × Bytes) := [(2, lit "15"), (1, lit "15")]
def secondReps : List (Nat × Bytes) := [(2, lit "05"), (1, lit "5")]
def monthReps : List (Nat × Bytes) :=
  [(5, lit "Jan"), (4, lit "January"), (3, lit "Jan"), (2, lit "01"), (1, lit "1")]
def dayReps : List (Nat × Bytes) := [(4, lit "Monday"), (3, lit "Mon"), (2, lit "02"), (1, lit "2")]
def yearReps : List (Nat × Bytes) := [(4, lit "2006"), (2, lit "06")]

theorem dateReps_stages (s : Bytes) :
    (dateReps (lit "15") (lit "15")).foldl (fun s r => replaceOnce r.1 r.2 s) s =
      runReps 121 yearReps (runReps 100 dayReps (runReps 109 monthReps (runReps 115 secondReps (runReps 104 hourReps s)))) := by
  have : dateReps (lit "15") (lit "15") = hourReps.map (fun r => (List.replicate r.1 104, r.2)) ++
      (secondReps.map (fun r => (List.replicate r.1 115, r.2)) ++ (monthReps.map (fun r => (List.replicate r.1 109, r.2)) ++
      (dayReps.map (fun r => (List.replicate r.1 100, r.2)) ++ yearReps.map (fun r => (List.replicate r.1 121, r.2))))) := by
    decide +kernel
  rw [this]
  simp only [List.foldl_append, List.foldl_map]
  rfl

theorem hour_stage (a : Bytes) (l : List (DateField × DateSep)) (ha : 104 ∉ a) (hn : (l.map (fun p => p.1.kind)).Nodup)
    (hs : ∀ p ∈ l, 104 ∉ p.2.text) (hp : ∀ p ∈ l, p.1.Plain) :
    runReps 104 hourReps (a ++ stageText [.minute] l) = a ++ stageText [.hour, .minute] l := by
  refine stage_step _ 104 .hour [.minute] (by decide) (fun s h => runReps_free 104 _ s (by decide) h) ?_
    (by decide +kernel) a l ha hn hs hp
  intro f a b hf hk ha hb
  cases f with
  | hour two =>
    cases two
    · exact runReps_run 104 1 (lit "15") a b ha hb (by decide +kernel) [(2, lit "15")] [] (by decide) (by decide) (by decide)
    · exact runReps_run 104 2 (lit "15") a b ha hb (by decide +kernel) [] [(1, lit "15")] (by decide) (by decide) (by decide)
  | _ => cases hk

theorem second_stage (a : Bytes) (l : List (DateField × DateSep)) (ha : 115 ∉ a) (hn : (l.map (fun p => p.1.kind)).Nodup)
    (hs : ∀ p ∈ l, 115 ∉ p.2.text) (hp : ∀ p ∈ l, p.1.Plain) :
    runReps 115 secondReps (a ++ stageText [.hour, .minute] l) = a ++ stageText [.second, .hour, .minute] l := by
  refine stage_step _ 115 .second [.hour, .minute] (by decide) (fun s h => runReps_free 115 _ s (by decide) h) ?_
    (by decide +kernel) a l ha hn hs hp
  intro f a b hf hk ha hb
  cases f with
  | second two =>
    cases two
    · exact runReps_run 115 1 (lit "5") a b ha hb (by decide +kernel) [(2, lit "05")] [] (by decide) (by decide) (by decide)
    · exact runReps_run 115 2 (lit "05") a b ha hb (by decide +kernel) [] [(1, lit "5")] (by decide) (by decide) (by decide)
  | _ => cases hk

theorem month_stage (a : Bytes) (l : List (DateField × DateSep)) (ha : 109 ∉ a) (hn : (l.map (fun p => p.1.kind)).Nodup)
    (hs : ∀ p ∈ l, 109 ∉ p.2.text) (hp : ∀ p ∈ l, p.1.Plain) :
    runReps 109 monthReps (a ++ stageText [.second, .hour, .minute] l) =
      a ++ stageText [.month, .second, .hour, .minute] l := by
  refine stage_step _ 109 .month [.second, .hour, .minute] (by decide) (fun s h => runReps_free 109 _ s (by decide) h) ?_
    (by decide +kernel) a l ha hn hs hp
  intro f a b hf hk ha hb
  have key : ∀ (j : Nat) (new : Bytes) (pre post : List (Nat × Bytes)), monthReps = pre ++ (j, new) :: post →
      (∀ r ∈ pre, j < r.1) → 0 < j → (∀ r ∈ post, 0 < r.1) → 109 ∉ new →
      runReps 109 monthReps (a ++ List.replicate j 109 ++ b) = a ++ new ++ b := by
    intro j new pre post e h1 h2 h3 h4
    rw [e]
    exact runReps_run 109 j new a b ha hb h4 pre post h1 h2 h3
  cases f with
  | month n =>
    have hn : n = 1 ∨ n = 2 ∨ n = 3 ∨ n = 4 ∨ n = 5 := by
      simp [plainFields] at hf
      omega
    rcases hn with rfl | rfl | rfl | rfl | rfl
    · exact key 1 (lit "1") (monthReps.take 4) [] rfl (by decide) (by decide) (by decide) (by decide +kernel)
    · exact key 2 (lit "01") (monthReps.take 3) (monthReps.drop 4) rfl (by decide) (by decide) (by decide) (by decide +kernel)
    · exact key 3 (lit "Jan") (monthReps.take 2) (monthReps.drop 3) rfl (by decide) (by decide) (by decide) (by decide +kernel)
    · exact key 4 (lit "January") (monthReps.take 1) (monthReps.drop 2) rfl (by decide) (by decide) (by decide) (by decide +kernel)
    · exact key 5 (lit "Jan") [] (monthReps.drop 1) rfl (by decide) (by decide) (by decide) (by decide +kernel)
  | _ => cases hk

theorem day_stage (a : Bytes) (l : List (DateField × DateSep)) (ha : 100 ∉ a) (hn : (l.map (fun p => p.1.kind)).Nodup)
    (hs : ∀ p ∈ l, 100 ∉ p.2.text) (hp : ∀ p ∈ l, p.1.Plain) :
    runReps 100 dayReps (a ++ stageText [.month, .second, .hour, .minute] l) =
      a ++ stageText [.day, .month, .second, .hour, .minute] l := by
  refine stage_step _ 100 .day [.month, .second, .hour, .minute] (by decide)
    (fun s h => runReps_free 100 _ s (by decide) h) ?_ (by decide +kernel) a l ha hn hs hp
  intro f a b hf hk ha hb
  have key : ∀ (j : Nat) (new : Bytes) (pre post : List (Nat × Bytes)), dayReps = pre ++ (j, new) :: post →
      (∀ r ∈ pre, j < r.1) → 0 < j → (∀ r ∈ post, 0 < r.1) → 100 ∉ new →
      runReps 100 dayReps (a ++ List.replicate j 100 ++ b) = a ++ new ++ b := by
    intro j new pre post e h1 h2 h3 h4
    rw [e]
    exact runReps_run 100 j new a b ha hb h4 pre post h1 h2 h3
  cases f with
  | day n =>
    have hn : n = 1 ∨ n = 2 ∨ n = 3 := by
      simp [plainFields] at hf
      omega
    rcases hn with rfl | rfl | rfl
    · exact key 1 (lit "2") (dayReps.take 3) [] rfl (by decide) (by decide) (by decide) (by decide +kernel)
    · exact key 2 (lit "02") (dayReps.take 2) (dayReps.drop 3) rfl (by decide) (by decide) (by decide) (by decide +kernel)
    · exact key 3 (lit "Mon") (dayReps.take 1) (dayReps.drop 2) rfl (by decide) (by decide) (by decide) (by decide +kernel)
  | _ => cases hk

/-- The kinds replaced before the year. -/
def beforeYear : List DateKind := [.day, .month, .second, .hour, .minute]

theorem good_stage : ∀ f ∈ plainFields, f.kind ≠ .year → sparse 121 (stage beforeYear f) = true ∧
    (stage beforeYear f).head? ≠ some 121 := by decide +kernel

theorem last_stage : ∀ f ∈ plainFields, f.kind ≠ .year → f ≠ .month 4 →
    (stage beforeYear f).getLast? ≠ some 121 ∧ stage beforeYear f ≠ [] := by decide +kernel

theorem good_stageText (l : List (DateField × DateSep)) (hs : ∀ p ∈ l, 121 ∉ p.2.text) (hp : ∀ p ∈ l, p.1.Plain)
    (hk : ∀ p ∈ l, p.1.kind ≠ .year) : Good 121 (stageText beforeYear l) := by
  induction l with
  | nil => exact good_free (by simp [stageText])
  | cons p l ih =>
    rw [stageText_cons]
    refine Good.append (Good.append (good_stage p.1 (plain_mem (hp p (by simp))) (hk p (by simp))) (good_free ?_))
      (ih (fun q hq => hs q (by simp [hq])) (fun q hq => hp q (by simp [hq])) (fun q hq => hk q (by simp [hq])))
    intro h
    rcases sepCode_mem h with h | h
    · exact absurd h (by decide)
    · exact hs p (by simp) h

theorem getLast_app (x : Bytes) {y : Bytes} (h : y ≠ []) : (x ++ y).getLast? = y.getLast? := by
  rw [List.getLast?_append]
  cases hy : y.getLast? with
  | none => exact absurd (List.getLast?_eq_none_iff.1 hy) h
  | some b => rfl

theorem getLast_append_ne {L : UInt8} {x y : Bytes} (hy : L ∉ y) (h : y = [] → x.getLast? ≠ some L) :
    (x ++ y).getLast? ≠ some L := by
  by_cases e : y = []
  · subst e; rw [List.append_nil]; exact h rfl
  · rw [getLast_app _ e]
    intro hl
    exact hy (List.mem_of_getLast? hl)

theorem year_stage (a : Bytes) (l : List (DateField × DateSep)) (ha : 121 ∉ a) (hn : (l.map (fun p => p.1.kind)).Nodup)
    (hs : ∀ p ∈ l, 121 ∉ p.2.text) (hp : ∀ p ∈ l, p.1.Plain)
    (hm : ∀ l₁ s y t r, l = l₁ ++ (.month 4, s) :: (.year y, t) :: r → s.text ≠ []) :
    runReps 121 yearReps (a ++ stageText beforeYear l) = a ++ stageText (.year :: beforeYear) l := by
  by_cases hk : DateKind.year ∈ l.map (fun p => p.1.kind)
  · obtain ⟨p, hpm, hpk⟩ := List.mem_map.1 hk
    obtain ⟨l1, l2, rfl⟩ := List.append_of_mem hpm
    rw [List.map_append, List.map_cons, List.nodup_append, List.nodup_cons] at hn
    obtain ⟨n1, ⟨n2, n3⟩, n4⟩ := hn
    have k1 : ∀ q ∈ l1, q.1.kind ≠ .year := fun q hq e => n4 q.1.kind (List.mem_map.2 ⟨q, hq, rfl⟩) p.1.kind (by simp) (by rw [e, hpk])
    have k2 : ∀ q ∈ l2, q.1.kind ≠ .year := fun q hq e => n2 (List.mem_map.2 ⟨q, hq, by rw [e, hpk]⟩)
    obtain ⟨f, sep⟩ := p
    have hsep : 121 ∉ sep.code := by
      intro h
      rcases sepCode_mem h with h | h
      · exact absurd h (by decide)
      · exact hs (f, sep) (by simp) h
    have gA : Good 121 (a ++ stageText beforeYear l1) := (good_free ha).append
      (good_stageText l1 (fun q hq => hs q (by simp [hq])) (fun q hq => hp q (by simp [hq])) k1)
    have gB : Good 121 (sep.code ++ stageText beforeYear l2) := (good_free hsep).append
      (good_stageText l2 (fun q hq => hs q (by simp [hq])) (fun q hq => hp q (by simp [hq])) k2)
    have lA : (a ++ stageText beforeYear l1).getLast? ≠ some 121 := by
      rcases List.eq_nil_or_concat l1 with rfl | ⟨l0, q, rfl⟩
      · simp only [stageText, List.flatMap_nil, List.append_nil]
        intro h
        exact ha (List.mem_of_getLast? h)
      · rw [List.concat_eq_append, stageText_append, stageText_cons]
        simp only [stageText, List.flatMap_nil, List.append_nil]
        rw [← List.append_assoc, ← List.append_assoc]
        have hq : 121 ∉ q.2.code := by
          intro h
          rcases sepCode_mem h with h | h
          · exact absurd h (by decide)
          · exact hs q (by simp) h
        refine getLast_append_ne hq (fun he => ?_)
        have hne : q.1 ≠ .month 4 := by
          intro e
          obtain ⟨q1, q2⟩ := q
          subst e
          cases f with
          | year y =>
            refine hm l0 q2 y sep l2 (by simp) ?_
            cases q2 with
            | bare t => exact he
            | quoted t =>
              simp only [DateSep.code, quoted] at he
              simp only [DateSep.text]
              by_contra hne
              rw [if_neg hne] at he
              simp at he
          | _ => cases hpk
        obtain ⟨z1, z2⟩ := last_stage q.1 (plain_mem (hp q (by simp))) (k1 q (by simp)) hne
        rw [getLast_app _ z2]
        exact z1
    rw [stageText_append, stageText_cons, stageText_append, stageText_cons,
      ← stageText_congr (ks := beforeYear) (ks' := .year :: beforeYear) (l := l1) (fun q hq => (stage_of_kind (k1 q hq)).symm),
      ← stageText_congr (ks := beforeYear) (ks' := .year :: beforeYear) (l := l2) (fun q hq => (stage_of_kind (k2 q hq)).symm)]
    have e1 : ∀ x : Bytes, a ++ (stageText beforeYear l1 ++ (x ++ sep.code ++ stageText beforeYear l2)) =
        (a ++ stageText beforeYear l1) ++ (x ++ (sep.code ++ stageText beforeYear l2)) := by
      intro x; simp
    rw [e1, e1]
    generalize a ++ stageText beforeYear l1 = A at gA lA
    generalize sep.code ++ stageText beforeYear l2 = B at gB
    cases f with
    | year four =>
      unfold runReps yearReps
      simp only [List.foldl_cons, List.foldl_nil]
      cases four
      · change replaceOnce (List.replicate 2 121) (lit "06") (replaceOnce (List.replicate 4 121) (lit "2006")
          (A ++ (List.replicate 2 121 ++ B))) = A ++ (lit "06" ++ B)
        rw [replaceOnce_skip_sparse 121 _ _ (by omega) A gA.1 lA, replaceOnce_short 121 _ B 4 gB.2 2 (by omega),
          replaceOnce_sparse 121 _ (by omega) B gB.1, replaceOnce_skip_sparse 121 _ _ (by omega) A gA.1 lA,
          replaceOnce_hit 121 _ B (by omega)]
      · change replaceOnce (List.replicate 2 121) (lit "06") (replaceOnce (List.replicate 4 121) (lit "2006")
          (A ++ (List.replicate 4 121 ++ B))) = A ++ (lit "2006" ++ B)
        rw [replaceOnce_skip_sparse 121 _ _ (by omega) A gA.1 lA, replaceOnce_hit 121 _ B (by omega),
          replaceOnce_skip_sparse 121 _ _ (by omega) A gA.1 lA, replaceOnce_skip 121 _ (by omega) B (lit "2006") (by decide +kernel),
          replaceOnce_sparse 121 _ (by omega) B gB.1]
    | _ => cases hpk
  · have hne : ∀ q ∈ l, q.1.kind ≠ .year := fun q hq e => hk (List.mem_map.2 ⟨q, hq, e⟩)
    rw [← stageText_congr (ks := beforeYear) (ks' := .year :: beforeYear) (l := l) (fun q hq => (stage_of_kind (hne q hq)).symm)]
    have g : Good 121 (a ++ stageText beforeYear l) := (good_free ha).append (good_stageText l hs hp hne)
    unfold runReps yearReps
    simp only [List.foldl_cons, List.foldl_nil]
    rw [replaceOnce_sparse 121 _ (by omega) _ g.1, replaceOnce_sparse 121 _ (by omega) _ g.1]

/-! ### Minutes -/

theorem mem_plainSep {s : DateSep} (h : PlainSep s) {b : UInt8} (hb : b ∈ s.code) :
    b ≠ 121 ∧ b ≠ 109 ∧ b ≠ 100 ∧ b ≠ 104 ∧ b ≠ 115 ∧ b ≠ 91 ∧ b ≠ 59 ∧ b ≠ 92 ∧ b ≠ 42 ∧ b ≠ 95 ∧ b ≠ 10 ∧ b ≠ 77 := by
  rcases sepCode_mem hb with rfl | hb
  · decide
  · have := h b hb
    tauto

/-- Splitting a list along a splitting of its image. -/
theorem split_map {α β : Type} (g : α → β) : ∀ (l : List α) (k1 : List β) (k : β) (k2 : List β),
    l.map g = k1 ++ k :: k2 → ∃ l1 x l2, l = l1 ++ x :: l2 ∧ l1.map g = k1 ∧ g x = k ∧ l2.map g = k2 := by
  intro l k1 k k2 h
  obtain ⟨l1, r, rfl, h1, h2⟩ := List.map_eq_append_iff.1 h
  obtain ⟨x, l2, rfl, h3, h4⟩ := List.map_eq_cons_iff.1 h2
  exact ⟨l1, x, l2, rfl, h1, h3, h4⟩

theorem stage_nil (f : DateField) : stage [] f = f.code := by
  unfold stage
  simp

theorem code_free : ∀ f ∈ plainFields, (f.kind ≠ .hour → 104 ∉ stage [] f) ∧ (f.kind ≠ .second → 115 ∉ stage [] f) ∧
    (f.kind ≠ .month → f.kind ≠ .minute → 109 ∉ stage [] f) ∧ 10 ∉ stage [] f ∧ 77 ∉ stage [.minute] f ∧ 34 ∉ stage [] f ∧
    stage [] f ≠ [] := by
  decide +kernel

/-- The text of separators and fields of other kinds does not contain a letter. -/
theorem text_free {L : UInt8} {ks : List DateKind} {l : List (DateField × DateSep)}
    (hL : L = 109 ∨ L = 104 ∨ L = 115 ∨ L = 10 ∨ L = 77)
    (hs : ∀ p ∈ l, PlainSep p.2) (hf : ∀ p ∈ l, L ∉ stage ks p.1) : L ∉ stageText ks l := by
  refine stageText_free ?_ (fun p hp h => ?_) hf
  · rcases hL with rfl | rfl | rfl | rfl | rfl <;> decide
  · have := hs p hp L h
    rcases hL with rfl | rfl | rfl | rfl | rfl <;> simp at this

/-- The first step of `dateLayout`. -/
def minsStep (s : Bytes) : Bytes :=
  match minsSplit s with
  | none => s
  | some (p, i, q) => p ++ replaceOnce (lit "m") (lit "4") (replaceOnce (lit "mm") (lit "04") i) ++ q

theorem minute_none (a : Bytes) (l : List (DateField × DateSep)) (ha : ∀ L : UInt8, L = 109 ∨ L = 104 ∨ L = 115 → L ∉ a)
    (hs : ∀ p ∈ l, PlainSep p.2) (hp : ∀ p ∈ l, p.1.Plain) (h1 : ∀ p ∈ l, p.1.kind ≠ .minute)
    (h2 : (∀ p ∈ l, p.1.kind ≠ .hour) ∨ (∀ p ∈ l, p.1.kind ≠ .month) ∨ (∀ p ∈ l, p.1.kind ≠ .second)) :
    minsStep (a ++ stageText [] l) = a ++ stageText [.minute] l := by
  rw [← stageText_congr (ks := []) (ks' := [.minute]) (l := l) (fun q hq => (stage_of_kind (h1 q hq)).symm)]
  unfold minsStep
  rw [minsSplit_none]
  rcases h2 with h | h | h
  · refine .inl ?_
    simp only [List.mem_append, not_or]
    exact ⟨ha 104 (by simp), text_free (by simp) hs (fun p hm => (code_free p.1 (plain_mem (hp p hm))).1 (h p hm))⟩
  · refine .inr (.inl ?_)
    simp only [List.mem_append, not_or]
    exact ⟨ha 109 (by simp), text_free (by simp) hs
      (fun p hm => (code_free p.1 (plain_mem (hp p hm))).2.2.1 (h p hm) (h1 p hm))⟩
  · refine .inr (.inr ?_)
    simp only [List.mem_append, not_or]
    exact ⟨ha 115 (by simp), text_free (by simp) hs (fun p hm => (code_free p.1 (plain_mem (hp p hm))).2.1 (h p hm))⟩

theorem minute_reps (m : Bool) (a b : Bytes) (ha : 109 ∉ a) (hb : 109 ∉ b) :
    replaceOnce (lit "m") (lit "4") (replaceOnce (lit "mm") (lit "04") (a ++ (DateField.minute m).code ++ b)) =
      a ++ (DateField.minute m).layout ++ b := by
  have e1 : lit "m" = List.replicate 1 109 := by decide +kernel
  have e2 : lit "mm" = List.replicate 2 109 := by decide +kernel
  rw [e1, e2]
  cases m
  · exact runReps_run 109 1 (lit "4") a b ha hb (by decide +kernel) [(2, lit "04")] [] (by decide) (by decide) (by decide)
  · exact runReps_run 109 2 (lit "04") a b ha hb (by decide +kernel) [] [(1, lit "4")] (by decide) (by decide) (by decide)

theorem minute_some (a : Bytes) (l1 l2 l3 l4 : List (DateField × DateSep)) (h m s : Bool) (sh sm ss : DateSep)
    (ha : ∀ L : UInt8, L = 104 ∨ L = 10 → L ∉ a)
    (hs : ∀ p ∈ l1 ++ (.hour h, sh) :: (l2 ++ (.minute m, sm) :: (l3 ++ (.second s, ss) :: l4)), PlainSep p.2)
    (hp : ∀ p ∈ l1 ++ (.hour h, sh) :: (l2 ++ (.minute m, sm) :: (l3 ++ (.second s, ss) :: l4)), p.1.Plain)
    (h1 : ∀ p ∈ l1, p.1.kind ≠ .hour) (h4 : ∀ p ∈ l4, p.1.kind ≠ .second)
    (h2 : ∀ p ∈ l2, p.1.kind ≠ .month) (h3 : ∀ p ∈ l3, p.1.kind ≠ .month)
    (hmin : ∀ p ∈ l1 ++ l2 ++ l3 ++ l4, p.1.kind ≠ .minute) :
    minsStep (a ++ stageText [] (l1 ++ (.hour h, sh) :: (l2 ++ (.minute m, sm) :: (l3 ++ (.second s, ss) :: l4)))) =
      a ++ stageText [.minute] (l1 ++ (.hour h, sh) :: (l2 ++ (.minute m, sm) :: (l3 ++ (.second s, ss) :: l4))) := by
  simp only [List.mem_append, List.mem_cons] at hs hp hmin
  have hc : ∀ (l : List (DateField × DateSep)), (∀ p ∈ l, p.1.kind ≠ .minute) → stageText [.minute] l = stageText [] l :=
    fun l hl => (stageText_congr (fun q hq => (stage_of_kind (hl q hq)).symm)).symm
  have no10 : ∀ l : List (DateField × DateSep), (∀ p ∈ l, PlainSep p.2 ∧ p.1.Plain) → 10 ∉ stageText [] l :=
    fun l hl => text_free (by simp) (fun p hm => (hl p hm).1) (fun p hm => (code_free p.1 (plain_mem (hl p hm).2)).2.2.2.1)
  have no10s : ∀ t : DateSep, PlainSep t → 10 ∉ t.code := fun t ht hm => by
    have := mem_plainSep ht hm
    simp at this
  have no109s : ∀ t : DateSep, PlainSep t → 109 ∉ t.code := fun t ht hm => by
    have := mem_plainSep ht hm
    simp at this
  have no115s : ∀ t : DateSep, PlainSep t → 115 ∉ t.code := fun t ht hm => by
    have := mem_plainSep ht hm
    simp at this
  -- the hour without its first letter, the second without its last letter
  obtain ⟨hr, ehr, hr10, hr109⟩ : ∃ r : Bytes, (DateField.hour h).code = 104 :: r ∧ 10 ∉ r ∧ 109 ∉ r := by
    cases h
    · exact ⟨[], rfl, by decide, by decide⟩
    · exact ⟨[104], rfl, by decide, by decide⟩
  obtain ⟨mr, emr, mr10⟩ : ∃ r : Bytes, (DateField.minute m).code = 109 :: r ∧ 10 ∉ r := by
    cases m
    · exact ⟨[], rfl, by decide⟩
    · exact ⟨[109], rfl, by decide⟩
  obtain ⟨sr, esr, sr10, sr109⟩ : ∃ r : Bytes, (DateField.second s).code = r ++ [115] ∧ 10 ∉ r ∧ 109 ∉ r := by
    cases s
    · exact ⟨[], rfl, by decide, by decide⟩
    · exact ⟨[115], rfl, by decide, by decide⟩
  have psh := hs (.hour h, sh) (by simp)
  have psm := hs (.minute m, sm) (by simp)
  have pss := hs (.second s, ss) (by simp)
  have q2 : ∀ p ∈ l2, PlainSep p.2 ∧ p.1.Plain := fun p hm => ⟨hs p (by simp [hm]), hp p (by simp [hm])⟩
  have q3 : ∀ p ∈ l3, PlainSep p.2 ∧ p.1.Plain := fun p hm => ⟨hs p (by simp [hm]), hp p (by simp [hm])⟩
  have q4 : ∀ p ∈ l4, PlainSep p.2 ∧ p.1.Plain := fun p hm => ⟨hs p (by simp [hm]), hp p (by simp [hm])⟩
  have n2 : 109 ∉ stageText [] l2 := text_free (by simp) (fun p hm => (q2 p hm).1)
    (fun p hm => (code_free p.1 (plain_mem (q2 p hm).2)).2.2.1 (h2 p hm) (hmin p (by simp [hm])))
  have n3 : 109 ∉ stageText [] l3 := text_free (by simp) (fun p hm => (q3 p hm).1)
    (fun p hm => (code_free p.1 (plain_mem (q3 p hm).2)).2.2.1 (h3 p hm) (hmin p (by simp [hm])))
  have n4 : 115 ∉ stageText [] l4 := text_free (by simp) (fun p hm => (q4 p hm).1)
    (fun p hm => (code_free p.1 (plain_mem (q4 p hm).2)).2.1 (h4 p hm))
  have nP : 104 ∉ a ++ stageText [] l1 := by
    simp only [List.mem_append, not_or]
    exact ⟨ha 104 (by simp), text_free (by simp) (fun p hm => hs p (by simp [hm]))
      (fun p hm => (code_free p.1 (plain_mem (hp p (by simp [hm])))).1 (h1 p hm))⟩
  have key := minsSplit_at (hr ++ (sh.code ++ stageText [] l2)) (mr ++ (sm.code ++ (stageText [] l3 ++ sr)))
    (ss.code ++ stageText [] l4)
    (by simp only [List.mem_append, not_or]; exact ⟨hr10, no10s _ psh, no10 _ q2⟩)
    (by simp only [List.mem_append, not_or]; exact ⟨mr10, no10s _ psm, no10 _ q3, sr10⟩)
    (by simp only [List.mem_append, not_or]; exact ⟨no10s _ pss, no10 _ q4⟩)
    (by simp only [List.mem_append, not_or]; exact ⟨no115s _ pss, n4⟩) _ nP
  have e0 : a ++ stageText [] (l1 ++ (.hour h, sh) :: (l2 ++ (.minute m, sm) :: (l3 ++ (.second s, ss) :: l4))) =
      (a ++ stageText [] l1) ++ 104 :: ((hr ++ (sh.code ++ stageText [] l2)) ++ 109 ::
        ((mr ++ (sm.code ++ (stageText [] l3 ++ sr))) ++ 115 :: (ss.code ++ stageText [] l4))) := by
    simp only [stageText_append, stageText_cons, stage_nil, ehr, emr, esr]
    simp
  rw [e0]
  unfold minsStep
  rw [key]
  simp only
  have e1 : 104 :: ((hr ++ (sh.code ++ stageText [] l2)) ++ 109 :: ((mr ++ (sm.code ++ (stageText [] l3 ++ sr))) ++ [115])) =
      (104 :: (hr ++ (sh.code ++ stageText [] l2))) ++ (DateField.minute m).code ++
        (sm.code ++ (stageText [] l3 ++ (sr ++ [115]))) := by
    rw [emr]
    simp
  rw [e1, minute_reps m]
  · simp only [stageText_append, stageText_cons, hc l1 (fun p hm => hmin p (by simp [hm])),
      hc l2 (fun p hm => hmin p (by simp [hm])), hc l3 (fun p hm => hmin p (by simp [hm])),
      hc l4 (fun p hm => hmin p (by simp [hm]))]
    have x1 : stage [.minute] (.hour h) = 104 :: hr := by rw [← ehr]; rfl
    have x2 : stage [.minute] (.second s) = sr ++ [115] := by rw [← esr]; rfl
    have x3 : stage [.minute] (.minute m) = (DateField.minute m).layout := rfl
    rw [x1, x2, x3]
    simp
  · simp only [List.mem_cons, List.mem_append, not_or]
    exact ⟨by decide, hr109, no109s _ psh, n2⟩
  · simp only [List.mem_cons, List.mem_append, not_or]
    exact ⟨no109s _ psm, n3, sr109, by decide, by simp⟩

/-! ### Text -/

theorem layout_plain : ∀ f ∈ plainFields, (∀ b ∈ f.layout, b ≠ 34 ∧ b ≠ 42 ∧ b ≠ 95 ∧ b ≠ 92) ∧ f.layout ≠ [] := by
  decide +kernel

theorem unquote_stage : ∀ (l : List (DateField × DateSep)) (_hs : ∀ p ∈ l, PlainSep p.2) (_hp : ∀ p ∈ l, p.1.Plain) (q : Bool),
    unquoteGo q (l.flatMap (fun p => p.1.layout ++ p.2.code)) = l.flatMap (fun p => p.1.layout ++ p.2.text)
  | [], _, _, _ => by cases ‹Bool› <;> rfl
  | (f, s) :: l, hs, hp, q => by
    have ih := unquote_stage l (fun p hm => hs p (by simp [hm])) (fun p hm => hp p (by simp [hm]))
    obtain ⟨h1, h2⟩ := layout_plain f (plain_mem (hp (f, s) (by simp)))
    rw [List.flatMap_cons, List.flatMap_cons, List.append_assoc, unquoteGo_append _ _ (fun b hb => (h1 b hb).1) q h2,
      List.append_assoc]
    congr 1
    exact unquote_sep s _ _ (hs (f, s) (by simp)) ih
where
  unquote_sep (s : DateSep) (r t : Bytes) (hs : PlainSep s) (h : ∀ q, unquoteGo q r = t) :
      unquoteGo false (s.code ++ r) = s.text ++ t := by
    have h34 : ∀ b ∈ s.text, b ≠ 34 := fun b hb => (hs b hb).2.2.2.2.2.1
    cases s with
    | bare u =>
      by_cases hu : u = []
      · subst hu
        exact h false
      · rw [← h false]
        exact unquoteGo_append u r h34 false hu
    | quoted u =>
      rw [← h false]
      exact unquoteGo_quoted u r h34 (fun q => by rw [h, h])

theorem dropSpans_sep (s : DateSep) (r : Bytes) (hs : PlainSep s) :
    ∃ x, dropSpansGo 34 34 none (s.code ++ r) = x ++ dropSpansGo 34 34 none r := by
  have h34 : ∀ b ∈ s.text, b ≠ 34 := fun b hb => (hs b hb).2.2.2.2.2.1
  cases s with
  | bare u => exact ⟨u, dropSpansGo_append 34 34 u r h34⟩
  | quoted u => exact ⟨[], dropQuoted u r h34⟩

theorem code_letters : ∀ f ∈ plainFields, (∀ b ∈ f.code, (lit "ymdhs").contains b = true ∧ b ≠ 34 ∧ b ≠ 91 ∧ b ≠ 59) ∧
    f.code ≠ [] := by decide +kernel

/-- The compiler on a readable date format. -/
theorem makeFormatter_date (c : DateCode) (hc : c.Readable) : makeFormatter c.text = (.time c.layout, .date) := by
  have etext : c.text = c.first.code ++ stageText [] c.rest := by
    unfold DateCode.text DateCode.render stageText
    simp [stage_nil]
  have hbytes : ∀ b ∈ c.text, b ≠ 91 ∧ b ≠ 59 := by
    intro b hb
    rw [etext] at hb
    rcases List.mem_append.1 hb with hb | hb
    · have := mem_plainSep hc.first_sep hb
      tauto
    · unfold stageText at hb
      obtain ⟨p, hp, hb⟩ := List.mem_flatMap.1 hb
      rcases List.mem_append.1 hb with hb | hb
      · rw [stage_nil] at hb
        exact ((code_letters p.1 (plain_mem (hc.fields p hp))).1 b hb).2.2
      · have := mem_plainSep (hc.seps p hp) hb
        tauto
  have h91 : dropSpans 91 93 c.text = c.text := dropSpansGo_id 91 93 _ (fun b hb => (hbytes b hb).1)
  have h59 : c.text.contains 59 = false := by
    rw [Bool.eq_false_iff]
    intro h
    exact (hbytes 59 (List.contains_iff_mem.1 h)).2 rfl
  have hdate : hasAny (lit "ymdhs") (dropSpans 34 34 c.text) = true := by
    rw [etext]
    unfold dropSpans
    obtain ⟨x, hx⟩ := dropSpans_sep c.first (stageText [] c.rest) hc.first_sep
    rw [hx]
    cases hr : c.rest with
    | nil => exact absurd hr hc.some_field
    | cons p l =>
      obtain ⟨k1, k2⟩ := code_letters p.1 (plain_mem (hc.fields p (by rw [hr]; simp)))
      rw [stageText_cons, stage_nil, List.append_assoc, dropSpansGo_append 34 34 p.1.code _ (fun b hb => (k1 b hb).2.1)]
      cases hcode : p.1.code with
      | nil => exact absurd hcode k2
      | cons b bs => exact hasAny_true (b := b) (by simp) (k1 b (by rw [hcode]; simp)).1
  have hfirst : ∀ L : UInt8, L = 121 ∨ L = 109 ∨ L = 100 ∨ L = 104 ∨ L = 115 ∨ L = 10 ∨ L = 77 → L ∉ c.first.code := by
    intro L hL hm
    have := mem_plainSep hc.first_sep hm
    rcases hL with rfl | rfl | rfl | rfl | rfl | rfl | rfl <;> simp at this
  have hseps : ∀ L : UInt8, L = 121 ∨ L = 109 ∨ L = 100 ∨ L = 104 ∨ L = 115 → ∀ p ∈ c.rest, L ∉ p.2.text := by
    intro L hL p hp hm
    have := hc.seps p hp L hm
    rcases hL with rfl | rfl | rfl | rfl | rfl <;> simp at this
  have hnd : (c.rest.map (fun p => p.1.kind)).Nodup := hc.nodup
  -- the minutes
  have hmins : minsStep c.text = c.first.code ++ stageText [.minute] c.rest := by
    rw [etext]
    rcases hc.minutes with ⟨m1, m2⟩ | ⟨k1, k2, k3, k4, e, m2, m3⟩
    · refine minute_none _ _ (fun L hL => hfirst L (by tauto)) hc.seps hc.fields
        (fun p hp e => m1 (List.mem_map.2 ⟨p, hp, e⟩)) ?_
      rcases m2 with h | h | h
      · exact .inl (fun p hp e => h (List.mem_map.2 ⟨p, hp, e⟩))
      · exact .inr (.inl (fun p hp e => h (List.mem_map.2 ⟨p, hp, e⟩)))
      · exact .inr (.inr (fun p hp e => h (List.mem_map.2 ⟨p, hp, e⟩)))
    · have hn := hc.nodup
      rw [e] at hn
      unfold DateCode.kinds at e
      have e' : c.rest.map (fun p => p.1.kind) = k1 ++ DateKind.hour :: (k2 ++ DateKind.minute :: (k3 ++ DateKind.second :: k4)) := by
        rw [e]; simp
      obtain ⟨l1, ⟨fh, sh⟩, r1, hr1, e1, ekh, er1⟩ := split_map _ _ _ _ _ e'
      obtain ⟨l2, ⟨fm, sm⟩, r2, rfl, e2, ekm, er2⟩ := split_map _ _ _ _ _ er1
      obtain ⟨l3, ⟨fs, ss⟩, l4, rfl, e3, eks, e4⟩ := split_map _ _ _ _ _ er2
      have hs := hc.seps
      have hp := hc.fields
      rw [hr1] at hs hp ⊢
      cases fh with
      | hour h =>
        cases fm with
        | minute m =>
          cases fs with
          | second s =>
            simp only [List.append_assoc, List.cons_append] at hn
            have hn' := hn
            simp only [List.nodup_append, List.nodup_cons, List.mem_append, List.mem_cons, not_or] at hn'
            obtain ⟨-, ⟨⟨a1, -, a2, -, a3⟩, -, ⟨⟨b1, -, b2⟩, -, ⟨c1, -⟩, d1⟩, d2⟩, d3⟩ := hn'
            have mem : ∀ {l : List (DateField × DateSep)} {k : List DateKind}, l.map (fun p => p.1.kind) = k →
                ∀ p ∈ l, p.1.kind ∈ k := by
              rintro l k rfl p hp
              exact List.mem_map.2 ⟨p, hp, rfl⟩
            refine minute_some _ l1 l2 l3 l4 h m s sh sm ss (fun L hL => hfirst L (by tauto)) hs hp ?_ ?_ ?_ ?_ ?_
            · exact fun p hp => d3 _ (mem e1 p hp) _ (.inl rfl)
            · exact fun p hp e => c1 (e ▸ mem e4 p hp)
            · exact fun p hp e => m2 (e ▸ mem e2 p hp)
            · exact fun p hp e => m3 (e ▸ mem e3 p hp)
            · intro p hp
              simp only [List.mem_append] at hp
              rcases hp with ((hp | hp) | hp) | hp
              · exact d3 _ (mem e1 p hp) _ (.inr (.inr (.inl rfl)))
              · exact d2 _ (mem e2 p hp) _ (.inl rfl)
              · exact fun e => b1 (e ▸ mem e3 p hp)
              · exact fun e => b2 (e ▸ mem e4 p hp)
          | _ => cases eks
        | _ => cases ekm
      | _ => cases ekh
  have hno77 : 77 ∉ c.first.code ++ stageText [.minute] c.rest := by
    simp only [List.mem_append, not_or]
    exact ⟨hfirst 77 (by simp), text_free (by simp) hc.seps (fun p hp => (code_free p.1 (plain_mem (hc.fields p hp))).2.2.2.2.1)⟩
  have hall : stageText (.year :: beforeYear) c.rest = c.rest.flatMap (fun p => p.1.layout ++ p.2.code) := by
    have : ∀ f ∈ plainFields, stage (.year :: beforeYear) f = f.layout := by decide +kernel
    unfold stageText
    rw [List.flatMap_def, List.flatMap_def]
    congr 1
    exact List.map_congr_left (fun p hp => by rw [this p.1 (plain_mem (hc.fields p hp))])
  have hlayout : dateLayout c.text = c.layout := by
    unfold dateLayout
    change (let s := minsStep c.text
      let ampm := hasSub (lit "AM") s || hasSub (lit "PM") s
      let reps := if ampm then dateReps (lit "03") (lit "3") else dateReps (lit "15") (lit "15")
      cleanText (reps.foldl (fun s r => replaceOnce r.1 r.2 s) s)) = _
    rw [hmins]
    simp only [hasSub_false (old := lit "AM") (b := 77) (by decide +kernel) _ hno77,
      hasSub_false (old := lit "PM") (b := 77) (by decide +kernel) _ hno77, Bool.or_self, Bool.false_eq_true, if_false]
    rw [dateReps_stages, hour_stage _ _ (hfirst 104 (by simp)) hnd (hseps 104 (by simp)) hc.fields,
      second_stage _ _ (hfirst 115 (by simp)) hnd (hseps 115 (by simp)) hc.fields,
      month_stage _ _ (hfirst 109 (by simp)) hnd (hseps 109 (by simp)) hc.fields,
      day_stage _ _ (hfirst 100 (by simp)) hnd (hseps 100 (by simp)) hc.fields]
    change cleanText (runReps 121 yearReps (c.first.code ++ stageText beforeYear c.rest)) = _
    rw [year_stage _ _ (hfirst 121 (by simp)) hnd (hseps 121 (by simp)) hc.fields hc.full_month, hall]
    have hun : unquoteGo false (c.first.code ++ c.rest.flatMap (fun p => p.1.layout ++ p.2.code)) = c.layout :=
      unquote_stage.unquote_sep c.first _ _ hc.first_sep (unquote_stage c.rest hc.seps hc.fields)
    refine cleanText_of hun (fun b hb => ?_)
    unfold DateCode.layout DateCode.render at hb
    rcases List.mem_append.1 hb with hb | hb
    · have := hc.first_sep b hb
      tauto
    · obtain ⟨p, hp, hb⟩ := List.mem_flatMap.1 hb
      rcases List.mem_append.1 hb with hb | hb
      · have := (layout_plain p.1 (plain_mem (hc.fields p hp))).1 b hb
        tauto
      · have := hc.seps p hp b hb
        tauto
  unfold makeFormatter
  simp only [h91, h59, Bool.false_eq_true, if_false]
  unfold makeSection
  rw [hdate]
  simp only [if_true, hlayout]

end Grate
