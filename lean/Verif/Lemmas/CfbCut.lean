import Verif.Lemmas.CfbLoad
import Verif.Model.XlsStream

/-! # Lemmas about compound files that are cut off -/

namespace Grate.Cfb

open Grate

/-- The first buffer ends earlier than the second, and holds the same bytes as far as its memory goes. -/
structure Shorter (s t : Slice) : Prop where
  bytes : s.val ++ s.rest <+: t.val ++ t.rest
  len : s.val.length ≤ t.val.length

theorem prefix_drop {α : Type} {a b : List α} (h : a <+: b) (n : Nat) : a.drop n <+: b.drop n := by
  obtain ⟨c, rfl⟩ := h
  rw [List.drop_append]
  exact List.prefix_append _ _

theorem prefix_of_len {α : Type} {a b c d : List α} (h : a ++ b <+: c ++ d) (hl : a.length ≤ c.length) : a <+: c := by
  have h1 : a <+: c ++ d := (List.prefix_append a b).trans h
  exact List.prefix_of_prefix_length_le h1 (List.prefix_append c d) hl

theorem Shorter.val {s t : Slice} (h : Shorter s t) : s.val <+: t.val := prefix_of_len h.bytes h.len

theorem dropFrom_shorter {s t : Slice} (h : Shorter s t) {n : Nat} {x : Slice} (hx : s.dropFrom n = .ok x) :
    ∃ y, t.dropFrom n = .ok y ∧ Shorter x y := by
  unfold Slice.dropFrom at hx ⊢
  split at hx
  · rename_i hn
    cases hx
    have hl := h.len
    refine ⟨_, if_pos (by omega), ?_, ?_⟩
    · simp only
      have := prefix_drop h.bytes n
      rwa [List.drop_append_of_le_length hn, List.drop_append_of_le_length (by omega)] at this
    · simp only [List.length_drop]; omega
  · cases hx

theorem u32_shorter {s t : Slice} (h : Shorter s t) {v : Nat} (hx : s.u32 = .ok v) : t.u32 = .ok v := by
  unfold Slice.u32 at hx
  split at hx
  · rename_i a b c d r hs
    obtain ⟨u, hu⟩ := h.val
    unfold Slice.u32
    rw [← hu, hs]
    exact hx
  · cases hx

theorem readU32s_shorter : ∀ (n : Nat) {s t : Slice}, Shorter s t → ∀ {vs : List Nat} {x : Slice}, readU32s n s = .ok (vs, x) →
    ∃ y, readU32s n t = .ok (vs, y) ∧ Shorter x y
  | 0, s, t, h, vs, x, hx => by cases hx; exact ⟨t, rfl, h⟩
  | n + 1, s, t, h, vs, x, hx => by
    unfold readU32s at hx
    obtain ⟨v, hv, hx⟩ := GoRes.bind_eq_ok.1 hx
    obtain ⟨s', hs, hx⟩ := GoRes.bind_eq_ok.1 hx
    obtain ⟨p, hp, hx⟩ := GoRes.bind_eq_ok.1 hx
    cases hx
    obtain ⟨t', ht, h'⟩ := dropFrom_shorter h hs
    obtain ⟨y, hy, h''⟩ := readU32s_shorter n h' (vs := p.1) (x := p.2) hp
    refine ⟨y, ?_, h''⟩
    unfold readU32s
    rw [u32_shorter h hv, GoRes.ok_bind, ht, GoRes.ok_bind, hy]
    rfl

theorem readFatSector_shorter {s t : Slice} (h : Shorter s t) {shift sid : Nat} {vs : List Nat}
    (hx : readFatSector s shift sid = .ok vs) : readFatSector t shift sid = .ok vs := by
  unfold readFatSector at hx ⊢
  have hl : s.len ≤ t.len := h.len
  split at hx
  · cases hx
  · obtain ⟨s', hs, hx⟩ := GoRes.bind_eq_ok.1 hx
    obtain ⟨p, hp, hx⟩ := GoRes.bind_eq_ok.1 hx
    cases hx
    obtain ⟨t', ht, h'⟩ := dropFrom_shorter h hs
    obtain ⟨y, hy, _⟩ := readU32s_shorter _ h' (vs := p.1) (x := p.2) hp
    rw [if_neg (by omega), ht, GoRes.ok_bind, hy]
    rfl

theorem loadHeaderDifat_shorter {s t : Slice} (h : Shorter s t) {shift : Nat} : ∀ (ids : List Nat) {vs : List Nat},
    loadHeaderDifat s shift ids = .ok vs → loadHeaderDifat t shift ids = .ok vs
  | [], _, hx => hx
  | i :: ids, vs, hx => by
    unfold loadHeaderDifat at hx ⊢
    split
    · rename_i hi; rw [if_pos hi] at hx; exact hx
    · rename_i hi
      rw [if_neg hi] at hx
      obtain ⟨a, ha, hx⟩ := GoRes.bind_eq_ok.1 hx
      obtain ⟨b, hb, hx⟩ := GoRes.bind_eq_ok.1 hx
      rw [readFatSector_shorter h ha, GoRes.ok_bind, loadHeaderDifat_shorter h ids hb]
      exact hx

theorem loadDifatSector_shorter {s t : Slice} (h : Shorter s t) {shift : Nat} : ∀ (n : Nat) {u v : Slice}, Shorter u v →
    ∀ {vs : List Nat} {x : Slice}, loadDifatSector s shift n u = .ok (vs, x) →
    ∃ y, loadDifatSector t shift n v = .ok (vs, y) ∧ Shorter x y
  | 0, u, v, hu, vs, x, hx => by cases hx; exact ⟨v, rfl, hu⟩
  | n + 1, u, v, hu, vs, x, hx => by
    unfold loadDifatSector at hx
    obtain ⟨a, ha, hx⟩ := GoRes.bind_eq_ok.1 hx
    have hx : ((if a = secFree ∨ a = secEndOfChain then pure [] else readFatSector s shift a) >>= fun vs => do
        let s' ← u.dropFrom 4
        let (ws, s'') ← loadDifatSector s shift n s'
        pure (vs ++ ws, s'')) = GoRes.ok (vs, x) := by
      simp only at hx
      split at hx
      · rename_i hc; rw [if_pos hc]; exact hx
      · rename_i hc; rw [if_neg hc]; exact hx
    obtain ⟨b, hb, hx⟩ := GoRes.bind_eq_ok.1 hx
    obtain ⟨u', hu', hx⟩ := GoRes.bind_eq_ok.1 hx
    obtain ⟨p, hp, hx⟩ := GoRes.bind_eq_ok.1 hx
    cases hx
    obtain ⟨v', hv', h'⟩ := dropFrom_shorter hu hu'
    obtain ⟨y, hy, h''⟩ := loadDifatSector_shorter h n h' (vs := p.1) (x := p.2) hp
    refine ⟨y, ?_, h''⟩
    unfold loadDifatSector
    have hb' : (if a = secFree ∨ a = secEndOfChain then pure [] else readFatSector t shift a) = GoRes.ok b := by
      split
      · rename_i hc; rw [if_pos hc] at hb; exact hb
      · rename_i hc; rw [if_neg hc] at hb; exact readFatSector_shorter h hb
    rw [u32_shorter hu ha, GoRes.ok_bind]
    have : ((if a = secFree ∨ a = secEndOfChain then pure [] else readFatSector t shift a) >>= fun vs => do
        let s' ← v.dropFrom 4
        let (ws, s'') ← loadDifatSector t shift n s'
        pure (vs ++ ws, s'')) = GoRes.ok (b ++ p.1, y) := by
      rw [hb', GoRes.ok_bind, hv', GoRes.ok_bind, hy]
      rfl
    simp only
    split
    · rename_i hc; rw [if_pos hc] at this; exact this
    · rename_i hc; rw [if_neg hc] at this; exact this

theorem map_some_ok {α β : Type} {x : Option (GoRes α)} {f : α → β} {b : β}
    (h : x.map (fun r => f <$> r) = some (.ok b)) : ∃ a, x = some (.ok a) ∧ f a = b := by
  cases x with
  | none => cases h
  | some r =>
    cases r with
    | ok a => refine ⟨a, rfl, ?_⟩; simp only [Option.map_some, Option.some.injEq] at h; exact GoRes.ok.inj h
    | err e => simp only [Option.map_some, Option.some.injEq] at h; cases h
    | panic => simp only [Option.map_some, Option.some.injEq] at h; cases h

theorem difatLoop_shorter {s t : Slice} (h : Shorter s t) {shift : Nat} : ∀ (fuel sid : Nat) {vs : List Nat},
    difatLoop s shift fuel sid = some (.ok vs) → difatLoop t shift fuel sid = some (.ok vs)
  | 0, _, _, hx => by cases hx
  | fuel + 1, sid, vs, hx => by
    unfold difatLoop at hx ⊢
    split
    · rename_i hs; rw [if_pos hs] at hx; exact hx
    · rename_i hs
      rw [if_neg hs] at hx
      split at hx
      · rename_i us nxt hd
        obtain ⟨s1, h1, hd⟩ := GoRes.bind_eq_ok.1 hd
        obtain ⟨p, h2, hd⟩ := GoRes.bind_eq_ok.1 hd
        obtain ⟨n, h3, hd⟩ := GoRes.bind_eq_ok.1 hd
        obtain ⟨rfl, rfl⟩ : p.1 = us ∧ n = nxt := Prod.mk.inj (GoRes.ok.inj hd)
        obtain ⟨t1, k1, l1⟩ := dropFrom_shorter h h1
        obtain ⟨q, k2, l2⟩ := loadDifatSector_shorter h _ l1 (vs := p.1) (x := p.2) h2
        have k3 := u32_shorter l2 h3
        obtain ⟨ws, hw, he⟩ := map_some_ok hx
        have e : (do
            let s ← t.dropFrom (secOff shift sid)
            let (vs, s') ← loadDifatSector t shift (2 ^ (shift - 2) - 1) s
            let nxt ← s'.u32
            pure (vs, nxt) : GoRes (List Nat × Nat)) = .ok (p.1, n) := by
          rw [k1, GoRes.ok_bind, k2, GoRes.ok_bind]
          simp only
          rw [k3]
          rfl
        rw [e]
        simp only
        rw [difatLoop_shorter h fuel n hw]
        simp only [Option.map_some]
        exact congrArg (fun z => some (GoRes.ok z)) he
      · cases hx
      · cases hx

theorem minifatLoop_shorter {s t : Slice} (h : Shorter s t) {shift : Nat} {num : Int} : ∀ (fuel sid : Nat) (acc : List Nat)
    {vs : List Nat}, minifatLoop s shift num fuel sid acc = some (.ok vs) → minifatLoop t shift num fuel sid acc = some (.ok vs)
  | 0, _, _, _, hx => by cases hx
  | fuel + 1, sid, acc, vs, hx => by
    unfold minifatLoop at hx ⊢
    have hl : s.len ≤ t.len := h.len
    split
    · rename_i hs; rw [if_pos hs] at hx; exact hx
    · rename_i hs
      rw [if_neg hs] at hx
      split at hx
      · cases hx
      · rename_i hlen
        rw [if_neg (by omega)]
        split at hx
        · rename_i us u hd
          obtain ⟨s1, h1, hd⟩ := GoRes.bind_eq_ok.1 hd
          obtain ⟨t1, k1, l1⟩ := dropFrom_shorter h h1
          obtain ⟨v, k2, l2⟩ := readU32s_shorter _ l1 hd
          have e : (do
              let s ← t.dropFrom (secOff shift sid)
              readU32s (2 ^ (shift - 2)) s : GoRes (List Nat × Slice)) = .ok (us, v) := by
            rw [k1, GoRes.ok_bind, k2]
          rw [e]
          simp only
          split
          · rename_i hn; rw [if_pos hn] at hx; exact hx
          · rename_i hn
            rw [if_neg hn] at hx
            split at hx
            · rename_i nxt hu
              rw [u32_shorter l2 hu]
              exact minifatLoop_shorter h fuel nxt _ hx
            · cases hx
            · cases hx
        · cases hx
        · cases hx

theorem field_prefix {a b : Bytes} (h : a <+: b) {i n : Nat} (hl : i + n ≤ a.length) : field a i n = field b i n := by
  obtain ⟨c, rfl⟩ := h
  unfold field
  rw [List.drop_append_of_le_length (by omega), List.take_append_of_le_length (by rw [List.length_drop]; omega)]

theorem parseHeader_prefix {a b : Bytes} (h : a <+: b) (hl : 512 ≤ a.length) : parseHeader a = parseHeader b := by
  have hb := h.length_le
  unfold parseHeader
  rw [if_neg (by omega), if_neg (by omega)]
  have f : ∀ i n, i + n ≤ 512 → field a i n = field b i n := fun i n hi => field_prefix h (by omega)
  have hr : (a.drop 34).take 6 = (b.drop 34).take 6 := by
    obtain ⟨c, rfl⟩ := h
    rw [List.drop_append_of_le_length (by omega), List.take_append_of_le_length (by rw [List.length_drop]; omega)]
  have hd : (List.range 109).map (fun i => field a (76 + 4 * i) 4) = (List.range 109).map (fun i => field b (76 + 4 * i) 4) := by
    apply List.map_congr_left
    intro i hi
    rw [List.mem_range] at hi
    exact f _ _ (by omega)
  simp only [f 0 8 (by omega), f 8 8 (by omega), f 16 8 (by omega), f 24 2 (by omega), f 26 2 (by omega), f 28 2 (by omega),
    f 30 2 (by omega), f 32 2 (by omega), f 40 4 (by omega), f 44 4 (by omega), f 48 4 (by omega), f 56 4 (by omega),
    f 60 4 (by omega), f 64 4 (by omega), f 68 4 (by omega), f 72 4 (by omega), hr, hd]

theorem short_header {a : Bytes} (hl : a.length < 512) : headerErr (parseHeader a) = some .notInFormat := by
  have e : parseHeader a = parseHeader [] := by
    unfold parseHeader
    rw [if_pos hl, if_pos (by decide)]
  rw [e]
  have : (parseHeader []).signature ≠ 0xe11ab1a1e011cfd0 := by decide +kernel
  unfold headerErr
  rw [if_pos this]

theorem readDir_prefix {a b : Bytes} (h : a <+: b) (off major : Nat) :
    readDir a off major = readDir b off major ∨ (readDir a off major).objType = 0 := by
  have hb := h.length_le
  by_cases hl : a.length < off + 128
  · right
    unfold readDir
    rw [if_pos hl]
    show field (List.replicate 128 0) 66 1 = 0
    decide +kernel
  · left
    unfold readDir
    rw [if_neg hl, if_neg (by omega)]
    obtain ⟨c, rfl⟩ := h
    rw [List.drop_append_of_le_length (by omega), List.take_append_of_le_length (by rw [List.length_drop]; omega)]

/-- None of `n` directory entries is that of the root storage. -/
def NoRoot (b : Bytes) (major : Nat) (n off : Nat) : Prop := ∀ i, i < n → (readDir b (off + 128 * i) major).objType ≠ 5

theorem buildDirs_noRoot {a b : Bytes} (h : a <+: b) (major : Nat) : ∀ (n off : Nat), NoRoot b major n off →
    (buildDirs a major n off).1 <+: (buildDirs b major n off).1 ∧ (buildDirs a major n off).2 = none ∧
      (buildDirs b major n off).2 = none
  | 0, _, _ => ⟨List.nil_prefix, rfl, rfl⟩
  | n + 1, off, hn => by
    have hn' : NoRoot b major n (off + 128) := by
      intro i hi
      have := hn (i + 1) (by omega)
      rw [show off + 128 * (i + 1) = off + 128 + 128 * i by omega] at this
      exact this
    obtain ⟨h1, h2, h3⟩ := buildDirs_noRoot h major n (off + 128) hn'
    have h5 := hn 0 (by omega)
    rw [Nat.mul_zero, Nat.add_zero] at h5
    unfold buildDirs
    simp only
    rw [h2, h3]
    rcases readDir_prefix h off major with e | e
    · rw [e]
      split
      · exact ⟨List.nil_prefix, rfl, rfl⟩
      · refine ⟨List.cons_prefix_cons.2 ⟨rfl, h1⟩, ?_, ?_⟩
        · rfl
        · rfl
    · rw [if_pos e]
      refine ⟨List.nil_prefix, rfl, ?_⟩
      split
      · rfl
      · rfl

theorem buildDirs_shorter {a b : Bytes} (h : a <+: b) (major : Nat) (n off : Nat) (hn : NoRoot b major n (off + 128)) :
    (buildDirs a major (n + 1) off).1 = [] ∨ ((buildDirs a major (n + 1) off).1 <+: (buildDirs b major (n + 1) off).1 ∧
      (buildDirs a major (n + 1) off).2 = (buildDirs b major (n + 1) off).2) := by
  obtain ⟨h1, h2, h3⟩ := buildDirs_noRoot h major n (off + 128) hn
  unfold buildDirs
  simp only
  rw [h2, h3]
  rcases readDir_prefix h off major with e | e
  · rw [e]
    split
    · left; rfl
    · right
      exact ⟨List.cons_prefix_cons.2 ⟨rfl, h1⟩, rfl⟩
  · left
    rw [if_pos e]

/-! ### Streams -/

theorem sub_shorter {s t : Slice} (h : s.val ++ s.rest <+: t.val ++ t.rest) {lo hi : Nat} {x : Slice} (hx : s.sub lo hi = .ok x) :
    ∃ y, t.sub lo hi = .ok y ∧ x.val = y.val ∧ x.rest <+: y.rest := by
  unfold Slice.sub at hx ⊢
  have hl := h.length_le
  simp only [List.length_append] at hl
  split at hx
  · rename_i hc
    cases hx
    refine ⟨_, if_pos ⟨hc.1, by omega⟩, ?_, ?_⟩
    · simp only
      obtain ⟨c, hc'⟩ := h
      rw [← hc', List.take_append_of_le_length (l₁ := s.val ++ s.rest) (by rw [List.length_append]; omega)]
    · exact prefix_drop h hi
  · cases hx

theorem cut_shorter {x y : Slice} (hv : x.val = y.val) (hr : x.rest <+: y.rest) (n : Nat) :
    (cut x n).1.val = (cut y n).1.val ∧ (cut x n).1.rest <+: (cut y n).1.rest ∧ (cut x n).2 = (cut y n).2 := by
  unfold cut Slice.len
  rw [hv]
  split
  · exact ⟨rfl, (List.prefix_append_right_inj _).2 hr, rfl⟩
  · exact ⟨hv, hr, rfl⟩

/-- The same document with a buffer that ends earlier. -/
structure ShorterDoc (d e : Document) : Prop where
  data : Shorter d.data e.data
  header : d.header = e.header
  fat : d.fat = e.fat
  minifat : d.minifat = e.minifat
  mstart : d.mstart = e.mstart
  msize : d.msize = e.msize

theorem streamLoop_shorter {d e : Document} (h : ShorterDoc d e) : ∀ (slots sid size : Nat) {r : List Bytes × Nat},
    streamLoop d slots sid size = .ok r → streamLoop e slots sid size = .ok r := by
  intro slots
  induction slots with
  | zero =>
    intro sid size r hx
    unfold streamLoop at hx ⊢
    split
    · rename_i hs; rw [if_pos hs] at hx; exact hx
    · rename_i hs
      rw [if_neg hs] at hx
      split at hx
      · cases hx
      · obtain ⟨x, _, hx⟩ := GoRes.bind_eq_ok.1 hx
        cases hx
  | succ slots ih =>
    intro sid size r hx
    have hl : d.data.len ≤ e.data.len := h.data.len
    unfold streamLoop at hx ⊢
    rw [← h.header]
    simp only at hx ⊢
    split
    · rename_i hs; rw [if_pos hs] at hx; exact hx
    · rename_i hs
      rw [if_neg hs] at hx
      split at hx
      · cases hx
      · rename_i hlen
        rw [if_neg (by omega)]
        obtain ⟨x, h1, hx⟩ := GoRes.bind_eq_ok.1 hx
        obtain ⟨y, k1, hv, hr⟩ := sub_shorter h.data.bytes h1
        obtain ⟨c1, c2, c3⟩ := cut_shorter hv hr size
        rw [k1, GoRes.ok_bind]
        rw [c1, c3] at hx
        split
        · rename_i hz; rw [if_pos hz] at hx; exact hx
        · rename_i hz
          rw [if_neg hz] at hx
          rw [← h.fat]
          split at hx
          · cases hx
          · rename_i nxt hn
            obtain ⟨p, hp, hx⟩ := GoRes.bind_eq_ok.1 hx
            rw [ih _ _ hp, GoRes.ok_bind]
            exact hx

/-- Two lists of slices that differ in the memory behind them. -/
inductive SameVals : List Slice → List Slice → Prop where
  | nil : SameVals [] []
  | cons (x y : Slice) (xs ys : List Slice) : x.val = y.val → x.rest <+: y.rest → SameVals xs ys → SameVals (x :: xs) (y :: ys)

theorem SameVals.append {xs ys us vs : List Slice} (h : SameVals xs ys) (h' : SameVals us vs) : SameVals (xs ++ us) (ys ++ vs) := by
  induction h with
  | nil => exact h'
  | cons x y xs ys hv hr _ ih => exact .cons x y _ _ hv hr ih

theorem SameVals.refl : ∀ xs, SameVals xs xs
  | [] => .nil
  | x :: xs => .cons x x xs xs rfl List.prefix_rfl (SameVals.refl xs)

theorem SameVals.length {xs ys : List Slice} (h : SameVals xs ys) : xs.length = ys.length := by
  induction h with
  | nil => rfl
  | cons => simp only [List.length_cons]; omega

theorem SameVals.get {xs ys : List Slice} (h : SameVals xs ys) {x : Slice} : ∀ {i : Nat}, xs[i]? = some x →
    ∃ y, ys[i]? = some y ∧ x.val = y.val ∧ x.rest <+: y.rest := by
  induction h with
  | nil => intro i hi; simp at hi
  | cons a b xs ys hv hr _ ih =>
    intro i hi
    cases i with
    | zero =>
      rw [List.getElem?_cons_zero] at hi
      cases hi
      exact ⟨b, List.getElem?_cons_zero, hv, hr⟩
    | succ i =>
      rw [List.getElem?_cons_succ] at hi
      obtain ⟨y, hy, h'⟩ := ih hi
      exact ⟨y, by rw [List.getElem?_cons_succ]; exact hy, h'⟩

theorem miniSectorsLoop_shorter {d e : Document} (h : ShorterDoc d e) : ∀ (slots fsid fsize : Nat) {r : List Slice},
    miniSectorsLoop d slots fsid fsize = .ok r → ∃ r', miniSectorsLoop e slots fsid fsize = .ok r' ∧ SameVals r r' := by
  intro slots
  induction slots with
  | zero =>
    intro sid size r hx
    unfold miniSectorsLoop at hx ⊢
    split
    · rename_i hs; rw [if_pos hs] at hx; cases hx; exact ⟨_, rfl, .nil⟩
    · rename_i hs
      rw [if_neg hs] at hx
      obtain ⟨x, _, hx⟩ := GoRes.bind_eq_ok.1 hx
      cases hx
  | succ slots ih =>
    intro sid size r hx
    unfold miniSectorsLoop at hx ⊢
    rw [← h.header]
    simp only at hx ⊢
    split
    · rename_i hs; rw [if_pos hs] at hx; cases hx; exact ⟨_, rfl, .nil⟩
    · rename_i hs
      rw [if_neg hs] at hx
      obtain ⟨x, h1, hx⟩ := GoRes.bind_eq_ok.1 hx
      obtain ⟨y, k1, hv, hr⟩ := sub_shorter h.data.bytes h1
      obtain ⟨c1, c2, c3⟩ := cut_shorter hv hr size
      rw [k1, GoRes.ok_bind, ← h.fat]
      rw [c3] at hx
      split at hx
      · cases hx
      · rename_i nxt hn
        obtain ⟨p, hp, hx⟩ := GoRes.bind_eq_ok.1 hx
        cases hx
        obtain ⟨q, hq, hs⟩ := ih _ _ hp
        rw [hq, GoRes.ok_bind]
        exact ⟨_, rfl, .cons _ _ _ _ c1 c2 hs⟩

theorem miniStreamLoop_shorter {d e : Document} (h : ShorterDoc d e) {fs gs : List Slice} (hf : SameVals fs gs) :
    ∀ (slots sid size : Nat) {r : List Bytes}, miniStreamLoop d fs slots sid size = .ok r → miniStreamLoop e gs slots sid size = .ok r := by
  intro slots
  induction slots with
  | zero =>
    intro sid size r hx
    unfold miniStreamLoop at hx ⊢
    split
    · rename_i hs; rw [if_pos hs] at hx; exact hx
    · rename_i hs
      rw [if_neg hs] at hx
      simp only at hx
      split at hx
      · cases hx
      · obtain ⟨x, _, hx⟩ := GoRes.bind_eq_ok.1 hx
        cases hx
  | succ slots ih =>
    intro sid size r hx
    unfold miniStreamLoop at hx ⊢
    rw [← h.header]
    simp only at hx ⊢
    split
    · rename_i hs; rw [if_pos hs] at hx; exact hx
    · rename_i hs
      rw [if_neg hs] at hx
      split at hx
      · cases hx
      · rename_i data hg
        obtain ⟨data', hg', dv, dr⟩ := hf.get hg
        rw [hg']
        simp only
        obtain ⟨x, h1, hx⟩ := GoRes.bind_eq_ok.1 hx
        obtain ⟨y, k1, hv, hr⟩ := sub_shorter (s := data) (t := data') (dv ▸ (List.prefix_append_right_inj _).2 dr) h1
        obtain ⟨c1, c2, c3⟩ := cut_shorter hv hr size
        rw [k1, GoRes.ok_bind, ← h.minifat]
        rw [c1, c3] at hx
        split at hx
        · cases hx
        · rename_i nxt hn
          obtain ⟨p, hp, hx⟩ := GoRes.bind_eq_ok.1 hx
          rw [ih _ _ hp, GoRes.ok_bind]
          exact hx

theorem getStreamReader_shorter {d e : Document} (h : ShorterDoc d e) {sid size : Nat} {r : SliceReader}
    (hx : getStreamReader d sid size = .ok r) : getStreamReader e sid size = .ok r := by
  unfold getStreamReader at hx ⊢
  rw [← h.header]
  simp only at hx ⊢
  split at hx
  · cases hx
  · rename_i hc
    rw [if_neg hc]
    obtain ⟨p, hp, hx⟩ := GoRes.bind_eq_ok.1 hx
    rw [streamLoop_shorter h _ _ _ hp, GoRes.ok_bind]
    exact hx

theorem getMiniStreamReader_shorter {d e : Document} (h : ShorterDoc d e) {sid size : Nat} {r : SliceReader}
    (hx : getMiniStreamReader d sid size = .ok r) : getMiniStreamReader e sid size = .ok r := by
  unfold getMiniStreamReader at hx ⊢
  rw [← h.header, ← h.mstart, ← h.msize]
  simp only at hx ⊢
  obtain ⟨fs, h1, hx⟩ := GoRes.bind_eq_ok.1 hx
  obtain ⟨ds, h2, hx⟩ := GoRes.bind_eq_ok.1 hx
  obtain ⟨gs, k1, hs⟩ := miniSectorsLoop_shorter h _ _ _ h1
  rw [k1, GoRes.ok_bind, ← hs.length, miniStreamLoop_shorter h (hs.append (.refl _)) _ _ _ h2, GoRes.ok_bind]
  exact hx

theorem openDirs_shorter {d e : Document} (h : ShorterDoc d e) {name : Bytes} {r : SliceReader} : ∀ {es fs : List Dir}, es <+: fs →
    openDirs d name es = .ok r → openDirs e name fs = .ok r := by
  intro es
  induction es with
  | nil => intro fs _ hx; cases hx
  | cons x es ih =>
    intro fs hp hx
    cases fs with
    | nil => cases List.prefix_nil.1 hp
    | cons y fs =>
      obtain ⟨rfl, hp'⟩ := List.cons_prefix_cons.1 hp
      unfold openDirs at hx ⊢
      rw [← h.header]
      obtain ⟨n, hn, hx⟩ := GoRes.bind_eq_ok.1 hx
      rw [hn, GoRes.ok_bind]
      split
      · rename_i hc
        rw [if_pos hc] at hx
        split
        · rename_i hm; rw [if_pos hm] at hx; exact getMiniStreamReader_shorter h hx
        · rename_i hm
          rw [if_neg hm] at hx
          split
          · rename_i hz; rw [if_pos hz] at hx; exact getStreamReader_shorter h hx
          · rename_i hz; rw [if_neg hz] at hx; exact ih hp' hx
      · rename_i hc
        rw [if_neg hc] at hx
        exact ih hp' hx

/-- A document that is loaded from a buffer that ends earlier: its streams are those of the longer buffer. -/
theorem load_shorter {s t : Slice} (h : Shorter s t) {fuel : Nat} {d : Document} (hd : load fuel s = some (.ok d))
    (hn : NoRoot t.val (parseHeader t.val).major 3
      (secOff (parseHeader t.val).sectorShift (parseHeader t.val).firstDir + 128)) :
    (∀ name, openStream d name = .err notFound) ∨
      ∃ e, load fuel t = some (.ok e) ∧ ∀ name r, openStream d name = .ok r → openStream e name = .ok r := by
  unfold load at hd ⊢
  simp only at hd ⊢
  by_cases hl : s.val.length < 512
  · rw [short_header hl] at hd
    cases hd
  · have hh := parseHeader_prefix h.val (by omega)
    rw [hh] at hd
    generalize parseHeader t.val = hdr at hd hn hh ⊢
    split at hd
    · cases hd
    · rename_i he
      split at hd
      · cases hd
      · rename_i hneg
        split at hd
        · cases hd
        · cases hd
        · rename_i fat1 h1
          split at hd
          · cases hd
          · cases hd
          · cases hd
          · rename_i fat2 h2
            split at hd
            · cases hd
            · cases hd
            · cases hd
            · rename_i mf h3
              have hd := GoRes.ok.inj (Option.some.inj hd)
              have k1 := loadHeaderDifat_shorter h _ h1
              have k2 : (if 0 < hdr.numDIFAT then difatLoop t hdr.sectorShift fuel hdr.firstDIFAT else some (.ok [])) = some (.ok fat2) := by
                split
                · rename_i hc; rw [if_pos hc] at h2; exact difatLoop_shorter h _ _ h2
                · rename_i hc; rw [if_neg hc] at h2; exact h2
              have k3 := minifatLoop_shorter h _ _ _ h3
              rcases buildDirs_shorter h.val hdr.major 3 _ hn with he1 | ⟨hp, hm⟩
              · left
                intro name
                subst hd
                unfold openStream
                simp only
                rw [he1]
                rfl
              · right
                subst hd
                refine ⟨⟨t, hdr, (buildDirs t.val hdr.major 4 (secOff hdr.sectorShift hdr.firstDir)).1, fat1 ++ fat2, mf,
                  ((buildDirs t.val hdr.major 4 (secOff hdr.sectorShift hdr.firstDir)).2.getD (0, 0)).1,
                  ((buildDirs t.val hdr.major 4 (secOff hdr.sectorShift hdr.firstDir)).2.getD (0, 0)).2⟩, ?_, ?_⟩
                · simp only [hneg, k1, k2, k3]
                  rfl
                · intro name r hr
                  unfold openStream at hr ⊢
                  refine openDirs_shorter ?_ hp hr
                  refine ⟨h, rfl, rfl, rfl, ?_, ?_⟩
                  · simp only; rw [hm]
                  · simp only; rw [hm]

end Grate.Cfb
