import Verif.Lemmas.XlsStrings
import Verif.Model.XlsStream
import Verif.Spec.XlsStream

/-! # Lemmas about reading records -/

namespace Grate.Xls

open Spec

/-- The record as written in the file. -/
def Rec.view (r : Rec) : Record := ⟨r.type, r.data.val⟩

/-- The record the code makes of a written record, with the bytes after it. -/
def recOf (r : Record) (rest : Bytes) : Rec := ⟨r.type, r.data.length, ⟨r.data, rest⟩⟩

/-- The records the code makes of a stream. -/
def recsOf : List Record → Bytes → List Rec
  | [], _ => []
  | r :: rs, rest => recOf r (stream rs ++ rest) :: recsOf rs rest

theorem view_recOf (r : Record) (rest : Bytes) : (recOf r rest).view = r := rfl

theorem map_view_recsOf : ∀ (rs : List Record) (rest : Bytes), (recsOf rs rest).map Rec.view = rs := by
  intro rs
  induction rs with
  | nil => intro rest; rfl
  | cons r rs ih => intro rest; rw [recsOf, List.map_cons, ih]; rfl

theorem recsOf_append : ∀ (a b : List Record) (rest : Bytes),
    recsOf (a ++ b) rest = recsOf a (stream b ++ rest) ++ recsOf b rest := by
  intro a
  induction a with
  | nil => intro b rest; rfl
  | cons r a ih =>
    intro b rest
    rw [List.cons_append, recsOf, recsOf, ih, List.cons_append]
    unfold stream
    rw [List.flatMap_append, List.append_assoc]

theorem stream_cons (r : Record) (rs : List Record) : stream (r :: rs) = r.bytes ++ stream rs := by
  unfold stream; rw [List.flatMap_cons]

theorem stream_append (a b : List Record) : stream (a ++ b) = stream a ++ stream b := by
  unfold stream; rw [List.flatMap_append]

theorem recBytes_len (r : Record) : r.bytes.length = 4 + r.data.length := by
  unfold Record.bytes; simp [leBytes]; omega

theorem sub_prefix (a b c rest : Bytes) (lo hi : Nat) (h1 : lo = a.length) (h2 : hi = a.length + b.length) :
    (⟨a ++ (b ++ c), rest⟩ : Slice).sub lo hi = .ok ⟨b, c ++ rest⟩ :=
  Crypto.sub_mid a b c rest lo hi h1 h2

theorem u16_exact (n : Nat) (h : n < 65536) (rest : Bytes) : (⟨leBytes 2 n, rest⟩ : Slice).u16 = .ok n := by
  have := u16_here n h [] rest
  rwa [List.append_nil] at this

theorem u32_exact (n : Nat) (h : n < 2 ^ 32) (rest : Bytes) : (⟨leBytes 4 n, rest⟩ : Slice).u32 = .ok n := by
  have := u32_here n h [] rest
  rwa [List.append_nil] at this

theorem nextRecord_cons (r : Record) (h : r.Fits) (t rest : Bytes) :
    nextRecord ⟨r.bytes ++ t, rest⟩ = .ok (recOf r (t ++ rest), r.bytes.length) := by
  obtain ⟨h1, h2⟩ := h
  unfold nextRecord
  have hl : ¬ (⟨r.bytes ++ t, rest⟩ : Slice).len < 4 := by
    unfold Slice.len; simp only [List.length_append]; rw [recBytes_len]; omega
  rw [if_neg hl]
  have e : r.bytes ++ t = leBytes 2 r.type ++ (leBytes 2 r.data.length ++ (r.data ++ t)) := by
    unfold Record.bytes; simp only [List.append_assoc]
  have e2 : r.bytes ++ t = (leBytes 2 r.type ++ leBytes 2 r.data.length) ++ (r.data ++ t) := by
    unfold Record.bytes; simp only [List.append_assoc]
  have s1 : (⟨r.bytes ++ t, rest⟩ : Slice).sub 0 2 = .ok ⟨leBytes 2 r.type, leBytes 2 r.data.length ++ (r.data ++ t) ++ rest⟩ := by
    rw [e, sub_here _ _ _ _ (by simp [leBytes])]
  have s2 : (⟨r.bytes ++ t, rest⟩ : Slice).sub 2 4 = .ok ⟨leBytes 2 r.data.length, r.data ++ t ++ rest⟩ := by
    rw [e, sub_prefix _ _ _ _ _ _ (by simp [leBytes]) (by simp [leBytes])]
  have s3 : (⟨r.bytes ++ t, rest⟩ : Slice).dropFrom 4 = .ok ⟨r.data ++ t, rest⟩ := by
    rw [e2, drop_here _ _ _ _ (by simp [leBytes])]
  have s4 : (⟨r.bytes ++ t, rest⟩ : Slice).sub 4 (4 + r.data.length) = .ok ⟨r.data, t ++ rest⟩ := by
    rw [e2, sub_prefix _ _ _ _ _ _ (by simp [leBytes]) (by simp [leBytes])]
  rw [s1, GoRes.ok_bind, u16_exact _ h1, GoRes.ok_bind, s2, GoRes.ok_bind, u16_exact _ (by omega), GoRes.ok_bind, s3,
    GoRes.ok_bind, if_neg (by unfold Slice.len; simp), Nat.mod_eq_of_lt (by omega), s4, GoRes.ok_bind, recBytes_len]
  rfl

/-- Counting and placing a list of records. -/
def placeAll : List Rec → Groups → GoRes Groups
  | [], g => .ok g
  | r :: rs, g => do
    let g ← (g.count r).place r
    placeAll rs g

theorem placeAll_append : ∀ (a b : List Rec) (g : Groups),
    placeAll (a ++ b) g = (placeAll a g >>= fun g => placeAll b g) := by
  intro a
  induction a with
  | nil => intro b g; rfl
  | cons r a ih =>
    intro b g
    rw [List.cons_append, placeAll, placeAll]
    cases (g.count r).place r with
    | ok g' => simp only [GoRes.ok_bind, ih]
    | err e => rfl
    | panic => rfl

theorem gather_cons (d : Bool) (r : Record) (h : r.Fits) (hf : r.type = 0x2F → d = true) (t rest : Bytes) (g : Groups) :
    gather d ⟨r.bytes ++ t, rest⟩ g =
      ((g.count (recOf r (t ++ rest))).place (recOf r (t ++ rest)) >>= fun g => gather d ⟨t, rest⟩ g) := by
  rw [gather]
  split
  · rename_i hn; rw [nextRecord_cons r h] at hn; cases hn
  · rename_i hn; rw [nextRecord_cons r h] at hn; cases hn
  · rename_i hn; rw [nextRecord_cons r h] at hn; cases hn
  · rename_i nr no hn
    rw [nextRecord_cons r h] at hn
    cases hn
    split
    · rename_i raw' hd
      rw [drop_here _ _ _ _ rfl] at hd
      cases hd
      have hc : ¬ ((recOf r (t ++ rest)).type = recFilePass ∧ d = false) := by
        rintro ⟨a, b⟩
        rw [hf a] at b
        cases b
      simp only
      rw [if_neg hc]
      cases (g.count (recOf r (t ++ rest))).place (recOf r (t ++ rest)) <;> rfl
    · rename_i hd
      rw [drop_here _ _ _ _ rfl] at hd
      cases hd
    · rename_i hd
      rw [drop_here _ _ _ _ rfl] at hd
      cases hd

theorem gather_filePass (r : Record) (h : r.Fits) (hf : r.type = 0x2F) (t rest : Bytes) (g : Groups) :
    gather false ⟨r.bytes ++ t, rest⟩ g = .ok (.filePass ⟨r.data, t ++ rest⟩) := by
  rw [gather]
  split
  · rename_i hn; rw [nextRecord_cons r h] at hn; cases hn
  · rename_i hn; rw [nextRecord_cons r h] at hn; cases hn
  · rename_i hn; rw [nextRecord_cons r h] at hn; cases hn
  · rename_i nr no hn
    rw [nextRecord_cons r h] at hn
    cases hn
    split
    · simp only
      rw [if_pos ⟨hf, trivial⟩]
      rfl
    · rename_i hd
      rw [drop_here _ _ _ _ rfl] at hd
      cases hd
    · rename_i hd
      rw [drop_here _ _ _ _ rfl] at hd
      cases hd

theorem gather_stream (d : Bool) (t rest : Bytes) : ∀ (rs : List Record), (∀ r ∈ rs, r.Fits) →
    (∀ r ∈ rs, r.type = 0x2F → d = true) → ∀ (g : Groups),
    gather d ⟨stream rs ++ t, rest⟩ g = (placeAll (recsOf rs (t ++ rest)) g >>= fun g => gather d ⟨t, rest⟩ g) := by
  intro rs
  induction rs with
  | nil => intro _ _ g; rfl
  | cons r rs ih =>
    intro h hf g
    rw [stream_cons, List.append_assoc, gather_cons d r (h r (by simp)) (hf r (by simp)), recsOf, placeAll,
      List.append_assoc]
    cases (g.count (recOf r (stream rs ++ (t ++ rest)))).place (recOf r (stream rs ++ (t ++ rest))) with
    | ok g' =>
      simp only [GoRes.ok_bind]
      exact ih (fun x hx => h x (by simp [hx])) (fun x hx => hf x (by simp [hx])) g'
    | err e => rfl
    | panic => rfl

theorem gather_short (d : Bool) (t rest : Bytes) (h : t.length < 4) (g : Groups) :
    gather d ⟨t, rest⟩ g = .ok (.done g) := by
  have : nextRecord ⟨t, rest⟩ = .err .eof := by unfold nextRecord; rw [if_pos (show (⟨t, rest⟩ : Slice).len < 4 from h)]
  rw [gather]
  split
  · rfl
  · rename_i e _ hn; rw [this] at hn; cases hn; contradiction
  · rename_i hn; rw [this] at hn; cases hn
  · rename_i hn; rw [this] at hn; cases hn

/-- A record cut inside its data. -/
theorem nextRecord_cut (r : Record) (h : r.Fits) (p rest : Bytes) (hp : p <+: r.bytes) (h4 : 4 ≤ p.length)
    (hlt : p.length < r.bytes.length) : nextRecord ⟨p, rest⟩ = .err .unexpectedEOF := by
  obtain ⟨h1, h2⟩ := h
  obtain ⟨q, hq⟩ := hp
  have hb := recBytes_len r
  have hp' : p = leBytes 2 r.type ++ (leBytes 2 r.data.length ++ p.drop 4) := by
    have e : r.bytes = (leBytes 2 r.type ++ leBytes 2 r.data.length) ++ r.data := rfl
    have ht : p.take 4 = leBytes 2 r.type ++ leBytes 2 r.data.length := by
      have hx : r.bytes.take 4 = p.take 4 := by rw [← hq, List.take_append_of_le_length h4]
      rw [← hx, e]
      exact List.take_left' (by simp [leBytes])
    rw [← List.append_assoc, ← ht, List.take_append_drop]
  have hdl : (p.drop 4).length < r.data.length := by rw [List.length_drop]; omega
  generalize p.drop 4 = dd at hp' hdl
  subst hp'
  unfold nextRecord
  rw [if_neg (by unfold Slice.len; simp only; omega)]
  rw [sub_here _ _ _ _ (by simp [leBytes]), GoRes.ok_bind, u16_exact _ h1, GoRes.ok_bind,
    sub_prefix _ _ _ _ _ _ (by simp [leBytes]) (by simp [leBytes]), GoRes.ok_bind, u16_exact _ (by omega),
    GoRes.ok_bind, ← List.append_assoc, drop_here _ _ _ _ (by simp [leBytes]), GoRes.ok_bind,
    if_pos (by unfold Slice.len; exact hdl)]

theorem gather_cut (d : Bool) (r : Record) (h : r.Fits) (p rest : Bytes) (hp : p <+: r.bytes) (h4 : 4 ≤ p.length)
    (hlt : p.length < r.bytes.length) (g : Groups) : gather d ⟨p, rest⟩ g = .err .unexpectedEOF := by
  have := nextRecord_cut r h p rest hp h4 hlt
  rw [gather]
  split
  · rename_i hn; rw [this] at hn; cases hn
  · rename_i e _ hn; rw [this] at hn; cases hn; rfl
  · rename_i hn; rw [this] at hn; cases hn
  · rename_i hn; rw [this] at hn; cases hn

/-! ### Groups -/

/-- Records go to the last group. -/
def Open (g : Groups) : Prop := g.subs ≠ [] ∧ g.substr = (g.subs.length : Int) - 1

theorem modify_last {α : Type} (l : List α) (x : α) (f : α → α) : (l ++ [x]).modify l.length f = l ++ [f x] := by
  induction l with
  | nil => rfl
  | cons a l ih => rw [List.cons_append, List.length_cons, List.modify_succ_cons, ih]; rfl

theorem place_open (g : Groups) (l : List (List Rec)) (x : List Rec) (hs : g.subs = l ++ [x]) (h : Open g) (r : Rec) :
    g.place r = .ok { g with subs := l ++ [x ++ [r]] } := by
  obtain ⟨_, h2⟩ := h
  have : g.substr = (l.length : Int) := by rw [h2, hs]; simp
  unfold Groups.place
  rw [if_pos (by rw [this, hs]; simp; omega), this, hs, Int.toNat_natCast, modify_last]

theorem exists_last {α : Type} (l : List α) (h : l ≠ []) : ∃ i x, l = i ++ [x] :=
  ⟨l.dropLast, l.getLast h, (List.dropLast_concat_getLast h).symm⟩

theorem count_fpos (g : Groups) (r : Rec) : (g.count r).fpos = g.fpos + (4 + r.data.len) := by
  unfold Groups.count
  simp only
  split
  · rfl
  · split
    · split <;> rfl
    · rfl

theorem count_open (g : Groups) (r : Rec) (h : Open g ∨ (g = Groups.init ∧ r.type = recBOF)) :
    Open (g.count r) ∧ (g.count r).subs.flatten = g.subs.flatten := by
  unfold Groups.count
  simp only
  rcases h with h | ⟨rfl, hr⟩
  · split
    · exact ⟨h, rfl⟩
    · split
      · split
        · refine ⟨⟨by simp, by simp⟩, by simp⟩
        · exact ⟨h, rfl⟩
      · exact ⟨h, rfl⟩
  · rw [hr, if_neg (by decide), if_pos rfl, if_pos (show Groups.init.nested = 0 from rfl)]
    refine ⟨⟨by simp, by simp⟩, by simp [Groups.init]⟩

theorem place_flatten (g : Groups) (h : Open g) (r : Rec) :
    ∃ g', g.place r = .ok g' ∧ Open g' ∧ g'.subs.flatten = g.subs.flatten ++ [r] := by
  obtain ⟨l, x, hs⟩ := exists_last g.subs h.1
  refine ⟨_, place_open g l x hs h r, ⟨by simp, ?_⟩, ?_⟩
  · have := h.2
    simp only
    rw [hs] at this
    simpa using this
  · rw [hs]; simp

theorem placeAll_flatten : ∀ (rs : List Rec) (g : Groups), Open g →
    ∃ g', placeAll rs g = .ok g' ∧ g'.subs.flatten = g.subs.flatten ++ rs := by
  intro rs
  induction rs with
  | nil => intro g _; exact ⟨g, rfl, by simp⟩
  | cons r rs ih =>
    intro g h
    obtain ⟨h1, h2⟩ := count_open g r (Or.inl h)
    obtain ⟨g1, e1, h3, h4⟩ := place_flatten _ h1 r
    obtain ⟨g2, e2, h5⟩ := ih g1 h3
    refine ⟨g2, by rw [placeAll, e1, GoRes.ok_bind, e2], ?_⟩
    rw [h5, h4, h2]
    simp

theorem placeAll_init (r : Rec) (rs : List Rec) (hr : r.type = recBOF) :
    ∃ g', placeAll (r :: rs) Groups.init = .ok g' ∧ g'.subs.flatten = r :: rs := by
  obtain ⟨h1, h2⟩ := count_open Groups.init r (Or.inr ⟨rfl, hr⟩)
  obtain ⟨g1, e1, h3, h4⟩ := place_flatten _ h1 r
  obtain ⟨g2, e2, h5⟩ := placeAll_flatten rs g1 h3
  refine ⟨g2, by rw [placeAll, e1, GoRes.ok_bind, e2], ?_⟩
  rw [h5, h4, h2]
  rfl

/-- Balanced records inside a group stay in it. -/
theorem placeAll_balanced {rs : List Record} (hb : Balanced rs) : ∀ (recs : List Rec), recs.map Rec.view = rs →
    ∀ (l : List (List Rec)) (x : List Rec) (n : Nat) (pos2 : List (Nat × Nat)) (fpos : Nat),
    placeAll recs ⟨l ++ [x], l.length, (n + 1 : Nat), pos2, fpos⟩ =
      .ok ⟨l ++ [x ++ recs], l.length, (n + 1 : Nat), pos2, fpos + (stream rs).length⟩ := by
  induction hb with
  | nil =>
    intro recs h l x n pos2 fpos
    rw [List.map_eq_nil_iff] at h
    subst h
    simp [placeAll, stream]
  | plain r rs h1 h2 hb ih =>
    intro recs h l x n pos2 fpos
    obtain ⟨q, qs, rfl, hq, hqs⟩ := List.map_eq_cons_iff.1 h
    have ht : q.type = r.type := by rw [← hq]; rfl
    have hd : q.data.len = r.data.length := by rw [← hq]; rfl
    rw [placeAll]
    have hc : Groups.count ⟨l ++ [x], l.length, (n + 1 : Nat), pos2, fpos⟩ q =
        ⟨l ++ [x], l.length, (n + 1 : Nat), pos2, fpos + (4 + q.data.len)⟩ := by
      unfold Groups.count
      simp only
      rw [if_neg (by rw [ht]; exact h2), if_neg (by rw [ht]; exact h1)]
    rw [hc, place_open _ l x rfl ⟨by simp, by simp⟩, GoRes.ok_bind]
    simp only
    rw [ih qs hqs, stream_cons, List.length_append, recBytes_len, hd]
    simp [Nat.add_assoc]
  | block b e inner rs h1 h2 hi hb ih1 ih2 =>
    intro recs h l x n pos2 fpos
    rw [List.cons_append] at h
    obtain ⟨q, qs, rfl, hq, hqs⟩ := List.map_eq_cons_iff.1 h
    obtain ⟨is, es, rfl, his, hes⟩ := List.map_eq_append_iff.1 hqs
    obtain ⟨z, zs, rfl, hz, hzs⟩ := List.map_eq_cons_iff.1 hes
    have hqt : q.type = b.type := by rw [← hq]; rfl
    have hqd : q.data.len = b.data.length := by rw [← hq]; rfl
    have hzt : z.type = e.type := by rw [← hz]; rfl
    have hzd : z.data.len = e.data.length := by rw [← hz]; rfl
    rw [placeAll]
    have hc : Groups.count ⟨l ++ [x], l.length, (n + 1 : Nat), pos2, fpos⟩ q =
        ⟨l ++ [x], l.length, (n + 1 + 1 : Nat), pos2, fpos + (4 + q.data.len)⟩ := by
      unfold Groups.count
      simp only
      rw [if_neg (by rw [hqt, h1]; decide), if_pos (by rw [hqt]; exact h1), if_neg (by omega)]
      simp
    rw [hc, place_open _ l x rfl ⟨by simp, by simp⟩, GoRes.ok_bind]
    simp only
    rw [placeAll_append, ih1 is his l _ (n + 1), GoRes.ok_bind, placeAll]
    have hc2 : Groups.count ⟨l ++ [x ++ [q] ++ is], l.length, (n + 1 + 1 : Nat), pos2,
          fpos + (4 + q.data.len) + (stream inner).length⟩ z =
        ⟨l ++ [x ++ [q] ++ is], l.length, (n + 1 : Nat), pos2,
          fpos + (4 + q.data.len) + (stream inner).length + (4 + z.data.len)⟩ := by
      unfold Groups.count
      simp only
      rw [if_pos (by rw [hzt]; exact h2)]
      simp only [Groups.mk.injEq, true_and, and_true]
      omega
    rw [hc2, place_open _ l _ rfl ⟨by simp, by simp⟩, GoRes.ok_bind]
    simp only
    rw [ih2 zs hzs l _ n]
    congr 1
    simp only [Groups.mk.injEq, List.append_assoc, List.cons_append, List.nil_append, true_and]
    rw [stream_cons, stream_append, stream_cons]
    simp only [List.length_append, recBytes_len, hqd, hzd]
    omega

/-- The state between groups: `n` groups are complete. -/
structure Between (done : List (List Record)) (g : Groups) : Prop where
  nested : g.nested = 0
  fpos : g.fpos = (stream done.flatten).length
  subs : g.subs.map (·.map Rec.view) = done
  look : ∀ i, i < done.length → g.pos2.lookup (position done i) = some i
  below : ∀ p ∈ g.pos2, p.1 < g.fpos

theorem lookup_cons_ne {k k' : Nat} {v : Nat} {l : List (Nat × Nat)} (h : k ≠ k') :
    ((k', v) :: l).lookup k = l.lookup k := by
  rw [List.lookup_cons]
  have : (k == k') = false := by simpa using h
  rw [this]

theorem position_append (done : List (List Record)) (s : List Record) (i : Nat) (h : i ≤ done.length) :
    position (done ++ [s]) i = position done i := by
  unfold position
  rw [List.take_append_of_le_length h]

theorem stream_pos {r : Record} {rs : List Record} : 0 < (stream (r :: rs)).length := by
  rw [stream_cons, List.length_append, recBytes_len]; omega

theorem between_step {done : List (List Record)} {g : Groups} (h : Between done g) {s : List Record} (hs : Substream s)
    (recs : List Rec) (hr : recs.map Rec.view = s) :
    ∃ g', placeAll recs g = .ok g' ∧ Between (done ++ [s]) g' := by
  obtain ⟨b, inner, e, rfl, hb, he, hi⟩ := hs
  obtain ⟨q, qs, rfl, hq, hqs⟩ := List.map_eq_cons_iff.1 hr
  obtain ⟨is, es, rfl, his, hes⟩ := List.map_eq_append_iff.1 hqs
  obtain ⟨z, zs, rfl, hz, hzs⟩ := List.map_eq_cons_iff.1 hes
  rw [List.map_eq_nil_iff] at hzs
  subst hzs
  have hqt : q.type = b.type := by rw [← hq]; rfl
  have hqd : q.data.len = b.data.length := by rw [← hq]; rfl
  have hzt : z.type = e.type := by rw [← hz]; rfl
  have hzd : z.data.len = e.data.length := by rw [← hz]; rfl
  have hc : g.count q = ⟨g.subs ++ [[]], g.subs.length, (0 + 1 : Nat), (g.fpos, g.subs.length) :: g.pos2,
      g.fpos + (4 + q.data.len)⟩ := by
    unfold Groups.count
    simp only
    rw [if_neg (by rw [hqt, hb]; decide), if_pos (by rw [hqt]; exact hb), if_pos h.nested]
    simp [h.nested]
  rw [placeAll, hc, place_open _ g.subs [] rfl ⟨by simp, by simp⟩, GoRes.ok_bind]
  simp only [List.nil_append]
  rw [placeAll_append, placeAll_balanced hi is his, GoRes.ok_bind, placeAll]
  have hc2 : Groups.count ⟨g.subs ++ [[q] ++ is], g.subs.length, (0 + 1 : Nat), (g.fpos, g.subs.length) :: g.pos2,
        g.fpos + (4 + q.data.len) + (stream inner).length⟩ z =
      ⟨g.subs ++ [[q] ++ is], g.subs.length, 0, (g.fpos, g.subs.length) :: g.pos2,
        g.fpos + (4 + q.data.len) + (stream inner).length + (4 + z.data.len)⟩ := by
    unfold Groups.count
    simp only
    rw [if_pos (by rw [hzt]; exact he)]
    rfl
  rw [hc2, place_open _ g.subs _ rfl ⟨by simp, by simp⟩, GoRes.ok_bind, placeAll]
  have hlen : g.subs.length = done.length := by rw [← h.subs, List.length_map]
  have hf : g.fpos + (4 + q.data.len) + (stream inner).length + (4 + z.data.len) =
      (stream (done ++ [b :: (inner ++ [e])]).flatten).length := by
    rw [List.flatten_append, stream_append, List.length_append, ← h.fpos]
    simp only [List.flatten_cons, List.flatten_nil, List.append_nil]
    rw [stream_cons, stream_append, stream_cons]
    simp only [List.length_append, recBytes_len, hqd, hzd, show (stream []).length = 0 from rfl]
    omega
  refine ⟨_, rfl, ⟨rfl, hf, ?_, ?_, ?_⟩⟩
  · simp only [List.map_append, h.subs, List.map_cons, List.map_nil, hq, his, hz, List.cons_append, List.nil_append]
  · intro i hi'
    rw [List.length_append, List.length_singleton] at hi'
    by_cases hlt : i < done.length
    · rw [position_append _ _ _ (by omega)]
      simp only
      rw [lookup_cons_ne]
      · exact h.look i hlt
      · have hl := h.look i hlt
        have hm : ∃ p ∈ g.pos2, p.1 = position done i := by
          rw [List.lookup_eq_some_iff] at hl
          obtain ⟨l1, l2, h1, _⟩ := hl
          exact ⟨(position done i, i), by rw [h1]; simp, rfl⟩
        obtain ⟨p, hp, hpe⟩ := hm
        have := h.below p hp
        omega
    · have : i = done.length := by omega
      subst this
      rw [position_append _ _ _ (Nat.le_refl _)]
      have hp : position done done.length = g.fpos := by
        unfold position
        rw [List.take_length, h.fpos]
      simp only
      rw [hp, List.lookup_cons, hlen]
      simp
  · intro p hp
    simp only at hp ⊢
    rcases List.mem_cons.1 hp with rfl | hp
    · simp only; omega
    · have := h.below p hp
      omega

theorem between_all : ∀ (groups : List (List Record)) (done : List (List Record)) (g : Groups), Between done g →
    (∀ s ∈ groups, Substream s) → ∀ (recs : List Rec), recs.map Rec.view = groups.flatten →
    ∃ g', placeAll recs g = .ok g' ∧ Between (done ++ groups) g' := by
  intro groups
  induction groups with
  | nil =>
    intro done g h _ recs hr
    rw [List.flatten_nil, List.map_eq_nil_iff] at hr
    subst hr
    exact ⟨g, rfl, by rw [List.append_nil]; exact h⟩
  | cons s groups ih =>
    intro done g h hs recs hr
    rw [List.flatten_cons] at hr
    obtain ⟨a, c, rfl, ha, hc⟩ := List.map_eq_append_iff.1 hr
    obtain ⟨g1, e1, h1⟩ := between_step h (hs s (by simp)) a ha
    obtain ⟨g2, e2, h2⟩ := ih (done ++ [s]) g1 h1 (fun x hx => hs x (by simp [hx])) c hc
    refine ⟨g2, by rw [placeAll_append, e1, GoRes.ok_bind, e2], ?_⟩
    rw [List.append_assoc] at h2
    exact h2

theorem between_init : Between [] Groups.init :=
  ⟨rfl, rfl, rfl, by intro i h; simp at h, by intro p hp; cases hp⟩

end Grate.Xls
