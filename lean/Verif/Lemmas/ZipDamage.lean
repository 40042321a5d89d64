import Verif.Spec.ZipDamage
import Verif.Lemmas.GoZip
import Verif.Lemmas.GoCrc32

/-! # Lemmas for C142: an archive with a few bytes of a stored member replaced -/

namespace Grate.Zip

open Grate Grate.Spec

theorem over_left {x y b : Bytes} {i : Nat} (h : i + b.length ≤ x.length) : overwritten (x ++ y) i b = overwritten x i b ++ y := by
  unfold overwritten
  rw [List.take_append_of_le_length (by omega), List.drop_append_of_le_length h]
  simp only [List.append_assoc]

theorem over_right {x y b : Bytes} {i : Nat} (h : x.length ≤ i) : overwritten (x ++ y) i b = x ++ overwritten y (i - x.length) b := by
  unfold overwritten
  rw [List.take_append, List.drop_append, List.take_of_length_le h, List.drop_eq_nil_of_le (by omega), List.nil_append,
    List.append_assoc, show i + b.length - x.length = i - x.length + b.length by omega]

theorem over_length {x b : Bytes} {i : Nat} (h : i + b.length ≤ x.length) : (overwritten x i b).length = x.length := by
  unfold overwritten
  simp only [List.length_append, List.length_take, List.length_drop]
  omega

theorem over_same {x b : Bytes} {i : Nat} :
    x = x.take i ++ ((x.drop i).take b.length ++ x.drop (i + b.length)) := by
  conv => lhs; rw [← List.take_append_drop i x, ← List.take_append_drop b.length (x.drop i), List.drop_drop]

/-- Where the data begin. -/
theorem local_start {c : Nat} {file : Bytes} {m : Member} {start : Nat} (h : LocalData c file m start) :
    start = m.offset + (30 + m.name.length + Cfb.field file (m.offset + 28) 2) := by
  obtain ⟨before, made, time, sizes, extra, after, h0, h1, h2, h3, h4, h5, ha, rfl, hs⟩ := h
  have e2 : extra.length % 256 ^ 2 = extra.length := Nat.mod_eq_of_lt (by omega)
  rw [Cfb.field_skip _ _ _ _ (by omega), h0, Nat.add_sub_cancel_left]
  simp (disch := omega) only [field_past4, Cfb.field_skip, Cfb.field_le, h1, h2, h3, Nat.reduceSub, Cfb.field_here, e2]
  exact hs

theorem after_over {c : Nat} {m : Member} {after b : Bytes} {i : Nat} (h : AfterData c m after) (hi : descrRoom m ≤ i) :
    AfterData c m (overwritten after i b) := by
  cases h with
  | plain _ hf => exact .plain _ hf
  | signed rest hf =>
    rw [descrRoom, if_pos hf] at hi
    have e : ∀ r : Bytes, [0x50, 0x4B, 7, 8] ++ (leBytes 4 c ++ (leBytes 4 m.packed.length ++ (leBytes 4 m.data.length ++ r))) =
      ([0x50, 0x4B, 7, 8] ++ (leBytes 4 c ++ (leBytes 4 m.packed.length ++ leBytes 4 m.data.length))) ++ r := by
      intro r; simp only [List.append_assoc]
    rw [e, over_right (by simp only [List.length_append, Cfb.leBytes_length]; exact hi), ← e]
    exact .signed _ hf
  | unsigned rest hf h7 =>
    rw [descrRoom, if_pos hf] at hi
    have e : ∀ r : Bytes, leBytes 4 c ++ (leBytes 4 m.packed.length ++ (leBytes 4 m.data.length ++ r)) =
      (leBytes 4 c ++ (leBytes 4 m.packed.length ++ leBytes 4 m.data.length)) ++ r := by
      intro r; simp only [List.append_assoc]
    rw [e, over_right (by simp only [List.length_append, Cfb.leBytes_length]; omega), ← e]
    exact .unsigned _ hf h7

/-- The bytes of a member before its data. -/
theorem local_split (before made time sizes name extra packed after : Bytes) (flags method : Nat) :
    before ++ ([0x50, 0x4B, 3, 4] ++ (made ++ (leBytes 2 flags ++ (leBytes 2 method ++ (time ++ (sizes ++
      (leBytes 2 name.length ++ (leBytes 2 extra.length ++ (name ++ (extra ++ (packed ++ after))))))))))) =
    (before ++ ([0x50, 0x4B, 3, 4] ++ (made ++ (leBytes 2 flags ++ (leBytes 2 method ++ (time ++ (sizes ++
      (leBytes 2 name.length ++ (leBytes 2 extra.length ++ (name ++ extra)))))))))) ++ (packed ++ after) := by
  simp only [List.append_assoc]

theorem local_other {c : Nat} {file b : Bytes} {m : Member} {start i : Nat} (h : LocalData c file m start)
    (hi : i + b.length ≤ m.offset ∨ start + m.packed.length + descrRoom m ≤ i) : LocalAt c (overwritten file i b) m := by
  obtain ⟨before, made, time, sizes, extra, after, h0, h1, h2, h3, h4, h5, ha, rfl, hs⟩ := h
  rcases hi with hi | hi
  · refine ⟨start, overwritten before i b, made, time, sizes, extra, after, ?_, h1, h2, h3, h4, h5, ha, ?_, hs⟩
    · rw [over_length (by omega), h0]
    · rw [over_left (by omega)]
  · have hl : (before ++ ([0x50, 0x4B, 3, 4] ++ (made ++ (leBytes 2 m.flags ++ (leBytes 2 m.method ++ (time ++ (sizes ++
      (leBytes 2 m.name.length ++ (leBytes 2 extra.length ++ (m.name ++ extra))))))))) : Bytes).length = start := by
      simp only [List.length_append, Cfb.leBytes_length, List.length_cons, List.length_nil]
      omega
    refine ⟨start, before, made, time, sizes, extra, overwritten after (i - start - m.packed.length) b, h0, h1, h2, h3, h4, h5,
      after_over ha (by omega), ?_, hs⟩
    rw [local_split, over_right (by omega), over_right (by omega), hl, ← local_split]

/-- The member with other data, stored. -/
def hitMember (m : Member) (d : Bytes) : Member := { m with data := d, packed := d }

theorem after_hit {c : Nat} {m : Member} {d after : Bytes} (hp : m.packed.length = m.data.length) (hd : d.length = m.data.length)
    (h : AfterData c m after) : AfterData c (hitMember m d) after := by
  cases h with
  | plain _ hf => exact .plain _ hf
  | signed rest hf =>
    have := AfterData.signed (crc := c) (m := hitMember m d) rest hf
    rw [show (hitMember m d).packed.length = m.packed.length by show d.length = _; omega,
      show (hitMember m d).data.length = m.data.length from hd] at this
    exact this
  | unsigned rest hf h7 =>
    have := AfterData.unsigned (crc := c) (m := hitMember m d) rest hf h7
    rw [show (hitMember m d).packed.length = m.packed.length by show d.length = _; omega,
      show (hitMember m d).data.length = m.data.length from hd] at this
    exact this

theorem central_hit {c : Nat} {m : Member} {d bs : Bytes} (hp : m.packed.length = m.data.length) (hd : d.length = m.data.length)
    (h : CentralHeader c m bs) : CentralHeader c (hitMember m d) bs := by
  obtain ⟨made, time, attrs, extra, comment, h1, h2, h3, h4, h5, he⟩ := h
  refine ⟨made, time, attrs, extra, comment, h1, h2, h3, h4, h5, ?_⟩
  rw [he, show (hitMember m d).packed.length = m.packed.length by show d.length = _; omega,
      show (hitMember m d).data.length = m.data.length from hd]
  rfl

theorem local_hit {c : Nat} {file b : Bytes} {m : Member} {start i : Nat} (h : LocalData c file m start) (hp : m.packed = m.data)
    (h1 : start ≤ i) (h2 : i + b.length ≤ start + m.data.length) :
    LocalAt c (overwritten file i b) (hitMember m (overwritten m.data (i - start) b)) ∧
      (overwritten m.data (i - start) b = m.data → overwritten file i b = file) ∧ 30 ≤ start := by
  obtain ⟨before, made, time, sizes, extra, after, g0, g1, g2, g3, g4, g5, ha, rfl, hs⟩ := h
  have hl : (before ++ ([0x50, 0x4B, 3, 4] ++ (made ++ (leBytes 2 m.flags ++ (leBytes 2 m.method ++ (time ++ (sizes ++
      (leBytes 2 m.name.length ++ (leBytes 2 extra.length ++ (m.name ++ extra))))))))) : Bytes).length = start := by
      simp only [List.length_append, Cfb.leBytes_length, List.length_cons, List.length_nil]
      omega
  have hd : (overwritten m.data (i - start) b).length = m.data.length := over_length (by omega)
  have he : overwritten (before ++ ([0x50, 0x4B, 3, 4] ++ (made ++ (leBytes 2 m.flags ++ (leBytes 2 m.method ++ (time ++ (sizes ++
      (leBytes 2 m.name.length ++ (leBytes 2 extra.length ++ (m.name ++ (extra ++ (m.packed ++ after)))))))))))) i b =
    before ++ ([0x50, 0x4B, 3, 4] ++ (made ++ (leBytes 2 m.flags ++ (leBytes 2 m.method ++ (time ++ (sizes ++
      (leBytes 2 m.name.length ++ (leBytes 2 extra.length ++ (m.name ++ (extra ++ (overwritten m.data (i - start) b ++ after))))))))))) := by
    rw [local_split, over_right (by omega), hl, hp, over_left (by omega), ← local_split]
  refine ⟨⟨start, before, made, time, sizes, extra, after, g0, g1, g2, g3, g4, g5, after_hit (by rw [hp]) hd ha, he, hs⟩, ?_, by omega⟩
  intro e
  rw [he, e, hp]

theorem dir_replace {crc sum : Member → Nat} {m m' : Member} {after : List Member} (ha : ∀ x ∈ after, sum x = crc x)
    (hc : ∀ bs, CentralHeader (crc m) m bs → CentralHeader (sum m') m' bs) : ∀ {before : List Member} {dir : Bytes},
    (∀ x ∈ before, sum x = crc x) → Directory crc (before ++ m :: after) dir → Directory sum (before ++ m' :: after) dir := by
  have tail : ∀ {ms : List Member} {dir : Bytes}, (∀ x ∈ ms, sum x = crc x) → Directory crc ms dir → Directory sum ms dir := by
    intro ms dir h hd
    induction hd with
    | nil => exact .nil
    | cons x ms bs rest hx _ ih =>
      exact .cons x ms bs rest (by rw [h x List.mem_cons_self]; exact hx) (ih (fun y hy => h y (List.mem_cons_of_mem _ hy)))
  intro before
  induction before with
  | nil =>
    intro dir _ h
    cases h with
    | cons _ _ bs rest hx hr => exact .cons m' after bs rest (hc bs hx) (tail ha hr)
  | cons x xs ih =>
    intro dir hb h
    cases h with
    | cons _ _ bs rest hx hr =>
      exact .cons x _ bs rest (by rw [hb x List.mem_cons_self]; exact hx) (ih (fun y hy => hb y (List.mem_cons_of_mem _ hy)) hr)

theorem dir_length {crc : Member → Nat} {ms : List Member} {dir : Bytes} (h : Directory crc ms dir) : 46 * ms.length ≤ dir.length := by
  induction h with
  | nil => simp
  | cons m ms bs rest hx _ ih =>
    obtain ⟨made, time, attrs, extra, comment, h1, h2, h3, h4, h5, he⟩ := hx
    have : 46 ≤ bs.length := by
      rw [he]
      simp only [List.length_append, Cfb.leBytes_length, List.length_cons, List.length_nil]
      omega
    simp only [List.length_cons, List.length_append]
    omega

/-- The checksums in the directory after the damage: that of the old data for the member with the new data. -/
noncomputable def hitSum (crc : Bytes → Nat) (m m' : Member) : Member → Nat :=
  fun x => @ite _ (x = m') (Classical.propDecidable _) (crc m.data) (crc x.data)

theorem hitSum_self (crc : Bytes → Nat) (m m' : Member) : hitSum crc m m' m' = crc m.data := by
  unfold hitSum
  rw [if_pos rfl]

theorem hitSum_other {crc : Bytes → Nat} {m m' x : Member} (h : x ≠ m') : hitSum crc m m' x = crc x.data := by
  unfold hitSum
  rw [if_neg h]

/-- The archive after the damage, with the checksums of before. -/
theorem hit_archive {inflate : Bytes → Bytes × GoErr} {file : Bytes} {before after : List Member} {m : Member} {i : Nat} {b : Bytes}
    (h : Hit inflate goCrc32 file before m after i b) :
    ∃ k, 30 ≤ i ∧ k + b.length ≤ m.data.length ∧ overwritten m.data k b ≠ m.data ∧
      (∀ x, x ∈ before ∨ x ∈ after → x ≠ hitMember m (overwritten m.data k b)) ∧
      ZipFile inflate (hitSum goCrc32 m (hitMember m (overwritten m.data k b))) (overwritten file i b)
        (before ++ hitMember m (overwritten m.data k b) :: after) ∧
      LocalData (goCrc32 m.data) file m (i - k) := by
  obtain ⟨start, hloc, hs1, hs2⟩ := h.inside
  have hmem : m ∈ before ++ m :: after := by simp
  have hp : m.packed = m.data := by
    cases h.archive.packed m hmem with
    | stored _ hp => exact hp
    | deflated h8 _ => rw [h.stored] at h8; cases h8
  obtain ⟨hl', hsame, h30⟩ := local_hit hloc hp hs1 hs2
  have hdl : (overwritten m.data (i - start) b).length = m.data.length := over_length (by omega)
  have hne : overwritten m.data (i - start) b ≠ m.data := fun e => h.changed (hsame e)
  have hb0 : b ≠ [] := by
    rintro rfl
    refine h.changed ?_
    simp [overwritten]
  have hbl : 0 < b.length := List.length_pos_iff.2 hb0
  have hstart : i - (i - start) = start := by omega
  refine ⟨i - start, by omega, by omega, hne, ?_⟩
  rw [hstart]
  generalize hd : overwritten m.data (i - start) b = d at *
  have hoff : ∀ x, x ∈ before ∨ x ∈ after → x ≠ hitMember m d := by
    rintro x hx rfl
    obtain ⟨s, hsx, hi⟩ := h.others _ hx
    have e1 := local_start hsx
    have e2 := local_start hloc
    have e3 : start = s := e2.trans e1.symm
    have ho : (hitMember m d).offset = m.offset := rfl
    have hn : (hitMember m d).packed.length = d.length := rfl
    have hr : descrRoom (hitMember m d) = descrRoom m := rfl
    rw [ho, hn, hr] at hi
    rcases hi with hi | hi <;> omega
  have hsum : ∀ x, x ∈ before ∨ x ∈ after → hitSum goCrc32 m (hitMember m d) x = goCrc32 x.data := fun x hx => hitSum_other (hoff x hx)
  have hpl : m.packed.length = m.data.length := by rw [hp]
  have hcase : ∀ x ∈ before ++ hitMember m d :: after, (x ∈ before ∨ x ∈ after) ∨ x = hitMember m d := by
    intro x hx
    simp only [List.mem_append, List.mem_cons] at hx
    rcases hx with hx | rfl | hx
    · exact .inl (.inl hx)
    · exact .inr rfl
    · exact .inl (.inr hx)
  have hin : ∀ x, x ∈ before ∨ x ∈ after → x ∈ before ++ m :: after := by
    intro x hx
    simp only [List.mem_append, List.mem_cons]
    exact hx.imp_right .inr
  refine ⟨hoff, ⟨?_, ?_, ?_, ?_, ?_⟩, hloc⟩
  · intro x hx
    rcases hcase x hx with hx | rfl
    · rw [hsum x hx]; exact goCrc32_lt _
    · rw [hitSum_self]; exact goCrc32_lt _
  · intro x hx
    rcases hcase x hx with hx | rfl
    · exact h.archive.packed x (hin x hx)
    · exact .stored h.stored rfl
  · intro x hx
    rcases hcase x hx with hx | rfl
    · exact h.archive.fits x (hin x hx)
    · obtain ⟨f1, f2, f3, f4⟩ := h.archive.fits m hmem
      exact ⟨by show d.length < _; omega, by show d.length < _; omega, f3, f4⟩
  · intro x hx
    rcases hcase x hx with hx | rfl
    · rw [hsum x hx]
      obtain ⟨s, hsx, hi⟩ := h.others x hx
      exact local_other hsx hi
    · rw [hitSum_self]
      exact hl'
  · obtain ⟨front, ⟨dir, gap, fin, comment, hf, hdir, hend, l1, l2, l3, g1, g2, g3⟩, hfr⟩ := h.front
    have hfl : (overwritten front i b).length = front.length := over_length hfr
    refine ⟨overwritten front i b, dir, gap, fin, comment, ?_, ?_, ?_, l1, ?_, l3, g1, g2, ?_⟩
    · rw [hf, over_left hfr]
    · refine dir_replace (fun x hx => hsum x (.inr hx)) ?_ (fun x hx => hsum x (.inl hx)) hdir
      intro bs hbs
      rw [hitSum_self]
      exact central_hit hpl hdl hbs
    · rw [hfl]
      have : (before ++ hitMember m d :: after).length = (before ++ m :: after).length := by simp
      rw [this]
      exact hend
    · rw [hfl]; exact l2
    · intro bef last e hlast
      have hdl := dir_length hdir
      have hlen : 46 ≤ dir.length := by
        simp only [List.length_append, List.length_cons] at hdl
        omega
      have hs : last <:+ dir ++ gap := by
        have h1 : last <:+ overwritten front i b ++ (dir ++ gap) := ⟨bef, e.symm⟩
        exact List.suffix_of_suffix_length_le h1 (List.suffix_append _ _) (by rw [List.length_append]; omega)
      obtain ⟨t, ht⟩ := hs
      exact g3 (front ++ t) last (by rw [← ht, List.append_assoc]) hlast

/-- Damage within four bytes makes an archive with a damaged part. -/
theorem hit_damages {inflate : Bytes → Bytes × GoErr} {file : Bytes} {before after : List Member} {m : Member} {i : Nat} {b : Bytes}
    (h : Hit inflate goCrc32 file before m after i b) (h4 : b.length ≤ 4) (hz : m.flags.testBit 3 = true ∨ goCrc32 m.data ≠ 0) :
    ∃ sum ms', DamagedPart inflate goCrc32 sum m.name file (overwritten file i b) (before ++ m :: after) ms' ∧ 30 ≤ i := by
  obtain ⟨k, h30, hk, hne, hoff, hzip, _⟩ := hit_archive h
  have hlen : b.length = ((m.data.drop k).take b.length).length := by
    rw [List.length_take, List.length_drop]
    omega
  have hcrc : goCrc32 (overwritten m.data k b) ≠ goCrc32 m.data := by
    intro e
    have e2 : goCrc32 (m.data.take k ++ (b ++ m.data.drop (k + b.length))) =
        goCrc32 (m.data.take k ++ ((m.data.drop k).take b.length ++ m.data.drop (k + b.length))) := by
      rw [← over_same]
      exact e
    refine hne ?_
    unfold overwritten
    rw [crc_burst hlen h4 e2, ← hlen]
    exact over_same.symm
  generalize overwritten m.data k b = d at *
  refine ⟨hitSum goCrc32 m (hitMember m d), before ++ hitMember m d :: after, ⟨h.archive, hzip, ?_, ?_, ?_⟩, h30⟩
  · simp only [List.filter_append, List.filter_cons]
    simp [hitMember]
  · intro x hx hxn
    simp only [List.mem_append, List.mem_cons] at hx
    rcases hx with hx | rfl | hx
    · exact hitSum_other (hoff x (.inl hx))
    · exact absurd rfl hxn
    · exact hitSum_other (hoff x (.inr hx))
  · refine ⟨before, hitMember m d, after, rfl, h.first, rfl, ?_, ?_⟩
    · rw [hitSum_self]; exact hcrc
    · rw [hitSum_self]; exact hz

/-- Damage that does not change the checksum makes an intact archive of other data. -/
theorem hit_unnoticed {inflate : Bytes → Bytes × GoErr} {file : Bytes} {before after : List Member} {m : Member} {i : Nat} {b : Bytes}
    (h : Hit inflate goCrc32 file before m after i b)
    (hc : ∀ k, k + b.length ≤ m.data.length → LocalData (goCrc32 m.data) file m (i - k) → goCrc32 (overwritten m.data k b) = goCrc32 m.data) :
    ∃ d, d ≠ m.data ∧ ZipFile inflate (ofData goCrc32) (overwritten file i b) (before ++ hitMember m d :: after) := by
  obtain ⟨k, h30, hk, hne, hoff, hzip, hloc⟩ := hit_archive h
  refine ⟨_, hne, ?_⟩
  have : hitSum goCrc32 m (hitMember m (overwritten m.data k b)) = ofData goCrc32 := by
    funext x
    by_cases hx : x = hitMember m (overwritten m.data k b)
    · subst hx
      rw [hitSum_self]
      exact (hc k hk hloc).symm
    · exact hitSum_other hx
  rw [← this]
  exact hzip

end Grate.Zip
