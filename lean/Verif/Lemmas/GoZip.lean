import Verif.Model.GoZip
import Verif.Spec.Zip
import Verif.Lemmas.CfbLoad
import Verif.Props.Cfb

/-! # Lemmas about reading zip archives -/

namespace Grate.Zip

open Grate Grate.Cfb Spec

theorem field_past4 (a b c d : UInt8) (r : Bytes) (i k : Nat) (h : 4 ≤ i) : field ([a, b, c, d] ++ r) i k = field r (i - 4) k :=
  field_skip _ _ _ _ h

theorem drop_past4 (a b c d : UInt8) (r : Bytes) (i : Nat) (h : 4 ≤ i) : ([a, b, c, d] ++ r).drop i = r.drop (i - 4) :=
  drop_skip _ _ _ h

theorem drop_le (k n : Nat) (b : Bytes) (i : Nat) (h : k ≤ i) : (leBytes k n ++ b).drop i = b.drop (i - k) := by
  rw [drop_skip _ _ _ (by rw [leBytes_length]; exact h), leBytes_length]

theorem field_first4 (a b c d : UInt8) (r : Bytes) : field ([a, b, c, d] ++ r) 0 4 = leNat [a, b, c, d] := rfl

theorem field_drop (b : Bytes) (o i k : Nat) : field (b.drop o) i k = field b (o + i) k := by
  unfold field
  rw [List.drop_drop]

theorem prefix_of_field {b s : Bytes} (hs : s.length = 4) (hl : 4 ≤ b.length) (h : field b 0 4 = leNat s) : s <+: b := by
  unfold field at h
  rw [List.drop_zero] at h
  have := Props.leNat_inj _ _ (by rw [List.length_take]; omega) h
  rw [← this]
  exact List.take_prefix _ _

/-! ### The end record -/

theorem findSig_some {b : Bytes} {p : Nat} (hp : endAt b p = true) : ∀ n, p < n → (∀ i, p < i → i < n → endAt b i = false) →
    findSig b n = some p
  | 0, h, _ => by omega
  | n + 1, h, hi => by
    unfold findSig
    by_cases e : n = p
    · subst e
      rw [if_pos hp]
    · rw [if_neg (by rw [hi n (by omega) (by omega)]; simp)]
      exact findSig_some hp n (by omega) (fun i h1 h2 => hi i h1 (by omega))

theorem findSig_none {b : Bytes} : ∀ n, (∀ i, i < n → endAt b i = false) → findSig b n = none
  | 0, _ => rfl
  | n + 1, hi => by
    unfold findSig
    rw [if_neg (by rw [hi n (by omega)]; simp)]
    exact findSig_none n (fun i h => hi i (by omega))

/-- No end record can be seen after the one that is there. -/
theorem endAt_later {pre fin : Bytes} {o i : Nat} (hs : ∀ j, 0 < j → j + 22 ≤ fin.length → ¬ [0x50, 0x4B, 5, 6] <+: fin.drop j)
    (h1 : pre.length < o + i) (h2 : o + i + 22 ≤ (pre ++ fin).length) : endAt ((pre ++ fin).drop o) i = false := by
  refine Bool.eq_false_iff.2 (fun hc => ?_)
  unfold endAt at hc
  rw [Bool.and_eq_true, beq_iff_eq, field_drop] at hc
  rw [List.length_append] at h2
  rw [field_skip _ _ _ _ (by omega)] at hc
  refine hs (o + i - pre.length) (by omega) (by omega) (prefix_of_field rfl (by rw [List.length_drop]; omega) ?_)
  rw [field_drop, Nat.add_zero, hc.1]
  decide

theorem findIn_some {pre fin : Bytes} {k : Nat} (hs : ∀ j, 0 < j → j + 22 ≤ fin.length → ¬ [0x50, 0x4B, 5, 6] <+: fin.drop j)
    (h0 : field fin 0 4 = 0x06054b50) (hn : field fin 20 2 + 22 ≤ fin.length) (hk : k ≤ (pre ++ fin).length) (hf : fin.length ≤ k) :
    findIn (pre ++ fin) k = some pre.length := by
  unfold findIn
  have hl : (pre ++ fin).length = pre.length + fin.length := List.length_append
  rw [findSig_some (p := pre.length - ((pre ++ fin).length - k)) ?_ _ (by omega) ?_]
  · simp only [Option.map_some, Option.some.injEq]
    omega
  · unfold endAt
    rw [Bool.and_eq_true, beq_iff_eq, field_drop, field_drop, field_skip _ _ _ _ (by omega), field_skip _ _ _ _ (by omega),
      List.length_drop]
    rw [show (pre ++ fin).length - k + (pre.length - ((pre ++ fin).length - k)) - pre.length = 0 by omega,
      show (pre ++ fin).length - k + (pre.length - ((pre ++ fin).length - k) + 20) - pre.length = 20 by omega]
    exact ⟨h0, by simp only [decide_eq_true_eq]; omega⟩
  · intro i h1 h2
    exact endAt_later hs (by omega) (by omega)

theorem findIn_none {pre fin : Bytes} {k : Nat} (hs : ∀ j, 0 < j → j + 22 ≤ fin.length → ¬ [0x50, 0x4B, 5, 6] <+: fin.drop j)
    (hf : k < fin.length) : findIn (pre ++ fin) k = none := by
  unfold findIn
  have hl : (pre ++ fin).length = pre.length + fin.length := List.length_append
  rw [findSig_none _ (fun i hi => endAt_later hs (by omega) (by omega))]
  rfl

theorem findEnd_some {pre fin : Bytes} (hs : ∀ j, 0 < j → j + 22 ≤ fin.length → ¬ [0x50, 0x4B, 5, 6] <+: fin.drop j)
    (h0 : field fin 0 4 = 0x06054b50) (hn : field fin 20 2 + 22 ≤ fin.length) (hl : fin.length ≤ 66560) :
    findEnd (pre ++ fin) = some pre.length := by
  unfold findEnd
  have hl' : (pre ++ fin).length = pre.length + fin.length := List.length_append
  by_cases h : fin.length ≤ min 1024 (pre ++ fin).length
  · rw [findIn_some hs h0 hn (by omega) h]
  · rw [findIn_none hs (by omega)]
    simp only
    rw [if_neg (by omega), findIn_some hs h0 hn (by omega) (by omega)]

theorem endRecord_fields {count size offset : Nat} {comment fin : Bytes} (h : EndRecord count size offset comment fin)
    (hs : size < 2 ^ 32) (ho : offset < 2 ^ 32) (hc : comment.length < 65536) :
    field fin 0 4 = 0x06054b50 ∧ field fin 10 2 = count % 65536 ∧ field fin 12 4 = size ∧ field fin 16 4 = offset ∧
      field fin 20 2 = comment.length ∧ fin.length = 22 + comment.length := by
  obtain ⟨disks, here, hd, hh, rfl⟩ := h
  refine ⟨by rw [field_first4]; decide, ?_, ?_, ?_, ?_, ?_⟩
  · simp (disch := omega) only [field_past4, field_skip, hd, hh, Nat.reduceSub]
    exact field_here 2 _ _
  · simp (disch := omega) only [field_past4, field_skip, field_le, hd, hh, Nat.reduceSub]
    rw [field_here]
    exact Nat.mod_eq_of_lt (by omega)
  · simp (disch := omega) only [field_past4, field_skip, field_le, hd, hh, Nat.reduceSub]
    rw [field_here]
    exact Nat.mod_eq_of_lt (by omega)
  · simp (disch := omega) only [field_past4, field_skip, field_le, hd, hh, Nat.reduceSub]
    rw [field_here]
    exact Nat.mod_eq_of_lt (by omega)
  · simp only [List.length_append, leBytes_length, hd, hh, List.length_cons, List.length_nil]
    omega

theorem readEnd_of {Z : ZipLib} {pre fin comment : Bytes} {count size offset : Nat} (h : EndRecord count size offset comment fin)
    (hs : size < 2 ^ 32) (ho : offset < 2 ^ 32) (hc : comment.length < 65536)
    (hlater : ∀ i, 0 < i → i ≤ comment.length → ¬ [0x50, 0x4B, 5, 6] <+: fin.drop i)
    (hloc : ∀ before last, pre = before ++ last → last.length = 20 → ¬ [0x50, 0x4B, 6, 7] <+: last) (hoff : offset ≤ pre.length) :
    readEnd Z (pre ++ fin) = .ok ⟨count % 65536, size, offset⟩ := by
  obtain ⟨f0, f10, f12, f16, f20, fl⟩ := endRecord_fields h hs ho hc
  unfold readEnd
  rw [findEnd_some (fun j h1 h2 => hlater j h1 (by omega)) f0 (by omega) (by omega)]
  have fs : ∀ i k, field (pre ++ fin) (pre.length + i) k = field fin i k := fun i k => by
    rw [field_skip _ _ _ _ (by omega), Nat.add_sub_cancel_left]
  simp only [fs, f10, f12, f16, f20, List.length_append]
  rw [if_neg (by omega), if_neg ?_]
  · simp only
    rw [if_neg (by omega)]
  · rintro ⟨_, h20, hf⟩
    refine hloc (pre.take (pre.length - 20)) (pre.drop (pre.length - 20)) (List.take_append_drop _ _).symm
      (by rw [List.length_drop]; omega) (prefix_of_field rfl (by rw [List.length_drop]; omega) ?_)
    rw [field_drop, Nat.add_zero, field_prefix' (by omega)]
    rw [hf]
    decide
where
  field_prefix' {a b : Bytes} {i n : Nat} (hl : i + n ≤ a.length) : field a i n = field (a ++ b) i n := by
    unfold field
    rw [List.drop_append_of_le_length (by omega), List.take_append_of_le_length (by rw [List.length_drop]; omega)]

/-! ### The directory -/

/-- The header that is read of a member. -/
def entryOf (crc : Member → Nat) (m : Member) : Entry :=
  ⟨m.name, m.flags, m.method, crc m, m.packed.length, m.data.length, m.offset⟩

/-- What `ZipFile` says of one member, without its place. -/
def MemberOk (Z : ZipLib) (sum : Member → Nat) (m : Member) : Prop :=
  sum m < 2 ^ 32 ∧ Packed Z.inflate m ∧ m.packed.length < 2 ^ 32 - 1 ∧ m.data.length < 2 ^ 32 - 1 ∧ m.offset < 2 ^ 32 - 1 ∧
    m.flags < 65536 ∧ m.name.length < 65536

theorem method_lt {Z : ZipLib} {m : Member} (h : Packed Z.inflate m) : m.method = 0 ∨ m.method = 8 := by
  cases h with
  | stored h _ => exact .inl h
  | deflated h _ => exact .inr h

theorem readHeader_of {Z : ZipLib} {sum : Member → Nat} {m : Member} (hm : MemberOk Z sum m) {bs : Bytes} (h : CentralHeader (sum m) m bs)
    (rest : Bytes) : readHeader Z (bs ++ rest) = .ok (entryOf sum m, rest) ∧ 46 ≤ bs.length := by
  obtain ⟨hcrc, hp, hpl, hdl, hof, hfl, hnl⟩ := hm
  have hme := method_lt hp
  obtain ⟨made, time, attrs, extra, comment, h1, h2, h3, h4, h5, rfl⟩ := h
  generalize hc : sum m = crc at *
  have hlen : 46 + (m.name.length + extra.length + comment.length) = ([0x50, 0x4B, 1, 2] ++ (made ++ (leBytes 2 m.flags ++
      (leBytes 2 m.method ++ (time ++ (leBytes 4 crc ++ (leBytes 4 m.packed.length ++ (leBytes 4 m.data.length ++
      (leBytes 2 m.name.length ++ (leBytes 2 extra.length ++ (leBytes 2 comment.length ++ (attrs ++ (leBytes 4 m.offset ++
      (m.name ++ (extra ++ comment)))))))))))))) : Bytes).length := by
    simp only [List.length_append, leBytes_length, h1, h2, h3, List.length_cons, List.length_nil]
    omega
  refine ⟨?_, by omega⟩
  simp only [List.append_assoc]
  unfold readHeader readFull
  rw [if_pos (by
    simp only [List.length_append, leBytes_length, h1, h2, h3, List.length_cons, List.length_nil]
    omega)]
  simp only
  rw [if_neg (by rw [field_first4]; decide)]
  simp (disch := omega) only [field_past4, field_skip, field_le, drop_past4, drop_le, drop_skip, h1, h2, h3, Nat.reduceSub, field_here,
    List.drop_zero]
  have e1 : m.name.length % 256 ^ 2 = m.name.length := Nat.mod_eq_of_lt (by omega)
  have e2 : extra.length % 256 ^ 2 = extra.length := Nat.mod_eq_of_lt (by omega)
  have e3 : comment.length % 256 ^ 2 = comment.length := Nat.mod_eq_of_lt (by omega)
  have e4 : m.flags % 256 ^ 2 = m.flags := Nat.mod_eq_of_lt (by omega)
  have e5 : m.method % 256 ^ 2 = m.method := Nat.mod_eq_of_lt (by omega)
  have e6 : crc % 256 ^ 4 = crc := Nat.mod_eq_of_lt (by omega)
  have e7 : m.packed.length % 256 ^ 4 = m.packed.length := Nat.mod_eq_of_lt (by omega)
  have e8 : m.data.length % 256 ^ 4 = m.data.length := Nat.mod_eq_of_lt (by omega)
  have e9 : m.offset % 256 ^ 4 = m.offset := Nat.mod_eq_of_lt (by omega)
  simp only [e1, e2, e3, e4, e5, e6, e7, e8, e9]
  rw [if_pos (by simp only [List.length_append]; omega)]
  simp only
  rw [if_neg (by omega)]
  simp only [List.take_left]
  rw [show m.name.length + extra.length + comment.length - m.name.length - extra.length - comment.length = 0 by omega]
  simp only [List.drop_zero, entryOf, hc]

theorem readDir_of {Z : ZipLib} {sum : Member → Nat} {tail : Bytes} {s : Stop} (ht : readHeader Z tail = .error s) : ∀ {ms : List Member} {dir : Bytes},
    Directory sum ms dir → (∀ m ∈ ms, MemberOk Z sum m) → ∀ fuel, dir.length < fuel →
    readDir Z fuel (dir ++ tail) = (ms.map (entryOf sum), s)
  | _, _, .nil, _, 0, h => by simp at h
  | _, _, .nil, _, n + 1, _ => by
    simp only [List.nil_append, readDir, ht, List.map_nil]
  | _, _, .cons _ _ _ _ _ _, _, 0, h => by omega
  | _, _, .cons m ms bs rest hb hr, hm, n + 1, h => by
    obtain ⟨h1, h2⟩ := readHeader_of (hm m List.mem_cons_self) hb (rest ++ tail)
    rw [List.length_append] at h
    have := readDir_of ht hr (fun m' h' => hm m' (List.mem_cons_of_mem _ h')) n (by omega)
    unfold readDir
    rw [List.append_assoc, h1]
    simp only [this, List.map_cons]

/-! ### The members -/

theorem descriptor_of {crc : Nat} (hc : crc < 2 ^ 32) {m : Member} {after : Bytes} (h : AfterData crc m after)
    (hf : m.flags.testBit 3 = true) : descriptor after crc = none := by
  have e : crc % 256 ^ 4 = crc := Nat.mod_eq_of_lt (by omega)
  cases h with
  | plain _ h => rw [hf] at h; cases h
  | signed rest _ =>
    unfold descriptor
    have ht : ([0x50, 0x4B, 7, 8] ++ (leBytes 4 crc ++ (leBytes 4 m.packed.length ++ (leBytes 4 m.data.length ++ rest))) : Bytes).take 16 =
        [0x50, 0x4B, 7, 8] ++ (leBytes 4 crc ++ (leBytes 4 m.packed.length ++ leBytes 4 m.data.length)) := by
      rw [← List.append_assoc (leBytes 4 m.packed.length), ← List.append_assoc (leBytes 4 crc), ← List.append_assoc [0x50, 0x4B, 7, 8],
        List.take_left' (by simp [leBytes_length])]
    simp only [ht]
    have hsig : field ([0x50, 0x4B, 7, 8] ++ (leBytes 4 crc ++ (leBytes 4 m.packed.length ++ leBytes 4 m.data.length)) : Bytes) 0 4 =
        0x08074b50 := by rw [field_first4]; decide
    rw [if_neg (by simp [leBytes_length]), if_pos hsig]
    have hd : ([0x50, 0x4B, 7, 8] ++ (leBytes 4 crc ++ (leBytes 4 m.packed.length ++ leBytes 4 m.data.length)) : Bytes).drop 4 =
        leBytes 4 crc ++ (leBytes 4 m.packed.length ++ leBytes 4 m.data.length) := rfl
    rw [hd, if_neg (by simp [leBytes_length]), field_here, e, if_neg (by simp)]
  | unsigned rest _ hne =>
    unfold descriptor
    have ht : (leBytes 4 crc ++ (leBytes 4 m.packed.length ++ (leBytes 4 m.data.length ++ rest)) : Bytes).take 16 =
        leBytes 4 crc ++ (leBytes 4 m.packed.length ++ (leBytes 4 m.data.length ++ rest.take 4)) := by
      simp [List.take_append, leBytes_length, List.take_of_length_le]
    have h7 : ¬ crc = 0x08074b50 := by
      intro h7
      apply hne
      rw [h7]
      decide
    simp only [ht, field_here, e, if_neg h7]
    rw [if_neg (by simp [leBytes_length]), if_neg (by simp [leBytes_length]; omega), if_neg (by simp)]

/-- The error that a member ends with: the checksum `sum` is in the directory. -/
def endOf (Z : ZipLib) (sum : Member → Nat) (m : Member) : GoErr :=
  if (m.flags.testBit 3 = true ∨ sum m ≠ 0) ∧ Z.crc m.data ≠ sum m then errChecksum else .eof

theorem checksum_of {Z : ZipLib} {sum : Member → Nat} {m : Member} (hm : MemberOk Z sum m) {after : Bytes}
    (h : AfterData (sum m) m after) : checksum Z (entryOf sum m) m.data after = endOf Z sum m := by
  unfold checksum entryOf endOf
  simp only
  rw [if_neg (by simp)]
  by_cases hf : m.flags.testBit 3 = true
  · rw [if_pos hf, descriptor_of hm.1 h hf]
    simp [hf]
  · rw [if_neg hf]
    simp [hf]

theorem contents_of {Z : ZipLib} {sum : Member → Nat} {m : Member} (hm : MemberOk Z sum m) {file : Bytes} (h : LocalAt (sum m) file m) :
    contents Z file (entryOf sum m) = .ok (m.data, endOf Z sum m) := by
  obtain ⟨_, before, made, time, sizes, extra, after, h0, h1, h2, h3, h4, h5, ha, rfl, _⟩ := h
  have e1 : m.name.length % 256 ^ 2 = m.name.length := Nat.mod_eq_of_lt (by omega)
  have e2 : extra.length % 256 ^ 2 = extra.length := Nat.mod_eq_of_lt (by omega)
  generalize hL : ([0x50, 0x4B, 3, 4] ++ (made ++ (leBytes 2 m.flags ++ (leBytes 2 m.method ++ (time ++ (sizes ++
      (leBytes 2 m.name.length ++ (leBytes 2 extra.length ++ (m.name ++ (extra ++ (m.packed ++ after)))))))))) : Bytes) = L
  have fs : ∀ i k, field (before ++ L) (m.offset + i) k = field L i k := fun i k => by
    rw [field_skip _ _ _ _ (by omega), h0, Nat.add_sub_cancel_left]
  have ds : ∀ i, (before ++ L).drop (m.offset + i) = L.drop i := fun i => by
    rw [drop_skip _ _ _ (by omega), h0, Nat.add_sub_cancel_left]
  have f0 : field L 0 4 = 0x04034b50 := by rw [← hL, field_first4]; decide
  have f26 : field L 26 2 = m.name.length := by
    rw [← hL]
    simp (disch := omega) only [field_past4, field_skip, field_le, h1, h2, h3, Nat.reduceSub, field_here, e1]
  have f28 : field L 28 2 = extra.length := by
    rw [← hL]
    simp (disch := omega) only [field_past4, field_skip, field_le, h1, h2, h3, Nat.reduceSub, field_here, e2]
  have hlen : 30 + m.name.length + extra.length + m.packed.length + after.length = L.length := by
    rw [← hL]
    simp only [List.length_append, leBytes_length, h1, h2, h3, List.length_cons, List.length_nil]
    omega
  have hd30 : L.drop 30 = m.name ++ (extra ++ (m.packed ++ after)) := by
    rw [← hL]
    simp (disch := omega) only [drop_past4, drop_le, drop_skip, h1, h2, h3, Nat.reduceSub, List.drop_zero]
  have hd : L.drop (30 + m.name.length + extra.length) = m.packed ++ after := by
    rw [Nat.add_assoc, ← List.drop_drop, hd30, ← List.drop_drop, List.drop_left, List.drop_left]
  have hb : bodyOffset (before ++ L) (entryOf sum m) = .ok (m.offset + (30 + m.name.length + extra.length)) := by
    unfold bodyOffset entryOf
    have f0' := fs 0 4
    rw [Nat.add_zero] at f0'
    simp only [fs, f0', f0, f26, f28]
    rw [if_neg (by rw [List.length_append]; omega), if_neg (by simp)]
  unfold contents
  rw [hb]
  simp only
  have hraw : ((before ++ L).drop (m.offset + (30 + m.name.length + extra.length))).take (entryOf sum m).csize = m.packed := by
    rw [ds, hd]
    exact List.take_left
  have hafter : (before ++ L).drop (m.offset + (30 + m.name.length + extra.length) + (entryOf sum m).csize) = after := by
    rw [← List.drop_drop, ds, hd]
    exact List.drop_left
  rw [hraw, hafter]
  cases hm.2.1 with
  | stored hs hp =>
    have hs' : (entryOf sum m).method = 0 := hs
    rw [if_neg (by omega), if_pos hs', hp]
    simp only [checksum_of hm ha]
  | deflated hs hp =>
    have hs' : (entryOf sum m).method = 8 := hs
    rw [if_neg (by omega), if_neg (by omega), hp]
    simp only [checksum_of hm ha]

/-! ### The archive -/

theorem memberOk {Z : ZipLib} {sum : Member → Nat} {file : Bytes} {ms : List Member} (h : ZipFile Z.inflate sum file ms) {m : Member} (hm : m ∈ ms) :
    MemberOk Z sum m := by
  obtain ⟨h1, h2, h3, h4⟩ := h.fits m hm
  obtain ⟨_, _, _, _, _, _, _, _, _, _, _, hn, _⟩ := h.locals m hm
  exact ⟨h.checksums m hm, h.packed m hm, h1, h2, h3, h4, hn⟩

theorem newReader_of {Z : ZipLib} {sum : Member → Nat} {file : Bytes} {ms : List Member} (h : ZipFile Z.inflate sum file ms) :
    newReader Z file = .ok (ms.map (entryOf sum)) := by
  obtain ⟨front, dir, gap, fin, comment, hf, hdir, hend, hdl, hfl, hcl, hg, hl, hloc⟩ := h.layout
  have hfile : file = (front ++ (dir ++ gap)) ++ fin := by rw [hf]; simp only [List.append_assoc]
  obtain ⟨_, _, _, _, _, hfin⟩ := endRecord_fields hend hdl hfl hcl
  have hr : readEnd Z file = .ok ⟨ms.length % 65536, dir.length, front.length⟩ := by
    rw [hfile]
    exact readEnd_of hend hdl hfl hcl hl hloc (by simp only [List.length_append]; omega)
  have hstop : ∃ s, readHeader Z (gap ++ fin) = .error s ∧ (∀ e, s ≠ .fail e) := by
    unfold readHeader readFull
    have hne : (gap ++ fin).length ≠ 0 := by rw [List.length_append]; omega
    by_cases h46 : 46 ≤ (gap ++ fin).length
    · rw [if_pos h46]
      simp only
      rw [if_pos (fun hc => hg (prefix_of_field rfl (by omega) (by rw [hc]; decide)))]
      exact ⟨_, rfl, fun e h => by cases h⟩
    · rw [if_neg h46, if_neg hne]
      exact ⟨_, rfl, fun e h => by cases h⟩
  obtain ⟨s, hs, hsf⟩ := hstop
  have hd : readDir Z (file.length + 1) (file.drop front.length) = (ms.map (entryOf sum), s) := by
    have hdrop : file.drop front.length = dir ++ (gap ++ fin) := by rw [hf, List.drop_left]
    rw [hdrop]
    exact readDir_of hs hdir (fun m hm => memberOk h hm) _ (by rw [hf]; simp only [List.length_append]; omega)
  unfold newReader
  rw [hr]
  simp only [hd]
  cases s with
  | fail e => exact absurd rfl (hsf e)
  | format => simp
  | short => simp

theorem files_of {Z : ZipLib} {sum : Member → Nat} {file : Bytes} {ms : List Member} (h : ZipFile Z.inflate sum file ms) :
    files Z file = .ok (ms.map (fun m => (m.name, .ok (m.data, endOf Z sum m)))) := by
  unfold files
  rw [newReader_of h]
  simp only [Except.map, List.map_map, Except.ok.injEq]
  refine List.map_congr_left (fun m hm => ?_)
  simp only [Function.comp, contents_of (memberOk h hm) (h.locals m hm)]
  rfl

end Grate.Zip
