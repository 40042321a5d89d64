import Verif.Props.ZipDamage
import Verif.Props.ZipWitness

/-! # C142: cases that meet the hypotheses -/

namespace Grate.Props

open Grate Grate.Spec Grate.Xlsx Grate.Api Grate.Zip

namespace ZipProps

theorem place_append (sum : Bytes → Nat) (ys : List Piece) : ∀ (xs : List Piece) (off : Nat),
    place sum off (xs ++ ys) = place sum off xs ++ place sum (off + (xs.flatMap (localBytes sum)).length) ys
  | [], off => by simp [place]
  | x :: xs, off => by
    simp only [List.cons_append, place, place_append sum ys xs, List.flatMap_cons, List.length_append, Nat.add_assoc]

theorem place_at (sum : Bytes → Nat) (post : Bytes) : ∀ (ps : List Piece) (pre : Bytes), (∀ p ∈ ps, p.name.length < 65536) →
    ∀ m ∈ place sum pre.length ps, ∃ start, LocalData (sum m.data) (pre ++ (ps.flatMap (localBytes sum) ++ post)) m start ∧
      pre.length ≤ m.offset ∧ start + m.packed.length + descrRoom m ≤ pre.length + (ps.flatMap (localBytes sum)).length
  | [], _, _, _, h => by simp [place] at h
  | p :: ps, pre, hn, m, h => by
    simp only [place, List.mem_cons] at h
    rcases h with rfl | h
    · refine ⟨_, ⟨pre, [20, 0], leBytes 4 0, leBytes 12 0, [], descrBytes sum p ++ (ps.flatMap (localBytes sum) ++ post), rfl, rfl,
        Cfb.leBytes_length _ _, Cfb.leBytes_length _ _, hn p List.mem_cons_self, by decide, ?_, ?_, rfl⟩, Nat.le_refl _, ?_⟩
      · unfold descrBytes
        cases hp : p.descr with
        | true =>
          simp only [if_true, List.append_assoc]
          exact .signed _ (by simp only [flagsOf, hp]; decide)
        | false => exact .plain _ (by simp only [flagsOf, hp]; decide)
      · simp only [List.flatMap_cons, localBytes, List.append_assoc]
      · have hr : descrRoom ⟨p.name, p.data, p.data, 0, flagsOf p, pre.length⟩ = if p.descr then 16 else 0 := by
          unfold descrRoom flagsOf
          cases p.descr <;> simp [show Nat.testBit 8 3 = true by decide]
        rw [hr, List.flatMap_cons, List.length_append, localBytes_length]
        simp only [List.length_nil]
        omega
    · obtain ⟨s, h1, h2, h3⟩ := place_at sum post ps (pre ++ localBytes sum p) (fun q hq => hn q (List.mem_cons_of_mem _ hq)) m
        (by rw [List.length_append]; exact h)
      simp only [List.flatMap_cons, List.append_assoc, List.length_append] at h1 h2 h3 ⊢
      exact ⟨s, h1, by omega, by omega⟩

/-- Bytes of the data of a part of an archive can be hit. -/
theorem zipOf_hit (inflate : Bytes → Bytes × GoErr) (crc : Bytes → Nat) (hc : ∀ d, crc d < 2 ^ 32) (xs : List Piece) (p : Piece)
    (ys : List Piece) (hs : small (xs ++ p :: ys) = true) (hx : ∀ x ∈ xs, x.name ≠ p.name) (k : Nat) (b : Bytes)
    (hk : k + b.length ≤ p.data.length) (hne : overwritten p.data k b ≠ p.data) :
    ∃ before m after start, place crc 0 (xs ++ p :: ys) = before ++ m :: after ∧ m.name = p.name ∧ m.data = p.data ∧
      m.flags = flagsOf p ∧ LocalData (crc m.data) (zipOf crc (xs ++ p :: ys)) m start ∧
      Hit inflate crc (zipOf crc (xs ++ p :: ys)) before m after (start + k) b := by
  have hsm := hs
  unfold small at hsm
  simp only [Bool.and_eq_true, List.all_eq_true, decide_eq_true_eq] at hsm
  obtain ⟨⟨hn, hf⟩, hd⟩ := hsm
  rw [← front_length crc] at hf
  rw [← ZipProps.dir_length crc] at hd
  have hzip := small_is inflate crc hc (xs ++ p :: ys) hs
  have hlay := zipOf_layout crc (xs ++ p :: ys) (by omega) hd
  generalize hfile : zipOf crc (xs ++ p :: ys) = file at *
  have hpl : place crc 0 (xs ++ p :: ys) = place crc 0 xs ++ ⟨p.name, p.data, p.data, 0, flagsOf p, (xs.flatMap (localBytes crc)).length⟩ ::
      place crc ((xs.flatMap (localBytes crc)).length + (localBytes crc p).length) ys := by
    rw [place_append]
    simp only [place, Nat.zero_add]
  have hfront : frontBytes crc (xs ++ p :: ys) = xs.flatMap (localBytes crc) ++ (localBytes crc p ++ ys.flatMap (localBytes crc)) := by
    unfold frontBytes
    rw [List.flatMap_append, List.flatMap_cons]
  obtain ⟨rest, hrest⟩ : ∃ rest, file = frontBytes crc (xs ++ p :: ys) ++ rest := ⟨_, hfile.symm⟩
  rw [hfront] at hrest
  have hps : ∀ q, q ∈ xs ∨ q = p ∨ q ∈ ys → q.name.length < 65536 := fun q hq => hn q (by simp only [List.mem_append, List.mem_cons]; exact hq)
  have hX := place_at crc (localBytes crc p ++ (ys.flatMap (localBytes crc) ++ rest)) xs [] (fun q hq => hps q (.inl hq))
  have hP := place_at crc (ys.flatMap (localBytes crc) ++ rest) [p] (xs.flatMap (localBytes crc))
    (fun q hq => hps q (.inr (.inl (by simpa using hq))))
  have hY := place_at crc rest ys (xs.flatMap (localBytes crc) ++ localBytes crc p) (fun q hq => hps q (.inr (.inr hq)))
  simp only [List.nil_append, List.length_nil, Nat.zero_add, List.append_assoc, List.length_append, List.flatMap_cons, List.flatMap_nil,
    List.append_nil] at hX hP hY hrest
  rw [← hrest] at hX hP hY
  obtain ⟨start, hl, ho, he⟩ := hP ⟨p.name, p.data, p.data, 0, flagsOf p, (xs.flatMap (localBytes crc)).length⟩ (by simp [place])
  have hst := local_start hl
  simp only at hst he
  refine ⟨_, _, _, start, hpl, rfl, rfl, rfl, hl, ?_⟩
  rw [hpl] at hzip hlay
  refine ⟨hzip, ?_, rfl, ⟨start, hl, by omega, by show _ ≤ start + p.data.length; omega⟩, ⟨_, hlay, ?_⟩, ?_, ?_⟩
  · intro x hxm
    have : (x.name, x.data) ∈ xs.map (fun q => (q.name, q.data)) := by
      rw [← place_map crc xs 0]
      exact List.mem_map_of_mem (f := fun m : Member => (m.name, m.data)) hxm
    obtain ⟨q, hq, e⟩ := List.mem_map.1 this
    simp only [Prod.mk.injEq] at e
    show x.name ≠ p.name
    rw [← e.1]
    exact hx q hq
  · rw [hfront]
    simp only [List.length_append]
    omega
  · rintro x (h | h)
    · obtain ⟨s, h1, _, h3⟩ := hX x h
      exact ⟨s, h1, .inr (by omega)⟩
    · obtain ⟨s, h1, h2, _⟩ := hY x h
      exact ⟨s, h1, .inl (by omega)⟩
  · intro e
    refine hne ?_
    obtain ⟨before, made, time, sizes, extra, after, g0, g1, g2, g3, g4, g5, ha, hfl, hs'⟩ := hl
    rw [local_split] at hfl
    have hlen : (before ++ ([0x50, 0x4B, 3, 4] ++ (made ++ (leBytes 2 (flagsOf p) ++ (leBytes 2 0 ++ (time ++ (sizes ++
      (leBytes 2 p.name.length ++ (leBytes 2 extra.length ++ (p.name ++ extra))))))))) : Bytes).length = start := by
      simp only [List.length_append, Cfb.leBytes_length, List.length_cons, List.length_nil]
      simp only at g0 hs'
      omega
    rw [hfl, over_right (by simp only; omega)] at e
    have e2 := List.append_cancel_left e
    simp only at e2
    rw [hlen, Nat.add_sub_cancel_left, over_left hk] at e2
    exact List.append_cancel_right e2

end ZipProps

/-- The check value of the checksum in the standards, and the checksum of nothing. -/
example : goCrc32 (lit "123456789") = 0xcbf43926 ∧ goCrc32 [] = 0 := by decide +kernel

namespace ZipProps

/-- What has to be computed for the examples. -/
def hitCheck (j : Nat) (n : Bytes) (k : Nat) (b : Bytes) : Bool :=
  match exPieces[j]? with
  | none => false
  | some p => decide (exPieces = exPieces.take j ++ p :: exPieces.drop (j + 1)) && decide (p.name = n) &&
    (exPieces.take j).all (fun x => decide (x.name ≠ n)) && decide (k + b.length ≤ p.data.length) &&
    decide (overwritten p.data k b ≠ p.data) && (p.descr || decide (goCrc32 p.data ≠ 0))

theorem exHit (inflate : Bytes → Bytes × GoErr) (T : XmlTables) (j : Nat) (n : Bytes) (k : Nat) (b : Bytes) (h : hitCheck j n k b = true) :
    ∃ before m after start, Hit inflate goCrc32 (zipOf goCrc32 exPieces) before m after (start + k) b ∧
      LocalData (goCrc32 m.data) (zipOf goCrc32 exPieces) m start ∧ m.name = n ∧ some m.data = exPieces[j]?.map Piece.data ∧
      (m.flags.testBit 3 = true ∨ goCrc32 m.data ≠ 0) ∧ NotCompound (zipOf goCrc32 exPieces) ∧
      XlsxFile (Xlsx.Files.archive T (membersOf (before ++ m :: after))) [lit "xl"] (lit "workbook.xml") exXlsxBook := by
  unfold hitCheck at h
  split at h
  · cases h
  · rename_i p hp
    simp only [Bool.and_eq_true, decide_eq_true_eq, List.all_eq_true, Bool.or_eq_true] at h
    obtain ⟨⟨⟨⟨⟨h1, h2⟩, h3⟩, h4⟩, h5⟩, h6⟩ := h
    have hs : small exPieces = true := by decide +kernel
    obtain ⟨before, m, after, start, e1, e2, e3, e4, hl, hh⟩ := zipOf_hit inflate goCrc32 goCrc32_lt (exPieces.take j) p
      (exPieces.drop (j + 1)) (by rw [← h1]; exact hs) (fun x hx => by rw [h2]; exact h3 x hx) k b h4 h5
    rw [← h1] at hh e1 hl
    refine ⟨before, m, after, start, hh, hl, by rw [e2, h2], by rw [hp, e3]; rfl, ?_, .inl ?_, ?_⟩
    · rw [e3, e4]
      rcases h6 with h6 | h6
      · left
        unfold flagsOf
        rw [h6]
        decide
      · exact .inr h6
    · rintro ⟨t, ht⟩
      have : (zipOf goCrc32 exPieces).take 1 = [0x50] := rfl
      rw [← ht] at this
      cases this
    · rw [← e1, membersOf_place]
      exact (writes_marked T C95_witness.1).xlsxFile C61_witness

end ZipProps

/-- **C142.** The document of C61 with four bytes of a sheet replaced meets the hypotheses of `C142_member` and `C142_sheet_partial`; with
one byte of the strings replaced (a member with a data descriptor) those of `C142_open`. -/
theorem C142_witness (inflate : Bytes → Bytes × GoErr) (T : XmlTables) :
    (∃ file before m after i, Hit inflate goCrc32 file before m after i (lit "evil") ∧ m.name = lit "xl/worksheets/sheet1.xml" ∧
      (m.flags.testBit 3 = true ∨ goCrc32 m.data ≠ 0) ∧ NotCompound file ∧
      XlsxFile (Xlsx.Files.archive T (membersOf (before ++ m :: after))) [lit "xl"] (lit "workbook.xml") exXlsxBook ∧
      m.name ≠ lit "_rels/.rels" ∧ ¬ CorePart [lit "xl"] (lit "workbook.xml") exXlsxBook m.name) ∧
    (∃ file before m after i, Hit inflate goCrc32 file before m after i (lit "?") ∧ m.name = lit "strings.xml" ∧
      (m.flags.testBit 3 = true ∨ goCrc32 m.data ≠ 0) ∧ NotCompound file ∧
      XlsxFile (Xlsx.Files.archive T (membersOf (before ++ m :: after))) [lit "xl"] (lit "workbook.xml") exXlsxBook ∧
      CorePart [lit "xl"] (lit "workbook.xml") exXlsxBook m.name) := by
  obtain ⟨before, m, after, s, h1, _, h3, _, h5, h6, h7⟩ :=
    ZipProps.exHit inflate T 4 (lit "xl/worksheets/sheet1.xml") 10 (lit "evil") (by decide +kernel)
  obtain ⟨before', m', after', s', g1, _, g3, _, g5, g6, g7⟩ :=
    ZipProps.exHit inflate T 3 (lit "strings.xml") 7 (lit "?") (by decide +kernel)
  exact ⟨⟨_, _, m, _, _, h1, h3, h5, h6, h7, by rw [h3]; decide +kernel, by rw [h3]; exact C125_witness.2.2.1.2.2.1⟩,
    ⟨_, _, m', _, _, g1, g3, g5, g6, g7, by rw [g3]; exact C125_witness.2.1.2.2.2.1⟩⟩

/-- **C142.** Five bytes of a sheet of the document of C61 meet the hypotheses of `C142_five_counterexample`. -/
theorem C142_five_witness (inflate : Bytes → Bytes × GoErr) (T : XmlTables) :
    ∃ file before m after start pre post a b c d e, m.data = pre ++ ([a, b, c, d, e] ++ post) ∧
      LocalData (goCrc32 m.data) file m start ∧ Hit inflate goCrc32 file before m after (start + pre.length) (fiveBytes a b c d e) := by
  obtain ⟨before, m, after, s, h1, h2, _, h4, _⟩ :=
    ZipProps.exHit inflate T 4 (lit "xl/worksheets/sheet1.xml") 0 (fiveBytes 0x3c 0x63 0x20 0x72 0x3d) (by decide +kernel)
  have hf : ((exPieces[4]?.map Piece.data).getD []).take 5 = [0x3c, 0x63, 0x20, 0x72, 0x3d] := by decide +kernel
  rw [← h4] at hf
  simp only [Option.getD_some] at hf
  refine ⟨_, before, m, after, s, [], m.data.drop 5, 0x3c, 0x63, 0x20, 0x72, 0x3d, ?_, h2, h1⟩
  rw [List.nil_append, ← hf, List.take_append_drop]

end Grate.Props
