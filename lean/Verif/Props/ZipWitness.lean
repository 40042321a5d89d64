import Verif.Props.Zip

/-! # C140 and C141: archives that meet the hypotheses -/

namespace Grate.Props

open Grate Grate.Spec Grate.Xlsx Grate.Api Grate.Zip

/-- A part to be stored: its name, its data, and whether a data descriptor follows them. -/
structure Piece where
  name : Bytes
  data : Bytes
  descr : Bool
deriving DecidableEq

namespace ZipProps

def flagsOf (p : Piece) : Nat := if p.descr then 8 else 0

/-- The descriptor. -/
def descrBytes (sum : Bytes → Nat) (p : Piece) : Bytes :=
  if p.descr then [0x50, 0x4B, 7, 8] ++ (leBytes 4 (sum p.data) ++ (leBytes 4 p.data.length ++ leBytes 4 p.data.length)) else []

/-- The local header, the data and the descriptor. -/
def localBytes (sum : Bytes → Nat) (p : Piece) : Bytes :=
  [0x50, 0x4B, 3, 4] ++ ([20, 0] ++ (leBytes 2 (flagsOf p) ++ (leBytes 2 0 ++ (leBytes 4 0 ++ (leBytes 12 0 ++
    (leBytes 2 p.name.length ++ (leBytes 2 ([] : Bytes).length ++ (p.name ++ ([] ++ (p.data ++ descrBytes sum p))))))))))

/-- The header in the directory. -/
def centralBytes (sum : Bytes → Nat) (m : Member) : Bytes :=
  [0x50, 0x4B, 1, 2] ++ ([20, 0, 20, 0] ++ (leBytes 2 m.flags ++ (leBytes 2 m.method ++ (leBytes 4 0 ++ (leBytes 4 (sum m.data) ++
    (leBytes 4 m.packed.length ++ (leBytes 4 m.data.length ++ (leBytes 2 m.name.length ++ (leBytes 2 ([] : Bytes).length ++
      (leBytes 2 ([] : Bytes).length ++ (leBytes 8 0 ++ (leBytes 4 m.offset ++ (m.name ++ ([] ++ []))))))))))))))

/-- The members, from an offset on. -/
def place (sum : Bytes → Nat) : Nat → List Piece → List Member
  | _, [] => []
  | off, p :: ps => ⟨p.name, p.data, p.data, 0, flagsOf p, off⟩ :: place sum (off + (localBytes sum p).length) ps

end ZipProps

open ZipProps

/-- The members one after another. -/
def frontBytes (sum : Bytes → Nat) (ps : List Piece) : Bytes := ps.flatMap (localBytes sum)

/-- The directory. -/
def dirBytes (sum : Bytes → Nat) (ps : List Piece) : Bytes := (place sum 0 ps).flatMap (centralBytes sum)

/-- A zip archive with these parts. -/
def zipOf (sum : Bytes → Nat) (ps : List Piece) : Bytes :=
  frontBytes sum ps ++ (dirBytes sum ps ++ (List.replicate 20 0 ++ ([0x50, 0x4B, 5, 6] ++ (leBytes 4 0 ++ (leBytes 2 ps.length ++
    (leBytes 2 ps.length ++ (leBytes 4 (dirBytes sum ps).length ++ (leBytes 4 (frontBytes sum ps).length ++
      (leBytes 2 ([] : Bytes).length ++ [])))))))))

namespace ZipProps

theorem place_length (sum : Bytes → Nat) : ∀ (ps : List Piece) (off : Nat), (place sum off ps).length = ps.length
  | [], _ => rfl
  | p :: ps, off => by simp only [place, List.length_cons, place_length sum ps]

theorem place_map (sum : Bytes → Nat) : ∀ (ps : List Piece) (off : Nat),
    (place sum off ps).map (fun m => (m.name, m.data)) = ps.map (fun p => (p.name, p.data))
  | [], _ => rfl
  | p :: ps, off => by simp only [place, List.map_cons, place_map sum ps]

theorem place_stored (sum : Bytes → Nat) : ∀ (ps : List Piece) (off : Nat), ∀ m ∈ place sum off ps,
    m.method = 0 ∧ m.packed = m.data ∧ (m.flags = 0 ∨ m.flags = 8)
  | [], _, _, h => by simp [place] at h
  | p :: ps, off, m, h => by
    simp only [place, List.mem_cons] at h
    rcases h with rfl | h
    · refine ⟨rfl, rfl, ?_⟩
      unfold flagsOf
      cases p.descr
      · exact .inl rfl
      · exact .inr rfl
    · exact place_stored sum ps _ m h

theorem place_local (sum : Bytes → Nat) (post : Bytes) : ∀ (ps : List Piece) (pre : Bytes), (∀ p ∈ ps, p.name.length < 65536) →
    ∀ m ∈ place sum pre.length ps, LocalAt (sum m.data) (pre ++ (ps.flatMap (localBytes sum) ++ post)) m ∧
      m.offset ≤ pre.length + (ps.flatMap (localBytes sum)).length ∧ m.data.length ≤ (ps.flatMap (localBytes sum)).length
  | [], _, _, _, h => by simp [place] at h
  | p :: ps, pre, hn, m, h => by
    simp only [place, List.mem_cons] at h
    have hl : p.data.length ≤ (localBytes sum p).length := by
      unfold localBytes
      simp only [List.length_append]
      omega
    rcases h with rfl | h
    · refine ⟨⟨_, pre, [20, 0], leBytes 4 0, leBytes 12 0, [], descrBytes sum p ++ (ps.flatMap (localBytes sum) ++ post), rfl, rfl,
        Cfb.leBytes_length _ _, Cfb.leBytes_length _ _, hn p List.mem_cons_self, by decide, ?_, ?_, rfl⟩, by simp only; omega, ?_⟩
      · unfold descrBytes
        cases hp : p.descr with
        | true =>
          simp only [if_true, List.append_assoc]
          exact .signed _ (by simp only [flagsOf, hp]; decide)
        | false => exact .plain _ (by simp only [flagsOf, hp]; decide)
      · simp only [List.flatMap_cons, localBytes, List.append_assoc]
      · simp only [List.flatMap_cons, List.length_append]
        omega
    · have := place_local sum post ps (pre ++ localBytes sum p) (fun q hq => hn q (List.mem_cons_of_mem _ hq)) m
        (by rw [List.length_append]; exact h)
      simp only [List.flatMap_cons, List.append_assoc, List.length_append] at this ⊢
      exact ⟨this.1, by omega, by omega⟩

theorem place_dir (sum : Bytes → Nat) : ∀ ms : List Member, Directory (ofData sum) ms (ms.flatMap (centralBytes sum))
  | [] => .nil
  | m :: ms => by
    rw [List.flatMap_cons]
    exact .cons m ms _ _ ⟨[20, 0, 20, 0], leBytes 4 0, leBytes 8 0, [], [], rfl, Cfb.leBytes_length _ _, Cfb.leBytes_length _ _, by decide,
      by decide, rfl⟩ (place_dir sum ms)

end ZipProps

theorem zipOf_layout (sum : Bytes → Nat) (ps : List Piece) (hf : (frontBytes sum ps).length < 2 ^ 32)
    (hd : (dirBytes sum ps).length < 2 ^ 32) : Layout (ofData sum) (zipOf sum ps) (place sum 0 ps) (frontBytes sum ps) := by
  refine ⟨_, List.replicate 20 0, _, [], rfl, place_dir sum _, ⟨leBytes 4 0, leBytes 2 ps.length, Cfb.leBytes_length _ _, Cfb.leBytes_length _ _,
    by rw [place_length]⟩, hd, hf, by decide, ?_, ?_, ?_⟩
  · rintro ⟨t, ht⟩
    cases ht
  · intro i h1 h2
    simp only [List.length_nil] at h2
    omega
  · intro before last h1 h2
    rw [← List.append_assoc] at h1
    have := (List.append_inj' h1 (by rw [h2]; rfl)).2
    rw [← this]
    rintro ⟨t, ht⟩
    cases ht

/-- Any parts that are not too large are the parts of an archive. -/
theorem zipOf_is (inflate : Bytes → Bytes × GoErr) (sum : Bytes → Nat) (ps : List Piece) (hs : ∀ d, sum d < 2 ^ 32)
    (hn : ∀ p ∈ ps, p.name.length < 65536) (hf : (frontBytes sum ps).length < 2 ^ 32 - 1) (hd : (dirBytes sum ps).length < 2 ^ 32) :
    ZipFile inflate (ofData sum) (zipOf sum ps) (place sum 0 ps) := by
  have hl := place_local sum (dirBytes sum ps ++ (List.replicate 20 0 ++ ([0x50, 0x4B, 5, 6] ++ (leBytes 4 0 ++ (leBytes 2 ps.length ++
    (leBytes 2 ps.length ++ (leBytes 4 (dirBytes sum ps).length ++ (leBytes 4 (frontBytes sum ps).length ++
      (leBytes 2 ([] : Bytes).length ++ []))))))))) ps [] hn
  refine ⟨fun m _ => hs _, fun m hm => .stored (place_stored sum ps 0 m hm).1 (place_stored sum ps 0 m hm).2.1, ?_,
    fun m hm => (hl m hm).1, ?_⟩
  · intro m hm
    obtain ⟨_, h2, h3⟩ := place_stored sum ps 0 m hm
    obtain ⟨_, h4, h5⟩ := hl m hm
    have e : (ps.flatMap (localBytes sum)).length = (frontBytes sum ps).length := rfl
    rw [e] at h4 h5
    simp only [List.length_nil] at h4
    rw [h2]
    omega
  · exact ⟨_, zipOf_layout sum ps (by omega) hd⟩

/-- The parts of the document of C61, the strings with a data descriptor. -/
def exPieces : List Piece :=
  exZip.map (fun e => ⟨e.1, match e.2 with | .ok p => p.toks.flatMap tokText | .error _ => [], e.1 == lit "strings.xml"⟩)

namespace ZipProps

/-- Sizes do not depend on the checksums. -/
theorem localBytes_length (sum : Bytes → Nat) (p : Piece) :
    (localBytes sum p).length = 30 + p.name.length + p.data.length + (if p.descr then 16 else 0) := by
  unfold localBytes descrBytes
  cases p.descr <;> simp [Cfb.leBytes_length] <;> omega

theorem centralBytes_length (sum : Bytes → Nat) (m : Member) : (centralBytes sum m).length = 46 + m.name.length := by
  unfold centralBytes
  simp [Cfb.leBytes_length]
  omega

theorem front_length (sum : Bytes → Nat) (ps : List Piece) : (frontBytes sum ps).length =
    (ps.map (fun p => 30 + p.name.length + p.data.length + (if p.descr then 16 else 0))).sum := by
  unfold frontBytes
  induction ps with
  | nil => rfl
  | cons p ps ih => simp only [List.flatMap_cons, List.length_append, localBytes_length, List.map_cons, List.sum_cons, ih]

theorem dir_length (sum : Bytes → Nat) (ps : List Piece) : (dirBytes sum ps).length = (ps.map (fun p => 46 + p.name.length)).sum := by
  unfold dirBytes
  have : ∀ (ps : List Piece) (off : Nat), ((place sum off ps).flatMap (centralBytes sum)).length =
      (ps.map (fun p => 46 + p.name.length)).sum := by
    intro ps
    induction ps with
    | nil => intro off; rfl
    | cons p ps ih =>
      intro off
      simp only [place, List.flatMap_cons, List.length_append, centralBytes_length, List.map_cons, List.sum_cons, ih]
  exact this ps 0

/-- Pieces that are small are the parts of an archive, whatever the checksums. -/
def small (ps : List Piece) : Bool :=
  ps.all (fun p => p.name.length < 65536) && (ps.map (fun p => 30 + p.name.length + p.data.length + (if p.descr then 16 else 0))).sum < 2 ^ 32 - 1 &&
    (ps.map (fun p => 46 + p.name.length)).sum < 2 ^ 32

theorem small_is (inflate : Bytes → Bytes × GoErr) (sum : Bytes → Nat) (hs : ∀ d, sum d < 2 ^ 32) (ps : List Piece)
    (h : small ps = true) : ZipFile inflate (ofData sum) (zipOf sum ps) (place sum 0 ps) := by
  unfold small at h
  simp only [Bool.and_eq_true, List.all_eq_true, decide_eq_true_eq] at h
  exact zipOf_is inflate sum ps hs h.1.1 (by rw [front_length]; exact h.1.2) (by rw [dir_length]; exact h.2)

end ZipProps

/-- **C140.** The document of C61 as an archive meets the hypotheses of `C140_file_partial`. -/
theorem C140_witness (Z : ZipLib) (hc : ∀ d, Z.crc d < 2 ^ 32) : ∃ ms, ZipFile Z.inflate (ofData Z.crc) (zipOf Z.crc exPieces) ms ∧
    WritesParts exZip (membersOf ms) ∧ NotCompound (zipOf Z.crc exPieces) ∧
    XlsxFile exZip [lit "xl"] (lit "workbook.xml") exXlsxBook := by
  have hm : membersOf (place Z.crc 0 exPieces) = bytesOf exZip := by
    have := congrArg (List.map (fun p : Bytes × Bytes => ((p.1, .ok (p.2, .eof)) : Bytes × Except GoErr (Bytes × GoErr))))
      (place_map Z.crc exPieces 0)
    simp only [List.map_map] at this
    exact this
  refine ⟨place Z.crc 0 exPieces, small_is Z.inflate Z.crc hc exPieces (by decide +kernel), ?_, .inl ?_, C61_witness⟩
  · rw [hm]
    exact C95_witness.1
  · rintro ⟨t, ht⟩
    have : (zipOf Z.crc exPieces).take 1 = [0x50] := rfl
    rw [← ht] at this
    cases this

namespace ZipProps

theorem membersOf_place (sum : Bytes → Nat) (ps : List Piece) :
    membersOf (place sum 0 ps) = ps.map (fun p => (p.name, .ok (p.data, .eof))) := by
  have := congrArg (List.map (fun p : Bytes × Bytes => ((p.1, .ok (p.2, .eof)) : Bytes × Except GoErr (Bytes × GoErr))))
    (place_map sum ps 0)
  simp only [List.map_map] at this
  exact this

theorem place_descr (sum : Bytes → Nat) : ∀ (ps : List Piece) (off : Nat), (∀ p ∈ ps, p.descr = false) → ∀ m ∈ place sum off ps,
    m.flags.testBit 3 = false
  | [], _, _, _, h => by simp [place] at h
  | p :: ps, off, hp, m, h => by
    simp only [place, List.mem_cons] at h
    rcases h with rfl | h
    · simp only [flagsOf, hp p List.mem_cons_self]
      decide
    · exact place_descr sum ps _ (fun q hq => hp q (List.mem_cons_of_mem _ hq)) m h

theorem place_filter (sum : Bytes → Nat) (ps : List Piece) (n : Bytes) :
    ((place sum 0 ps).filter (fun m => decide (m.name ≠ n))).map (fun m => (m.name, m.data)) =
      (ps.map (fun p => (p.name, p.data))).filter (fun q => decide (q.1 ≠ n)) := by
  rw [← place_map sum ps 0, List.filter_map]
  rfl

theorem place_split (sum : Bytes → Nat) (p : Piece) (ys : List Piece) : ∀ (xs : List Piece) (off : Nat),
    ∃ off', place sum off (xs ++ p :: ys) = place sum off xs ++ ⟨p.name, p.data, p.data, 0, flagsOf p, off'⟩ ::
      place sum (off' + (localBytes sum p).length) ys
  | [], off => ⟨off, rfl⟩
  | x :: xs, off => by
    obtain ⟨off', h⟩ := place_split sum p ys xs (off + (localBytes sum x).length)
    refine ⟨off', ?_⟩
    simp only [List.cons_append, place, h]

/-- The checksums after damage: data that have been changed have some other checksum. -/
def sumBut (crc : Bytes → Nat) (bad : Bytes) (d : Bytes) : Nat := if d = bad then (if crc bad = 1 then 2 else 1) else crc d

end ZipProps

/-- **C141 is false of archives without checksums.** If the directory has zero for the checksums (and there are no data descriptors)
nothing is checked: whatever the data and their real checksums are, every part is read to its end without an error. -/
theorem C141_counterexample (Z : ZipLib) (ps : List Piece) (hp : ∀ p ∈ ps, p.descr = false) (hs : small ps = true) :
    Zip.files Z (zipOf (fun _ => 0) ps) = .ok (ps.map (fun p => (p.name, .ok (p.data, .eof)))) := by
  rw [files_of (small_is Z.inflate (fun _ => 0) (fun _ => by decide) ps hs), ← membersOf_place (fun _ => 0)]
  refine congrArg Except.ok (List.map_congr_left (fun m hm => ?_))
  have : endOf Z (fun _ => 0) m = .eof := by
    unfold endOf
    rw [if_neg]
    rw [place_descr _ ps 0 hp m hm]
    simp
  rw [this]

/-- The parts of the document of C61 with other data for one of them. -/
def exDamagedPieces (n : Bytes) : List Piece := exPieces.map (fun p => if p.name = n then ⟨p.name, lit "damaged", false⟩ else p)

namespace ZipProps

/-- What has to be computed for the example. -/
def exCheck (n : Bytes) (i : Nat) : Bool :=
  small (exDamagedPieces n) &&
  decide (exDamagedPieces n = (exDamagedPieces n).take i ++ ⟨n, lit "damaged", false⟩ :: (exDamagedPieces n).drop (i + 1)) &&
  decide ((exPieces.map (fun p => (p.name, p.data))).filter (fun q => decide (q.1 ≠ n)) =
    ((exDamagedPieces n).map (fun p => (p.name, p.data))).filter (fun q => decide (q.1 ≠ n))) &&
  ((exDamagedPieces n).map (fun p => (p.name, p.data))).all (fun q => decide (q.1 ≠ n → q.2 ≠ lit "damaged")) &&
  (((exDamagedPieces n).take i).map (fun p => (p.name, p.data))).all (fun q => decide (q.1 ≠ n))

theorem exDamage (Z : ZipLib) (hc : ∀ d, Z.crc d < 2 ^ 32) (n : Bytes) (i : Nat) (h : exCheck n i = true) :
    DamagedPart Z.inflate Z.crc (ofData (sumBut Z.crc (lit "damaged"))) n (zipOf Z.crc exPieces)
      (zipOf (sumBut Z.crc (lit "damaged")) (exDamagedPieces n)) (place Z.crc 0 exPieces)
      (place (sumBut Z.crc (lit "damaged")) 0 (exDamagedPieces n)) := by
  have hsum : ∀ d, sumBut Z.crc (lit "damaged") d < 2 ^ 32 := by
    intro d
    unfold sumBut
    split
    · split <;> decide
    · exact hc d
  unfold exCheck at h
  simp only [Bool.and_eq_true, List.all_eq_true, decide_eq_true_eq] at h
  obtain ⟨⟨⟨⟨h1, h2⟩, h3⟩, h4⟩, h5⟩ := h
  refine ⟨small_is Z.inflate Z.crc hc exPieces (by decide +kernel), small_is Z.inflate _ hsum _ h1, ?_, ?_, ?_⟩
  · rw [place_filter, place_filter]
    simp only [ne_eq] at h3 ⊢
    exact h3
  · intro m hm hne
    have hmem : (m.name, m.data) ∈ (exDamagedPieces n).map (fun p => (p.name, p.data)) := by
      rw [← place_map (sumBut Z.crc (lit "damaged")) (exDamagedPieces n) 0]
      exact List.mem_map_of_mem (f := fun m : Member => (m.name, m.data)) hm
    show sumBut Z.crc (lit "damaged") m.data = Z.crc m.data
    unfold sumBut
    rw [if_neg (h4 _ hmem hne)]
  · obtain ⟨off, hoff⟩ := place_split (sumBut Z.crc (lit "damaged")) ⟨n, lit "damaged", false⟩ ((exDamagedPieces n).drop (i + 1))
      ((exDamagedPieces n).take i) 0
    rw [← h2] at hoff
    refine ⟨_, _, _, hoff, ?_, rfl, ?_, .inr ?_⟩
    · intro m hm
      have hmem : (m.name, m.data) ∈ ((exDamagedPieces n).take i).map (fun p => (p.name, p.data)) := by
        rw [← place_map (sumBut Z.crc (lit "damaged")) ((exDamagedPieces n).take i) 0]
        exact List.mem_map_of_mem (f := fun m : Member => (m.name, m.data)) hm
      exact h5 _ hmem
    · simp only [ofData, sumBut, if_true]
      split <;> omega
    · simp only [ofData, sumBut, if_true]
      split <;> omega

theorem zipOf_notCompound (sum : Bytes → Nat) (n : Bytes) : NotCompound (zipOf sum (exDamagedPieces n)) := by
  refine .inl ?_
  rintro ⟨t, ht⟩
  have : (zipOf sum (exDamagedPieces n)).take 1 = [0x50] := rfl
  rw [← ht] at this
  cases this

end ZipProps

/-- **C141.** The document of C61 and the same with a damaged sheet meet the hypotheses of `C141_sheet_partial`; with damaged strings
they meet those of `C141_open`. -/
theorem C141_witness (Z : ZipLib) (T : XmlTables) (hc : ∀ d, Z.crc d < 2 ^ 32) :
    (∃ sum file file' ms ms', DamagedPart Z.inflate Z.crc sum (lit "xl/worksheets/sheet1.xml") file file' ms ms' ∧ NotCompound file' ∧
      XlsxFile (Xlsx.Files.archive T (membersOf ms)) [lit "xl"] (lit "workbook.xml") exXlsxBook ∧
      lit "xl/worksheets/sheet1.xml" ≠ lit "_rels/.rels" ∧
      ¬ CorePart [lit "xl"] (lit "workbook.xml") exXlsxBook (lit "xl/worksheets/sheet1.xml")) ∧
    (∃ sum file file' ms ms', DamagedPart Z.inflate Z.crc sum (lit "strings.xml") file file' ms ms' ∧ NotCompound file' ∧
      XlsxFile (Xlsx.Files.archive T (membersOf ms)) [lit "xl"] (lit "workbook.xml") exXlsxBook ∧
      CorePart [lit "xl"] (lit "workbook.xml") exXlsxBook (lit "strings.xml")) := by
  have hx : XlsxFile (Xlsx.Files.archive T (membersOf (place Z.crc 0 exPieces))) [lit "xl"] (lit "workbook.xml") exXlsxBook := by
    rw [membersOf_place]
    exact (writes_marked T C95_witness.1).xlsxFile C61_witness
  exact ⟨⟨_, _, _, _, _, exDamage Z hc _ 4 (by decide +kernel), zipOf_notCompound _ _, hx, by decide +kernel, C125_witness.2.2.1.2.2.1⟩,
    ⟨_, _, _, _, _, exDamage Z hc _ 3 (by decide +kernel), zipOf_notCompound _ _, hx, C125_witness.2.1.2.2.2.1⟩⟩

end Grate.Props
