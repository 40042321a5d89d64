import Verif.Lemmas.XlsStrings
import Verif.Props.Utf16

/-! # C46, C47: strings in workbook streams -/

namespace Grate.Props

open Xls Spec

/-- C47: a sheet name of at most 255 units stored with 8- or 16-bit characters is read as its text, and the length
reported is the length of the stored form; whatever follows in the record. -/
theorem C47_short (rs : List Nat) (hs : ∀ r ∈ rs, Scalar r) (wide : Bool) (flags : UInt8) (hf : bit flags 0 = wide)
    (hfit : Fits wide (rs.flatMap units)) (hlen : (rs.flatMap units).length < 256) (tail rest : Bytes) :
    decodeShort ⟨xlString 1 wide flags (rs.flatMap units) ++ tail, rest⟩ =
      .ok (utf8 rs, (xlString 1 wide flags (rs.flatMap units)).length) := by
  obtain ⟨b, hb, hn⟩ := leBytes_one _ hlen
  unfold decodeShort xlString
  rw [hb]
  simp only [Slice.idx, List.cons_append, List.nil_append, List.getElem?_cons_zero, List.getElem?_cons_succ,
    GoRes.ok_bind, hn]
  have := drop_here [b, flags] (charBytes wide (rs.flatMap units) ++ tail) rest 2 rfl
  rw [List.cons_append, List.cons_append, List.nil_append] at this
  rw [this, GoRes.ok_bind, decodeChars_spec wide flags hf _ hfit, u16str, C66_text rs hs]
  simp

/-- C47: the same for strings with a 16-bit count (format codes), up to 65535 units. -/
theorem C47_long (rs : List Nat) (hs : ∀ r ∈ rs, Scalar r) (wide : Bool) (flags : UInt8) (hf : bit flags 0 = wide)
    (hfit : Fits wide (rs.flatMap units)) (hlen : (rs.flatMap units).length < 65536) (tail rest : Bytes) :
    decodeLong ⟨xlString 2 wide flags (rs.flatMap units) ++ tail, rest⟩ =
      .ok (utf8 rs, (xlString 2 wide flags (rs.flatMap units)).length) := by
  unfold decodeLong xlString
  rw [List.append_assoc, sub_here _ _ _ _ (by simp [leBytes]), GoRes.ok_bind]
  have h16 := u16_here _ hlen [] (flags :: charBytes wide (rs.flatMap units) ++ tail ++ rest)
  rw [List.append_nil] at h16
  rw [h16, GoRes.ok_bind]
  simp only [Slice.idx, leBytes, List.cons_append, List.nil_append, List.getElem?_cons_zero,
    List.getElem?_cons_succ, GoRes.ok_bind]
  have := drop_here (leBytes 2 (rs.flatMap units).length ++ [flags]) (charBytes wide (rs.flatMap units) ++ tail) rest 3
    (by simp [leBytes])
  simp only [leBytes, List.cons_append, List.nil_append] at this
  rw [this, GoRes.ok_bind, decodeChars_spec wide flags hf _ hfit, u16str, C66_text rs hs]
  simp

/-- The two forms: narrow and wide names, the second with an emoji. -/
theorem C47_witness :
    (∀ r ∈ [0x53, 0x68], Scalar r) ∧ Fits false ([0x53, 0x68].flatMap units) ∧ bit 0 0 = false ∧
    xlString 1 false 0 ([0x53, 0x68].flatMap units) = [2, 0, 0x53, 0x68] ∧
    (∀ r ∈ [0x53, 0x1F600], Scalar r) ∧ Fits true ([0x53, 0x1F600].flatMap units) ∧ bit 1 0 = true ∧
    xlString 2 true 1 ([0x53, 0x1F600].flatMap units) = [3, 0, 1, 0x53, 0, 0x3D, 0xD8, 0x00, 0xDE] := by
  unfold Scalar Fits
  decide +kernel

/-- Reading the table always ends. -/
theorem C46_ends (buf : Slice) (later : List Slice) : sstLoop (sstFuel buf later) buf later ≠ none :=
  sstLoop_fuel _ buf later (Nat.le_refl _)

/-- What is read of a legal layout, whatever the characters. -/
theorem sst_strings (counts : Bytes) (hc : counts.length = 8) (ss : List SstString)
    (hok : ∀ s ∈ ss, s.Ok) (hlone : ∀ s ∈ ss, NoLoneByte s)
    (recs : List Slice) (hrecs : recs.map Slice.val = sstRecords counts ss) :
    parseSST recs = .ok (ss.map (fun s => u16str s.units)) := by
  cases recs with
  | nil => simp [sstRecords] at hrecs
  | cons r later =>
    have hat : At r later (counts.map some ++ ss.flatMap SstString.layout) := by
      unfold sstRecords at hrecs
      simp only [List.map_cons, List.cons.injEq] at hrecs
      exact hrecs
    obtain ⟨hr, h1⟩ := at_some hat
    unfold parseSST
    rw [hr]
    have hsub : (⟨counts ++ (recordsOf (ss.flatMap SstString.layout)).1, r.rest⟩ : Slice).sub 4 8 =
        .ok ⟨counts.drop 4, (recordsOf (ss.flatMap SstString.layout)).1 ++ r.rest⟩ := by
      have := Crypto.sub_mid (counts.take 4) (counts.drop 4) (recordsOf (ss.flatMap SstString.layout)).1 r.rest 4 8
        (by simp [hc]) (by simp [hc])
      rw [← List.append_assoc, List.take_append_drop] at this
      exact this
    have hu : ∃ n, (⟨counts.drop 4, (recordsOf (ss.flatMap SstString.layout)).1 ++ r.rest⟩ : Slice).u32 = .ok n := by
      match counts, hc with
      | [a, b, c, d, e, f, g, h], _ => exact ⟨_, rfl⟩
    obtain ⟨n, hu⟩ := hu
    simp only
    rw [hsub, GoRes.ok_bind, hu, GoRes.ok_bind, drop_here _ _ _ _ hc.symm, GoRes.ok_bind]
    rcases sstLoop_spec _ 0 ss _ later (fun s hs => ⟨hok s hs, hlone s hs⟩) h1 with h | h
    · exact absurd h (C46_ends _ _)
    · rw [h]
      rfl

/-- C46 (partial; missing: layouts that leave exactly one byte of formatting or phonetic data in the record of the
wide characters before it, which are refused, see `C46_counterexample`): for every list of texts and every
legal layout of them in the table - 8- or 16-bit characters, with or without formatting runs and phonetic data,
split over records anywhere between strings, between characters (with a change of width) and inside the data -
the table read is the list of texts. -/
theorem C46_table_partial (counts : Bytes) (hc : counts.length = 8) (ss : List SstString) (texts : List (List Nat))
    (hok : ∀ s ∈ ss, s.Ok) (hlone : ∀ s ∈ ss, NoLoneByte s) (hs : ∀ t ∈ texts, ∀ r ∈ t, Scalar r)
    (htext : ss.map SstString.units = texts.map (fun t => t.flatMap units))
    (recs : List Slice) (hrecs : recs.map Slice.val = sstRecords counts ss) :
    parseSST recs = .ok (texts.map utf8) := by
  have hres : ss.map (fun s => u16str s.units) = texts.map utf8 := by
    have : ss.map (fun s => u16str s.units) = (ss.map SstString.units).map u16str := by rw [List.map_map]; rfl
    rw [this, htext, List.map_map]
    apply List.map_congr_left
    intro t ht
    exact C66_text t (hs t ht)
  rw [sst_strings counts hc ss hok hlone recs hrecs, hres]

/-- A table of two strings: "aα中" with a formatting run, split after the first character into a wide
continuation, its run split in the middle; and "hi" with phonetic data in a record of its own. -/
def exampleTable : List SstString :=
  [⟨false, 8, [0x61], [(1, [0x3B1, 0x4E2D])], [[1, 2], [3, 4]], []⟩, ⟨true, 4, [0x68, 0x69], [], [], [[7]]⟩]

/-- The hypotheses are met by `exampleTable`; its records. -/
theorem C46_witness :
    (∀ s ∈ exampleTable, s.Ok) ∧ (∀ s ∈ exampleTable, NoLoneByte s) ∧
    exampleTable.map SstString.units = [[0x61, 0x3B1, 0x4E2D], [0x68, 0x69]].map (fun t => t.flatMap units) ∧
    sstRecords [0, 0, 0, 0, 2, 0, 0, 0] exampleTable =
      [[0, 0, 0, 0, 2, 0, 0, 0, 3, 0, 8, 1, 0, 0x61], [1, 0xB1, 3, 0x2D, 0x4E, 1, 2], [3, 4],
       [2, 0, 4, 1, 0, 0, 0, 0x68, 0x69, 7]] := by
  refine ⟨?_, ?_, by decide +kernel, by decide +kernel⟩
  · intro s hs
    simp only [exampleTable, List.mem_cons, List.not_mem_nil, or_false] at hs
    rcases hs with rfl | rfl
    · refine ⟨by decide +kernel, by unfold Fits; decide +kernel, by unfold Fits; decide +kernel,
        by decide +kernel, by decide +kernel⟩
    · refine ⟨by decide +kernel, by unfold Fits; decide +kernel, by unfold Fits; decide +kernel,
        by decide +kernel, by decide +kernel⟩
  · unfold NoLoneByte; decide +kernel

/-- The legal table that is refused: the string "α" with one formatting run, whose first byte is still in the
record of the characters. -/
def loneTable : List SstString := [⟨false, 9, [0x3B1], [], [[1], [2, 3, 4]], []⟩]

/-- C46 is false as stated: `loneTable` is legal and is answered with an error. -/
theorem C46_counterexample :
    (∀ s ∈ loneTable, s.Ok) ∧
    sstRecords [1, 0, 0, 0, 1, 0, 0, 0] loneTable =
      [[1, 0, 0, 0, 1, 0, 0, 0, 1, 0, 9, 1, 0, 0xB1, 3, 1], [2, 3, 4]] ∧
    parseSST ((sstRecords [1, 0, 0, 0, 1, 0, 0, 0] loneTable).map (⟨·, []⟩)) = .err (.msg "xls: off by one") := by
  refine ⟨?_, by decide +kernel, rfl⟩
  intro s hs
  simp only [loneTable, List.mem_cons, List.not_mem_nil, or_false] at hs
  subst hs
  exact ⟨by decide +kernel, by unfold Fits; decide +kernel, by unfold Fits; decide +kernel,
    by decide +kernel, by decide +kernel⟩

end Grate.Props
