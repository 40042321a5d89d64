import Verif.Props.Zip
import Verif.Lemmas.ZipDamage

/-! # C142: a few damaged bytes of a document are always noticed -/

namespace Grate.Props

open Grate Grate.Spec Grate.Xlsx Grate.Api Grate.Zip

/-- **C142 (checksum).** Data that differ within four consecutive bytes have different checksums. -/
theorem C142_checksum (pre a b post : Bytes) (hl : a.length = b.length) (h4 : a.length ≤ 4) (hne : a ≠ b) :
    goCrc32 (pre ++ (a ++ post)) ≠ goCrc32 (pre ++ (b ++ post)) := fun e => hne (crc_burst hl h4 e)

/-- **C142 (members).** In an archive at most four consecutive bytes of the data of a stored member have been replaced (and its checksum
is not zero, or it has a data descriptor): the archive opens, and reading the member ends with an error. -/
theorem C142_member (Z : ZipLib) (hcrc : Z.crc = goCrc32) (file : Bytes) (before after : List Member) (m : Member) (i : Nat) (b : Bytes)
    (h : Hit Z.inflate goCrc32 file before m after i b) (h4 : b.length ≤ 4) (hz : m.flags.testBit 3 = true ∨ goCrc32 m.data ≠ 0) :
    ∃ z, Zip.files Z (overwritten file i b) = .ok z ∧ BrokenBytes z m.name := by
  obtain ⟨sum, ms', hd, _⟩ := hit_damages h h4 hz
  obtain ⟨x, y, w, h1, h2, h3, h5, h6⟩ := hd.first
  rw [← h3]
  exact C141_detected Z sum _ ms' hd.damaged x w y h1 (fun u hu => by rw [h3]; exact h2 u hu) (by rw [hcrc]; exact h5) h6

namespace ZipProps

theorem over_notCompound {file b : Bytes} {i : Nat} (hi : 30 ≤ i) (hl : i + b.length ≤ file.length) (h : NotCompound file) :
    NotCompound (overwritten file i b) := by
  rcases h with h | h
  · left
    intro hp
    refine h ?_
    have h8 : signature.length ≤ i := Nat.le_trans (by decide) hi
    have : signature <+: file.take i := by
      refine List.prefix_of_prefix_length_le hp ?_ ?_
      · exact List.prefix_append _ _
      · rw [List.length_take]
        omega
    exact this.trans (List.take_prefix _ _)
  · right
    rw [over_length hl]
    exact h

theorem hit_bounds {inflate : Bytes → Bytes × GoErr} {crc : Bytes → Nat} {file : Bytes} {before after : List Member} {m : Member} {i : Nat}
    {b : Bytes} (h : Hit inflate crc file before m after i b) : i + b.length ≤ file.length := by
  obtain ⟨front, ⟨dir, gap, fin, _, hf, _⟩, hi⟩ := h.front
  rw [hf, List.length_append]
  omega

end ZipProps

/-- **C142 (sheets).** In the file of a document at most four consecutive bytes of the part of a sheet have been replaced, the part being
stored without compression: the document opens, the sheet is listed, and `Get` never gives a collection for it without an error,
whatever the program did with the document before. -/
theorem C142_sheet_partial (Z : ZipLib) (hcrc : Z.crc = goCrc32) (T : XmlTables) (w : World) (hzip : ReadsZip Z T w) (ext : Ext)
    (ho : ∀ l, (w.order l).Perm l) (fn file : Bytes) (before after : List Member) (m : Member) (i : Nat) (bytes : Bytes)
    (hit : Hit Z.inflate goCrc32 file before m after i bytes) (h4 : bytes.length ≤ 4)
    (hz : m.flags.testBit 3 = true ∨ goCrc32 m.data ≠ 0) (hf : w.files fn = .ok (overwritten file i bytes)) (hn : NotCompound file)
    (dir : List Bytes) (base : Bytes) (b : Spec.Book)
    (h : XlsxFile (Xlsx.Files.archive T (membersOf (before ++ m :: after))) dir base b) (h0 : m.name ≠ lit "_rels/.rels")
    (hc : ¬ CorePart dir base b m.name) (t : List (Grate.Entry Source)) (ht : Shipped w t) :
    ∃ src, openSrc t fn = .ok src ∧ src.list = b.sheets.map Prod.snd ∧
      ∀ (p : Client) (src' : Source), p.leaves ext src = .ok src' →
        ∀ (j : Nat) (id name : Bytes), b.sheets[j]? = some (id, name) →
          (∀ (k : Nat) (s : Bytes × Bytes), k < j → b.sheets[k]? = some s → s.2 ≠ name) →
          (∃ r ∈ b.rels, r.type = relType "worksheet" ∧ r.id = id ∧ r.part = m.name) →
          ∀ x c, src'.get ext name ≠ .ok (x, .ok c) := by
  obtain ⟨sum, ms', hd, h30⟩ := hit_damages hit h4 hz
  rw [← hcrc] at hd
  exact C141_sheet_partial Z T w hzip ext ho sum fn m.name file _ _ ms' hd hf
    (ZipProps.over_notCompound h30 (ZipProps.hit_bounds hit) hn) dir base b h h0 hc t ht

/-- **C142 (Open).** At most four consecutive bytes of a part that `Open` reads have been replaced, the part being stored without
compression: the file never opens as a document. -/
theorem C142_open (Z : ZipLib) (hcrc : Z.crc = goCrc32) (T : XmlTables) (w : World) (hzip : ReadsZip Z T w)
    (ho : ∀ l, (w.order l).Perm l) (fn file : Bytes) (before after : List Member) (m : Member) (i : Nat) (bytes : Bytes)
    (hit : Hit Z.inflate goCrc32 file before m after i bytes) (h4 : bytes.length ≤ 4)
    (hz : m.flags.testBit 3 = true ∨ goCrc32 m.data ≠ 0) (hf : w.files fn = .ok (overwritten file i bytes)) (hn : NotCompound file)
    (dir : List Bytes) (base : Bytes) (b : Spec.Book)
    (h : XlsxFile (Xlsx.Files.archive T (membersOf (before ++ m :: after))) dir base b)
    (hc : m.name = lit "_rels/.rels" ∨ CorePart dir base b m.name)
    (t : List (Grate.Entry Source)) (ht : Shipped w t) (x : Xlsx.Archive) (d : Xlsx.Doc) : openSrc t fn ≠ .ok (.xlsx x d) := by
  obtain ⟨sum, ms', hd, h30⟩ := hit_damages hit h4 hz
  rw [← hcrc] at hd
  exact C141_open Z T w hzip ho sum fn m.name file _ _ ms' hd hf
    (ZipProps.over_notCompound h30 (ZipProps.hit_bounds hit) hn) dir base b h hc t ht x d

/-- The bytes that can be changed together without changing the checksum. -/
def fiveBytes (a b c d e : UInt8) : Bytes := [a ^^^ 0x41, b ^^^ 0x06, c ^^^ 0x71, d ^^^ 0xdb, e ^^^ 0x01]

/-- **C142 is false of five bytes.** Whatever five bytes of the data of a stored member are, they can be replaced so that nothing is
noticed: the archive is intact, and reading gives the other data without an error. -/
theorem C142_five_counterexample (Z : ZipLib) (hcrc : Z.crc = goCrc32) (file : Bytes) (before after : List Member) (m : Member)
    (pre post : Bytes) (a b c d e : UInt8) (hm : m.data = pre ++ ([a, b, c, d, e] ++ post)) (start : Nat)
    (hs : LocalData (goCrc32 m.data) file m start)
    (h : Hit Z.inflate goCrc32 file before m after (start + pre.length) (fiveBytes a b c d e)) :
    ∃ data, data ≠ m.data ∧ Zip.files Z (overwritten file (start + pre.length) (fiveBytes a b c d e)) =
      .ok (membersOf before ++ (m.name, .ok (data, .eof)) :: membersOf after) := by
  obtain ⟨data, hne, hz⟩ := hit_unnoticed h (fun k hk hl => by
    have e1 := local_start hs
    have e2 := local_start hl
    have e3 : k = pre.length := by omega
    rw [e3, hm]
    unfold overwritten
    have hdrop : (pre ++ ([a, b, c, d, e] ++ post)).drop (pre.length + (fiveBytes a b c d e).length) = post := by
      rw [← List.drop_drop, List.drop_left]
      rfl
    rw [List.take_left, hdrop]
    exact (crc_five pre post a b c d e).symm)
  refine ⟨data, hne, ?_⟩
  rw [← hcrc] at hz
  rw [C140_members Z _ _ hz]
  simp [membersOf, hitMember]

end Grate.Props
