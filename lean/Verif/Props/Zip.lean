import Verif.Lemmas.GoZip
import Verif.Props.Xml
import Verif.Props.Damaged

/-! # Properties C140 and C141: the zip archives of Office Open XML documents -/

namespace Grate.Props

open Grate Grate.Spec Grate.Xlsx Grate.Api Grate.Zip

/-- The world reads zip archives and the texts in them as the model of the library does. -/
def ReadsZip (Z : ZipLib) (T : XmlTables) (w : World) : Prop :=
  ∀ c, w.zip c = (Zip.files Z c).map (Xlsx.Files.archive T)

/-- The members of an archive that is intact, by name. -/
def membersOf (ms : List Member) : Xlsx.Files := ms.map (fun m => (m.name, .ok (m.data, .eof)))

namespace ZipProps

theorem endOf_self (Z : ZipLib) (m : Member) : endOf Z (ofData Z.crc) m = .eof := by
  unfold endOf
  rw [if_neg (by simp)]

end ZipProps

/-! ### C140 -/

/-- **C140 (members).** Of a zip archive the reader gets the members in the order of the directory, each with its name and its data,
and no error; whether they are stored or deflated, with descriptors or without, where they are in the file, and what else is in it. -/
theorem C140_members (Z : ZipLib) (file : Bytes) (ms : List Member) (h : ZipFile Z.inflate (ofData Z.crc) file ms) :
    Zip.files Z file = .ok (membersOf ms) := by
  rw [files_of h]
  simp only [ZipProps.endOf_self]
  rfl

/-- **C140 (documents).** A file that is a zip archive with the parts of a document, from its bytes: `Open` succeeds, `List` are the
names of the sheets in order, and `Get` gives a collection with exactly the cells that its part describes (as C78 and C95). -/
theorem C140_file_partial (Z : ZipLib) (T : XmlTables) (w : World) (hzip : ReadsZip Z T w) (ext : Ext) (fn file : Bytes)
    (hf : w.files fn = .ok file) (hn : NotCompound file) (ms : List Member) (hm : ZipFile Z.inflate (ofData Z.crc) file ms)
    (a : Xlsx.Archive) (hw : WritesParts a (membersOf ms)) (ho : ∀ l, (w.order l).Perm l) (dir : List Bytes) (base : Bytes)
    (b : Spec.Book) (h : XlsxFile a dir base b) (t : List (Grate.Entry Source)) (ht : Shipped w t) :
    ∃ src, openSrc t fn = .ok src ∧ src.list = b.sheets.map Prod.snd ∧
      (∀ name, name ∉ b.sheets.map Prod.snd → ∃ er, src.get ext name = .ok (src, .error er)) ∧
      ∀ (i : Nat) (id name : Bytes), b.sheets[i]? = some (id, name) →
        (∀ (j : Nat) (s : Bytes × Bytes), j < i → b.sheets[j]? = some s → s.2 ≠ name) →
        ∀ r ∈ b.rels, r.type = relType "worksheet" → r.id = id → ∀ (sdir : List Bytes) (sbase : Bytes),
        (∀ s ∈ sdir, RealName s) → PathName sbase → r.part = pathOf (sdir ++ [sbase]) → ∀ (ts : List Xlsx.Tok),
        HasPart a r.part ts → ∀ ls : List (Bytes × Bytes),
        ((LacksPart a (relsPart sdir sbase) ∧ ls = []) ∨ ∃ us, HasPart a (relsPart sdir sbase) us ∧ LinkToks us ls) →
        ∀ (m : Nat × Nat) (ws : List Write), WsPart ext b.strings b.styles (targetOf ls) ts m ws →
        ∃ src' s, src.get ext name = .ok (src', .ok (.sheet s)) ∧ Holds ext (formatterOf b.formats) ws s ∧
          SizeIs m.1 m.2 ws s ∧ Rectangular s :=
  C95_file w ext T fn file hf hn a (membersOf ms) (by rw [hzip, C140_members Z file ms hm]; rfl) hw ho dir base b h t ht

/-- **C140 (the packing does not matter).** Two archives with the same members (in the same order of their directories), packed in
different ways: if one of the files opens as a document, so does the other, and it is the same document. -/
theorem C140_same (Z : ZipLib) (T : XmlTables) (w : World) (hzip : ReadsZip Z T w) (fn fn' file file' : Bytes)
    (hf : w.files fn = .ok file) (hf' : w.files fn' = .ok file') (hn : NotCompound file) (hn' : NotCompound file')
    (ms ms' : List Member) (hm : ZipFile Z.inflate (ofData Z.crc) file ms) (hm' : ZipFile Z.inflate (ofData Z.crc) file' ms')
    (hs : ms.map (fun m => (m.name, m.data)) = ms'.map (fun m => (m.name, m.data))) (a : Xlsx.Archive) (d : Xlsx.Doc)
    (t : List (Grate.Entry Source)) (ht : Shipped w t) (ho : openSrc t fn = .ok (.xlsx a d)) : openSrc t fn' = .ok (.xlsx a d) := by
  have e : membersOf ms = membersOf ms' := by
    have := congrArg (List.map (fun p : Bytes × Bytes => ((p.1, .ok (p.2, .eof)) : Bytes × Except GoErr (Bytes × GoErr)))) hs
    simp only [List.map_map] at this
    exact this
  have hx := open_is_xlsx w fn file hf hn a d t ht ho
  refine xlsx_is_open w fn' file' hf' hn' _ t ht ?_
  rw [← hx]
  unfold xlsxOpen
  have e1 : w.zip file' = w.zip file := by rw [hzip, hzip, C140_members Z file ms hm, C140_members Z file' ms' hm', e]
  simp only [hf, hf', e1]

/-- **C140 (other files).** A file without the signature of an end record, like a text or a compound file without it, is declined by the
opener of xlsx files, so that other formats are tried. -/
theorem C140_declined (Z : ZipLib) (T : XmlTables) (w : World) (hzip : ReadsZip Z T w) (fn file : Bytes) (hf : w.files fn = .ok file)
    (hs : ∀ i, ¬ [0x50, 0x4B, 5, 6] <+: file.drop i) :
    (∃ e, w.zip file = .error e) ∧ ∃ e, xlsxOpen w fn = .err e ∧ e.isNotInFormat = true := by
  have hat : ∀ o i, i + 22 ≤ (file.drop o).length → endAt (file.drop o) i = false := by
    intro o i hi
    refine Bool.eq_false_iff.2 (fun hc => ?_)
    unfold endAt at hc
    rw [Bool.and_eq_true, beq_iff_eq, field_drop] at hc
    rw [List.length_drop] at hi
    refine hs (o + i) (prefix_of_field rfl (by rw [List.length_drop]; omega) ?_)
    rw [field_drop, Nat.add_zero, hc.1]
    decide
  have hin : ∀ k, k ≤ file.length → findIn file k = none := by
    intro k hk
    unfold findIn
    rw [findSig_none _ (fun i hi => hat _ i (by rw [List.length_drop]; omega))]
    rfl
  have he : findEnd file = none := by
    unfold findEnd
    rw [hin _ (by omega)]
    simp only
    split
    · rfl
    · exact hin _ (by omega)
  have hz : w.zip file = .error errFormat := by
    rw [hzip]
    unfold Zip.files newReader readEnd
    rw [he]
    rfl
  refine ⟨⟨_, hz⟩, wrapErr [errFormat, .notInFormat], ?_, by simp [wrapErr, GoErr.isNotInFormat, GoErr.unwrap]⟩
  unfold xlsxOpen
  simp only [hf, hz]

/-- The files of C79: a text without the control character 5 is declined. -/
theorem C140_text (Z : ZipLib) (T : XmlTables) (w : World) (hzip : ReadsZip Z T w) (fn file : Bytes) (hf : w.files fn = .ok file)
    (h5 : (5 : UInt8) ∉ file) : ∃ e, w.zip file = .error e := by
  refine (C140_declined Z T w hzip fn file hf (fun i hp => h5 ?_)).1
  exact List.mem_of_mem_drop (hp.subset (by simp))

/-! ### C141 -/

/-- **C141 (detected).** The checksums in the directory are `sum`. A member whose data do not have the checksum there is damaged for
what follows: its reader ends with an error; unless the checksum is zero and there is no data descriptor. -/
theorem C141_detected (Z : ZipLib) (sum : Member → Nat) (file : Bytes) (ms : List Member) (h : ZipFile Z.inflate sum file ms)
    (before after : List Member) (m : Member) (hms : ms = before ++ m :: after) (hb : ∀ x ∈ before, x.name ≠ m.name)
    (hd : Z.crc m.data ≠ sum m) (hz : m.flags.testBit 3 = true ∨ sum m ≠ 0) :
    ∃ z, Zip.files Z file = .ok z ∧ BrokenBytes z m.name := by
  refine ⟨_, files_of h, ?_⟩
  subst hms
  refine .failing (before.map (fun m => (m.name, .ok (m.data, endOf Z sum m)))) (after.map (fun m => (m.name, .ok (m.data, endOf Z sum m))))
    m.data (endOf Z sum m) (by simp) ?_ ?_
  · intro x hx
    obtain ⟨y, hy, rfl⟩ := List.mem_map.1 hx
    exact hb y hy
  · unfold endOf
    rw [if_pos ⟨hz, hd⟩]
    intro he
    cases he

namespace ZipProps

theorem sameBut {Z : ZipLib} {sum : Member → Nat} {n file file' : Bytes} {ms ms' : List Member} (h : DamagedPart Z.inflate Z.crc sum n file file' ms ms')
    (T : XmlTables) : SameBut n (Xlsx.Files.archive T (membersOf ms))
      (Xlsx.Files.archive T (ms'.map (fun m => (m.name, .ok (m.data, endOf Z sum m))))) := by
  unfold SameBut Xlsx.Files.archive membersOf
  simp only [List.map_map, List.filter_map]
  have e := congrArg (List.map (fun p : Bytes × Bytes => ((p.1, .ok (xmlPart T p.2 .eof)) : Bytes × Except GoErr Part))) h.same
  simp only [List.map_map] at e
  refine Eq.trans ?_ (e.trans ?_)
  · rfl
  · refine List.map_congr_left (fun m hm => ?_)
    obtain ⟨h1, h2⟩ := List.mem_filter.1 hm
    have hne : m.name ≠ n := by simpa using h2
    have he : endOf Z sum m = .eof := by
      unfold endOf
      rw [if_neg (by rw [h.others m h1 hne]; simp)]
    simp only [Function.comp, he, Except.map]

theorem broken {Z : ZipLib} {sum : Member → Nat} {n file file' : Bytes} {ms ms' : List Member} (h : DamagedPart Z.inflate Z.crc sum n file file' ms ms')
    (T : XmlTables) : ∃ e, BrokenPart (Xlsx.Files.archive T (ms'.map (fun m => (m.name, .ok (m.data, endOf Z sum m))))) n e := by
  obtain ⟨before, m, after, h1, h2, rfl, h3, h4⟩ := h.first
  obtain ⟨z, hz, hb⟩ := C141_detected Z sum file' ms' h.damaged before after m h1 h2 h3 h4
  rw [files_of h.damaged] at hz
  cases hz
  exact C125_bytes T _ _ hb

end ZipProps

/-- **C141 (sheets).** In the archive of a document the data of the part of a sheet have been damaged: the document opens, the sheet is
listed, and `Get` never gives a collection for it without an error, whatever the program did with the document before. -/
theorem C141_sheet_partial (Z : ZipLib) (T : XmlTables) (w : World) (hzip : ReadsZip Z T w) (ext : Ext) (ho : ∀ l, (w.order l).Perm l)
    (sum : Member → Nat) (fn n file file' : Bytes) (ms ms' : List Member) (hd : DamagedPart Z.inflate Z.crc sum n file file' ms ms')
    (hf : w.files fn = .ok file') (hn : NotCompound file') (dir : List Bytes) (base : Bytes) (b : Spec.Book)
    (h : XlsxFile (Xlsx.Files.archive T (membersOf ms)) dir base b) (h0 : n ≠ lit "_rels/.rels") (hc : ¬ CorePart dir base b n)
    (t : List (Grate.Entry Source)) (ht : Shipped w t) :
    ∃ src, openSrc t fn = .ok src ∧ src.list = b.sheets.map Prod.snd ∧
      ∀ (p : Client) (src' : Source), p.leaves ext src = .ok src' →
        ∀ (i : Nat) (id name : Bytes), b.sheets[i]? = some (id, name) →
          (∀ (j : Nat) (s : Bytes × Bytes), j < i → b.sheets[j]? = some s → s.2 ≠ name) →
          (∃ r ∈ b.rels, r.type = relType "worksheet" ∧ r.id = id ∧ r.part = n) →
          ∀ x c, src'.get ext name ≠ .ok (x, .ok c) := by
  obtain ⟨e, hb⟩ := ZipProps.broken hd T
  exact C125_sheet w ext ho fn file' hf hn _ _ (by rw [hzip, files_of hd.damaged]; rfl) dir base b h n (ZipProps.sameBut hd T) e hb
    h0 hc t ht

/-- **C141 (Open).** The data of a part that `Open` reads have been damaged: the file never opens as a document. -/
theorem C141_open (Z : ZipLib) (T : XmlTables) (w : World) (hzip : ReadsZip Z T w) (ho : ∀ l, (w.order l).Perm l)
    (sum : Member → Nat) (fn n file file' : Bytes) (ms ms' : List Member) (hd : DamagedPart Z.inflate Z.crc sum n file file' ms ms')
    (hf : w.files fn = .ok file') (hn : NotCompound file') (dir : List Bytes) (base : Bytes) (b : Spec.Book)
    (h : XlsxFile (Xlsx.Files.archive T (membersOf ms)) dir base b) (hc : n = lit "_rels/.rels" ∨ CorePart dir base b n)
    (t : List (Grate.Entry Source)) (ht : Shipped w t) (x : Xlsx.Archive) (d : Xlsx.Doc) : openSrc t fn ≠ .ok (.xlsx x d) := by
  obtain ⟨e, hb⟩ := ZipProps.broken hd T
  exact (C125_open_partial w ho fn file' hf hn _ _ (by rw [hzip, files_of hd.damaged]; rfl) dir base b h n (ZipProps.sameBut hd T) e hb
    t ht).1 hc x d

end Grate.Props
