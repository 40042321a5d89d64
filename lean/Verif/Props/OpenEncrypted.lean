import Verif.Props.Open

/-! # C77 for encrypted workbooks -/

namespace Grate.Props

open Grate Grate.Spec Grate.Api

/-- Opening the file gives a workbook with the content `c` and the sheets that the substreams `subs` describe: `List` are the
names of the visible sheets in file order, `Get` of a sheet gives a collection with exactly the cells of its records, and `Get`
of any other name is an error. -/
def Opens (w : World) (ext : Ext) (fn : Bytes) (c : Content) (subs : List (List Record)) : Prop :=
  ∃ b n, (∀ k, n ≤ k → ∀ t, Shipped { w with fuel := k } t → openSrc t fn = .ok (.xls b)) ∧
    (Source.xls b).list = (c.sheets.filter (·.visible)).map (fun e => utf8 e.name) ∧
    (∀ (before after : List SheetEntry) (e : SheetEntry), c.sheets = before ++ e :: after →
      (∀ x ∈ before, utf8 x.name ≠ utf8 e.name) → ∀ (i : Nat) (bof : Record) (rs : List Record),
      subs[i]? = some (bof :: rs) → e.position = position subs i → ∀ mr mc, Declares (0, 0) rs (mr, mc) →
      ∀ ws, SheetRecs c.strings c.styles mr mc rs ws →
      ∃ s, (Source.xls b).get ext (utf8 e.name) = .ok (.xls b, .ok (.sheet s)) ∧
        Holds ext (formatterOf (c.formats.map (fun a => (a.1, utf8 a.2)))) ws s ∧
        SizeIs mr mc ws s ∧ (dimsCount rs ≤ 1 → Rectangular s)) ∧
    (∀ name, (∀ e ∈ c.sheets, utf8 e.name ≠ name) → ∃ er, (Source.xls b).get ext name = .ok (.xls b, .error er))

/-- C77 in these terms. -/
theorem opens_plain (w : World) (ext : Ext) (fn file : Bytes) (hf : w.files fn = .ok file)
    {groups : List (List Record)} (h : Grouped groups) (hp : ∀ r ∈ groups.flatten, r.type ≠ 0x2F) {c : Content}
    (hc : AllGlobals .empty groups c) (hs : StreamIn file (lit "Workbook") (stream groups.flatten))
    (hb : ∀ k ∈ w.bufs, 0 < k) (hbl : (stream groups.flatten).length < w.bufs.length) : Opens w ext fn c groups := by
  obtain ⟨n, hn⟩ := C77_xls_partial w ext fn file hf h hp hc hs hb hbl
  obtain ⟨b, hl, _, _, _, _⟩ := C45_sheets w.prims makeFormatter h hp hc w.spare
  obtain ⟨n2, hn2⟩ := open_xls w fn file _ hf hs hb hbl b hl
  obtain ⟨src, ho, hlist, hget, hmiss⟩ := hn (max n n2) (by omega) _ (shipped_some _)
  have ho2 := hn2 (max n n2) (by omega) _ (shipped_some _)
  rw [ho] at ho2
  cases ho2
  exact ⟨b, n2, hn2, hlist, hget, hmiss⟩

theorem position_append (groups : List (List Record)) (last : List Record) (i : Nat) (h : i ≤ groups.length) :
    position (groups ++ [last]) i = position groups i := by
  unfold position
  rw [List.take_append_of_le_length h]

/-- A compound file whose workbook stream is encrypted with the password that Excel uses when the user gave none: before the
encryption it had the substreams `groups` and, without its end, `last`, with the header `h` of the encryption among the first
records. -/
structure EncryptedFile (p : Crypto.Prims) (file : Bytes) (groups : List (List Record)) (last : List Record) (h : Header) :
    Prop where
  whole : ∀ g ∈ groups, Substream g
  headed : Headed last
  ok : ∀ r ∈ groups.flatten ++ last, r.Ok
  filePass : ∃ pre post, groups.flatten ++ last = pre ++ ⟨0x2F, leBytes 2 1 ++ h.bytes⟩ :: post ∧ ∀ r ∈ pre, r.type ≠ 0x2F
  header : h.Ok ∧ h.minor = 1 ∧ h.Matches p Crypto.defaultPassword
  stream : StreamIn file (lit "Workbook") (encrypted (keyStream p.md5 p.rc4 Crypto.defaultPassword h.salt)
    (groups.flatten ++ last ++ [⟨0x0A, []⟩]))

/-- C77 for workbooks encrypted with RC4 and the default password, as Excel does for workbooks that are only protected against
changes, whatever the functions MD5 and RC4 are: opening the file gives the sheets that were there before the encryption.
Missing: what C77 leaves out for plain workbooks; other passwords and methods of encryption are refused (C67). -/
theorem C77_encrypted_partial (w : World) (ext : Ext) (fn file : Bytes) (hf : w.files fn = .ok file) (hdg : Digest w.prims)
    (groups : List (List Record)) (last : List Record) (h : Header) (he : EncryptedFile w.prims file groups last h)
    {c : Content} (hc : AllGlobals .empty (groups ++ [last]) c) (hb : ∀ k ∈ w.bufs, 0 < k)
    (hbl : (stream (groups.flatten ++ last ++ [⟨0x0A, []⟩])).length < w.bufs.length) :
    Opens w ext fn c (groups ++ [last]) := by
  obtain ⟨hwh, hlast, hok, ⟨pre, post, hfp, hpre⟩, ⟨hh, hm, hmatch⟩, hs⟩ := he
  have hlen : (encrypted (keyStream w.prims.md5 w.prims.rc4 Crypto.defaultPassword h.salt)
      (groups.flatten ++ last ++ [⟨0x0A, []⟩])).length < w.bufs.length := by
    unfold encrypted
    rw [List.length_mapIdx, List.length_zip]
    omega
  obtain ⟨b, hl, hsubs, hidx, hbook⟩ := C67_encrypted w.prims hdg makeFormatter groups last hwh hlast hok pre post h hfp hpre
    hh hm hmatch hc w.spare w.spare
  obtain ⟨n, hn⟩ := open_xls w fn file _ hf hs hb hlen b hl
  refine ⟨b, n, hn, ?_, ?_, ?_⟩
  · show Xls.Book.list b = _
    rw [hbook]
    unfold Xls.Book.list Xls.bookOf
    simp only
    rw [List.filter_map, List.map_map]
    congr 1
    apply List.filter_congr
    intro e _
    exact entry_visible e
  · intro before after e hx hfirst i bof rs hi hpos mr mc hd ws hw
    have hle : i ≤ groups.length := by
      rw [List.getElem?_eq_some_iff] at hi
      have := hi.1
      rw [List.length_append, List.length_singleton] at this
      omega
    have hbof : bof.type = 0x809 := by
      rcases List.mem_append.1 (List.mem_of_getElem? hi) with hm | hm
      · obtain ⟨b', inner, e', he, hb', _⟩ := hwh _ hm
        cases he
        exact hb'
      · obtain ⟨b', inner, he, hb', _⟩ := hlast
        simp only [List.mem_singleton] at hm
        rw [← hm] at he
        cases he
        exact hb'
    rw [position_append _ _ _ hle] at hpos
    obtain ⟨b', s, hl', hg, hh', hsz, hrect⟩ := C49_encrypted_partial w.prims hdg makeFormatter ext groups last hwh hlast hok pre
      post h hfp hpre hh hm hmatch hc w.spare w.spare before after e hx hfirst i bof rs hi hbof hpos mr mc hd ws hw
    rw [hl] at hl'
    cases hl'
    have hnf : b.nfmt = formatterOf (c.formats.map (fun a => (a.1, utf8 a.2))) := by
      rw [hbook]
      exact addAll_formatter _ _
    rw [hnf] at hh'
    exact ⟨s, by simp only [Source.get, hg], hh', hsz, hrect⟩
  · intro name hne
    have hg : b.get ext name = .err (.msg "xls: sheet not found") := by
      unfold Xls.Book.get
      have hf : b.sheets.find? (fun s => decide (s.name = name)) = none := by
        rw [hbook]
        unfold Xls.bookOf
        simp only
        rw [List.find?_eq_none]
        intro y hy
        obtain ⟨z, hz, rfl⟩ := List.mem_map.1 hy
        have := hne z hz
        unfold Xls.entry
        simpa using this
      rw [hf]
    exact ⟨_, by simp only [Source.get, hg]; rfl⟩

end Grate.Props
