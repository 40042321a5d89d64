import Verif.Lemmas.ValidXls
import Verif.Props.Close
import Verif.Props.DateText

/-! # C129: the text in a workbook is valid UTF-8 -/

namespace Grate.Props

open Grate Grate.Spec Grate.Api Grate.Valid

/-- The source after calls of `Get`, and of methods of the collections they return. -/
inductive SourceAfter (ext : Ext) (src : Source) : Source → Prop
  | here : SourceAfter ext src src
  | get {s1 s2 : Source} {n : Bytes} {r : Except GoErr Coll} : SourceAfter ext src s1 → s1.get ext n = .ok (s2, r) → SourceAfter ext src s2
  | used {s1 s2 : Source} {n : Bytes} {s s' : Sheet} : SourceAfter ext src s1 → s1.get ext n = .ok (s2, .ok (.sheet s)) → After s s' →
      SourceAfter ext src (s2.used n (.sheet s'))

/-- All text of a source is valid: the names of its sheets, and what its sheets hold. -/
structure SourceValid (ext : Ext) (src : Source) : Prop where
  names : ∀ x, SourceAfter ext src x → ∀ n ∈ x.list, ValidUtf8 n
  sheets : ∀ x, SourceAfter ext src x → ∀ n x' s, x.get ext n = .ok (x', .ok (.sheet s)) → TextValid s ∧ StringsValid ext s

/-- The text in a source. -/
def SourceOk : Source → Prop
  | .xls b => BookOk b ∧ ∀ rs ∈ b.subs, NoCodePage (rs.map Xls.Rec.view)
  | .xlsx a d => ArchOk a ∧ DocOk d
  | .text _ => False

theorem sourceOk_get {ext : Ext} (hp : PrintsText ext) {src src' : Source} {n : Bytes} {r : Except GoErr Coll} (h : SourceOk src)
    (e : src.get ext n = .ok (src', r)) : SourceOk src' ∧ ∀ s, r = .ok (.sheet s) → SheetOk s := by
  cases src with
  | xls b =>
    unfold Source.get at e
    simp only at e
    split at e
    · cases e
    · cases e; exact ⟨h, fun s hs => by cases hs⟩
    · cases e; exact ⟨h, fun s hs => by cases hs⟩
    · rename_i s hs
      cases e
      refine ⟨h, fun s' hs' => ?_⟩
      cases hs'
      unfold Xls.Book.get at hs
      split at hs
      · exact xlsSheet_ok hp h.1 h.2 hs
      · cases hs
  | xlsx a d =>
    unfold Source.get at e
    simp only at e
    split at e
    · cases e
    · cases e; exact ⟨h, fun s hs => by cases hs⟩
    · rename_i d' i er hg
      cases e; exact ⟨⟨h.1, get_ok hp h.1 h.2 hg⟩, fun s hs => by cases hs⟩
    · rename_i d' i hg
      have hd := get_ok hp h.1 h.2 hg
      split at e
      · rename_i s er hx
        cases e
        refine ⟨⟨h.1, hd⟩, fun s' hs' => ?_⟩
        cases hs'
        exact hd.sheets _ (List.mem_of_getElem? hx) _ _ rfl
      · cases e
  | text f => exact h.elim

theorem sourceOk_used {src : Source} (h : SourceOk src) (n : Bytes) {s : Sheet} (hs : SheetOk s) : SourceOk (src.used n (.sheet s)) := by
  cases src with
  | xls b => exact h
  | text f => exact h.elim
  | xlsx a d =>
    unfold Source.used
    simp only
    split
    · split
      · rename_i i _ x hx
        have hm := List.mem_of_getElem? hx
        refine ⟨h.1, ⟨fun y hy => ?_, fun y hy t e ht => ?_, h.2.strings, h.2.fmt⟩⟩
        · rcases List.mem_or_eq_of_mem_set hy with hy | rfl
          · exact h.2.names y hy
          · exact h.2.names x hm
        · rcases List.mem_or_eq_of_mem_set hy with hy | rfl
          · exact h.2.sheets y hy t e ht
          · simp only at ht
            cases hst : x.state with
            | none => rw [hst] at ht; cases ht
            | some p => rw [hst] at ht; cases ht; exact hs
      · exact h
    · exact h

theorem sourceOk_after {ext : Ext} (hp : PrintsText ext) {src src' : Source} (h : SourceOk src) (ha : SourceAfter ext src src') : SourceOk src' := by
  induction ha with
  | here => exact h
  | get _ e ih => exact (sourceOk_get hp ih e).1
  | used _ e ha ih =>
    have := sourceOk_get hp ih e
    exact sourceOk_used this.1 _ (after_ok (this.2 _ rfl) ha).1

theorem sourceOk_valid {ext : Ext} (hp : PrintsText ext) {src : Source} (h : SourceOk src) : SourceValid ext src := by
  refine ⟨fun x hx n hn => ?_, fun x hx n x' s e => ?_⟩
  · have hk := sourceOk_after hp h hx
    cases x with
    | xls b =>
      simp only [Source.list, Xls.Book.list, List.mem_map, List.mem_filter] at hn
      obtain ⟨y, hy, rfl⟩ := hn
      exact hk.1.names y hy.1
    | xlsx a d =>
      simp only [Source.list, Xlsx.Doc.list, List.mem_map] at hn
      obtain ⟨y, hy, rfl⟩ := hn
      exact hk.2.names y hy
    | text f => exact hk.elim
  · have := (sourceOk_get hp (sourceOk_after hp h hx) e).2 s rfl
    exact ⟨sheet_text this, sheet_strings hp this⟩

/-- C129 for xlsx files, whatever is in them: the names of the sheets, the texts and links of the cells, what `Scan`
stores, and the names of types and formats are valid UTF-8. So is what `Strings` gives, except where a format puts
separators into text that is not ASCII. -/
theorem C129_xlsx_partial (w : World) (ext : Ext) (hp : PrintsText ext) (T : Xlsx.XmlTables) (fn c : Bytes) (hf : w.files fn = .ok c)
    (z : Xlsx.Files) (hz : w.zip c = .ok (z.archive T)) (src : Source) (ho : xlsxOpen w fn = .ok src) : SourceValid ext src := by
  refine sourceOk_valid hp ?_
  unfold xlsxOpen at ho
  rw [hf] at ho
  simp only [hz] at ho
  rw [GoRes.bind_eq_ok] at ho
  obtain ⟨d, hd, ho⟩ := ho
  cases ho
  exact ⟨archive_ok T z, openDoc_ok (archive_ok T z) hd⟩

/-- C129 for xls files, encrypted or not: the same, if the records that are read hold no 8-bit text that is copied without being
converted. -/
theorem C129_xls_partial (w : World) (ext : Ext) (hp : PrintsText ext) (fn : Bytes) (b : Xls.Book) (ho : xlsOpen w fn = .ok (.xls b))
    (hn : ∀ rs ∈ b.subs, NoCodePage (rs.map Xls.Rec.view)) : SourceValid ext (.xls b) := by
  refine sourceOk_valid hp ⟨?_, hn⟩
  unfold xlsOpen at ho
  split at ho
  · cases ho
  · split at ho
    · cases ho
    · rename_i r hr
      rw [GoRes.bind_eq_ok] at ho
      obtain ⟨b', hb, ho⟩ := ho
      cases ho
      subst hb
      exact openBook_ok hr

/-- C129 for the names of the sheets of an xls file, whatever is in it. -/
theorem C129_names_xls (w : World) (fn : Bytes) (b : Xls.Book) (ho : xlsOpen w fn = .ok (.xls b)) :
    ∀ n ∈ (Source.xls b).list, ValidUtf8 n := by
  have hb : BookOk b := by
    unfold xlsOpen at ho
    split at ho
    · cases ho
    · split at ho
      · cases ho
      · rename_i r hr
        rw [GoRes.bind_eq_ok] at ho
        obtain ⟨b', hb, ho⟩ := ho
        cases ho
        subst hb
        exact openBook_ok hr
  intro n hn
  simp only [Source.list, Xls.Book.list, List.mem_map, List.mem_filter] at hn
  obtain ⟨y, hy, rfl⟩ := hn
  exact hb.names y hy.1

/-! ### Text files -/

theorem rawLines_valid : ∀ (c : Bytes) (a : Bytes), ValidUtf8 (a ++ c) → (∀ l ls, Simple.rawLines c = l :: ls → ValidUtf8 (a ++ l) ∧ ∀ x ∈ ls, ValidUtf8 x)
  | [], _, _ => by intro l ls e; simp [Simple.rawLines] at e
  | b :: c, a, h => by
    intro l ls e
    unfold Simple.rawLines at e
    split at e
    · rename_i hb
      have hb : b = 10 := by simpa using hb
      subst hb
      obtain ⟨h1, h2⟩ := cut (by decide) h
      cases e
      refine ⟨by simpa using h1, fun x hx => ?_⟩
      cases hr : Simple.rawLines c with
      | nil => rw [hr] at hx; simp at hx
      | cons l' ls' =>
        have := rawLines_valid c [] (by simpa using h2) l' ls' hr
        rw [hr] at hx
        rcases List.mem_cons.1 hx with rfl | hx
        · simpa using this.1
        · exact this.2 x hx
    · have e0 : a ++ b :: c = (a ++ [b]) ++ c := by simp
      rw [e0] at h
      split at e
      · rename_i hr
        cases e
        cases c with
        | nil => exact ⟨by simpa using h, by simp⟩
        | cons x xs =>
          unfold Simple.rawLines at hr
          split at hr
          · cases hr
          · split at hr <;> cases hr
      · rename_i l' ls' hr
        cases e
        have := rawLines_valid c (a ++ [b]) h l' ls hr
        exact ⟨by simpa using this.1, this.2⟩

theorem split_valid {sep : UInt8} (hs : sep.toNat < 128) : ∀ (c : Bytes) (a : Bytes), ValidUtf8 (a ++ c) →
    (∀ l ls, splitByte sep c = l :: ls → ValidUtf8 (a ++ l) ∧ ∀ x ∈ ls, ValidUtf8 x)
  | [], a, h => by intro l ls e; simp only [splitByte, List.cons.injEq] at e; obtain ⟨rfl, rfl⟩ := e; exact ⟨h, by simp⟩
  | b :: c, a, h => by
    intro l ls e
    unfold splitByte at e
    split at e
    · rename_i hb
      have hb : b = sep := by simpa using hb
      subst hb
      obtain ⟨h1, h2⟩ := cut hs h
      cases e
      refine ⟨by simpa using h1, fun x hx => ?_⟩
      cases hr : splitByte b c with
      | nil => rw [hr] at hx; simp at hx
      | cons l' ls' =>
        have := split_valid hs c [] (by simpa using h2) l' ls' hr
        rw [hr] at hx
        rcases List.mem_cons.1 hx with rfl | hx
        · simpa using this.1
        · exact this.2 x hx
    · have e0 : a ++ b :: c = (a ++ [b]) ++ c := by simp
      rw [e0] at h
      split at e
      · rename_i hr
        cases c with
        | nil => simp [splitByte] at hr
        | cons x xs =>
          unfold splitByte at hr
          split at hr
          · cases hr
          · split at hr <;> cases hr
      · rename_i l' ls' hr
        cases e
        have := split_valid hs c (a ++ [b]) h l' ls hr
        exact ⟨by simpa using this.1, this.2⟩

theorem dropCR_valid {l : Bytes} (h : ValidUtf8 l) : ValidUtf8 (Simple.dropCR l) := by
  unfold Simple.dropCR
  split
  · rename_i hl
    obtain ⟨t, rfl⟩ : ∃ t, l = t ++ [13] := by
      rw [List.getLast?_eq_some_iff] at hl
      exact hl
    rw [List.dropLast_concat]
    exact (cut (by decide) h).1
  · exact h

/-- C129 for text files: the cells of a file that is valid UTF-8 are. -/
theorem C129_text (w : World) (t : List (Grate.Entry Source)) (ht : Shipped w t) (fn c : Bytes) (hf : w.files fn = .ok c) (hc : ValidUtf8 c)
    (f f' : Simple.File) (ho : openSrc t fn = .ok (.text f)) (hr : f'.rows = f.rows) (cells : List Bytes) (hs : f'.strings = .ok cells) :
    ∀ x ∈ cells, ValidUtf8 x := by
  have ho : tsvOpen w fn = .ok (.text f) := by
    rw [shipped_open ht] at ho
    rcases open_files w fn c hf with ⟨_, h2⟩ | ⟨_, h2 | h2 | h2 | h2⟩ <;> rw [h2] at ho
    · obtain ⟨b, e⟩ := xlsOpen_kind ho; cases e
    · obtain ⟨a, d, e⟩ := xlsxOpen_kind ho; cases e
    · exact ho
    · unfold csvOpen at ho
      rw [hf] at ho
      simp only [GoRes.bind_eq_ok] at ho
      obtain ⟨g, hg, _⟩ := ho
      unfold Simple.openCSV at hg
      simp only at hg
      repeat' split at hg
      all_goals contradiction
    · cases ho
  unfold tsvOpen at ho
  rw [hf] at ho
  simp only [GoRes.bind_eq_ok] at ho
  obtain ⟨g, hg, ho⟩ := ho
  cases ho
  unfold Simple.openTSV at hg
  simp only [GoRes.bind_eq_ok] at hg
  obtain ⟨lines, hl, hg⟩ := hg
  split at hg
  · cases hg
  cases hg
  unfold Simple.scanLines at hl
  simp only at hl
  split at hl
  · cases hl
  cases hl
  unfold Simple.File.strings Simple.File.row at hs
  rw [hr] at hs
  split at hs
  swap
  · cases hs
  split at hs
  swap
  · cases hs
  rename_i hrow
  cases hs
  have hm := List.mem_of_getElem? hrow
  simp only [List.map_map, List.mem_map, Function.comp_apply] at hm
  obtain ⟨l, hl, rfl⟩ := hm
  have hv : ValidUtf8 l := by
    cases hr : Simple.rawLines c with
    | nil => rw [hr] at hl; simp at hl
    | cons l' ls' =>
      have := rawLines_valid c [] (by simpa using hc) l' ls' hr
      rw [hr] at hl
      rcases List.mem_cons.1 hl with rfl | hx
      · simpa using this.1
      · exact this.2 _ hx
  intro x hx
  cases hsp : splitByte 9 (Simple.dropCR l) with
  | nil => rw [hsp] at hx; simp at hx
  | cons l' ls' =>
    have := split_valid (sep := 9) (by decide) (Simple.dropCR l) [] (by simpa using dropCR_valid hv) l' ls' hsp
    rw [hsp] at hx
    rcases List.mem_cons.1 hx with rfl | hx
    · simpa using this.1
    · exact this.2 _ hx

/-- There is a library like this, which shows dates as `time.Format` does. -/
theorem C129_prints : PrintsText clockExt := by
  have h0 : AsciiOnly (lit "0") := by unfold AsciiOnly; decide +kernel
  have ht : AsciiOnly (lit "t") := by unfold AsciiOnly; decide +kernel
  exact ⟨fun _ => h0, fun _ => h0, fun _ => h0, fun _ _ h => h, fun _ _ h => h, fun _ => ht, fun _ t h => goFormat_ok h t⟩

end Grate.Props
