import Verif.Model.Xlsx
import Verif.Lemmas.GoXmlDoc
import Verif.Spec.XlsxText

/-! # Lemmas: texts that the tokenizer refuses, and archives of texts -/

namespace Grate.Xlsx

open Grate Grate.Spec

theorem textLoop_outcome : ∀ (bs : Bytes) (ent : Option Bytes) (b0 b1 : UInt8) (buf : Bytes),
    textLoop .eof none false bs ent b0 b1 buf = .error xmlSyntax ∨
    ∃ data rest, textLoop .eof none false bs ent b0 b1 buf = .ok (buf ++ data, rest)
  | [], none, _, _, buf => by
    right
    exact ⟨[], [], by simp [textLoop]⟩
  | [], some _, _, _, _ => by
    left
    rfl
  | b :: rest, some e, _, _, buf => by
    unfold textLoop
    split
    · exact textLoop_outcome rest _ _ _ _
    · split
      · split
        · rename_i t _
          rcases textLoop_outcome rest none 0 0 (buf ++ t) with h | ⟨d, r, h⟩
          · left; exact h
          · right; exact ⟨t ++ d, r, by rw [h, List.append_assoc]⟩
        · left; rfl
      · left; rfl
  | b :: rest, none, b0, b1, buf => by
    unfold textLoop
    split
    · left; rfl
    · split
      · right; exact ⟨[], b :: rest, by simp⟩
      · split
        · rename_i h; cases h
        · split
          · exact textLoop_outcome rest _ _ _ _
          · split
            · rcases textLoop_outcome rest none b1 b (buf ++ [10]) with h | ⟨d, r, h⟩
              · left; exact h
              · right; exact ⟨[10] ++ d, r, by rw [h, List.append_assoc]⟩
            · split
              · exact textLoop_outcome rest _ _ _ _
              · rcases textLoop_outcome rest none b1 b (buf ++ [b]) with h | ⟨d, r, h⟩
                · left; exact h
                · right; exact ⟨[b] ++ d, r, by rw [h, List.append_assoc]⟩

/-- A byte that no text can begin with. -/
theorem rawToken_bad (T : XmlTables) (b : UInt8) (rest : Bytes) (h60 : b ≠ 60) (h38 : b ≠ 38) (h13 : b ≠ 13)
    (h : ∀ t, charsOk 0 (b :: t) = false) : rawToken T .eof (b :: rest) = .error xmlSyntax := by
  have hx : xmlText .eof none false (b :: rest) = .error xmlSyntax := by
    unfold xmlText
    have e : textLoop .eof none false (b :: rest) none 0 0 [] = textLoop .eof none false rest none 0 b [b] := by
      conv => lhs; unfold textLoop
      rw [if_neg (by simp), if_neg (by simp [h60]), if_neg (by simp), if_neg (by simp [h38]), if_neg h13, if_neg (by simp)]
      rfl
    rw [e]
    rcases textLoop_outcome rest none 0 b [b] with h' | ⟨d, r, h'⟩
    · rw [h']
    · rw [h']
      simp [h d]
  unfold rawToken
  split
  · simp_all
  · simp_all
  · simp_all
  · simp_all
  · simp_all
  · rw [hx]

theorem xmlTokens_bad (T : XmlTables) (bs : Bytes) (h : rawToken T .eof bs = .error xmlSyntax) (hne : bs ≠ []) :
    xmlPart T bs .eof = ⟨[], xmlSyntax⟩ := by
  cases bs with
  | nil => exact absurd rfl hne
  | cons b bs =>
    unfold xmlPart
    simp only [xmlTokens, h]

theorem charsOk_zero (t : Bytes) : charsOk 0 (0 :: t) = false := by
  have : (decodeRune 0 t).1 = 0 := rfl
  unfold charsOk
  rw [this]
  simp [inCharRange]

theorem charsOk_marks (t : Bytes) : charsOk 0 (0xFF :: t) = false ∧ charsOk 0 (0xFE :: t) = false := by
  have h1 : decodeRune 0xFF t = (0xFFFD, 1) := rfl
  have h2 : decodeRune 0xFE t = (0xFFFD, 1) := rfl
  constructor
  · unfold charsOk
    rw [h1]
    simp
  · unfold charsOk
    rw [h2]
    simp

/-- A text in UTF-16 has no tokens. -/
theorem xmlPart_utf16 (T : XmlTables) (bs : Bytes) (h : Utf16Start bs) : xmlPart T bs .eof = ⟨[], xmlSyntax⟩ := by
  obtain ⟨rest, rfl | rfl | rfl | rfl⟩ := h
  · exact xmlTokens_bad T _ (rawToken_bad T _ _ (by decide) (by decide) (by decide) (fun t => (charsOk_marks t).1)) (by simp)
  · exact xmlTokens_bad T _ (rawToken_bad T _ _ (by decide) (by decide) (by decide) (fun t => (charsOk_marks t).2)) (by simp)
  · exact xmlTokens_bad T _ rfl (by simp)
  · exact xmlTokens_bad T _ (rawToken_bad T _ _ (by decide) (by decide) (by decide) charsOk_zero) (by simp)

/-! ### Archives -/

theorem xmlPart_text (T : XmlTables) {ts : List Tok} {bs : Bytes} (h : XmlText ts bs) : xmlPart T bs .eof = ⟨ts, .eof⟩ := by
  unfold xmlPart
  rw [xmlTokens_text T .eof h _ (Nat.lt_succ_self _)]

theorem bom_text {ts : List Tok} {t : Bytes} (h : XmlText ts t) (hd : t.head? = some 60) :
    XmlText (.chars bom :: ts) (bom ++ t) := by
  have e : bom = utf8 [0xFEFF] := by decide +kernel
  have h1 := XmlText.text [0xFEFF] bom ts t ⟨?_, ?_⟩ (by simp) (Or.inr hd) h
  · rw [← e] at h1
    exact h1
  · have := Written.char (plain := fun c => c ≠ 13 ∧ c ≠ 38 ∧ c ≠ 60) (refs := True) (nl := True) 0xFEFF [] []
      (by unfold XmlChar; omega) (by decide) .nil
    rw [← e, List.append_nil] at this
    exact this
  · unfold NoCdEnd
    decide +kernel

theorem xmlFile_part (T : XmlTables) {ts : List Tok} {bs : Bytes} (h : XmlFile ts bs) :
    xmlPart T bs .eof = ⟨ts, .eof⟩ ∨ xmlPart T bs .eof = ⟨.chars bom :: ts, .eof⟩ := by
  rcases h with h | ⟨t, rfl, hd, h⟩
  · exact Or.inl (xmlPart_text T h)
  · exact Or.inr (xmlPart_text T (bom_text h hd))

theorem archive_has (T : XmlTables) {z : Files} {name bs : Bytes} (h : HasBytes z name bs) {ts : List Tok}
    (hp : xmlPart T bs .eof = ⟨ts, .eof⟩) : HasPart (z.archive T) name ts := by
  obtain ⟨before, after, rfl, hb⟩ := h
  refine ⟨Files.archive T before, Files.archive T after, ?_, ?_⟩
  · unfold Files.archive
    simp only [List.map_append, List.map_cons, Except.map, hp]
  · intro e he
    unfold Files.archive at he
    rw [List.mem_map] at he
    obtain ⟨x, hx, rfl⟩ := he
    exact hb x hx

theorem archive_open (T : XmlTables) {z : Files} {name bs : Bytes} (h : HasBytes z name bs) :
    openXML (z.archive T) name = .ok (xmlPart T bs .eof) := by
  obtain ⟨before, after, rfl, hb⟩ := h
  unfold Files.archive
  simp only [List.map_append, List.map_cons, Except.map]
  induction before with
  | nil => rw [List.map_nil, List.nil_append, openXML, if_pos rfl]
  | cons e es ih =>
    rw [List.map_cons, List.cons_append, openXML, if_neg (hb e (by simp))]
    exact ih (fun x hx => hb x (by simp [hx]))

/-- Each part of the archive, perhaps after the text of a byte order mark. -/
def Marked (a a' : Archive) : Prop :=
  (∀ n ts, HasPart a n ts → HasPart a' n ts ∨ HasPart a' n (.chars bom :: ts)) ∧ ∀ n, LacksPart a n → LacksPart a' n

theorem writes_marked (T : XmlTables) {a : Archive} {z : Files} (h : WritesParts a z) : Marked a (z.archive T) := by
  refine ⟨?_, ?_⟩
  · intro n ts hp
    obtain ⟨bs, hz, hx⟩ := h.has n ts hp
    rcases xmlFile_part T hx with e | e
    · exact Or.inl (archive_has T hz e)
    · exact Or.inr (archive_has T hz e)
  · intro n hn e he
    unfold Files.archive at he
    rw [List.mem_map] at he
    obtain ⟨x, hx, rfl⟩ := he
    exact h.lacks n hn x hx

theorem Marked.of {a a' : Archive} (h : Marked a a') {n : Bytes} {ts : List Tok} (hp : HasPart a n ts) :
    ∃ us, HasPart a' n us ∧ (us = ts ∨ us = .chars bom :: ts) := by
  rcases h.1 n ts hp with h | h
  · exact ⟨_, h, Or.inl rfl⟩
  · exact ⟨_, h, Or.inr rfl⟩

theorem Marked.xlsxFile {a a' : Archive} (h : Marked a a') {dir : List Bytes} {base : Bytes} {b : Book}
    (hf : XlsxFile a dir base b) : XlsxFile a' dir base b where
  dirNames := hf.dirNames
  baseName := hf.baseName
  root := by
    obtain ⟨ts, before, after, r, hp, hr, h1⟩ := hf.root
    obtain ⟨us, hu, rfl | rfl⟩ := h.of hp
    · exact ⟨_, before, after, r, hu, hr, h1⟩
    · exact ⟨_, before, after, r, hu, .other _ _ _ (by simp [Starts]) hr, h1⟩
  rels := by
    obtain ⟨ts, hp, hr⟩ := hf.rels
    obtain ⟨us, hu, rfl | rfl⟩ := h.of hp
    · exact ⟨_, hu, hr⟩
    · exact ⟨_, hu, .other _ _ _ (by simp [Starts]) hr⟩
  noOther := hf.noOther
  ids := hf.ids
  workbook := by
    obtain ⟨ts, hp, hr⟩ := hf.workbook
    obtain ⟨us, hu, rfl | rfl⟩ := h.of hp
    · exact ⟨_, hu, hr⟩
    · exact ⟨_, hu, .other _ _ _ (by simp [Starts]) hr⟩
  styles := by
    rcases hf.styles with h1 | ⟨p, ts, xfs, h1, hp, hr, h2⟩
    · exact Or.inl h1
    · obtain ⟨us, hu, rfl | rfl⟩ := h.of hp
      · exact Or.inr ⟨p, _, xfs, h1, hu, hr, h2⟩
      · exact Or.inr ⟨p, _, xfs, h1, hu, .other _ _ _ _ (by simp [Starts]) hr, h2⟩
  strings := by
    rcases hf.strings with h1 | ⟨p, ts, h1, hp, hr⟩
    · exact Or.inl h1
    · obtain ⟨us, hu, rfl | rfl⟩ := h.of hp
      · exact Or.inr ⟨p, _, h1, hu, hr⟩
      · exact Or.inr ⟨p, _, h1, hu, .other _ _ _ (by simp [Starts]) (by simp [Stops]) hr⟩

theorem marked_sheet {ext : Ext} {strings : List Bytes} {styles : List Nat} {links : Bytes → Bytes} {ts : List Tok}
    {m : Nat × Nat} {ws : List Write} (h : WsPart ext strings styles links ts m ws) (s : Bytes) :
    WsPart ext strings styles links (.chars s :: ts) m ws := by
  cases h with
  | plain _ _ h => exact .plain _ _ (.other _ _ _ (by simp [Starts]) h)
  | dimension head attrs ref r c ts _ h1 h2 h3 h4 h5 =>
    refine .dimension (.chars s :: head) attrs ref r c ts ws ?_ h2 h3 h4 h5
    intro x hx
    rcases List.mem_cons.1 hx with rfl | hx
    · simp [Starts]
    · exact h1 x hx

end Grate.Xlsx
