import Verif.Lemmas.Hyperlinks

/-! # C52: hyperlink records decode to their text and target -/

namespace Grate.Props

open Spec Xls

/-- The moniker gives the text of the target, possibly with the final NUL. -/
theorem moniker_spec (h : Hyper) (ok : h.Ok) (c rest : Bytes) :
    ∃ x, monikerPart h.flags ⟨h.target.bytes ++ c, rest⟩ = .ok (x, ⟨c, rest⟩) ∧
      (x = utf8 h.target.show ∨ x = utf8 h.target.show ++ [0]) := by
  have f0 := ok.fMoniker
  have f8 := ok.fString
  have ht := ok.target
  unfold monikerPart
  cases hT : h.target with
  | none =>
    rw [hT] at f0
    rw [if_neg (by rw [f0]; simp)]
    exact ⟨[], rfl, Or.inl rfl⟩
  | text t =>
    rw [hT] at f0 f8 ht
    rw [if_pos (f0.2 (by simp)), if_pos ((f8 (by simp)).2 ⟨t, rfl⟩)]
    exact ⟨_, hyperString_spec t ht c rest, Or.inr rfl⟩
  | url t extra =>
    rw [hT] at f0 f8 ht
    have hx := urlMoniker_spec t extra ht c rest
    rw [if_pos (f0.2 (by simp)), if_neg (by rw [f8 (by simp)]; simp)]
    unfold parseMoniker Target.bytes
    rw [List.append_assoc, sub_here _ _ _ 16 rfl]
    simp only [GoRes.ok_bind]
    rw [if_pos (by decide), drop_here _ _ _ 16 rfl, GoRes.ok_bind, List.append_assoc]
    exact ⟨_, hx, Or.inr rfl⟩
  | file anti p fixed =>
    rw [hT] at f0 f8 ht
    have hx := file_spec anti p fixed ht c rest
    rw [if_pos (f0.2 (by simp)), if_neg (by rw [f8 (by simp)]; simp)]
    unfold parseMoniker Target.bytes
    rw [List.append_assoc, sub_here _ _ _ 16 rfl]
    simp only [GoRes.ok_bind]
    rw [if_neg (by decide), if_pos (by decide), drop_here _ _ _ 16 rfl, GoRes.ok_bind]
    simp only [List.append_assoc]
    exact ⟨_, hx, Or.inr rfl⟩
  | fileUni anti p fixed key t =>
    rw [hT] at f0 f8 ht
    have hx := fileUni_spec anti p fixed key t ht c rest
    rw [if_pos (f0.2 (by simp)), if_neg (by rw [f8 (by simp)]; simp)]
    unfold parseMoniker Target.bytes
    rw [List.append_assoc, sub_here _ _ _ 16 rfl]
    simp only [GoRes.ok_bind]
    rw [if_neg (by decide), if_pos (by decide), drop_here _ _ _ 16 rfl, GoRes.ok_bind]
    simp only [List.append_assoc]
    exact ⟨_, hx, Or.inl rfl⟩

/-- The link that is reported: the location if there is one, else the target. -/
def reported (h : Hyper) : List Nat := h.location.getD h.target.show

/-- C52: every well-formed hyperlink is decoded, with all combinations of parts; `tail` is what follows it. The
display text and the link are the stored ones, trimmed; a location takes the place of the target. -/
theorem C52_decode_partial (h : Hyper) (ok : h.Ok) (cls tail rest : Bytes) (hc : cls.length = 16) :
    ∃ d l, decodeHyperlinks ⟨h.bytes cls ++ tail, rest⟩ = .ok (d, l) ∧
      Trims (utf8 (h.display.getD [])) d ∧ Trims (utf8 (reported h)) l := by
  have e : h.bytes cls ++ tail = cls ++ (leBytes 4 2 ++ (leBytes 4 h.flags ++ (optText h.display ++ (optText h.frame ++
      (h.target.bytes ++ (optText h.location ++ tail)))))) := by
    unfold Hyper.bytes; simp
  -- the parts
  have hd : ∀ c, ∃ x, displayPart h.flags ⟨optText h.display ++ c, rest⟩ = .ok (x, ⟨c, rest⟩) ∧
      trim x = trim (utf8 (h.display.getD [])) := by
    intro c
    unfold displayPart
    rw [ok.fDisplay]
    cases hD : h.display with
    | none => exact ⟨[], by simp [optText], rfl⟩
    | some t =>
      refine ⟨_, ?_, trim_nul _⟩
      rw [if_pos (by simp)]
      exact hyperString_spec t (ok.display t hD) c rest
  have hf : ∀ c, framePart h.flags ⟨optText h.frame ++ c, rest⟩ = .ok ⟨c, rest⟩ := by
    intro c
    unfold framePart
    rw [ok.fFrame]
    cases hF : h.frame with
    | none => simp [optText]
    | some t =>
      have h2 := (ok.frame t hF).2
      rw [if_pos (by simp)]
      have hl := optText_len t
      unfold optText
      have hsub : (⟨hyperText t ++ c, rest⟩ : Slice).sub 0 4 =
          .ok ⟨leBytes 4 ((t.flatMap units).length + 1), charBytes true (t.flatMap units ++ [0]) ++ c ++ rest⟩ := by
        unfold hyperText
        rw [List.append_assoc]
        exact sub_here _ _ _ _ (leBytes_length 4 _).symm
      simp only [hsub, GoRes.ok_bind, u32_only ((t.flatMap units).length + 1) (by omega)]
      rw [Nat.mod_eq_of_lt (by omega)]
      exact drop_here _ _ _ _ hl.symm
  have hl : ∀ x, ∃ y, locationPart h.flags x ⟨optText h.location ++ tail, rest⟩ = .ok y ∧
      (h.location = none ∧ y = x ∨ ∃ t, h.location = some t ∧ y = utf8 t ++ [0]) := by
    intro x
    unfold locationPart
    rw [ok.fLocation]
    cases hL : h.location with
    | none => exact ⟨x, rfl, Or.inl ⟨rfl, rfl⟩⟩
    | some t =>
      rw [if_pos (by simp)]
      refine ⟨utf8 t ++ [0], ?_, Or.inr ⟨t, rfl, rfl⟩⟩
      unfold optText
      rw [hyperString_spec t (ok.location t hL) tail rest]
      rfl
  obtain ⟨x, hx, hxd⟩ := hd (optText h.frame ++ (h.target.bytes ++ (optText h.location ++ tail)))
  obtain ⟨y, hy, hyt⟩ := moniker_spec h ok (optText h.location ++ tail) rest
  obtain ⟨z, hz, hzl⟩ := hl y
  refine ⟨trim x, trim z, ?_, ?_, ?_⟩
  · rw [e]
    unfold decodeHyperlinks
    rw [drop_here _ _ _ 16 hc.symm, GoRes.ok_bind, sub_here _ _ _ 4 (leBytes_length 4 _).symm]
    simp only [GoRes.ok_bind, u32_only 2 (by decide)]
    rw [if_neg (by decide), sub_second _ _ _ _ 4 8 (leBytes_length 4 _).symm (by simp [leBytes_length])]
    simp only [GoRes.ok_bind, u32_only h.flags ok.flags]
    rw [drop_two _ _ _ _ 8 (by simp [leBytes_length])]
    simp only [GoRes.ok_bind, hx, hf, hy, hz, GoRes.pure_eq]
  · rw [hxd]; exact trim_spec _
  · have : trim z = trim (utf8 (reported h)) := by
      unfold reported
      rcases hzl with ⟨h1, h2⟩ | ⟨t, h1, h2⟩
      · rw [h1, h2]
        rcases hyt with hyt | hyt
        · rw [hyt]; rfl
        · rw [hyt, trim_nul]; rfl
      · rw [h1, h2, trim_nul]; rfl
    rw [this]; exact trim_spec _

/-- A hyperlink with a URL and a location inside it. -/
def exHyper (url : List Nat) : Hyper := ⟨some [72, 105, 32], none, .url url none, some [35, 97], 0x19⟩

theorem exHyper_ok : (exHyper [104, 58]).Ok ∧ (exHyper [102, 58]).Ok := by
  have key : ∀ a, a = 104 ∨ a = 102 → (exHyper [a, 58]).Ok := by
    intro a ha
    have hs : HyperOk [a, 58] := by
      refine ⟨?_, ?_⟩
      · intro r hr; left; simp at hr; omega
      · rcases ha with ha | ha <;> subst ha <;> decide
    refine ⟨?_, ?_, ⟨hs, ?_, ?_⟩, ?_, show (0x19 : Nat) < 2 ^ 32 by decide, ?_,
      show Nat.testBit 0x19 3 = true by decide, show Nat.testBit 0x19 4 = true by decide,
      show Nat.testBit 0x19 7 = false by decide, ?_⟩
    · intro t ht
      cases ht
      exact ⟨by intro r hr; left; simp at hr; omega, by decide⟩
    · intro t ht; cases ht
    · simp; omega
    · intro x hx; cases hx
    · intro t ht
      cases ht
      exact ⟨by intro r hr; left; simp at hr; omega, by decide⟩
    · show (Nat.testBit 0x19 0 = true) ↔ _
      simp [exHyper]
    · intro _
      show (Nat.testBit 0x19 8 = true) ↔ _
      simp [exHyper]
      decide
  exact ⟨key _ (Or.inl rfl), key _ (Or.inr rfl)⟩

/-- C52 does not hold as stated if both a target and a location are stored: hyperlinks to the same place in
different documents are decoded to the same link. -/
theorem C52_counterexample :
    (exHyper [104, 58]).Ok ∧ (exHyper [102, 58]).Ok ∧ (exHyper [104, 58]).target ≠ (exHyper [102, 58]).target ∧
    decodeHyperlinks ⟨(exHyper [104, 58]).bytes (List.replicate 16 0), []⟩ = .ok (lit "Hi", lit "#a") ∧
    decodeHyperlinks ⟨(exHyper [102, 58]).bytes (List.replicate 16 0), []⟩ = .ok (lit "Hi", lit "#a") := by
  refine ⟨exHyper_ok.1, exHyper_ok.2, by simp [exHyper], by rfl, by rfl⟩

/-- C52: the trimmed text is determined by the stored one. -/
theorem C52_trims_unique (s t u : Bytes) (h1 : Trims s t) (h2 : Trims s u) : t = u := by
  rw [← trims_eq h1, trims_eq h2]

end Grate.Props
