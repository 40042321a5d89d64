import Verif.Model.Hyperlinks
import Verif.Spec.Hyperlinks
import Verif.Lemmas.XlsStrings
import Verif.Props.Utf16

/-! # Lemmas about hyperlinks -/

namespace Grate.Xls

open Spec

theorem read16u_spec : ∀ (us : List Nat) (c rest : Bytes), (∀ u ∈ us, u < 65536) →
    read16u us.length ⟨charBytes true us ++ c, rest⟩ = .ok (us, ⟨c, rest⟩) := by
  intro us
  induction us with
  | nil => intro c rest _; rfl
  | cons u us ih =>
    intro c rest h
    have hu : u < 65536 := h u (by simp)
    rw [List.length_cons, read16u, charBytes_cons, if_pos rfl, List.append_assoc, u16_here u hu, GoRes.ok_bind,
      drop_here _ _ _ _ (by simp [leBytes]), GoRes.ok_bind, ih c rest (fun x hx => h x (by simp [hx]))]
    rfl

theorem units_lt (r : Nat) (h : Scalar r) : ∀ u ∈ units r, u < 65536 := by
  intro u hu
  unfold Scalar at h
  unfold units at hu
  split at hu
  · simp at hu; omega
  · simp at hu; omega

theorem flat_units_lt (t : List Nat) (h : ∀ r ∈ t, Scalar r) : ∀ u ∈ t.flatMap units, u < 65536 := by
  intro u hu
  rw [List.mem_flatMap] at hu
  obtain ⟨r, hr, hu⟩ := hu
  exact units_lt r (h r hr) u hu

theorem utf8_append (s t : List Nat) : utf8 (s ++ t) = utf8 s ++ utf8 t := by
  unfold utf8; rw [List.flatMap_append]

theorem utf8_nul (t : List Nat) : utf8 (t ++ [0]) = utf8 t ++ [0] := by
  rw [utf8_append]; rfl

theorem u16str_text (t : List Nat) (h : ∀ r ∈ t, Scalar r) : u16str (t.flatMap units) = utf8 t :=
  Props.C66_text t h

theorem u16str_nul (t : List Nat) (h : ∀ r ∈ t, Scalar r) : u16str (t.flatMap units ++ [0]) = utf8 t ++ [0] := by
  have := u16str_text (t ++ [0]) (by
    intro r hr
    rw [List.mem_append] at hr
    rcases hr with hr | hr
    · exact h r hr
    · simp at hr; subst hr; exact Or.inl (by omega))
  rw [List.flatMap_append, utf8_nul] at this
  exact this

theorem leBytes_length (k n : Nat) : (leBytes k n).length = k := by
  induction k generalizing n with
  | zero => rfl
  | succ k ih => rw [leBytes, List.length_cons, ih]

theorem u32_only (n : Nat) (h : n < 2 ^ 32) (rest : Bytes) : (⟨leBytes 4 n, rest⟩ : Slice).u32 = .ok n := by
  have := u32_here n h [] rest
  rwa [List.append_nil] at this

theorem hyperString_spec (t : List Nat) (h : HyperOk t) (c rest : Bytes) :
    hyperString ⟨hyperText t ++ c, rest⟩ = .ok (utf8 t ++ [0], ⟨c, rest⟩) := by
  obtain ⟨h1, h2⟩ := h
  unfold hyperString hyperText
  rw [List.append_assoc, sub_here _ _ _ _ (leBytes_length 4 _).symm]
  have hl : (t.flatMap units).length + 1 = (t.flatMap units ++ [0]).length := by simp
  have hr := read16u_spec (t.flatMap units ++ [0]) c rest (by
    intro u hu
    rw [List.mem_append] at hu
    rcases hu with hu | hu
    · exact flat_units_lt t h1 u hu
    · simp at hu; omega)
  simp only [GoRes.ok_bind, u32_only ((t.flatMap units).length + 1) (by omega),
    drop_here _ (charBytes true (t.flatMap units ++ [0]) ++ c) rest 4 (leBytes_length 4 _).symm]
  rw [hl, hr]
  simp only [GoRes.ok_bind, GoRes.pure_eq, u16str_nul t h1]

theorem optText_len (t : List Nat) : (hyperText t).length = 4 + ((t.flatMap units).length + 1) * 2 := by
  unfold hyperText
  rw [List.length_append, leBytes_length, charBytes_length]
  simp

/-! ### Trimming -/

theorem mem_trimSet (b : UInt8) : b ∈ trimSet ↔ Blank b := by
  unfold trimSet Blank
  simp only [List.mem_cons, List.not_mem_nil, or_false]
  constructor
  · rintro (h | h | h | h | h | h | h) <;> simp [h]
  · rintro (h | h | h | h | h | h | h) <;> simp [h]

theorem dropWhile_split (p : UInt8 → Bool) (s : Bytes) :
    ∃ a, s = a ++ s.dropWhile p ∧ (∀ x ∈ a, p x = true) ∧ ∀ x, (s.dropWhile p).head? = some x → p x = false := by
  refine ⟨s.takeWhile p, (List.takeWhile_append_dropWhile).symm, ?_, ?_⟩
  · intro x hx
    exact List.all_eq_true.1 List.all_takeWhile x hx
  · intro x hx
    have := List.head?_dropWhile_not p s
    rw [hx] at this
    simpa using this

theorem trim_spec (s : Bytes) : Trims s (trim s) := by
  obtain ⟨a, ha, hap, hah⟩ := dropWhile_split (fun b => decide (b ∈ trimSet)) s
  obtain ⟨b, hb, hbp, hbh⟩ := dropWhile_split (fun b => decide (b ∈ trimSet))
    (s.dropWhile (fun b => decide (b ∈ trimSet))).reverse
  have ht : trim s = ((s.dropWhile (fun b => decide (b ∈ trimSet))).reverse.dropWhile
    (fun b => decide (b ∈ trimSet))).reverse := rfl
  generalize hd : s.dropWhile (fun b => decide (b ∈ trimSet)) = d at *
  generalize he : d.reverse.dropWhile (fun b => decide (b ∈ trimSet)) = e at *
  have hde : d = e.reverse ++ b.reverse := by
    have := congrArg List.reverse hb
    simpa using this
  rw [ht]
  refine ⟨a, b.reverse, ?_, ?_, ?_, ?_, ?_⟩
  · rw [ha, hde]
  · intro x hx
    exact (mem_trimSet x).1 (by simpa using hap x hx)
  · intro x hx
    exact (mem_trimSet x).1 (by simpa using hbp x (by simpa using hx))
  · intro x hx
    rw [← mem_trimSet]
    have : d.head? = some x := by
      rw [hde]
      cases hr : e.reverse with
      | nil => rw [hr] at hx; cases hx
      | cons y ys => rw [hr] at hx; simpa using hx
    have := hah x this
    simpa using this
  · intro x hx
    rw [← mem_trimSet]
    rw [List.getLast?_reverse] at hx
    have := hbh x hx
    simpa using this

theorem trim_nul (s : Bytes) : trim (s ++ [0]) = trim s := by
  have h0 : (fun b => decide (b ∈ trimSet)) (0 : UInt8) = true := by decide
  have h1 : [(0 : UInt8)].dropWhile (fun b => decide (b ∈ trimSet)) = [] := by decide
  unfold trim
  rw [List.dropWhile_append]
  cases hd : (s.dropWhile (fun b => decide (b ∈ trimSet))).isEmpty with
  | true =>
    rw [if_pos rfl, h1]
    have : s.dropWhile (fun b => decide (b ∈ trimSet)) = [] := by simpa using hd
    rw [this]
  | false =>
    rw [if_neg (by simp)]
    rw [List.reverse_append, List.reverse_singleton, List.singleton_append, List.dropWhile_cons, if_pos h0]

theorem dropWhile_blank (a x : Bytes) (ha : ∀ y ∈ a, Blank y) :
    (a ++ x).dropWhile (fun b => decide (b ∈ trimSet)) = x.dropWhile (fun b => decide (b ∈ trimSet)) := by
  induction a with
  | nil => rfl
  | cons y a ih =>
    rw [List.cons_append, List.dropWhile_cons, if_pos (by simp [mem_trimSet, ha y (by simp)]),
      ih (fun z hz => ha z (by simp [hz]))]

theorem dropWhile_keep (x : Bytes) (h : ∀ y, x.head? = some y → ¬ Blank y) :
    x.dropWhile (fun b => decide (b ∈ trimSet)) = x := by
  cases x with
  | nil => rfl
  | cons y x => rw [List.dropWhile_cons, if_neg (by simp [mem_trimSet, h y rfl])]

theorem trims_eq {s t : Bytes} (h : Trims s t) : trim s = t := by
  obtain ⟨a, b, rfl, ha, hb, h1, h2⟩ := h
  have hb' : ∀ y ∈ b.reverse, Blank y := fun y hy => hb y (by simpa using hy)
  have h2' : ∀ y, t.reverse.head? = some y → ¬ Blank y := by
    intro y hy; rw [List.head?_reverse] at hy; exact h2 y hy
  unfold trim
  rw [dropWhile_blank a _ ha]
  cases t with
  | nil =>
    rw [List.nil_append]
    have := dropWhile_blank b [] hb
    rw [List.append_nil] at this
    rw [this]
    rfl
  | cons y t =>
    rw [dropWhile_keep (y :: t ++ b) (fun z hz => h1 z (by simpa using hz)), List.reverse_append,
      dropWhile_blank _ _ hb', dropWhile_keep _ h2', List.reverse_reverse]

/-! ### Monikers -/

theorem charBytes_append (w : Bool) (a b : List Nat) : charBytes w (a ++ b) = charBytes w a ++ charBytes w b := by
  unfold charBytes; rw [List.flatMap_append]

theorem ascii_byte (c : Nat) (h : c < 128) : leBytes 1 c = String.utf8EncodeChar (Char.ofNat c) := by
  rw [← Props.utf8Rune_eq c (Or.inl (by omega))]
  unfold utf8Rune
  rw [if_pos (by omega)]
  simp [leBytes, Nat.mod_eq_of_lt (show c < 256 by omega)]

theorem ascii_bytes (p : List Nat) (h : ∀ c ∈ p, c < 128) : charBytes false p = utf8 p := by
  induction p with
  | nil => rfl
  | cons c p ih =>
    rw [charBytes_cons, ih (fun x hx => h x (by simp [hx]))]
    unfold utf8
    rw [List.flatMap_cons]
    congr 1
    exact ascii_byte c (h c (by simp))

theorem zero_units {t : List Nat} (h : 0 ∉ t) : 0 ∉ t.flatMap units := by
  intro hc
  rw [List.mem_flatMap] at hc
  obtain ⟨r, hr, hu⟩ := hc
  unfold units at hu
  split at hu
  · simp at hu; subst hu; exact h hr
  · simp only [List.mem_cons, List.not_mem_nil, or_false] at hu; omega

/-- The text and its NUL are found whether or not the 24 bytes follow. -/
theorem url_cut (us extra : List Nat) (h0 : 0 ∉ us) (he : extra = [] ∨ extra.length = 12) :
    (let buf := us ++ (0 :: extra)
     let n := us.length + 1 + extra.length
     if 12 < n ∧ buf[n - 13]? = some 0 then buf.take (n - 12) else buf) = us ++ [0] := by
  simp only
  rcases he with he | he
  · subst he
    rw [if_neg]
    rintro ⟨h1, h2⟩
    simp only [List.length_nil, Nat.add_zero] at h1 h2
    rw [List.getElem?_append_left (by omega)] at h2
    exact h0 (List.mem_of_getElem? h2)
  · rw [if_pos]
    · rw [he, show us.length + 1 + 12 - 12 = (us ++ [0]).length by simp,
        show us ++ (0 :: extra) = (us ++ [0]) ++ extra by simp, List.take_left' rfl]
    · rw [he, show us.length + 1 + 12 - 13 = us.length by omega]
      refine ⟨by omega, ?_⟩
      simp

theorem urlMoniker_spec (t : List Nat) (extra : Option (List Nat)) (h : (Target.url t extra).Ok) (c rest : Bytes) :
    urlMoniker ⟨leBytes 4 (2 * ((t.flatMap units).length + 1 + (extra.getD []).length)) ++
        (charBytes true (t.flatMap units ++ (0 :: extra.getD [])) ++ c), rest⟩ = .ok (utf8 t ++ [0], ⟨c, rest⟩) := by
  obtain ⟨⟨h1, h2⟩, h3, h4⟩ := h
  have hx : (extra.getD [] = [] ∨ (extra.getD []).length = 12) ∧ ∀ u ∈ extra.getD [], u < 65536 := by
    cases extra with
    | none => exact ⟨Or.inl rfl, by simp⟩
    | some x => obtain ⟨ha, hb⟩ := h4 x rfl; exact ⟨Or.inr ha, hb⟩
  generalize extra.getD [] = x at *
  obtain ⟨hl, hu⟩ := hx
  have hlen : x.length ≤ 12 := by rcases hl with hl | hl <;> simp [hl]
  unfold urlMoniker
  rw [u32_here _ (by omega), GoRes.ok_bind, drop_here _ _ _ _ (leBytes_length 4 _).symm, GoRes.ok_bind]
  have hn : 2 * ((t.flatMap units).length + 1 + x.length) / 2 = (t.flatMap units ++ (0 :: x)).length := by
    simp; omega
  have hr := read16u_spec (t.flatMap units ++ (0 :: x)) c rest (by
    intro u hm
    rw [List.mem_append, List.mem_cons] at hm
    rcases hm with hm | hm | hm
    · exact flat_units_lt t h1 u hm
    · omega
    · exact hu u hm)
  rw [hn, hr]
  have hcut := url_cut (t.flatMap units) x (zero_units h3) hl
  simp only at hcut
  have hn2 : (t.flatMap units ++ (0 :: x)).length = (t.flatMap units).length + 1 + x.length := by simp; omega
  simp only [GoRes.ok_bind, GoRes.pure_eq, hn2]
  rw [hcut, u16str_nul t h1]

theorem drop_two (a b c rest : Bytes) (n : Nat) (h : n = a.length + b.length) :
    (⟨a ++ (b ++ c), rest⟩ : Slice).dropFrom n = .ok ⟨c, rest⟩ := by
  rw [← List.append_assoc]
  exact drop_here (a ++ b) c rest n (by simp [h])

theorem sub_second (a b c rest : Bytes) (lo hi : Nat) (h1 : lo = a.length) (h2 : hi = a.length + b.length) :
    (⟨a ++ (b ++ c), rest⟩ : Slice).sub lo hi = .ok ⟨b, c ++ rest⟩ := by
  subst h1 h2
  exact Crypto.sub_mid a b c rest _ _ rfl rfl

theorem fileMoniker_head (anti : Nat) (p fixed more rest : Bytes) (hp : p.length < 2 ^ 32) (hf : fixed.length = 24) :
    (⟨leBytes 2 anti ++ (leBytes 4 p.length ++ (p ++ (fixed ++ more))), rest⟩ : Slice).dropFrom 2 =
      .ok ⟨leBytes 4 p.length ++ (p ++ (fixed ++ more)), rest⟩ ∧
    (⟨leBytes 2 anti ++ (leBytes 4 p.length ++ (p ++ (fixed ++ more))), rest⟩ : Slice).sub 6 (6 + p.length) =
      .ok ⟨p, fixed ++ more ++ rest⟩ ∧
    (⟨leBytes 2 anti ++ (leBytes 4 p.length ++ (p ++ (fixed ++ more))), rest⟩ : Slice).dropFrom (6 + p.length + 24) =
      .ok ⟨more, rest⟩ ∧
    (⟨leBytes 4 p.length ++ (p ++ (fixed ++ more)), rest⟩ : Slice).u32 = .ok p.length := by
  have e : leBytes 2 anti ++ (leBytes 4 p.length ++ (p ++ (fixed ++ more))) =
      (leBytes 2 anti ++ leBytes 4 p.length) ++ (p ++ (fixed ++ more)) := by simp
  refine ⟨drop_here _ _ _ _ (leBytes_length 2 _).symm, ?_, ?_, u32_here _ hp _ _⟩
  · rw [e]
    exact sub_second _ _ _ _ _ _ (by simp [leBytes_length]) (by simp [leBytes_length])
  · rw [e, show (leBytes 2 anti ++ leBytes 4 p.length) ++ (p ++ (fixed ++ more)) =
      ((leBytes 2 anti ++ leBytes 4 p.length) ++ p) ++ (fixed ++ more) by simp]
    exact drop_two _ _ _ _ _ (by simp [leBytes_length, hf]; omega)

theorem file_spec (anti : Nat) (p : List Nat) (fixed : Bytes) (h : (Target.file anti p fixed).Ok) (c rest : Bytes) :
    fileMoniker ⟨leBytes 2 anti ++ (leBytes 4 (p.length + 1) ++ (charBytes false (p ++ [0]) ++
      (fixed ++ (leBytes 4 0 ++ c)))), rest⟩ = .ok (utf8 p ++ [0], ⟨c, rest⟩) := by
  obtain ⟨h1, h2, h3⟩ := h
  have hb : charBytes false (p ++ [0]) = utf8 p ++ [0] := by
    rw [ascii_bytes _ (by
      intro x hx
      rw [List.mem_append] at hx
      rcases hx with hx | hx
      · exact h1 x hx
      · simp at hx; omega), utf8_nul]
  have hl : p.length + 1 = (charBytes false (p ++ [0])).length := by rw [charBytes_length]; simp
  rw [hl]
  obtain ⟨e1, e2, e3, e4⟩ := fileMoniker_head anti (charBytes false (p ++ [0])) fixed (leBytes 4 0 ++ c) rest
    (by omega) h3
  unfold fileMoniker
  simp only [e1, e2, e3, e4, GoRes.ok_bind, u32_here 0 (by decide),
    drop_here (leBytes 4 0) c rest 4 (leBytes_length 4 _).symm]
  rw [if_neg (by decide), GoRes.pure_eq, hb]

theorem wrap_back (n : Nat) (h : 2 * n + 6 < 4294967296) : (2 * n + 6 + 4294967296 - 6) % 4294967296 / 2 = n := by
  omega

theorem fileUni_spec (anti : Nat) (p fixed : Bytes) (key : Nat) (t : List Nat)
    (h : (Target.fileUni anti p fixed key t).Ok) (c rest : Bytes) :
    fileMoniker ⟨leBytes 2 anti ++ (leBytes 4 p.length ++ (p ++ (fixed ++
      (leBytes 4 (2 * (t.flatMap units).length + 6) ++ (leBytes 4 (2 * (t.flatMap units).length) ++
          (leBytes 2 key ++ (charBytes true (t.flatMap units) ++ c))))))), rest⟩ = .ok (utf8 t, ⟨c, rest⟩) := by
  obtain ⟨⟨h1, h1'⟩, h2, h3⟩ := h
  obtain ⟨e1, e2, e3, e4⟩ := fileMoniker_head anti p fixed (leBytes 4 (2 * (t.flatMap units).length + 6) ++
    (leBytes 4 (2 * (t.flatMap units).length) ++ (leBytes 2 key ++ (charBytes true (t.flatMap units) ++ c)))) rest h2 h3
  have hlen : 2 * (t.flatMap units).length + 6 < 2 ^ 32 := by omega
  have hw : (2 * (t.flatMap units).length + 6 + 4294967296 - 6) % 4294967296 / 2 = (t.flatMap units).length :=
    wrap_back _ (by omega)
  have hr := read16u_spec (t.flatMap units) c rest (flat_units_lt t h1)
  unfold fileMoniker
  rw [e1, GoRes.ok_bind, e4, GoRes.ok_bind, e2, GoRes.ok_bind, e3, GoRes.ok_bind, u32_here _ hlen, GoRes.ok_bind,
    drop_here _ _ _ 4 (leBytes_length 4 _).symm, GoRes.ok_bind, if_pos (Nat.succ_pos _),
    drop_two _ _ _ _ 6 (by rw [leBytes_length, leBytes_length]), GoRes.ok_bind, hw, hr]
  simp only [GoRes.ok_bind, GoRes.pure_eq, u16str_text t h1]

end Grate.Xls
