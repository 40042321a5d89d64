import Verif.Lemmas.GoXmlTok

/-! # Lemmas about the XML tokenizer: the tokens of a text, and the number of steps -/

namespace Grate.Xlsx

open Grate Grate.Spec Grate.Props

/-! ### The input gets shorter -/

theorem textLoop_len (fin : GoErr) (q : Option UInt8) (cdata : Bool) : ∀ (bs : Bytes) (ent : Option Bytes) (b0 b1 : UInt8) (buf t r : Bytes),
    textLoop fin q cdata bs ent b0 b1 buf = .ok (t, r) → r.length ≤ bs.length := by
  intro bs
  induction bs with
  | nil =>
    intro ent b0 b1 buf t r h
    cases ent with
    | none =>
      rw [textLoop] at h
      split at h
      · cases h
      · cases h; simp
    | some e => rw [textLoop] at h; cases h
  | cons b bs ih =>
    intro ent b0 b1 buf t r h
    cases ent with
    | some e =>
      rw [textLoop] at h
      split at h
      · have := ih _ _ _ _ _ _ h; simp; omega
      · split at h
        · split at h
          · have := ih _ _ _ _ _ _ h; simp; omega
          · cases h
        · cases h
    | none =>
      rw [textLoop] at h
      split at h
      · split at h
        · cases h; simp
        · cases h
      · split at h
        · split at h
          · cases h; simp
          · cases h
        · split at h
          · cases h; simp
          · split at h
            · have := ih _ _ _ _ _ _ h; simp; omega
            · split at h
              · have := ih _ _ _ _ _ _ h; simp; omega
              · split at h
                · have := ih _ _ _ _ _ _ h; simp; omega
                · have := ih _ _ _ _ _ _ h; simp; omega

theorem textLoop_lt (fin : GoErr) (cdata : Bool) (b : UInt8) (bs : Bytes) (b0 b1 : UInt8) (buf t r : Bytes) (hb : b ≠ 60)
    (h : textLoop fin none cdata (b :: bs) none b0 b1 buf = .ok (t, r)) : r.length ≤ bs.length := by
  rw [textLoop] at h
  split at h
  · split at h
    · cases h; simp
    · cases h
  · split at h
    · rename_i hh; exact absurd hh.1 hb
    · split at h
      · cases h; simp
      · split at h
        · exact textLoop_len _ _ _ _ _ _ _ _ _ _ h
        · split at h
          · exact textLoop_len _ _ _ _ _ _ _ _ _ _ h
          · split at h
            · exact textLoop_len _ _ _ _ _ _ _ _ _ _ h
            · exact textLoop_len _ _ _ _ _ _ _ _ _ _ h

theorem xmlText_len {fin : GoErr} {q : Option UInt8} {cdata : Bool} {bs t r : Bytes}
    (h : xmlText fin q cdata bs = .ok (t, r)) : r.length ≤ bs.length := by
  unfold xmlText at h
  split at h
  · cases h
  · rename_i hh
    split at h
    · cases h; exact textLoop_len _ _ _ _ _ _ _ _ _ _ hh
    · cases h

theorem xmlText_lt {fin : GoErr} {cdata : Bool} {b : UInt8} {bs t r : Bytes} (hb : b ≠ 60)
    (h : xmlText fin none cdata (b :: bs) = .ok (t, r)) : r.length ≤ bs.length := by
  unfold xmlText at h
  split at h
  · cases h
  · rename_i hh
    split at h
    · cases h; exact textLoop_lt _ _ _ _ _ _ _ _ _ hb hh
    · cases h

theorem dropWhile_len (p : UInt8 → Bool) (s : Bytes) : (s.dropWhile p).length ≤ s.length := (List.dropWhile_suffix p).length_le

theorem xmlSpace_len (s : Bytes) : (xmlSpace s).length ≤ s.length := dropWhile_len _ _

theorem xmlName_len {T : XmlTables} {fin : GoErr} {bs s r : Bytes} (h : xmlName T fin bs = .ok (s, r)) : r.length < bs.length := by
  cases bs with
  | nil => cases h
  | cons b bs =>
    unfold xmlName at h
    simp only at h
    split at h
    · rename_i hb
      have hd : List.dropWhile nameish (b :: bs) = List.dropWhile nameish bs := by simp [hb]
      rw [hd] at h
      have hl := dropWhile_len nameish bs
      split at h
      · cases h
      · rename_i heq _
        split at h
        · cases h
          simp; omega
        · cases h
    · cases h

theorem xmlNsName_len {T : XmlTables} {fin : GoErr} {bs s r : Bytes} (h : xmlNsName T fin bs = .ok (s, r)) : r.length < bs.length := by
  unfold xmlNsName at h
  split at h
  · cases h
  · rename_i hh
    split at h
    · cases h; exact xmlName_len hh
    · cases h

theorem attrsLoop_len {T : XmlTables} {fin : GoErr} : ∀ {n : Nat} {bs : Bytes} {acc as : List (Bytes × Bytes)} {e : Bool} {r : Bytes},
    attrsLoop T fin n bs acc = .ok (as, e, r) → r.length < bs.length := by
  intro n
  induction n with
  | zero => intro bs acc as e r h; cases h
  | succ n ih =>
    intro bs acc as e r h
    rw [attrsLoop] at h
    have hs := xmlSpace_len bs
    split at h
    · cases h
    · rename_i b rest heq
      rw [heq] at hs
      simp only [List.length_cons] at hs
      split at h
      · split at h
        · cases h
        · split at h
          · cases h; simp at hs; omega
          · cases h
      · split at h
        · cases h; omega
        · split at h
          · cases h
          · rename_i k rest1 hk
            have h1 := xmlNsName_len hk
            have h2 := xmlSpace_len rest1
            split at h
            · cases h
            · rename_i c rest2 h3
              rw [h3] at h2
              split at h
              · cases h
              · have h4 := xmlSpace_len rest2
                split at h
                · cases h
                · rename_i q rest3 h5
                  rw [h5] at h4
                  split at h
                  · split at h
                    · cases h
                    · rename_i v rest4 h6
                      have h7 := xmlText_len h6
                      have h8 := ih h
                      simp only [List.length_cons] at *
                      omega
                  · cases h

/-- The number of steps in `attrsLoop` is large enough. -/
theorem attrsLoop_enough (T : XmlTables) (fin : GoErr) : ∀ (n m : Nat) (bs : Bytes) (acc : List (Bytes × Bytes)),
    bs.length < n → bs.length < m → attrsLoop T fin n bs acc = attrsLoop T fin m bs acc := by
  intro n
  induction n with
  | zero => intro m bs acc h; simp at h
  | succ n ih =>
    intro m bs acc hn hm
    cases m with
    | zero => simp at hm
    | succ m =>
      rw [attrsLoop, attrsLoop]
      have hs := xmlSpace_len bs
      cases heq : xmlSpace bs with
      | nil => rfl
      | cons b rest =>
        rw [heq] at hs
        simp only
        split
        · rfl
        · split
          · rfl
          · cases hk : xmlNsName T fin (b :: rest) with
            | error e => rfl
            | ok kr =>
              obtain ⟨k, rest1⟩ := kr
              have h1 := xmlNsName_len hk
              have h2 := xmlSpace_len rest1
              simp only
              cases h3 : xmlSpace rest1 with
              | nil => rfl
              | cons c rest2 =>
                rw [h3] at h2
                simp only
                split
                · rfl
                · have h4 := xmlSpace_len rest2
                  cases h5 : xmlSpace rest2 with
                  | nil => rfl
                  | cons q rest3 =>
                    rw [h5] at h4
                    simp only
                    split
                    · cases h6 : xmlText fin (some q) false rest3 with
                      | error e => rfl
                      | ok vr =>
                        obtain ⟨v, rest4⟩ := vr
                        have h7 := xmlText_len h6
                        simp only [List.length_cons] at *
                        exact ih m rest4 _ (by omega) (by omega)
                    · rfl

theorem piLoop_len {fin : GoErr} : ∀ {bs : Bytes} {b0 : UInt8} {buf d r : Bytes}, piLoop fin bs b0 buf = .ok (d, r) → r.length ≤ bs.length := by
  intro bs
  induction bs with
  | nil => intro b0 buf d r h; cases h
  | cons b bs ih =>
    intro b0 buf d r h
    rw [piLoop] at h
    split at h
    · cases h; simp
    · have := ih h; simp; omega

theorem xmlProcInst_len {T : XmlTables} {fin : GoErr} {bs r : Bytes} (h : xmlProcInst T fin bs = .ok r) : r.length ≤ bs.length := by
  unfold xmlProcInst at h
  split at h
  · cases h
  · rename_i target rest hn
    have h1 := xmlName_len hn
    have h2 := xmlSpace_len rest
    split at h
    · cases h
    · rename_i hp
      have h3 := piLoop_len hp
      split at h
      · cases h
      · cases h; omega

theorem commentLoop_len {fin : GoErr} : ∀ {bs : Bytes} {b0 b1 : UInt8} {r : Bytes}, commentLoop fin bs b0 b1 = .ok r → r.length ≤ bs.length := by
  intro bs
  induction bs with
  | nil => intro b0 b1 r h; cases h
  | cons b bs ih =>
    intro b0 b1 r h
    rw [commentLoop] at h
    split at h
    · split at h
      · cases h; simp
      · cases h
    · have := ih h; simp; omega

theorem dirLoop_len {fin : GoErr} : ∀ {bs : Bytes} {m : DirMode} {q : Option UInt8} {d : Nat} {r : Bytes},
    dirLoop fin bs m q d = .ok r → r.length ≤ bs.length := by
  intro bs
  induction bs with
  | nil => intro m q d r h; cases m <;> cases h
  | cons b bs ih =>
    intro m q d r h
    cases m with
    | plain =>
      rw [dirLoop] at h
      split at h
      · cases h; simp
      · have := ih h; simp; omega
    | «open» n =>
      rw [dirLoop] at h
      split at h
      · have := ih h; simp; omega
      · have := ih h; simp; omega
    | comment b0 b1 =>
      rw [dirLoop] at h
      split at h
      · have := ih h; simp; omega
      · have := ih h; simp; omega

theorem xmlBang_len {fin : GoErr} {bs r : Bytes} {ts : List Tok} (h : xmlBang fin bs = .ok (ts, r)) : r.length ≤ bs.length := by
  unfold xmlBang at h
  split at h
  · cases h
  · cases h
  · split at h
    · split at h
      · cases h
      · rename_i hc
        cases h
        have := commentLoop_len hc
        simp; omega
    · cases h
  · split at h
    · split at h
      · cases h
      · rename_i hc
        cases h
        have := xmlText_len hc
        simp at this ⊢; omega
    · split at h <;> cases h
  · split at h
    · cases h
    · rename_i hc
      cases h
      have := dirLoop_len hc
      simp; omega

theorem rawToken_len {T : XmlTables} {fin : GoErr} {b : UInt8} {bs r : Bytes} {ts : List Tok}
    (h : rawToken T fin (b :: bs) = .ok (ts, r)) : r.length ≤ bs.length := by
  unfold rawToken at h
  split at h
  · cases h
  · rename_i rest heq
    cases heq
    unfold xmlStop at h
    split at h
    · cases h
    · rename_i name rest' hn
      have h1 := xmlNsName_len hn
      have h2 := xmlSpace_len rest'
      split at h
      · cases h
      · rename_i hsp
        rw [hsp] at h2
        split at h
        · cases h; simp at h2 ⊢; omega
        · cases h
  · rename_i rest heq
    cases heq
    split at h
    · cases h
    · rename_i hp
      cases h
      have := xmlProcInst_len hp
      simp; omega
  · rename_i rest heq
    cases heq
    have := xmlBang_len h
    simp; omega
  · rename_i rest _ _ _ _ heq
    cases heq
    unfold xmlStart at h
    split at h
    · cases h
    · rename_i hn
      have h1 := xmlNsName_len hn
      split at h
      · cases h
      · rename_i ha
        have h2 := attrsLoop_len ha
        cases h
        omega
  · rename_i h1 h2 h3 h4 h5
    have hb : b ≠ 60 := by rintro rfl; exact h5 bs rfl
    split at h
    · cases h
    · rename_i ht
      cases h
      exact xmlText_lt hb ht

/-- The number of steps in `xmlTokens` is large enough. -/
theorem xmlTokens_enough (T : XmlTables) (fin : GoErr) : ∀ (n m : Nat) (bs : Bytes), bs.length < n → bs.length < m →
    xmlTokens T fin n bs = xmlTokens T fin m bs := by
  intro n
  induction n with
  | zero => intro m bs h; simp at h
  | succ n ih =>
    intro m bs hn hm
    cases m with
    | zero => simp at hm
    | succ m =>
      cases bs with
      | nil => rfl
      | cons b bs =>
        rw [xmlTokens, xmlTokens]
        cases h : rawToken T fin (b :: bs) with
        | error e => rfl
        | ok x =>
          obtain ⟨ts, r⟩ := x
          have := rawToken_len h
          simp only [List.length_cons] at hn hm
          simp only
          rw [ih m r (by omega) (by omega)]

/-! ### The tokens of a text -/

theorem rawToken_letter (T : XmlTables) (fin : GoErr) {c : UInt8} (t : Bytes) (h : Letter c) :
    rawToken T fin (60 :: c :: t) = xmlStart T fin (c :: t) := by
  have hc := letter_space h
  unfold rawToken
  split
  · rename_i heq; cases heq
  · rename_i heq; simp only [List.cons.injEq, true_and] at heq; exact absurd heq.1 hc.2.1
  · rename_i heq; simp only [List.cons.injEq, true_and] at heq; exact absurd heq.1 hc.2.2.2.1
  · rename_i heq; simp only [List.cons.injEq, true_and] at heq; exact absurd heq.1 hc.2.2.2.2
  · rename_i heq; cases heq; rfl
  · rename_i h5; exact absurd rfl (h5 _)

theorem rawToken_text (T : XmlTables) (fin : GoErr) {b : UInt8} (t : Bytes) (h : b ≠ 60) :
    rawToken T fin (b :: t) = (match xmlText fin none false (b :: t) with
      | .error e => .error e
      | .ok (t, rest) => .ok ([.chars t], rest)) := by
  unfold rawToken
  split
  · rename_i heq; cases heq; exact absurd rfl h
  · rename_i heq; cases heq; exact absurd rfl h
  · rename_i heq; cases heq; exact absurd rfl h
  · rename_i heq; cases heq; exact absurd rfl h
  · rename_i heq; cases heq; exact absurd rfl h
  · rfl

theorem tokens_step (T : XmlTables) (fin : GoErr) {n : Nat} {bs r : Bytes} {ts us : List Tok} (h : rawToken T fin bs = .ok (ts, r))
    (hb : bs ≠ []) (hn : bs.length < n) (ih : ∀ n, r.length < n → xmlTokens T fin n r = (us, fin)) :
    xmlTokens T fin n bs = (ts ++ us, fin) := by
  cases n with
  | zero => simp at hn
  | succ n =>
    cases bs with
    | nil => exact absurd rfl hb
    | cons b bs =>
      have := rawToken_len h
      simp only [List.length_cons] at hn
      rw [xmlTokens, h]
      simp only
      rw [ih n (by omega)]

theorem written_head {cs : List Nat} {raw : Bytes} (h : XmlContent cs raw) (hc : cs ≠ []) : ∃ b t, raw = b :: t ∧ b ≠ 60 := by
  obtain ⟨hw, _⟩ := h
  cases hw with
  | nil => exact absurd rfl hc
  | char c cs bs hx hp _ =>
    by_cases hl : c < 128
    · rw [utf8_low c hl]
      exact ⟨_, _, rfl, ofNat_ne hl _ hp.2.2⟩
    · obtain ⟨b, t, e, _⟩ := decode_rune c (xmlChar_scalar hx)
      have hb := utf8_high c (xmlChar_scalar hx) (by omega)
      rw [utf8_one c (xmlChar_scalar hx), e] at hb ⊢
      refine ⟨b, _, rfl, ?_⟩
      rintro rfl
      have := hb 60 (by simp)
      revert this
      decide
  | ref c w cs bs _ hx hw _ =>
    obtain ⟨e, rfl, _⟩ := reference_spec hw hx
    exact ⟨38, _, rfl, by decide⟩
  | crlf => exact ⟨13, _, rfl, by decide⟩
  | cr => exact ⟨13, _, rfl, by decide⟩

/-- The tokenizer gives the tokens of every text. -/
theorem xmlTokens_text (T : XmlTables) (fin : GoErr) {ts : List Tok} {bs : Bytes} (h : XmlText ts bs) :
    ∀ n, bs.length < n → xmlTokens T fin n bs = (ts, fin) := by
  induction h with
  | nil =>
    intro n hn
    cases n with
    | zero => simp at hn
    | succ n => rfl
  | start n w sp ab as ts bs hq ha hs _ ih =>
    intro k hk
    obtain ⟨_, c, t, rfl, hc⟩ := qName_bytes hq
    have e : 60 :: (c :: t) ++ ab ++ sp ++ 62 :: bs = 60 :: c :: (t ++ (ab ++ (sp ++ 62 :: bs))) := by simp
    rw [e] at hk ⊢
    refine tokens_step T fin (ts := [.start n as]) ?_ (by simp) hk ih
    rw [rawToken_letter T fin _ hc]
    exact (xmlStart_of T fin hq ha hs bs).1
  | empty n w sp ab as ts bs hq ha hs _ ih =>
    intro k hk
    obtain ⟨_, c, t, rfl, hc⟩ := qName_bytes hq
    have e : 60 :: (c :: t) ++ ab ++ sp ++ 47 :: 62 :: bs = 60 :: c :: (t ++ (ab ++ (sp ++ 47 :: 62 :: bs))) := by simp
    rw [e] at hk ⊢
    refine tokens_step T fin (ts := [.start n as, .stop n]) ?_ (by simp) hk ih
    rw [rawToken_letter T fin _ hc]
    exact (xmlStart_of T fin hq ha hs bs).2
  | stop n w sp ts bs hq hs _ ih =>
    intro k hk
    have e : 60 :: 47 :: w ++ sp ++ 62 :: bs = 60 :: 47 :: (w ++ (sp ++ 62 :: bs)) := by simp
    rw [e] at hk ⊢
    exact tokens_step T fin (ts := [.stop n]) (xmlStop_of T fin hq hs bs) (by simp) hk ih
  | text cs raw ts bs hc hne ht _ ih =>
    intro k hk
    obtain ⟨b, t, rfl, hb⟩ := written_head hc hne
    refine tokens_step T fin (ts := [.chars (utf8 cs)]) (r := bs) ?_ (by simp) hk ih
    rw [List.cons_append, rawToken_text T fin _ hb, ← List.cons_append, xmlText_content fin hc bs ht]
  | cdata cs raw ts bs hc _ ih =>
    intro k hk
    have hl : lit "<![CDATA[" = [60, 33, 91] ++ lit "CDATA[" := by decide +kernel
    have e : lit "<![CDATA[" ++ raw ++ lit "]]>" ++ bs = 60 :: 33 :: 91 :: (lit "CDATA[" ++ (raw ++ (lit "]]>" ++ bs))) := by
      rw [hl]; simp
    rw [e] at hk ⊢
    refine tokens_step T fin (ts := [.chars (utf8 cs)]) (r := bs) ?_ (by simp) hk ih
    show xmlBang fin (91 :: (lit "CDATA[" ++ (raw ++ (lit "]]>" ++ bs)))) = _
    unfold xmlBang
    simp only
    rw [if_pos (List.isPrefixOf_iff_prefix.2 (List.prefix_append _ _))]
    have : (lit "CDATA[" ++ (raw ++ (lit "]]>" ++ bs))).drop 6 = raw ++ (lit "]]>" ++ bs) :=
      List.drop_left' (by decide +kernel)
    rw [this, xmlText_cdata fin hc bs]
  | comment c ts bs hc _ ih =>
    intro k hk
    have hl : lit "<!--" = [60, 33, 45, 45] := by decide +kernel
    have e : lit "<!--" ++ c ++ lit "-->" ++ bs = 60 :: 33 :: 45 :: 45 :: (c ++ (lit "-->" ++ bs)) := by rw [hl]; simp
    rw [e] at hk ⊢
    refine tokens_step T fin (ts := [.other]) (r := bs) ?_ (by simp) hk ih
    show xmlBang fin (45 :: 45 :: (c ++ (lit "-->" ++ bs))) = _
    unfold xmlBang
    simp only [if_true]
    have := commentLoop_of fin bs c [] (by simpa using hc)
    simp only [List.tail_nil, List.headD_nil] at this
    rw [this]
  | declaration d ts bs hd _ ih =>
    intro k hk
    have hl : lit "<?xml" = [60, 63] ++ lit "xml" := by decide +kernel
    have e : lit "<?xml" ++ d ++ lit "?>" ++ bs = 60 :: 63 :: (lit "xml" ++ (d ++ (lit "?>" ++ bs))) := by rw [hl]; simp
    rw [e] at hk ⊢
    refine tokens_step T fin (ts := [.other]) (r := bs) ?_ (by simp) hk ih
    obtain ⟨⟨b, t, rfl, hb, hbn⟩, h63, d', ⟨sp, hsp, ed, c, t', rfl, hc⟩, hok⟩ := declaration_of hd
    have h1 : xmlProcInst T fin (lit "xml" ++ (b :: t ++ (lit "?>" ++ bs))) = .ok bs := by
      unfold xmlProcInst
      have hx : lit "xml" = [120, 109, 108] := by decide +kernel
      rw [List.cons_append, xmlName_of T fin (w := lit "xml") (by
        rw [hx]; intro b hb
        simp only [List.mem_cons, List.not_mem_nil, or_false] at hb
        rcases hb with rfl | rfl | rfl <;> exact .inl (.inr (.inl (by decide)))) ⟨120, [109, 108], hx, .inr (.inl (by decide))⟩ b _ hbn]
      simp only
      rw [← List.cons_append, ed, List.append_assoc, List.cons_append, xmlSpace_of hsp c _ hc, ← List.cons_append,
        piLoop_of fin bs (c :: t') 0 [] ?_ (by simp)]
      · simp only [List.nil_append, hok]
        rw [if_neg (by simp)]
      · intro hi
        have hl2 : lit "?>" = [63, 62] := by decide +kernel
        rw [hl2] at hi
        apply h63
        rw [ed]
        exact List.mem_append_right _ (hi.subset (by simp))
    show (match xmlProcInst T fin (lit "xml" ++ (b :: t ++ (lit "?>" ++ bs))) with
      | .error e => Except.error e
      | .ok rest => Except.ok ([Tok.other], rest)) = _
    rw [h1]
  | instruction n d sp ts bs hn hnx hs hd hq _ ih =>
    intro k hk
    have hl : lit "<?" = [60, 63] := by decide +kernel
    have hl2 : lit "?>" = [63, 62] := by decide +kernel
    have e : lit "<?" ++ n ++ sp ++ d ++ lit "?>" ++ bs = 60 :: 63 :: (n ++ (sp ++ (d ++ (lit "?>" ++ bs)))) := by rw [hl]; simp
    rw [e] at hk ⊢
    refine tokens_step T fin (ts := [.other]) (r := bs) ?_ (by simp) hk ih
    have hnb := ncName_bytes hn
    have h1 : xmlProcInst T fin (n ++ (sp ++ (d ++ (lit "?>" ++ bs)))) = .ok bs := by
      unfold xmlProcInst
      have hh : ∃ c t, sp ++ (d ++ (lit "?>" ++ bs)) = c :: t ∧ nameish c = false := by
        cases sp with
        | cons c sp => exact ⟨c, _, rfl, (white_space hs c (by simp)).2⟩
        | nil =>
          rcases hd with rfl | hd
          · rw [hl2]; exact ⟨63, _, rfl, by decide⟩
          · exact absurd rfl hd
      obtain ⟨c, t, ec, hc⟩ := hh
      rw [ec, xmlName_of T fin (fun b hb => (hnb.1 b hb).1) hnb.2 c t hc, ← ec]
      simp only
      have hdrop : ∃ d', d' <:+ d ∧ xmlSpace (sp ++ (d ++ (lit "?>" ++ bs))) = d' ++ (lit "?>" ++ bs) := by
        unfold xmlSpace
        rw [List.dropWhile_append_of_pos (fun x hx => (white_space hs x hx).1)]
        clear hd hk e hq ec
        induction d with
        | nil => refine ⟨[], List.suffix_refl _, ?_⟩; rw [hl2]; rfl
        | cons x d ihd =>
          by_cases hx : isXmlSpace x = true
          · obtain ⟨d', h1, h2⟩ := ihd
            refine ⟨d', h1.trans (List.suffix_cons _ _), ?_⟩
            rw [List.cons_append, List.dropWhile_cons, if_pos hx, h2]
          · exact ⟨x :: d, List.suffix_refl _, by rw [List.cons_append, List.dropWhile_cons, if_neg hx]⟩
      obtain ⟨d', hd1, hd2⟩ := hdrop
      rw [hd2, piLoop_of fin bs d' 0 [] (fun hi => hq (hi.trans hd1.isInfix)) (by simp)]
      simp only
      rw [if_neg (fun h => hnx h.1)]
    show (match xmlProcInst T fin (n ++ (sp ++ (d ++ (lit "?>" ++ bs)))) with
      | .error e => Except.error e
      | .ok rest => Except.ok ([Tok.other], rest)) = _
    rw [h1]

end Grate.Xlsx
