import Verif.Props.NumRead

/-! # C109: a whole number shows the same however it is stored -/

namespace Grate.Props

open Grate Grate.Spec Grate.F64

/-- A whole number in plain decimal notation. -/
theorem decInt_plain (n : Int) : PlainDecimal n (decInt n) := by
  refine ⟨decNat n.natAbs, [], n.natAbs, decNat_numeral _, by simp, by simp, ?_, ?_⟩
  · unfold decInt
    by_cases h : n < 0
    · have : (n : ℚ) < 0 := by exact_mod_cast h
      simp [h]
    · have : ¬ (n : ℚ) < 0 := by exact_mod_cast h
      rw [if_neg h, if_neg this, show n.toNat = n.natAbs by omega]
      simp
  · have : digitsVal (decNat n.natAbs) = n.natAbs := (decNat_numeral _).2.1
    simp [this, Nat.cast_natAbs]

theorem decInt_length {n : Int} (h : n.natAbs < 10 ^ 11) :
    (decInt n).length ≤ 11 ∨ ((decInt n).length = 12 ∧ n < 0) := by
  have := decNat_length_le (k := n.natAbs) (n := 11) (by norm_num) h
  unfold decInt
  split
  · rw [List.length_cons]; omega
  · rw [show n.toNat = n.natAbs by omega]; omega

theorem nearest_int {n : Int} (h : n.natAbs ≤ 2 ^ 53) : NearestFloat n (f64OfInt n) := by
  obtain ⟨h1, h2⟩ := ofInt_exact n h
  refine ⟨h1, fun y hy => ⟨by rw [h2]; simp, fun he hne => ?_⟩⟩
  rw [h2] at he hne
  rw [sub_self, abs_zero] at he
  exact absurd (sub_eq_zero.1 (abs_eq_zero.1 he.symm)) hne

/-- The General format shows the digits of a whole number. -/
theorem ident_whole {ext : Ext} (hg : GoShort ext) {n : Int} (h : n.natAbs < 10 ^ 11) :
    identFmt ext (.float (f64OfInt n)) = decInt n := by
  by_cases h0 : n = 0
  · subst h0
    have e : f64OfInt 0 = 0 := by decide +kernel
    have : goShortF 0 = decInt 0 := by decide +kernel
    unfold identFmt
    simp only [hg.plain, e, this]
    rfl
  · obtain ⟨c, hb, hs⟩ := C92_exact ext hg Formatter.new n (decInt n) (decInt_plain n) (by
      rcases decInt_length h with hl | ⟨hl, hn⟩
      · exact .inl hl
      · exact .inr ⟨hl, by exact_mod_cast hn⟩) (by exact_mod_cast h0) _ (nearest_int (by omega))
    have hb' := builds_general ext Formatter.new (f64OfInt n)
    rw [builds_iff] at hb hb'
    rw [hb'] at hb
    cases hb
    rw [shown_general] at hs
    exact GoRes.ok.inj hs

/-- So does printing it, below a million. -/
theorem sprint_whole {ext : Ext} (hg : GoShort ext) {n : Int} (h : n.natAbs < 10 ^ 6) :
    ext.floatV (f64OfInt n) = decInt n := by
  by_cases h0 : n = 0
  · subst h0
    have e : goShortG (f64OfInt 0) = decInt 0 := by decide +kernel
    rw [hg.sprint, e]
  · have hlen : (decInt n).length ≤ 15 := by
      rcases decInt_length (n := n) (by omega) with hl | ⟨hl, _⟩ <;> omega
    have h1 : (1 : ℚ) ≤ |(n : ℚ)| := by
      have : (1 : ℤ) ≤ |n| := Int.one_le_abs h0
      exact_mod_cast this
    have h2 : |(n : ℚ)| < 10 ^ (6 : ℤ) := by
      have : |n| < 10 ^ 6 := by rw [Int.abs_eq_natAbs]; exact_mod_cast h
      exact_mod_cast this
    obtain ⟨c, hb, hs⟩ := C94_text_partial ext hg Formatter.new n (decInt n) (decInt_plain n) hlen
      (le_trans (by norm_num) h1) h2 _ (nearest_int (by omega))
    have hb' := builds_text ext Formatter.new (f64OfInt n)
    rw [builds_iff] at hb hb'
    rw [hb'] at hb
    cases hb
    exact GoRes.ok.inj hs

/-- The types of formats made from codes. -/
theorem section_type (s : Bytes) : (makeSection s).2 ∈ [CellType.date, .float, .integer, .string] := by
  unfold makeSection
  split
  · simp
  · have hn : (numberFmt s).2.2 ∈ [CellType.float, .integer] := by
      unfold numberFmt
      split <;> simp
    have hn' : (numberFmt s).2.2 = .float ∨ (numberFmt s).2.2 = .integer := by simpa using hn
    dsimp only
    split
    · split <;> split <;> simp
    · split <;> split <;> rcases hn' with h | h <;> simp [h]

theorem code_type (s : Bytes) : (makeFormatter s).2 ∈ [CellType.date, .float, .integer, .string] := by
  unfold makeFormatter
  dsimp only
  split
  · split
    · simp
    · rename_i p ps he
      have : p ∈ (splitByte 59 (dropSpans 91 93 s)).map (fun p => makeSection (dropSpans 91 93 p)) := by rw [he]; simp
      obtain ⟨q, _, rfl⟩ := List.mem_map.1 this
      exact section_type _
  · exact section_type _

/-- Formats of a type that can be made; those without a type are General. -/
theorem made_types {f : Formatter} (hf : Made f) (n : Nat) :
    (∀ t, f.types n = some t → t ∈ [CellType.date, .float, .integer, .string]) ∧
    (f.types n = none → f.codes n = none ∨ f.codes n = some .ident) := by
  induction hf with
  | new => exact ⟨(fun t h => by cases h), fun _ => .inl rfl⟩
  | mode b _ ih => exact ih
  | @add x id code _ ih =>
    unfold Formatter.add
    split
    · refine ⟨ih.1, fun h => ?_⟩
      show upd x.codes id .ident n = none ∨ upd x.codes id .ident n = some .ident
      unfold upd
      split
      · exact .inr rfl
      · exact ih.2 h
    · split
      · exact ih
      · split
        · exact ih
        · refine ⟨fun t h => ?_, fun h => ?_⟩
          · have h : upd x.types id (makeFormatter code).2 n = some t := h
            unfold upd at h
            split at h
            · injection h with h
              rw [← h]
              exact code_type code
            · exact ih.1 t h
          · have h : upd x.types id (makeFormatter code).2 n = none := h
            show upd x.codes id (makeFormatter code).1 n = none ∨ upd x.codes id (makeFormatter code).1 n = some .ident
            unfold upd at h ⊢
            split at h
            · cases h
            · rename_i hne
              rw [if_neg hne]
              exact ih.2 h

/-- Built-in formats without a type: General. -/
theorem untyped_builtin (n : Nat) (h : builtInFormatTypes n = none) :
    goFormatters n = none ∨ goFormatters n = some .ident := by
  unfold goFormatters
  split <;> first | exact .inl rfl | exact .inr rfl | exact absurd h (by decide)

theorem builtin_types (n : Nat) (t : CellType) (h : builtInFormatTypes n = some t) :
    t ∈ [CellType.date, .float, .integer, .string] := by
  unfold builtInFormatTypes at h
  split at h <;> first | (cases h; simp) | cases h

theorem getCellType_kinds {f : Formatter} (hf : Made f) (n : Nat) (t : CellType) (h : f.getCellType n = some t) :
    t ∈ [CellType.date, .float, .integer, .string] := by
  unfold Formatter.getCellType at h
  split at h
  · rename_i t' ht
    cases h
    exact builtin_types n _ ht
  · exact (made_types hf n).1 t h

/-- A format without a type shows values like General does, or is unknown. -/
theorem apply_untyped (ext : Ext) {f : Formatter} (hf : Made f) (n : Nat) (h : f.getCellType n = none) :
    (∀ v, f.apply ext n v = .panic) ∨ ∀ v, f.apply ext n v = .ok (identFmt ext v, true) := by
  unfold Formatter.getCellType at h
  split at h
  · cases h
  · rename_i hb
    unfold Formatter.apply
    rcases untyped_builtin n hb with e | e
    · rw [e]
      rcases (made_types hf n).2 h with e2 | e2
      · rw [e2]; exact .inl fun _ => rfl
      · rw [e2]; exact .inr fun _ => rfl
    · rw [e]; exact .inr fun _ => rfl

theorem apply_zero (ext : Ext) (f : Formatter) (v : Val) : f.apply ext 0 v = .ok (identFmt ext v, true) := rfl

/-- What is shown for an integer and for the same number as a float64. -/
theorem whole_same {ext : Ext} (hg : GoShort ext) {f : Formatter} (hf : Made f) {n : Int} (hn : n.natAbs < 10 ^ 11) (k : Nat)
    (hk : f.getCellType k ≠ some .string ∨ n.natAbs < 10 ^ 6) :
    ∃ c c', putCell ext f (.sint n) k = .ok c ∧ putCell ext f (.f64 (f64OfInt n)) k = .ok c' ∧
      cellString ext f c = cellString ext f c' := by
  have hint : f64ToInt (f64OfInt n) = n := by
    obtain ⟨h1, h2⟩ := ofInt_exact n (by omega)
    exact toInt_of_val h1 h2 (by omega) (by omega)
  have hid : identFmt ext (.float (f64OfInt n)) = identFmt ext (.int n) := by
    rw [ident_whole hg hn]
    unfold identFmt
    simp only
    split <;> rfl
  by_cases h0 : k = 0
  · subst h0
    refine ⟨.full (.int n) .integer none [], .full (.float (f64OfInt n)) .float none [], ?_, ?_, ?_⟩
    · unfold putCell typedCell
      cases f.getCellType 0 <;> rfl
    · unfold putCell typedCell
      cases f.getCellType 0 <;> rfl
    · show GoRes.ok (identFmt ext (.int n)) = GoRes.ok (identFmt ext (.float (f64OfInt n)))
      rw [hid]
  · cases ht : f.getCellType k with
    | none =>
      refine ⟨.full (.int n) .integer (some k) [], .full (.float (f64OfInt n)) .float (some k) [], ?_, ?_, ?_⟩
      · unfold putCell typedCell
        simp [ht, GoVal.marker, newCell, Cell.setFormatNumber, h0]
      · unfold putCell typedCell
        simp [ht, GoVal.marker, newCell, Cell.setFormatNumber, h0]
      · show (f.apply ext k (.int n) >>= _) = (f.apply ext k (.float (f64OfInt n)) >>= _)
        rcases apply_untyped ext hf k ht with e | e
        · rw [e, e]; rfl
        · rw [e, e, hid]; rfl
    | some t =>
      have hput : ∀ v c, newCellWithType ext f.mode1904 v t = .ok c → (v.marker = false) →
          putCell ext f v k = c.setFormatNumber k := by
        intro v c hc hm
        unfold putCell typedCell
        simp [ht, h0, hc, hm]
      have key : ∃ v ty, newCellWithType ext f.mode1904 (.sint n) t = .ok (.full v ty none []) ∧
          newCellWithType ext f.mode1904 (.f64 (f64OfInt n)) t = .ok (.full v ty none []) := by
        have hm := getCellType_kinds hf k t ht
        simp only [List.mem_cons, List.not_mem_nil, or_false] at hm
        rcases hm with rfl | rfl | rfl | rfl
        · exact ⟨_, _, rfl, rfl⟩
        · exact ⟨_, _, rfl, rfl⟩
        · refine ⟨.int n, .integer, rfl, ?_⟩
          show GoRes.ok (Cell.full (.int (f64ToInt (f64OfInt n))) .integer none []) = _
          rw [hint]
        · have h6 : n.natAbs < 10 ^ 6 := by
            rcases hk with hk | hk
            · exact absurd ht hk
            · exact hk
          refine ⟨.str (decInt n), .string, rfl, ?_⟩
          show GoRes.ok (Cell.full (.str (ext.floatV (f64OfInt n))) .string none []) = _
          rw [sprint_whole hg h6]
      obtain ⟨v, ty, e1, e2⟩ := key
      have e3 : (Cell.full v ty none []).setFormatNumber k = .ok (.full v ty (some k) []) := by
        simp [Cell.setFormatNumber, h0]
      exact ⟨_, _, by rw [hput _ _ e1 rfl, e3], by rw [hput _ _ e2 rfl, e3], rfl⟩

/-- C109: under every number format that is not a text format, a whole number of at most eleven digits shows the same
stored as an integer and as a floating-point number (whatever may go wrong with an unknown format goes wrong for both).
Missing: larger numbers and text formats, where it is false (`C109_counterexample`). -/
theorem C109_number_partial (ext : Ext) (hg : GoShort ext) (f : Formatter) (hf : Made f) (n : Int) (hn : n.natAbs < 10 ^ 11)
    (k : Nat) (hk : f.getCellType k ≠ some .string) :
    ∃ c c', Builds ext f (.sint n) k c ∧ Builds ext f (.f64 (f64OfInt n)) k c' ∧
      cellString ext f c = cellString ext f c' := by
  simp only [builds_iff]
  exact whole_same hg hf hn k (.inl hk)

/-- C109: under every number format, for numbers below a million. -/
theorem C109_small_partial (ext : Ext) (hg : GoShort ext) (f : Formatter) (hf : Made f) (n : Int) (hn : n.natAbs < 10 ^ 6)
    (k : Nat) :
    ∃ c c', Builds ext f (.sint n) k c ∧ Builds ext f (.f64 (f64OfInt n)) k c' ∧
      cellString ext f c = cellString ext f c' := by
  simp only [builds_iff]
  exact whole_same hg hf (by omega) k (.inr hn)

/-- The hypotheses are met by 12,345,678 under a custom format, and by 42 under the Text format. -/
theorem C109_witness : Made (Formatter.new.add makeFormatter 200 (lit "#,##0.00")).1 ∧
    (Formatter.new.add makeFormatter 200 (lit "#,##0.00")).1.getCellType 200 = some .float ∧
    (12345678 : Int).natAbs < 10 ^ 11 ∧ (42 : Int).natAbs < 10 ^ 6 ∧ Formatter.new.getCellType 49 = some .string := by
  refine ⟨.add _ _ .new, by decide +kernel, by decide, by decide, rfl⟩

/-- C109 is false in general: a million under the Text format, and a number of twelve digits under General. -/
theorem C109_counterexample (ext : Ext) (hg : GoShort ext) (f : Formatter) :
    (∃ c c', Builds ext f (.sint 1000000) 49 c ∧ Builds ext f (.f64 (f64OfInt 1000000)) 49 c' ∧
      cellString ext f c = .ok (lit "1000000") ∧ cellString ext f c' = .ok (lit "1e+06")) ∧
    (∃ c c', Builds ext f (.sint 100000000000) 0 c ∧ Builds ext f (.f64 (f64OfInt 100000000000)) 0 c' ∧
      cellString ext f c = .ok (lit "100000000000") ∧ cellString ext f c' = .ok (lit "1e+11")) := by
  constructor
  · refine ⟨.full (.str (decInt 1000000)) .string (some 49) [], _, by rw [builds_iff]; rfl, builds_text ext f _, ?_, ?_⟩
    · show GoRes.ok (decInt 1000000) = _
      have : decInt 1000000 = lit "1000000" := by decide +kernel
      rw [this]
    · show GoRes.ok (ext.floatV (f64OfInt 1000000)) = _
      have : goShortG (f64OfInt 1000000) = lit "1e+06" := by decide +kernel
      rw [hg.sprint, this]
  · obtain ⟨c, h1, h2⟩ := C92_int ext f 100000000000
    refine ⟨c, _, h1, builds_general ext f _, ?_, ?_⟩
    · have : decInt 100000000000 = lit "100000000000" := by decide +kernel
      rw [h2, this]
    · rw [shown_general]
      have e1 : goShortF (f64OfInt 100000000000) = lit "100000000000" := by decide +kernel
      have e2 : goSix (f64OfInt 100000000000) = lit "1e+11" := by decide +kernel
      have e3 : (f64OfInt 100000000000 < 0) = False := by simp only [eq_iff_iff, iff_false]; decide +kernel
      unfold identFmt
      simp only [hg.plain, hg.six, e1, e2, e3]
      rfl

end Grate.Props
