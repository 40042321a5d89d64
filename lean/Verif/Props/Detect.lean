import Verif.Lemmas.FloatOrd
import Verif.Lemmas.Simple
import Verif.Props.Simple

/-! # Property C06: the exact detection rule -/

namespace Grate.F64

open Float.Model Float.Model.UnpackedFloat

/-- A closed float literal given by its mantissa and exponent. -/
theorem lit_val (x : Float) (s : Sign) (m : Nat) (e : Int) (hm : 0 < m)
    (hc : Canon (.finite s m e hm)) (h : x = Float.ofModel (Float.Model.pack (.finite s m e hm))) :
    FFin x ∧ fval x = sgn s * (m * 2 ^ e) := by
  subst h
  unfold FFin fval
  rw [show (Float.ofModel (Float.Model.pack (.finite s m e hm))).toModel.unpack = .finite s m e hm
    from model_unpack_pack _ hc]
  exact ⟨trivial, rfl⟩

theorem val_08 : FFin 0.8 ∧ fval 0.8 = 7205759403792794 / 2 ^ 53 := by
  obtain ⟨h1, h2⟩ := lit_val 0.8 .positive 7205759403792794 (-53) (by norm_num)
    ⟨by norm_num, by norm_num, by norm_num, Or.inl (by norm_num)⟩ (by decide +kernel)
  refine ⟨h1, ?_⟩
  rw [h2]
  norm_num [sgn]

/-- The float test `n/total > 0.8` is the exact test for fewer than 2^50 rows. -/
theorem over80_iff (n total : ℕ) (hn : n ≤ total) (ht : 0 < total) (hb : total < 2 ^ 50) :
    Simple.over80 n total = true ↔ 4 * total < 5 * n := by
  unfold Simple.over80
  rw [decide_eq_true_iff]
  obtain ⟨f1, v1⟩ := ofNat_exact n (by omega)
  obtain ⟨f2, v2⟩ := ofNat_exact total (by omega)
  have htq : (0 : ℚ) < total := by exact_mod_cast ht
  have hnq : (0 : ℚ) ≤ n := by positivity
  have hle : (n : ℚ) / total ≤ 1 := by
    rw [div_le_one htq]; exact_mod_cast hn
  obtain ⟨f3, v3⟩ := div_spec f1 f2 (by rw [v2]; exact htq.ne') (by
    rw [v1, v2, abs_of_nonneg (by positivity)]
    exact le_trans hle (one_le_pow₀ (by norm_num)))
  rw [v1, v2] at v3
  show (0.8 : Float) < _ ↔ _
  rw [lt_iff val_08.1 f3, val_08.2]
  constructor
  · intro h
    by_contra hcon
    have h5 : (n : ℚ) / total ≤ 4 / 5 := by
      rw [div_le_div_iff₀ htq (by norm_num)]
      have : n * 5 ≤ 4 * total := by omega
      exact_mod_cast this
    have hrep : Rep (7205759403792794 / 2 ^ 53) := ⟨7205759403792794, -53, by norm_num, by norm_num, by
      rw [abs_of_pos (by norm_num)]; norm_num⟩
    have := (v3 _ hrep).1 (le_trans h5 (by norm_num))
    exact absurd h (not_lt.2 this)
  · intro h
    have hrep : Rep (7205759403792795 / 2 ^ 53) := ⟨7205759403792795, -53, by norm_num, by norm_num, by
      rw [abs_of_pos (by norm_num)]; norm_num⟩
    have hge : (7205759403792795 : ℚ) / 2 ^ 53 ≤ n / total := by
      rw [div_le_div_iff₀ (by norm_num) htq]
      have : 7205759403792795 * total ≤ n * 2 ^ 53 := by omega
      exact_mod_cast this
    exact lt_of_lt_of_le (by norm_num) ((v3 _ hrep).2 hge)

end Grate.F64

namespace Grate.Props

open Grate Grate.Spec Grate.Simple

theorem widthCount_le (rows : List (List Bytes)) (w : Nat) : widthCount rows w ≤ rows.length :=
  List.length_filter_le _ _

/-- **C06 (rule).** A file without over-long lines and with fewer than 2^50 rows is declined exactly
by the documented rule, whatever order the map is visited in; otherwise it is opened with its rows. -/
theorem C06_rule (iter : List (Nat × Nat) → List (Nat × Nat)) (hiter : ∀ m, (iter m).Perm m)
    (fn content : Bytes) (lines : List Bytes) (rows : List (List Bytes))
    (hlong : ¬ HasLongLine content) (hl : LinesOf content lines) (hr : All2 FieldsOf lines rows)
    (hsize : rows.length < 2 ^ 50) :
    (Declined rows → openTSV iter fn (some content) = .err .notInFormat) ∧
    (¬ Declined rows → openTSV iter fn (some content) = .ok ⟨fn, rows, -1⟩) := by
  have hany : ¬ (rawLines content).any (fun l => maxTokenSize ≤ l.length) = true :=
    fun h' => hlong ((longLine_iff content).1 h')
  have hrows : rows = ((rawLines content).map dropCR).map (splitByte 9) := by
    refine (C05_rows_unique hl (linesOf_rawLines content) hr ?_).2
    generalize (rawLines content).map dropCR = ls
    induction ls with
    | nil => exact .nil
    | cons l ls ih =>
      exact .cons ⟨splitByte_ne_nil 9 l, (splitByte_spec 9 l).1, (splitByte_spec 9 l).2⟩ ih
  have hopen : openTSV iter fn (some content) =
      if detect rows.length (iter (colCounts rows)) = 1 then .err .notInFormat
      else .ok ⟨fn, rows, -1⟩ := by
    rw [hrows]
    simp only [openTSV, scanLines, if_neg hany, GoRes.ok_bind]
  have hdet : detect rows.length (iter (colCounts rows)) = 1 ↔ Declined rows := by
    rw [detect_eq_one_iff]
    simp only [(hiter _).mem_iff]
    unfold Declined
    have h1 := exists_entry_iff rows (fun w n => isMid (w, n) = true) (fun w => by simp [isMid])
    have h2 := exists_entry_iff rows (fun w n => isBig rows.length (w, n) = true)
      (fun w => by simp [isBig])
    rw [h1, h2]
    have e1 : ∀ w, isMid (w, widthCount rows w) = true ↔ 2 ≤ w ∧ 25 < widthCount rows w := by
      intro w; simp [isMid]
    have e2 : ∀ w, isBig rows.length (w, widthCount rows w) = true ↔
        2 ≤ w ∧ 10 < widthCount rows w ∧ 4 * rows.length < 5 * widthCount rows w := by
      intro w
      have hle := widthCount_le rows w
      simp only [isBig, Bool.and_eq_true, decide_eq_true_eq, gt_iff_lt]
      constructor
      · rintro ⟨a, b, c⟩
        exact ⟨a, b, (F64.over80_iff _ _ hle (by omega) hsize).1 c⟩
      · rintro ⟨a, b, c⟩
        exact ⟨a, b, (F64.over80_iff _ _ hle (by omega) hsize).2 c⟩
    simp only [e1, e2]
  rw [hopen]
  exact ⟨fun h => if_pos (hdet.2 h), fun h => if_neg (fun h' => h (hdet.1 h'))⟩

/-- 26 rows of width 2 and 26 of width 3 are declined, 26 rows of width 2 alone are not. -/
theorem C06_witness :
    Declined (List.replicate 26 [[], []] ++ List.replicate 26 [[], [], []]) ∧
    ¬ Declined (List.replicate 26 [[], []]) := by
  constructor
  · refine ⟨⟨2, le_rfl, by decide⟩, ?_⟩
    rintro ⟨w, h2, h10, h⟩
    have : widthCount (List.replicate 26 [[], []] ++ List.replicate 26 [[], [], []]) w ≤ 26 := by
      unfold widthCount
      by_cases hw : w = 2
      · subst hw; decide
      · by_cases hw3 : w = 3
        · subst hw3; decide
        · rw [List.filter_eq_nil_iff.2]
          · simp
          · intro a ha
            rcases List.mem_append.1 ha with ha | ha <;>
            · rw [List.eq_of_mem_replicate ha]
              simp
              omega
    have hlen : (List.replicate 26 [[], []] ++ List.replicate 26 [[], [], []] : List (List Bytes)).length
        = 52 := rfl
    rw [hlen] at h
    omega
  · rintro ⟨_, h⟩
    exact h ⟨2, le_rfl, by decide, by decide⟩

end Grate.Props
