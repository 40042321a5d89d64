import Verif.Spec.Columns
import Verif.Props.Display
import Verif.Props.Rows
import Verif.Props.Links
import Verif.Props.MakeFormat

/-! # C133 and C134: what Formats, Types and Scan say about the cells of a workbook -/

namespace Grate.Props

open Grate Grate.Spec Grate.Api

namespace Columns

/-! ### The current row -/

theorem after_row {s s' : Sheet} (h0 : s.curRow = 0) (hq : Rectangular s) (ha : After s s') {r : Nat} (hr : s'.curRow = r + 1) :
    ∃ row, s'.row = .ok row ∧ (row.length : Int) = s'.numCols ∧ s'.numCols = s.numCols ∧
      ∀ c : Nat, s.cell? r c = row[c]? := by
  have hinv : s'.rows = s.rows ∧ s'.numCols = s.numCols ∧ s'.curRow ≤ s.rows.length := by
    clear hr
    induction ha with
    | here => exact ⟨rfl, rfl, by rw [h0]; omega⟩
    | @next s' _ ih =>
      obtain ⟨i1, i3, i4⟩ := ih
      unfold Sheet.next
      split
      · exact ⟨i1, i3, i4⟩
      · rename_i hn
        rw [i1] at hn
        exact ⟨i1, i3, by dsimp only; omega⟩
  obtain ⟨i1, i3, i4⟩ := hinv
  have hlt : r < s.rows.length := by omega
  refine ⟨s.rows[r], ?_, ?_, i3, ?_⟩
  · unfold Sheet.row
    have e : (s'.curRow - 1).toNat = r := by omega
    rw [if_pos (by omega), i1, e, List.getElem?_eq_getElem hlt]
  · rw [i3]
    exact hq.width _ (List.getElem_mem _)
  · intro c
    rw [cell?_nat]
    simp only [Sheet.at?]
    rw [List.getElem?_eq_getElem hlt]

/-! ### Cells -/

theorem mark_iff (v : GoVal) : IsMergeMark v ↔ v.marker = true := by
  unfold IsMergeMark GoVal.marker
  cases v with
  | str s =>
    simp only [GoVal.str.injEq, isMarker, Bool.or_eq_true, beq_iff_eq, endRow, endCol, contRow, contCol]
    tauto
  | _ => simp

theorem builds_format {ext : Ext} {f : Formatter} {v : GoVal} {n : Nat} {x : Cell} (h : Builds ext f v n x) (hm : ¬ IsMergeMark v) :
    x.formatNo = n := by
  rw [builds_iff] at h
  have hm' : v.marker = false := by rw [mark_iff] at hm; simpa using hm
  unfold putCell at h
  rw [hm'] at h
  simp only [cond_false] at h
  by_cases hv : Supported v
  · obtain ⟨y, t, e⟩ := typedCell_ok ext f hv n
    rw [e] at h
    simp only [GoRes.ok_bind, Cell.setFormatNumber] at h
    split at h
    · rename_i h0
      cases h
      exact h0.symm
    · cases h
      rfl
  · cases v with
    | other =>
      exfalso
      have e : typedCell ext f .other n = .panic := by
        unfold typedCell
        split
        · rfl
        · split <;> rfl
      rw [e] at h
      cases h
    | _ => exact absurd trivial hv

theorem mark_format {ext : Ext} {f : Formatter} {v : GoVal} {n : Nat} {x : Cell} (h : Builds ext f v n x) (hm : IsMergeMark v) :
    x.formatNo = 0 := by
  rw [builds_iff] at h
  rw [mark_iff] at hm
  unfold putCell at h
  rw [hm] at h
  simp only [cond_true] at h
  cases v with
  | str s =>
    unfold staticCell newCell textCell at h
    simp only at h
    split at h
    · cases h; rfl
    · cases h; rfl
  | _ => cases hm

theorem shows_format {ext : Ext} {f : Formatter} {w : What} {x : Cell} (h : Shows ext f w x) :
    ∃ n, FormatNumberOf (some w) n ∧ x.formatNo = n := by
  cases w with
  | value v n =>
    by_cases hm : IsMergeMark v
    · exact ⟨0, .mark v n hm, mark_format h hm⟩
    · exact ⟨n, .value v n hm, builds_format h hm⟩
  | text t n => exact ⟨n, .text t n, h.2.2⟩
  | link l => exact ⟨0, .link l, h.2.2.1⟩

theorem cell_format {ext : Ext} {f : Formatter} {ws : List Write} {s : Sheet} (h : Holds ext f ws s) {r c : Nat} {x : Cell}
    (hx : s.cell? r c = some x) : ∃ n, FormatNumberOf (lastAt r c ws) n ∧ x.formatNo = n := by
  cases hl : lastAt r c ws with
  | none =>
    rcases h.blank r c hl with e | e
    · rw [hx] at e; cases e
    · rw [hx] at e
      cases e
      exact ⟨0, .blank, rfl⟩
  | some w =>
    obtain ⟨y, hy, e⟩ := h.written r c w hl
    rw [hx] at e
    cases e
    exact shows_format hy

theorem standard_code {n : Nat} {code : Bytes} (h : (n, code) ∈ standardCodes) : builtInFormats n = some code := by
  have key : standardCodes.all (fun x => decide (builtInFormats x.1 = some x.2)) = true := by decide +kernel
  have := List.all_eq_true.1 key _ h
  simpa using this

theorem no_code {n : Nat} (h : 82 ≤ n) : builtInFormats n = none := by
  unfold builtInFormats
  split <;> first | omega | rfl

/-- The value of a cell whose type is that of the stored value. -/
theorem stored_value {ext : Ext} {f : Formatter} {v : GoVal} {n : Nat} {x : Cell} (h : Builds ext f v n x) {t : Bytes} {d d' : SDest}
    (hs : Stored v t d d') (ht : x.type.name = t) : scanCell x.value d = (d', none) := by
  rw [builds_iff] at h
  unfold putCell at h
  cases hm : v.marker with
  | true =>
    rw [hm] at h
    simp only [cond_true] at h
    exfalso
    unfold staticCell at h
    obtain ⟨y, hy, h⟩ := GoRes.bind_eq_ok.1 h
    cases y with
    | empty => cases h
    | full v t' f u =>
      cases h
      have ht : CellType.static.name = t := ht
      cases hs <;> exact absurd ht (by decide +kernel)
  | false =>
    rw [hm] at h
    simp only [cond_false] at h
    obtain ⟨y, hy, h⟩ := GoRes.bind_eq_ok.1 h
    cases y with
    | empty => cases h
    | full v' t' o u =>
      have hxv : x.value = v' ∧ x.type = t' := by
        unfold Cell.setFormatNumber at h
        simp only at h
        split at h <;> cases h <;> exact ⟨rfl, rfl⟩
      rw [hxv.1]
      rw [hxv.2] at ht
      clear h hxv
      have key : newCell v = .ok (.full v' t' o u) ∨ ∃ ct, newCellWithType ext f.mode1904 v ct = .ok (.full v' t' o u) := by
        unfold typedCell at hy
        split at hy
        · exact .inl hy
        · split at hy
          · exact .inl hy
          · exact .inr ⟨_, hy⟩
      clear hy
      cases hs with
      | number y d =>
        rcases key with hy | ⟨ct, hy⟩
        · cases hy; rfl
        · cases ct <;> cases hy <;> first | rfl | exact absurd ht (by decide +kernel)
      | boolean b d =>
        rcases key with hy | ⟨ct, hy⟩
        · cases hy; rfl
        · cases ct <;> cases hy <;> first | rfl | exact absurd ht (by decide +kernel)
      | text s d hne =>
        by_cases h0 : s = []
        · exact absurd h0 hne
        · have e : newCell (.str s) = .ok (.full (.str s) .string none []) := by simp [newCell, textCell, h0]
          rcases key with hy | ⟨ct, hy⟩
          · rw [e] at hy; cases hy; rfl
          · unfold newCellWithType at hy
            rw [e] at hy
            cases ct <;> cases hy <;> first | rfl | exact absurd ht (by decide +kernel)

/-- What a successful `Scan` does to a destination. -/
theorem scanRow_at : ∀ (cs : List Cell) (ds ds' : List SDest), scanRow cs ds = .ok (ds', none) →
    ∀ (c : Nat) (d : SDest), ds[c]? = some d → ∃ x d', cs[c]? = some x ∧ ds'[c]? = some d' ∧ scanCell x.value d = (d', none) := by
  intro cs
  induction cs with
  | nil =>
    intro ds ds' h c d hd
    cases ds with
    | nil => cases hd
    | cons a ds => cases h
  | cons x cs ih =>
    intro ds ds' h c d hd
    cases ds with
    | nil => cases hd
    | cons a ds =>
      unfold scanRow at h
      cases hs : scanCell x.value a with
      | mk a' e =>
        rw [hs] at h
        cases e with
        | some e => cases h
        | none =>
          simp only at h
          obtain ⟨⟨l, e'⟩, h1, h2⟩ := GoRes.bind_eq_ok.1 h
          simp only [GoRes.pure_eq, GoRes.ok.injEq, Prod.mk.injEq] at h2
          obtain ⟨rfl, rfl⟩ := h2
          cases c with
          | zero =>
            cases hd
            exact ⟨x, a', rfl, rfl, hs⟩
          | succ c => exact ih ds l h1 c d hd

/-- Destinations that take the values of the first cells. -/
theorem scanRow_all : ∀ (cs : List Cell) (ds ds' : List SDest), ds'.length = ds.length → ds.length ≤ cs.length →
    (∀ (c : Nat) (x : Cell) (d d' : SDest), cs[c]? = some x → ds[c]? = some d → ds'[c]? = some d' →
      scanCell x.value d = (d', none)) → scanRow cs ds = .ok (ds', none) := by
  intro cs
  induction cs with
  | nil =>
    intro ds ds' hl hle _
    cases ds with
    | nil => cases ds' with
      | nil => rfl
      | cons => cases hl
    | cons => simp at hle
  | cons x cs ih =>
    intro ds ds' hl hle h
    cases ds with
    | nil => cases ds' with
      | nil => rfl
      | cons => cases hl
    | cons d ds => cases ds' with
      | nil => cases hl
      | cons d' ds' =>
        simp only [List.length_cons] at hl hle
        unfold scanRow
        rw [h 0 x d d' rfl rfl rfl]
        simp only
        rw [ih ds ds' (by omega) (by omega) (fun c => h (c + 1))]
        rfl

end Columns

open Columns

/-! ### C133 -/

/-- **C133.** On a sheet of a workbook (C49, C58: it holds what was written), with the cursor on a row: `Formats` gives for each
cell the code of its number format, if that is one of the formats of the standard that are the same in all languages, and "General"
for blank cells, links and the marks in merged cells. (Other built-in formats are not covered, and formats that the workbook defines
are not given: `C133_custom_counterexample`.) -/
theorem C133_partial (ext : Ext) (f : Formatter) (ws : List Write) (s s' : Sheet) (h : Holds ext f ws s) (hq : Rectangular s)
    (ha : After s s') (r : Nat) (hr : s'.curRow = r + 1) :
    ∃ l, s'.formats = .ok l ∧ (l.length : Int) = s.numCols ∧
      ∀ c, c < l.length → ∃ n, FormatNumberOf (lastAt r c ws) n ∧ ∀ code, (n, code) ∈ standardCodes → l[c]? = some code := by
  obtain ⟨row, e1, e2, e3, e4⟩ := after_row h.start hq ha hr
  refine ⟨row.map (fun c => match builtInFormats c.formatNo with | some t => t | none => decNat c.formatNo), ?_, ?_, ?_⟩
  · unfold Sheet.formats
    rw [e1, GoRes.ok_bind]
    exact fillRow_exact _ (by rw [List.length_map]; exact e2)
  · rw [List.length_map]
    omega
  · intro c hc
    rw [List.length_map] at hc
    have hx : row[c]? = some row[c] := List.getElem?_eq_getElem hc
    obtain ⟨n, h1, h2⟩ := cell_format h ((e4 c).trans hx)
    refine ⟨n, h1, fun code hcode => ?_⟩
    rw [List.getElem?_map, hx, Option.map_some, h2, standard_code hcode]

/-- C133 is false of all formats that workbooks define (which have numbers from 164 on): whatever the code of the format, `Formats`
gives its number. -/
theorem C133_custom_counterexample (ext : Ext) (f : Formatter) (ws : List Write) (s s' : Sheet) (h : Holds ext f ws s)
    (hq : Rectangular s) (ha : After s s') (r : Nat) (hr : s'.curRow = r + 1) (c n : Nat) (hc : (c : Int) < s.numCols)
    (hn : FormatNumberOf (lastAt r c ws) n) (h164 : 164 ≤ n) :
    ∃ l t, s'.formats = .ok l ∧ l[c]? = some t ∧ IsDigits t ∧ digitsVal t = n := by
  obtain ⟨row, e1, e2, e3, e4⟩ := after_row h.start hq ha hr
  have hlt : c < row.length := by omega
  have hx : row[c]? = some row[c] := List.getElem?_eq_getElem hlt
  obtain ⟨m, h1, h2⟩ := cell_format h ((e4 c).trans hx)
  have hm : m = n := by
    revert h1 hn
    generalize lastAt r c ws = w
    intro hn h1
    cases hn with
    | blank => cases h1; rfl
    | value v n hv =>
      cases h1 with
      | value => rfl
      | mark _ _ hv' => exact absurd hv' hv
    | mark v n hv =>
      cases h1 with
      | value _ _ hv' => exact absurd hv hv'
      | mark => rfl
    | text t n => cases h1; rfl
    | link l => cases h1; rfl
  subst hm
  refine ⟨row.map (fun c => match builtInFormats c.formatNo with | some t => t | none => decNat c.formatNo), decNat m, ?_, ?_, decNat_isDigits m, decNat_val m⟩
  · unfold Sheet.formats
    rw [e1, GoRes.ok_bind]
    exact fillRow_exact _ (by rw [List.length_map]; exact e2)
  · rw [List.getElem?_map, hx, Option.map_some, h2, no_code (by omega)]

/-! ### C134 -/

/-- The formats of the standard that show numbers with decimals, in percent, as fractions or with exponents, and General. -/
def decimalFormats : List Nat := [0, 2, 4, 9, 10, 11, 12, 13, 39, 40, 48]

/-- **C134.** On a sheet of a workbook, with the cursor on a row: if `Types` gives for a cell the type of the value that is stored in
the file, a number, a truth value or a text, then `Scan` into a variable of that type gives that value. -/
theorem C134_scan (ext : Ext) (f : Formatter) (ws : List Write) (s s' : Sheet) (h : Holds ext f ws s) (hq : Rectangular s)
    (ha : After s s') (r : Nat) (hr : s'.curRow = r + 1) (c : Nat) (v : GoVal) (n : Nat)
    (hw : lastAt r c ws = some (.value v n)) (t : Bytes) (d d' : SDest) (hs : Stored v t d d') :
    ∃ ts, s'.types = .ok ts ∧ (ts[c]? = some t → ∀ ds ds', ds[c]? = some d → s'.scan ds = .ok (ds', none) →
      ds'[c]? = some d') := by
  obtain ⟨row, e1, e2, e3, e4⟩ := after_row h.start hq ha hr
  refine ⟨row.map (fun c => c.type.name), ?_, ?_⟩
  · unfold Sheet.types
    rw [e1, GoRes.ok_bind]
    exact fillRow_exact _ (by rw [List.length_map]; exact e2)
  · intro ht ds ds' hd hsc
    unfold Sheet.scan at hsc
    rw [e1, GoRes.ok_bind] at hsc
    obtain ⟨x, y, h1, h2, h3⟩ := scanRow_at row ds ds' hsc c d hd
    rw [List.getElem?_map, h1, Option.map_some] at ht
    obtain ⟨z, hz, hz'⟩ := h.written r c _ hw
    rw [e4 c, h1] at hz'
    cases hz'
    have := stored_value hz hs (Option.some.inj ht)
    rw [h3] at this
    cases this
    exact h2

/-- **C134.** The same for the whole row: `Scan` into variables of the types that `Types` gives succeeds and gives the stored values,
if those are the types of the values that are stored. -/
theorem C134_row (ext : Ext) (f : Formatter) (ws : List Write) (s s' : Sheet) (h : Holds ext f ws s) (hq : Rectangular s)
    (ha : After s s') (r : Nat) (hr : s'.curRow = r + 1) (ts : List Bytes) (ht : s'.types = .ok ts) (ds ds' : List SDest)
    (hl : ds'.length = ds.length) (hle : (ds.length : Int) ≤ s.numCols)
    (hs : ∀ (c : Nat) (d d' : SDest), ds[c]? = some d → ds'[c]? = some d' →
      ∃ v n t, lastAt r c ws = some (.value v n) ∧ Stored v t d d' ∧ ts[c]? = some t) :
    s'.scan ds = .ok (ds', none) := by
  obtain ⟨row, e1, e2, e3, e4⟩ := after_row h.start hq ha hr
  have ht' : s'.types = .ok (row.map (fun c => c.type.name)) := by
    unfold Sheet.types
    rw [e1, GoRes.ok_bind]
    exact fillRow_exact _ (by rw [List.length_map]; exact e2)
  rw [ht'] at ht
  cases ht
  unfold Sheet.scan
  rw [e1, GoRes.ok_bind]
  refine scanRow_all row ds ds' hl (by omega) ?_
  intro c x d d' hx hd hd'
  obtain ⟨v, n, t, hw, hst, hty⟩ := hs c d d' hd hd'
  rw [List.getElem?_map, hx, Option.map_some] at hty
  obtain ⟨z, hz, hz'⟩ := h.written r c _ hw
  rw [e4 c, hx] at hz'
  cases hz'
  exact stored_value hz hst (Option.some.inj hty)

/-- **C134.** `Types` gives the type of the stored value for numbers with formats for decimals, for all values with the format
General, and for texts with the format for texts. Missing: formats that workbooks define; and, as the claim is false of them
(`C134_integer_counterexample`), the formats for whole numbers; numbers with formats for dates are times (C31). -/
theorem C134_types_partial (ext : Ext) (f : Formatter) (ws : List Write) (s s' : Sheet) (h : Holds ext f ws s) (hq : Rectangular s)
    (ha : After s s') (r : Nat) (hr : s'.curRow = r + 1) (c : Nat) (v : GoVal) (n : Nat)
    (hw : lastAt r c ws = some (.value v n)) (t : Bytes) (d d' : SDest) (hs : Stored v t d d') (hm : ¬ IsMergeMark v)
    (hn : n = 0 ∨ (∃ x, v = .f64 x ∧ n ∈ decimalFormats) ∨ (∃ u, v = .str u ∧ n = 49)) :
    ∃ ts, s'.types = .ok ts ∧ ts[c]? = some t := by
  obtain ⟨row, e1, e2, e3, e4⟩ := after_row h.start hq ha hr
  obtain ⟨x, hx, hx'⟩ := h.written r c _ hw
  refine ⟨row.map (fun c => c.type.name), ?_, ?_⟩
  · unfold Sheet.types
    rw [e1, GoRes.ok_bind]
    exact fillRow_exact _ (by rw [List.length_map]; exact e2)
  · rw [List.getElem?_map, ← e4 c, hx', Option.map_some]
    have hx : Builds ext f v n x := hx
    rw [builds_iff] at hx
    have hm' : v.marker = false := by rw [mark_iff] at hm; simpa using hm
    unfold putCell at hx
    rw [hm'] at hx
    simp only [cond_false] at hx
    have key : ∀ w ty, typedCell ext f v n = .ok (.full w ty none []) → x.type = ty := by
      intro w ty e
      rw [e] at hx
      simp only [GoRes.ok_bind, Cell.setFormatNumber] at hx
      split at hx <;> cases hx <;> rfl
    have general : ∀ w ty, newCell v = .ok (.full w ty none []) → n = 0 → x.type = ty := by
      rintro w ty e rfl
      refine key w ty ?_
      unfold typedCell
      cases f.getCellType 0 with
      | none => exact e
      | some ct => simpa using e
    congr 1
    cases hs with
    | number y d =>
      rcases hn with rfl | ⟨_, _, hn⟩ | ⟨_, hv, _⟩
      · rw [general _ _ rfl rfl]; rfl
      · simp only [decimalFormats, List.mem_cons, List.not_mem_nil, or_false] at hn
        rcases hn with rfl | rfl | rfl | rfl | rfl | rfl | rfl | rfl | rfl | rfl | rfl
        · rw [general _ _ rfl rfl]; rfl
        all_goals rw [key _ .float rfl]; rfl
      · cases hv
    | boolean b d =>
      rcases hn with rfl | ⟨_, hv, _⟩ | ⟨_, hv, _⟩
      · rw [general _ _ rfl rfl]; rfl
      · cases hv
      · cases hv
    | text u d hu =>
      have e : newCell (.str u) = .ok (.full (.str u) .string none []) := by simp [newCell, textCell, hu]
      rcases hn with rfl | ⟨_, hv, _⟩ | ⟨_, _, rfl⟩
      · rw [general _ _ e rfl]; rfl
      · cases hv
      · refine (congrArg CellType.name (key (.str u) .string ?_)).trans rfl
        have e49 : f.getCellType 49 = some .string := rfl
        unfold typedCell newCellWithType
        rw [e49, e]
        rfl

/-- C134 is false of the formats for whole numbers: two numbers with the same part before the point become the same cell, so that
nothing in the interface tells them apart; what `Scan` gives is that part. -/
theorem C134_integer_counterexample (ext : Ext) (f : Formatter) (n : Nat) (hn : n ∈ [1, 3, 37, 38]) (x y : Float)
    (hxy : f64ToInt x = f64ToInt y) (c : Cell) : Builds ext f (.f64 x) n c ↔ Builds ext f (.f64 y) n c := by
  rw [builds_iff, builds_iff]
  have key : ∀ z, putCell ext f (.f64 z) n = .ok (.full (.int (f64ToInt z)) .integer (some n) []) := by
    intro z
    simp only [List.mem_cons, List.not_mem_nil, or_false] at hn
    rcases hn with rfl | rfl | rfl | rfl <;> rfl
  rw [key, key, hxy]

/-- C134: 2.25 and 2.75 with the format `#,##0` are the same cell, the whole number 2; a text in a cell with the format `0` is the
whole number 0; and the empty text in a cell with the format for texts is the text `<nil>`. -/
theorem C134_counterexample (ext : Ext) (f : Formatter) :
    Builds ext f (.f64 2.25) 3 (.full (.int 2) .integer (some 3) []) ∧
    Builds ext f (.f64 2.75) 3 (.full (.int 2) .integer (some 3) []) ∧
    Builds ext f (.str (lit "unknown")) 1 (.full (.int 0) .integer (some 1) []) ∧
    Builds ext f (.str []) 49 (.full (.str (lit "<nil>")) .string (some 49) []) := by
  simp only [builds_iff]
  have e1 : f64ToInt 2.25 = 2 := by decide +kernel
  have e2 : f64ToInt 2.75 = 2 := by decide +kernel
  have e3 : (parseInt 64 (lit "unknown")).1 = 0 := by decide +kernel
  refine ⟨?_, ?_, ?_, rfl⟩
  · rw [← e1]; rfl
  · rw [← e2]; rfl
  · rw [← e3]; rfl

theorem Columns.defined_type {n : Nat} (hn : 164 ≤ n) {c : NumCode} (hpre : PlainText c.pre) (hpost : PlainText c.post) {f : Formatter}
    (h : DefinedAs n c.text f) : f.getCellType n = some (if c.decimals = 0 then .integer else .float) := by
  suffices key : f.codes n ≠ none ∧ f.getCellType n = some (if c.decimals = 0 then .integer else .float) from key.2
  induction h with
  | @first x hfree =>
    have hg := not_general (num_zero_mem c) (.inl rfl)
    obtain ⟨h1, h2⟩ := custom_none n hn
    have e : x.add makeFormatter n c.text =
        ({ x with codes := upd x.codes n (makeFormatter c.text).1, types := upd x.types n (makeFormatter c.text).2 }, none) := by
      unfold Formatter.add
      rw [if_neg hg, h1, hfree]
      rfl
    rw [e, makeFormatter_num c hpre hpost]
    refine ⟨by simp [upd], ?_⟩
    unfold Formatter.getCellType
    rw [h2]
    simp [upd]
  | @later x m other _ ih =>
    obtain ⟨i1, i2⟩ := ih
    unfold Formatter.add
    split
    · refine ⟨?_, i2⟩
      by_cases hm : n = m
      · simp [upd, hm]
      · simpa [upd, hm] using i1
    · split
      · exact ⟨i1, i2⟩
      · split
        · exact ⟨i1, i2⟩
        · rename_i hc
          have hm : n ≠ m := by
            rintro rfl
            apply hc
            cases hx : x.codes n with
            | none => exact absurd hx i1
            | some => rfl
          unfold Formatter.getCellType at i2 ⊢
          exact ⟨by simpa [upd, hm] using i1, by simpa [upd, hm] using i2⟩
  | mode b _ ih => exact ih

/-- **C134.** The same for the formats that workbooks define, with decimals and any plain text around the number (`0.0`,
`#,##0.00" kg"`, `0.0%`): `Types` gives `float` for numbers, so that `Scan` gives the number (`C134_scan`, `C134_row`). -/
theorem C134_custom_partial (ext : Ext) (f : Formatter) (ws : List Write) (s s' : Sheet) (h : Holds ext f ws s) (hq : Rectangular s)
    (ha : After s s') (r : Nat) (hr : s'.curRow = r + 1) (c : Nat) (x : Float) (n : Nat)
    (hw : lastAt r c ws = some (.value (.f64 x) n)) (hn : 164 ≤ n) (code : NumCode) (hpre : PlainText code.pre)
    (hpost : PlainText code.post) (hk : code.decimals ≠ 0) (hf : DefinedAs n code.text f) :
    ∃ ts, s'.types = .ok ts ∧ ts[c]? = some (lit "float") := by
  obtain ⟨row, e1, e2, e3, e4⟩ := after_row h.start hq ha hr
  obtain ⟨y, hy, hy'⟩ := h.written r c _ hw
  have ht := defined_type hn hpre hpost hf
  rw [if_neg hk] at ht
  refine ⟨row.map (fun c => c.type.name), ?_, ?_⟩
  · unfold Sheet.types
    rw [e1, GoRes.ok_bind]
    exact fillRow_exact _ (by rw [List.length_map]; exact e2)
  · rw [List.getElem?_map, ← e4 c, hy', Option.map_some]
    have hy : Builds ext f (.f64 x) n y := hy
    rw [builds_iff] at hy
    have e : typedCell ext f (.f64 x) n = .ok (.full (.float x) .float none []) := by
      unfold typedCell
      rw [ht]
      simp only
      rw [if_neg (by omega)]
      rfl
    have hp : putCell ext f (.f64 x) n = .ok (.full (.float x) .float (some n) []) := by
      unfold putCell
      simp only [GoVal.marker, cond_false]
      rw [e, GoRes.ok_bind]
      unfold Cell.setFormatNumber
      simp only
      rw [if_neg (by omega)]
    rw [hp] at hy
    cases hy
    rfl

/-- C134 is false of the formats without decimals that workbooks define (`0%`, `#,##0" kg"`), in the same way: numbers with the
same part before the point become the same cell. So 25% is 0. -/
theorem C134_custom_counterexample (ext : Ext) (f : Formatter) (n : Nat) (hn : 164 ≤ n) (code : NumCode) (hpre : PlainText code.pre)
    (hpost : PlainText code.post) (hk : code.decimals = 0) (hf : DefinedAs n code.text f) (x : Float) (c : Cell) :
    Builds ext f (.f64 x) n c ↔ c = .full (.int (f64ToInt x)) .integer (some n) [] := by
  have ht := defined_type hn hpre hpost hf
  rw [if_pos hk] at ht
  rw [builds_iff]
  have e : typedCell ext f (.f64 x) n = .ok (.full (.int (f64ToInt x)) .integer none []) := by
    unfold typedCell
    rw [ht]
    simp only
    rw [if_neg (by omega)]
    rfl
  have hp : putCell ext f (.f64 x) n = .ok (.full (.int (f64ToInt x)) .integer (some n) []) := by
    unfold putCell
    simp only [GoVal.marker, cond_false]
    rw [e, GoRes.ok_bind]
    unfold Cell.setFormatNumber
    simp only
    rw [if_neg (by omega)]
  rw [hp]
  simp [eq_comm]

/-- The code `0%`, defined after another format: 0.25 is the whole number 0. -/
theorem C134_percent_counterexample (ext : Ext) :
    Builds ext (((Formatter.new).add makeFormatter 164 (lit "0.0")).1.add makeFormatter 165 (lit "0%")).1 (.f64 0.25) 165
      (.full (.int 0) .integer (some 165) []) := by
  have hc : (⟨[], false, 0, true, []⟩ : NumCode).text = lit "0%" := by decide +kernel
  have e : f64ToInt 0.25 = 0 := by decide +kernel
  refine (C134_custom_counterexample ext _ 165 (by omega) ⟨[], false, 0, true, []⟩ ?_ ?_ rfl ?_ 0.25 _).2 ?_
  · simp [PlainText]
  · simp [PlainText]
  · rw [hc]
    exact .first rfl
  · rw [e]

/-! ### Cases that meet the hypotheses -/

theorem Columns.exBook_sheet (p : Crypto.Prims) (mk : Bytes → Fmt × CellType) (ext : Ext) :
    ∃ b s, Xls.loadStream p mk [] ⟨stream exBook.flatten, []⟩ = .ok b ∧ b.get ext (lit "S") = .ok (some s) ∧
      Holds ext b.nfmt exWrites s ∧ Rectangular s ∧ s.numCols = 4 ∧ s.rows.length = 5 := by
  obtain ⟨b, s, h1, h2, h3, h4, h5⟩ := C49_file_partial p mk ext exBook_grouped.1 exBook_grouped.2 exBook_content [] [] []
    exEntry rfl (by simp) 1 (exBof 0x10) exSheet rfl (by decide +kernel) 4 4 exSheet_declares exWrites exSheet_recs
  have hq := h5 (by decide +kernel)
  obtain ⟨n1, n2⟩ := size_extent h3 h4 (R := 4) (C := 4) (by unfold Extent exWrites; simp) (by unfold Extent exWrites; simp)
  refine ⟨b, s, h1, h2, h3, hq, n2, ?_⟩
  rcases hq.count with ⟨_, h0, _⟩ | ⟨h1, _⟩ <;> omega

theorem Columns.next_row (s : Sheet) (n : Nat) (h : s.curRow = n) (hn : n + 1 ≤ s.rows.length) :
    s.next.1.curRow = (n + 1 : Nat) ∧ s.next.1.rows = s.rows ∧ s.next.1.numCols = s.numCols := by
  unfold Sheet.next
  rw [if_neg (by omega)]
  refine ⟨?_, rfl, rfl⟩
  dsimp only
  omega

/-- A case of C133: the sheet of an xls workbook, in whose first row `Formats` gives the code of the date format that is stored for
the first cell, and "General" for the blank cell next to it. -/
theorem C133_witness (p : Crypto.Prims) (mk : Bytes → Fmt × CellType) (ext : Ext) :
    ∃ b s l, Xls.loadStream p mk [] ⟨stream exBook.flatten, []⟩ = .ok b ∧ b.get ext (lit "S") = .ok (some s) ∧
      s.next.1.formats = .ok l ∧ l[0]? = some (lit "mm-dd-yy") ∧ l[1]? = some (lit "General") := by
  obtain ⟨b, s, h1, h2, h3, h4, h5, h6⟩ := exBook_sheet p mk ext
  obtain ⟨c1, c2, c3⟩ := next_row s 0 h3.start (by omega)
  obtain ⟨l, e1, e2, e3⟩ := C133_partial ext _ _ s _ h3 h4 (.next (.here s)) 0 c1
  refine ⟨b, s, l, h1, h2, e1, ?_, ?_⟩
  · obtain ⟨n, hn, hc⟩ := e3 0 (by omega)
    have hw : lastAt 0 0 exWrites = some (.value (.f64 (Float.ofBits (UInt64.ofNat 0x4059000000000000))) 14) := rfl
    rw [hw] at hn
    cases hn with
    | value => exact hc _ (by simp [standardCodes])
    | mark _ _ hv => simp [IsMergeMark] at hv
  · obtain ⟨n, hn, hc⟩ := e3 1 (by omega)
    have hw : lastAt 0 1 exWrites = none := rfl
    rw [hw] at hn
    cases hn
    exact hc _ (by simp [standardCodes])

/-- A case of C134: in the third row of the same sheet, `Types` gives "string" for the first cell and `Scan` gives its text. -/
theorem C134_witness (p : Crypto.Prims) (mk : Bytes → Fmt × CellType) (ext : Ext) :
    ∃ b s ts, Xls.loadStream p mk [] ⟨stream exBook.flatten, []⟩ = .ok b ∧ b.get ext (lit "S") = .ok (some s) ∧
      s.next.1.next.1.next.1.types = .ok ts ∧ ts[0]? = some (lit "string") ∧
      s.next.1.next.1.next.1.scan [.str []] = .ok ([.str (utf8 [0x68, 0x69])], none) := by
  obtain ⟨b, s, h1, h2, h3, h4, h5, h6⟩ := exBook_sheet p mk ext
  obtain ⟨c1, c2, c3⟩ := next_row s 0 h3.start (by omega)
  obtain ⟨d1, d2, d3⟩ := next_row _ 1 c1 (by rw [c2]; omega)
  obtain ⟨g1, g2, g3⟩ := next_row _ 2 d1 (by rw [d2, c2]; omega)
  have hw : lastAt 2 0 exWrites = some (.value (.str (utf8 [0x68, 0x69])) 0) := rfl
  have hst : Stored (.str (utf8 [0x68, 0x69])) (lit "string") (.str []) (.str (utf8 [0x68, 0x69])) := .text _ _ (by decide +kernel)
  have ha : After s s.next.1.next.1.next.1 := .next (.next (.next (.here s)))
  obtain ⟨ts, e1, e2⟩ := C134_types_partial ext _ _ s _ h3 h4 ha 2 g1 0 _ 0 hw _ _ _ hst
    (by rw [mark_iff]; decide +kernel) (.inl rfl)
  refine ⟨b, s, ts, h1, h2, e1, e2, ?_⟩
  refine C134_row ext _ _ s _ h3 h4 ha 2 g1 ts e1 [.str []] _ rfl (by rw [h5]; decide) ?_
  intro c d d' hd hd'
  cases c with
  | zero => cases hd; cases hd'; exact ⟨_, _, _, hw, hst, e2⟩
  | succ c => cases hd

/-- A case of `C134_custom_partial`: 2.75 with the format `0.0` of the workbook, in a sheet of its own. -/
theorem C134_custom_witness (ext : Ext) :
    ∃ (f : Formatter) (s : Sheet), (Sheet.new f).put ext 0 0 (.f64 2.75) 164 = .ok s ∧ DefinedAs 164 (lit "0.0") f ∧
      Holds ext f [⟨0, 0, .value (.f64 2.75) 164⟩] s ∧ Rectangular s ∧ s.next.1.types = .ok [lit "float"] ∧
      s.next.1.scan [.float 0] = .ok ([.float 2.75], none) := by
  have hc : (⟨[], false, 1, false, []⟩ : NumCode).text = lit "0.0" := by decide +kernel
  have hd : DefinedAs 164 (lit "0.0") ((Formatter.new).add makeFormatter 164 (lit "0.0")).1 := .first rfl
  have ht : ((Formatter.new).add makeFormatter 164 (lit "0.0")).1.getCellType 164 = some .float :=
    defined_type (c := ⟨[], false, 1, false, []⟩) (by omega) (by simp [PlainText]) (by simp [PlainText]) (by rw [hc]; exact hd)
  generalize ((Formatter.new).add makeFormatter 164 (lit "0.0")).1 = f at hd ht
  have hb : putCell ext f (.f64 2.75) 164 = .ok (.full (.float 2.75) .float (some 164) []) := by
    simp only [putCell, GoVal.marker, cond_false, typedCell, ht]
    rfl
  refine ⟨f, ⟨f, 1, 1, [[.full (.float 2.75) .float (some 164) []], [.empty]], 0⟩, ?_, hd, ⟨rfl, ?_, ?_, rfl, ?_⟩, ⟨?_, ?_⟩, ?_, ?_⟩
  · show (putCell ext ((Sheet.new f).grow 0 0).fmtr (.f64 2.75) 164 >>= fun c => ((Sheet.new f).grow 0 0).store 0 0 c) = _
    have e : ((Sheet.new f).grow 0 0).fmtr = f := rfl
    rw [e, hb, GoRes.ok_bind]
    rfl
  · intro r c w hw
    simp only [lastAt] at hw
    split at hw
    · rename_i h
      obtain ⟨rfl, rfl⟩ := h
      cases hw
      exact ⟨_, (builds_iff ..).2 hb, rfl⟩
    · cases hw
  · intro r c hl
    simp only [lastAt] at hl
    rw [cell?_nat]
    unfold Sheet.at?
    rcases r with _ | _ | r
    · rcases c with _ | c
      · simp at hl
      · exact .inl rfl
    · rcases c with _ | c
      · exact .inr rfl
      · exact .inl rfl
    · exact .inl rfl
  · intro w hw
    rw [List.mem_singleton] at hw
    subst hw
    simp
  · simp
  · simp
  · rfl
  · rfl

end Grate.Props
