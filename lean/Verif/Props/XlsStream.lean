import Verif.Lemmas.XlsGlobals
import Verif.Model.XlsSheet
import Verif.Props.Crypto

/-! # C43-C45, C67: records, substreams and sheets of workbook streams -/

namespace Grate.Props

open Xls Spec

/-- A plain workbook stream: records that fit, the first one BOF, none of them FilePass. -/
structure Plain (rs : List Record) : Prop where
  fits : ∀ r ∈ rs, r.Fits
  first : ∀ r, rs.head? = some r → r.type = 0x809
  plain : ∀ r ∈ rs, r.type ≠ 0x2F

theorem gather_plain {rs : List Record} (h : Plain rs) (d : Bool) (t rest : Bytes) :
    ∃ g, placeAll (recsOf rs (t ++ rest)) Groups.init = .ok g ∧ g.subs.flatten = recsOf rs (t ++ rest) ∧
      gather d ⟨stream rs ++ t, rest⟩ Groups.init = gather d ⟨t, rest⟩ g := by
  have he := gather_stream d t rest rs h.fits (fun r hr hx => absurd hx (h.plain r hr)) Groups.init
  cases rs with
  | nil => exact ⟨Groups.init, rfl, rfl, rfl⟩
  | cons r rs =>
    obtain ⟨g, hg, hf⟩ := placeAll_init (recOf r (stream rs ++ (t ++ rest))) (recsOf rs (t ++ rest)) (h.first r rfl)
    have hg' : placeAll (recsOf (r :: rs) (t ++ rest)) Groups.init = .ok g := hg
    refine ⟨g, hg', hf, ?_⟩
    rw [he, hg', GoRes.ok_bind]

theorem processRec_keeps (mk : Bytes → Fmt × CellType) (nr : Rec) (later : List Rec) (b b' : Book)
    (h : processRec mk nr later b = .ok b') : b'.subs = b.subs ∧ b'.pos2 = b.pos2 := by
  unfold processRec at h
  repeat' split at h
  all_goals first
    | (cases h; exact ⟨rfl, rfl⟩)
    | (simp only [GoRes.bind_eq_ok] at h
       obtain ⟨_, _, h⟩ := h
       cases h
       exact ⟨rfl, rfl⟩)
    | (simp only [GoRes.bind_eq_ok] at h
       obtain ⟨_, _, _, _, h⟩ := h
       cases h
       exact ⟨rfl, rfl⟩)
    | (simp only [GoRes.bind_eq_ok] at h
       obtain ⟨_, _, _, _, _, _, h⟩ := h
       cases h
       exact ⟨rfl, rfl⟩)

theorem processSub_keeps (mk : Bytes → Fmt × CellType) : ∀ (rs : List Rec) (b b' : Book),
    processSub mk rs b = .ok b' → b'.subs = b.subs ∧ b'.pos2 = b.pos2 := by
  intro rs
  induction rs with
  | nil => intro b b' h; cases h; exact ⟨rfl, rfl⟩
  | cons r rs ih =>
    intro b b' h
    rw [processSub, GoRes.bind_eq_ok] at h
    obtain ⟨b1, h1, h2⟩ := h
    have a := processRec_keeps mk r rs b b1 h1
    have c := ih b1 b' h2
    exact ⟨c.1.trans a.1, c.2.trans a.2⟩

theorem processSubs_keeps (mk : Bytes → Fmt × CellType) : ∀ (ss : List (List Rec)) (b b' : Book),
    processSubs mk ss b = .ok b' → b'.subs = b.subs ∧ b'.pos2 = b.pos2 := by
  intro ss
  induction ss with
  | nil => intro b b' h; cases h; exact ⟨rfl, rfl⟩
  | cons s ss ih =>
    intro b b' h
    rw [processSubs, GoRes.bind_eq_ok] at h
    obtain ⟨b1, h1, h2⟩ := h
    have a := processSub_keeps mk s b b1 h1
    have c := ih b1 b' h2
    exact ⟨c.1.trans a.1, c.2.trans a.2⟩

/-! ### C43 -/

/-- C43: a record is read back as written, whatever comes after it, with its length in the stream. -/
theorem C43_record (r : Record) (h : r.Fits) (t rest : Bytes) :
    ∃ nr, nextRecord ⟨r.bytes ++ t, rest⟩ = .ok (nr, r.bytes.length) ∧ nr.type = r.type ∧ nr.data.val = r.data ∧
      nr.size = r.data.length :=
  ⟨_, nextRecord_cons r h t rest, rfl, rfl, rfl⟩

/-- C43: the records of a loaded workbook are the records of the stream, in order, also when up to three bytes
follow (these are dropped, see `C43_counterexample`). -/
theorem C43_records (p : Crypto.Prims) (mk : Bytes → Fmt × CellType) {rs : List Record} (h : Plain rs)
    (t rest : Bytes) (ht : t.length < 4) (b : Book)
    (hb : loadStream p mk rest ⟨stream rs ++ t, rest⟩ = .ok b) :
    b.subs.flatten.map (fun r => (r.type, r.data.val)) = rs.map (fun r => (r.type, r.data)) ∧
    ∀ r ∈ b.subs.flatten, r.size = r.data.val.length := by
  obtain ⟨g, _, hf, he⟩ := gather_plain h false t rest
  rw [gather_short false t rest ht] at he
  unfold loadStream at hb
  rw [he, GoRes.ok_bind] at hb
  simp only at hb
  have hs : b.subs = g.subs := (processSubs_keeps mk _ _ _ hb).1
  rw [hs, hf]
  constructor
  · have := map_view_recsOf rs (t ++ rest)
    have e := congrArg (List.map (fun r : Record => (r.type, r.data))) this
    rw [List.map_map] at e
    exact e
  · have : ∀ (rs : List Record) (x : Bytes), ∀ r ∈ recsOf rs x, r.size = r.data.val.length := by
      intro rs
      induction rs with
      | nil => intro x r hr; cases hr
      | cons a rs ih =>
        intro x r hr
        rw [recsOf] at hr
        rcases List.mem_cons.1 hr with rfl | hr
        · rfl
        · exact ih x r hr
    exact this rs _

/-- C43: a last record that is cut inside its data (after its header) is reported. -/
theorem C43_truncated_partial (p : Crypto.Prims) (mk : Bytes → Fmt × CellType) {rs : List Record} (h : Plain rs)
    (r : Record) (hr : r.Fits) (cut rest : Bytes) (hc : cut <+: r.bytes) (h4 : 4 ≤ cut.length)
    (hlt : cut.length < r.bytes.length) :
    loadStream p mk rest ⟨stream rs ++ cut, rest⟩ = .err .unexpectedEOF := by
  obtain ⟨g, _, hf, he⟩ := gather_plain h false cut rest
  rw [gather_cut false r hr cut rest hc h4 hlt] at he
  unfold loadStream
  rw [he]
  rfl

/-- A BOF record of a worksheet. -/
def exBof (dt : Nat) : Record := ⟨0x809, bofData dt 0x1CBB 0x07CD [0, 0, 0, 0, 6, 0, 0, 0]⟩

/-- A workbook with globals (two sheets, the first hidden; a string table, a format, a style) and two
worksheets, the first with a chart inside. -/
def exGroups : List (List Record) :=
  [[exBof 5, ⟨0x42, [0xB0, 4]⟩, ⟨0x22, [0, 0]⟩,
    ⟨1054, [164, 0] ++ xlString 2 false 0 [0x30]⟩, ⟨224, [0, 0, 164, 0]⟩,
    ⟨0x85, SheetEntry.data ⟨103, 1, 0, 0, [0x41]⟩⟩, ⟨0x85, SheetEntry.data ⟨161, 0, 0, 1, [0x3B1]⟩⟩,
    ⟨252, [1, 0, 0, 0, 1, 0, 0, 0, 2, 0, 0, 0x68]⟩, ⟨0x3C, [0, 0x69]⟩, ⟨0x0A, []⟩],
   [exBof 0x10, ⟨0x203, [0]⟩, exBof 0x20, ⟨0x1001, [1]⟩, ⟨0x0A, []⟩, ⟨0x0A, []⟩],
   [exBof 0x10, ⟨0x0A, []⟩]]

/-- The content of the example. -/
def exContent : Content :=
  ⟨[⟨103, 1, 0, 0, [0x41]⟩, ⟨161, 0, 0, 1, [0x3B1]⟩], 0, [[0x68, 0x69]], [(164, [0x30])], [164]⟩

theorem C43_witness : Plain exGroups.flatten := by
  refine ⟨?_, ?_, ?_⟩
  · unfold Record.Fits; decide +kernel
  · intro r hr
    have : r = exBof 5 := by
      have h2 : exGroups.flatten.head? = some (exBof 5) := rfl
      rw [h2] at hr
      exact (Option.some.inj hr).symm
    subst this
    rfl
  · decide +kernel

/-! ### C44 -/

/-- The substreams of a workbook. -/
structure Grouped (groups : List (List Record)) : Prop where
  fits : ∀ r ∈ groups.flatten, r.Fits
  whole : ∀ g ∈ groups, Substream g

theorem grouped_gather {groups : List (List Record)} (h : Grouped groups) (d : Bool)
    (hd : ∀ r ∈ groups.flatten, r.type = 0x2F → d = true) (rest : Bytes) :
    ∃ g, gather d ⟨stream groups.flatten, rest⟩ Groups.init = .ok (.done g) ∧
      g.subs.map (·.map Rec.view) = groups ∧
      ∀ i, i < groups.length → g.pos2.lookup (position groups i) = some i := by
  have he := gather_stream d [] rest groups.flatten h.fits hd Groups.init
  obtain ⟨g, hg, hb⟩ := between_all groups [] Groups.init between_init h.whole (recsOf groups.flatten ([] ++ rest))
    (map_view_recsOf _ _)
  rw [hg, GoRes.ok_bind, gather_short d [] rest (by simp), List.append_nil] at he
  rw [List.nil_append] at hb
  exact ⟨g, he, hb.subs, hb.look⟩

/-- C44: in a loaded workbook the substreams are the groups of the stream, record by record, and the position of a
group leads to it. -/
theorem C44_groups (p : Crypto.Prims) (mk : Bytes → Fmt × CellType) {groups : List (List Record)} (h : Grouped groups)
    (hp : ∀ r ∈ groups.flatten, r.type ≠ 0x2F) (rest : Bytes) (b : Book)
    (hb : loadStream p mk rest ⟨stream groups.flatten, rest⟩ = .ok b) :
    b.subs.map (·.map (fun r => (r.type, r.data.val))) = groups.map (·.map (fun r => (r.type, r.data))) ∧
    ∀ i, i < groups.length → b.subIndex (position groups i) = i := by
  obtain ⟨g, he, hs, hl⟩ := grouped_gather h false (fun r hr hx => absurd hx (hp r hr)) rest
  unfold loadStream at hb
  rw [he, GoRes.ok_bind] at hb
  simp only at hb
  obtain ⟨k1, k2⟩ := processSubs_keeps mk _ _ _ hb
  constructor
  · rw [k1, ← hs, List.map_map]
    show g.subs.map _ = g.subs.map _
    apply List.map_congr_left
    intro a _
    simp only [Function.comp, List.map_map]
    rfl
  · intro i hi
    unfold Book.subIndex
    rw [k2]
    show (g.pos2.lookup _).getD 0 = i
    rw [hl i hi]
    rfl

/-- A workbook that says what it should is loaded with its content. -/
theorem load_content (p : Crypto.Prims) (mk : Bytes → Fmt × CellType) {groups : List (List Record)} (h : Grouped groups)
    (hp : ∀ r ∈ groups.flatten, r.type ≠ 0x2F) {c : Content} (hc : AllGlobals .empty groups c) (rest : Bytes) :
    ∃ g : Groups, loadStream p mk rest ⟨stream groups.flatten, rest⟩ = .ok (bookOf mk c g.subs g.pos2) ∧
      g.subs.map (·.map Rec.view) = groups ∧
      ∀ i, i < groups.length → g.pos2.lookup (position groups i) = some i := by
  obtain ⟨g, he, hs, hl⟩ := grouped_gather h false (fun r hr hx => absurd hx (hp r hr)) rest
  refine ⟨g, ?_, hs, hl⟩
  unfold loadStream
  rw [he, GoRes.ok_bind]
  simp only
  exact processSubs_spec mk g.subs g.pos2 hc g.subs hs

theorem C44_witness : Grouped exGroups ∧ (∀ r ∈ exGroups.flatten, r.type ≠ 0x2F) ∧
    (List.range 3).map (position exGroups) = [0, 103, 161] := by
  refine ⟨⟨C43_witness.fits, ?_⟩, C43_witness.plain, by decide +kernel⟩
  intro g hg
  simp only [exGroups, List.mem_cons, List.not_mem_nil, or_false] at hg
  have pl : ∀ (r : Record) (rs : List Record), (r.type ≠ 0x809 ∧ r.type ≠ 0x0A) → Balanced rs → Balanced (r :: rs) :=
    fun r rs h hb => .plain r rs h.1 h.2 hb
  rcases hg with rfl | rfl | rfl
  · refine ⟨_, [_, _, _, _, _, _, _, _], _, rfl, rfl, rfl, ?_⟩
    iterate 8 refine pl _ _ (by decide) ?_
    exact .nil
  · refine ⟨_, [_, _, _, _], _, rfl, rfl, rfl, pl _ _ (by decide) ?_⟩
    exact .block _ _ [_] [] rfl rfl (pl _ _ (by decide) .nil) .nil
  · exact ⟨_, [], _, rfl, rfl, rfl, .nil⟩

theorem exContent_parts : Globals .empty exGroups[0] exContent ∧ Globals exContent exGroups[1] exContent ∧
    Globals exContent exGroups[2] exContent := by
  have sc : ∀ x ∈ [0x30], Scalar x := by unfold Scalar; decide +kernel
  refine ⟨?_, ?_, ?_⟩
  · refine .bof _ _ 5 _ _ _ _ (by decide) (by decide) ?_
    refine .codePage _ _ _ _ (by decide) ?_
    refine .dateMode _ _ 0 [] _ (by decide) ?_
    have hf := Globals.format { Content.empty with dateMode := 0 } exContent 164 0 [0x30] []
    refine hf _ (by decide) sc (by unfold Fits; decide +kernel) (by decide +kernel) ?_
    refine .style _ _ 0 164 [] _ (by decide) ?_
    refine .sheet _ _ ⟨103, 1, 0, 0, [0x41]⟩ _ ?_ ?_
    · exact ⟨by decide, by unfold Scalar; decide +kernel, by unfold Fits; decide +kernel, by decide +kernel⟩
    refine .sheet _ _ ⟨161, 0, 0, 1, [0x3B1]⟩ _ ?_ ?_
    · exact ⟨by decide, by unfold Scalar; decide +kernel, by unfold Fits; decide +kernel, by decide +kernel⟩
    refine .strings _ _ [1, 0, 0, 0, 1, 0, 0, 0] [⟨false, 0, [0x68], [(0, [0x69])], [], []⟩] [[0x68, 0x69]]
      [1, 0, 0, 0, 1, 0, 0, 0, 2, 0, 0, 0x68] [[0, 0x69]] _ rfl ?_ ?_ ?_ (by decide +kernel) (by decide +kernel) ?_ ?_
    · intro s hs
      rw [List.mem_singleton] at hs
      subst hs
      exact ⟨by decide +kernel, by unfold Fits; decide +kernel, by unfold Fits; decide +kernel, by decide +kernel,
        by decide +kernel⟩
    · unfold NoLoneByte; decide +kernel
    · unfold Scalar; decide +kernel
    · intro r hr
      cases hr
      decide
    · exact .skip _ _ _ _ (Or.inl rfl) (.nil _)
  · refine .bof _ _ _ _ _ _ _ (by decide) (by decide) ?_
    refine .skip _ _ _ _ (Or.inr (by unfold telling; decide)) ?_
    refine .bof _ _ _ _ _ _ _ (by decide) (by decide) ?_
    refine .skip _ _ _ _ (Or.inr (by unfold telling; decide)) ?_
    exact .skip _ _ _ _ (Or.inl rfl) (.skip _ _ _ _ (Or.inl rfl) (.nil _))
  · refine .bof _ _ _ _ _ _ _ (by decide) (by decide) ?_
    exact .skip _ _ _ _ (Or.inl rfl) (.nil _)

theorem exContent_globals : AllGlobals .empty exGroups exContent :=
  .cons _ exContent _ _ _ exContent_parts.1 (.cons _ exContent _ _ _ exContent_parts.2.1
    (.cons _ exContent _ _ _ exContent_parts.2.2 (.nil _)))

/-- C43 is false as stated: with the example workbook cut inside the header of the last record, loading
succeeds and the record is missing. -/
theorem C43_counterexample (p : Crypto.Prims) (mk : Bytes → Fmt × CellType) :
    ∃ (rs : List Record) (r : Record) (cut : Bytes) (b : Book), Plain (rs ++ [r]) ∧ cut <+: r.bytes ∧ cut ≠ [] ∧
      cut.length < r.bytes.length ∧ loadStream p mk [] ⟨stream rs ++ cut, []⟩ = .ok b ∧
      b.subs.flatten.length = rs.length := by
  have hpl : Plain (exGroups.flatten.dropLast) := by
    refine ⟨fun r hr => C43_witness.fits r (List.dropLast_subset _ hr), ?_,
      fun r hr => C43_witness.plain r (List.dropLast_subset _ hr)⟩
    intro r hr
    cases hr
    rfl
  obtain ⟨g, hg, hf, he⟩ := gather_plain hpl false [0x0A] []
  rw [gather_short false [0x0A] [] (by decide)] at he
  have hsub : g.subs.map (·.map Rec.view) =
      [exGroups[0], exGroups[1], [exBof 0x10]] := by
    have : ∃ g', placeAll (recsOf exGroups.flatten.dropLast ([0x0A] ++ [])) Groups.init = .ok g' ∧
      g'.subs.map (·.map Rec.view) = [exGroups[0], exGroups[1], [exBof 0x10]] := ⟨_, rfl, rfl⟩
    obtain ⟨g', h1, h2⟩ := this
    rw [hg] at h1
    cases h1
    exact h2
  have hc : AllGlobals .empty [exGroups[0], exGroups[1], [exBof 0x10]] exContent := by
    exact .cons _ exContent _ _ _ exContent_parts.1 (.cons _ exContent _ _ _ exContent_parts.2.1
      (.cons _ exContent _ _ _ (.bof _ _ _ _ _ _ _ (by decide) (by decide) (.nil _)) (.nil _)))
  refine ⟨exGroups.flatten.dropLast, ⟨0x0A, []⟩, [0x0A], bookOf mk exContent g.subs g.pos2, C43_witness, ?_, by simp,
    by decide, ?_, ?_⟩
  · exact ⟨[0, 0, 0], rfl⟩
  · unfold loadStream
    rw [he, GoRes.ok_bind]
    simp only
    exact processSubs_spec mk g.subs g.pos2 hc g.subs hsub
  · show g.subs.flatten.length = _
    rw [hf]
    rfl

/-! ### C45 -/

theorem entry_visible (e : SheetEntry) : decide ((entry e).hidden &&& 3 = 0) = e.visible := by
  unfold entry SheetEntry.visible
  simp only
  revert e
  have : ∀ s : UInt8, decide (s &&& 3 = 0) = decide (s.toNat % 4 = 0) := byte_all _ (by decide +kernel)
  intro e
  exact this e.state

/-- C45: of a workbook with the sheets `c.sheets`, `List` are the names of the visible ones in file order and
`ListHidden` those of the others; `Get` with the name of a sheet gives the first sheet of that name, read
from the substream at its position, and an error for all other names. -/
theorem C45_sheets (p : Crypto.Prims) (mk : Bytes → Fmt × CellType) {groups : List (List Record)} (h : Grouped groups)
    (hp : ∀ r ∈ groups.flatten, r.type ≠ 0x2F) {c : Content} (hc : AllGlobals .empty groups c) (rest : Bytes) :
    ∃ b, loadStream p mk rest ⟨stream groups.flatten, rest⟩ = .ok b ∧
      b.list = (c.sheets.filter (·.visible)).map (fun e => utf8 e.name) ∧
      b.listHidden = (c.sheets.filter (fun e => !e.visible)).map (fun e => utf8 e.name) ∧
      (∀ (ext : Ext) (before after : List SheetEntry) (e : SheetEntry) (i : Nat), c.sheets = before ++ e :: after →
        (∀ x ∈ before, utf8 x.name ≠ utf8 e.name) → i < groups.length → e.position = position groups i →
        b.get ext (utf8 e.name) = parseSheet ext b i) ∧
      (∀ (ext : Ext) (name : Bytes), (∀ e ∈ c.sheets, utf8 e.name ≠ name) →
        b.get ext name = .err (.msg "xls: sheet not found")) := by
  obtain ⟨g, hl, hs, hpos⟩ := load_content p mk h hp hc rest
  refine ⟨_, hl, ?_, ?_, ?_, ?_⟩
  · unfold Book.list bookOf
    simp only
    rw [List.filter_map, List.map_map]
    congr 1
    apply List.filter_congr
    intro e _
    exact entry_visible e
  · unfold Book.listHidden bookOf
    simp only
    rw [List.filter_map, List.map_map]
    congr 1
    apply List.filter_congr
    intro e _
    have := entry_visible e
    show decide (¬ (entry e).hidden &&& 3 = 0) = !e.visible
    rw [← this, decide_not]
  · intro ext before after e i hx hb hi hpi
    unfold Book.get
    have hf : (bookOf mk c g.subs g.pos2).sheets.find? (fun s => decide (s.name = utf8 e.name)) = some (entry e) := by
      unfold bookOf
      simp only
      rw [hx, List.map_append, List.map_cons, List.find?_append, List.find?_eq_none.2, Option.none_or,
        List.find?_cons_of_pos]
      · unfold entry; simp
      · intro y hy
        obtain ⟨z, hz, rfl⟩ := List.mem_map.1 hy
        have := hb z hz
        unfold entry
        simpa using this
    rw [hf]
    simp only
    unfold Book.subIndex entry bookOf
    simp only
    rw [hpi, hpos i hi]
    rfl
  · intro ext name hn
    unfold Book.get
    have hf : (bookOf mk c g.subs g.pos2).sheets.find? (fun s => decide (s.name = name)) = none := by
      unfold bookOf
      simp only
      rw [List.find?_eq_none]
      intro y hy
      obtain ⟨z, hz, rfl⟩ := List.mem_map.1 hy
      have := hn z hz
      unfold entry
      simpa using this
    rw [hf]

/-- C45: no sheet is missing from the two lists, and none is in them twice: together they are a permutation of
the names. -/
theorem C45_complete (sheets : List SheetEntry) :
    ((sheets.filter (·.visible)).map (fun e => utf8 e.name) ++
      (sheets.filter (fun e => !e.visible)).map (fun e => utf8 e.name)).Perm (sheets.map (fun e => utf8 e.name)) := by
  rw [← List.map_append]
  exact (List.filter_append_perm (·.visible) sheets).map _

/-- The hypotheses hold for the example, which has one sheet of each kind. -/
theorem C45_witness : Grouped exGroups ∧ (∀ r ∈ exGroups.flatten, r.type ≠ 0x2F) ∧
    AllGlobals .empty exGroups exContent ∧ exContent.sheets.map (·.visible) = [false, true] ∧
    exContent.sheets.map (·.position) = [position exGroups 1, position exGroups 2] :=
  ⟨C44_witness.1, C44_witness.2.1, exContent_globals, by decide +kernel, by decide +kernel⟩

/-! ### C67: encrypted workbooks -/

/-- Encrypting leaves the types and sizes of records and the data of exempt ones. -/
theorem encrypted_records : ∀ (rs : List Record) (f : Nat → UInt8), ∃ rs' : List Record,
    encrypted f rs = stream rs' ∧
    rs'.map (fun r => (r.type, r.data.length)) = rs.map (fun r => (r.type, r.data.length)) ∧
    ∀ (i : Nat) (r : Record), rs[i]? = some r → r.exempt = true → rs'[i]? = some r := by
  intro rs
  induction rs with
  | nil => intro f; exact ⟨[], rfl, rfl, by intro i r h; cases h⟩
  | cons r rs ih =>
    intro f
    obtain ⟨rs', h1, h2, h3⟩ := ih (fun k => f (k + r.bytes.length))
    have hcl : r.clear.length = r.bytes.length := by
      unfold Record.clear
      rw [recBytes_len]
      split
      · simp; omega
      · split <;> simp <;> omega
    have hsplit : encrypted f (r :: rs) =
        ((r.bytes.zip r.clear).mapIdx (fun k (x, c) => if c then x else x ^^^ f k)) ++ stream rs' := by
      rw [← h1]
      unfold encrypted
      rw [stream_cons, List.flatMap_cons, List.zip_append hcl.symm, List.mapIdx_append]
      congr 1
      rw [List.length_zip, hcl, Nat.min_self]
    have hb : ∃ d : Bytes, d.length = r.data.length ∧ (r.exempt = true → d = r.data) ∧
        ((r.bytes.zip r.clear).mapIdx (fun k (x, c) => if c then x else x ^^^ f k)) =
          leBytes 2 r.type ++ leBytes 2 r.data.length ++ d := by
      have hclear : r.clear = List.replicate 4 true ++ r.clear.drop 4 := by
        unfold Record.clear
        rw [List.drop_left' (by simp)]
      have hlen : (r.clear.drop 4).length = r.data.length := by
        rw [List.length_drop, hcl, recBytes_len]; omega
      refine ⟨(r.data.zip (r.clear.drop 4)).mapIdx (fun k (x, c) => if c then x else x ^^^ f (k + 4)), ?_, ?_, ?_⟩
      · rw [List.length_mapIdx, List.length_zip, hlen, Nat.min_self]
      · intro hx
        have : r.clear.drop 4 = List.replicate r.data.length true := by
          unfold Record.clear
          rw [List.drop_left' (by simp), if_pos hx]
        rw [this]
        apply List.ext_getElem?
        intro i
        rw [List.getElem?_mapIdx]
        by_cases hi : i < r.data.length
        · rw [List.getElem?_eq_getElem (by simpa using hi)]
          simp [hi]
        · rw [List.getElem?_eq_none (by simpa using hi), List.getElem?_eq_none (by simpa using hi)]
          rfl
      · rw [hclear]
        have hh : (leBytes 2 r.type ++ leBytes 2 r.data.length).length = (List.replicate 4 true).length := by
          simp [leBytes]
        show ((leBytes 2 r.type ++ leBytes 2 r.data.length ++ r.data).zip (List.replicate 4 true ++ _)).mapIdx _ = _
        rw [List.zip_append hh, List.mapIdx_append]
        congr 1
    obtain ⟨d, hd1, hd2, hd3⟩ := hb
    refine ⟨⟨r.type, d⟩ :: rs', ?_, ?_, ?_⟩
    · rw [hsplit, hd3, stream_cons]
      unfold Record.bytes
      simp only
      rw [hd1]
    · rw [List.map_cons, List.map_cons, h2, hd1]
    · intro i x hx he
      cases i with
      | zero =>
        rw [List.getElem?_cons_zero] at hx ⊢
        cases hx
        rw [hd2 he]
      | succ i =>
        rw [List.getElem?_cons_succ] at hx ⊢
        exact h3 i x hx he

/-- A substream without its end. -/
def Headed (g : List Record) : Prop := ∃ b inner, g = b :: inner ∧ b.type = 0x809 ∧ Balanced inner

theorem between_open {done : List (List Record)} {g : Groups} (h : Between done g) {s : List Record} (hs : Headed s)
    (recs : List Rec) (hr : recs.map Rec.view = s) :
    ∃ g', placeAll recs g = .ok g' ∧ g'.subs.map (·.map Rec.view) = done ++ [s] ∧
      ∀ i, i ≤ done.length → g'.pos2.lookup (position done i) = some i := by
  obtain ⟨b, inner, rfl, hb, hi⟩ := hs
  obtain ⟨q, qs, rfl, hq, hqs⟩ := List.map_eq_cons_iff.1 hr
  have hqt : q.type = b.type := by rw [← hq]; rfl
  have hc : g.count q = ⟨g.subs ++ [[]], g.subs.length, (0 + 1 : Nat), (g.fpos, g.subs.length) :: g.pos2,
      g.fpos + (4 + q.data.len)⟩ := by
    unfold Groups.count
    simp only
    rw [if_neg (by rw [hqt, hb]; decide), if_pos (by rw [hqt]; exact hb), if_pos h.nested]
    simp [h.nested]
  rw [placeAll, hc, place_open _ g.subs [] rfl ⟨by simp, by simp⟩, GoRes.ok_bind]
  simp only [List.nil_append]
  rw [placeAll_balanced hi qs hqs]
  have hlen : g.subs.length = done.length := by rw [← h.subs, List.length_map]
  refine ⟨_, rfl, ?_, ?_⟩
  · simp only [List.map_append, h.subs, List.map_cons, List.map_nil, hq, hqs, List.cons_append, List.nil_append]
  · intro i hi'
    simp only
    by_cases hlt : i < done.length
    · rw [lookup_cons_ne]
      · exact h.look i hlt
      · have hl := h.look i hlt
        rw [List.lookup_eq_some_iff] at hl
        obtain ⟨l1, l2, h1, _⟩ := hl
        have := h.below (position done i, i) (by rw [h1]; simp)
        simp only at this
        omega
    · have : i = done.length := by omega
      subst this
      have hp : position done done.length = g.fpos := by
        unfold position
        rw [List.take_length, h.fpos]
      rw [hp, List.lookup_cons, hlen]
      simp

/-- C67: a workbook encrypted with the default password is loaded with the content that its records had before
encryption, just as a plain one (`load_content`); its substreams are those of the stream except that the very last
record, an empty EOF, is missing. -/
theorem C67_encrypted (p : Crypto.Prims) (hd : Digest p) (mk : Bytes → Fmt × CellType)
    (groups : List (List Record)) (last : List Record) (hw : ∀ g ∈ groups, Substream g) (hlast : Headed last)
    (hok : ∀ r ∈ groups.flatten ++ last, r.Ok)
    (pre post : List Record) (h : Header) (hfp : groups.flatten ++ last = pre ++ ⟨0x2F, leBytes 2 1 ++ h.bytes⟩ :: post)
    (hpre : ∀ r ∈ pre, r.type ≠ 0x2F) (hh : h.Ok) (hm : h.minor = 1) (hmatch : h.Matches p Crypto.defaultPassword)
    {c : Content} (hc : AllGlobals .empty (groups ++ [last]) c) (spare rest : Bytes) :
    ∃ b, loadStream p mk spare ⟨encrypted (keyStream p.md5 p.rc4 Crypto.defaultPassword h.salt)
        (groups.flatten ++ last ++ [⟨0x0A, []⟩]), rest⟩ = .ok b ∧
      b.subs.map (·.map Rec.view) = groups ++ [last] ∧
      (∀ i, i ≤ groups.length → b.subIndex (position groups i) = i) ∧
      b = bookOf mk c b.subs b.pos2 := by
  -- the encrypted records up to FilePass
  obtain ⟨rs', e1, e2, e3⟩ := encrypted_records (groups.flatten ++ last ++ [⟨0x0A, []⟩])
    (keyStream p.md5 p.rc4 Crypto.defaultPassword h.salt)
  have hfit : ∀ r ∈ rs', r.Fits := by
    intro r hr
    have : (r.type, r.data.length) ∈ rs'.map (fun r => (r.type, r.data.length)) := List.mem_map_of_mem hr
    rw [e2] at this
    obtain ⟨x, hx, he⟩ := List.mem_map.1 this
    simp only [Prod.mk.injEq] at he
    rcases List.mem_append.1 hx with hx | hx
    · have := hok x hx
      exact ⟨by rw [← he.1]; exact this.1, by rw [← he.2]; have := this.2.1; omega⟩
    · rw [List.mem_singleton] at hx
      subst hx
      exact ⟨by rw [← he.1]; decide, by rw [← he.2]; decide⟩
  have hat : rs'[pre.length]? = some ⟨0x2F, leBytes 2 1 ++ h.bytes⟩ := by
    refine e3 _ _ ?_ rfl
    rw [hfp, List.append_assoc, List.getElem?_append_right (Nat.le_refl _), Nat.sub_self]
    rfl
  obtain ⟨q, post', rfl, hql⟩ : ∃ q post', rs' = q ++ ⟨0x2F, leBytes 2 1 ++ h.bytes⟩ :: post' ∧ q.length = pre.length := by
    have hlt : pre.length < rs'.length := by
      rw [List.getElem?_eq_some_iff] at hat
      exact hat.1
    refine ⟨rs'.take pre.length, rs'.drop (pre.length + 1), ?_, by rw [List.length_take]; omega⟩
    rw [List.getElem?_eq_some_iff] at hat
    rw [← hat.2, ← List.drop_eq_getElem_cons, List.take_append_drop]
  have hqt : q.map (·.type) = pre.map (·.type) := by
    have e4 := congrArg (List.map Prod.fst) e2
    rw [List.map_map, List.map_map, hfp, List.append_assoc, List.map_append, List.map_append] at e4
    exact (List.append_inj e4 (by rw [List.length_map, List.length_map, hql])).1
  have hgs : gather false ⟨stream (q ++ ⟨0x2F, leBytes 2 1 ++ h.bytes⟩ :: post'), rest⟩ Groups.init =
      .ok (.filePass ⟨leBytes 2 1 ++ h.bytes, stream post' ++ rest⟩) := by
    rw [stream_append, gather_stream false _ _ q (fun r hr => hfit r (by simp [hr])) (by
      intro r hr hx
      have : r.type ∈ q.map (·.type) := List.mem_map_of_mem hr
      rw [hqt] at this
      obtain ⟨y, hy, he⟩ := List.mem_map.1 this
      exact absurd (he.trans hx) (hpre y hy))]
    have hg : ∃ g, placeAll (recsOf q (stream (⟨0x2F, leBytes 2 1 ++ h.bytes⟩ :: post') ++ rest)) Groups.init = .ok g := by
      cases q with
      | nil => exact ⟨_, rfl⟩
      | cons q0 qs =>
        have h0 : q0.type = 0x809 := by
          cases pre with
          | nil => simp at hql
          | cons p0 ps =>
            have t0 : q0.type = p0.type := by
              simp only [List.map_cons, List.cons.injEq] at hqt; exact hqt.1
            rw [t0]
            have hhead : (groups.flatten ++ last).head? = some p0 := by rw [hfp]; rfl
            cases groups with
            | nil =>
              obtain ⟨b, inner, rfl, hb, _⟩ := hlast
              simp at hhead
              rw [← hhead]; exact hb
            | cons g0 gs =>
              obtain ⟨b, inner, e, rfl, hb, _⟩ := hw g0 (by simp)
              simp at hhead
              rw [← hhead]; exact hb
        obtain ⟨g, hg, _⟩ := placeAll_init (recOf q0 (stream qs ++ (stream (⟨0x2F, leBytes 2 1 ++ h.bytes⟩ :: post') ++ rest)))
          (recsOf qs (stream (⟨0x2F, leBytes 2 1 ++ h.bytes⟩ :: post') ++ rest)) h0
        exact ⟨g, hg⟩
    obtain ⟨g, hg⟩ := hg
    rw [hg, GoRes.ok_bind, stream_cons, gather_filePass _ (hfit _ (by simp)) rfl]
  have hnew := ((C42_verify p hd).1 h hh).2 ⟨hm, hmatch⟩
  have hdec := C41_actual p hd (initial_ready p h.salt) (groups.flatten ++ last) ⟨0x0A, []⟩ (by
    intro x hx
    rcases List.mem_append.1 hx with hx | hx
    · exact hok x hx
    · rw [List.mem_singleton] at hx
      subst hx
      unfold Record.Ok; decide) rfl rest
  -- the decrypted stream
  have hplace : ∃ g', placeAll (recsOf (groups.flatten ++ last) ([] ++ spare)) Groups.init = .ok g' ∧
      g'.subs.map (·.map Rec.view) = groups ++ [last] ∧
      ∀ i, i ≤ groups.length → g'.pos2.lookup (position groups i) = some i := by
    rw [recsOf_append, placeAll_append]
    obtain ⟨g1, h1, h2⟩ := between_all groups [] Groups.init between_init hw _
      (map_view_recsOf groups.flatten (stream last ++ ([] ++ spare)))
    rw [h1, GoRes.ok_bind]
    rw [List.nil_append] at h2
    exact between_open h2 hlast _ (map_view_recsOf _ _)
  obtain ⟨g, hg1, hg2, hg3⟩ := hplace
  have hgt : gather true ⟨stream (groups.flatten ++ last), spare⟩ Groups.init = .ok (.done g) := by
    have := gather_stream true [] spare (groups.flatten ++ last) (fun r hr => by
      have := hok r hr
      exact ⟨this.1, by have := this.2.1; omega⟩) (fun _ _ _ => rfl) Groups.init
    rw [hg1, GoRes.ok_bind, gather_short true [] spare (by simp), List.append_nil] at this
    exact this
  refine ⟨bookOf mk c g.subs g.pos2, ?_, hg2, ?_, rfl⟩
  · rw [e1] at hdec ⊢
    unfold loadStream
    rw [hgs, GoRes.ok_bind]
    simp only
    rw [u16_here 1 (by decide), GoRes.ok_bind, if_pos rfl, drop_here _ _ _ _ (by simp [leBytes]), GoRes.ok_bind, hnew,
      GoRes.ok_bind, hdec, GoRes.ok_bind]
    unfold loadDecrypted
    rw [hgt, GoRes.ok_bind]
    simp only
    exact processSubs_spec mk g.subs g.pos2 hc g.subs hg2
  · intro i hi
    unfold Book.subIndex bookOf
    simp only
    rw [hg3 i hi]
    rfl

/-- C67: a stream whose first FilePass record has a header that does not match the default password, or another
kind of encryption, is refused with an error. -/
theorem C67_refused (p : Crypto.Prims) (hd : Digest p) (mk : Bytes → Fmt × CellType) (pre : List Record)
    (hpre : Plain pre) (data t spare rest : Bytes) (hdata : 2 ≤ data.length) (hlen : data.length < 65532)
    (hbad : ¬ ∃ h : Header, h.Ok ∧ h.minor = 1 ∧ h.Matches p Crypto.defaultPassword ∧ data = leBytes 2 1 ++ h.bytes) :
    ∃ e, loadStream p mk spare ⟨stream (pre ++ [⟨0x2F, data⟩]) ++ t, rest⟩ = .err e := by
  have hg : gather false ⟨stream (pre ++ [⟨0x2F, data⟩]) ++ t, rest⟩ Groups.init = .ok (.filePass ⟨data, t ++ rest⟩) := by
    rw [stream_append, List.append_assoc]
    obtain ⟨g, _, _, he⟩ := gather_plain hpre false (stream [⟨0x2F, data⟩] ++ t) rest
    rw [he, stream_cons, show stream [] = [] from rfl, List.append_nil, gather_filePass _ ⟨show (0x2F : Nat) < 65536 by decide, hlen⟩ rfl]
  unfold loadStream
  rw [hg, GoRes.ok_bind]
  simp only
  match data, hdata with
  | a :: b :: l, _ =>
    have hu : (⟨a :: b :: l, t ++ rest⟩ : Slice).u16 = .ok (le16 a b) := rfl
    rw [hu, GoRes.ok_bind]
    by_cases h1 : le16 a b = 1
    · rw [if_pos h1]
      have hdr : (⟨a :: b :: l, t ++ rest⟩ : Slice).dropFrom 2 = .ok ⟨l, t ++ rest⟩ := drop_here [a, b] l (t ++ rest) 2 rfl
      rw [hdr, GoRes.ok_bind]
      have hab : a :: b :: l = leBytes 2 1 ++ l := by
        unfold le16 at h1
        have ha := a.toNat_lt
        have hb := b.toNat_lt
        have e1 : a.toNat = 1 := by omega
        have e2 : b.toNat = 0 := by omega
        have e1' : a = 1 := UInt8.toNat_inj.1 e1
        have e2' : b = 0 := UInt8.toNat_inj.1 e2
        rw [e1', e2']
        rfl
      cases hn : Crypto.newBasicRC4 p l with
      | err e => exact ⟨e, rfl⟩
      | panic => exact absurd hn ((C42_verify p hd).2.2 l)
      | ok d =>
        obtain ⟨h, k1, k2, k3, k4⟩ := ((C42_verify p hd).2.1 l).1 ⟨d, hn⟩
        exact absurd ⟨h, k1, k3, k4, by rw [hab, k2]⟩ hbad
    · rw [if_neg h1]
      split
      · exact ⟨_, rfl⟩
      · exact ⟨_, rfl⟩

/-- The FilePass record of the example header. -/
def exFilePass : Record := ⟨0x2F, leBytes 2 1 ++ (exHeader 0).bytes⟩

/-- The example workbook, encrypted: the globals start with BOF, FilePass. -/
def exEncrypted : List (List Record) := [exBof 5 :: exFilePass :: exGroups[0].drop 1, exGroups[1]]

theorem C67_witness : Digest toy ∧ (∀ g ∈ exEncrypted, Substream g) ∧ Headed [exBof 0x10] ∧
    (∀ r ∈ exEncrypted.flatten ++ [exBof 0x10], r.Ok) ∧
    (∃ post, exEncrypted.flatten ++ [exBof 0x10] = [exBof 5] ++ exFilePass :: post) ∧ (exHeader 0).Ok ∧
    (exHeader 0).minor = 1 ∧ (exHeader 0).Matches toy Crypto.defaultPassword ∧
    AllGlobals .empty (exEncrypted ++ [[exBof 0x10]]) exContent ∧
    Plain [exBof 5] ∧ ¬ (exHeader 1).Matches toy Crypto.defaultPassword := by
  refine ⟨toy_digest, ?_, ⟨_, [], rfl, rfl, .nil⟩, ?_, ⟨_, rfl⟩, C42_witness.1, rfl, C42_witness.2.1, ?_, ?_,
    C42_witness.2.2.2⟩
  · intro g hg
    have hw := C44_witness.1.whole
    simp only [exEncrypted, List.mem_cons, List.not_mem_nil, or_false] at hg
    rcases hg with rfl | rfl
    · have pl : ∀ (r : Record) (rs : List Record), (r.type ≠ 0x809 ∧ r.type ≠ 0x0A) → Balanced rs → Balanced (r :: rs) :=
        fun r rs h hb => .plain r rs h.1 h.2 hb
      refine ⟨_, [_, _, _, _, _, _, _, _, _], _, rfl, rfl, rfl, ?_⟩
      iterate 9 refine pl _ _ (by decide) ?_
      exact .nil
    · exact hw _ (List.getElem_mem _)
  · unfold Record.Ok
    decide +kernel
  · refine .cons _ exContent _ _ _ ?_ (.cons _ exContent _ _ _ exContent_parts.2.1 (.cons _ exContent _ _ _ ?_ (.nil _)))
    · have h0 := exContent_parts.1
      have hb : ∀ (rs : List Record), Globals .empty (exBof 5 :: rs) exContent → Globals .empty rs exContent := by
        intro rs h
        generalize hx : exBof 5 :: rs = l at h
        cases h with
        | skip _ _ r rs' h1 h2 =>
          cases hx
          exact h2
        | bof _ _ _ _ _ _ rs' _ _ h2 =>
          simp only [List.cons.injEq] at hx
          rw [hx.2]
          exact h2
        | codePage => simp [exBof] at hx
        | dateMode => simp [exBof] at hx
        | format => simp [exBof] at hx
        | style => simp [exBof] at hx
        | sheet => simp [exBof] at hx
        | strings => simp [exBof] at hx
      refine .bof _ _ 5 _ _ _ _ (by decide) (by decide) (.skip _ _ _ _ (Or.inr (by unfold telling; decide)) ?_)
      exact hb _ h0
    · exact .bof _ _ _ _ _ _ _ (by decide) (by decide) (.nil _)
  · refine ⟨by unfold Record.Fits; decide +kernel, ?_, by decide +kernel⟩
    intro r hr
    cases hr
    rfl

end Grate.Props
