import Verif.Lemmas.XlsSafePasses
import Verif.Props.XlsSheet

/-! # C53: malformed workbook streams -/

namespace Grate.Props

open Grate Grate.Spec Grate.Xls

/-- The bytes after the last whole record: too few for a record header, or a record cut inside its data. -/
def CutTail (t : Bytes) : Prop := t.length < 4 ∨ ∃ r : Record, r.Fits ∧ t <+: r.bytes ∧ t.length < r.bytes.length

/-- The substreams of a stream, the last of which may lack its end. -/
structure Substreams (groups : List (List Record)) (last : Option (List Record)) : Prop where
  fits : ∀ r ∈ (groups ++ last.toList).flatten, r.Fits
  whole : ∀ g ∈ groups, Substream g
  headed : ∀ g, last = some g → Headed g
  plain : ∀ r ∈ (groups ++ last.toList).flatten, r.type ≠ 0x2F

theorem substreams_gather {groups : List (List Record)} {last : Option (List Record)} (h : Substreams groups last)
    {t : Bytes} (ht : CutTail t) (rest : Bytes) :
    gather false ⟨stream (groups ++ last.toList).flatten ++ t, rest⟩ Groups.init = .err .unexpectedEOF ∨
    ∃ g, gather false ⟨stream (groups ++ last.toList).flatten ++ t, rest⟩ Groups.init = .ok (.done g) ∧
      g.subs.map (·.map Rec.view) = groups ++ last.toList := by
  have he := gather_stream false t rest _ h.fits (fun r hr hx => absurd hx (h.plain r hr)) Groups.init
  have hplace : ∃ g, placeAll (recsOf (groups ++ last.toList).flatten (t ++ rest)) Groups.init = .ok g ∧
      g.subs.map (·.map Rec.view) = groups ++ last.toList := by
    have hv := map_view_recsOf (groups ++ last.toList).flatten (t ++ rest)
    generalize recsOf (groups ++ last.toList).flatten (t ++ rest) = recs at hv
    rw [List.flatten_append] at hv
    obtain ⟨a, c, rfl, ha, hc⟩ := List.map_eq_append_iff.1 hv
    obtain ⟨g1, e1, b1⟩ := between_all groups [] Groups.init between_init h.whole a ha
    rw [placeAll_append, e1, GoRes.ok_bind]
    rw [List.nil_append] at b1
    cases last with
    | none =>
      have : c = [] := by simpa using hc
      subst this
      exact ⟨g1, rfl, by rw [b1.subs]; simp⟩
    | some s =>
      obtain ⟨g2, e2, h2, _⟩ := between_open b1 (h.headed s rfl) c (by simpa using hc)
      exact ⟨g2, e2, h2⟩
  obtain ⟨g, hg, hs⟩ := hplace
  rw [hg, GoRes.ok_bind] at he
  by_cases h4 : t.length < 4
  · right
    rw [gather_short false t rest h4] at he
    exact ⟨g, he, hs⟩
  · left
    rcases ht with ht | ⟨r, hf, hp, hl⟩
    · exact absurd ht h4
    · rw [gather_cut false r hf t rest hp (by omega) hl] at he
      exact he

/-- C53 for streams of substreams whose records have the bytes they announce: whatever these bytes say, neither loading the
workbook nor getting any of its sheets panics. Nothing needs to be consistent: versions, positions of sheets, string, style
and format numbers, rows, columns, merged regions and links, the order and number of the records and the end of the stream
are arbitrary. Missing: the records excluded by `SafeSheet` and `SafeGlobals`, most of which do panic
(`C53_counterexample`, `C53_string_counterexample`, `C53_short_counterexample`), and ends without a beginning. -/
theorem C53_stream_partial (p : Crypto.Prims) (mk : Bytes → Fmt × CellType) (ext : Ext) {groups : List (List Record)}
    {last : Option (List Record)} (h : Substreams groups last) {k : Nat} (hg : AllSafe 0 (groups ++ last.toList) k)
    (hs : ∀ g ∈ groups ++ last.toList, SafeSheet k false g.tail) {t : Bytes} (ht : CutTail t) (rest : Bytes) :
    loadStream p mk rest ⟨stream (groups ++ last.toList).flatten ++ t, rest⟩ ≠ .panic ∧
    ∀ b, loadStream p mk rest ⟨stream (groups ++ last.toList).flatten ++ t, rest⟩ = .ok b →
      ∀ name, b.get ext name ≠ .panic := by
  rcases substreams_gather h ht rest with he | ⟨g, he, hv⟩
  · have : loadStream p mk rest ⟨stream (groups ++ last.toList).flatten ++ t, rest⟩ = .err .unexpectedEOF := by
      unfold loadStream
      rw [he]
      rfl
    rw [this]
    exact ⟨(fun h => by cases h), fun b hb => by cases hb⟩
  · have e : loadStream p mk rest ⟨stream (groups ++ last.toList).flatten ++ t, rest⟩ = processSubs mk g.subs g.book := by
      unfold loadStream
      rw [he]
      rfl
    have hsafe := processSubs_safe mk hg g.subs hv g.book rfl
    refine ⟨by rw [e]; exact hsafe.no_panic, fun b hb name => ?_⟩
    have hz := load_sized p mk rest _ b hb
    rw [e] at hb
    rw [hb] at hsafe
    have hk : b.strings.length = k := hsafe
    obtain ⟨hsub, hpos⟩ := processSubs_keeps mk _ _ _ hb
    have hsub : b.subs = g.subs := hsub
    have hpos : b.pos2 = g.pos2 := hpos
    have htar : Targets g := gather_targets false _ _ _ g (Nat.le_refl _) (by intro x hx; cases hx) he
    unfold Book.get
    split
    · rename_i s hf
      have hne : g.subs ≠ [] := by
        intro h0
        rw [h0, processSubs_nil] at hb
        cases hb
        cases hf
      have hlt : b.subIndex s.position < b.subs.length := by
        unfold Book.subIndex
        cases hlook : b.pos2.lookup s.position with
        | none =>
          rw [hsub]
          exact List.length_pos_of_ne_nil hne
        | some i =>
          rw [hsub]
          have := lookup_mem hlook
          rw [hpos] at this
          exact htar _ this
      have hi : b.subs[b.subIndex s.position]? = some b.subs[b.subIndex s.position] := List.getElem?_eq_getElem hlt
      have hmem : b.subs[b.subIndex s.position] ∈ b.subs := List.getElem_mem hlt
      generalize b.subs[b.subIndex s.position] = recs at hi hmem
      have hgm : recs.map Rec.view ∈ groups ++ last.toList := by
        rw [← hv, ← hsub]
        exact List.mem_map_of_mem hmem
      have hbof : ∃ o vs, recs.map Rec.view = o :: vs ∧ o.type = 0x809 := by
        rcases List.mem_append.1 hgm with hm | hm
        · obtain ⟨o, inner, z, e, ho, _⟩ := h.whole _ hm
          exact ⟨o, _, e, ho⟩
        · obtain ⟨o, inner, e, ho, _⟩ := h.headed _ (by simpa using hm)
          exact ⟨o, _, e, ho⟩
      obtain ⟨o, vs, hov, ho⟩ := hbof
      have hss := hs _ hgm
      rw [hov, List.tail_cons, ← hk] at hss
      refine (parseSheet_safe ext b _ hi hov ho hss (hz _ hmem) ?_).no_panic
      intro v hv'
      have : v ∈ (groups ++ last.toList).flatten :=
        List.mem_flatten.2 ⟨_, hgm, by rw [hov]; exact List.mem_cons_of_mem _ hv'⟩
      have := (h.fits v this).2
      omega
    · intro h; cases h

/-- A damaged workbook: the sheet has a position where nothing begins; -/
def exDamaged : List (List Record) := [[exBof 5, ⟨0x85, leBytes 4 7 ++ [0, 0] ++ (leBytes 1 1 ++ 0 :: [0x41])⟩, ⟨0x0A, []⟩]]

/-- the other substream has no end, a string number without a string, a formula with a result of no known kind, a link of
an unknown version and a merged region upside down. -/
def exDamagedLast : List Record :=
  [exBof 0x10, ⟨253, [9, 0, 9, 0, 9, 0] ++ (leBytes 4 99 ++ [])⟩,
    ⟨6, cellHead 2 1 1 (7 :: 0 :: 0 :: 0 :: 0 :: 0 :: 0xFF :: 0xFF :: [])⟩,
    ⟨440, [5, 0, 1, 0, 5, 0, 1, 0] ++ (List.replicate 16 1 ++ (leBytes 4 9 ++ []))⟩,
    ⟨229, leBytes 2 1 ++ ([5, 0, 1, 0, 5, 0, 1, 0] ++ [])⟩]

/-- The damaged workbook, cut after a single byte of the next record, meets the hypotheses of `C53_stream_partial`. -/
theorem C53_stream_witness : Substreams exDamaged (some exDamagedLast) ∧
    AllSafe 0 (exDamaged ++ (some exDamagedLast).toList) 0 ∧
    (∀ g ∈ exDamaged ++ (some exDamagedLast).toList, SafeSheet 0 false g.tail) ∧ CutTail [0x0A] := by
  have pl : ∀ (r : Record) (rs : List Record), (r.type ≠ 0x809 ∧ r.type ≠ 0x0A) → Balanced rs → Balanced (r :: rs) :=
    fun r rs h hb => .plain r rs h.1 h.2 hb
  refine ⟨⟨by unfold Record.Fits; decide +kernel, ?_, ?_, by decide +kernel⟩, ?_, ?_, Or.inl (by decide)⟩
  · intro g hg
    simp only [exDamaged, List.mem_singleton] at hg
    subst hg
    exact ⟨_, [_], _, rfl, rfl, rfl, pl _ _ (by decide) .nil⟩
  · intro g hg
    cases hg
    refine ⟨_, _, rfl, rfl, ?_⟩
    iterate 4 refine pl _ _ (by decide) ?_
    exact .nil
  · refine .cons 0 0 0 _ _ ?_ (.cons 0 0 0 _ _ ?_ (.nil 0))
    · refine .bof _ _ _ _ rfl (by decide +kernel) ?_
      refine .sheet _ _ _ (leBytes 4 7 ++ [0, 0]) (leBytes 1 1 ++ 0 :: [0x41]) _ rfl rfl rfl ⟨1, 0, [0x41], by decide, rfl,
        by decide⟩ ?_
      exact .skip _ _ _ _ (Or.inl rfl) (.nil _)
    · refine .bof _ _ _ _ rfl (by decide +kernel) ?_
      iterate 4 refine .skip _ _ _ _ (Or.inr (by unfold telling; decide)) ?_
      exact .nil _
  · intro g hg
    simp only [exDamaged, Option.toList_some, List.mem_append, List.mem_singleton] at hg
    rcases hg with rfl | rfl
    · refine .plain _ _ _ (by decide) (by decide) (by decide) ?_ (.plain _ _ _ (by decide) (by decide) (by decide) ?_ (.nil _))
      · constructor <;> (intro e; exact absurd e (by decide))
      · constructor <;> (intro e; exact absurd e (by decide))
    · refine .plain _ _ _ (by decide) (by decide) (by decide) ?_ ?_
      · constructor <;> intro e <;> first | exact absurd e (by decide) | exact ⟨_, 99, [], rfl, by decide, by decide, rfl⟩
      refine .formulaOther _ _ _ rfl (by decide +kernel) ?_
      refine .plain _ _ _ (by decide) (by decide) (by decide) ?_ ?_
      · constructor <;> intro e <;> first | exact absurd e (by decide) |
          exact ⟨[5, 0, 1, 0, 5, 0, 1, 0], _, rfl, rfl, .version (List.replicate 16 1) 9 [] rfl (by decide) (by decide)⟩
      refine .plain _ _ _ (by decide) (by decide) (by decide) ?_ (.nil _)
      constructor <;> intro e <;> first | exact absurd e (by decide) | exact ⟨1, [5, 0, 1, 0, 5, 0, 1, 0], [], by decide, rfl, rfl⟩

/-- C53 is false for a String record that does not follow a formula: getting such a sheet panics. -/
theorem C53_string_counterexample (ext : Ext) (b : Book)
    (hb : b.subs = [[⟨2057, 0, ⟨[], []⟩⟩, ⟨519, 4, ⟨[1, 0, 0, 0x41], []⟩⟩]]) (name : Bytes)
    (hn : b.sheets = [⟨0, 0, 0, name⟩]) (hp : b.pos2 = [(0, 0)]) : b.get ext name = .panic := by
  unfold Book.get
  rw [hn]
  simp only [List.find?_cons, decide_true]
  unfold Book.subIndex parseSheet
  rw [hp, hb]
  rfl

/-- C53 is false for records that are too short: loading a workbook whose first record, BOF, has a single byte panics when
the stream ends there. -/
theorem C53_short_counterexample (p : Crypto.Prims) (mk : Bytes → Fmt × CellType) :
    loadStream p mk [] ⟨stream [⟨0x809, [0]⟩], []⟩ = .panic := by
  have he : gather false ⟨stream [⟨0x809, [0]⟩], []⟩ Groups.init =
      .ok (.done ⟨[[⟨0x809, 1, ⟨[0], []⟩⟩]], 0, 1, [(0, 0)], 5⟩) := by
    rw [show stream [⟨0x809, [0]⟩] = Record.bytes ⟨0x809, [0]⟩ ++ [] from rfl,
      gather_cons false ⟨0x809, [0]⟩ (by unfold Record.Fits; decide) (by decide)]
    show gather false ⟨[], []⟩ _ = _
    rw [gather_short false [] [] (by simp)]
    rfl
  unfold loadStream
  rw [he]
  rfl

end Grate.Props
