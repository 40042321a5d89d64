import Verif.Props.Xlsx

/-! # Properties C60–C62: Office Open XML documents -/

namespace Grate.Props

open Grate Grate.Spec Grate.Xlsx

/-! ### C60: Get -/

theorem find_some {d : Doc} {name : Bytes} {i : Nat} (h : d.find name = some i) :
    ∃ x, d.sheets[i]? = some x ∧ x.name = name ∧ ∀ j < i, ∀ y, d.sheets[j]? = some y → y.name ≠ name := by
  unfold Doc.find at h
  rw [List.findIdx?_eq_some_iff_getElem] at h
  obtain ⟨hlt, h1, h2⟩ := h
  refine ⟨d.sheets[i], List.getElem?_eq_getElem hlt, by simpa using h1, ?_⟩
  intro j hj y hy
  obtain ⟨hjl, rfl⟩ := List.getElem?_eq_some_iff.1 hy
  simpa using h2 j hj

theorem find_of {d : Doc} {name : Bytes} {i : Nat} {x : XSheet} (h1 : d.sheets[i]? = some x) (h2 : x.name = name)
    (h3 : ∀ j < i, ∀ y, d.sheets[j]? = some y → y.name ≠ name) : d.find name = some i := by
  unfold Doc.find
  rw [List.findIdx?_eq_some_iff_getElem]
  obtain ⟨hlt, rfl⟩ := List.getElem?_eq_some_iff.1 h1
  refine ⟨hlt, by simpa using h2, ?_⟩
  intro j hj
  simpa using h3 j hj _ (List.getElem?_eq_getElem (by omega))

/-- C60: a name that `List` does not report gives an error. -/
theorem C60_unknown (ext : Ext) (a : Archive) (d : Doc) (name : Bytes) (h : name ∉ d.list) :
    d.get ext a name = .err (.msg "xlsx: sheet not found") := by
  unfold Doc.get
  cases hf : d.find name with
  | none => rfl
  | some i =>
    obtain ⟨x, h1, h2, _⟩ := find_some hf
    exact absurd (List.mem_map.2 ⟨x, List.mem_of_getElem? h1, h2⟩) h

/-- C60: `Get` succeeds only with the first sheet of the name, and does not change the list of names. -/
theorem C60_first (ext : Ext) (a : Archive) (d d' : Doc) (name : Bytes) (i : Nat) (e : Option GoErr)
    (h : d.get ext a name = .ok (d', i, e)) :
    d.list[i]? = some name ∧ (∀ j < i, d.list[j]? ≠ some name) ∧ d'.list = d.list := by
  unfold Doc.get at h
  cases hf : d.find name with
  | none => rw [hf] at h; cases h
  | some k =>
    obtain ⟨x, h1, h2, h3⟩ := find_some hf
    rw [hf] at h
    simp only [h1] at h
    have key : i = k ∧ d'.list = d.list := by
      cases hs : x.state with
      | some p =>
        rw [hs] at h
        simp only at h
        cases h
        exact ⟨rfl, rfl⟩
      | none =>
        rw [hs] at h
        simp only at h
        rw [GoRes.bind_eq_ok] at h
        obtain ⟨r, _, h⟩ := h
        cases h
        refine ⟨rfl, ?_⟩
        unfold Doc.list
        simp only
        refine List.ext_getElem? (fun j => ?_)
        rw [List.getElem?_map, List.getElem?_map, List.getElem?_set]
        split
        · rename_i hj
          subst hj
          obtain ⟨hlt, _⟩ := List.getElem?_eq_some_iff.1 h1
          rw [if_pos hlt, h1]
          rfl
        · rfl
    obtain ⟨rfl, hl⟩ := key
    refine ⟨by unfold Doc.list; rw [List.getElem?_map, h1, Option.map_some, h2], ?_, hl⟩
    intro j hj he
    unfold Doc.list at he
    rw [List.getElem?_map, Option.map_eq_some_iff] at he
    obtain ⟨y, hy, hn⟩ := he
    exact h3 j hj y hy hn

/-- What can happen to an open document: sheets are gotten, and the cursors of their collections move. -/
inductive Later (ext : Ext) (d : Doc) : Doc → Prop
  | refl : Later ext d d
  | get (d1 d2 : Doc) (a : Archive) (name : Bytes) (i : Nat) (e : Option GoErr) : Later ext d d1 →
      d1.get ext a name = .ok (d2, i, e) → Later ext d d2
  | cursor (d1 : Doc) (j : Nat) (x : XSheet) (s : Sheet) (e : Option GoErr) (k : Int) : Later ext d d1 →
      d1.sheets[j]? = some x → x.state = some (s, e) →
      Later ext d { d1 with sheets := d1.sheets.set j { x with state := some ({ s with curRow := k }, e) } }

/-- The collection of a sheet: its content (without the cursor) and the error of reading it. -/
def Loaded (d : Doc) (i : Nat) (s : Sheet) (e : Option GoErr) : Prop :=
  ∃ x k, d.sheets[i]? = some x ∧ x.state = some ({ s with curRow := k }, e)

theorem get_loaded {ext : Ext} {a : Archive} {d d' : Doc} {name : Bytes} {i : Nat} {e : Option GoErr}
    (h : d.get ext a name = .ok (d', i, e)) : ∃ s, Loaded d' i s e := by
  unfold Doc.get at h
  cases hf : d.find name with
  | none => rw [hf] at h; cases h
  | some k =>
    obtain ⟨x, h1, h2, h3⟩ := find_some hf
    rw [hf] at h
    simp only [h1] at h
    cases hs : x.state with
    | some p =>
      rw [hs] at h
      simp only at h
      cases h
      exact ⟨p.1, x, p.1.curRow, h1, hs⟩
    | none =>
      rw [hs] at h
      simp only at h
      rw [GoRes.bind_eq_ok] at h
      obtain ⟨r, _, h⟩ := h
      cases h
      obtain ⟨hlt, _⟩ := List.getElem?_eq_some_iff.1 h1
      exact ⟨r.1, { x with state := some r }, r.1.curRow, by rw [List.getElem?_set_self hlt], rfl⟩

theorem get_keeps {ext : Ext} {a : Archive} {d d' : Doc} {name : Bytes} {i j : Nat} {e e' : Option GoErr} {s : Sheet}
    (h : d.get ext a name = .ok (d', i, e)) (hl : Loaded d j s e') : Loaded d' j s e' := by
  obtain ⟨y, c, hy, hyl⟩ := hl
  unfold Doc.get at h
  cases hf : d.find name with
  | none => rw [hf] at h; cases h
  | some k =>
    obtain ⟨x, h1, h2, h3⟩ := find_some hf
    rw [hf] at h
    simp only [h1] at h
    cases hs : x.state with
    | some p =>
      rw [hs] at h
      simp only at h
      cases h
      exact ⟨y, c, hy, hyl⟩
    | none =>
      rw [hs] at h
      simp only at h
      rw [GoRes.bind_eq_ok] at h
      obtain ⟨r, _, h⟩ := h
      cases h
      have hne : i ≠ j := by
        rintro rfl
        rw [h1] at hy
        cases hy
        rw [hs] at hyl
        cases hyl
      exact ⟨y, c, by simp only; rw [List.getElem?_set_ne hne]; exact hy, hyl⟩

theorem later_list {ext : Ext} {d d' : Doc} (h : Later ext d d') : d'.list = d.list := by
  induction h with
  | refl => rfl
  | get d1 d2 a name i e _ hg ih => rw [(C60_first ext a d1 d2 name i e hg).2.2, ih]
  | cursor d1 j x s e k _ hx _ ih =>
    rw [← ih]
    unfold Doc.list
    refine List.ext_getElem? (fun m => ?_)
    simp only
    rw [List.getElem?_map, List.getElem?_map, List.getElem?_set]
    split
    · rename_i hj
      subst hj
      obtain ⟨hlt, _⟩ := List.getElem?_eq_some_iff.1 hx
      rw [if_pos hlt, hx]
      rfl
    · rfl

theorem later_loaded {ext : Ext} {d d' : Doc} (h : Later ext d d') {i : Nat} {s : Sheet} {e : Option GoErr}
    (hl : Loaded d i s e) : Loaded d' i s e := by
  induction h with
  | refl => exact hl
  | get d1 d2 a name i e _ hg ih => exact get_keeps hg ih
  | cursor d1 j x s' e' k _ hx hs ih =>
    obtain ⟨y, c, hy, hyl⟩ := ih
    by_cases hj : j = i
    · subst hj
      rw [hx] at hy
      cases hy
      rw [hs] at hyl
      cases hyl
      obtain ⟨hlt, _⟩ := List.getElem?_eq_some_iff.1 hx
      exact ⟨_, k, by simp only; rw [List.getElem?_set_self hlt], rfl⟩
    · exact ⟨y, c, by simp only; rw [List.getElem?_set_ne hj]; exact hy, hyl⟩

/-- C60: getting a sheet again, at any later time, gives the same collection and error; nothing is read (the archive
may have changed) and nothing changes; its content, without the cursor, is what it was. -/
theorem C60_again (ext : Ext) (a : Archive) (d d1 : Doc) (name : Bytes) (i : Nat) (e : Option GoErr)
    (h : d.get ext a name = .ok (d1, i, e)) (d2 : Doc) (hl : Later ext d1 d2) (a' : Archive) :
    d2.get ext a' name = .ok (d2, i, e) ∧ ∃ s, Loaded d1 i s e ∧ Loaded d2 i s e := by
  obtain ⟨s, hs⟩ := get_loaded h
  obtain ⟨y, c, hy, hyl⟩ := later_loaded hl hs
  obtain ⟨h1, h2, h3⟩ := C60_first ext a d d1 name i e h
  have hlist : d2.list = d.list := by rw [later_list hl, h3]
  rw [← hlist] at h1 h2
  unfold Doc.list at h1 h2
  have hn : y.name = name := by
    rw [List.getElem?_map, hy, Option.map_some] at h1
    exact Option.some.inj h1
  have hf : d2.find name = some i := by
    refine find_of hy hn ?_
    intro j hj z hz he
    refine h2 j hj ?_
    rw [List.getElem?_map, hz, Option.map_some, he]
  refine ⟨?_, s, hs, ⟨y, c, hy, hyl⟩⟩
  unfold Doc.get
  rw [hf]
  simp only [hy, hyl]

/-- C60: a name that `List` reports is found: `Get` does not report an error by itself. -/
theorem C60_listed (ext : Ext) (a : Archive) (d : Doc) (name : Bytes) (h : name ∈ d.list) :
    ∃ i x, d.sheets[i]? = some x ∧ x.name = name ∧
      (∀ p, x.state = none → parseSheet ext a d x.docname = .ok p →
        d.get ext a name = .ok ({ d with sheets := d.sheets.set i { x with state := some p } }, i, p.2)) := by
  cases hf : d.find name with
  | none =>
    unfold Doc.find at hf
    rw [List.findIdx?_eq_none_iff] at hf
    obtain ⟨x, hx, hn⟩ := List.mem_map.1 h
    have := hf x hx
    simp [hn] at this
  | some i =>
    obtain ⟨x, h1, h2, _⟩ := find_some hf
    refine ⟨i, x, h1, h2, ?_⟩
    intro p hs hp
    unfold Doc.get
    rw [hf]
    simp only [h1, hs, hp]
    rfl

/-- After `Close` there are no sheets. -/
theorem C60_closed (ext : Ext) (a : Archive) (d : Doc) (name : Bytes) :
    d.close.list = [] ∧ d.close.get ext a name = .err (.msg "xlsx: sheet not found") :=
  ⟨rfl, C60_unknown ext a d.close name (by simp [Doc.list, Doc.close])⟩

/-- A document with two sheets of the same name and one other: the first is gotten, then the other, then the cursor of
the first moves. -/
theorem C60_witness (ext : Ext) (f : Formatter) :
    ∃ (d d1 d2 d3 : Doc) (a : Archive) (x : XSheet) (s : Sheet),
      d = ⟨[], [], [⟨lit "x", lit "p", none⟩, ⟨lit "y", lit "q", none⟩, ⟨lit "x", lit "r", none⟩], [], [], f⟩ ∧
      d.get ext a (lit "x") = .ok (d1, 0, none) ∧ d1.get ext a (lit "y") = .ok (d2, 1, some .eof) ∧
      d2.sheets[0]? = some x ∧ x.state = some (s, none) ∧
      d3 = { d2 with sheets := d2.sheets.set 0 { x with state := some ({ s with curRow := 5 }, none) } } ∧ Later ext d1 d3 :=
  ⟨_, _, _, _, [(lit "p", .ok ⟨[], .eof⟩)], _, _, rfl, rfl, rfl, rfl, rfl, rfl,
    .cursor _ 0 _ _ none 5 (.get _ _ [(lit "p", .ok ⟨[], .eof⟩)] (lit "y") 1 _ .refl rfl) rfl rfl⟩

/-! ### C61: relationships -/

theorem relType_eqs : tWorksheet = relType "worksheet" ∧ tStyles = relType "styles" ∧
    tSharedStrings = relType "sharedStrings" := by decide +kernel

theorem relType_mem : relType "worksheet" ∈ partTypes ∧ relType "styles" ∈ partTypes ∧ relType "sharedStrings" ∈ partTypes := by
  simp [partTypes]

theorem lookup_mem : ∀ (l : List (Bytes × Bytes)) (k v : Bytes), (l.map Prod.fst).Nodup → (k, v) ∈ l → l.lookup k = some v
  | [], _, _, _, h => by cases h
  | (a, b) :: l, k, v, hn, h => by
    rw [List.map_cons, List.nodup_cons] at hn
    rw [List.lookup_cons]
    rcases List.mem_cons.1 h with h' | h'
    · cases h'; simp
    · have : (k == a) = false := by
        rw [beq_eq_false_iff_ne]
        rintro rfl
        exact hn.1 (List.mem_map.2 ⟨_, h', rfl⟩)
      rw [this]
      exact lookup_mem l k v hn.2 h'

theorem order_single {order : List Bytes → List Bytes} (h : ∀ l, (order l).Perm l) :
    order [] = [] ∧ ∀ p, order [p] = [p] := ⟨List.perm_nil.1 (h []), fun p => List.perm_singleton.1 (h [p])⟩

/-- The parts of a document are found through its relationships. -/
theorem C61_open_partial (mk : Bytes → Fmt × CellType) (order : List Bytes → List Bytes) (ho : ∀ l, (order l).Perm l)
    (a : Archive) (dir : List Bytes) (base : Bytes) (b : Book) (h : XlsxFile a dir base b) :
    ∃ d, openFile mk order (.ok a) = .ok d ∧ d.list = b.sheets.map Prod.snd ∧
      (∀ (i : Nat) (id name : Bytes), b.sheets[i]? = some (id, name) → ∃ x, d.sheets[i]? = some x ∧ x.name = name ∧
        x.state = none ∧ ∀ r ∈ b.rels, r.type = relType "worksheet" → r.id = id → x.docname = r.part) ∧
      d.strings = b.strings ∧ d.xfs = b.styles ∧
      d.fmt = b.formats.foldl (fun f a => (f.add mk a.1 a.2).1) Formatter.new := by
  obtain ⟨hdn, hbn, ⟨ts0, before, after, r0, hp0, hr0, ht0, htg0, hlast, hno⟩, ⟨ts1, hp1, hr1⟩, hother, hids, ⟨ts2, hp2, hb2⟩, hsty, hstr⟩ := h
  obtain ⟨a1, a2, a3⟩ := relsLoop_spec (dir := []) (by simp) hr0 ⟨[], []⟩
  generalize hst0 : relsLoop (dirText []) ts0 ⟨[], []⟩ = st0 at a1 a2 a3
  have hprim : st0.primaryDoc = pathOf (dir ++ [base]) := by rw [a2 before after r0 rfl ht0 hlast, htg0]
  obtain ⟨b1, _, b3⟩ := relsLoop_spec hdn hr1 st0
  generalize hst1 : relsLoop (dirText dir) ts1 st0 = st1 at b1 b3
  have hprim1 : st1.primaryDoc = pathOf (dir ++ [base]) := by rw [b3 hother, hprim]
  have hempty : ∀ t ∈ [relType "worksheet", relType "styles", relType "sharedStrings"], t ∈ partTypes →
      ofType t st0.rels = [] := by
    intro t ht hm
    have hf : ((before ++ r0 :: after).filter (fun r => decide (r.type = t))) = [] := by
      rw [List.filter_eq_nil_iff]
      intro x hx he
      exact hno x hx (by rw [of_decide_eq_true he]; exact ht)
    have := a1 t hm (by rw [hf]; simp [ofType])
    rw [hf] at this
    rw [this]
    simp [ofType]
  have hrels : ∀ t ∈ [relType "worksheet", relType "styles", relType "sharedStrings"], t ∈ partTypes →
      ofType t st1.rels = (b.rels.filter (fun r => r.type = t)).map (fun r => (r.id, r.part)) := by
    intro t ht hm
    have := b1 t hm (by
      rw [hempty t ht hm]
      simp only [List.map_nil, List.nil_append]
      exact hids.sublist (List.filter_sublist.map _))
    rw [this, hempty t ht hm, List.nil_append]
  have hw := hrels _ (by simp) relType_mem.1
  have hs := hrels _ (by simp) relType_mem.2.1
  have hx := hrels _ (by simp) relType_mem.2.2
  have hval : ∀ t ∈ [relType "worksheet", relType "styles", relType "sharedStrings"], t ∈ partTypes →
      st1.rels.values t = partsOf b.rels t := by
    intro t ht hm
    rw [values_spec, hrels t ht hm, List.map_map]
    rfl
  have hbook : parseWorkbook st1.rels ⟨ts2, .eof⟩ = .ok (b.sheets.map (fun s => ⟨s.2, st1.rels.get tWorksheet s.1, none⟩)) := by
    unfold parseWorkbook
    rw [workbookLoop_spec st1.rels hb2]
    rfl
  have hstyles : stylesParts mk a (order (st1.rels.values tStyles)) (Formatter.new, []) =
      .ok (b.formats.foldl (fun f a => (f.add mk a.1 a.2).1) Formatter.new, b.styles) := by
    rw [relType_eqs.2.1, hval _ (by simp) relType_mem.2.1]
    rcases hsty with ⟨e, e1, e2⟩ | ⟨p, ts, xfs, e, hp, hsp, e2⟩
    · rw [e, (order_single ho).1, e1, e2]
      rfl
    · rw [e, (order_single ho).2, stylesParts, openPart_has hp, GoRes.ok_bind, C57_styles_partial mk ts _ _ hsp, GoRes.ok_bind,
        e2]
      rfl
  have hstrings : stringsParts a (order (st1.rels.values tSharedStrings)) [] = .ok b.strings := by
    rw [relType_eqs.2.2, hval _ (by simp) relType_mem.2.2]
    rcases hstr with ⟨e, e1⟩ | ⟨p, ts, e, hp, hsp⟩
    · rw [e, (order_single ho).1, e1]
      rfl
    · rw [e, (order_single ho).2, stringsParts, openPart_has hp, GoRes.ok_bind, C56_strings ts _ hsp, GoRes.ok_bind]
      rfl
  have hne : pathOf (dir ++ [base]) ≠ [] := by
    refine path_ne_nil ?_ (by simp)
    intro s hs
    rcases List.mem_append.1 hs with hs | hs
    · exact (hdn s hs).1
    · simp only [List.mem_singleton] at hs; subst hs; exact hbn.1
  refine ⟨⟨st1.rels, st1.primaryDoc, b.sheets.map (fun s => ⟨s.2, st1.rels.get tWorksheet s.1, none⟩), b.strings, b.styles,
    b.formats.foldl (fun f a => (f.add mk a.1 a.2).1) Formatter.new⟩, ?_, ?_, ?_, rfl, rfl, rfl⟩
  · unfold openFile
    simp only
    rw [openPart_has hp0]
    simp only [notXlsx, GoRes.ok_bind]
    have e0 : parseRels [] ⟨ts0, .eof⟩ ⟨[], []⟩ = .ok st0 := by
      unfold parseRels
      rw [show ([] : Bytes) = dirText [] from rfl, show (⟨[], dirText []⟩ : RelSt) = ⟨[], []⟩ from rfl]
      simp only
      rw [hst0]
      rfl
    rw [e0]
    simp only [GoRes.ok_bind]
    rw [if_neg (by rw [hprim]; exact hne), hprim, relsOf_spec dir base hdn hbn.1, openPart_has hp1, GoRes.ok_bind]
    have e1 : parseRels (dirOf (pathOf (dir ++ [base]))) ⟨ts1, .eof⟩ st0 = .ok st1 := by
      unfold parseRels
      rw [dirOf_spec dir base hbn.1]
      simp only
      rw [hst1]
      rfl
    rw [e1, GoRes.ok_bind, hprim1, openPart_has hp2, GoRes.ok_bind, hbook, GoRes.ok_bind, hstyles, GoRes.ok_bind]
    simp only
    rw [hstrings]
    rfl
  · unfold Doc.list
    simp
  · intro i id name hi
    refine ⟨⟨name, st1.rels.get tWorksheet id, none⟩, by simp [hi], rfl, rfl, ?_⟩
    intro r hr ht hid
    simp only
    rw [relType_eqs.1, get_spec, hw, lookup_mem _ id r.part]
    · rfl
    · rw [List.map_map]
      exact hids.sublist (List.filter_sublist.map _)
    · rw [List.mem_map]
      exact ⟨r, List.mem_filter.2 ⟨hr, by simp [ht]⟩, by rw [hid]⟩

/-- C58 for documents, from the archive to the cells: the sheet of the first entry with a name holds what the elements
of the part that its relationship leads to write. -/
theorem C61_sheet_partial (mk : Bytes → Fmt × CellType) (ext : Ext) (order : List Bytes → List Bytes)
    (ho : ∀ l, (order l).Perm l) (a : Archive) (dir : List Bytes) (base : Bytes) (b : Book) (h : XlsxFile a dir base b)
    (i : Nat) (id name : Bytes) (hi : b.sheets[i]? = some (id, name))
    (hf : ∀ (j : Nat) (s : Bytes × Bytes), j < i → b.sheets[j]? = some s → s.2 ≠ name) (r : Relation) (hr : r ∈ b.rels)
    (ht : r.type = relType "worksheet") (hid : r.id = id) (sdir : List Bytes) (sbase : Bytes)
    (hsd : ∀ s ∈ sdir, RealName s) (hsb : PathName sbase) (hpart : r.part = pathOf (sdir ++ [sbase])) (ts : List Tok)
    (hp : HasPart a r.part ts) (ls : List (Bytes × Bytes))
    (hl : (LacksPart a (relsPart sdir sbase) ∧ ls = []) ∨ ∃ us, HasPart a (relsPart sdir sbase) us ∧ LinkToks us ls)
    (m : Nat × Nat) (ws : List Write) (hw : WsPart ext b.strings b.styles (targetOf ls) ts m ws) :
    ∃ d d' s, openFile mk order (.ok a) = .ok d ∧ d.get ext a name = .ok (d', i, none) ∧ Loaded d' i s none ∧
      Holds ext (b.formats.foldl (fun f a => (f.add mk a.1 a.2).1) Formatter.new) ws s ∧
      SizeIs m.1 m.2 ws s ∧ Rectangular s ∧
      ∃ x, d'.sheets[i]? = some x ∧ x.state = some (s, none) := by
  obtain ⟨d, e, hlist, hsheets, hstr, hxfs, hfmt⟩ := C61_open_partial mk order ho a dir base b h
  obtain ⟨x, hx, hxn, hxs, hxd⟩ := hsheets i id name hi
  have hdoc := hxd r hr ht hid
  rw [← hstr, ← hxfs] at hw
  rw [hpart] at hp
  obtain ⟨s, hs, hh, hsz, hrect⟩ := C58_sheet_partial ext a d sdir sbase hsd hsb ts hp ls hl m ws hw
  have hfind : d.find name = some i := by
    refine find_of hx hxn ?_
    intro j hj y hy hn
    have hl2 : d.list[j]? = some name := by unfold Doc.list; rw [List.getElem?_map, hy, Option.map_some, hn]
    rw [hlist, List.getElem?_map, Option.map_eq_some_iff] at hl2
    obtain ⟨z, hz, hzn⟩ := hl2
    exact hf j z hj hz hzn
  obtain ⟨hlt, _⟩ := List.getElem?_eq_some_iff.1 hx
  refine ⟨d, { d with sheets := d.sheets.set i { x with state := some (s, none) } }, s, e, ?_, ?_, ?_, hsz,
    hrect, _, by simp only; rw [List.getElem?_set_self hlt], rfl⟩
  · unfold Doc.get
    rw [hfind]
    simp only [hx, hxs, hdoc, hpart, hs]
    rfl
  · exact ⟨_, s.curRow, by simp only; rw [List.getElem?_set_self hlt], rfl⟩
  · rw [← hfmt]; exact hh

/-- The relationship of an element. -/
def exRelation (type id target : Bytes) : Tok := .start (lit "Relationship") [(lit "Id", id), (lit "Type", type), (lit "Target", target)]

/-- An archive: the workbook part has a directory, one relationship has an absolute target, one leads up a directory. -/
def exZip : Archive :=
  [(lit "_rels/.rels", .ok ⟨[exRelation (relType "officeDocument") (lit "rId1") (lit "xl/workbook.xml")], .eof⟩),
    (lit "xl/_rels/workbook.xml.rels", .ok ⟨[exRelation (relType "worksheet") (lit "rId1") (lit "worksheets/sheet1.xml"),
      exRelation (relType "worksheet") (lit "rId2") (lit "/xl/worksheets/sheet2.xml"),
      exRelation (relType "sharedStrings") (lit "rId3") (lit "../strings.xml")], .eof⟩),
    (lit "xl/workbook.xml", .ok ⟨[.start (lit "sheets") [], .start (lit "sheet") [(lit "name", lit "one"), (lit "id", lit "rId2")],
      .start (lit "sheet") [(lit "name", lit "two"), (lit "id", lit "rId1")]], .eof⟩),
    (lit "strings.xml", .ok ⟨exSharedStrings, .eof⟩),
    (lit "xl/worksheets/sheet1.xml", .ok ⟨exSheetCells.flatMap ACell.toks, .eof⟩),
    (lit "xl/worksheets/sheet2.xml", .ok ⟨[.start (lit "sheetData") [], .stop (lit "sheetData")], .eof⟩)]

/-- Its content. -/
def exXlsxBook : Spec.Book :=
  { rels := [⟨relType "worksheet", lit "rId1", lit "worksheets/sheet1.xml", lit "xl/worksheets/sheet1.xml"⟩,
      ⟨relType "worksheet", lit "rId2", lit "/xl/worksheets/sheet2.xml", lit "xl/worksheets/sheet2.xml"⟩,
      ⟨relType "sharedStrings", lit "rId3", lit "../strings.xml", lit "strings.xml"⟩],
    sheets := [(lit "rId2", lit "one"), (lit "rId1", lit "two")], formats := [], styles := [],
    strings := [lit "one", lit "two", []] }

theorem realName_of {s : Bytes} (h : (s != [] && !s.contains 47 && s != lit "." && s != lit "..") = true) : RealName s := by
  simp only [Bool.and_eq_true, bne_iff_ne, ne_eq, Bool.not_eq_true', List.contains_eq_mem, decide_eq_false_iff_not] at h
  exact ⟨⟨h.1.1.1, h.1.1.2⟩, h.1.2, h.2⟩

theorem exRel_toks {dir : List Bytes} (r : Relation) {ts : List Tok} {rs : List Relation} (h : Refers dir r.target r.part)
    (h' : RelToks dir ts rs) : RelToks dir (exRelation r.type r.id r.target :: ts) (r :: rs) := by
  refine .rel _ r _ _ ?_ ?_ ?_ ?_ h h'
  · unfold Distinct; simp only [List.map_cons, List.map_nil]; decide +kernel
  · unfold Has; simp
  · unfold Has; simp
  · unfold Has; simp

theorem exPartNames : pathOf ([lit "xl"] ++ [lit "workbook.xml"]) = lit "xl/workbook.xml" ∧
    relsPart [lit "xl"] (lit "workbook.xml") = lit "xl/_rels/workbook.xml.rels" := by decide +kernel

/-- The archive meets the hypotheses of `C61_open_partial`. -/
theorem C61_witness : XlsxFile exZip [lit "xl"] (lit "workbook.xml") exXlsxBook where
  dirNames := by
    intro s hs
    simp only [List.mem_singleton] at hs
    subst hs
    exact realName_of (by decide +kernel)
  baseName := realName_of (by decide +kernel)
  root := by
    refine ⟨_, [], [], ⟨relType "officeDocument", lit "rId1", lit "xl/workbook.xml", lit "xl/workbook.xml"⟩,
      ⟨[], _, rfl, by simp⟩, exRel_toks ⟨relType "officeDocument", lit "rId1", lit "xl/workbook.xml", lit "xl/workbook.xml"⟩ ?_ .nil,
      rfl, exPartNames.1.symm, by simp, ?_⟩
    · simp only
      have := Refers.relative (dir := []) [lit "xl", lit "workbook.xml"] [lit "xl", lit "workbook.xml"] (by simp) ?_ ?_ (by simp)
      · have e : pathOf [lit "xl", lit "workbook.xml"] = lit "xl/workbook.xml" := by decide +kernel
        rwa [e] at this
      · intro s hs
        simp only [List.mem_cons, List.not_mem_nil, or_false] at hs
        rcases hs with rfl | rfl <;> exact (realName_of (by decide +kernel)).1
      · exact .down _ _ _ _ (realName_of (by decide +kernel)) (.down _ _ _ _ (realName_of (by decide +kernel)) (.done _))
    · intro x hx
      simp only [List.nil_append, List.mem_singleton] at hx
      subst hx
      decide +kernel
  rels := by
    refine ⟨_, ⟨[_], _, by rw [exPartNames.2]; rfl, ?_⟩, ?_⟩
    · intro e he
      simp only [List.mem_singleton] at he
      subst he
      decide +kernel
    · refine exRel_toks ⟨relType "worksheet", lit "rId1", lit "worksheets/sheet1.xml", lit "xl/worksheets/sheet1.xml"⟩ ?_
        (exRel_toks ⟨relType "worksheet", lit "rId2", lit "/xl/worksheets/sheet2.xml", lit "xl/worksheets/sheet2.xml"⟩ ?_
          (exRel_toks ⟨relType "sharedStrings", lit "rId3", lit "../strings.xml", lit "strings.xml"⟩ ?_ .nil))
      · have := Refers.relative (dir := [lit "xl"]) [lit "worksheets", lit "sheet1.xml"]
          [lit "xl", lit "worksheets", lit "sheet1.xml"] (by simp) ?_ ?_ (by simp)
        · have e : pathOf [lit "worksheets", lit "sheet1.xml"] = lit "worksheets/sheet1.xml" ∧
            pathOf [lit "xl", lit "worksheets", lit "sheet1.xml"] = lit "xl/worksheets/sheet1.xml" := by decide +kernel
          rwa [e.1, e.2] at this
        · intro s hs
          simp only [List.mem_cons, List.not_mem_nil, or_false] at hs
          rcases hs with rfl | rfl <;> exact (realName_of (by decide +kernel)).1
        · exact .down _ _ _ _ (realName_of (by decide +kernel)) (.down _ _ _ _ (realName_of (by decide +kernel)) (.done _))
      · have := Refers.absolute (dir := [lit "xl"]) (lit "xl/worksheets/sheet2.xml")
        have e : 47 :: lit "xl/worksheets/sheet2.xml" = lit "/xl/worksheets/sheet2.xml" := by decide +kernel
        rwa [e] at this
      · have := Refers.relative (dir := [lit "xl"]) [lit "..", lit "strings.xml"] [lit "strings.xml"] (by simp) ?_ ?_ (by simp)
        · have e : pathOf [lit "..", lit "strings.xml"] = lit "../strings.xml" := by decide +kernel
          rwa [e] at this
        · intro s hs
          simp only [List.mem_cons, List.not_mem_nil, or_false] at hs
          rcases hs with rfl | rfl
          · unfold PathName; decide +kernel
          · exact (realName_of (by decide +kernel)).1
        · exact .up [] _ _ _ (.down _ _ _ _ (realName_of (by decide +kernel)) (.done _))
  noOther := by
    intro x hx
    simp only [exXlsxBook, List.mem_cons, List.not_mem_nil, or_false] at hx
    rcases hx with rfl | rfl | rfl <;> decide +kernel
  ids := by simp only [exXlsxBook, List.map_cons, List.map_nil]; decide +kernel
  workbook := by
    refine ⟨_, ⟨[_, _], _, by rw [exPartNames.1]; rfl, ?_⟩, ?_⟩
    · intro e he
      rw [exPartNames.1]
      simp only [List.mem_cons, List.not_mem_nil, or_false] at he
      rcases he with rfl | rfl <;> decide +kernel
    · refine .other _ _ _ (by unfold Starts; decide +kernel) (.sheet _ _ _ _ _ (by unfold Distinct; decide +kernel) ?_ ?_
        (.sheet _ _ _ _ _ (by unfold Distinct; decide +kernel) ?_ ?_ .nil)) <;> unfold Has <;> decide +kernel
  styles := .inl ⟨by unfold partsOf; decide +kernel, rfl, rfl⟩
  strings := by
    refine .inr ⟨lit "strings.xml", exSharedStrings, by unfold partsOf; decide +kernel, ⟨[_, _, _], _, rfl, ?_⟩, C56_witness⟩
    intro e he
    simp only [List.mem_cons, List.not_mem_nil, or_false] at he
    rcases he with rfl | rfl | rfl <;> decide +kernel

/-- C61 is false for an absolute target of the workbook part: it is not found, though the part it names exists. -/
theorem C61_counterexample (mk : Bytes → Fmt × CellType) (order : List Bytes → List Bytes) :
    openFile mk order (.ok [(lit "_rels/.rels", .ok ⟨[exRelation (relType "officeDocument") (lit "rId1") (lit "/xl/workbook.xml")], .eof⟩),
      (lit "xl/_rels/workbook.xml.rels", .ok ⟨[exRelation (relType "worksheet") (lit "rId1") (lit "worksheets/sheet1.xml")], .eof⟩),
      (lit "xl/workbook.xml", .ok ⟨[.start (lit "sheet") [(lit "name", lit "one"), (lit "id", lit "rId1")]], .eof⟩)]) = .err .eof := by
  rfl

/-! ### C62: malformed input -/

theorem finish_ne {α : Type} (x : α) (e : GoErr) : finish x e ≠ .panic := by
  unfold finish; cases finErr e <;> simp

/-- C62 for relationship, workbook and shared string parts: whatever their tokens are, nothing crashes. -/
theorem C62_parts_partial (p : Part) : (∀ basedir st, parseRels basedir p st ≠ .panic) ∧
    (∀ rels, parseWorkbook rels p ≠ .panic) ∧ (∀ ss, parseSharedStrings p ss ≠ .panic) := by
  refine ⟨fun _ _ => finish_ne _ _, fun rels => ?_, fun _ => finish_ne _ _⟩
  have hw : ∀ ts, workbookLoop rels ts ≠ .panic := by
    intro ts
    induction ts with
    | nil => simp [workbookLoop]
    | cons t ts ih =>
      cases t with
      | start n a =>
        rw [workbookLoop]
        split
        · split
          · intro h
            cases hr : workbookLoop rels ts with
            | ok x => rw [hr] at h; cases h
            | err e => rw [hr] at h; cases h
            | panic => exact ih hr
          · simp
        · exact ih
      | stop n => rw [workbookLoop] <;> simp [ih]
      | chars v => rw [workbookLoop] <;> simp [ih]
      | other => rw [workbookLoop] <;> simp [ih]
  unfold parseWorkbook
  intro h
  cases hr : workbookLoop rels p.toks with
  | ok x => rw [hr, GoRes.ok_bind] at h; exact finish_ne _ _ h
  | err e => rw [hr] at h; cases h
  | panic => exact hw _ hr

/-- Style parts without the causes of crashes: `sec` is the list of styles (1: base styles, 2: cell styles) that was
started and not ended; entries are in a list, the base of a cell style is not negative, and the number of cell styles
is a number that memory has room for. -/
inductive StyleSafe : Nat → List Tok → Prop
  | nil (sec : Nat) : StyleSafe sec []
  | other (sec : Nat) (t : Tok) (ts : List Tok) : ¬ Starts [lit "cellStyleXfs", lit "cellXfs", lit "xf"] t →
      ¬ Stops styleLists t → StyleSafe sec ts → StyleSafe sec (t :: ts)
  | stop (sec : Nat) (n : Bytes) (ts : List Tok) : n ∈ styleLists → StyleSafe 0 ts → StyleSafe sec (.stop n :: ts)
  | base (sec : Nat) (a : List (Bytes × Bytes)) (ts : List Tok) : StyleSafe 1 ts →
      StyleSafe sec (.start (lit "cellStyleXfs") a :: ts)
  | cells (sec : Nat) (a : List (Bytes × Bytes)) (n : Nat) (ts : List Tok) : Distinct a → NumAttr a "count" 0 n →
      n ≤ 2 ^ 47 → StyleSafe 2 ts → StyleSafe sec (.start (lit "cellXfs") a :: ts)
  | xfBase (a : List (Bytes × Bytes)) (ts : List Tok) : StyleSafe 1 ts → StyleSafe 1 (.start (lit "xf") a :: ts)
  | xfCell (a : List (Bytes × Bytes)) (n : Nat) (ts : List Tok) : Distinct a → NumAttr a "xfId" 0 n →
      StyleSafe 2 ts → StyleSafe 2 (.start (lit "xf") a :: ts)

theorem index_lt {α : Type} (s : List α) (i : Int) (h0 : 0 ≤ i) (h : i < s.length) : index s i ≠ .panic := by
  unfold index
  rw [if_pos h0, List.getElem?_eq_getElem (by omega)]
  simp

theorem numAttr_nonneg {a : List (Bytes × Bytes)} {k : String} {n : Nat} (hd : Distinct a) (h : NumAttr a k 0 n) :
    0 ≤ (parseInt 64 (attr a (lit k))).1 := by
  rcases h with ⟨h, _⟩ | ⟨s, h, h1, _⟩
  · rw [attr_lacks h]; decide
  · rw [attr_has hd h]; exact parseInt_nonneg h1

theorem stylesLoop_safe (mk : Bytes → Fmt × CellType) {sec : Nat} {ts : List Tok} (h : StyleSafe sec ts) :
    ∀ st : StyleSt, st.sec = sec → stylesLoop mk ts st ≠ .panic := by
  induction h with
  | nil => intro st _; simp [stylesLoop]
  | other sec t ts h1 h2 _ ih =>
    intro st hs
    cases t with
    | start n a =>
      have h := starts_not h1
      rw [stylesLoop]
      unfold styleElem
      by_cases hn : n = lit "numFmt"
      · rw [if_pos hn, GoRes.ok_bind]; exact ih _ hs
      · rw [if_neg hn, if_neg (h _ (by simp)), if_neg (h _ (by simp)), if_neg (h _ (by simp)), GoRes.ok_bind]
        exact ih _ hs
    | stop n =>
      have h := stops_not h2
      rw [stylesLoop, if_neg]
      · exact ih _ hs
      · rintro (e | e)
        · exact h _ (by simp [styleLists]) e
        · exact h _ (by simp [styleLists]) e
    | chars v => rw [stylesLoop] <;> simp [ih st hs]
    | other => rw [stylesLoop] <;> simp [ih st hs]
  | stop sec n ts hn _ ih =>
    intro st hs
    rw [stylesLoop, if_pos (by simpa [styleLists] using hn)]
    exact ih _ rfl
  | base sec a ts _ ih =>
    intro st hs
    rw [stylesLoop_start mk _ a ts st { st with sec := 1 }]
    · exact ih _ rfl
    · unfold styleElem; rw [if_neg lit_sections.1, if_pos rfl]
  | cells sec a n ts hd hn hl _ ih =>
    intro st hs
    rw [stylesLoop_start mk _ a ts st { st with sec := 2, xfs := [] }]
    · exact ih _ rfl
    · unfold styleElem
      rw [if_neg lit_sections.2.1, if_neg lit_sections.2.2, if_pos rfl,
        numAttr_val 64 (by decide) hd hn (by have : 2 ^ 47 < 2 ^ 63 := by decide
                                             omega)]
      unfold makeCap
      rw [if_pos (by omega)]
      rfl
  | xfBase a ts _ ih =>
    intro st hs
    obtain ⟨b, e⟩ := xfElem_base a st hs
    rw [stylesLoop_start mk _ a ts st { st with base := b }]
    · exact ih _ hs
    · rw [styleElem_xf, e]
  | xfCell a n ts hd hn _ ih =>
    intro st hs
    have e : ∃ x, xfElem a st = .ok { st with xfs := x } := by
      unfold xfElem
      simp only
      rw [if_neg (by omega), if_pos hs]
      have h0 := numAttr_nonneg hd hn
      by_cases hl : (st.base.length : Int) > (parseInt 64 (attr a (lit "xfId"))).1
      · rw [if_pos hl]
        unfold index
        rw [if_pos h0, List.getElem?_eq_getElem (by omega)]
        simp only [GoRes.ok_bind]
        exact ⟨_, rfl⟩
      · rw [if_neg hl]
        exact ⟨_, rfl⟩
    obtain ⟨x, e⟩ := e
    rw [stylesLoop_start mk _ a ts st { st with xfs := x }]
    · exact ih _ hs
    · rw [styleElem_xf, e]

/-- C62 for style parts with these causes excluded, whatever else is in them. -/
theorem C62_styles_partial (mk : Bytes → Fmt × CellType) (p : Part) (h : StyleSafe 0 p.toks) (f : Formatter) :
    parseStyles mk p f ≠ .panic := by
  unfold parseStyles
  intro hp
  cases hr : stylesLoop mk p.toks ⟨f, [], [], 0⟩ with
  | ok x => rw [hr, GoRes.ok_bind] at hp; exact finish_ne _ _ hp
  | err e => rw [hr] at hp; cases hp
  | panic => exact stylesLoop_safe mk h _ rfl hr

theorem bind_ne_panic {α β : Type} {x : GoRes α} {f : α → GoRes β} (h1 : x ≠ .panic) (h2 : ∀ a, x = .ok a → f a ≠ .panic) :
    (x >>= f) ≠ .panic := by
  cases x with
  | ok a => exact h2 a rfl
  | err e => intro h; cases h
  | panic => exact absurd rfl h1

theorem openPart_ne (a : Archive) (n : Bytes) : openPart a n ≠ .panic := by
  unfold openPart; cases openXML a n <;> simp

theorem openXML_mem {a : Archive} {n : Bytes} {p : Part} (h : openXML a n = .ok p) : (n, .ok p) ∈ a := by
  induction a with
  | nil => cases h
  | cons e a ih =>
    obtain ⟨m, q⟩ := e
    rw [openXML] at h
    by_cases hm : m = n
    · rw [if_pos hm] at h
      subst hm h
      exact List.mem_cons_self
    · rw [if_neg hm] at h
      exact List.mem_cons_of_mem _ (ih h)

theorem openPart_mem {a : Archive} {n : Bytes} {p : Part} (h : openPart a n = .ok p) : (n, .ok p) ∈ a := by
  unfold openPart at h
  cases ho : openXML a n with
  | ok q => rw [ho] at h; cases h; exact openXML_mem ho
  | error e => rw [ho] at h; cases h

theorem notXlsx_ne {α : Type} {x : GoRes α} (h : x ≠ .panic) : notXlsx x ≠ .panic := by
  cases x with
  | ok a => simp [notXlsx]
  | err e => simp [notXlsx]
  | panic => exact absurd rfl h

/-- C62 for opening: an archive whose parts do not have these causes in them is opened or refused, whatever else is in
it. -/
theorem C62_open_partial (mk : Bytes → Fmt × CellType) (order : List Bytes → List Bytes) (file : Except (GoErr × Bool) Archive)
    (h : ∀ a, file = .ok a → ∀ n p, (n, .ok p) ∈ a → StyleSafe 0 p.toks) : openFile mk order file ≠ .panic := by
  unfold openFile
  match file, h with
  | .error (e, false), _ => simp
  | .error (e, true), _ => simp
  | .ok a, h =>
    have hst : ∀ (ns : List Bytes) (x : Formatter × List Nat), stylesParts mk a ns x ≠ .panic := by
      intro ns
      induction ns with
      | nil => intro x; simp [stylesParts]
      | cons n ns ih =>
        intro x
        rw [stylesParts]
        refine bind_ne_panic (openPart_ne a n) (fun p hp => ?_)
        exact bind_ne_panic (C62_styles_partial mk p (h a rfl n p (openPart_mem hp)) _) (fun y _ => ih y)
    have hss : ∀ (ns : List Bytes) (x : List Bytes), stringsParts a ns x ≠ .panic := by
      intro ns
      induction ns with
      | nil => intro x; simp [stringsParts]
      | cons n ns ih =>
        intro x
        rw [stringsParts]
        refine bind_ne_panic (openPart_ne a n) (fun p hp => ?_)
        exact bind_ne_panic ((C62_parts_partial p).2.2 _) (fun y _ => ih y)
    refine bind_ne_panic (notXlsx_ne (openPart_ne _ _)) (fun p _ => ?_)
    refine bind_ne_panic (notXlsx_ne ((C62_parts_partial p).1 _ _)) (fun st _ => ?_)
    split
    · simp
    · refine bind_ne_panic (openPart_ne _ _) (fun p _ => ?_)
      refine bind_ne_panic ((C62_parts_partial p).1 _ _) (fun st _ => ?_)
      refine bind_ne_panic (openPart_ne _ _) (fun p _ => ?_)
      refine bind_ne_panic ((C62_parts_partial p).2.1 _) (fun ss _ => ?_)
      refine bind_ne_panic (hst _ _) (fun fx _ => ?_)
      refine bind_ne_panic (hss _ _) (fun fx _ => ?_)
      simp [GoRes.pure_eq]

/-- The style part of `C57_witness` has none of these causes. -/
theorem C62_witness : StyleSafe 0 exStylePart := by
  have l1 : ∀ a b : Bytes, Lacks [(lit "numFmtId", a), (lit "applyNumberFormat", b)] "xfId" := by
    intro a b v hv
    simp only [List.mem_cons, Prod.mk.injEq, List.not_mem_nil, or_false] at hv
    rcases hv with ⟨h, _⟩ | ⟨h, _⟩ <;> exact absurd h (by decide +kernel)
  refine .other _ _ _ (by unfold Starts; decide +kernel) (by simp [Stops]) (.other _ _ _ (by simp [Starts]) (by unfold Stops; decide +kernel) ?_)
  refine .base _ _ _ (.xfBase _ _ (.other _ _ _ (by simp [Starts]) (by unfold Stops; decide +kernel) (.stop _ _ _ (by simp [styleLists]) ?_)))
  refine .cells _ _ 3 _ (by unfold Distinct; decide +kernel)
    (numAttr_has (lit "3") (by unfold Has; decide +kernel) (isDigits_of (by decide +kernel)) (by decide +kernel)) (by decide) ?_
  refine .xfCell _ 0 _ (by unfold Distinct; decide +kernel)
    (numAttr_has (lit "0") (by unfold Has; decide +kernel) (isDigits_of (by decide +kernel)) (by decide +kernel)) ?_
  refine .other _ _ _ (by simp [Starts]) (by unfold Stops; decide +kernel) ?_
  refine .xfCell _ 0 _ (by unfold Distinct; decide +kernel) (.inl ⟨l1 _ _, rfl⟩) (.xfCell _ 0 _ (by unfold Distinct; decide +kernel) (.inl ⟨l1 _ _, rfl⟩) ?_)
  exact .stop _ _ _ (by simp [styleLists]) (.nil _)

/-- The result of parsing a worksheet part with the given tokens. -/
def sheetOf (ext : Ext) (ts : List Tok) : GoRes (Sheet × Option GoErr) :=
  parseSheet ext [(lit "s", .ok ⟨ts, .eof⟩)] exXlsxDoc (lit "s")

/-- C62 is false in general: a style outside of the lists, a negative base style, a hyperlink over two cells, a merged
region whose first corner has no row, a shared string that does not exist, an empty boolean, a negative style and a reference in
the other style end the program. -/
theorem C62_counterexample (mk : Bytes → Fmt × CellType) (ext : Ext) (f : Formatter) :
    parseStyles mk ⟨[.start (lit "xf") []], .eof⟩ f = .panic ∧
    parseStyles mk ⟨[.start (lit "cellXfs") [], .start (lit "xf") [(lit "xfId", lit "-1")]], .eof⟩ f = .panic ∧
    parseStyles mk ⟨[.start (lit "cellXfs") [(lit "count", lit "-1")]], .eof⟩ f = .panic ∧
    sheetOf ext [.start (lit "hyperlink") [(lit "ref", lit "A1:B2")]] = .panic ∧
    sheetOf ext [.start (lit "dimension") [(lit "ref", lit "A1:B2")], .start (lit "mergeCell") [(lit "ref", lit "A:B2")]] = .panic ∧
    sheetOf ext [.start (lit "c") [(lit "r", lit "A1"), (lit "t", lit "s")], .chars (lit "7")] = .panic ∧
    sheetOf ext [.start (lit "c") [(lit "r", lit "A1"), (lit "t", lit "b")], .chars []] = .panic ∧
    sheetOf ext [.start (lit "c") [(lit "r", lit "A1"), (lit "s", lit "-1")]] = .panic ∧
    sheetOf ext [.start (lit "c") [(lit "r", lit "AAAAA1C1")], .chars (lit "7")] = .panic := by
  refine ⟨rfl, rfl, rfl, rfl, rfl, rfl, rfl, rfl, rfl⟩

end Grate.Props
