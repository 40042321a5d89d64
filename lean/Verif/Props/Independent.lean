import Verif.Props.Unused

/-! # C116 and C117: the sheets of a file are independent of each other

C116: using some sheets does not change what the others give. C117: the content of some worksheet parts, even if they are damaged,
does not change what the sheets in other parts give. -/

namespace Grate.Props

open Grate Grate.Spec Grate.Api

/-! ### Specification -/

/-- The program asks only for names with a property. -/
def Client.Only (N : Bytes → Prop) : Client → Prop
  | .done => True
  | .get n _ next => N n ∧ ∀ r, (next r).Only N

/-- The source after a program. -/
def Client.leaves (ext : Ext) : Client → Source → GoRes Source
  | .done, src => .ok src
  | .get n use next, src => do
    let (src, r) ← src.get ext n
    let src := match r with
      | .ok c => src.used n (use c)
      | .error _ => src
    (next r).leaves ext src

/-- The worksheets that the relationships of the package and of the workbook name: the identifier, the directory the target is
relative to, and the target. -/
inductive Worksheet (a : Xlsx.Archive) : Bytes → Bytes → Bytes → Prop where
  | package (p : Xlsx.Part) (attrs : List (Bytes × Bytes)) : Xlsx.openXML a (lit "_rels/.rels") = .ok p →
    Xlsx.Tok.start (lit "Relationship") attrs ∈ p.toks → Xlsx.attr attrs (lit "Type") = relType "worksheet" →
    Worksheet a (Xlsx.attr attrs (lit "Id")) [] (Xlsx.attr attrs (lit "Target"))
  | workbook (doc : Bytes) (p : Xlsx.Part) (attrs : List (Bytes × Bytes)) : Related a [] (relType "officeDocument") doc →
    Xlsx.openXML a (Xlsx.relsOf doc) = .ok p → Xlsx.Tok.start (lit "Relationship") attrs ∈ p.toks →
    Xlsx.attr attrs (lit "Type") = relType "worksheet" →
    Worksheet a (Xlsx.attr attrs (lit "Id")) (Xlsx.dirOf doc) (Xlsx.attr attrs (lit "Target"))

/-- The parts in which a sheet of a name may be: those that the identifiers of the sheets of that name refer to. -/
inductive SheetPart (a : Xlsx.Archive) (name : Bytes) : Bytes → Prop where
  | part (dir doc : Bytes) (p : Xlsx.Part) (attrs : List (Bytes × Bytes)) (id dir' t : Bytes) :
    Related a dir (relType "officeDocument") doc → Xlsx.openXML a doc = .ok p → Xlsx.Tok.start (lit "sheet") attrs ∈ p.toks →
    Xlsx.attr? attrs (lit "id") = some id → Xlsx.attr? attrs (lit "name") = some name → Worksheet a id dir' t →
    SheetPart a name (Xlsx.relTarget dir' t)
  /-- The name of the part of a sheet that has none. -/
  | unnamed : SheetPart a name []

/-- What two openings have in common for programs that ask for some of the names only: both give documents that list the same sheets
and answer those programs alike, or the same error, or both crash. -/
def OpenAlikeOn (N : Bytes → Prop) (ext : Ext) (x y : GoRes Source) : Prop :=
  (∃ src src', x = .ok src ∧ y = .ok src' ∧ src'.list = src.list ∧ ∀ p : Client, p.Only N → p.run ext src' = p.run ext src) ∨
  (∃ e, x = .err e ∧ y = .err e) ∨ (x = .panic ∧ y = .panic)

/-- A source of a workbook format. -/
def IsWorkbook : Source → Prop
  | .text _ => False
  | _ => True

/-! ### Documents that agree on some sheets -/

/-- The documents have the same sheets with the names, in the same state. -/
structure AgreeOn (N : Bytes → Prop) (d d' : Xlsx.Doc) : Prop where
  strings : d'.strings = d.strings
  xfs : d'.xfs = d.xfs
  fmt : d'.fmt = d.fmt
  list : d'.list = d.list
  sheets : ∀ (i : Nat) (n : Bytes), d.list[i]? = some n → N n → d'.sheets[i]? = d.sheets[i]?

theorem AgreeOn.refl (N : Bytes → Prop) (d : Xlsx.Doc) : AgreeOn N d d := ⟨rfl, rfl, rfl, rfl, fun _ _ _ _ => rfl⟩

theorem AgreeOn.trans {N : Bytes → Prop} {d d' d'' : Xlsx.Doc} (h : AgreeOn N d d') (h' : AgreeOn N d' d'') : AgreeOn N d d'' :=
  ⟨h'.strings.trans h.strings, h'.xfs.trans h.xfs, h'.fmt.trans h.fmt, h'.list.trans h.list,
    fun i n hi hn => (h'.sheets i n (by rw [h.list]; exact hi) hn).trans (h.sheets i n hi hn)⟩

theorem list_set (l : List Xlsx.XSheet) (i : Nat) (x y : Xlsx.XSheet) (hx : l[i]? = some x) (hy : y.name = x.name) :
    (l.set i y).map (·.name) = l.map (·.name) := by
  refine List.ext_getElem? (fun j => ?_)
  rw [List.getElem?_map, List.getElem?_map, List.getElem?_set]
  split
  · rename_i hj
    subst hj
    obtain ⟨hlt, _⟩ := List.getElem?_eq_some_iff.1 hx
    rw [if_pos hlt, hx]
    simp only [Option.map_some, hy]
  · rfl

/-- A sheet of another name changes. -/
theorem agree_set {N : Bytes → Prop} (d : Xlsx.Doc) (i : Nat) (x : Xlsx.XSheet) (hx : d.sheets[i]? = some x) (hn : ¬ N x.name)
    (st : Option (Sheet × Option GoErr)) : AgreeOn N d { d with sheets := d.sheets.set i { x with state := st } } := by
  refine ⟨rfl, rfl, rfl, list_set _ _ _ _ hx rfl, fun j n hj hN => ?_⟩
  have : i ≠ j := by
    rintro rfl
    unfold Xlsx.Doc.list at hj
    rw [List.getElem?_map, hx] at hj
    cases hj
    exact hn hN
  simp only [List.getElem?_set_ne this]

/-- The same sheet changes in both. -/
theorem agree_set_both {N : Bytes → Prop} {d d' : Xlsx.Doc} (h : AgreeOn N d d') (i : Nat) (x : Xlsx.XSheet)
    (hx : d.sheets[i]? = some x) (hx' : d'.sheets[i]? = some x) (st : Option (Sheet × Option GoErr)) :
    AgreeOn N { d with sheets := d.sheets.set i { x with state := st } }
      { d' with sheets := d'.sheets.set i { x with state := st } } := by
  have l1 : (d.sheets.set i { x with state := st }).map (·.name) = d.list := list_set _ _ _ _ hx rfl
  have l2 : (d'.sheets.set i { x with state := st }).map (·.name) = d'.list := list_set _ _ _ _ hx' rfl
  refine ⟨h.strings, h.xfs, h.fmt, ?_, fun j n hj hN => ?_⟩
  · exact l2.trans (h.list.trans l1.symm)
  · have hj : d.list[j]? = some n := by
      rw [← l1]
      exact hj
    have hs := h.sheets j n hj hN
    obtain ⟨hlt, _⟩ := List.getElem?_eq_some_iff.1 hx
    obtain ⟨hlt', _⟩ := List.getElem?_eq_some_iff.1 hx'
    by_cases e : i = j
    · subst e
      simp only [List.getElem?_set_self hlt, List.getElem?_set_self hlt']
    · simp only [List.getElem?_set_ne e, hs]

theorem find_list (d : Xlsx.Doc) (n : Bytes) : d.find n = d.list.findIdx? (fun m => m == n) := by
  unfold Xlsx.Doc.find Xlsx.Doc.list
  rw [List.findIdx?_map]
  rfl

theorem AgreeOn.find {N : Bytes → Prop} {d d' : Xlsx.Doc} (h : AgreeOn N d d') (n : Bytes) : d'.find n = d.find n := by
  rw [find_list, find_list, h.list]

theorem sheetTok_agree {ext : Ext} {d d' : Xlsx.Doc} (h1 : d'.strings = d.strings) (h2 : d'.xfs = d.xfs) (links : Bytes → Bytes)
    (t : Xlsx.Tok) (st : Xlsx.WsSt) : Xlsx.sheetTok ext d' links t st = Xlsx.sheetTok ext d links t st := by
  cases t with
  | chars v => simp only [Xlsx.sheetTok, Xlsx.charsTok, h1]
  | start n as => simp only [Xlsx.sheetTok, Xlsx.cElem, h2]
  | stop n => rfl
  | other => rfl

theorem sheetLoop_agree {ext : Ext} {d d' : Xlsx.Doc} (h1 : d'.strings = d.strings) (h2 : d'.xfs = d.xfs) (links : Bytes → Bytes) :
    ∀ (ts : List Xlsx.Tok) (st : Xlsx.WsSt), Xlsx.sheetLoop ext d' links ts st = Xlsx.sheetLoop ext d links ts st := by
  intro ts
  induction ts with
  | nil => intro st; rfl
  | cons t ts ih => intro st; simp only [Xlsx.sheetLoop, sheetTok_agree h1 h2, ih]

theorem AgreeOn.parse {N : Bytes → Prop} {d d' : Xlsx.Doc} (h : AgreeOn N d d') (ext : Ext) (a : Xlsx.Archive) (n : Bytes) :
    Xlsx.parseSheet ext a d' n = Xlsx.parseSheet ext a d n := by
  unfold Xlsx.parseSheet
  simp only [h.fmt, sheetLoop_agree h.strings h.xfs]

/-- A sheet that a name finds. -/
theorem AgreeOn.at {N : Bytes → Prop} {d d' : Xlsx.Doc} (h : AgreeOn N d d') {n : Bytes} (hN : N n) {i : Nat}
    (hf : d.find n = some i) : d'.sheets[i]? = d.sheets[i]? := by
  obtain ⟨x, hx, hn, _⟩ := find_some hf
  refine h.sheets i n ?_ hN
  unfold Xlsx.Doc.list
  rw [List.getElem?_map, hx, Option.map_some, hn]

/-- Getting another sheet. -/
theorem get_other {ext : Ext} {a : Xlsx.Archive} {N : Bytes → Prop} (d : Xlsx.Doc) {m : Bytes} (hm : ¬ N m) {src : Source}
    {r : Except GoErr Coll} (h : (Source.xlsx a d).get ext m = .ok (src, r)) : ∃ d', src = .xlsx a d' ∧ AgreeOn N d d' := by
  have key : ∀ d' i e, d.get ext a m = .ok (d', i, e) → AgreeOn N d d' := by
    intro d' i e hg
    unfold Xlsx.Doc.get at hg
    split at hg
    · cases hg
    · rename_i i hf
      obtain ⟨x, hx, hn, _⟩ := find_some hf
      simp only [hx] at hg
      split at hg
      · cases hg
        exact .refl N d
      · obtain ⟨p, _, hp⟩ := GoRes.bind_eq_ok.1 hg
        cases hp
        exact agree_set d i x hx (hn ▸ hm) _
  simp only [Source.get] at h
  split at h
  · cases h
  · cases h; exact ⟨d, rfl, .refl N d⟩
  · rename_i d' i e hg
    cases h
    exact ⟨d', rfl, key _ _ _ hg⟩
  · rename_i d' i hg
    split at h
    · cases h
      exact ⟨d', rfl, key _ _ _ hg⟩
    · cases h

/-- Using another sheet. -/
theorem used_other {a : Xlsx.Archive} {N : Bytes → Prop} (d : Xlsx.Doc) {m : Bytes} (hm : ¬ N m) (c : Coll) :
    ∃ d', (Source.xlsx a d).used m c = .xlsx a d' ∧ AgreeOn N d d' := by
  cases c with
  | sheet s =>
    simp only [Source.used]
    split
    · rename_i i hf
      obtain ⟨x, hx, hn, _⟩ := find_some hf
      simp only [hx]
      exact ⟨_, rfl, agree_set d i x hx (hn ▸ hm) _⟩
    · exact ⟨d, rfl, .refl N d⟩
  | noSheet => exact ⟨d, rfl, .refl N d⟩
  | text f => exact ⟨d, rfl, .refl N d⟩

theorem leaves_xlsx {ext : Ext} {a : Xlsx.Archive} {N : Bytes → Prop} : ∀ (p : Client) (d : Xlsx.Doc) (src : Source),
    p.Only (fun m => ¬ N m) → p.leaves ext (.xlsx a d) = .ok src → ∃ d', src = .xlsx a d' ∧ AgreeOn N d d' := by
  intro p
  induction p with
  | done => intro d src _ h; cases h; exact ⟨d, rfl, .refl N d⟩
  | get n use next ih =>
    intro d src ho h
    unfold Client.leaves at h
    obtain ⟨⟨s1, r⟩, hg, h⟩ := GoRes.bind_eq_ok.1 h
    obtain ⟨d1, rfl, h1⟩ := get_other d ho.1 hg
    cases r with
    | error e =>
      obtain ⟨d2, rfl, h2⟩ := ih _ d1 src (ho.2 _) h
      exact ⟨d2, rfl, h1.trans h2⟩
    | ok c =>
      obtain ⟨d2, e2, h2⟩ := used_other (a := a) d1 ho.1 (use c)
      simp only [e2] at h
      obtain ⟨d3, rfl, h3⟩ := ih _ d2 src (ho.2 _) h
      exact ⟨d3, rfl, h1.trans (h2.trans h3)⟩

/-- Getting a sheet that the documents agree on. -/
theorem get_agreeOn {ext : Ext} {a : Xlsx.Archive} {N : Bytes → Prop} {d d' : Xlsx.Doc} (h : AgreeOn N d d') {n : Bytes} (hN : N n) :
    ((Source.xlsx a d).get ext n = .panic ∧ (Source.xlsx a d').get ext n = .panic) ∨
    ∃ d1 d1' r, AgreeOn N d1 d1' ∧ (Source.xlsx a d).get ext n = .ok (.xlsx a d1, r) ∧
      (Source.xlsx a d').get ext n = .ok (.xlsx a d1', r) := by
  cases hf : d.find n with
  | none =>
    right
    refine ⟨d, d', .error (.msg "xlsx: sheet not found"), h, ?_, ?_⟩
    · simp only [Source.get, Xlsx.Doc.get, hf]
    · simp only [Source.get, Xlsx.Doc.get, h.find, hf]
  | some i =>
    have hs := h.at hN hf
    obtain ⟨x, hx, hn, _⟩ := find_some hf
    have hx' := hs.trans hx
    obtain ⟨nm, dn, st⟩ := x
    cases st with
    | some p =>
      obtain ⟨s, e⟩ := p
      right
      cases e with
      | none =>
        refine ⟨d, d', .ok (.sheet s), h, ?_, ?_⟩
        · simp only [Source.get, Xlsx.Doc.get, hf, hx]
        · simp only [Source.get, Xlsx.Doc.get, h.find, hf, hx']
      | some e =>
        refine ⟨d, d', .error e, h, ?_, ?_⟩
        · simp only [Source.get, Xlsx.Doc.get, hf, hx]
        · simp only [Source.get, Xlsx.Doc.get, h.find, hf, hx']
    | none =>
      have hp := h.parse ext a dn
      obtain ⟨hlt, _⟩ := List.getElem?_eq_some_iff.1 hx
      obtain ⟨hlt', _⟩ := List.getElem?_eq_some_iff.1 hx'
      cases hr : Xlsx.parseSheet ext a d dn with
      | panic =>
        left
        simp only [Source.get, Xlsx.Doc.get, h.find, hf, hx, hx', hp, hr, GoRes.panic_bind, and_self]
      | err e =>
        right
        refine ⟨d, d', .error e, h, ?_, ?_⟩
        · simp only [Source.get, Xlsx.Doc.get, hf, hx, hr, GoRes.err_bind]
        · simp only [Source.get, Xlsx.Doc.get, h.find, hf, hx', hp, hr, GoRes.err_bind]
      | ok p =>
        right
        have hb := agree_set_both h i _ hx hx' (some p)
        obtain ⟨s, e⟩ := p
        cases e with
        | none =>
          refine ⟨_, _, .ok (.sheet s), hb, ?_, ?_⟩
          · simp only [Source.get, Xlsx.Doc.get, hf, hx, hr, GoRes.ok_bind, GoRes.pure_eq, List.getElem?_set_self hlt]
          · simp only [Source.get, Xlsx.Doc.get, h.find, hf, hx', hp, hr, GoRes.ok_bind, GoRes.pure_eq,
              List.getElem?_set_self hlt']
        | some e =>
          refine ⟨_, _, .error e, hb, ?_, ?_⟩
          · simp only [Source.get, Xlsx.Doc.get, hf, hx, hr, GoRes.ok_bind, GoRes.pure_eq]
          · simp only [Source.get, Xlsx.Doc.get, h.find, hf, hx', hp, hr, GoRes.ok_bind, GoRes.pure_eq]

theorem used_agreeOn {a : Xlsx.Archive} {N : Bytes → Prop} {d d' : Xlsx.Doc} (h : AgreeOn N d d') {n : Bytes} (hN : N n) (c : Coll) :
    ∃ d1 d1', AgreeOn N d1 d1' ∧ (Source.xlsx a d).used n c = .xlsx a d1 ∧ (Source.xlsx a d').used n c = .xlsx a d1' := by
  cases c with
  | sheet s =>
    cases hf : d.find n with
    | none => exact ⟨d, d', h, by simp only [Source.used, hf], by simp only [Source.used, h.find, hf]⟩
    | some i =>
      obtain ⟨x, hx, _⟩ := find_some hf
      have hx' := (h.at hN hf).trans hx
      exact ⟨_, _, agree_set_both h i x hx hx' (x.state.map (fun p => (s, p.2))), by simp only [Source.used, hf, hx],
        by simp only [Source.used, h.find, hf, hx']⟩
  | noSheet => exact ⟨d, d', h, rfl, rfl⟩
  | text f => exact ⟨d, d', h, rfl, rfl⟩

theorem run_agreeOn {ext : Ext} {a : Xlsx.Archive} {N : Bytes → Prop} : ∀ (q : Client) (d d' : Xlsx.Doc), AgreeOn N d d' → q.Only N →
    q.run ext (.xlsx a d') = q.run ext (.xlsx a d) := by
  intro q
  induction q with
  | done => intro d d' _ _; rfl
  | get n use next ih =>
    intro d d' h hq
    rcases get_agreeOn (ext := ext) (a := a) h hq.1 with ⟨e1, e2⟩ | ⟨d1, d1', r, h1, e1, e2⟩
    · simp only [Client.run, e1, e2]
    · simp only [Client.run, e1, e2, GoRes.ok_bind]
      cases r with
      | error e => simp only [ih _ d1 d1' h1 (hq.2 _)]
      | ok c =>
        obtain ⟨d2, d2', h2, u1, u2⟩ := used_agreeOn (a := a) h1 hq.1 (use c)
        simp only [u1, u2, ih _ d2 d2' h2 (hq.2 _)]

theorem leaves_xls {ext : Ext} {b : Xls.Book} : ∀ (p : Client) (src : Source), p.leaves ext (.xls b) = .ok src → src = .xls b := by
  intro p
  induction p with
  | done => intro src h; cases h; rfl
  | get n use next ih =>
    intro src h
    unfold Client.leaves at h
    obtain ⟨⟨s1, r⟩, hg, h⟩ := GoRes.bind_eq_ok.1 h
    have e : s1 = .xls b := by
      simp only [Source.get] at hg
      split at hg <;> cases hg <;> rfl
    subst e
    cases r with
    | error e => exact ih _ src h
    | ok c =>
      cases c <;> exact ih _ src h

/-! ### C116 -/

/-- **C116 (workbooks).** After any program that asks for sheets outside a set of names, and uses them in any way, a program that
asks for sheets in that set gets what it would have gotten at first. -/
theorem C116_workbook (ext : Ext) (N : Bytes → Prop) (src src' : Source) (hw : IsWorkbook src) (p : Client)
    (hp : p.Only (fun m => ¬ N m)) (hl : p.leaves ext src = .ok src') (q : Client) (hq : q.Only N) :
    q.run ext src' = q.run ext src := by
  cases src with
  | text f => exact hw.elim
  | xls b => rw [leaves_xls p src' hl]
  | xlsx a d =>
    obtain ⟨d', rfl, h⟩ := leaves_xlsx p d src' hp hl
    exact run_agreeOn q d d' h hq

/-- **C116.** For every source, if both programs ask only for names that `List` reports. -/
theorem C116_listed (ext : Ext) (N : Bytes → Prop) (src src' : Source) (p : Client)
    (hp : p.Only (fun m => ¬ N m ∧ m ∈ src.list)) (hl : p.leaves ext src = .ok src') (q : Client)
    (hq : q.Only (fun m => N m ∧ m ∈ src.list)) : q.run ext src' = q.run ext src := by
  have mono : ∀ (N M : Bytes → Prop), (∀ n, N n → M n) → ∀ p : Client, p.Only N → p.Only M := by
    intro N M h p
    induction p with
    | done => exact id
    | get n use next ih => exact fun hp => ⟨h n hp.1, fun r => ih r (hp.2 r)⟩
  cases src with
  | xls b => exact C116_workbook ext N (.xls b) _ trivial p (mono _ _ (fun _ h => h.1) p hp) hl q (mono _ _ (fun _ h => h.1) q hq)
  | xlsx a d => exact C116_workbook ext N (.xlsx a d) _ trivial p (mono _ _ (fun _ h => h.1) p hp) hl q (mono _ _ (fun _ h => h.1) q hq)
  | text f =>
    cases p with
    | done => cases hl; rfl
    | get m use next =>
      cases q with
      | done => rfl
      | get n use' next' =>
        have h1 : m = Simple.basePath f.filename := List.mem_singleton.1 hp.1.2
        have h2 : n = Simple.basePath f.filename := List.mem_singleton.1 hq.1.2
        exact absurd (h2 ▸ hq.1.1) (h1 ▸ hp.1.1)

/-! ### C117 -/

theorem package_sheets {a : Xlsx.Archive} {p : Xlsx.Part} {st : Xlsx.RelSt} (hp : Xlsx.openXML a (lit "_rels/.rels") = .ok p)
    (h : Xlsx.parseRels [] p ⟨[], []⟩ = .ok st) :
    ∀ x ∈ st.rels, x.1 = Xlsx.tWorksheet → ∃ dir t, Worksheet a x.2.1 dir t ∧ x.2.2 = Xlsx.relTarget dir t := by
  have e := finish_ok h
  subst e
  intro x hx ht
  rcases (relsLoop_from (dir := []) p.toks ⟨[], []⟩).1 x hx with h | ⟨as, hm, e1, e2, e3⟩
  · cases h
  · exact ⟨[], _, e3 ▸ .package p as hp hm (by rw [← e1, ht, relTypes.2.1]), e2⟩

theorem workbook_sheets {a : Xlsx.Archive} {p : Xlsx.Part} {st st' : Xlsx.RelSt}
    (h1 : ∀ x ∈ st.rels, x.1 = Xlsx.tWorksheet → ∃ dir t, Worksheet a x.2.1 dir t ∧ x.2.2 = Xlsx.relTarget dir t)
    (h2 : Related a [] (relType "officeDocument") st.primaryDoc) (hp : Xlsx.openXML a (Xlsx.relsOf st.primaryDoc) = .ok p)
    (h : Xlsx.parseRels (Xlsx.dirOf st.primaryDoc) p st = .ok st') :
    ∀ x ∈ st'.rels, x.1 = Xlsx.tWorksheet → ∃ dir t, Worksheet a x.2.1 dir t ∧ x.2.2 = Xlsx.relTarget dir t := by
  have e := finish_ok h
  subst e
  intro x hx ht
  rcases (relsLoop_from (dir := Xlsx.dirOf st.primaryDoc) p.toks st).1 x hx with h | ⟨as, hm, e1, e2, e3⟩
  · exact h1 x h ht
  · exact ⟨_, _, e3 ▸ .workbook _ p as h2 hp hm (by rw [← e1, ht, relTypes.2.1]), e2⟩

/-- The sheets of an opened document are in the parts of their names. -/
theorem openFile_parts {mk : Bytes → Fmt × CellType} {order : List Bytes → List Bytes} {a : Xlsx.Archive} {d : Xlsx.Doc}
    (h : Xlsx.openFile mk order (.ok a) = .ok d) : ∀ s ∈ d.sheets, SheetPart a s.name s.docname := by
  unfold Xlsx.openFile at h
  obtain ⟨p, hp, h⟩ := GoRes.bind_eq_ok.1 h
  obtain ⟨st, hst, h⟩ := GoRes.bind_eq_ok.1 h
  obtain ⟨f1, f2⟩ := package_from (openPart_ok (notXlsx_ok hp)) (notXlsx_ok hst)
  have f3 := package_sheets (openPart_ok (notXlsx_ok hp)) (notXlsx_ok hst)
  split at h
  · cases h
  · rename_i hne
    have f2 := f2.resolve_left hne
    obtain ⟨p, hp, h⟩ := GoRes.bind_eq_ok.1 h
    obtain ⟨st', hst', h⟩ := GoRes.bind_eq_ok.1 h
    obtain ⟨g1, dir, g2⟩ := workbook_from f1 f2 (openPart_ok hp) hst'
    have g3 := workbook_sheets f3 f2 (openPart_ok hp) hst'
    obtain ⟨p, hp, h⟩ := GoRes.bind_eq_ok.1 h
    obtain ⟨ss, hss, h⟩ := GoRes.bind_eq_ok.1 h
    obtain ⟨_, _, h⟩ := GoRes.bind_eq_ok.1 h
    obtain ⟨_, _, h⟩ := GoRes.bind_eq_ok.1 h
    cases h
    unfold Xlsx.parseWorkbook at hss
    obtain ⟨ss', hl, hf⟩ := GoRes.bind_eq_ok.1 hss
    have e := finish_ok hf
    subst e
    intro s hs
    obtain ⟨as, id, hm, hid, hnm, e⟩ := workbookLoop_from _ _ hl s hs
    rw [e]
    rcases get_mem (t := Xlsx.tWorksheet) (i := id) st'.rels with e0 | hx
    · rw [e0]
      exact .unnamed
    · obtain ⟨dir', t, r1, r2⟩ := g3 _ hx rfl
      simp only at r1 r2
      rw [r2]
      exact .part dir _ _ as id dir' t g2 (openPart_ok hp) hm hid hnm r1

/-- The parts of the sheets with the names are the same in both archives. -/
def KeptOn (N : Bytes → Prop) (a b : Xlsx.Archive) (d : Xlsx.Doc) : Prop :=
  ∀ s ∈ d.sheets, N s.name → SamePart (Xlsx.openXML a s.docname) (Xlsx.openXML b s.docname) ∧
    SamePart (Xlsx.openXML a (Xlsx.relsOf s.docname)) (Xlsx.openXML b (Xlsx.relsOf s.docname))

theorem KeptOn.set {N : Bytes → Prop} {a b : Xlsx.Archive} {d : Xlsx.Doc} (h : KeptOn N a b d) (i : Nat) (x : Xlsx.XSheet)
    (hx : d.sheets[i]? = some x) (st : Option (Sheet × Option GoErr)) :
    KeptOn N a b { d with sheets := d.sheets.set i { x with state := st } } := by
  intro s hs
  rcases List.mem_or_eq_of_mem_set hs with hs | rfl
  · exact h s hs
  · exact h x (List.mem_of_getElem? hx)

theorem docGet_kept {ext : Ext} {N : Bytes → Prop} {a b : Xlsx.Archive} {d : Xlsx.Doc} (hd : KeptOn N a b d) {n : Bytes} (hN : N n) :
    d.get ext a n = d.get ext b n ∧ ∀ d' i e, d.get ext a n = .ok (d', i, e) → KeptOn N a b d' := by
  cases hf : d.find n with
  | none =>
    unfold Xlsx.Doc.get
    simp only [hf]
    exact ⟨trivial, fun _ _ _ h => by cases h⟩
  | some i =>
    obtain ⟨x, hx, hn, _⟩ := find_some hf
    have hs := hd x (List.mem_of_getElem? hx) (hn ▸ hN)
    unfold Xlsx.Doc.get
    simp only [hf, hx]
    split
    · exact ⟨rfl, fun _ _ _ h => by cases h; exact hd⟩
    · refine ⟨by rw [parseSheet_agree d hs.1.alike hs.2.alike], fun d' j e hg => ?_⟩
      obtain ⟨r, _, hr⟩ := GoRes.bind_eq_ok.1 hg
      cases hr
      exact hd.set i x hx _

theorem get_kept {ext : Ext} {N : Bytes → Prop} {a b : Xlsx.Archive} {d : Xlsx.Doc} (hd : KeptOn N a b d) {n : Bytes} (hN : N n) :
    ((Source.xlsx a d).get ext n = .panic ∧ (Source.xlsx b d).get ext n = .panic) ∨
    ∃ d' r, KeptOn N a b d' ∧ (Source.xlsx a d).get ext n = .ok (.xlsx a d', r) ∧
      (Source.xlsx b d).get ext n = .ok (.xlsx b d', r) := by
  obtain ⟨h1, h2⟩ := docGet_kept (ext := ext) hd hN
  simp only [Source.get, ← h1]
  cases hg : d.get ext a n with
  | panic => exact .inl ⟨rfl, rfl⟩
  | err e => exact .inr ⟨d, _, hd, rfl, rfl⟩
  | ok x =>
    obtain ⟨d', i, e⟩ := x
    have hd' := h2 _ _ _ hg
    cases e with
    | some e => exact .inr ⟨d', _, hd', rfl, rfl⟩
    | none =>
      simp only
      split
      · exact .inr ⟨d', _, hd', rfl, rfl⟩
      · exact .inl ⟨rfl, rfl⟩

theorem used_kept {N : Bytes → Prop} {a b : Xlsx.Archive} {d : Xlsx.Doc} (hd : KeptOn N a b d) (n : Bytes) (c : Coll) :
    ∃ d', KeptOn N a b d' ∧ (Source.xlsx a d).used n c = .xlsx a d' ∧ (Source.xlsx b d).used n c = .xlsx b d' := by
  cases c with
  | sheet s =>
    simp only [Source.used]
    split
    · split
      · rename_i i _ _ x hx
        exact ⟨_, hd.set i x hx _, rfl, rfl⟩
      · exact ⟨_, hd, rfl, rfl⟩
    · exact ⟨_, hd, rfl, rfl⟩
  | noSheet => exact ⟨d, hd, rfl, rfl⟩
  | text f => exact ⟨d, hd, rfl, rfl⟩

theorem run_kept {ext : Ext} {N : Bytes → Prop} {a b : Xlsx.Archive} : ∀ (p : Client) (d : Xlsx.Doc), p.Only N → KeptOn N a b d →
    p.run ext (.xlsx b d) = p.run ext (.xlsx a d) := by
  intro p
  induction p with
  | done => intro d _ _; rfl
  | get n use next ih =>
    intro d hp hd
    rcases get_kept (ext := ext) hd hp.1 with ⟨e1, e2⟩ | ⟨d', r, hd', e1, e2⟩
    · simp only [Client.run, e1, e2]
    · simp only [Client.run, e1, e2, GoRes.ok_bind]
      cases r with
      | error e => simp only [ih _ d' (hp.2 _) hd']
      | ok c =>
        obtain ⟨d'', hd'', u1, u2⟩ := used_kept hd' n (use c)
        simp only [u1, u2, ih _ d'' (hp.2 _) hd'']

/-- **C117 (opener).** Two archives that have the same parts for opening, and the same parts (with their relationships) of the
sheets with some names, open alike for programs that ask only for those names, whatever the other parts are: missing, damaged, or
with other content. -/
theorem C117_opener (w : World) (ext : Ext) (N : Bytes → Prop) (fn fn' file file' : Bytes) (hf : w.files fn = .ok file)
    (hf' : w.files fn' = .ok file') (a b : Xlsx.Archive) (hz : w.zip file = .ok a) (hz' : w.zip file' = .ok b)
    (ho : ∀ l, (w.order l).Perm l) (hc : ∀ n, Core a n → SamePart (Xlsx.openXML a n) (Xlsx.openXML b n))
    (hs : ∀ n x, N n → SheetPart a n x → SamePart (Xlsx.openXML a x) (Xlsx.openXML b x) ∧
      SamePart (Xlsx.openXML a (Xlsx.relsOf x)) (Xlsx.openXML b (Xlsx.relsOf x))) :
    OpenAlikeOn N ext (xlsxOpen w fn) (xlsxOpen w fn') := by
  unfold OpenAlikeOn
  simp only [xlsxOpen, hf, hf', hz, hz', ← openFile_agree ho (fun n hn => (hc n hn).alike)]
  cases hd : Xlsx.openFile makeFormatter w.order (.ok a) with
  | ok d =>
    exact .inl ⟨_, _, rfl, rfl, rfl, fun p hp => run_kept p d hp (fun s hm hN => hs _ _ hN (openFile_parts hd s hm))⟩
  | err e => exact .inr (.inl ⟨e, rfl, rfl⟩)
  | panic => exact .inr (.inr ⟨rfl, rfl⟩)

/-- From the opener of xlsx files to `Open` of a program with all formats. -/
theorem open_alikeOn (w : World) (ext : Ext) (N : Bytes → Prop) (fn fn' file file' : Bytes) (hf : w.files fn = .ok file)
    (hf' : w.files fn' = .ok file') (hn : NotCompound file) (hn' : NotCompound file')
    (h : OpenAlikeOn N ext (xlsxOpen w fn) (xlsxOpen w fn'))
    (a : Xlsx.Archive) (d : Xlsx.Doc) (t : List (Grate.Entry Source)) (ht : Shipped w t) (ho : openSrc t fn = .ok (.xlsx a d)) :
    ∃ src', openSrc t fn' = .ok src' ∧ src'.list = (Source.xlsx a d).list ∧
      ∀ p : Client, p.Only N → p.run ext src' = p.run ext (.xlsx a d) := by
  have hx := open_is_xlsx w fn file hf hn a d t ht ho
  rcases h with ⟨src, src', e1, e2, e3, e4⟩ | ⟨e, e1, _⟩ | ⟨e1, _⟩
  · rw [hx] at e1
    cases e1
    exact ⟨src', xlsx_is_open w fn' file' hf' hn' src' t ht e2, e3, e4⟩
  · rw [hx] at e1; cases e1
  · rw [hx] at e1; cases e1

/-- **C117 (Open).** In a program with all formats. -/
theorem C117_open (w : World) (ext : Ext) (N : Bytes → Prop) (fn fn' file file' : Bytes) (hf : w.files fn = .ok file)
    (hf' : w.files fn' = .ok file') (hn : NotCompound file) (hn' : NotCompound file') (a b : Xlsx.Archive)
    (hz : w.zip file = .ok a) (hz' : w.zip file' = .ok b)
    (ho : ∀ l, (w.order l).Perm l) (hc : ∀ n, Core a n → SamePart (Xlsx.openXML a n) (Xlsx.openXML b n))
    (hs : ∀ n x, N n → SheetPart a n x → SamePart (Xlsx.openXML a x) (Xlsx.openXML b x) ∧
      SamePart (Xlsx.openXML a (Xlsx.relsOf x)) (Xlsx.openXML b (Xlsx.relsOf x)))
    (d : Xlsx.Doc) (t : List (Grate.Entry Source)) (ht : Shipped w t) (hop : openSrc t fn = .ok (.xlsx a d)) :
    ∃ src', openSrc t fn' = .ok src' ∧ src'.list = (Source.xlsx a d).list ∧
      ∀ p : Client, p.Only N → p.run ext src' = p.run ext (.xlsx a d) :=
  open_alikeOn w ext N fn fn' file file' hf hf' hn hn' (C117_opener w ext N fn fn' file file' hf hf' a b hz hz' ho hc hs) a d t ht hop

/-! ### Witnesses -/

/-- The hypotheses of C116 are met by the archive of C61: one sheet is gotten and read, then the other is asked for. -/
theorem C116_witness (ext : Ext) (p : Crypto.Prims) (b : Xlsx.Archive) : ∃ src src' : Source,
    xlsxOpen (otherWorld p b) (lit "a.xlsx") = .ok src ∧ src.list = [lit "one", lit "two"] ∧ IsWorkbook src ∧
    (Client.get (lit "one") (fun c => c) (fun _ => .done)).Only (fun m => ¬ m = lit "two" ∧ m ∈ src.list) ∧
    (Client.get (lit "one") (fun c => c) (fun _ => .done)).leaves ext src = .ok src' ∧
    (Client.get (lit "two") (fun c => c) (fun _ => .done)).Only (fun m => m = lit "two" ∧ m ∈ src.list) := by
  obtain ⟨d, hd, hl, hs⟩ : ∃ d, xlsxOpen (otherWorld p b) (lit "a.xlsx") = .ok (.xlsx exZip d) ∧ d.list = [lit "one", lit "two"] ∧
      ∃ src', (Client.get (lit "one") (fun c => c) (fun _ => .done)).leaves ext (.xlsx exZip d) = .ok src' :=
    ⟨_, rfl, rfl, _, rfl⟩
  obtain ⟨src', hs⟩ := hs
  have e : (Source.xlsx exZip d).list = [lit "one", lit "two"] := hl
  refine ⟨_, src', hd, hl, trivial, ⟨⟨by decide +kernel, ?_⟩, fun _ => trivial⟩, hs, ⟨rfl, ?_⟩, fun _ => trivial⟩
  · rw [e]
    exact List.mem_cons_self
  · rw [e]
    exact List.mem_cons_of_mem _ List.mem_cons_self

/-- C116: for a text, which has only one collection and gives it for every name, reading it under one name moves the cursor under
another. -/
theorem C116_text_counterexample (ext : Ext) : ∃ (src src' : Source) (p q : Client),
    p.Only (fun m => ¬ m = lit "b") ∧ q.Only (fun m => m = lit "b") ∧ p.leaves ext src = .ok src' ∧
    q.run ext src' ≠ q.run ext src := by
  refine ⟨.text ⟨lit "t", [[lit "x"], [lit "y"]], -1⟩, .text ⟨lit "t", [[lit "x"], [lit "y"]], 0⟩,
    .get (lit "a") (fun c => match c with
      | .text f => .text f.next.1
      | c => c) (fun _ => .done),
    .get (lit "b") id (fun _ => .done), ⟨by decide +kernel, fun _ => trivial⟩, ⟨rfl, fun _ => trivial⟩, rfl, ?_⟩
  intro h
  have e1 : (Client.get (lit "b") id (fun _ => .done)).run ext (.text ⟨lit "t", [[lit "x"], [lit "y"]], 0⟩) =
      .ok [.ok (.text ⟨lit "t", [[lit "x"], [lit "y"]], 0⟩)] := rfl
  have e2 : (Client.get (lit "b") id (fun _ => .done)).run ext (.text ⟨lit "t", [[lit "x"], [lit "y"]], -1⟩) =
      .ok [.ok (.text ⟨lit "t", [[lit "x"], [lit "y"]], -1⟩)] := rfl
  rw [e1, e2] at h
  simp at h

/-- The archive of C61 with the part of the sheet "one" cut off. -/
def exCutZip : Xlsx.Archive :=
  exZip.map (fun e => if e.1 = lit "xl/worksheets/sheet2.xml" then (e.1, .ok ⟨[], .msg "unexpected EOF"⟩) else e)

theorem exCutZip_same {n : Bytes} (h : n ≠ lit "xl/worksheets/sheet2.xml") : Xlsx.openXML exCutZip n = Xlsx.openXML exZip n := by
  unfold exCutZip
  generalize exZip = a
  induction a with
  | nil => rfl
  | cons e a ih =>
    obtain ⟨m, x⟩ := e
    by_cases hm : m = lit "xl/worksheets/sheet2.xml"
    · subst hm
      simp only [List.map_cons, if_true, Xlsx.openXML, if_neg h.symm]
      exact ih
    · simp only [List.map_cons, if_neg hm, Xlsx.openXML]
      rw [ih]

theorem exZip_core {n : Bytes} (h : Core exZip n) : n ≠ lit "xl/worksheets/sheet2.xml" := by
  cases h with
  | package => decide +kernel
  | workbook dir doc h =>
    rcases exZip_related h with ⟨rfl, _, rfl⟩ | ⟨rfl, ⟨h1, _⟩ | ⟨h1, _⟩⟩
    · decide +kernel
    · exact absurd h1 (by decide +kernel)
    · exact absurd h1 (by decide +kernel)
  | workbookRels doc h =>
    rcases exZip_related h with ⟨_, _, rfl⟩ | ⟨h1, _⟩
    · decide +kernel
    · exact absurd h1 (by decide +kernel)
  | styles dir t h =>
    rcases exZip_related h with ⟨_, h1, _⟩ | ⟨_, ⟨h1, _⟩ | ⟨h1, _⟩⟩ <;> exact absurd h1 (by decide +kernel)
  | strings dir t h =>
    rcases exZip_related h with ⟨_, h1, _⟩ | ⟨rfl, ⟨h1, _⟩ | ⟨_, rfl⟩⟩
    · exact absurd h1 (by decide +kernel)
    · exact absurd h1 (by decide +kernel)
    · decide +kernel

theorem exZip_worksheet {id dir t : Bytes} (h : Worksheet exZip id dir t) :
    dir = lit "xl/" ∧ ((id = lit "rId1" ∧ t = lit "worksheets/sheet1.xml") ∨
      (id = lit "rId2" ∧ t = lit "/xl/worksheets/sheet2.xml")) := by
  cases h with
  | package p as hp hm ht =>
    have e : Xlsx.openXML exZip (lit "_rels/.rels") =
        .ok ⟨[exRelation (relType "officeDocument") (lit "rId1") (lit "xl/workbook.xml")], .eof⟩ := rfl
    rw [e] at hp
    cases hp
    simp only [exRelation, List.mem_singleton, Xlsx.Tok.start.injEq] at hm
    rw [hm.2] at ht
    exact absurd ht (by decide +kernel)
  | workbook doc p as hr hp hm ht =>
    rcases exZip_related hr with ⟨_, _, rfl⟩ | ⟨h, _⟩
    · have e : Xlsx.openXML exZip (Xlsx.relsOf (lit "xl/workbook.xml")) =
          .ok ⟨[exRelation (relType "worksheet") (lit "rId1") (lit "worksheets/sheet1.xml"),
            exRelation (relType "worksheet") (lit "rId2") (lit "/xl/worksheets/sheet2.xml"),
            exRelation (relType "sharedStrings") (lit "rId3") (lit "../strings.xml")], .eof⟩ := rfl
      rw [e] at hp
      cases hp
      simp only [exRelation, List.mem_cons, List.not_mem_nil, or_false, Xlsx.Tok.start.injEq] at hm
      rcases hm with ⟨_, rfl⟩ | ⟨_, rfl⟩ | ⟨_, rfl⟩
      · exact ⟨by decide +kernel, .inl ⟨by decide +kernel, by decide +kernel⟩⟩
      · exact ⟨by decide +kernel, .inr ⟨by decide +kernel, by decide +kernel⟩⟩
      · exact absurd ht (by decide +kernel)
    · exact absurd h (by decide +kernel)

theorem exZip_two {x : Bytes} (h : SheetPart exZip (lit "two") x) : x = lit "xl/worksheets/sheet1.xml" ∨ x = [] := by
  cases h with
  | unnamed => exact .inr rfl
  | part dir doc p as id dir' t hr hp hm hid hnm hw =>
    left
    obtain ⟨hdir, hw⟩ := exZip_worksheet hw
    rw [hdir]
    rcases exZip_related hr with ⟨_, _, rfl⟩ | ⟨_, ⟨h1, _⟩ | ⟨h1, _⟩⟩
    · have e : Xlsx.openXML exZip (lit "xl/workbook.xml") =
          .ok ⟨[.start (lit "sheets") [], .start (lit "sheet") [(lit "name", lit "one"), (lit "id", lit "rId2")],
            .start (lit "sheet") [(lit "name", lit "two"), (lit "id", lit "rId1")]], .eof⟩ := rfl
      rw [e] at hp
      cases hp
      simp only [List.mem_cons, List.not_mem_nil, or_false, Xlsx.Tok.start.injEq] at hm
      rcases hm with ⟨h, _⟩ | ⟨_, rfl⟩ | ⟨_, rfl⟩
      · exact absurd h (by decide +kernel)
      · exact absurd hnm (by decide +kernel)
      · rcases hw with ⟨_, rfl⟩ | ⟨rfl, _⟩
        · decide +kernel
        · exact absurd hid (by decide +kernel)
    · exact absurd h1 (by decide +kernel)
    · exact absurd h1 (by decide +kernel)

/-- The hypotheses of C117 are met by the archive of C61 and the one with a damaged part, for the sheet "two"; and the sheet "one"
of the damaged archive cannot be read. -/
theorem C117_witness (p : Crypto.Prims) (ext : Ext) (t : List (Grate.Entry Source)) (ht : Shipped (otherWorld p exCutZip) t) :
    (∀ n, Core exZip n → SamePart (Xlsx.openXML exZip n) (Xlsx.openXML exCutZip n)) ∧
    (∀ n x, n = lit "two" → SheetPart exZip n x → SamePart (Xlsx.openXML exZip x) (Xlsx.openXML exCutZip x) ∧
      SamePart (Xlsx.openXML exZip (Xlsx.relsOf x)) (Xlsx.openXML exCutZip (Xlsx.relsOf x))) ∧
    (∃ d, openSrc t (lit "a.xlsx") = .ok (.xlsx exZip d) ∧ d.list = [lit "one", lit "two"] ∧
      (∃ s, (Client.get (lit "one") id (fun _ => .done)).run ext (.xlsx exZip d) = .ok [.ok (.sheet s)]) ∧
      (Client.get (lit "one") id (fun _ => .done)).run ext (.xlsx exCutZip d) = .ok [.error (.msg "unexpected EOF")]) := by
  refine ⟨fun n hn => ?_, fun n x hn hx => ?_, ?_⟩
  · rw [exCutZip_same (exZip_core hn)]
    exact SamePart.refl _
  · subst hn
    rcases exZip_two hx with rfl | rfl
    · rw [exCutZip_same (by decide +kernel), exCutZip_same (by decide +kernel)]
      exact ⟨SamePart.refl _, SamePart.refl _⟩
    · rw [exCutZip_same (by decide +kernel), exCutZip_same (by decide +kernel)]
      exact ⟨SamePart.refl _, SamePart.refl _⟩
  · obtain ⟨d, hd, hl, h1, h2⟩ : ∃ d, xlsxOpen (otherWorld p exCutZip) (lit "a.xlsx") = .ok (.xlsx exZip d) ∧
        d.list = [lit "one", lit "two"] ∧
        (∃ s, (Client.get (lit "one") id (fun _ => .done)).run ext (.xlsx exZip d) = .ok [.ok (.sheet s)]) ∧
        (Client.get (lit "one") id (fun _ => .done)).run ext (.xlsx exCutZip d) = .ok [.error (.msg "unexpected EOF")] :=
      ⟨_, rfl, rfl, ⟨_, rfl⟩, rfl⟩
    exact ⟨d, xlsx_is_open _ _ [] rfl (.inr (by decide)) _ t ht hd, hl, h1, h2⟩

end Grate.Props
