import Verif.Props.Open

/-! # C112: the order of the parts in an xlsx file does not matter -/

namespace Grate.Props

open Grate Grate.Spec Grate.Api

/-- A program that uses a source: it gets a collection by its name, uses it (the function is what becomes of the collection),
and goes on depending on what it got. -/
inductive Client where
  | done
  | get (name : Bytes) (use : Coll → Coll) (next : Except GoErr Coll → Client)

/-- What a program gets, one after the other. -/
def Client.run (ext : Ext) : Client → Source → GoRes (List (Except GoErr Coll))
  | .done, _ => .ok []
  | .get n use next, src => do
    let (src, r) ← src.get ext n
    let src := match r with
      | .ok c => src.used n (use c)
      | .error _ => src
    let rest ← (next r).run ext src
    pure (r :: rest)

/-! ### Archives -/

theorem openXML_perm {a a' : Xlsx.Archive} (h : a.Perm a') (hn : (a.map Prod.fst).Nodup) (name : Bytes) :
    Xlsx.openXML a name = Xlsx.openXML a' name := by
  induction h with
  | nil => rfl
  | cons x _ ih =>
    obtain ⟨n, p⟩ := x
    rw [List.map_cons, List.nodup_cons] at hn
    simp only [Xlsx.openXML, ih hn.2]
  | swap x y l =>
    obtain ⟨n, p⟩ := x
    obtain ⟨m, q⟩ := y
    simp only [List.map_cons, List.nodup_cons, List.mem_cons, not_or] at hn
    simp only [Xlsx.openXML]
    split
    · rename_i e
      rw [if_neg (fun e' => hn.1.1 (e.trans e'.symm))]
    · rfl
  | trans h1 _ ih1 ih2 => exact (ih1 hn).trans (ih2 ((h1.map Prod.fst).nodup_iff.1 hn))

theorem openFile_same {mk : Bytes → Fmt × CellType} {order : List Bytes → List Bytes} {a a' : Xlsx.Archive}
    (h : Xlsx.openXML a = Xlsx.openXML a') : Xlsx.openFile mk order (.ok a) = Xlsx.openFile mk order (.ok a') := by
  have hp : Xlsx.openPart a = Xlsx.openPart a' := by
    funext n
    simp only [Xlsx.openPart, h]
  have hs : ∀ ns st, Xlsx.stylesParts mk a ns st = Xlsx.stylesParts mk a' ns st := by
    intro ns
    induction ns with
    | nil => intro st; rfl
    | cons n ns ih => intro st; simp only [Xlsx.stylesParts, hp, ih]
  have ht : ∀ ns st, Xlsx.stringsParts a ns st = Xlsx.stringsParts a' ns st := by
    intro ns
    induction ns with
    | nil => intro st; rfl
    | cons n ns ih => intro st; simp only [Xlsx.stringsParts, hp, ih]
  simp only [Xlsx.openFile, hp, hs, ht]

theorem docGet_same {ext : Ext} {a a' : Xlsx.Archive} (h : Xlsx.openXML a = Xlsx.openXML a') (d : Xlsx.Doc) (n : Bytes) :
    d.get ext a n = d.get ext a' n := by
  simp only [Xlsx.Doc.get, Xlsx.parseSheet, Xlsx.linkMap, h]

/-- What a source with the other archive does. -/
theorem get_same {ext : Ext} {a a' : Xlsx.Archive} (h : Xlsx.openXML a = Xlsx.openXML a') (d : Xlsx.Doc) (n : Bytes) :
    ((Source.xlsx a d).get ext n = .panic ∧ (Source.xlsx a' d).get ext n = .panic) ∨
    ∃ d' r, (Source.xlsx a d).get ext n = .ok (.xlsx a d', r) ∧ (Source.xlsx a' d).get ext n = .ok (.xlsx a' d', r) := by
  simp only [Source.get, ← docGet_same h]
  cases hg : d.get ext a n with
  | panic => exact .inl ⟨rfl, rfl⟩
  | err e => exact .inr ⟨d, _, rfl, rfl⟩
  | ok x =>
    obtain ⟨d', i, e⟩ := x
    cases e with
    | some e => exact .inr ⟨d', _, rfl, rfl⟩
    | none =>
      simp only
      split
      · exact .inr ⟨d', _, rfl, rfl⟩
      · exact .inl ⟨rfl, rfl⟩

theorem used_same (a a' : Xlsx.Archive) (d : Xlsx.Doc) (n : Bytes) (c : Coll) :
    ∃ d', (Source.xlsx a d).used n c = .xlsx a d' ∧ (Source.xlsx a' d).used n c = .xlsx a' d' := by
  cases c with
  | sheet s =>
    simp only [Source.used]
    split
    · split
      · exact ⟨_, rfl, rfl⟩
      · exact ⟨_, rfl, rfl⟩
    · exact ⟨_, rfl, rfl⟩
  | noSheet => exact ⟨d, rfl, rfl⟩
  | text f => exact ⟨d, rfl, rfl⟩

theorem run_same {ext : Ext} {a a' : Xlsx.Archive} (h : Xlsx.openXML a = Xlsx.openXML a') : ∀ (p : Client) (d : Xlsx.Doc),
    p.run ext (.xlsx a d) = p.run ext (.xlsx a' d) := by
  intro p
  induction p with
  | done => intro d; rfl
  | get n use next ih =>
    intro d
    rcases get_same (ext := ext) h d n with ⟨e1, e2⟩ | ⟨d', r, e1, e2⟩
    · simp only [Client.run, e1, e2]
    · simp only [Client.run, e1, e2, GoRes.ok_bind]
      cases r with
      | error e => simp only [ih]
      | ok c =>
        obtain ⟨d'', u1, u2⟩ := used_same a a' d' n (use c)
        simp only [u1, u2, ih]

theorem opened_by {S : Type} {f : Bytes} {src : S} : ∀ es : List (Grate.Entry S), openSrc es f = .ok src →
    ∃ e ∈ es, e.op f = .ok src := by
  intro es
  induction es with
  | nil => intro h; cases h
  | cons o os ih =>
    intro h
    unfold openSrc openTrace at h
    cases ho : o.op f with
    | ok s =>
      simp only [ho] at h
      cases h
      exact ⟨o, List.mem_cons_self, ho⟩
    | panic => simp only [ho] at h; cases h
    | err e =>
      simp only [ho] at h
      split at h
      · obtain ⟨x, hx, hop⟩ := ih h
        exact ⟨x, List.mem_cons_of_mem _ hx, hop⟩
      · cases h

/-! ### C112 -/

/-- **C112 (opener).** `xlsx.Open` does the same for two archives with the same parts in another order (with distinct names): it
succeeds with documents that list the same sheets and answer every program alike, or fails with the same error. The order in which
Go ranges over maps (`w.order`) is the same for both here; so the two files have the same possible behaviours. -/
theorem C112_opener (w : World) (ext : Ext) (fn fn' file file' : Bytes) (hf : w.files fn = .ok file)
    (hf' : w.files fn' = .ok file') (a a' : Xlsx.Archive) (hz : w.zip file = .ok a) (hz' : w.zip file' = .ok a')
    (hperm : a.Perm a') (hd : (a.map Prod.fst).Nodup) :
    (∃ src src', xlsxOpen w fn = .ok src ∧ xlsxOpen w fn' = .ok src' ∧ src'.list = src.list ∧
      ∀ p : Client, p.run ext src' = p.run ext src) ∨
    (∃ e, xlsxOpen w fn = .err e ∧ xlsxOpen w fn' = .err e) ∨ (xlsxOpen w fn = .panic ∧ xlsxOpen w fn' = .panic) := by
  have h : Xlsx.openXML a = Xlsx.openXML a' := funext (openXML_perm hperm hd)
  simp only [xlsxOpen, hf, hf', hz, hz', ← openFile_same h]
  cases Xlsx.openFile makeFormatter w.order (.ok a) with
  | ok d => exact .inl ⟨_, _, rfl, rfl, rfl, fun p => (run_same h p d).symm⟩
  | err e => exact .inr (.inl ⟨e, rfl, rfl⟩)
  | panic => exact .inr (.inr ⟨rfl, rfl⟩)

/-- **C112 (Open).** In a program with all formats: if `Open` gives an xlsx document for the first file, it gives one for the
second that lists the same sheets and answers every program alike. -/
theorem C112_open (w : World) (ext : Ext) (fn fn' file file' : Bytes) (hf : w.files fn = .ok file) (hf' : w.files fn' = .ok file')
    (hn : NotCompound file) (hn' : NotCompound file') (a a' : Xlsx.Archive) (hz : w.zip file = .ok a) (hz' : w.zip file' = .ok a')
    (hperm : a.Perm a') (hd : (a.map Prod.fst).Nodup) (d : Xlsx.Doc) (t : List (Grate.Entry Source)) (ht : Shipped w t)
    (ho : openSrc t fn = .ok (.xlsx a d)) :
    ∃ src', openSrc t fn' = .ok src' ∧ src'.list = (Source.xlsx a d).list ∧
      ∀ p : Client, p.run ext src' = p.run ext (.xlsx a d) := by
  have key : ∀ fn file, w.files fn = .ok file → NotCompound file → ∀ src, xlsxOpen w fn = .ok src → openSrc t fn = .ok src := by
    intro fn file hf hn src hx
    rw [shipped_open ht]
    simp [openSrc, openTrace, formats, xls_declines w fn file hf hn, hx, GoErr.isNotInFormat]
  have text : ∀ fn, (∃ f, tsvOpen w fn = .ok f ∧ f = .xlsx a d) ∨ (∃ f, csvOpen w fn = .ok f ∧ f = .xlsx a d) → False := by
    rintro fn (⟨f, h1, rfl⟩ | ⟨f, h1, rfl⟩)
    · unfold tsvOpen at h1
      split at h1
      · cases h1
      · obtain ⟨g, _, h2⟩ := GoRes.bind_eq_ok.1 h1
        cases h2
    · unfold csvOpen at h1
      split at h1
      · cases h1
      · obtain ⟨g, _, h2⟩ := GoRes.bind_eq_ok.1 h1
        cases h2
  have hx : xlsxOpen w fn = .ok (.xlsx a d) := by
    rw [shipped_open ht] at ho
    obtain ⟨o, hm, hop⟩ := opened_by _ ho
    simp only [formats, List.mem_cons, List.not_mem_nil, or_false] at hm
    rcases hm with rfl | rfl | rfl | rfl
    · change xlsOpen w fn = _ at hop
      rw [xls_declines w fn file hf hn] at hop
      cases hop
    · exact hop
    · exact absurd (.inl ⟨_, hop, rfl⟩) (text fn)
    · exact absurd (.inr ⟨_, hop, rfl⟩) (text fn)
  rcases C112_opener w ext fn fn' file file' hf hf' a a' hz hz' hperm hd with ⟨src, src', e1, e2, e3, e4⟩ | ⟨e, e1, _⟩ | ⟨e1, _⟩
  · rw [hx] at e1
    cases e1
    exact ⟨src', key fn' file' hf' hn' src' e2, e3, e4⟩
  · rw [hx] at e1; cases e1
  · rw [hx] at e1; cases e1

/-- A system with two files: the archive of C61, and the same with the parts in the opposite order. -/
def orderWorld (p : Crypto.Prims) : World where
  files := fun fn => .ok (if fn = lit "a.xlsx" then [] else [0])
  zip := fun c => .ok (if c = [] then exZip else exZip.reverse)
  csv := fun _ => ([], .eof)
  prims := p
  cap := []
  spare := []
  fuel := 0
  bufs := []
  iter := id
  order := id

/-- The hypotheses of C112 are met by these files, which have six parts and two sheets. -/
theorem C112_witness (p : Crypto.Prims) (t : List (Grate.Entry Source)) (ht : Shipped (orderWorld p) t) :
    (orderWorld p).zip [] = .ok exZip ∧ (orderWorld p).zip [0] = .ok exZip.reverse ∧ exZip.Perm exZip.reverse ∧
    (exZip.map Prod.fst).Nodup ∧ exZip.map Prod.fst ≠ exZip.reverse.map Prod.fst ∧
    ∃ d, openSrc t (lit "a.xlsx") = .ok (.xlsx exZip d) ∧ d.list = [lit "one", lit "two"] := by
  refine ⟨rfl, rfl, (List.reverse_perm _).symm, by decide +kernel, by decide +kernel, ?_⟩
  obtain ⟨d, hd, hl⟩ : ∃ d, xlsxOpen (orderWorld p) (lit "a.xlsx") = .ok (.xlsx exZip d) ∧ d.list = [lit "one", lit "two"] :=
    ⟨_, rfl, rfl⟩
  refine ⟨d, ?_, hl⟩
  rw [shipped_open ht]
  simp [openSrc, openTrace, formats, xls_declines (orderWorld p) (lit "a.xlsx") [] rfl (.inr (by decide)), hd,
    GoErr.isNotInFormat]

end Grate.Props
