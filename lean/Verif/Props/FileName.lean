import Verif.Props.PartOrder

/-! # C113: formats are recognised by the contents of a file, not by its name -/

namespace Grate.Props

open Grate Grate.Spec Grate.Api

/-- The same for two files except for the name of the file: workbooks are the same, texts have the same rows (not yet read). -/
inductive SameOpened (fn fn' : Bytes) : GoRes Source → GoRes Source → Prop
  | xls (b : Xls.Book) : SameOpened fn fn' (.ok (.xls b)) (.ok (.xls b))
  | xlsx (a : Xlsx.Archive) (d : Xlsx.Doc) : SameOpened fn fn' (.ok (.xlsx a d)) (.ok (.xlsx a d))
  | text (rows : List (List Bytes)) : SameOpened fn fn' (.ok (.text ⟨fn, rows, -1⟩)) (.ok (.text ⟨fn', rows, -1⟩))
  | err (e : GoErr) : SameOpened fn fn' (.err e) (.err e)
  | panic : SameOpened fn fn' .panic .panic

theorem xlsOpen_name {w : World} {fn fn' file : Bytes} (hf : w.files fn = .ok file) (hf' : w.files fn' = .ok file) :
    SameOpened fn fn' (xlsOpen w fn) (xlsOpen w fn') := by
  unfold xlsOpen
  simp only [hf, hf']
  cases Xls.openFile w.prims makeFormatter w.spare w.fuel w.bufs ⟨file, w.cap⟩ with
  | none => exact .panic
  | some r =>
    cases r with
    | ok b => exact .xls b
    | err e => exact .err e
    | panic => exact .panic

theorem xlsxOpen_name {w : World} {fn fn' file : Bytes} (hf : w.files fn = .ok file) (hf' : w.files fn' = .ok file) :
    SameOpened fn fn' (xlsxOpen w fn) (xlsxOpen w fn') := by
  unfold xlsxOpen
  simp only [hf, hf']
  cases w.zip file with
  | error e => exact .err _
  | ok a =>
    simp only
    cases Xlsx.openFile makeFormatter w.order (.ok a) with
    | ok d => exact .xlsx a d
    | err e => exact .err e
    | panic => exact .panic

theorem tsvOpen_name {w : World} {fn fn' file : Bytes} (hf : w.files fn = .ok file) (hf' : w.files fn' = .ok file) :
    SameOpened fn fn' (tsvOpen w fn) (tsvOpen w fn') := by
  unfold tsvOpen
  simp only [hf, hf', Simple.openTSV]
  cases Simple.scanLines file with
  | ok lines =>
    simp only [GoRes.ok_bind]
    split
    · exact .err _
    · exact .text _
  | err e => exact .err e
  | panic => exact .panic

theorem csvOpen_name {w : World} {fn fn' file : Bytes} (hf : w.files fn = .ok file) (hf' : w.files fn' = .ok file) :
    SameOpened fn fn' (csvOpen w fn) (csvOpen w fn') := by
  unfold csvOpen
  simp only [hf, hf', Simple.openCSV]
  cases (w.csv file).2 with
  | parseError => exact .err _
  | eof => simp only; split <;> exact .err _
  | other s => simp only; split <;> exact .err _

theorem openSrc_name {fn fn' : Bytes} : ∀ es : List (Grate.Entry Source), (∀ e ∈ es, SameOpened fn fn' (e.op fn) (e.op fn')) →
    SameOpened fn fn' (openSrc es fn) (openSrc es fn') := by
  intro es
  induction es with
  | nil => intro _; exact .err _
  | cons o os ih =>
    intro h
    have h1 := h o List.mem_cons_self
    have h2 := ih (fun e he => h e (List.mem_cons_of_mem _ he))
    unfold openSrc openTrace
    generalize o.op fn = r, o.op fn' = r' at h1
    cases h1 with
    | xls b => exact .xls b
    | xlsx a d => exact .xlsx a d
    | text rows => exact .text rows
    | panic => exact .panic
    | err e =>
      simp only
      split
      · exact h2
      · exact .err e

/-- **C113.** In every program with all formats, for two files with the same contents, whatever their names and extensions: `Open`
gives the same workbook, or texts with the same rows, or the same error. (For the same order of ranging over maps.) -/
theorem C113_name (w : World) (fn fn' file : Bytes) (hf : w.files fn = .ok file) (hf' : w.files fn' = .ok file)
    (t : List (Grate.Entry Source)) (ht : Shipped w t) : SameOpened fn fn' (openSrc t fn) (openSrc t fn') := by
  rw [shipped_open ht, shipped_open ht]
  refine openSrc_name _ ?_
  intro e he
  simp only [formats, List.mem_cons, List.not_mem_nil, or_false] at he
  rcases he with rfl | rfl | rfl | rfl
  · exact xlsOpen_name hf hf'
  · exact xlsxOpen_name hf hf'
  · exact tsvOpen_name hf hf'
  · exact csvOpen_name hf hf'

/-- What a user sees of it: reading the rows of a text gives the same under both names, and workbooks list the same sheets and answer
every program alike. -/
theorem C113_seen (w : World) (ext : Ext) (fn fn' file : Bytes) (hf : w.files fn = .ok file) (hf' : w.files fn' = .ok file)
    (t : List (Grate.Entry Source)) (ht : Shipped w t) (src : Source) (ho : openSrc t fn = .ok src) :
    ∃ src', openSrc t fn' = .ok src' ∧
      ((src'.list = src.list ∧ ∀ p : Client, p.run ext src' = p.run ext src) ∨
       ∃ f f' rows, src = .text f ∧ src' = .text f' ∧ src.list = [Simple.basePath fn] ∧ src'.list = [Simple.basePath fn'] ∧
        drain Simple.File.next Simple.File.strings (rows.length + 1) f = some (.ok rows) ∧
        drain Simple.File.next Simple.File.strings (rows.length + 1) f' = some (.ok rows)) := by
  have h := C113_name w fn fn' file hf hf' t ht
  rw [ho] at h
  generalize hr : openSrc t fn' = r at h
  cases h with
  | xls b => exact ⟨_, rfl, .inl ⟨rfl, fun _ => rfl⟩⟩
  | xlsx a d => exact ⟨_, rfl, .inl ⟨rfl, fun _ => rfl⟩⟩
  | text rows => exact ⟨_, rfl, .inr ⟨_, _, rows, rfl, rfl, rfl, rfl, C08_drain ⟨fn, rows, -1⟩ rfl, C08_drain ⟨fn', rows, -1⟩ rfl⟩⟩

/-- Two names of the same xlsx file, with the extensions of other formats. -/
theorem C113_witness (p : Crypto.Prims) (t : List (Grate.Entry Source)) (ht : Shipped (orderWorld p) t) :
    (orderWorld p).files (lit "b.xls") = (orderWorld p).files (lit "c.txt") ∧
    ∃ d d', openSrc t (lit "b.xls") = .ok (.xlsx exZip.reverse d) ∧ openSrc t (lit "c.txt") = .ok (.xlsx exZip.reverse d') ∧
      d.list = [lit "one", lit "two"] := by
  have e1 : (orderWorld p).files (lit "b.xls") = .ok [0] := rfl
  have e2 : (orderWorld p).files (lit "c.txt") = .ok [0] := rfl
  obtain ⟨d, hd, hl⟩ : ∃ d, xlsxOpen (orderWorld p) (lit "b.xls") = .ok (.xlsx exZip.reverse d) ∧
      d.list = [lit "one", lit "two"] := ⟨_, rfl, rfl⟩
  have ho : openSrc t (lit "b.xls") = .ok (.xlsx exZip.reverse d) := by
    rw [shipped_open ht]
    simp [openSrc, openTrace, formats, xls_declines (orderWorld p) (lit "b.xls") [0] e1 (.inr (by decide)), hd,
      GoErr.isNotInFormat]
  have h := C113_name (orderWorld p) (lit "b.xls") (lit "c.txt") [0] e1 e2 t ht
  rw [ho] at h
  generalize hr : openSrc t (lit "c.txt") = r at h
  cases h with
  | xlsx a d => exact ⟨rfl, d, d, ho, rfl, hl⟩

end Grate.Props
