import Verif.Lemmas.Registry

/-! # C01–C03: dispatch by priority, trace, wrapped errors -/

namespace Grate.Props

open Grate Spec

/-- What a registration history exposes to the specification: priorities and openers. -/
def view {S : Type} (hist : List (Entry S)) : List (Int × (Bytes → GoRes S)) :=
  hist.map (fun e => (e.pri, e.op))

/-- **C01.** For every registration history and every table it can lead to (whatever the unstable
sort does), `Open` returns a legal outcome: that of a minimal-priority decisive opener, all openers
of smaller priority having declined — or `ErrUnknownFormat` if all decline. -/
theorem C01_open_dispatch {S : Type} {hist t : List (Entry S)} (h : Reachable hist t) (f : Bytes) :
    LegalOutcome (view hist) f (openSrc t f) := by
  have hp := reachable_perm h
  have hs := reachable_sorted h
  rcases openTrace_cases f t with ⟨hall, ht⟩ | ⟨pre, o, post, hsplit, hpre, hnd, ht⟩
  · right
    refine ⟨?_, by simp [openSrc, ht]⟩
    intro p hp'
    simp only [view, List.mem_map] at hp'
    obtain ⟨e, he, rfl⟩ := hp'
    exact hall e (hp.mem_iff.2 he)
  · left
    have ho : o ∈ hist := hp.mem_iff.1 (by simp [hsplit])
    refine ⟨(o.pri, o.op), ?_, by simp [openSrc, ht], by simpa [openSrc, ht] using hnd, ?_⟩
    · simp only [view, List.mem_map]; exact ⟨o, ho, rfl⟩
    · intro q hq hlt
      simp only [view, List.mem_map] at hq
      obtain ⟨e, he, rfl⟩ := hq
      have het : e ∈ t := hp.mem_iff.2 he
      rw [hsplit] at het hs
      rcases List.mem_append.1 het with hin | hin
      · exact hpre e hin
      · rcases List.mem_cons.1 hin with rfl | hin
        · simp at hlt
        · have := (List.pairwise_cons.1 (List.pairwise_append.1 hs).2.1).1 e hin
          simp only at hlt
          omega

/-- **C01 (order independence).** If priorities are pairwise distinct, the result of `Open` is a
function of the set of registered formats: registration order does not matter. -/
theorem C01_open_order_independent {S : Type} {h1 h2 t1 t2 : List (Entry S)}
    (r1 : Reachable h1 t1) (r2 : Reachable h2 t2) (hp : h1.Perm h2)
    (hd : (h1.map (·.pri)).Nodup) (f : Bytes) : openSrc t1 f = openSrc t2 f := by
  have p12 : t1.Perm t2 := (reachable_perm r1).trans (hp.trans (reachable_perm r2).symm)
  have hd1 : (t1.map (·.pri)).Nodup := ((reachable_perm r1).map _).nodup_iff.2 hd
  have : t1 = t2 := by
    refine List.Perm.eq_of_pairwise ?_ (reachable_sorted r1) (reachable_sorted r2) p12
    intro a b ha hb hab hba
    have hab' : a.pri = b.pri := by omega
    have hb' : b ∈ t1 := p12.mem_iff.2 hb
    -- equal priorities in a list with distinct priorities
    clear r1 r2 hp hd p12
    induction t1 with
    | nil => simp at ha
    | cons x xs ih =>
      simp only [List.map_cons, List.nodup_cons, List.mem_map, not_exists, not_and] at hd1
      rcases List.mem_cons.1 ha with rfl | ha' <;> rcases List.mem_cons.1 hb' with rfl | hb''
      · rfl
      · exact absurd hab'.symm (hd1.1 b hb'')
      · exact absurd hab' (hd1.1 a ha')
      · exact ih hd1.2 ha' hb''
  rw [this]

/-- **C02.** The openers called form a prefix of the priority-sorted table (so each registered entry
is called at most once, in non-decreasing priority order), all but the last declined, and if any
openers were left uncalled the last one called was decisive. -/
theorem C02_open_trace {S : Type} {hist t : List (Entry S)} (h : Reachable hist t) (f : Bytes) :
    (∃ post, (openTrace f t).1 ++ post = t ∧ ((openTrace f t).1 ++ post).Perm hist ∧
      (post ≠ [] → ∃ o, (openTrace f t).1.getLast? = some o ∧ ¬ Declines (o.op f))) ∧
    (openTrace f t).1.Pairwise (fun a b => a.pri ≤ b.pri) ∧
    (∀ e ∈ (openTrace f t).1.dropLast, Declines (e.op f)) := by
  have hp := reachable_perm h
  have hs := reachable_sorted h
  rcases openTrace_cases f t with ⟨hall, ht⟩ | ⟨pre, o, post, hsplit, hpre, hnd, ht⟩
  · refine ⟨⟨[], by simp [ht], by simpa [ht] using hp, by simp⟩, by simpa [ht] using hs, ?_⟩
    intro e he
    rw [ht] at he
    exact hall e (List.dropLast_subset _ he)
  · refine ⟨⟨post, by rw [ht]; simp [hsplit], by rw [ht]; simpa [hsplit] using hp, ?_⟩, ?_, ?_⟩
    · intro _; exact ⟨o, by simp [ht], hnd⟩
    · rw [ht]
      rw [hsplit, show pre ++ o :: post = (pre ++ [o]) ++ post by simp] at hs
      exact (List.pairwise_append.1 hs).1
    · rw [ht]; simpa using hpre

/-- **C02 (ErrUnknownFormat).** Provided no opener itself answers `ErrUnknownFormat`, `Open` reports
`ErrUnknownFormat` exactly when every registered opener declined; and then each was called. -/
theorem C02_unknown_iff {S : Type} {hist t : List (Entry S)} (h : Reachable hist t) (f : Bytes)
    (hno : ∀ e ∈ hist, e.op f ≠ .err .unknownFormat) :
    openSrc t f = .err .unknownFormat ↔ ∀ e ∈ hist, Declines (e.op f) := by
  have hp := reachable_perm h
  rcases openTrace_cases f t with ⟨hall, ht⟩ | ⟨pre, o, post, hsplit, hpre, hnd, ht⟩
  · constructor
    · intro _ e he; exact hall e (hp.mem_iff.2 he)
    · intro _; simp [openSrc, ht]
  · have ho : o ∈ hist := hp.mem_iff.1 (by simp [hsplit])
    constructor
    · intro hu
      exact absurd (by simpa [openSrc, ht] using hu) (hno o ho)
    · intro hall
      exact absurd (hall o ho) hnd

/-- Non-vacuity for C01/C02: the four shipped formats with their priorities, registered in link
order csv, tsv, xls, xlsx; a reachable table exists. -/
def shipped (answer : String → GoRes Nat) : List (Entry Nat) :=
  [⟨"csv", 15, fun _ => answer "csv"⟩, ⟨"tsv", 10, fun _ => answer "tsv"⟩,
   ⟨"xls", 1, fun _ => answer "xls"⟩, ⟨"xlsx", 5, fun _ => answer "xlsx"⟩]

theorem C01_witness (answer : String → GoRes Nat) :
    Reachable (shipped answer)
      [⟨"xls", 1, fun _ => answer "xls"⟩, ⟨"xlsx", 5, fun _ => answer "xlsx"⟩,
       ⟨"tsv", 10, fun _ => answer "tsv"⟩, ⟨"csv", 15, fun _ => answer "csv"⟩] := by
  have h1 : Reachable [⟨"csv", 15, fun _ => answer "csv"⟩] [⟨"csv", 15, fun _ => answer "csv"⟩] :=
    Reachable.register (hist := []) .init ⟨by simp, by simp⟩
  have h2 := Reachable.register (e := ⟨"tsv", 10, fun _ => answer "tsv"⟩)
    (t' := [⟨"tsv", 10, fun _ => answer "tsv"⟩, ⟨"csv", 15, fun _ => answer "csv"⟩]) h1
    ⟨.swap _ _ _, by simp⟩
  have h3 := Reachable.register (e := ⟨"xls", 1, fun _ => answer "xls"⟩)
    (t' := [⟨"xls", 1, fun _ => answer "xls"⟩, ⟨"tsv", 10, fun _ => answer "tsv"⟩,
      ⟨"csv", 15, fun _ => answer "csv"⟩]) h2
    ⟨(List.perm_append_comm (l₁ := [_]) (l₂ := [_, _])), by simp⟩
  have h4 := Reachable.register (e := ⟨"xlsx", 5, fun _ => answer "xlsx"⟩)
    (t' := [⟨"xls", 1, fun _ => answer "xls"⟩, ⟨"xlsx", 5, fun _ => answer "xlsx"⟩,
      ⟨"tsv", 10, fun _ => answer "tsv"⟩, ⟨"csv", 15, fun _ => answer "csv"⟩]) h3
    ⟨.cons _ (List.perm_append_comm (l₁ := [_]) (l₂ := [_, _])), by simp⟩
  exact h4

/-- The witness in use: a file that xls, xlsx decline and tsv fails on is reported with tsv's error. -/
example : ∃ (ans : String → GoRes Nat),
    (∀ e ∈ shipped ans, e.op [] ≠ .err .unknownFormat) ∧
    openSrc [⟨"xls", 1, fun _ => ans "xls"⟩, ⟨"xlsx", 5, fun _ => ans "xlsx"⟩,
       ⟨"tsv", 10, fun _ => ans "tsv"⟩, ⟨"csv", 15, fun _ => ans "csv"⟩] [] = .ok 7 :=
  ⟨fun s => if s = "tsv" then .ok 7 else .err .notInFormat, by
    simp [shipped], by simp [openSrc, openTrace, GoErr.isNotInFormat]⟩

/-! ### C03 -/

/-- Iterated re-wrapping: each step puts the error so far in second position, behind `e` and before
`es`. -/
def rewrap : List (GoErr × List GoErr) → GoErr → GoErr
  | [], x => x
  | (e, es) :: rest, x => wrapErr (e :: rewrap rest x :: es)

/-- **C03.** Wrapping with `ErrNotInFormat` in second place is recognised at every depth; a single
argument is returned as is; the message shown is the first error's. -/
theorem C03_wrap_recognised (layers : List (GoErr × List GoErr)) (x : GoErr) (hx : Recognised x) :
    (rewrap layers x).isNotInFormat = true := by
  rw [isNotInFormat_iff]
  induction layers with
  | nil => exact hx
  | cons p ps ih => exact .second _ _ _ ih

theorem C03_wrap_two (e : GoErr) : (wrapErr [e, .notInFormat]).isNotInFormat = true :=
  C03_wrap_recognised [(e, [])] .notInFormat .here

theorem C03_wrap_one (e : GoErr) : wrapErr [e] = e := rfl

theorem C03_wrap_message (e : GoErr) (es : List GoErr) : (wrapErr (e :: es)).message = e.message := by
  cases es <;> simp [wrapErr, GoErr.message]

/-- Recognition is exactly "reachable through second positions": nothing else is mistaken for
`ErrNotInFormat` (in particular not an error whose *first* component is the sentinel). -/
theorem C03_only_second (e : GoErr) : e.isNotInFormat = true ↔ Recognised e := isNotInFormat_iff e

theorem C03_first_position_not_recognised :
    (wrapErr [.notInFormat, .eof]).isNotInFormat = false := by
  simp [wrapErr, GoErr.isNotInFormat, GoErr.unwrap]

end Grate.Props
