import Verif.Props.Dimension

/-! # C145: the declared size of a sheet of an xls file does not matter -/

namespace Grate.Props

open Spec

/-- A Dimensions record (2.4.90): the first row, the row after the last, the first column, the column after the last. -/
structure BinDims where
  r0 : Nat
  r1 : Nat
  c0 : Nat
  c1 : Nat
  tail : Bytes

/-- The record. -/
def BinDims.record (d : BinDims) : Record :=
  ⟨512, leBytes 4 d.r0 ++ (leBytes 4 d.r1 ++ (leBytes 2 d.c0 ++ (leBytes 2 d.c1 ++ d.tail)))⟩

/-- The records of a worksheet with this Dimensions record, if it has one. -/
def withDims (head : List Record) (dim : Option BinDims) (body : List Record) : List Record :=
  match dim with
  | none => head ++ body
  | some d => head ++ d.record :: body

/-- The size that it declares; none is declared without it. -/
def DimsAre (dim : Option BinDims) (m : Nat × Nat) : Prop :=
  match dim with
  | none => m = (0, 0)
  | some d => d.r1 < 2 ^ 32 ∧ d.c1 < 65536 ∧ m = (d.r1, d.c1)

/-- A region that ends in the last row or column of the format is in a sheet that declares to have them. -/
def Region.ReachesIn (m : Nat × Nat) (g : Region) : Prop := (g.r1 = 0xFFFF → m.1 = 65536) ∧ (g.c1 = 0xFF → m.2 = 256)

/-- The merged regions and hyperlinks of the records: those up to the last row or column are in a sheet that has them, and
hyperlinks do not begin outside of the declared size. -/
structure RegionsWithin (m : Nat × Nat) (rs : List Record) : Prop where
  merges : ∀ (gs : List Region) (tail : Bytes), (⟨229, leBytes 2 gs.length ++ (gs.flatMap Region.bytes ++ tail)⟩ : Record) ∈ rs →
    ∀ g ∈ gs, g.Fits → Region.ReachesIn m g
  links : ∀ (g : Region) (tail : Bytes), (⟨440, g.bytes ++ tail⟩ : Record) ∈ rs → g.Fits →
    Region.ReachesIn m g ∧ g.r0 ≤ m.1 ∧ g.c0 ≤ m.2

namespace Dim

theorem clip_reaches {m : Nat × Nat} {g : Region} (h : Region.ReachesIn m g) : g.clip m.1 m.2 = g := by
  obtain ⟨h1, h2⟩ := h
  unfold Region.clip
  cases g
  simp only at h1 h2
  congr
  · split
    · rename_i e; rw [h1 e]; exact e.symm
    · rfl
  · split
    · rename_i e; rw [h2 e]; exact e.symm
    · rfl

theorem clips_reaches {m : Nat × Nat} {g : Region} (h : Region.ReachesIn m g) : g.Clips m.1 m.2 :=
  ⟨fun e => by rw [h.1 e]; decide, fun e => by rw [h.2 e]; decide⟩

theorem regions_size {m m' : Nat × Nat} {gs : List Region} {ws : List Write} (h : AllRegions m.1 m.2 gs ws)
    (hm : ∀ g ∈ gs, g.Fits → Region.ReachesIn m g)
    (hm' : ∀ g ∈ gs, g.Fits → Region.ReachesIn m' g) : AllRegions m'.1 m'.2 gs ws := by
  induction h with
  | nil => exact .nil
  | cons g gs ws vs h1 h2 h3 _ ih =>
    rw [clip_reaches (hm g (by simp) h1)] at h3
    exact .cons g gs ws vs h1 (clips_reaches (hm' g (by simp) h1)) (by rw [clip_reaches (hm' g (by simp) h1)]; exact h3)
      (ih (fun x hx => hm x (by simp [hx])) (fun x hx => hm' x (by simp [hx])))

theorem within_of {m : Nat × Nat} {rs rs' : List Record} (h : RegionsWithin m rs) (hs : ∀ r ∈ rs', r ∈ rs) :
    RegionsWithin m rs' := ⟨fun gs t hr => h.merges gs t (hs _ hr), fun g t hr => h.links g t (hs _ hr)⟩

/-- The same records write the same cells whatever size is declared. -/
theorem recs_size {strings : List (List Nat)} {styles : List Nat} {m m' : Nat × Nat} {rs : List Record} {ws : List Write}
    (h : SheetRecs strings styles m.1 m.2 rs ws) (hm : RegionsWithin m rs) (hm' : RegionsWithin m' rs) :
    SheetRecs strings styles m'.1 m'.2 rs ws := by
  have tl : ∀ {n : Nat × Nat} {r : Record} {rs : List Record}, RegionsWithin n (r :: rs) → RegionsWithin n rs :=
    fun h => within_of h (fun _ hr => List.mem_cons_of_mem _ hr)
  induction h with
  | nil => exact .nil
  | other r rs ws h1 _ ih => exact .other r _ _ h1 (ih (tl hm) (tl hm'))
  | block b e inner rs ws h1 h2 h3 _ ih =>
    exact .block b e inner _ _ h1 h2 h3 (ih (within_of hm (fun r hr => by simp [hr])) (within_of hm' (fun r hr => by simp [hr])))
  | number row col xf bits tail rs ws h1 h2 _ ih => exact .number row col xf bits tail _ _ h1 h2 (ih (tl hm) (tl hm'))
  | rk row col xf r tail rs ws h1 h2 h3 _ ih => exact .rk row col xf r tail _ _ h1 h2 h3 (ih (tl hm) (tl hm'))
  | mulRk row col last us rs ws h1 h2 h3 h4 _ ih => exact .mulRk row col last us _ _ h1 h2 h3 h4 (ih (tl hm) (tl hm'))
  | bool row col xf v tail rs ws h1 _ ih => exact .bool row col xf v tail _ _ h1 (ih (tl hm) (tl hm'))
  | error row col xf v k tail rs ws h1 h2 _ ih => exact .error row col xf v k tail _ _ h1 h2 (ih (tl hm) (tl hm'))
  | label row col xf i t tail rs ws h1 h2 h3 _ ih => exact .label row col xf i t tail _ _ h1 h2 h3 (ih (tl hm) (tl hm'))
  | formula row col xf bits tail rs ws h1 h2 h3 _ ih =>
    exact .formula row col xf bits tail _ _ h1 h2 h3 (ih (tl hm) (tl hm'))
  | formulaBool row col xf u v x y z tail rs ws h1 _ ih =>
    exact .formulaBool row col xf u v x y z tail _ _ h1 (ih (tl hm) (tl hm'))
  | formulaError row col xf u v x y z tail rs ws h1 _ ih =>
    exact .formulaError row col xf u v x y z tail _ _ h1 (ih (tl hm) (tl hm'))
  | formulaBlank row col xf u v x y z tail rs ws h1 _ ih =>
    exact .formulaBlank row col xf u v x y z tail _ _ h1 (ih (tl hm) (tl hm'))
  | formulaText row col xf count u v x y z tail mid p ps rs ws h1 h2 h3 h4 h5 h6 h7 h8 _ ih =>
    exact .formulaText row col xf count u v x y z tail mid p ps _ _ h1 h2 h3 h4 h5 h6 h7 h8
      (ih (within_of hm (fun r hr => by simp [hr])) (within_of hm' (fun r hr => by simp [hr])))
  | merge gs tail us rs ws h1 h2 _ ih =>
    exact .merge gs tail us _ _ h1 (regions_size h2 (hm.merges gs tail (by simp)) (hm'.merges gs tail (by simp)))
      (ih (tl hm) (tl hm'))
  | hlink g h cls tail d l us rs ws h1 h2 h3 h4 h5 h6 h7 h8 h9 _ ih =>
    obtain ⟨a, _⟩ := hm.links g _ (List.mem_cons_self ..) h1
    obtain ⟨b, b1, b2⟩ := hm'.links g _ (List.mem_cons_self ..) h1
    rw [clip_reaches a] at h9
    exact .hlink g h cls tail d l us _ _ h1 (clips_reaches b) b1 b2 h5 h6 h7 h8 (by rw [clip_reaches b]; exact h9)
      (ih (tl hm) (tl hm'))

theorem declares_trans {m m' m'' : Nat × Nat} {xs ys : List Record} (h : Declares m xs m') (h' : Declares m' ys m'') :
    Declares m (xs ++ ys) m'' := by
  induction h with
  | nil m => exact h'
  | other m m' r rs h1 h2 h3 _ ih => exact .other _ _ r _ h1 h2 h3 (ih h')
  | block m m' b e inner rs h1 h2 h3 _ ih =>
    have := Declares.block _ _ b e inner _ h1 h2 h3 (ih h')
    simpa using this
  | wsBool m m' x y tail rs h1 _ ih => exact .wsBool _ _ x y tail _ h1 (ih h')
  | dims m m' r0 r1 c0 c1 tail rs h1 h2 _ ih => exact .dims _ _ r0 r1 c0 c1 tail _ h1 h2 (ih h')

theorem recs_head {strings : List (List Nat)} {styles : List Nat} {m : Nat × Nat} {ys : List Record} {ws : List Write}
    (h : SheetRecs strings styles m.1 m.2 ys ws) : ∀ {xs : List Record}, (∀ r ∈ xs, ¬ cellType r.type) →
    SheetRecs strings styles m.1 m.2 (xs ++ ys) ws
  | [], _ => h
  | x :: xs, hx => .other x _ _ (hx x (by simp)) (recs_head h (fun r hr => hx r (by simp [hr])))

theorem dims_declare {head body : List Record} {dim : Option BinDims} {m : Nat × Nat} (hh : Declares (0, 0) head (0, 0))
    (hb : ∀ n, Declares n body n) (hd : DimsAre dim m) : Declares (0, 0) (withDims head dim body) m := by
  cases dim with
  | none => cases (show m = (0, 0) from hd); exact declares_trans hh (hb _)
  | some d =>
    obtain ⟨h1, h2, rfl⟩ := hd
    exact declares_trans hh (.dims _ _ d.r0 d.r1 d.c0 d.c1 d.tail _ h1 h2 (hb _))

theorem dims_recs {strings : List (List Nat)} {styles : List Nat} {head body : List Record} {dim : Option BinDims}
    {m : Nat × Nat} {ws : List Write} (hh : ∀ r ∈ head, ¬ cellType r.type) (h : SheetRecs strings styles m.1 m.2 body ws) :
    SheetRecs strings styles m.1 m.2 (withDims head dim body) ws := by
  cases dim with
  | none => exact recs_head h hh
  | some d => exact recs_head (.other _ _ _ (by unfold cellType; simp [BinDims.record]) h) hh

end Dim

/-- **C145**: the records of a sheet in two workbooks, with the same content and different Dimensions records, or none in one
of them. Both are read without an error and all cells are the same; if there is at most one Dimensions record in each (also in
embedded charts) and a program reads the texts of one row by row it gets the texts of the other, up to blank rows and columns
at the ends. Missing: merged regions up to the last column of the format and hyperlinks outside of the declared size, where it
is false (`C145_counterexample`, `C145_link_counterexample`), and what C49 leaves out. -/
theorem C145_sheet_partial (ext : Ext) (b b' : Xls.Book) (i : Nat) (recs recs' : List Xls.Rec) (hi : b.subs[i]? = some recs)
    (hi' : b'.subs[i]? = some recs') (hz : Xls.Sized recs) (hz' : Xls.Sized recs') (strings : List (List Nat))
    (styles : List Nat) (hs : b.strings = strings.map utf8) (hs' : b'.strings = strings.map utf8) (hx : b.xfs = styles)
    (hx' : b'.xfs = styles) (hn : b.nfmt = b'.nfmt) (bof : Record) (hbof : bof.type = 0x809) (head head' body : List Record)
    (hh : ∀ r ∈ head, ¬ cellType r.type) (hh' : ∀ r ∈ head', ¬ cellType r.type) (dim dim' : Option BinDims)
    (hv : recs.map Xls.Rec.view = bof :: withDims head dim body) (hv' : recs'.map Xls.Rec.view = bof :: withDims head' dim' body)
    (hd : Declares (0, 0) head (0, 0)) (hd' : Declares (0, 0) head' (0, 0)) (hb : ∀ n, Declares n body n) (m m' : Nat × Nat)
    (hm : DimsAre dim m) (hm' : DimsAre dim' m') (hg : RegionsWithin m body) (hg' : RegionsWithin m' body) (ws : List Write)
    (hw : SheetRecs strings styles m.1 m.2 body ws) :
    ∃ s s', Xls.parseSheet ext b i = .ok (some s) ∧ Xls.parseSheet ext b' i = .ok (some s') ∧
      (∀ r c : Nat, SameCell (s.cell? r c) (s'.cell? r c)) ∧ SizeIs m.1 m.2 ws s ∧ SizeIs m'.1 m'.2 ws s' ∧
      (dimsCount (withDims head dim body) ≤ 1 → dimsCount (withDims head' dim' body) ≤ 1 →
        ∀ t, drain Sheet.next (Sheet.strings ext) (s.rows.length + 1) s = some (.ok t) →
          ∃ t', drain Sheet.next (Sheet.strings ext) (s'.rows.length + 1) s' = some (.ok t') ∧
            ∀ r c, textAt t' r c = textAt t r c) := by
  obtain ⟨s, e, k, z, q⟩ := C49_sheet_partial ext b i recs hi hz strings styles hs hx bof _ hv hbof m.1 m.2
    (Dim.dims_declare hd hb hm) ws (Dim.dims_recs hh hw)
  obtain ⟨s', e', k', z', q'⟩ := C49_sheet_partial ext b' i recs' hi' hz' strings styles hs' hx' bof _ hv' hbof m'.1 m'.2
    (Dim.dims_declare hd' hb hm') ws (Dim.dims_recs hh' (Dim.recs_size hw hg hg'))
  rw [← hn] at k'
  have same : ∀ r c : Nat, SameCell (s.cell? r c) (s'.cell? r c) := fun r c => Links.holds_same k k' r c rfl
  exact ⟨s, s', e, e', same, z, z', fun h1 h2 t ht =>
    Dim.same_tables (by rw [k.fmtr, k'.fmtr]) (q h1) (q' h2) k.start k'.start same t ht⟩

/-- C145 for files: two xls files with the same number formats whose sheets of a name have the same cells and declare any
sizes. `Get` gives both, the cells are the same, and so are the texts that a program reads row by row, up to blank rows and
columns at the ends. Missing: what C78 leaves out. -/
theorem C145_file_partial (w : Api.World) (ext : Ext) (fn fn' file file' : Bytes) (hf : w.files fn = .ok file)
    (hf' : w.files fn' = .ok file') (hb : ∀ k ∈ w.bufs, 0 < k) {c c' : Content} {subs subs' : List (List Record)}
    (h : XlsFile w file c subs) (h' : XlsFile w file' c' subs') (hfm : c.formats = c'.formats) (name : Bytes)
    (recs recs' : List Record) (hs : StoredAs c subs name recs) (hs' : StoredAs c' subs' name recs') (m m' : Nat × Nat)
    (ws ws' : List Write) (hc : CellsOf c recs m ws) (hc' : CellsOf c' recs' m' ws') (hw : SameGrid ws ws') :
    ∃ k, ∀ fuel, k ≤ fuel → ∀ t, Shipped { w with fuel := fuel } t → ∃ src src' s s', openSrc t fn = .ok src ∧
      openSrc t fn' = .ok src' ∧ src.get ext name = .ok (src, .ok (.sheet s)) ∧ src'.get ext name = .ok (src', .ok (.sheet s')) ∧
      (∀ i j : Nat, SameCell (s.cell? i j) (s'.cell? i j)) ∧
      ∀ t, drain Sheet.next (Sheet.strings ext) (s.rows.length + 1) s = some (.ok t) →
        ∃ t', drain Sheet.next (Sheet.strings ext) (s'.rows.length + 1) s' = some (.ok t') ∧
          ∀ i j, textAt t' i j = textAt t i j := by
  obtain ⟨b, n, hl, ho⟩ := xlsFile_loaded w fn file hf hb h
  obtain ⟨b', n', hl', ho'⟩ := xlsFile_loaded w fn' file' hf' hb h'
  obtain ⟨s, g, hh, _, hr⟩ := xls_holds hl ext hs hc
  obtain ⟨s', g', hh', _, hr'⟩ := xls_holds hl' ext hs' hc'
  rw [← hfm] at hh'
  have same : ∀ i j : Nat, SameCell (s.cell? i j) (s'.cell? i j) := fun i j => Links.holds_same hh hh' i j (hw i j)
  refine ⟨max n n', fun fuel hfu t ht => ⟨_, _, s, s', ho fuel (by omega) t ht, ho' fuel (by omega) t ht, ?_, ?_, same,
    fun t ht => Dim.same_tables (by rw [hh.fmtr, hh'.fmtr]) hr hr' hh.start hh'.start same t ht⟩⟩
  · simp only [Api.Source.get, g]
  · simp only [Api.Source.get, g']

/-- A number in A1 and the merged region of the last two columns of the first row (IU1:IV1). -/
def exWideMerge : List Record := [⟨638, cellHead 0 0 0 (leBytes 4 22)⟩, ⟨229, leBytes 2 1 ++ Region.bytes ⟨0, 0, 254, 255⟩⟩, ⟨0x0A, []⟩]

/-- C145 is false as stated: with 256 declared columns the merged region of the last two is marked, with one declared column
it is not. -/
theorem C145_counterexample (ext : Ext) :
    (∃ s, Xls.parseSheet ext (exLinkBook (⟨0x809, []⟩ :: withDims [] (some ⟨0, 1, 0, 256, [0, 0]⟩) exWideMerge)) 0 = .ok (some s) ∧
      s.cell? 0 255 = some (.full (.str (lit "⇥")) .static none [])) ∧
    ∃ s, Xls.parseSheet ext (exLinkBook (⟨0x809, []⟩ :: withDims [] (some ⟨0, 1, 0, 1, [0, 0]⟩) exWideMerge)) 0 = .ok (some s) ∧
      s.cell? 0 255 = none :=
  ⟨⟨_, rfl, rfl⟩, ⟨_, rfl, rfl⟩⟩

/-- A link of A2. -/
def exLowLink : BinLink := { exBinLink with region := ⟨1, 1, 0, 0⟩ }

/-- Also false for hyperlinks: the text and the link of A2 are not there if no size is declared. -/
theorem C145_link_counterexample (ext : Ext) :
    (∃ s c, Xls.parseSheet ext (exLinkBook (⟨0x809, []⟩ :: withDims [] (some ⟨0, 2, 0, 1, [0, 0]⟩) [exLowLink.record])) 0 =
      .ok (some s) ∧ s.cell? 1 0 = some c ∧ c.value = .str (lit "Hi <#a>")) ∧
    ∃ s, Xls.parseSheet ext (exLinkBook (⟨0x809, []⟩ :: withDims [] none [exLowLink.record])) 0 = .ok (some s) ∧
      s.cell? 1 0 = none :=
  ⟨⟨_, _, rfl, rfl, rfl⟩, ⟨_, rfl, rfl⟩⟩

/-- A number in A1 and the merged region A1:B1. -/
def exNarrowMerge : List Record := [⟨638, cellHead 0 0 0 (leBytes 4 22)⟩, ⟨229, leBytes 2 1 ++ (Region.bytes ⟨0, 0, 0, 1⟩ ++ [])⟩, ⟨0x0A, []⟩]

theorem Dim.le2_inj {a b : Nat} {xs ys : Bytes} (ha : a < 65536) (hb : b < 65536) (h : leBytes 2 a ++ xs = leBytes 2 b ++ ys) :
    a = b ∧ xs = ys := by
  obtain ⟨h1, h2⟩ := List.append_inj h (by rw [Cfb.leBytes_length, Cfb.leBytes_length])
  have := congrArg Cfb.leNat h1
  rw [Cfb.leNat_leBytes, Cfb.leNat_leBytes, Nat.mod_eq_of_lt (by omega), Nat.mod_eq_of_lt (by omega)] at this
  exact ⟨this, h2⟩

theorem Dim.exNarrow (m : Nat × Nat) : RegionsWithin m exNarrowMerge := by
  constructor
  · intro gs tail hr g hg hf
    simp only [exNarrowMerge, List.mem_cons, Record.mk.injEq, List.not_mem_nil, or_false, Nat.reduceEqDiff, false_and,
      false_or, true_and] at hr
    cases gs with
    | nil => cases hg
    | cons x gs =>
      have hlen := congrArg List.length hr
      simp only [List.length_append, Cfb.leBytes_length, List.flatMap_cons, Region.bytes, List.length_nil] at hlen
      have hgs : gs = [] := by
        cases gs with
        | nil => rfl
        | cons y gs =>
          simp only [List.flatMap_cons, List.length_append, Region.bytes, Cfb.leBytes_length] at hlen
          omega
      subst hgs
      rw [List.mem_singleton] at hg
      subst hg
      obtain ⟨f0, f1, f2, f3⟩ := hf
      have e := (List.append_inj hr (by rw [Cfb.leBytes_length, Cfb.leBytes_length])).2
      simp only [List.flatMap_cons, List.flatMap_nil, List.append_nil, Region.bytes, List.append_assoc] at e
      obtain ⟨_, e⟩ := Dim.le2_inj f0 (by decide) e
      obtain ⟨e1, e⟩ := Dim.le2_inj f1 (by decide) e
      obtain ⟨_, e⟩ := Dim.le2_inj f2 (by decide) e
      obtain ⟨e3, _⟩ := Dim.le2_inj (b := 1) (ys := []) f3 (by decide) (by simpa using e)
      exact ⟨fun h => by omega, fun h => by omega⟩
  · intro g tail hr
    simp [exNarrowMerge] at hr

/-- The hypotheses hold for this content with 8 declared rows and 3 columns, and with no declared size. -/
theorem C145_witness (ext : Ext) :
    ∃ s s', Xls.parseSheet ext (exLinkBook (⟨0x809, []⟩ :: withDims [] (some ⟨0, 8, 0, 3, [0, 0]⟩) exNarrowMerge)) 0 =
        .ok (some s) ∧
      Xls.parseSheet ext (exLinkBook (⟨0x809, []⟩ :: withDims [] none exNarrowMerge)) 0 = .ok (some s') ∧
      ∀ r c : Nat, SameCell (s.cell? r c) (s'.cell? r c) := by
  have sized : ∀ rs : List Record, Xls.Sized (rs.map (fun r => Xls.recOf r [])) := by
    intro rs r hr
    obtain ⟨q, _, rfl⟩ := List.mem_map.1 hr
    rfl
  have view : ∀ rs : List Record, (rs.map (fun r => Xls.recOf r [])).map Xls.Rec.view = rs := by
    intro rs
    rw [List.map_map]
    exact List.map_id _
  have hdecl : ∀ n, Declares n exNarrowMerge n := by
    intro n
    unfold exNarrowMerge
    iterate 3 refine .other _ _ _ _ (by decide) (by decide) (by decide) ?_
    exact .nil n
  have hrecs : ∃ ws, SheetRecs [] [] 8 3 exNarrowMerge ws := by
    have h0 := SheetRecs.other (strings := []) (styles := []) (maxRow := 8) (maxCol := 3) ⟨0x0A, []⟩ [] []
      (by unfold cellType; decide) .nil
    have h1 := SheetRecs.merge (strings := []) (styles := []) (maxRow := 8) (maxCol := 3) [⟨0, 0, 0, 1⟩] [] _ _ _ (by decide)
      (.cons _ [] _ [] (by unfold Region.Fits; decide) (by unfold Region.Clips; decide) (Xls.region_exists _ none) .nil) h0
    exact ⟨_, SheetRecs.rk 0 0 0 22 [] _ _ (by unfold HeadFits; decide) (by decide) (by decide) h1⟩
  obtain ⟨ws, hrecs⟩ := hrecs
  obtain ⟨s, s', e, e', same, _⟩ := C145_sheet_partial ext
    (exLinkBook (⟨0x809, []⟩ :: withDims [] (some ⟨0, 8, 0, 3, [0, 0]⟩) exNarrowMerge))
    (exLinkBook (⟨0x809, []⟩ :: withDims [] none exNarrowMerge)) 0 _ _ rfl rfl (sized _) (sized _) [] [] rfl rfl rfl rfl rfl
    ⟨0x809, []⟩ rfl [] [] exNarrowMerge (by simp) (by simp) (some ⟨0, 8, 0, 3, [0, 0]⟩) none (view _) (view _) (.nil _) (.nil _)
    hdecl (8, 3) (0, 0) ⟨by decide, by decide, rfl⟩ rfl (Dim.exNarrow _) (Dim.exNarrow _) _ hrecs
  exact ⟨s, s', e, e', same⟩

end Grate.Props
