import Verif.Lemmas.DssSeries
import Verif.Props.DssFiles
import Mathlib.Algebra.Field.Rat

/-! C111: the OpenDSS writer writes each time series once to the file of its feeder, loads and PV systems refer to it, and the master file is
solved for the time they all cover. -/
namespace Ditto.Dss
open Ditto Ditto.Spec Ditto.Json

variable {K : Type} [Field K] [DecidableEq K] {sf ss : Bool} {rows : String → List (List K)} {read : String → Py (List (List K))}
  {percent : K → String} {ord : List String → List String}

omit [DecidableEq K] in
theorem separable_keys {gs : List (PlainSeries K)} (h : Separable sf ss (gs.map (seriesItem rows))) : ∀ a ∈ gs, ∀ b ∈ gs,
    groupKey (seriesGroup sf ss a) = groupKey (seriesGroup sf ss b) → seriesGroup sf ss a = seriesGroup sf ss b :=
  fun a ha b hb hk => h.keys _ (List.mem_map.2 ⟨a, ha, rfl⟩) _ (List.mem_map.2 ⟨b, hb, rfl⟩) hk

omit [DecidableEq K] in
theorem separable_first {gs : List (PlainSeries K)} (h : Separable sf ss (gs.map (seriesItem rows))) :
    Separable sf ss ((firstSeries sf ss gs).map (seriesItem rows)) := by
  have hsub : ∀ i ∈ (firstSeries sf ss gs).map (seriesItem rows), i ∈ gs.map (seriesItem rows) := by
    intro i hi
    obtain ⟨a, ha, rfl⟩ := List.mem_map.1 hi
    exact List.mem_map.2 ⟨a, first_mem ha, rfl⟩
  refine ⟨fun i hi he => ?_, fun i hi j hj => h.keys i (hsub i hi) j (hsub j hj), fun i hi j hj => h.clean i (hsub i hi) j (hsub j hj),
    fun i hi j hj => h.folders i (hsub i hi) j (hsub j hj)⟩
  obtain ⟨a, ha, rfl⟩ := List.mem_map.1 hi
  have : shapeOf rows a ∈ textsFor sf ss ((firstSeries sf ss gs).map (seriesItem rows)) (groupFor sf ss (seriesItem rows a)) :=
    List.mem_filterMap.2 ⟨seriesItem rows a, List.mem_filter.2 ⟨hi, by simp⟩, rfl⟩
  rw [he] at this
  cases this

theorem series_run (hord : ∀ l, (ord l).Perm l) (gs : List (PlainSeries K)) (hr : ∀ s ∈ gs, read s.file = .ok (rows s.file))
    (h : Separable sf ss (gs.map (seriesItem rows))) : ∃ st w, writeSeries read percent false sf ss ord (gs.map PlainSeries.object) = .ok (st, w) ∧
      SeriesInv sf ss rows gs st ∧ Distributed sf ss ((firstSeries sf ss gs).map (seriesItem rows)) w := by
  obtain ⟨st, hst, hinv⟩ := seriesLoop_ok (read := read) (percent := percent) gs (separable_keys h) hr
  obtain ⟨w, hw, hd⟩ := C51_distributed_partial sf ss ord hord _ (separable_first h)
  refine ⟨st, w, ?_, hinv, hd⟩
  unfold writeSeries
  rw [hst]
  simp only
  rw [hinv.split]
  unfold writeItems at hw
  rw [hw]

/-- Series with a label and a readable file that are not to be scaled: of the series of a feeder with the same file the first is written, as one
shape, with its label, the number of rows of the file and its interval; every file of shapes is redirected once. Missing: scaled series, series
without label or file, and names that cannot be used for folders (see the violations below and those of C51). -/
theorem C111_series_partial (hord : ∀ l, (ord l).Perm l) (gs : List (PlainSeries K)) (hr : ∀ s ∈ gs, read s.file = .ok (rows s.file))
    (h : Separable sf ss (gs.map (seriesItem rows))) : ∃ st w, writeSeries read percent false sf ss ord (gs.map PlainSeries.object) = .ok (st, w) ∧
      Distributed sf ss ((firstSeries sf ss gs).map (seriesItem rows)) w := by
  obtain ⟨st, w, h1, -, h2⟩ := series_run (percent := percent) hord gs hr h
  exact ⟨st, w, h1, h2⟩

omit [Field K] [DecidableEq K] in
/-- The series that are written stand for all, and no two for the same data. -/
theorem C111_first (gs : List (PlainSeries K)) : (∀ s ∈ firstSeries sf ss gs, s ∈ gs) ∧ (∀ s ∈ gs, ∃ a ∈ firstSeries sf ss gs, SameData sf ss a s) ∧
    (firstSeries sf ss gs).Pairwise fun a b => ¬ SameData sf ss a b :=
  ⟨fun _ hs => first_mem hs, fun _ hs => first_found hs, first_pairwise gs⟩

/-- The master file is solved for as many steps as the shortest series has, as "daily" exactly if all series are of one day. -/
theorem C111_solve_partial (hord : ∀ l, (ord l).Perm l) (gs : List (PlainSeries K)) (hr : ∀ s ∈ gs, read s.file = .ok (rows s.file))
    (h : Separable sf ss (gs.map (seriesItem rows))) (hne : gs ≠ []) {st : SeriesState K} {w : Written (ShapeText K)}
    (hrun : writeSeries read percent false sf ss ord (gs.map PlainSeries.object) = .ok (st, w)) :
    ∃ n, solveCommand (gs.map PlainSeries.object) st = some (some (decide (∀ s ∈ gs, Daily (rows s.file).length)), some n) ∧
      (∃ s ∈ gs, n = (rows s.file).length) ∧ ∀ s ∈ gs, n ≤ (rows s.file).length := by
  obtain ⟨st', w', h1, hinv, -⟩ := series_run (percent := percent) hord gs hr h
  rw [h1] at hrun
  cases hrun
  have hfe : firstSeries sf ss gs ≠ [] := by
    intro he
    obtain ⟨s, hs⟩ := List.exists_mem_of_ne_nil gs hne
    obtain ⟨a, ha, -⟩ := first_found (sf := sf) (ss := ss) hs
    rw [he] at ha
    cases ha
  rcases hinv.number with ⟨he, -⟩ | ⟨s, hs, hn, hle⟩
  · exact absurd he hfe
  · refine ⟨(rows s.file).length, ?_, ⟨s, first_mem hs, rfl⟩, fun t ht => ?_⟩
    · unfold solveCommand
      rw [if_neg (by simpa using hne), hn, hinv.solve, if_neg hfe]
      congr 3
      rw [Bool.eq_iff_iff, List.all_eq_true, decide_eq_true_iff]
      constructor
      · intro hall t ht
        obtain ⟨a, ha, hs⟩ := first_found (sf := sf) (ss := ss) ht
        rw [← hs.2]
        exact (oneDay_iff _).1 (hall a ha)
      · exact fun hall t ht => (oneDay_iff _).2 (hall t (first_mem ht))
    · obtain ⟨a, ha, hs⟩ := first_found (sf := sf) (ss := ss) ht
      rw [← hs.2]
      exact hle a ha

/-- Without time series the master file has a plain command. -/
theorem C111_plain (ord) {st : SeriesState K} {w : Written (ShapeText K)} (_ : writeSeries read percent false sf ss ord [] = .ok (st, w)) :
    solveCommand ([] : List (DSeries K)) st = none := rfl

/-- a reference is to a shape with the data of the series in the file of its feeder, and to no other shape of that file; it is "daily" exactly if
the data is of one day -/
structure RefersTo (sf ss : Bool) (rows : String → List (List K)) (w : Written (ShapeText K)) (s : PlainSeries K) (r : Bool × String) : Prop where
  mode : r.1 = decide (Daily (rows s.file).length)
  shape : ∃ texts, w.files.lookup (folderFor sf ss (seriesGroup sf ss s)) = some texts ∧
    (∃ t ∈ texts, t.name = r.2 ∧ t.file = s.file ∧ t.npts = (rows s.file).length) ∧ ∀ t ∈ texts, t.name = r.2 → t.file = s.file

theorem shapeRef_ok {gs : List (PlainSeries K)} {st : SeriesState K} {w : Written (ShapeText K)}
    (h : Separable sf ss (gs.map (seriesItem rows))) (hlabel : ∀ a ∈ gs, ∀ b ∈ gs, a.label = b.label → a.file = b.file) (hinv : SeriesInv sf ss rows gs st)
    (hd : Distributed sf ss ((firstSeries sf ss gs).map (seriesItem rows)) w) {s : PlainSeries K} (hs : s ∈ gs) :
    ∃ r, shapeRef st (groupKey (seriesGroup sf ss s)) s.file = .ok r ∧ RefersTo sf ss rows w s r := by
  obtain ⟨a, ha, hsame⟩ := first_found (sf := sf) (ss := ss) hs
  obtain ⟨d, hdl⟩ := hinv.groups s hs
  have hname := (hinv.names (groupKey (seriesGroup sf ss s)) s.file a.label).2 ⟨a, ha, by rw [hsame.1], hsame.2, rfl⟩
  rw [hdl, Option.getD_some] at hname
  obtain ⟨t, ht, htl, hf⟩ := hinv.formats a ha
  have hta : t.file = s.file := (hlabel t (first_mem ht) a (first_mem ha) htl).trans hsame.2
  refine ⟨(oneDay (rows t.file).length, a.label), ?_, ?_, ?_⟩
  · unfold shapeRef
    simp only [hdl, hname, hf]
  · simp only
    rw [hta, Bool.eq_iff_iff, decide_eq_true_iff]
    exact oneDay_iff _
  · have ho := hd.own (seriesItem rows a) (List.mem_map.2 ⟨a, ha, rfl⟩)
    rw [item_group, hsame.1] at ho
    refine ⟨_, ho, ⟨shapeOf rows a, List.mem_filterMap.2 ⟨seriesItem rows a, List.mem_filter.2 ⟨List.mem_map.2 ⟨a, ha, rfl⟩, ?_⟩, rfl⟩, rfl, hsame.2, ?_⟩, ?_⟩
    · rw [item_group]; exact decide_eq_true hsame.1
    · rw [← hsame.2]; rfl
    · intro u hu hn
      obtain ⟨i, hi, hiu⟩ := List.mem_filterMap.1 hu
      obtain ⟨b, hb, rfl⟩ := List.mem_map.1 (List.mem_filter.1 hi).1
      cases hiu
      exact (hlabel b (first_mem hb) a (first_mem ha) hn).trans hsame.2

/-- If no label is used for two files, a load refers to the shapes of its series. Missing: series with the name of a substation or a feeder if
files are not separated by them (see the violation below). -/
theorem C111_loads_partial (hord : ∀ l, (ord l).Perm l) (gs : List (PlainSeries K)) (hr : ∀ s ∈ gs, read s.file = .ok (rows s.file))
    (h : Separable sf ss (gs.map (seriesItem rows))) (hlabel : ∀ a ∈ gs, ∀ b ∈ gs, a.label = b.label → a.file = b.file) {st : SeriesState K} {w : Written (ShapeText K)}
    (hrun : writeSeries read percent false sf ss ord (gs.map PlainSeries.object) = .ok (st, w)) (ts : List (PlainSeries K)) (hts : ∀ s ∈ ts, s ∈ gs)
    (hnames : ∀ s ∈ ts, (ss = true ∨ s.substation = none) ∧ (sf = true ∨ s.feeder = none)) :
    ∃ rs, loadRefs st (ts.map PlainSeries.object) = .ok rs ∧ List.Forall₂ (RefersTo sf ss rows w) ts rs := by
  obtain ⟨st', w', h1, hinv, hd⟩ := series_run (percent := percent) hord gs hr h
  rw [h1] at hrun
  cases hrun
  induction ts with
  | nil => exact ⟨[], rfl, .nil⟩
  | cons s ts ih =>
    obtain ⟨rs, hrs, hall⟩ := ih (fun t ht => hts t (List.mem_cons_of_mem _ ht)) fun t ht => hnames t (List.mem_cons_of_mem _ ht)
    obtain ⟨r, hr1, hr2⟩ := shapeRef_ok h hlabel hinv hd (hts s List.mem_cons_self)
    have hg : seriesGroup sf ss s = (s.substation.getD "DEFAULT", s.feeder.getD "DEFAULT") := by
      obtain ⟨h1, h2⟩ := hnames s List.mem_cons_self
      unfold seriesGroup
      rcases h1 with h1 | h1 <;> rcases h2 with h2 | h2 <;> simp [h1, h2]
    refine ⟨r :: rs, ?_, .cons hr2 hall⟩
    rw [hg] at hr1
    rw [List.map_cons, loadRefs]
    simp only [PlainSeries.object] at hrs ⊢
    rw [hr1]
    simp only
    rw [hrs]

/-- A PV system refers to the shapes of its series if they are those of its own substation and feeder. Missing: others (see the violation below). -/
theorem C111_pvs_partial (hord : ∀ l, (ord l).Perm l) (gs : List (PlainSeries K)) (hr : ∀ s ∈ gs, read s.file = .ok (rows s.file))
    (h : Separable sf ss (gs.map (seriesItem rows))) (hlabel : ∀ a ∈ gs, ∀ b ∈ gs, a.label = b.label → a.file = b.file) {st : SeriesState K} {w : Written (ShapeText K)}
    (hrun : writeSeries read percent false sf ss ord (gs.map PlainSeries.object) = .ok (st, w)) (isFile : String → Bool) (g : String × String)
    (ts : List (PlainSeries K)) (hts : ∀ s ∈ ts, s ∈ gs ∧ seriesGroup sf ss s = g ∧ isFile s.file = true) :
    ∃ rs, pvRefs st isFile g (ts.map PlainSeries.object) = .ok rs ∧ List.Forall₂ (RefersTo sf ss rows w) ts rs := by
  obtain ⟨st', w', h1, hinv, hd⟩ := series_run (percent := percent) hord gs hr h
  rw [h1] at hrun
  cases hrun
  induction ts with
  | nil => exact ⟨[], rfl, .nil⟩
  | cons s ts ih =>
    obtain ⟨rs, hrs, hall⟩ := ih fun t ht => hts t (List.mem_cons_of_mem _ ht)
    obtain ⟨hs, hg, hf⟩ := hts s List.mem_cons_self
    obtain ⟨r, hr1, hr2⟩ := shapeRef_ok h hlabel hinv hd hs
    refine ⟨r :: rs, ?_, .cons hr2 hall⟩
    rw [hg] at hr1
    rw [List.map_cons, pvRefs]
    simp only [PlainSeries.object] at hrs ⊢
    rw [if_pos hf, hr1]
    simp only
    rw [hrs]

/-! ### A case -/

def exDay : List (List ℚ) := List.replicate 24 [1/2]

def exRows (f : String) : List (List ℚ) := if f = "h.csv" then List.replicate 48 [1/4] else exDay

def exRead (f : String) : Py (List (List ℚ)) := .ok (exRows f)

/-- three series of two feeders; two have the same file -/
def exSeries : List (PlainSeries ℚ) :=
  [⟨"day", "d.csv", none, true, none, some "f1", some "s1"⟩, ⟨"hours", "h.csv", none, false, some (1/2), some "f2", some "s1"⟩,
    ⟨"day", "d.csv", none, true, none, some "f1", some "s1"⟩]

theorem exSeries_separable : Separable true true (exSeries.map (seriesItem exRows)) where
  named := by decide +kernel
  keys := by decide +kernel
  clean := by decide +kernel
  folders := by decide +kernel

example : (∀ s ∈ exSeries, exRead s.file = .ok (exRows s.file)) ∧ exSeries ≠ [] ∧ (∀ a ∈ exSeries, ∀ b ∈ exSeries, a.label = b.label → a.file = b.file) ∧
    (∀ s ∈ exSeries, (true = true ∨ s.substation = none) ∧ (true = true ∨ s.feeder = none)) ∧
    (writeSeries exRead (fun _ => "050") false true true id (exSeries.map PlainSeries.object)).map (·.2) =
      .ok ⟨[(["s1", "f1"], [⟨"day", 24, 1, "d.csv", ""⟩]), (["s1", "f2"], [⟨"hours", 48, 1/2, "h.csv", ""⟩])], [["s1", "f1"], ["s1", "f2"]]⟩ := by
  decide +kernel

/-! ### Where the property does not hold -/

theorem loop_then {remove : Bool} {l : List (DSeries K)} {st : SeriesState K} (h : seriesLoop read percent remove sf ss l = .ok st) (s : DSeries K) (rest : List (DSeries K)) :
    seriesLoop read percent remove sf ss (l ++ s :: rest) = (match seriesStep read percent remove sf ss st s with
      | .error e => .error e
      | .ok st' => rest.foldlM (seriesStep read percent remove sf ss) st') := by
  unfold seriesLoop at h ⊢
  rw [List.foldlM_append, h]
  change (seriesStep read percent remove sf ss st s >>= fun st' => rest.foldlM (seriesStep read percent remove sf ss) st') = _
  cases seriesStep read percent remove sf ss st s <;> rfl

theorem step_scaled (remove : Bool) (st : SeriesState K) (s : PlainSeries K) {c : K} (hc : c ≠ 1) :
    seriesStep read percent remove sf ss st { s.object with scale := some c } =
    scaledSeries read percent remove (groupKey (seriesGroup sf ss s)) s.label s.file c (noteGroup (seriesGroup sf ss s) st) := by
  unfold seriesStep PlainSeries.object
  simp only [if_neg hc]
  rfl

/-- No series can be scaled: the first that is to be, and has data that is not there already, ends the writing for all. -/
theorem C111_scaled_violated (gs : List (PlainSeries K)) (s : PlainSeries K) (c : K) (hc : c ≠ 1) (rest : List (DSeries K))
    (hr : ∀ t ∈ gs ++ [s], read t.file = .ok (rows t.file)) (hn : ∀ a ∈ gs, ¬ SameData sf ss a s)
    (hk : ∀ a ∈ gs ++ [s], ∀ b ∈ gs ++ [s], groupKey (seriesGroup sf ss a) = groupKey (seriesGroup sf ss b) → seriesGroup sf ss a = seriesGroup sf ss b) :
    writeSeries read percent false sf ss ord (gs.map PlainSeries.object ++ { s.object with scale := some c } :: rest) = .error .keyError := by
  obtain ⟨st, hst, hinv⟩ := seriesLoop_ok (read := read) (percent := percent) (rows := rows) gs
    (fun a ha b hb => hk a (List.mem_append_left _ ha) b (List.mem_append_left _ hb)) fun t ht => hr t (List.mem_append_left _ ht)
  have hknown : seriesKnown (noteGroup (seriesGroup sf ss s) st) (groupKey (seriesGroup sf ss s)) s.file = false := by
    unfold seriesKnown
    rw [note_lookup]
    cases hl : ((st.datasets.lookup (groupKey (seriesGroup sf ss s))).getD []).lookup s.file with
    | none => rfl
    | some name =>
      obtain ⟨a, ha, hka, hfa, -⟩ := (hinv.names _ _ _).1 hl
      exact absurd ⟨hk a (List.mem_append_left _ (first_mem ha)) s (by simp) hka, hfa⟩ (hn a (first_mem ha))
  have hstep : seriesStep read percent false sf ss st { s.object with scale := some c } = .error .keyError := by
    rw [step_scaled false st s hc, scaledSeries, hknown, hr s (by simp)]
    rfl
  unfold writeSeries
  rw [loop_then hst, hstep]

example : ∃ gs : List (PlainSeries ℚ), gs ≠ [] ∧ ∃ s : PlainSeries ℚ, (∀ t ∈ gs ++ [s], exRead t.file = .ok (exRows t.file)) ∧ (∀ a ∈ gs, ¬ SameData true true a s) ∧
    (∀ a ∈ gs ++ [s], ∀ b ∈ gs ++ [s], groupKey (seriesGroup true true a) = groupKey (seriesGroup true true b) → seriesGroup true true a = seriesGroup true true b) :=
  ⟨exSeries, by decide, ⟨"day", "e.csv", none, true, none, some "f1", some "s1"⟩, by decide +kernel⟩

/-- A series that is to be scaled and has the data of another is not written, and loads refer to the one that is not scaled. -/
theorem C111_unscaled_violated (hord : ∀ l, (ord l).Perm l) (gs : List (PlainSeries K)) (hr : ∀ s ∈ gs, read s.file = .ok (rows s.file))
    (h : Separable sf ss (gs.map (seriesItem rows))) (s : PlainSeries K) (hs : s ∈ gs) (c : K) (hc : c ≠ 1) :
    ∃ st w, writeSeries read percent false sf ss ord (gs.map PlainSeries.object ++ [{ s.object with scale := some c }]) = .ok (st, w) ∧
      Distributed sf ss ((firstSeries sf ss gs).map (seriesItem rows)) w ∧ loadRefs st [{ s.object with scale := some c }] = loadRefs st [s.object] := by
  obtain ⟨st, hst, hinv⟩ := seriesLoop_ok (read := read) (percent := percent) gs (separable_keys h) hr
  obtain ⟨a, ha, hsame⟩ := first_found (sf := sf) (ss := ss) hs
  obtain ⟨hsplit, hknown⟩ := known_first hinv ha hsame
  obtain ⟨w, hw, hd⟩ := C51_distributed_partial sf ss ord hord _ (separable_first h)
  refine ⟨{ noteGroup (seriesGroup sf ss s) st with bound := true }, w, ?_, hd, rfl⟩
  have hstep : seriesStep read percent false sf ss st { s.object with scale := some c } = .ok { noteGroup (seriesGroup sf ss s) st with bound := true } := by
    rw [step_scaled false st s hc, scaledSeries, if_pos hknown]
  unfold writeSeries
  rw [loop_then hst, hstep]
  change (match writeSubs sf ss ord (noteGroup (seriesGroup sf ss s) st).split.texts (noteGroup (seriesGroup sf ss s) st).split.subs {} with
    | .error e => Except.error e | .ok w => Except.ok (_, w)) = _
  rw [hsplit, hinv.split]
  unfold writeItems at hw
  rw [hw]

/-- If the first series has its data in memory only, or has no label, nothing can be written. -/
theorem C111_memory_violated (remove : Bool) (s : DSeries K) (hs : s.location = none ∨ s.label = none) (rest : List (DSeries K)) :
    writeSeries read percent remove sf ss ord (s :: rest) = .error .unboundLocalError := by
  have hstep : seriesStep read percent remove sf ss {} s = .error .unboundLocalError := by
    unfold seriesStep
    rcases hs with hs | hs
    · simp only [hs]; rfl
    · simp only [hs]
      cases s.location <;> rfl
  unfold writeSeries
  rw [show s :: rest = [] ++ s :: rest from rfl, loop_then (st := {}) rfl, hstep]

/-- A load that refers to a series that is not in the group it looks for ends the writing. -/
theorem shapeRef_missing {gs : List (PlainSeries K)} {st : SeriesState K} (hinv : SeriesInv sf ss rows gs st) {k loc : String}
    (hno : ∀ s ∈ gs, groupKey (seriesGroup sf ss s) = k → s.file ≠ loc) : shapeRef st k loc = .error .keyError := by
  unfold shapeRef
  cases hd : st.datasets.lookup k with
  | none => rfl
  | some d =>
    simp only
    cases hl : d.lookup loc with
    | none => rfl
    | some name =>
      obtain ⟨s, hs, h1, h2, -⟩ := (hinv.names k loc name).1 (by rw [hd]; exact hl)
      exact absurd h2 (hno s (first_mem hs) h1)

/-- If files are not separated, a load with a series that has the name of a feeder or a substation cannot be written, although the series is. -/
theorem C111_names_violated (hord : ∀ l, (ord l).Perm l) (gs : List (PlainSeries K)) (hne : gs ≠ []) (hr : ∀ s ∈ gs, read s.file = .ok (rows s.file)) {st : SeriesState K}
    {w : Written (ShapeText K)} (hrun : writeSeries read percent false false false ord (gs.map PlainSeries.object) = .ok (st, w)) (s : PlainSeries K)
    (hs : s.substation.getD "DEFAULT" ++ "_" ++ s.feeder.getD "DEFAULT" ≠ "DEFAULT_DEFAULT") (rest : List (DSeries K)) :
    loadRefs st (s.object :: rest) = .error .keyError := by
  have hsep : Separable false false (gs.map (seriesItem rows)) := by
    refine together_separable fun he => ?_
    obtain ⟨t, ht⟩ := List.exists_mem_of_ne_nil gs hne
    have : shapeOf rows t ∈ (gs.map (seriesItem rows)).filterMap (·.out) := List.mem_filterMap.2 ⟨seriesItem rows t, List.mem_map.2 ⟨t, ht, rfl⟩, rfl⟩
    rw [he] at this
    cases this
  obtain ⟨st', w', h1, hinv, -⟩ := series_run (percent := percent) hord gs hr hsep
  rw [h1] at hrun
  cases hrun
  rw [loadRefs]
  simp only [PlainSeries.object]
  rw [shapeRef_missing hinv]
  intro t _ hk
  exact absurd hk.symm hs

/-- A PV system with a series of another feeder cannot be written. -/
theorem C111_pvs_violated (hord : ∀ l, (ord l).Perm l) (gs : List (PlainSeries K)) (hr : ∀ s ∈ gs, read s.file = .ok (rows s.file))
    (h : Separable sf ss (gs.map (seriesItem rows))) {st : SeriesState K} {w : Written (ShapeText K)}
    (hrun : writeSeries read percent false sf ss ord (gs.map PlainSeries.object) = .ok (st, w)) (isFile : String → Bool) (g : String × String)
    (s : PlainSeries K) (hf : isFile s.file = true) (hno : ∀ t ∈ gs, groupKey (seriesGroup sf ss t) = groupKey g → t.file ≠ s.file) (rest : List (DSeries K)) :
    pvRefs st isFile g (s.object :: rest) = .error .keyError := by
  obtain ⟨st', w', h1, hinv, -⟩ := series_run (percent := percent) hord gs hr h
  rw [h1] at hrun
  cases hrun
  rw [pvRefs]
  simp only [PlainSeries.object]
  rw [if_pos hf, shapeRef_missing hinv hno]

example : ∃ s ∈ exSeries, ∀ t ∈ exSeries, groupKey (seriesGroup true true t) = groupKey ("s1", "f1") → t.file ≠ s.file :=
  ⟨_, .tail _ (.head _), by decide +kernel⟩

/-- The file of reactive powers is written without a word for it. -/
theorem C111_kvar_violated : ∃ s : PlainSeries ℚ, s.kvar = some "q.csv" ∧
    (writeSeries exRead (fun _ => "") false false false id [s.object]).map (fun r => r.2.files.map fun f => f.2.map (shapeLine fun _ => "1")) =
      .ok [["New Loadshape.a npts= 24 interval=1 mult = (file=p.csv)q.csv\n\n"]] :=
  ⟨⟨"a", "p.csv", some "q.csv", true, none, none, none⟩, rfl, by decide +kernel⟩

/-- Two files with one label become two shapes of the same name, and loads with the data of a day refer to it as yearly. -/
theorem C111_label_violated : ∃ a b : PlainSeries ℚ, a.label = b.label ∧ a.file ≠ b.file ∧
    (writeSeries exRead (fun _ => "") false false false id [a.object, b.object]).map (fun r => r.2.files) =
      .ok [([], [⟨"a", 24, 1, "d.csv", ""⟩, ⟨"a", 48, 1, "h.csv", ""⟩])] ∧
    (writeSeries exRead (fun _ => "") false false false id [a.object, b.object]).bind (fun r => loadRefs r.1 [a.object]) = .ok [(false, "a")] :=
  ⟨⟨"a", "d.csv", none, true, none, none, none⟩, ⟨"a", "h.csv", none, true, none, none, none⟩, rfl, by decide, by decide +kernel, by decide +kernel⟩

theorem setKey_ne_nil {α : Type} (k : String) (v : α) (d : List (String × α)) : setKey k v d ≠ [] := by
  cases d with
  | nil => simp [setKey]
  | cons e es => rw [setKey]; split <;> simp

/-- without shapes there are groups, but no texts -/
theorem removed_loop : ∀ (gs : List (PlainSeries K)), (∀ s ∈ gs, read s.file = .ok (rows s.file)) →
    ∃ st, seriesLoop read percent true sf ss (gs.map PlainSeries.object) = .ok st ∧ st.split.texts = [] ∧
      (gs ≠ [] → st.split.subs ≠ []) ∧ ∀ e ∈ st.split.subs, e.2 ≠ [] := by
  intro gs
  induction gs using List.reverseRecOn with
  | nil => exact fun _ => ⟨{}, rfl, rfl, fun h => absurd rfl h, fun e he => absurd he List.not_mem_nil⟩
  | append_singleton gs s ih =>
    intro hr
    obtain ⟨st, hst, ht, hne, hall⟩ := ih fun t ht => hr t (List.mem_append_left _ ht)
    have hknown : seriesKnown (noteGroup (seriesGroup sf ss s) st) (groupKey (seriesGroup sf ss s)) s.file = false := by
      unfold seriesKnown
      have : (noteGroup (seriesGroup sf ss s) st).split.texts = [] := ht
      rw [this]
      exact Bool.and_false _
    have hstep := step_plain (sf := sf) (ss := ss) (read := read) (percent := percent) true st s
    rw [plainSeries, hknown, hr s (by simp)] at hstep
    rw [List.map_append, List.map_singleton, loop_then hst, hstep]
    refine ⟨_, rfl, ht, fun _ => ?_, ?_⟩
    · change addGroup _ _ st.split.subs ≠ []
      unfold addGroup
      cases st.split.subs.lookup (seriesGroup sf ss s).1 with
      | none => exact setKey_ne_nil _ _ _
      | some fs => exact setKey_ne_nil _ _ _
    · change ∀ e ∈ addGroup _ _ st.split.subs, e.2 ≠ []
      intro e he
      unfold addGroup at he
      split at he
      · rcases mem_setKey he with rfl | he
        · simp
        · exact hall e he
      · rename_i fs _
        rcases mem_setKey he with rfl | he
        · intro h0
          have : (seriesGroup sf ss s).2 ∈ addTo (seriesGroup sf ss s).2 fs := mem_addTo.2 (.inl rfl)
          rw [show addTo (seriesGroup sf ss s).2 fs = [] from h0] at this
          cases this
        · exact hall e he

/-- If the shapes are to be left out, nothing can be written for a model with series. -/
theorem C111_removed_violated (hord : ∀ l, (ord l).Perm l) (gs : List (PlainSeries K)) (hne : gs ≠ []) (hr : ∀ s ∈ gs, read s.file = .ok (rows s.file)) :
    writeSeries read percent true sf ss ord (gs.map PlainSeries.object) = .error .keyError := by
  obtain ⟨st, hst, ht, hs, hall⟩ := removed_loop (sf := sf) (ss := ss) (percent := percent) gs hr
  unfold writeSeries
  rw [hst]
  simp only
  rw [ht]
  cases hsub : st.split.subs with
  | nil => exact absurd hsub (hs hne)
  | cons e es =>
    rw [writeSubs]
    have hf : ord e.2 ≠ [] := by
      intro h0
      have hp := (hord e.2).length_eq
      rw [h0] at hp
      exact hall e (by rw [hsub]; simp) (List.length_eq_zero_iff.1 hp.symm)
    cases hof : ord e.2 with
    | nil => exact absurd hof hf
    | cons f fs => rfl

example : exSeries ≠ [] ∧ ∀ s ∈ exSeries, exRead s.file = .ok (exRows s.file) := by decide +kernel

/-- A series without data makes the writing fail if it is the only one of its feeder. -/
theorem C111_only_violated : ∃ a b : DSeries ℚ, b.location = none ∧ a.feeder ≠ b.feeder ∧
    writeSeries exRead (fun _ => "") false true true id [a, b] = .error .keyError :=
  ⟨{ label := some "a", location := some "d.csv", feeder := some "f1", substation := some "s1" }, { label := some "a", feeder := some "f2", substation := some "s1" },
    rfl, by decide, by decide +kernel⟩

end Ditto.Dss
