import Verif.Spec.CymeRegRead
import Verif.Props.CymeSources
import Verif.Props.CymeLoads

/-! C79: regulators of CYME files. -/
namespace Ditto.Cyme
open Ditto Glm Spec

/-! ### parts of a regulator -/

theorem valueAt_cell {N : Type} {num : Text → Option N} (hn : BlankFree num) {attrs cols row : List Text} {v : Values} (h : RowRead attrs cols row v)
    {k : Text} (hk : k ∈ attrs) : NumberAt num cols row k (valueAt num v k) := by
  constructor
  · intro c hc
    unfold valueAt
    rw [floatAt_cell hn h hk hc]
    cases num c <;> rfl
  · intro hno
    have : getEntry k v = none := hasCells_none (hasCells_read h []) fun hh => hno hh.2
    unfold valueAt floatAt
    rw [this]

/-- what is kept of a result -/
def kept {N : Type} : Py N → Option N
  | .error _ => none
  | .ok x => some x

theorem equipmentBand_cell {N : Type} {num : Text → Option N} (hn : BlankFree num) {ecols erow : List Text} {v : Values}
    (h : RowRead regulatorQuery.attrs ecols erow v) : EquipmentBand num ecols erow (kept (equipmentBand num v)) := by
  unfold equipmentBand
  constructor
  · intro hc
    obtain ⟨x, hx⟩ := (read_some h (by decide)).mpr hc
    rw [hx]
    exact valueAt_cell hn h (by decide)
  · intro hno
    rw [show getEntry "forwardbandwidth".toList v = none from hasCells_none (hasCells_read h []) fun hh => hno hh.2]
    exact valueAt_cell hn h (by decide)

theorem bandStep_other {N : Type} {num : Text → Option N} {settings data : Values} {p letter : Char} {k : Text} (h : p ≠ letter) :
    bandStep num settings data p letter k = equipmentBand num data := by
  unfold bandStep
  cases getEntry k settings with
  | none => rfl
  | some _ => exact if_neg h

theorem bandStep_missing {N : Type} {num : Text → Option N} {settings data : Values} {p letter : Char} {k : Text} (h : getEntry k settings = none) :
    bandStep num settings data p letter k = equipmentBand num data := by
  unfold bandStep
  rw [h]

/-- without bandwidths of its own, the bandwidth of the equipment is used -/
theorem bandOf_shared {N : Type} {num : Text → Option N} {settings data : Values} {p : Char}
    (h : ∀ c ∈ ['A', 'B', 'C'], p = c → getEntry (columnOf "bandwidth".toList c) settings = none) :
    bandOf num settings data p = kept (equipmentBand num data) := by
  have step : ∀ c ∈ ['A', 'B', 'C'], bandStep num settings data p c (columnOf "bandwidth".toList c) = equipmentBand num data := by
    intro c hc
    by_cases hp : p = c
    · exact bandStep_missing (h c hc hp)
    · exact bandStep_other hp
  have ha := step 'A' (by decide)
  have hb := step 'B' (by decide)
  have hc := step 'C' (by decide)
  rw [show columnOf "bandwidth".toList 'A' = "bandwidtha".toList by decide] at ha
  rw [show columnOf "bandwidth".toList 'B' = "bandwidthb".toList by decide] at hb
  rw [show columnOf "bandwidth".toList 'C' = "bandwidthc".toList by decide] at hc
  unfold bandOf
  rw [ha, hb, hc]
  cases equipmentBand num data <;> rfl

theorem centerOf_column {N : Type} {num : Text → Option N} {settings : Values} {p : Char} (hp : p = 'A' ∨ p = 'B' ∨ p = 'C') :
    centerOf num settings p = valueAt num settings (columnOf "vset".toList p) ∧ columnOf "vset".toList p ∈ settingQuery.attrs ∧
      columnOf "bandwidth".toList p ∈ settingQuery.attrs := by
  rcases hp with rfl | rfl | rfl
  · exact ⟨by rw [show columnOf "vset".toList 'A' = "vseta".toList by decide]; rfl, by decide, by decide⟩
  · exact ⟨by rw [show columnOf "vset".toList 'B' = "vsetb".toList by decide]; rfl, by decide, by decide⟩
  · exact ⟨by rw [show columnOf "vset".toList 'C' = "vsetc".toList by decide]; rfl, by decide, by decide⟩

theorem winding_ok {N : Type} [Semiring N] {num : Text → Option N} (hn : BlankFree num) {cols row ecols erow : List Text} {v ev : Values}
    (h : RowRead settingQuery.attrs cols row v) (he : RowRead regulatorQuery.attrs ecols erow ev) (p : Char) :
    WindingOk num cols row ecols erow p (regWinding num v ev p) where
  power := thousandAt_cell hn he (by decide)
  connection := by
    constructor
    · intro c hc
      show regConnection v = _
      unfold regConnection
      rw [rowRead_inner h (by decide) hc]
      exact connectionOf_wiring c
    · intro hno
      show regConnection v = _
      unfold regConnection
      rw [show getEntry "conn".toList v = none from hasCells_none (hasCells_read h []) fun hh => hno hh.2]
  phase := rfl

theorem regulator_ok {N : Type} [Semiring N] {num : Text → Option N} (hn : BlankFree num) {cols row ecols erow : List Text} {v ev : Values}
    (h : RowRead settingQuery.attrs cols row v) (he : RowRead regulatorQuery.attrs ecols erow ev) {p : Char} (hp : p = 'A' ∨ p = 'B' ∨ p = 'C')
    (ends : Values) (feeder : Text) (hband : BandAt num cols row ecols erow p (bandOf num v ev p)) :
    RegulatorOk num ends feeder cols row ecols erow p (regulatorOf num (lower (keyOf row)) feeder ends v ev p) where
  name := by
    show "Reg_".toList ++ lower (keyOf row) ++ '_' :: [p] = _
    rw [List.append_assoc _ "_".toList]
    rfl
  feeder := rfl
  start := rfl
  stop := rfl
  phase := rfl
  pt := valueAt_cell hn h (by decide)
  ct := valueAt_cell hn h (by decide)
  center := by
    show NumberAt num cols row _ (centerOf num v p)
    rw [(centerOf_column hp).1]
    exact valueAt_cell hn h (centerOf_column (num := num) (settings := v) hp).2.1
  band := hband
  windings := ⟨_, _, rfl, winding_ok hn h he p, winding_ok hn h he p⟩

/-! ### all the rows -/

theorem regulatorsOf_map {N : Type} [Semiring N] (num : Text → Option N) (sec feeder : Text) (ends settings data : Values) (ps : Text) :
    regulatorsOf num sec (some feeder) ends settings data ps = .ok (ps.map (regulatorOf num sec feeder ends settings data)) := by
  induction ps with
  | nil => rfl
  | cons p ps ih => rw [regulatorsOf, ih]; rfl

/-- the regulators that are made for a row -/
def MadeFor {N : Type} [Semiring N] (num : Text → Option N) (secs : List (Text × Values)) (feeders : List (Text × Text)) (cols ecols : List Text)
    (erows : List (List Text)) (row : List Text) (part : List (ReadRegulator N)) : Prop :=
  ∃ ends feeder phases erow v ev, Refers secs feeders cols row erows ends feeder phases erow ∧ RowRead settingQuery.attrs cols row v ∧
    RowRead regulatorQuery.attrs ecols erow ev ∧ part = phases.map (regulatorOf num (lower (keyOf row)) feeder ends v ev)

theorem row_made {N : Type} [Semiring N] (num : Text → Option N) {secs : List (Text × Values)} {feeders : List (Text × Text)} {cols ecols : List Text}
    {erows : List (List Text)} {regs : List (Text × Values)} (hregs : List.Forall₂ (fun r p => RowRead regulatorQuery.attrs ecols r p.2) erows regs)
    (hkeys : regs.map (·.1) = starred [] (erows.map keyOf)) (hes : ∀ r ∈ erows, '*' ∉ keyOf r) {row : List Text} (hrow : '*' ∉ keyOf row) {v : Values}
    (hv : RowRead settingQuery.attrs cols row v) (hr : ∃ ends feeder phases erow, Refers secs feeders cols row erows ends feeder phases erow) (n : Nat) :
    ∃ part, regulatorsAt num secs feeders regs (keyOf row ++ List.replicate n '*') v = .ok part ∧
      MadeFor num secs feeders cols ecols erows row part := by
  obtain ⟨ends, feeder, phases, erow, h⟩ := hr
  obtain ⟨eq, heq, hfirst⟩ := h.equipment
  have hmem : keyOf erow = eq ∧ erow ∈ erows := by
    have h1 := List.find?_some hfirst
    exact ⟨by simpa using h1, List.mem_of_find?_eq_some hfirst⟩
  obtain ⟨ev, hev, hev2⟩ := (first_starred hregs (by rw [← hmem.1]; exact hes _ hmem.2) hes [] List.not_mem_nil hkeys).1 erow hfirst
  have hsec : rowSection (keyOf row ++ List.replicate n '*') = lower (keyOf row) := by
    unfold rowSection
    rw [stripStars_stars hrow]
  obtain ⟨t, ht⟩ := h.phased
  refine ⟨_, ?_, ends, feeder, phases, erow, v, ev, h, hv, hev2, rfl⟩
  unfold regulatorsAt
  rw [hsec]
  unfold phasedSection
  rw [show getEntry (lower (keyOf row)) secs = some ends from h.section_]
  dsimp only
  rw [ht]
  dsimp only
  unfold phasesOn
  rw [rowRead_inner hv (by decide) h.on]
  dsimp only
  unfold regulatorData
  rw [rowRead_inner hv (by decide) heq]
  dsimp only
  rw [hev, show getEntry (lower (keyOf row)) feeders = some feeder from h.network]
  exact regulatorsOf_map num _ _ _ _ _ _

theorem rows_made {N : Type} [Semiring N] (num : Text → Option N) {secs : List (Text × Values)} {feeders : List (Text × Text)} {cols ecols : List Text}
    {erows : List (List Text)} {regs : List (Text × Values)} (hregs : List.Forall₂ (fun r p => RowRead regulatorQuery.attrs ecols r p.2) erows regs)
    (hkeys : regs.map (·.1) = starred [] (erows.map keyOf)) (hes : ∀ r ∈ erows, '*' ∉ keyOf r) {rows : List (List Text)} {d : List (Text × Values)}
    (hd : List.Forall₂ (fun r p => RowRead settingQuery.attrs cols r p.2) rows d) : ∀ done : List Text, d.map (·.1) = starred done (rows.map keyOf) →
    (∀ r ∈ rows, '*' ∉ keyOf r) →
    (∀ r ∈ rows, ∃ ends feeder phases erow, Refers secs feeders cols r erows ends feeder phases erow) →
    ∃ parts, allRegulators num secs feeders regs d = .ok parts.flatten ∧ List.Forall₂ (MadeFor num secs feeders cols ecols erows) rows parts := by
  induction hd with
  | nil => intro _ _ _ _; exact ⟨[], rfl, .nil⟩
  | @cons r p rows d hp _ ih =>
    intro done hst hs hr
    rw [List.map_cons, List.map_cons, starred, List.cons.injEq] at hst
    obtain ⟨parts, h1, h2⟩ := ih _ hst.2 (fun x hx => hs x (List.mem_cons_of_mem _ hx)) fun x hx => hr x (List.mem_cons_of_mem _ hx)
    obtain ⟨part, h3, h4⟩ := row_made num hregs hkeys hes (hs r List.mem_cons_self) hp (hr r List.mem_cons_self) (done.count (keyOf r))
    refine ⟨part :: parts, ?_, .cons h4 h2⟩
    rw [allRegulators, hst.1, h3]
    dsimp only
    rw [h1]
    rfl

theorem table_rows_mem {ts : List (List Text × Table)} {hs cols : List Text} {rows : List (List Text)} (hT : TableIs ts hs cols rows)
    (hall : ∀ t ∈ ts, ∀ r ∈ t.2.rows, '*' ∉ keyOf r) : ∀ r ∈ rows, '*' ∉ keyOf r := by
  intro r hr
  rcases hT with hT | ⟨-, rfl⟩
  · exact hall _ hT r hr
  · cases hr

theorem all_made {N : Type} [Semiring N] (num : Text → Option N) {secs : List (Text × Values)} {feeders : List (Text × Text)}
    {network equipment cols ecols : List Text} {rows erows : List (List Text)} {ts ts' : List (List Text × Table)}
    (h : Mixed [settingQuery.headers] network ts) (hts : (ts.map (·.1)).Nodup) (h' : Mixed [regulatorQuery.headers] equipment ts')
    (hts' : (ts'.map (·.1)).Nodup) (hstar : ∀ t ∈ ts ++ ts', ∀ r ∈ t.2.rows, '*' ∉ keyOf r) (hset : TableIs ts settingQuery.headers cols rows)
    (hreg : TableIs ts' regulatorQuery.headers ecols erows)
    (hrows : ∀ r ∈ rows, ∃ ends feeder phases erow, Refers secs feeders cols r erows ends feeder phases erow) :
    ∃ parts, parseRegulators num secs feeders network equipment = .ok parts.flatten ∧
      List.Forall₂ (MadeFor num secs feeders cols ecols erows) rows parts := by
  have hs1 : ∀ t ∈ ts, ∀ r ∈ t.2.rows, '*' ∉ keyOf r := fun t ht => hstar t (List.mem_append_left _ ht)
  have hs2 : ∀ t ∈ ts', ∀ r ∈ t.2.rows, '*' ∉ keyOf r := fun t ht => hstar t (List.mem_append_right _ ht)
  obtain ⟨d, h1, h2, h3⟩ := one_read (q := settingQuery) ⟨rfl, by decide⟩ h hts hs1 hset
  obtain ⟨regs, h4, h5, h6⟩ := one_read (q := regulatorQuery) ⟨rfl, by decide⟩ h' hts' hs2 hreg
  obtain ⟨parts, h7, h8⟩ := rows_made num h6 h5 (table_rows_mem hreg hs2) h3 [] h2 (table_rows_mem hset hs1) hrows
  refine ⟨parts, ?_, h8⟩
  unfold parseRegulators
  rw [h1]
  dsimp only
  rw [h4]
  exact h7

/-- C79. Each row of the settings gives one regulator for each of its phases, in order, between the nodes of its section, with the ratios and
the voltage of the row, and the power and the bandwidth of its equipment. Missing: rows with bandwidths of their own, and the voltages. -/
theorem C79_regulators_partial {N : Type} [Semiring N] {num : Text → Option N} (hn : BlankFree num) {secs : List (Text × Values)}
    {feeders : List (Text × Text)} {network equipment cols ecols : List Text} {rows erows : List (List Text)} {ts ts' : List (List Text × Table)}
    (h : Mixed [settingQuery.headers] network ts) (hts : (ts.map (·.1)).Nodup) (h' : Mixed [regulatorQuery.headers] equipment ts')
    (hts' : (ts'.map (·.1)).Nodup) (hstar : ∀ t ∈ ts ++ ts', ∀ r ∈ t.2.rows, '*' ∉ keyOf r) (hset : TableIs ts settingQuery.headers cols rows)
    (hreg : TableIs ts' regulatorQuery.headers ecols erows)
    (hrows : ∀ r ∈ rows, ∃ ends feeder phases erow, Refers secs feeders cols r erows ends feeder phases erow)
    (hphases : ∀ r ∈ rows, ∀ ps, Inner cols r "phaseon".toList ps → ∀ p ∈ ps, p = 'A' ∨ p = 'B' ∨ p = 'C')
    (hown : ∀ r ∈ rows, ∀ p ∈ ['A', 'B', 'C'], ¬∃ c, Cell cols r (columnOf "bandwidth".toList p) c) :
    ∃ parts, parseRegulators num secs feeders network equipment = .ok parts.flatten ∧
      List.Forall₂ (fun r part => ∃ ends feeder phases erow, Refers secs feeders cols r erows ends feeder phases erow ∧
        List.Forall₂ (fun p reg => RegulatorOk num ends feeder cols r ecols erow p reg) phases part) rows parts := by
  obtain ⟨parts, h1, h2⟩ := all_made num h hts h' hts' hstar hset hreg hrows
  refine ⟨parts, h1, ?_⟩
  refine (List.forall₂_and_left _ _ |>.mpr ⟨fun r hr => hr, h2⟩ : List.Forall₂ (fun r part => r ∈ rows ∧ _) rows parts).imp ?_
  rintro r part ⟨hr, ends, feeder, phases, erow, v, ev, hrefers, hv, hev, rfl⟩
  refine ⟨ends, feeder, phases, erow, hrefers, ?_⟩
  rw [List.forall₂_map_right_iff, List.forall₂_same]
  intro p hp
  have hp' := hphases r hr phases hrefers.on p hp
  refine regulator_ok hn hv hev hp' ends feeder ?_
  have hno : ¬∃ c, Cell cols r (columnOf "bandwidth".toList p) c := hown r hr p (by rcases hp' with rfl | rfl | rfl <;> decide)
  refine ⟨fun c hc => absurd ⟨c, hc⟩ hno, fun _ => ?_⟩
  rw [bandOf_shared]
  · exact equipmentBand_cell hn hev
  · intro c hc _
    exact hasCells_none (hasCells_read hv []) fun hh => hown r hr c hc hh.2

/-- a row that stops the reading, after rows that do not -/
theorem rows_stop {N : Type} [Semiring N] (num : Text → Option N) {secs : List (Text × Values)} {feeders : List (Text × Text)} {cols ecols : List Text}
    {erows : List (List Text)} {regs : List (Text × Values)} (hregs : List.Forall₂ (fun r p => RowRead regulatorQuery.attrs ecols r p.2) erows regs)
    (hkeys : regs.map (·.1) = starred [] (erows.map keyOf)) (hes : ∀ r ∈ erows, '*' ∉ keyOf r) {bad : List Text} {err : PyErr} {post : List (List Text)}
    (hbad : ∀ (n : Nat) v, RowRead settingQuery.attrs cols bad v →
      regulatorsAt num secs feeders regs (keyOf bad ++ List.replicate n '*') v = .error err) : ∀ (pre : List (List Text)) (d : List (Text × Values)),
    List.Forall₂ (fun r p => RowRead settingQuery.attrs cols r p.2) (pre ++ bad :: post) d → ∀ done : List Text,
    d.map (·.1) = starred done ((pre ++ bad :: post).map keyOf) → (∀ r ∈ pre, '*' ∉ keyOf r) →
    (∀ r ∈ pre, ∃ ends feeder phases erow, Refers secs feeders cols r erows ends feeder phases erow) →
    allRegulators num secs feeders regs d = .error err := by
  intro pre
  induction pre with
  | nil =>
    intro d hd done hst _ _
    rw [List.nil_append] at hd hst
    cases hd with
    | @cons _ p _ d hp _ =>
      rw [List.map_cons, List.map_cons, starred, List.cons.injEq] at hst
      rw [allRegulators, hst.1, hbad _ _ hp]
  | cons r pre ih =>
    intro d hd done hst hs hr
    rw [List.cons_append] at hd hst
    cases hd with
    | @cons _ p _ d hp hd =>
      rw [List.map_cons, List.map_cons, starred, List.cons.injEq] at hst
      obtain ⟨part, h3, h4⟩ := row_made num hregs hkeys hes (hs r List.mem_cons_self) hp (hr r List.mem_cons_self) (done.count (keyOf r))
      rw [allRegulators, hst.1, h3]
      dsimp only
      rw [ih d hd _ hst.2 (fun x hx => hs x (List.mem_cons_of_mem _ hx)) fun x hx => hr x (List.mem_cons_of_mem _ hx)]

/-- A row for a section that is not known, or whose phases are not known, stops the reading, and so does a row without phases, and a row with phases
for a section without a feeder. -/
theorem C79_errors {N : Type} [Semiring N] (num : Text → Option N) {secs : List (Text × Values)}
    {feeders : List (Text × Text)} {network equipment cols ecols : List Text} {pre post erows : List (List Text)} {bad : List Text}
    {ts ts' : List (List Text × Table)}
    (h : Mixed [settingQuery.headers] network ts) (hts : (ts.map (·.1)).Nodup) (h' : Mixed [regulatorQuery.headers] equipment ts')
    (hts' : (ts'.map (·.1)).Nodup) (hstar : ∀ t ∈ ts ++ ts', ∀ r ∈ t.2.rows, '*' ∉ keyOf r)
    (hset : TableIs ts settingQuery.headers cols (pre ++ bad :: post)) (hreg : TableIs ts' regulatorQuery.headers ecols erows)
    (hrows : ∀ r ∈ pre, ∃ ends feeder phases erow, Refers secs feeders cols r erows ends feeder phases erow) :
    ((∀ s, getEntry ((keyOf bad).map Char.toLower) secs = some s → getEntry "phase".toList s = none) →
      parseRegulators num secs feeders network equipment = .error .valueError) ∧
    ((¬∃ c, Cell cols bad "phaseon".toList c) → parseRegulators num secs feeders network equipment = .error .valueError) ∧
    (∀ s t c, getEntry ((keyOf bad).map Char.toLower) secs = some s → getEntry "phase".toList s = some t → Inner cols bad "phaseon".toList c → c ≠ [] →
      getEntry ((keyOf bad).map Char.toLower) feeders = none → parseRegulators num secs feeders network equipment = .error .keyError) := by
  have hs1 : ∀ t ∈ ts, ∀ r ∈ t.2.rows, '*' ∉ keyOf r := fun t ht => hstar t (List.mem_append_left _ ht)
  have hs2 : ∀ t ∈ ts', ∀ r ∈ t.2.rows, '*' ∉ keyOf r := fun t ht => hstar t (List.mem_append_right _ ht)
  obtain ⟨d, h1, h2, h3⟩ := one_read (q := settingQuery) ⟨rfl, by decide⟩ h hts hs1 hset
  obtain ⟨regs, h4, h5, h6⟩ := one_read (q := regulatorQuery) ⟨rfl, by decide⟩ h' hts' hs2 hreg
  have hall := table_rows_mem hset hs1
  have run : ∀ err, (∀ (n : Nat) v, RowRead settingQuery.attrs cols bad v →
      regulatorsAt num secs feeders regs (keyOf bad ++ List.replicate n '*') v = .error err) →
      parseRegulators num secs feeders network equipment = .error err := by
    intro err hbad
    unfold parseRegulators
    rw [h1]
    dsimp only
    rw [h4]
    exact rows_stop num h6 h5 (table_rows_mem hreg hs2) hbad pre d h3 [] h2 (fun r hr => hall r (List.mem_append_left _ hr)) hrows
  have hsec : ∀ n : Nat, rowSection (keyOf bad ++ List.replicate n '*') = lower (keyOf bad) := by
    intro n
    unfold rowSection
    rw [stripStars_stars (hall bad (List.mem_append_right _ List.mem_cons_self))]
  refine ⟨fun hno => run _ fun n v hv => ?_, fun hno => run _ fun n v hv => ?_, fun s t c hs ht hc hne hf => run _ fun n v hv => ?_⟩
  · unfold regulatorsAt
    rw [hsec]
    unfold phasedSection
    cases hg : getEntry (lower (keyOf bad)) secs with
    | none => rfl
    | some s =>
      dsimp only
      rw [hno s hg]
  · unfold regulatorsAt
    rw [hsec]
    unfold phasedSection phasesOn
    rw [show getEntry "phaseon".toList v = none from hasCells_none (hasCells_read hv []) fun hh => hno hh.2]
    cases getEntry (lower (keyOf bad)) secs with
    | none => rfl
    | some s =>
      dsimp only
      cases getEntry "phase".toList s <;> rfl
  · unfold regulatorsAt
    rw [hsec]
    unfold phasedSection phasesOn
    rw [show getEntry (lower (keyOf bad)) secs = some s from hs]
    dsimp only
    rw [ht, rowRead_inner hv (by decide) hc, show getEntry (lower (keyOf bad)) feeders = none from hf]
    dsimp only
    cases c with
    | nil => exact absurd rfl hne
    | cons p ps => rfl

/-! ### where it fails -/

theorem band_unique {N : Type} {num : Text → Option N} {ecols erow : List Text} {a b : Option N} (ha : EquipmentBand num ecols erow a)
    (hb : EquipmentBand num ecols erow b) : a = b := by
  have number : ∀ {k : Text}, NumberAt num ecols erow k a → NumberAt num ecols erow k b → a = b := by
    intro k ha hb
    by_cases hc : ∃ c, Cell ecols erow k c
    · obtain ⟨c, hc⟩ := hc
      rw [ha.1 c hc, hb.1 c hc]
    · rw [ha.2 hc, hb.2 hc]
  by_cases hc : ∃ c, Cell ecols erow "forwardbandwidth".toList c
  · exact number (ha.1 hc) (hb.1 hc)
  · exact number (ha.2 hc) (hb.2 hc)

theorem kept_some {N : Type} {x : Py N} {e : N} (h : kept x = some e) : x = .ok e := by
  cases x with
  | error _ => cases h
  | ok y => injection h with h; rw [h]

/-- a readable bandwidth of the phase itself -/
theorem bandStep_own {N : Type} {num : Text → Option N} (hn : BlankFree num) {cols row : List Text} {v ev : Values}
    (h : RowRead settingQuery.attrs cols row v) {p : Char} {k c : Text} (hk : k ∈ settingQuery.attrs) (hc : Cell cols row k c) {x : N}
    (hx : num c = some x) : bandStep num v ev p p k = .ok x := by
  obtain ⟨y, hy⟩ := (read_some h hk).mpr ⟨c, hc⟩
  unfold bandStep
  rw [hy]
  dsimp only
  rw [if_pos rfl, floatAt_cell hn h hk hc, hx]

/-- The bandwidths that a row gives for phases A and B are not used: the regulators have the bandwidth of the equipment. -/
theorem C79_bandwidth_violated {N : Type} [Semiring N] {num : Text → Option N} (hn : BlankFree num) {secs : List (Text × Values)}
    {feeders : List (Text × Text)} {network equipment cols ecols : List Text} {rows erows : List (List Text)} {ts ts' : List (List Text × Table)}
    (h : Mixed [settingQuery.headers] network ts) (hts : (ts.map (·.1)).Nodup) (h' : Mixed [regulatorQuery.headers] equipment ts')
    (hts' : (ts'.map (·.1)).Nodup) (hstar : ∀ t ∈ ts ++ ts', ∀ r ∈ t.2.rows, '*' ∉ keyOf r) (hset : TableIs ts settingQuery.headers cols rows)
    (hreg : TableIs ts' regulatorQuery.headers ecols erows)
    (hrows : ∀ r ∈ rows, ∃ ends feeder phases erow, Refers secs feeders cols r erows ends feeder phases erow)
    (hown : ∀ r ∈ rows, ∀ p ∈ ['A', 'B'], ∃ c x, Cell cols r (columnOf "bandwidth".toList p) c ∧ num c = some x) :
    ∃ parts, parseRegulators num secs feeders network equipment = .ok parts.flatten ∧
      List.Forall₂ (fun r part => ∃ ends feeder phases erow, Refers secs feeders cols r erows ends feeder phases erow ∧
        List.Forall₂ (fun p reg => p = 'A' ∨ p = 'B' → reg.phase = p ∧ ∀ e, EquipmentBand num ecols erow (some e) → reg.band = some e)
          phases part) rows parts := by
  obtain ⟨parts, h1, h2⟩ := all_made num h hts h' hts' hstar hset hreg hrows
  refine ⟨parts, h1, ?_⟩
  refine (List.forall₂_and_left _ _ |>.mpr ⟨fun r hr => hr, h2⟩ : List.Forall₂ (fun r part => r ∈ rows ∧ _) rows parts).imp ?_
  rintro r part ⟨hr, ends, feeder, phases, erow, v, ev, hrefers, hv, hev, rfl⟩
  refine ⟨ends, feeder, phases, erow, hrefers, ?_⟩
  rw [List.forall₂_map_right_iff, List.forall₂_same]
  intro p _ hp
  refine ⟨rfl, fun e he => ?_⟩
  have hb := kept_some (band_unique (equipmentBand_cell hn hev) he)
  show bandOf num v ev p = some e
  rcases hp with rfl | rfl
  · obtain ⟨c, x, hc, hx⟩ := hown r hr 'A' (by decide)
    rw [show columnOf "bandwidth".toList 'A' = "bandwidtha".toList by decide] at hc
    unfold bandOf
    rw [bandStep_own hn hv (by decide) hc hx, bandStep_other (show 'A' ≠ 'B' by decide), bandStep_other (show 'A' ≠ 'C' by decide), hb]
  · unfold bandOf
    obtain ⟨c, x, hc, hx⟩ := hown r hr 'B' (by decide)
    rw [show columnOf "bandwidth".toList 'B' = "bandwidthb".toList by decide] at hc
    rw [bandStep_other (show 'B' ≠ 'A' by decide), bandStep_own hn hv (by decide) hc hx, bandStep_other (show 'B' ≠ 'C' by decide), hb]

/-- The bandwidth that a row gives for phase C is used, if that of the equipment can be read too. -/
theorem C79_third_band_partial {N : Type} [Semiring N] {num : Text → Option N} (hn : BlankFree num) {secs : List (Text × Values)}
    {feeders : List (Text × Text)} {network equipment cols ecols : List Text} {rows erows : List (List Text)} {ts ts' : List (List Text × Table)}
    (h : Mixed [settingQuery.headers] network ts) (hts : (ts.map (·.1)).Nodup) (h' : Mixed [regulatorQuery.headers] equipment ts')
    (hts' : (ts'.map (·.1)).Nodup) (hstar : ∀ t ∈ ts ++ ts', ∀ r ∈ t.2.rows, '*' ∉ keyOf r) (hset : TableIs ts settingQuery.headers cols rows)
    (hreg : TableIs ts' regulatorQuery.headers ecols erows)
    (hrows : ∀ r ∈ rows, ∃ ends feeder phases erow, Refers secs feeders cols r erows ends feeder phases erow) :
    ∃ parts, parseRegulators num secs feeders network equipment = .ok parts.flatten ∧
      List.Forall₂ (fun r part => ∃ ends feeder phases erow, Refers secs feeders cols r erows ends feeder phases erow ∧
        List.Forall₂ (fun p reg => p = 'C' → ∀ e c x, EquipmentBand num ecols erow (some e) → Cell cols r "bandwidthc".toList c → num c = some x →
          reg.band = some x) phases part) rows parts := by
  obtain ⟨parts, h1, h2⟩ := all_made num h hts h' hts' hstar hset hreg hrows
  refine ⟨parts, h1, h2.imp ?_⟩
  rintro r part ⟨ends, feeder, phases, erow, v, ev, hrefers, hv, hev, rfl⟩
  refine ⟨ends, feeder, phases, erow, hrefers, ?_⟩
  rw [List.forall₂_map_right_iff, List.forall₂_same]
  rintro p _ rfl e c x he hc hx
  have hb := kept_some (band_unique (equipmentBand_cell hn hev) he)
  show bandOf num v ev 'C' = some x
  unfold bandOf
  rw [bandStep_other (show 'C' ≠ 'A' by decide), bandStep_other (show 'C' ≠ 'B' by decide), hb, bandStep_own hn hv (by decide) hc hx]

/-- The voltages of the windings are the numbers of the equipment, in kV. -/
theorem C79_voltage_violated {N : Type} [Semiring N] {num : Text → Option N} (hn : BlankFree num) {secs : List (Text × Values)}
    {feeders : List (Text × Text)} {network equipment cols ecols : List Text} {rows erows : List (List Text)} {ts ts' : List (List Text × Table)}
    (h : Mixed [settingQuery.headers] network ts) (hts : (ts.map (·.1)).Nodup) (h' : Mixed [regulatorQuery.headers] equipment ts')
    (hts' : (ts'.map (·.1)).Nodup) (hstar : ∀ t ∈ ts ++ ts', ∀ r ∈ t.2.rows, '*' ∉ keyOf r) (hset : TableIs ts settingQuery.headers cols rows)
    (hreg : TableIs ts' regulatorQuery.headers ecols erows)
    (hrows : ∀ r ∈ rows, ∃ ends feeder phases erow, Refers secs feeders cols r erows ends feeder phases erow) :
    ∃ parts, parseRegulators num secs feeders network equipment = .ok parts.flatten ∧
      List.Forall₂ (fun r part => ∃ ends feeder phases erow, Refers secs feeders cols r erows ends feeder phases erow ∧
        List.Forall₂ (fun p reg => reg.phase = p ∧ reg.windings.length = 2 ∧ ∀ w ∈ reg.windings, NumberAt num ecols erow "kvln".toList w.voltage)
          phases part) rows parts := by
  obtain ⟨parts, h1, h2⟩ := all_made num h hts h' hts' hstar hset hreg hrows
  refine ⟨parts, h1, h2.imp ?_⟩
  rintro r part ⟨ends, feeder, phases, erow, v, ev, hrefers, hv, hev, rfl⟩
  refine ⟨ends, feeder, phases, erow, hrefers, ?_⟩
  rw [List.forall₂_map_right_iff, List.forall₂_same]
  intro p _
  refine ⟨rfl, rfl, fun w hw => ?_⟩
  have : w = regWinding num v ev p := by
    rcases List.mem_cons.mp hw with rfl | hw
    · rfl
    · exact List.mem_singleton.mp hw
  rw [this]
  exact valueAt_cell hn hev (by decide)

/-- A row with a number for its phases gives one regulator whose phase is the digit, without a voltage. -/
theorem C79_number_violated {N : Type} [Semiring N] (num : Text → Option N) {secs : List (Text × Values)}
    {feeders : List (Text × Text)} {network equipment cols ecols : List Text} {rows erows : List (List Text)} {ts ts' : List (List Text × Table)}
    (h : Mixed [settingQuery.headers] network ts) (hts : (ts.map (·.1)).Nodup) (h' : Mixed [regulatorQuery.headers] equipment ts')
    (hts' : (ts'.map (·.1)).Nodup) (hstar : ∀ t ∈ ts ++ ts', ∀ r ∈ t.2.rows, '*' ∉ keyOf r) (hset : TableIs ts settingQuery.headers cols rows)
    (hreg : TableIs ts' regulatorQuery.headers ecols erows)
    (hrows : ∀ r ∈ rows, ∃ ends feeder phases erow, Refers secs feeders cols r erows ends feeder phases erow) :
    ∃ parts, parseRegulators num secs feeders network equipment = .ok parts.flatten ∧
      List.Forall₂ (fun r part => ∀ d ∈ "01234567".toList, Inner cols r "phaseon".toList [d] → ∃ reg : ReadRegulator N, part = [reg] ∧
        reg.phase = d ∧ reg.center = none) rows parts := by
  obtain ⟨parts, h1, h2⟩ := all_made num h hts h' hts' hstar hset hreg hrows
  refine ⟨parts, h1, h2.imp ?_⟩
  rintro r part ⟨ends, feeder, phases, erow, v, ev, hrefers, hv, hev, rfl⟩ d hd hin
  have hph : phases = [d] := by
    have h1 := rowRead_inner hv (by decide) hrefers.on
    rw [rowRead_inner hv (by decide) hin] at h1
    injection h1 with h1
    exact h1.symm
  subst hph
  refine ⟨_, rfl, rfl, ?_⟩
  show centerOf num v d = none
  have hne : d ≠ 'A' ∧ d ≠ 'B' ∧ d ≠ 'C' :=
    (show ∀ d ∈ "01234567".toList, d ≠ 'A' ∧ d ≠ 'B' ∧ d ≠ 'C' by decide) d hd
  unfold centerOf
  rw [if_neg hne.1, if_neg hne.2.1, if_neg hne.2.2]

/-! ### examples -/

/-- two regulators on a section -/
def settingsFile : List Text :=
  ["[REGULATOR SETTING]\n".toList, "FORMAT_REGULATORSETTING=SectionID,EqID,PhaseOn,CT,PT,VsetA,VsetB,VsetC,Conn,TapA\n".toList,
    "S1,R1,AC,1,2,3,4,5,Delta,0\n".toList, "S1,R2,B,1,2,3,4,5,Y,0\n".toList, "\n".toList]

def settingsCols : List Text :=
  ["SectionID".toList, "EqID".toList, "PhaseOn".toList, "CT".toList, "PT".toList, "VsetA".toList, "VsetB".toList, "VsetC".toList, "Conn".toList,
    "TapA".toList]

def settingsRow (eq ph conn : Text) : List Text :=
  ["S1".toList, eq, ph, "1".toList, "2".toList, "3".toList, "4".toList, "5".toList, conn, "0".toList]

def settingsRows : List (List Text) := [settingsRow "R1".toList "AC".toList "Delta".toList, settingsRow "R2".toList "B".toList "Y".toList]

def regulatorsFile : List Text :=
  ["[REGULATOR]\n".toList, "FORMAT_REGULATOR=ID,KVA,KVLN,Bandwidth\n".toList, "R1,6,7,8\n".toList, "R2,5,7,9\n".toList, "\n".toList]

def regulatorsCols : List Text := ["ID".toList, "KVA".toList, "KVLN".toList, "Bandwidth".toList]

def regulatorsRows : List (List Text) :=
  [["R1".toList, "6".toList, "7".toList, "8".toList], ["R2".toList, "5".toList, "7".toList, "9".toList]]

def oneFeeder : List (Text × Text) := [("s1".toList, "F".toList)]

theorem settingsFile_mixed : Mixed [settingQuery.headers] settingsFile [(settingQuery.headers, ⟨settingsCols, settingsRows⟩)] := by
  refine Mixed.table (lines := ["S1,R1,AC,1,2,3,4,5,Delta,0\n".toList, "S1,R2,B,1,2,3,4,5,Y,0\n".toList]) (blank := "\n".toList) (by decide)
    ((isHeader_iff _ _).mp (by decide)) (fun hs hm _ => List.mem_singleton.mp hm)
    (ex_format (name := "FORMAT_REGULATORSETTING".toList) (e := ['\n']) (by decide) (by decide) (Or.inr (Or.inl rfl)) (by decide) (by decide) (by decide))
    (.cons (ex_row (e := ['\n']) (by decide) (by decide) (Or.inr (Or.inl rfl)) (by decide) (by decide))
      (.cons (ex_row (e := ['\n']) (by decide) (by decide) (Or.inr (Or.inl rfl)) (by decide) (by decide)) .nil)) (by decide) .nil

theorem regulatorsFile_mixed : Mixed [regulatorQuery.headers] regulatorsFile [(regulatorQuery.headers, ⟨regulatorsCols, regulatorsRows⟩)] := by
  refine Mixed.table (lines := ["R1,6,7,8\n".toList, "R2,5,7,9\n".toList]) (blank := "\n".toList) (by decide)
    ((isHeader_iff _ _).mp (by decide)) (fun hs hm _ => List.mem_singleton.mp hm)
    (ex_format (name := "FORMAT_REGULATOR".toList) (e := ['\n']) (by decide) (by decide) (Or.inr (Or.inl rfl)) (by decide) (by decide) (by decide))
    (.cons (ex_row (e := ['\n']) (by decide) (by decide) (Or.inr (Or.inl rfl)) (by decide) (by decide))
      (.cons (ex_row (e := ['\n']) (by decide) (by decide) (Or.inr (Or.inl rfl)) (by decide) (by decide)) .nil)) (by decide) .nil

theorem settings_refer : ∀ r ∈ settingsRows, ∃ ends feeder phases erow, Refers oneSection oneFeeder settingsCols r regulatorsRows ends feeder phases erow := by
  intro r hr
  rcases List.mem_cons.mp hr with rfl | hr
  · exact ⟨_, _, _, ["R1".toList, "6".toList, "7".toList, "8".toList], rfl, ⟨_, rfl⟩, rfl, inner_at 2 (by decide) rfl (by decide) (by decide), "R1".toList,
      inner_at 1 (by decide) rfl (by decide) (by decide), by unfold FirstRow; decide⟩
  · rw [List.mem_singleton.mp hr]
    exact ⟨_, _, _, ["R2".toList, "5".toList, "7".toList, "9".toList], rfl, ⟨_, rfl⟩, rfl, inner_at 2 (by decide) rfl (by decide) (by decide), "R2".toList,
      inner_at 1 (by decide) rfl (by decide) (by decide), by unfold FirstRow; decide⟩

theorem column_once {cols row : List Text} {k c d : Text} (i : Nat) (h1 : (cols[i]?).map (List.map Char.toLower) = some k) (h2 : row[i]? = some c)
    (h3 : k ∉ (cols.drop (i + 1)).map (List.map Char.toLower)) (h : Inner cols row k d) : d = c := by
  obtain ⟨j, hj, hj2, -⟩ := h
  obtain ⟨i', hi, hi2⟩ := cell_at i h1 h2 h3
  have : i' = j := by
    rcases Nat.lt_trichotomy i' j with h | h | h
    · exact absurd hj.1 (hi.2 j h)
    · exact h
    · exact absurd hi.1 (hj.2 i' h)
  rw [this, hj2] at hi2
  injection hi2

/-- three regulators are read -/
example : ∃ parts, parseRegulators digitOf oneSection oneFeeder settingsFile regulatorsFile = .ok parts.flatten ∧
      List.Forall₂ (fun r part => ∃ ends feeder phases erow, Refers oneSection oneFeeder settingsCols r regulatorsRows ends feeder phases erow ∧
        List.Forall₂ (fun p reg => RegulatorOk digitOf ends feeder settingsCols r regulatorsCols erow p reg) phases part) settingsRows parts := by
  refine C79_regulators_partial digitOf_blank settingsFile_mixed (by decide) regulatorsFile_mixed (by decide) (by decide) (Or.inl List.mem_cons_self)
    (Or.inl List.mem_cons_self) settings_refer ?_ ?_
  · intro r hr ps hps
    rcases List.mem_cons.mp hr with rfl | hr
    · rw [column_once (c := "AC".toList) 2 (by decide) rfl (by decide) hps]; decide
    · rw [List.mem_singleton.mp hr] at hps
      rw [column_once (c := "B".toList) 2 (by decide) rfl (by decide) hps]; decide
  · intro r _ p hp
    exact no_cell ((show ∀ p ∈ ['A', 'B', 'C'], columnOf "bandwidth".toList p ∉ settingsCols.map (List.map Char.toLower) by decide) p hp)

/-- the windings have 7 V instead of 7 kV -/
example : parseRegulators digitOf oneSection oneFeeder settingsFile regulatorsFile = .ok [
    ⟨"Reg_s1_A".toList, "F".toList, some "N1".toList, some "N2".toList, 'A', some 2, some 1, some 3, some 8,
      List.replicate 2 ⟨some 6000, some "D".toList, some 7, 'A'⟩⟩,
    ⟨"Reg_s1_C".toList, "F".toList, some "N1".toList, some "N2".toList, 'C', some 2, some 1, some 5, some 8,
      List.replicate 2 ⟨some 6000, some "D".toList, some 7, 'C'⟩⟩,
    ⟨"Reg_s1_B".toList, "F".toList, some "N1".toList, some "N2".toList, 'B', some 2, some 1, some 4, some 9,
      List.replicate 2 ⟨some 5000, some "Y".toList, some 7, 'B'⟩⟩] := by
  decide +kernel

example : ∃ parts, parseRegulators digitOf oneSection oneFeeder settingsFile regulatorsFile = .ok parts.flatten ∧
      List.Forall₂ (fun r part => ∃ ends feeder phases erow, Refers oneSection oneFeeder settingsCols r regulatorsRows ends feeder phases erow ∧
        List.Forall₂ (fun p reg => reg.phase = p ∧ reg.windings.length = 2 ∧
          ∀ w ∈ reg.windings, NumberAt digitOf regulatorsCols erow "kvln".toList w.voltage) phases part) settingsRows parts :=
  C79_voltage_violated digitOf_blank settingsFile_mixed (by decide) regulatorsFile_mixed (by decide) (by decide) (Or.inl List.mem_cons_self)
    (Or.inl List.mem_cons_self) settings_refer

/-- a section that is not known -/
example : parseRegulators digitOf [] oneFeeder settingsFile regulatorsFile = .error .valueError :=
  (C79_errors (pre := []) (bad := settingsRow "R1".toList "AC".toList "Delta".toList) digitOf settingsFile_mixed (by decide) regulatorsFile_mixed
    (by decide) (by decide) (Or.inl List.mem_cons_self) (Or.inl List.mem_cons_self) (fun r hr => absurd hr List.not_mem_nil)).1 (fun s hs => by cases hs)

/-- rows with bandwidths of their own -/
def ownFile : List Text :=
  ["[REGULATOR SETTING]\n".toList, "FORMAT_REGULATORSETTING=SectionID,EqID,PhaseOn,BandwidthA,BandwidthB,BandwidthC,TapA\n".toList,
    "S1,R1,ABC,1,2,3,0\n".toList, "S1,R1,7,1,2,3,0\n".toList, "\n".toList]

def ownCols : List Text :=
  ["SectionID".toList, "EqID".toList, "PhaseOn".toList, "BandwidthA".toList, "BandwidthB".toList, "BandwidthC".toList, "TapA".toList]

def ownRow (ph : Text) : List Text := ["S1".toList, "R1".toList, ph, "1".toList, "2".toList, "3".toList, "0".toList]

def ownRows : List (List Text) := [ownRow "ABC".toList, ownRow "7".toList]

theorem ownFile_mixed : Mixed [settingQuery.headers] ownFile [(settingQuery.headers, ⟨ownCols, ownRows⟩)] := by
  refine Mixed.table (lines := ["S1,R1,ABC,1,2,3,0\n".toList, "S1,R1,7,1,2,3,0\n".toList]) (blank := "\n".toList) (by decide)
    ((isHeader_iff _ _).mp (by decide)) (fun hs hm _ => List.mem_singleton.mp hm)
    (ex_format (name := "FORMAT_REGULATORSETTING".toList) (e := ['\n']) (by decide) (by decide) (Or.inr (Or.inl rfl)) (by decide) (by decide) (by decide))
    (.cons (ex_row (e := ['\n']) (by decide) (by decide) (Or.inr (Or.inl rfl)) (by decide) (by decide))
      (.cons (ex_row (e := ['\n']) (by decide) (by decide) (Or.inr (Or.inl rfl)) (by decide) (by decide)) .nil)) (by decide) .nil

theorem own_refer : ∀ r ∈ ownRows, ∃ ends feeder phases erow, Refers oneSection oneFeeder ownCols r regulatorsRows ends feeder phases erow := by
  intro r hr
  have : ∃ ph, r = ownRow ph := by
    rcases List.mem_cons.mp hr with rfl | hr
    · exact ⟨_, rfl⟩
    · exact ⟨_, List.mem_singleton.mp hr⟩
  obtain ⟨ph, rfl⟩ := this
  exact ⟨_, _, ph, ["R1".toList, "6".toList, "7".toList, "8".toList], rfl, ⟨_, rfl⟩, rfl, inner_at 2 (by decide) rfl (by decide) (by show 3 < 7; omega),
    "R1".toList, inner_at 1 (by decide) rfl (by decide) (by show 2 < 7; omega), by unfold FirstRow; decide⟩

example : ∃ parts, parseRegulators digitOf oneSection oneFeeder ownFile regulatorsFile = .ok parts.flatten ∧
      List.Forall₂ (fun r part => ∃ ends feeder phases erow, Refers oneSection oneFeeder ownCols r regulatorsRows ends feeder phases erow ∧
        List.Forall₂ (fun p reg => p = 'A' ∨ p = 'B' → reg.phase = p ∧
          ∀ e, EquipmentBand digitOf regulatorsCols erow (some e) → reg.band = some e) phases part) ownRows parts := by
  refine C79_bandwidth_violated digitOf_blank ownFile_mixed (by decide) regulatorsFile_mixed (by decide) (by decide) (Or.inl List.mem_cons_self)
    (Or.inl List.mem_cons_self) own_refer ?_
  intro r hr p hp
  have : ∃ ph, r = ownRow ph := by
    rcases List.mem_cons.mp hr with rfl | hr
    · exact ⟨_, rfl⟩
    · exact ⟨_, List.mem_singleton.mp hr⟩
  obtain ⟨ph, rfl⟩ := this
  rcases List.mem_cons.mp hp with rfl | hp
  · exact ⟨"1".toList, 1, cell_at 3 (by decide) rfl (by decide), by decide⟩
  · rw [List.mem_singleton.mp hp]
    exact ⟨"2".toList, 2, cell_at 4 (by decide) rfl (by decide), by decide⟩

/-- phases A and B have the bandwidth 8 of the equipment, phase C has its own one; the phases of the second row are one phase 7 -/
example : (parseRegulators digitOf oneSection oneFeeder ownFile regulatorsFile).map (fun rs => rs.map fun r => (r.phase, r.band)) =
    .ok [('A', some 8), ('B', some 8), ('C', some 3), ('7', some 8)] := by
  decide +kernel

example : ∃ parts, parseRegulators digitOf oneSection oneFeeder ownFile regulatorsFile = .ok parts.flatten ∧
      List.Forall₂ (fun r part => ∀ d ∈ "01234567".toList, Inner ownCols r "phaseon".toList [d] → ∃ reg : ReadRegulator Nat, part = [reg] ∧
        reg.phase = d ∧ reg.center = none) ownRows parts :=
  C79_number_violated digitOf ownFile_mixed (by decide) regulatorsFile_mixed (by decide) (by decide) (Or.inl List.mem_cons_self)
    (Or.inl List.mem_cons_self) own_refer

end Ditto.Cyme
