import Verif.Spec.DssGeometry
import Verif.Props.DssLines

/-! C55: lines described by a geometry keep the positions and data of their wires in OpenDSS files. -/
namespace Ditto.Dss
open Ditto Ditto.Spec

/-- the loop over the wires, with an invariant of the current data -/
theorem readGeoWires_spec {wires cables : List (String × WireInfo)} {g : GeoInfo} {switch : Bool} {ns : List Nat} {length : Option ℚ}
    (I : CurData → Prop) (Q : Nat → GWire → Prop) : ∀ (ps : List Nat) (data : CurData), I data →
    (∀ p ∈ ps, ∀ data, I data → ∃ gw data', readGeoWire wires cables g switch ns length data p = .ok (gw, data') ∧ I data' ∧ Q p gw) →
    ∃ gws, readGeoWires wires cables g switch ns length data ps = .ok gws ∧ List.Forall₂ Q ps gws := by
  intro ps
  induction ps with
  | nil => intro data _ _; exact ⟨[], rfl, .nil⟩
  | cons p ps ih =>
    intro data hI h
    obtain ⟨gw, data', h1, h2, h3⟩ := h p List.mem_cons_self data hI
    obtain ⟨gws, h4, h5⟩ := ih data' h2 fun q hq => h q (List.mem_cons_of_mem _ hq)
    refine ⟨gw :: gws, ?_, .cons h3 h5⟩
    unfold readGeoWires
    rw [h1]
    simp only
    rw [h4]

/-- from positions to elements -/
theorem forall2_range {α β : Type} {R : α → β → Prop} {as : List α} {bs : List β}
    (h : List.Forall₂ (fun p b => ∃ a, as[p]? = some a ∧ R a b) (List.range as.length) bs) : List.Forall₂ R as bs := by
  have hl := h.length_eq
  rw [List.length_range] at hl
  rw [List.forall₂_iff_get] at h ⊢
  refine ⟨hl, fun i h1 h2 => ?_⟩
  obtain ⟨a, ha, hr⟩ := h.2 i (by simpa using h1) h2
  simp only [List.get_eq_getElem, List.getElem_range] at ha hr ⊢
  rw [List.getElem?_eq_getElem h1] at ha
  injection ha with ha
  rw [ha]
  exact hr

theorem toMeters_m {u : String} (hu : pyLower u = "m") (q : Option ℚ) (i : Units.InverseArg) : Units.toMeters q (.str u) i = q := by
  cases q <;> simp [Units.toMeters, hu]

/-- an ampacity which is neither 0 nor -1 -/
def Amps (v : ℚ) : Prop := v ≠ 0 ∧ v ≠ -1

theorem ampsOf_wire {v : ℚ} (h : Amps v) (data : Option ℚ) : ampsOf data (some v) = some v := by
  have : cleanAmps (some v) = some v := by simp [cleanAmps, h.1, h.2]
  unfold ampsOf
  simp only [orElse, this]

/-- the phases that are read for the wires of a line whose neutrals come last -/
theorem phase_of {ph ne : List DWire} {ns : List Nat} (hph : ns.map ofDssPhase = ph.map (·.phase)) (hne : ∀ w ∈ ne, w.phase = some "N") {p : Nat} {w : DWire}
    (hw : (ph ++ ne)[p]? = some w) : (match ns[p]? with | some n => ofDssPhase n | none => some "N") = w.phase := by
  have hl : ns.length = ph.length := by simpa using congrArg List.length hph
  by_cases hp : p < ph.length
  · rw [List.getElem?_append_left hp] at hw
    have h1 := congrArg (·[p]?) hph
    simp only [List.getElem?_map, hw, Option.map_some] at h1
    cases h2 : ns[p]? with
    | none => rw [h2] at h1; cases h1
    | some n =>
      rw [h2] at h1
      injection h1
  · rw [List.getElem?_append_right (by omega)] at hw
    rw [List.getElem?_eq_none (by omega)]
    exact (hne w (List.mem_of_getElem? hw)).symm

/-- the wires of a geometry -/
structure SameWire (w : DWire) (gw : GWire) : Prop where
  phase : gw.phase = w.phase
  x : gw.x = w.x
  y : gw.y = w.y
  gmr : gw.gmr = w.gmr
  diameter : gw.diameter = w.diameter

/-- one wire of an overhead line -/
theorem overhead_wire {ws : WireState} {l : DLine} {g : Geometry} {i : GeoInfo} {wires cables : List (String × WireInfo)}
    (hg : DescribesLine ws l g) (ho : ¬ Underground l) (hk : GeometryKnown l) (hr : ReportsGeometry ws g i wires cables) {p : Nat} {w : DWire}
    (hw : l.wires[p]? = some w) : ∃ c wi u, g.conds[p]? = some c ∧ codeAt p i.wires = .ok (some (pyLower c.wire)) ∧ cables.lookup (pyLower c.wire) = none ∧
      wires.lookup (pyLower c.wire) = some wi ∧ ReportsWire (parseWire w) wi ∧ unitAt p i.units = .ok u ∧ pyLower u = "m" ∧ i.x.at? p = w.x ∧ i.h.at? p = w.y ∧
      Units.toMeters wi.diam (.str wi.radunits) = w.diameter ∧ Units.toMeters wi.gmr (.str wi.gmrunits) = w.gmr ∧
      (∃ a, w.ampacity = some a ∧ wi.normamps = some a) := by
  obtain ⟨-, -, cable, hc, hF⟩ := hg
  have hcf : cable = false := by
    cases cable with
    | false => rfl
    | true => exact absurd (hc.2 rfl) ho
  subst hcf
  have hlen := hF.length_eq
  rw [List.forall₂_iff_get] at hF
  have hp := (List.getElem?_eq_some_iff.1 hw).1
  have hD := hF.2 p hp (by omega)
  simp only [List.get_eq_getElem] at hD
  rw [(List.getElem?_eq_some_iff.1 hw).2] at hD
  have hcp : g.conds[p]? = some g.conds[p] := List.getElem?_eq_getElem (by omega)
  generalize g.conds[p] = c at hD hcp
  obtain ⟨h1, h2, h3, h4, -, -⟩ := hD
  simp only [Bool.false_eq_true, if_false] at h2
  obtain ⟨h5, wi, h6, h7⟩ := hr.wires c (List.mem_of_getElem? hcp) h1 _ h2
  obtain ⟨u, hu, hum⟩ := hr.units p (by omega)
  obtain ⟨-, -, ⟨gm, hgm⟩, ⟨di, hdi⟩, ⟨am, ham⟩, -⟩ := hk.2 w (List.mem_of_getElem? hw)
  obtain ⟨hw1, hw2, hw3, -, -, hw6, hw7⟩ := C50_wire_data w
  refine ⟨c, wi, u, hcp, hr.code p c hcp, h5, h6, h7, hu, hum, by rw [hr.x p c hcp, h3], by rw [hr.h p c hcp, h4], ?_, ?_, am, ham, ?_⟩
  · rw [toMeters_m (h7.radunits _ (hw7 (by rw [hdi]; simp))), hdi, h7.diam di (by rw [hw2, hdi]; rfl)]
  · rw [toMeters_m (h7.gmrunits _ (hw6 (by rw [hgm]; simp))), hgm, h7.gmr gm (by rw [hw1, hgm]; rfl)]
  · exact h7.normamps am (by rw [hw3, ham]; rfl)

/-- the units of the resistances of all reported wires are known, or the length is not known -/
def ResistanceUnits (length : Option ℚ) (wires : List (String × WireInfo)) : Prop :=
  length = none ∨ ∀ e ∈ wires, pyLower e.2.runits ∈ ["mi", "km", "kft", "m", "ft", "in", "cm"]

theorem resistanceOf_ok {length : Option ℚ} {w : WireInfo} (h : length = none ∨ pyLower w.runits ∈ ["mi", "km", "kft", "m", "ft", "in", "cm"]) :
    ∃ r, resistanceOf length w = .ok r := by
  unfold resistanceOf
  rcases h with h | h
  · rw [h]; exact ⟨none, rfl⟩
  · cases length with
    | none => exact ⟨none, rfl⟩
    | some len =>
      cases w.rac with
      | none => exact ⟨none, rfl⟩
      | some r =>
        simp only [List.mem_cons, List.not_mem_nil, or_false] at h
        simp only [Units.toMeters]
        rcases h with h | h | h | h | h | h | h <;> rw [h] <;> simp

theorem mem_of_lookup {α : Type} {k : String} {v : α} : ∀ {d : List (String × α)}, d.lookup k = some v → (k, v) ∈ d := by
  intro d
  induction d with
  | nil => intro h; cases h
  | cons e d ih =>
    intro h
    obtain ⟨k', v'⟩ := e
    rw [List.lookup_cons] at h
    by_cases hk : k = k'
    · subst hk
      simp only [beq_self_eq_true] at h
      cases h
      exact List.mem_cons_self
    · have : (k == k') = false := by simpa using hk
      rw [this] at h
      exact List.mem_cons_of_mem _ (ih h)

/-- An overhead line described by a geometry is read with the same conductors: each has the phase, position, GMR and diameter of its wire, and
its ampacities if they are not 0 or -1 (which mean not known). (Missing: the neutrals come after the phases; OpenDSS reports a length unit
for the resistance, which the writer does not give; see the theorems below.) -/
theorem C55_overhead_partial (ws : WireState) (l : DLine) (g : Geometry) (i : GeoInfo) (wires cables : List (String × WireInfo))
    (hg : DescribesLine ws l g) (ho : ¬ Underground l) (hk : GeometryKnown l) (hr : ReportsGeometry ws g i wires cables)
    (ph ne : List DWire) (hws : l.wires = ph ++ ne) (ns : List Nat) (hph : ns.map ofDssPhase = ph.map (·.phase)) (hne : ∀ w ∈ ne, w.phase = some "N")
    (length : Option ℚ) (hru : ResistanceUnits length wires) (switch : Bool) (enabled : Bool) (na ea : Option ℚ) :
    ∃ gws, readGeometry wires cables i switch ns length ⟨some enabled, na, ea⟩ = .ok gws ∧
      List.Forall₂ (fun w gw => SameWire w gw ∧ (∀ v, Amps v → w.ampacity = some v → gw.ampacity = some v) ∧
        (∀ v, Amps v → w.emergency = some v → gw.emergency = some v) ∧ gw.isOpen = (if switch then some (!enabled) else none)) l.wires gws := by
  have hlen : i.nconds = l.wires.length := by
    obtain ⟨-, -, c, -, hF⟩ := hg
    rw [hr.nconds, hF.length_eq]
  unfold readGeometry
  rw [hlen]
  obtain ⟨gws, h1, h2⟩ := readGeoWires_spec (wires := wires) (cables := cables) (g := i) (switch := switch) (ns := ns) (length := length)
    (fun data => data = ⟨some enabled, na, ea⟩) (fun p gw => ∃ w, l.wires[p]? = some w ∧ (SameWire w gw ∧ (∀ v, Amps v → w.ampacity = some v → gw.ampacity = some v) ∧
        (∀ v, Amps v → w.emergency = some v → gw.emergency = some v) ∧ gw.isOpen = (if switch then some (!enabled) else none)))
    (List.range l.wires.length) ⟨some enabled, na, ea⟩ rfl (by
      intro p hp data hd
      subst hd
      rw [List.mem_range] at hp
      have hw : l.wires[p]? = some l.wires[p] := List.getElem?_eq_getElem hp
      generalize l.wires[p] = w at hw
      obtain ⟨c, wi, u, -, h3, h4, h5, h6, h7, h8, h9, h10, h11, h12, am, h13, h14⟩ := overhead_wire hg ho hk hr hw
      obtain ⟨r, hres⟩ := resistanceOf_ok (length := length) (w := wi) (hru.imp id fun h => h _ (mem_of_lookup h5))
      have hphase := phase_of hph hne (hws ▸ hw)
      refine ⟨{ phase := match ns[p]? with | some n => ofDssPhase n | none => some "N"
                nameclass := nameAt p i.wires
                isOpen := if switch then some (!enabled) else none
                x := Units.toMeters (i.x.at? p) (.str u)
                y := Units.toMeters (i.h.at? p) (.str u)
                diameter := Units.toMeters wi.diam (.str wi.radunits)
                gmr := Units.toMeters wi.gmr (.str wi.gmrunits)
                ampacity := ampsOf na wi.normamps
                emergency := ampsOf ea wi.emergamps
                resistance := r }, ⟨some enabled, na, ea⟩, ?_, rfl, w, hw, ⟨hphase, ?_, ?_, ?_, ?_⟩, fun v hv ha => ?_, fun v hv ha => ?_, rfl⟩
      · unfold readGeoWire
        rw [h7, h3]
        simp only [h4, h5, hres]
        cases switch <;> rfl
      · simp only [toMeters_m h8, h9]
      · simp only [toMeters_m h8, h10]
      · exact h12
      · exact h11
      · rw [h13] at ha
        injection ha with ha
        subst ha
        simp only [h14, ampsOf_wire hv]
      · have := h6.emergamps v (by rw [(C50_wire_data w).2.2.2.1, ha]; rfl)
        simp only [this, ampsOf_wire hv])
  exact ⟨gws, h1, forall2_range h2⟩

/-- a cable: the concentric neutral -/
structure SameCable (w : DWire) (gw : GWire) : Prop where
  gmr : gw.cnGmr = w.cnGmr
  resistance : gw.cnResistance = w.cnResistance
  diameter : gw.cnDiameter = w.cnDiameter
  outside : gw.cnOutside = w.cnOutside
  insulation : ∀ v, w.insulation = some v → gw.insulation = some v
  nstrand : ∀ v, w.cnNstrand = some v → ∃ k : Nat, gw.cnNstrand = some k ∧ (k : ℚ) = v

/-- An underground line without switch, in a network with one kind of cable, is read with the same conductors and concentric neutrals.
(Missing: networks with several kinds of cables, and switches; see `C55_cable_violated` and `C55_cable_switch_violated`.) -/
theorem C55_cable_partial (ws : WireState) (l : DLine) (g : Geometry) (i : GeoInfo) (wires : List (String × WireInfo)) (cable : String × WireInfo)
    (hg : DescribesLine ws l g) (hu : Underground l) (hk : GeometryKnown l) (hr : ReportsGeometry ws g i wires [cable])
    (ph ne : List DWire) (hws : l.wires = ph ++ ne) (ns : List Nat) (hph : ns.map ofDssPhase = ph.map (·.phase)) (hne : ∀ w ∈ ne, w.phase = some "N")
    (length : Option ℚ) (data : CurData) :
    ∃ gws, readGeometry wires [cable] i false ns length data = .ok gws ∧
      List.Forall₂ (fun w gw => SameWire w gw ∧ SameCable w gw ∧ (∀ len r, length = some len → w.resistance = some r → gw.resistance = some (r * len)))
        l.wires gws := by
  have hlen : i.nconds = l.wires.length := by
    obtain ⟨-, -, c, -, hF⟩ := hg
    rw [hr.nconds, hF.length_eq]
  unfold readGeometry
  rw [hlen]
  obtain ⟨gws, h1, h2⟩ := readGeoWires_spec (wires := wires) (cables := [cable]) (g := i) (switch := false) (ns := ns) (length := length)
    (fun _ => True) (fun p gw => ∃ w, l.wires[p]? = some w ∧ (SameWire w gw ∧ SameCable w gw ∧
      (∀ len r, length = some len → w.resistance = some r → gw.resistance = some (r * len))))
    (List.range l.wires.length) data trivial (by
      intro p hp data _
      rw [List.mem_range] at hp
      have hw : l.wires[p]? = some l.wires[p] := List.getElem?_eq_getElem hp
      generalize l.wires[p] = w at hw
      obtain ⟨-, -, cb, hc, hF⟩ := hg
      have hcb : cb = true := hc.1 hu
      subst hcb
      have hFl := hF.length_eq
      rw [List.forall₂_iff_get] at hF
      have hD := hF.2 p hp (by omega)
      simp only [List.get_eq_getElem] at hD
      rw [(List.getElem?_eq_some_iff.1 hw).2] at hD
      have hcp : g.conds[p]? = some g.conds[p] := List.getElem?_eq_getElem (by omega)
      generalize g.conds[p] = c at hD hcp
      obtain ⟨h1, h2, h3, h4, -, -⟩ := hD
      simp only [if_true] at h2
      obtain ⟨wi, h6, h7⟩ := hr.cables c (List.mem_of_getElem? hcp) h1 _ h2
      obtain ⟨u, hun, hum⟩ := hr.units p (by omega)
      have hcw : cable.2 = wi := by
        have := mem_of_lookup h6
        rw [List.mem_singleton] at this
        rw [← this]
      obtain ⟨-, -, ⟨gm, hgm⟩, ⟨di, hdi⟩, -, hcn⟩ := hk.2 w (List.mem_of_getElem? hw)
      obtain ⟨⟨cg, hcg⟩, ⟨cr, hcr⟩, ⟨cd, hcd⟩, ⟨co, hco⟩, ck, hck⟩ := hcn hu
      obtain ⟨k1, k2, k3, k4, k5, k6, k7, k8, k9, -, k11, k12, k13⟩ := C50_cable_data w
      have e1 := h7.radunits _ k12
      have e2 := h7.gmrunits _ k13
      have e3 := h7.runits _ k11
      obtain ⟨r, hres⟩ := resistanceOf_ok (length := length) (w := wi) (Or.inr (by rw [e3]; decide))
      have hphase := phase_of hph hne (hws ▸ hw)
      have hcode := hr.code p c hcp
      refine ⟨cableStep { phase := match ns[p]? with | some n => ofDssPhase n | none => some "N"
                          nameclass := nameAt p i.wires
                          x := Units.toMeters (i.x.at? p) (.str u)
                          y := Units.toMeters (i.h.at? p) (.str u)
                          diameter := Units.toMeters wi.diam (.str wi.radunits)
                          gmr := Units.toMeters wi.gmr (.str wi.gmrunits)
                          ampacity := ampsOf data.normamps wi.normamps
                          emergency := ampsOf data.emergamps wi.emergamps
                          resistance := r } cable.2, lastData data [cable], ?_, trivial, w, hw, ⟨hphase, ?_, ?_, ?_, ?_⟩, ⟨?_, ?_, ?_, ?_, fun v hv => ?_, fun v hv => ?_⟩,
        fun len r' hlen hr' => ?_⟩
      · unfold readGeoWire
        rw [hun, hcode]
        simp only [h6, hres]
        rfl
      · simp only [cableStep, toMeters_m hum, hr.x p c hcp, h3]
      · simp only [cableStep, toMeters_m hum, hr.h p c hcp, h4]
      · simp only [cableStep, toMeters_m e2, h7.gmr gm (by rw [k9, hgm]; rfl), hgm]
      · simp only [cableStep, toMeters_m e1, h7.diam di (by rw [k5, hdi]; rfl), hdi]
      · simp only [cableStep, hcw, toMeters_m e2, h7.gmrStrand cg (by rw [k8, hcg]; rfl), hcg]
      · simp only [cableStep, hcw, toMeters_m e3, h7.rStrand cr (by rw [k4, hcr]; rfl), hcr]
      · simp only [cableStep, hcw, toMeters_m e1, h7.diaStrand cd (by rw [k3, hcd]; rfl), hcd]
      · simp only [cableStep, hcw, toMeters_m e1, h7.diaCable co (by rw [k6, hco]; rfl), hco]
      · simp only [cableStep, hcw, toMeters_m e1, h7.insLayer v (by rw [k1, hv]; rfl)]
      · exact ⟨wi.k, by simp only [cableStep, hcw], h7.k v (by rw [k2, hv]; rfl)⟩
      · unfold resistanceOf at hres
        rw [hlen, h7.rac r' (by rw [k7, hr']; rfl)] at hres
        simp only [toMeters_m e3] at hres
        cases hres
        rfl)
  exact ⟨gws, h1, forall2_range h2⟩

/-! ### Examples -/

/-- an overhead line of one phase and a neutral -/
def exGeoWires : List DWire :=
  [{ nameclass := some "w", phase := some "B", x := some 1, y := some 9, gmr := some (1 / 100), diameter := some (1 / 50), ampacity := some 300, resistance := some 2 },
   { nameclass := some "w", phase := some "N", x := some 0, y := some 8, gmr := some (1 / 100), diameter := some (1 / 50), ampacity := some 300, resistance := some 2 }]

def exGeoInfo : GeoInfo where
  nconds := 2
  wires := .joined ["w", "w"]
  units := .one "m"
  x := .many [some 1, some 0]
  h := .many [some 9, some 8]

def exGeoInfoWires : List (String × WireInfo) := exGeoWires.take 1 |>.map fun w =>
  ("w", { radunits := "m", gmrunits := "m", runits := "m", diam := w.diameter, gmr := w.gmr, normamps := w.ampacity, rac := w.resistance })

def exGeoText : Geometry where
  nphases := 1
  conds := [⟨false, "w", some 1, some 9, some 300, none⟩, ⟨false, "w", some 0, some 8, some 300, none⟩]
  reduce := true

def exGeoState : WireState where
  wires := exGeoWires.take 1 |>.map fun w => ("w", parseWire w)

def exGeoLine : DLine where
  wires := exGeoWires

/-- the hypotheses of the theorem on overhead lines -/
example : DescribesLine exGeoState exGeoLine exGeoText ∧ ¬ Underground exGeoLine ∧ ReportsGeometry exGeoState exGeoText exGeoInfo exGeoInfoWires [] ∧
    ResistanceUnits (some 100) exGeoInfoWires := by
  refine ⟨⟨by decide, by decide, false, ⟨(fun h => nomatch h), (fun h => nomatch h)⟩, .cons ?_ (.cons ?_ .nil)⟩, (fun h => nomatch h),
    ⟨rfl, fun p hp => ⟨"m", rfl, by decide⟩, ?_, ?_, ?_, ?_, ?_⟩, Or.inr ?_⟩
  · exact ⟨rfl, by decide +kernel, rfl, rfl, rfl, rfl⟩
  · exact ⟨rfl, by decide +kernel, rfl, rfl, rfl, rfl⟩
  · intro p c hc
    match p with
    | 0 => cases hc; rfl
    | 1 => cases hc; rfl
    | p + 2 => cases hc
  · intro p c hc
    match p with
    | 0 => cases hc; rfl
    | 1 => cases hc; rfl
    | p + 2 => cases hc
  · intro p c hc
    match p with
    | 0 => cases hc; rfl
    | 1 => cases hc; rfl
    | p + 2 => cases hc
  · intro c hc _ ps hps
    have hcw : c.wire = "w" := by
      simp only [exGeoText, List.mem_cons, List.not_mem_nil, or_false] at hc
      rcases hc with rfl | rfl <;> rfl
    rw [hcw] at hps
    have hps' : ps = parseWire exGeoWires[0] := by
      have : exGeoState.wires.lookup "w" = some (parseWire exGeoWires[0]) := by decide +kernel
      rw [this] at hps
      exact (Option.some.inj hps).symm
    subst hps'
    rw [hcw]
    refine ⟨rfl, { radunits := "m", gmrunits := "m", runits := "m", diam := some (1 / 50), gmr := some (1 / 100), normamps := some 300, rac := some 2 }, by decide +kernel, ?_⟩
    constructor
    all_goals
      intro v hv
      first
        | (cases hv; rfl)
        | (cases hv; decide)
        | exact absurd hv (by decide +kernel)
        | cases hv
  · intro c hc h
    simp only [exGeoText, List.mem_cons, List.not_mem_nil, or_false] at hc
    rcases hc with rfl | rfl <;> cases h
  · intro e he
    simp only [exGeoInfoWires, exGeoWires, List.take, List.map, List.mem_cons, List.not_mem_nil, or_false] at he
    subst he
    decide

/-- what is read for this line of 100 m: the resistance is multiplied by the length -/
example : (readGeometry exGeoInfoWires [] exGeoInfo false [2] (some 100) ⟨some true, none, none⟩).map (·.map (·.phase)) = .ok [some "B", some "N"] ∧
    (readGeometry exGeoInfoWires [] exGeoInfo false [2] (some 100) ⟨some true, none, none⟩).map (·.map (·.x)) = .ok [some 1, some 0] ∧
    (readGeometry exGeoInfoWires [] exGeoInfo false [2] (some 100) ⟨some true, none, none⟩).map (·.map (·.resistance)) = .ok [some 200, some 200] := by
  decide +kernel

/-! ### Violations -/

/-- VIOLATION: the resistance of a wire, which is its total resistance, is written as resistance per length and multiplied by the length of
the line when it is read. -/
theorem C55_resistance_violated (w : DWire) (wi : WireInfo) (r len : ℚ) (hw : w.resistance = some r) (hr : ReportsWire (parseWire w) wi)
    (hu : pyLower wi.runits = "m") : resistanceOf (some len) wi = .ok (some (r * len)) := by
  unfold resistanceOf
  rw [hr.rac r (by rw [(C50_wire_data w).2.2.2.2.1, hw]; rfl)]
  simp only [toMeters_m hu]

/-- what OpenDSS may report of an overhead wire; `u`: the unit of the resistance, which is not given -/
def plainInfo (w : DWire) (u : String) : WireInfo where
  radunits := "m"
  gmrunits := "m"
  runits := u
  diam := w.diameter
  gmr := w.gmr
  normamps := w.ampacity
  emergamps := w.emergency
  rac := w.resistance

theorem parseWire_units (w : DWire) (v : String) : ((parseWire w).lookup "GMRunits" = some (.str v) → v = "m") ∧
    ((parseWire w).lookup "Radunits" = some (.str v) → v = "m") := by
  unfold parseWire
  cases w.gmr <;> cases w.diameter <;> cases w.ampacity <;> cases w.emergency <;> cases w.resistance <;> simp [entry, entryUnit, List.lookup, eq_comm]

/-- VIOLATION: no unit is written for the resistance of an overhead wire; if OpenDSS then reports a unit that is not a length ("none"), reading
the line ends with an error. -/
theorem C55_units_violated (w : DWire) (r : ℚ) (hw : w.resistance = some r) :
    (parseWire w).lookup "Runits" = none ∧ ∃ wi : WireInfo, ReportsWire (parseWire w) wi ∧ wi.runits = "none" ∧
      ∀ len : ℚ, resistanceOf (some len) wi = .error .typeError := by
  obtain ⟨h1, h2, h3, h4, h5, h6, h7⟩ := C50_wire_data w
  have hno : ∀ k, k ∉ ["GMRac", "GMRunits", "Diam", "Radunits", "normamps", "emergamps", "Rac"] → (parseWire w).lookup k = none := by
    intro k hk
    simp only [List.mem_cons, List.not_mem_nil, or_false, not_or] at hk
    obtain ⟨k1, k2, k3, k4, k5, k6, k7⟩ := hk
    unfold parseWire
    have hb : ∀ {a b : String}, a ≠ b → (a == b) = false := fun h => by simpa using h
    cases w.gmr <;> cases w.diameter <;> cases w.ampacity <;> cases w.emergency <;> cases w.resistance <;>
      simp [entry, entryUnit, List.lookup, hb k1, hb k2, hb k3, hb k4, hb k5, hb k6, hb k7]
  refine ⟨hno _ (by decide), plainInfo w "none", ?_, rfl, fun len => ?_⟩
  · constructor
    all_goals intro v hv
    · rw [h1] at hv; cases hg : w.gmr <;> rw [hg] at hv <;> cases hv; exact hg
    · rw [(parseWire_units w v).1 hv]; show pyLower "m" = "m"; decide
    · rw [h2] at hv; cases hg : w.diameter <;> rw [hg] at hv <;> cases hv; exact hg
    · rw [(parseWire_units w v).2 hv]; show pyLower "m" = "m"; decide
    · rw [h3] at hv; cases hg : w.ampacity <;> rw [hg] at hv <;> cases hv; exact hg
    · rw [h4] at hv; cases hg : w.emergency <;> rw [hg] at hv <;> cases hv; exact hg
    · rw [h5] at hv; cases hg : w.resistance <;> rw [hg] at hv <;> cases hv; exact hg
    all_goals rw [hno _ (by decide)] at hv; cases hv
  · unfold resistanceOf
    simp only [plainInfo, hw]
    have : pyLower "none" = "none" := by decide
    simp [Units.toMeters, this]

/-- VIOLATION: the values of the concentric neutral of a wire are those of the last cable of the whole network, whichever cable it is. -/
theorem C55_cable_violated (wires cables : List (String × WireInfo)) (i : GeoInfo) (switch : Bool) (ns : List Nat) (length : Option ℚ) (data data' : CurData)
    (p : Nat) (gw : GWire) (h : readGeoWire wires cables i switch ns length data p = .ok (gw, data')) (code : String)
    (hcode : codeAt p i.wires = .ok (some code)) (w : WireInfo) (hw : cables.lookup code = some w) :
    ∃ last, cables.getLast? = some last ∧ gw.cnNstrand = some last.2.k ∧ gw.cnGmr = Units.toMeters last.2.gmrStrand (.str last.2.gmrunits) ∧
      gw.cnDiameter = Units.toMeters last.2.diaStrand (.str last.2.radunits) ∧ gw.cnOutside = Units.toMeters last.2.diaCable (.str last.2.radunits) ∧
      gw.cnResistance = Units.toMeters last.2.rStrand (.str last.2.runits) ∧ gw.insulation = Units.toMeters last.2.insLayer (.str last.2.radunits) ∧
      data'.enabled = none := by
  have hne : cables ≠ [] := by rintro rfl; cases hw
  obtain ⟨init, last, rfl⟩ : ∃ init last, cables = init ++ [last] := ⟨cables.dropLast, cables.getLast hne, (List.dropLast_append_getLast hne).symm⟩
  refine ⟨last, by simp, ?_⟩
  unfold readGeoWire at h
  split at h
  · cases h
  · split at h
    · cases h
    · rw [hcode] at h
      simp only [hw] at h
      split at h
      · cases h
      · simp only [Option.isSome_some, if_true, Except.ok.injEq, Prod.mk.injEq] at h
        obtain ⟨rfl, rfl⟩ := h
        rw [List.map_append, List.foldl_append]
        exact ⟨rfl, rfl, rfl, rfl, rfl, rfl, by simp [lastData]⟩

/-- VIOLATION: an underground line with a switch and at least two wires cannot be read: after the first wire the data of the line have been
replaced by those of a cable. -/
theorem C55_cable_switch_violated (wires cables : List (String × WireInfo)) (i : GeoInfo) (ns : List Nat) (length : Option ℚ) (data : CurData)
    (hn : 2 ≤ i.nconds) (code : String) (hcode : codeAt 0 i.wires = .ok (some code)) (w : WireInfo) (hw : cables.lookup code = some w) :
    ∃ e, readGeometry wires cables i true ns length data = .error e := by
  unfold readGeometry
  obtain ⟨k, hk⟩ : ∃ k, i.nconds = k + 2 := ⟨i.nconds - 2, by omega⟩
  rw [hk, List.range_succ_eq_map, List.range_succ_eq_map]
  simp only [List.map_cons, readGeoWires]
  cases h : readGeoWire wires cables i true ns length data 0 with
  | error e => exact ⟨e, rfl⟩
  | ok r =>
    obtain ⟨gw, data'⟩ := r
    obtain ⟨last, -, -, -, -, -, -, -, he⟩ := C55_cable_violated wires cables i true ns length data data' 0 gw h code hcode w hw
    have : readGeoWire wires cables i true ns length data' (Nat.succ 0) = .error .keyError := by
      unfold readGeoWire
      simp [he]
    simp only [this]
    exact ⟨_, rfl⟩

/-- VIOLATION: if a neutral is not the last wire, the conductors get the phases of others: the phases of the bus are given to the first
conductors. -/
theorem C55_neutral_violated : ∃ (ws : List DWire) (ns : List Nat), ns.map ofDssPhase = (ws.filter isPhase).map (·.phase) ∧
    (List.range ws.length).map (fun p => (match ns[p]? with | some n => ofDssPhase n | none => some "N")) ≠ ws.map (·.phase) :=
  ⟨[{ phase := some "A" }, { phase := some "N" }, { phase := some "B" }], [1, 2], by decide, by decide⟩

/-! ### names of the conductors -/

theorem cableStep_nameclass (cs : List WireInfo) : ∀ gw : GWire, (cs.foldl cableStep gw).nameclass = gw.nameclass := by
  induction cs with
  | nil => intro gw; rfl
  | cons c cs ih => intro gw; rw [List.foldl_cons, ih]; rfl

theorem readGeoWire_nameclass {wires cables : List (String × WireInfo)} {i : GeoInfo} {switch : Bool} {ns : List Nat} {length : Option ℚ}
    {data data' : CurData} {p : Nat} {gw : GWire} (h : readGeoWire wires cables i switch ns length data p = .ok (gw, data')) :
    gw.nameclass = nameAt p i.wires := by
  unfold readGeoWire at h
  split at h
  · cases h
  split at h
  · cases h
  split at h
  · cases h
  · cases h
  split at h
  · cases h
  split at h
  · cases h
  simp only at h
  split at h
  · cases h
    rw [cableStep_nameclass]
  · cases h
    rfl

theorem readGeometry_nameclass {wires cables : List (String × WireInfo)} {i : GeoInfo} {switch : Bool} {ns : List Nat} {length : Option ℚ}
    {data : CurData} {gws : List GWire} (h : readGeometry wires cables i switch ns length data = .ok gws) :
    gws.map (·.nameclass) = (List.range i.nconds).map fun p => nameAt p i.wires := by
  unfold readGeometry at h
  generalize List.range i.nconds = ps at h
  induction ps generalizing data gws with
  | nil => cases h; rfl
  | cons p ps ih =>
    unfold readGeoWires at h
    split at h
    · cases h
    · rename_i r hr
      split at h
      · cases h
      · cases h
        rw [List.map_cons, List.map_cons, readGeoWire_nameclass hr, ih ‹_›]

/-- when OpenDSS reports the names of the conductors in one text, every wire gets the name of its conductor -/
theorem C55_names {wires cables : List (String × WireInfo)} {i : GeoInfo} {switch : Bool} {ns : List Nat} {length : Option ℚ}
    {data : CurData} {gws : List GWire} (h : readGeometry wires cables i switch ns length data = .ok gws) (l : List String)
    (hl : i.wires = .joined l) (hn : l.length = i.nconds) : gws.map (·.nameclass) = l := by
  rw [readGeometry_nameclass h, hl, ← hn]
  apply List.ext_getElem?
  intro p
  rw [List.getElem?_map]
  by_cases hp : p < l.length
  · rw [List.getElem?_range hp, Option.map_some, List.getElem?_eq_getElem hp]
    simp only [nameAt, List.getElem?_eq_getElem hp]
  · rw [List.getElem?_eq_none (by simpa using hp), List.getElem?_eq_none (by simpa using hp), Option.map_none]

/-- when it reports a list of names, only the first wire has a name afterwards -/
theorem C55_names_violated {wires cables : List (String × WireInfo)} {i : GeoInfo} {switch : Bool} {ns : List Nat} {length : Option ℚ}
    {data : CurData} {gws : List GWire} (h : readGeometry wires cables i switch ns length data = .ok gws) (l : List String)
    (hl : i.wires = .many l) (p : Nat) (hp : 0 < p) (gw : GWire) (hw : gws[p]? = some gw) : gw.nameclass = "" := by
  have := congrArg (·[p]?) (readGeometry_nameclass h)
  simp only [List.getElem?_map, hw, Option.map_some] at this
  cases hr : (List.range i.nconds)[p]? with
  | none => rw [hr] at this; cases this
  | some q =>
    rw [hr, Option.map_some, Option.some.injEq] at this
    obtain ⟨_, rfl⟩ := List.getElem?_eq_some_iff.1 hr
    rw [this, hl, List.getElem_range]
    obtain ⟨k, rfl⟩ : ∃ k, p = k + 1 := ⟨p - 1, by omega⟩
    rfl

end Ditto.Dss
