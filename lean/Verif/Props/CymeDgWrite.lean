import Verif.Spec.CymeDgWrite
import Verif.Model.CymeDg
import Verif.Lemmas.CymeRegWrite
import Verif.Props.CymeLineCodes
import Verif.Props.CymeSectionWrite
import Verif.Props.CymeOverlaps

/-! C125: photovoltaic systems and storages written to CYME files -/
namespace Ditto.Cyme
open Ditto Glm Spec

theorem optCell_value (pr : ℚ → Text) (x : Option ℚ) : ValueCell pr x (optCell pr x) := by
  cases x with
  | none => exact ⟨fun v h => (nomatch h), fun _ => rfl⟩
  | some y => exact ⟨fun v h => by rw [← Option.some.inj h]; rfl, fun h => (nomatch h)⟩

theorem optCell_kilo (pr : ℚ → Text) (x : Option ℚ) : KilowattCell pr x (optCell pr (x.map (· / 1000))) := by
  cases x with
  | none => exact ⟨fun v h => (nomatch h), fun _ => rfl⟩
  | some y => exact ⟨fun v h => by rw [← Option.some.inj h]; rfl, fun h => (nomatch h)⟩

theorem rating_cells (pr : ℚ → Text) (sqrt : ℚ → ℚ) (c : ConverterIn) :
    ratingText pr sqrt c = optCell pr ((inverterApparent sqrt c).map (· / 1000)) ++ ',' :: (optCell pr ((inverterActive c).map (· / 1000)) ++ ',' ::
      (optCell pr ((inverterReactive c).map (· / 1000)) ++ [','])) := by
  unfold ratingText inverterApparent inverterActive inverterReactive
  cases c.active <;> cases c.rated <;> cases c.reactive <;>
    simp only [Option.map_some, Option.map_none, optCell, List.nil_append, List.append_assoc, List.cons_append]

theorem converter_cells (pr : ℚ → Text) (sqrt : ℚ → ℚ) (sec type : Text) (c : ConverterIn) {f : Text} (hf : factorText pr c = .ok f) :
    converterText pr sqrt sec type c = .ok (joinCells [sec, type, optCell pr ((inverterApparent sqrt c).map (· / 1000)),
      optCell pr ((inverterActive c).map (· / 1000)), optCell pr ((inverterReactive c).map (· / 1000)), f, optCell pr c.fall, optCell pr c.rise,
      if c.fall ≠ none ∨ c.rise ≠ none then ['0'] else []]) := by
  unfold converterText
  rw [hf]
  dsimp only
  rw [← join_commas, rating_cells]
  unfold withCommas limitText
  simp only [List.flatMap_cons, List.flatMap_nil, List.append_assoc, List.cons_append, List.nil_append, List.append_nil]

/-- **C125**, converters: the row has ratings in kilowatts, limits and their unit in the right columns, if there is no minimum of the power factor. -/
theorem C125_converter_partial (pr : ℚ → Text) (sqrt : ℚ → ℚ) (sec type : Text) (c : ConverterIn) (h : c.minimum = false) :
    ∃ a b r f g u, converterText pr sqrt sec type c = .ok (joinCells [sec, type, a, b, r, [], f, g, u]) ∧
      KilowattCell pr (inverterApparent sqrt c) a ∧ KilowattCell pr (inverterActive c) b ∧ KilowattCell pr (inverterReactive c) r ∧
      ValueCell pr c.fall f ∧ ValueCell pr c.rise g ∧ (u = "0".toList ↔ c.fall ≠ none ∨ c.rise ≠ none) ∧ (u = [] ↔ c.fall = none ∧ c.rise = none) := by
  have hf : factorText pr c = .ok [] := by
    unfold factorText
    rw [h]
    rfl
  refine ⟨_, _, _, _, _, _, converter_cells pr sqrt sec type c hf, optCell_kilo pr _, optCell_kilo pr _, optCell_kilo pr _, optCell_value pr _, optCell_value pr _, ?_, ?_⟩
  · by_cases hu : c.fall ≠ none ∨ c.rise ≠ none
    · rw [if_pos hu]
      exact ⟨fun _ => hu, fun _ => by decide⟩
    · rw [if_neg hu]
      exact ⟨fun hh => absurd hh (by decide), fun hh => absurd hh hu⟩
  · by_cases hu : c.fall ≠ none ∨ c.rise ≠ none
    · rw [if_pos hu]
      refine ⟨fun hh => absurd hh (by decide), fun hh => ?_⟩
      rcases hu with hu | hu
      exacts [absurd hh.1 hu, absurd hh.2 hu]
    · rw [if_neg hu]
      refine ⟨fun _ => ?_, fun _ => rfl⟩
      rw [not_or, not_not, not_not] at hu
      exact hu

/-- **C125**, minimum of the power factor: its column has the power factor instead, and without an attribute of that name the writer stops. -/
theorem C125_minimum_violated (pr : ℚ → Text) (sqrt : ℚ → ℚ) (sec type : Text) (c : ConverterIn) (h : c.minimum = true) :
    (c.factor = none → converterText pr sqrt sec type c = .error .attributeError) ∧
    (∀ x, c.factor = some (some x) → ∃ a b r f g u, converterText pr sqrt sec type c = .ok (joinCells [sec, type, a, b, r, pr (x * 100), f, g, u])) := by
  constructor
  · intro hf
    unfold converterText factorText
    rw [h, hf]
    rfl
  · intro x hx
    have hf : factorText pr c = .ok (pr (x * 100)) := by
      unfold factorText
      rw [h, hx]
      rfl
    exact ⟨_, _, _, _, _, _, converter_cells pr sqrt sec type c hf⟩

/-- **C125**, models of generation: the number of the device and its type are one cell, so that no column is right. -/
theorem C125_generation_violated (pr : ℚ → Text) (sec : Text) (c : ConverterIn) (h : c.minimum = false) :
    ∃ p, generationText pr sec c = .ok (joinCells [sec ++ "45".toList, "DEFAULT".toList, p, [], []]) ∧ KilowattCell pr c.rated p ∧ sec ++ "45".toList ≠ sec := by
  have hf : factorText pr c = .ok [] := by
    unfold factorText
    rw [h]
    rfl
  refine ⟨_, ?_, optCell_kilo pr _, fun hh => ?_⟩
  · unfold generationText
    rw [hf]
    dsimp only
    rw [← join_commas, show "45,DEFAULT,".toList = "45".toList ++ ',' :: ("DEFAULT".toList ++ [',']) by decide]
    unfold withCommas
    simp only [List.flatMap_cons, List.flatMap_nil, List.append_assoc, List.cons_append, List.nil_append, List.append_nil]
  · have := congrArg List.length hh
    rw [List.length_append] at this
    exact absurd this (by simp)

theorem typeCode_cell (t : Text) : CodeCell t (typeCode t) := by
  constructor
  · exact fun e he h => h ▸ (show ∀ e ∈ controlNumbers, typeCode e.1 = e.2 by decide) e he
  · intro h
    simp only [controlNumbers, List.map_cons, List.map_nil, List.mem_cons, List.not_mem_nil, or_false, not_or] at h
    obtain ⟨h1, h2, h3, h4, h5, h6, h7, h8⟩ := h
    unfold typeCode
    rw [if_neg (not_or.mpr ⟨h2, h1⟩), if_neg h3, if_neg h4, if_neg h5, if_neg h6, if_neg h7, if_neg h8]

theorem injection_cells (pr : ℚ → Text) (t : Text) (c : ControlIn) :
    ∃ a b, injectionText pr t c = a ++ ',' :: (b ++ [',']) ∧ InjectionCells pr t c.injection a b := by
  unfold injectionText
  cases hx : c.injection with
  | none => exact ⟨[], [], rfl, fun v _ h => (nomatch h), fun _ => ⟨rfl, rfl⟩⟩
  | some x =>
    dsimp only
    by_cases ht : t = "voltvar_fixed_vars".toList
    · rw [if_pos ht]
      refine ⟨pr x, "2".toList, rfl, fun v _ h => ⟨by rw [← Option.some.inj h], rfl⟩, fun h => ?_⟩
      rcases h with h | h
      exacts [absurd ht h, nomatch h]
    · rw [if_neg ht]
      exact ⟨[], [], rfl, fun v h => absurd h ht, fun _ => ⟨rfl, rfl⟩⟩

theorem curve_cells {t : Text} {c : ControlIn} (hw : t = "watt_powerfactor".toList → c.wattCurve ≠ none) :
    ∃ a b, curveText t c = .ok (a ++ ',' :: (b ++ [','])) ∧ CurveCells t c a b := by
  unfold curveText
  by_cases h1 : (t = "voltvar_watts_over_vars".toList ∨ t = "voltvar_vars_over_watts".toList) ∧ c.varCurve ≠ none
  · rw [if_pos h1]
    obtain ⟨ht, hc⟩ := h1
    obtain ⟨x, hx⟩ := Option.ne_none_iff_exists'.mp hc
    refine ⟨x, [], by rw [hx]; rfl, ?_, ?_, ?_, ?_⟩
    · intro _ y hy
      rw [hx] at hy
      exact ⟨Option.some.inj hy, rfl⟩
    · rintro rfl
      exact absurd ht (by decide)
    · rintro rfl
      exact absurd ht (by decide)
    · intro h
      simp only [List.mem_cons, List.not_mem_nil, or_false, not_or] at h
      exact absurd ht (not_or.mpr ⟨h.1, h.2.1⟩)
  · rw [if_neg h1]
    have g1 : t = "voltvar_watts_over_vars".toList ∨ t = "voltvar_vars_over_watts".toList → c.varCurve = none := fun ht =>
      Classical.not_not.mp fun hc => h1 ⟨ht, hc⟩
    by_cases h2 : t = "voltwatt".toList ∧ c.wattVoltCurve ≠ none
    · rw [if_pos h2]
      obtain ⟨rfl, hc⟩ := h2
      obtain ⟨x, hx⟩ := Option.ne_none_iff_exists'.mp hc
      refine ⟨x, "0".toList, by rw [hx]; rfl, fun ht => absurd ht (by decide), ?_, fun ht => absurd ht (by decide), fun h => absurd h (by decide)⟩
      intro _ y hy
      rw [hx] at hy
      exact ⟨Option.some.inj hy, rfl⟩
    · rw [if_neg h2]
      have g2 : t = "voltwatt".toList → c.wattVoltCurve = none := fun ht => Classical.not_not.mp fun hc => h2 ⟨ht, hc⟩
      by_cases h3 : t = "watt_powerfactor".toList
      · rw [if_pos h3]
        cases hc : c.wattCurve with
        | none => exact absurd hc (hw h3)
        | some y =>
          subst h3
          cases y with
          | none =>
            exact ⟨[], [], rfl, fun ht => absurd ht (by decide), fun ht => absurd ht (by decide), fun _ x hx => (by rw [hc] at hx; exact nomatch hx),
              fun _ => ⟨rfl, rfl⟩⟩
          | some y =>
            refine ⟨y, "0".toList, rfl, fun ht => absurd ht (by decide), fun ht => absurd ht (by decide), fun _ x hx => ?_, fun h => absurd h (by decide)⟩
            rw [hc] at hx
            exact ⟨Option.some.inj (Option.some.inj hx), rfl⟩
      · rw [if_neg h3]
        refine ⟨[], [], rfl, fun ht x hx => ?_, fun ht x hx => ?_, fun ht => absurd ht h3, fun _ => ⟨rfl, rfl⟩⟩
        · rw [g1 ht] at hx
          exact nomatch hx
        · rw [g2 ht] at hx
          exact nomatch hx

/-- **C125**, control settings: the row has the code of the control, the injection, the curve and the power factor in the right columns, if attributes
that the code reads are there. -/
theorem C125_control_partial (pr : ℚ → Text) (sec : Text) (c : ControlIn) {t : Text} (ht : c.type = some t)
    (hw : lower t = "watt_powerfactor".toList → c.wattCurve ≠ none) (hp : lower t = "powerfactor".toList → c.factor ≠ none) :
    ∃ code i j v w f, controlText pr sec c = .ok (joinCells [sec, "45".toList, "0".toList, "0".toList, code, i, j, v, w, f]) ∧ CodeCell (lower t) code ∧
      InjectionCells pr (lower t) c.injection i j ∧ CurveCells (lower t) c v w ∧
      (∀ x, lower t = "powerfactor".toList → c.factor = some (some x) → f = pr x) ∧ (lower t ≠ "powerfactor".toList → f = []) := by
  obtain ⟨i, j, h1, h2⟩ := injection_cells pr (lower t) c
  obtain ⟨v, w, h3, h4⟩ := curve_cells hw
  have hf : ∃ f, controlFactor pr (lower t) c = .ok f ∧ (∀ x, lower t = "powerfactor".toList → c.factor = some (some x) → f = pr x) ∧
      (lower t ≠ "powerfactor".toList → f = []) := by
    unfold controlFactor
    by_cases h : lower t = "powerfactor".toList
    · rw [if_pos h]
      cases hc : c.factor with
      | none => exact absurd hc (hp h)
      | some y => exact ⟨_, rfl, fun x _ hx => by rw [Option.some.inj hx]; rfl, fun hh => absurd h hh⟩
    · rw [if_neg h]
      exact ⟨[], rfl, fun x hh => absurd hh h, fun _ => rfl⟩
  obtain ⟨f, h5, h6, h7⟩ := hf
  refine ⟨typeCode (lower t), i, j, v, w, f, ?_, typeCode_cell _, h2, h4, h6, h7⟩
  unfold controlText
  rw [ht]
  dsimp only
  rw [h3]
  dsimp only
  rw [h5]
  dsimp only
  rw [h1, ← join_commas, show ",45,0,0,".toList = ',' :: ("45".toList ++ ',' :: ("0".toList ++ ',' :: ("0".toList ++ [',']))) by decide]
  unfold withCommas
  simp only [List.flatMap_cons, List.flatMap_nil, List.append_assoc, List.cons_append, List.nil_append, List.append_nil]

/-- Without control the power factor is controlled, and is 100. -/
theorem C125_no_control (pr : ℚ → Text) (sec : Text) (c : ControlIn) (h : c.type = none) :
    controlText pr sec c = .ok (joinCells [sec, "45".toList, "0".toList, "0".toList, "10".toList, [], [], [], [], "100".toList]) := by
  unfold controlText
  rw [h]
  dsimp only
  rw [← join_commas, show ",45,0,0,".toList = ',' :: ("45".toList ++ ',' :: ("0".toList ++ ',' :: ("0".toList ++ [',']))) by decide,
    show "10,,,,,100".toList = "10".toList ++ ',' :: ',' :: ',' :: ',' :: ',' :: "100".toList by decide]
  unfold withCommas
  simp only [List.flatMap_cons, List.flatMap_nil, List.append_assoc, List.cons_append, List.nil_append, List.append_nil]

/-- **C125**, controls by power factor: the class has no attribute `powerfactor`, and the writer stops. -/
theorem C125_powerfactor_violated (pr : ℚ → Text) (sec : Text) (c : ControlIn) {t : Text} (ht : c.type = some t) (hp : lower t = "powerfactor".toList)
    (hc : c.factor = none) : controlText pr sec c = .error .attributeError := by
  unfold controlText
  rw [ht]
  dsimp only
  rw [hp]
  unfold curveText
  rw [if_neg (fun h => absurd h.1 (by decide)), if_neg (fun h => absurd h.1 (by decide)), if_neg (by decide)]
  dsimp only
  unfold controlFactor
  rw [if_pos rfl, hc]

/-- **C125**, controls by power with a curve: the class has no attribute `watt_powerfactor_curve`, and the writer stops. -/
theorem C125_curve_violated (pr : ℚ → Text) (sec : Text) (c : ControlIn) {t : Text} (ht : c.type = some t) (hp : lower t = "watt_powerfactor".toList)
    (hc : c.wattCurve = none) : controlText pr sec c = .error .attributeError := by
  unfold controlText
  rw [ht]
  dsimp only
  rw [hp]
  unfold curveText
  rw [if_neg (fun h => absurd h.1 (by decide)), if_neg (fun h => absurd h.1 (by decide)), if_pos rfl, hc]

/-- **C125**, controls that were read from a file: their codes are written again but for fixed reactive power, whose cell is empty. -/
theorem C125_codes_violated : (∀ e ∈ controlCodes, e.1 ≠ "2".toList → typeCode e.2 = e.1) ∧ ∃ e ∈ controlCodes, e.1 = "2".toList ∧ typeCode e.2 = [] := by
  decide

/-! ### the loop -/

/-- rows are kept -/
structure DgKept (s t : DgOut) : Prop where
  nodes : ∀ r ∈ s.nodes, r ∈ t.nodes
  sections : ∀ r ∈ s.sections, r ∈ t.sections
  networks : ∀ f l, getEntry f s.networks = some l → ∃ l', getEntry f t.networks = some l' ∧ ∀ r ∈ l, r ∈ l'
  converters : ∀ r ∈ s.converters, r ∈ t.converters
  controls : ∀ r ∈ s.controls, r ∈ t.controls
  settings : ∀ r ∈ s.settings, r ∈ t.settings
  generation : ∀ r ∈ s.generation, r ∈ t.generation
  storages : ∀ r ∈ s.storages, r ∈ t.storages
  codes : ∀ k v, codeOf k s.codes = some v → codeOf k t.codes = some v

theorem DgKept.refl (s : DgOut) : DgKept s s :=
  ⟨fun _ h => h, fun _ h => h, fun _ l h => ⟨l, h, fun _ h => h⟩, fun _ h => h, fun _ h => h, fun _ h => h, fun _ h => h, fun _ h => h, fun _ _ h => h⟩

theorem DgKept.trans {s t u : DgOut} (h : DgKept s t) (g : DgKept t u) : DgKept s u := by
  refine ⟨fun r hr => g.nodes r (h.nodes r hr), fun r hr => g.sections r (h.sections r hr), ?_, fun r hr => g.converters r (h.converters r hr),
    fun r hr => g.controls r (h.controls r hr), fun r hr => g.settings r (h.settings r hr), fun r hr => g.generation r (h.generation r hr),
    fun r hr => g.storages r (h.storages r hr), fun k v hr => g.codes k v (h.codes k v hr)⟩
  intro f l hl
  obtain ⟨l', h1, h2⟩ := h.networks f l hl
  obtain ⟨l'', h3, h4⟩ := g.networks f l' h1
  exact ⟨l'', h3, fun r hr => h4 r (h2 r hr)⟩

theorem push_kept (k v : Text) (d : List (Text × List Text)) (f : Text) (l : List Text) (h : getEntry f d = some l) :
    ∃ l', getEntry f (pushEntry k v d) = some l' ∧ ∀ r ∈ l, r ∈ l' := by
  rw [getEntry_push]
  by_cases hf : f = k
  · subst hf
    rw [if_pos rfl, h]
    exact ⟨_, rfl, fun r hr => List.mem_append_left _ hr⟩
  · rw [if_neg hf]
    exact ⟨l, h, fun _ hr => hr⟩

theorem push_has (k v : Text) (d : List (Text × List Text)) : ∃ l, getEntry k (pushEntry k v d) = some l ∧ v ∈ l := by
  rw [getEntry_push, if_pos rfl]
  refine ⟨_, rfl, ?_⟩
  cases getEntry k d with
  | none => exact .head _
  | some l => exact List.mem_append_right _ (.head _)

theorem mem_snoc {A : Type} (l : List A) (a : A) : a ∈ l ++ [a] := List.mem_append_right _ (.head _)

/-- what a photovoltaic system leaves in the tables -/
structure PvWritten (pr : ℚ → Text) (sqrt : ℚ → ℚ) (hash : Text → Text) (p : PvIn) (n e : Text) (t : DgOut) : Prop where
  node : pointText pr n p.point ∈ t.nodes
  rows : ∃ letters conv ctl gen, phaseLetters p.phases = .ok letters ∧ converterText pr sqrt (shorten hash (e ++ '_' :: n)) "45".toList p.converter = .ok conv ∧
    controlText pr (shorten hash (e ++ '_' :: n)) p.control = .ok ctl ∧ generationText pr (shorten hash (e ++ '_' :: n)) p.converter = .ok gen ∧
    conv ∈ t.converters ∧ ctl ∈ t.controls ∧ gen ∈ t.generation ∧ settingText pr (shorten hash (e ++ '_' :: n)) letters p ∈ t.settings ∧
    dgSection (shorten hash (e ++ '_' :: n)) e n ++ letters ∈ t.sections ∧
    ∀ f, p.feeder = some f → ∃ l, getEntry f t.networks = some l ∧ dgSection (shorten hash (e ++ '_' :: n)) e n ++ letters ∈ l

theorem PvWritten.kept {pr : ℚ → Text} {sqrt : ℚ → ℚ} {hash : Text → Text} {p : PvIn} {n e : Text} {s t : DgOut} (h : PvWritten pr sqrt hash p n e s)
    (k : DgKept s t) : PvWritten pr sqrt hash p n e t := by
  obtain ⟨h0, letters, conv, ctl, gen, h1, h2, h3, h4, h5, h6, h7, h8, h9, h10⟩ := h
  refine ⟨k.nodes _ h0, letters, conv, ctl, gen, h1, h2, h3, h4, k.converters _ h5, k.controls _ h6, k.generation _ h7, k.settings _ h8, k.sections _ h9, ?_⟩
  intro f hf
  obtain ⟨l, g1, g2⟩ := h10 f hf
  obtain ⟨l', g3, g4⟩ := k.networks f l g1
  exact ⟨l', g3, g4 _ g2⟩

theorem pv_step {pr : ℚ → Text} {sqrt : ℚ → ℚ} {hash : Text → Text} {s t : DgOut} {p : PvIn} (h : pvStep pr sqrt hash s p = .ok t) :
    DgKept s t ∧ t.codes = s.codes ∧ t.count = s.count ∧ (∀ n e, PvAt p n e → PvWritten pr sqrt hash p n e t) := by
  unfold pvStep at h
  cases hn : p.name with
  | none => rw [hn] at h; exact nomatch h
  | some n =>
    cases he : p.element with
    | none =>
      rw [hn, he] at h
      obtain rfl := Except.ok.inj h
      refine ⟨?_, rfl, rfl, fun n' e' hp => (by rw [hp.2.1] at he; exact nomatch he)⟩
      exact ⟨fun _ h => h, fun _ h => h, fun _ l h => ⟨l, h, fun _ h => h⟩, fun _ h => h, fun _ h => h, fun _ h => h, fun _ h => h, fun _ h => h, fun _ _ h => h⟩
    | some e =>
      rw [hn, he] at h
      dsimp only at h
      cases hk : p.known with
      | false =>
        rw [hk, if_neg (by decide)] at h
        obtain rfl := Except.ok.inj h
        refine ⟨?_, rfl, rfl, fun n' e' hp => (by rw [hp.2.2] at hk; exact nomatch hk)⟩
        exact ⟨fun _ h => h, fun _ h => h, fun _ l h => ⟨l, h, fun _ h => h⟩, fun _ h => h, fun _ h => h, fun _ h => h, fun _ h => h, fun _ h => h, fun _ _ h => h⟩
      | true =>
        rw [hk, if_pos rfl] at h
        cases h1 : phaseLetters p.phases with
        | error x => rw [h1] at h; exact nomatch h
        | ok letters =>
          rw [h1] at h
          dsimp only at h
          cases h2 : converterText pr sqrt (shorten hash (e ++ '_' :: n)) "45".toList p.converter with
          | error x => rw [h2] at h; exact nomatch h
          | ok conv =>
            rw [h2] at h
            dsimp only at h
            cases h3 : generationText pr (shorten hash (e ++ '_' :: n)) p.converter with
            | error x => rw [h3] at h; exact nomatch h
            | ok gen =>
              rw [h3] at h
              dsimp only at h
              cases h4 : controlText pr (shorten hash (e ++ '_' :: n)) p.control with
              | error x => rw [h4] at h; exact nomatch h
              | ok ctl =>
                rw [h4] at h
                obtain rfl := Except.ok.inj h
                refine ⟨⟨fun r hr => List.mem_append_left _ hr, fun r hr => List.mem_append_left _ hr, ?_, fun r hr => List.mem_append_left _ hr,
                  fun r hr => List.mem_append_left _ hr, fun r hr => List.mem_append_left _ hr, fun r hr => List.mem_append_left _ hr, fun r hr => hr,
                  fun k v hv => hv⟩, rfl, rfl, ?_⟩
                · intro f l hl
                  dsimp only
                  cases p.feeder with
                  | none => exact ⟨l, hl, fun _ h => h⟩
                  | some g => exact push_kept g _ _ f l hl
                · intro n' e' hp
                  obtain ⟨q1, q2, -⟩ := hp
                  rw [hn] at q1
                  rw [he] at q2
                  obtain rfl := Option.some.inj q1
                  obtain rfl := Option.some.inj q2
                  refine ⟨mem_snoc _ _, letters, conv, ctl, gen, h1, h2, h4, h3, mem_snoc _ _, mem_snoc _ _, mem_snoc _ _, mem_snoc _ _, mem_snoc _ _, ?_⟩
                  intro f hf
                  dsimp only
                  rw [hf]
                  exact push_has f _ _

/-- the letters of the phases of a storage -/
def storeLetters (p : StoreIn) : Text := (p.phases.filter fun t => t ∈ ["A".toList, "B".toList, "C".toList]).flatten

/-- what a storage leaves in the tables: its code has its data -/
structure StoreWritten (pr whole : ℚ → Text) (sqrt : ℚ → ℚ) (hash : Text → Text) (p : StoreIn) (n e : Text) (t : DgOut) : Prop where
  node : pointText pr n p.point ∈ t.nodes
  rows : ∃ code conv, codeOf (storeData pr p) t.codes = some code ∧
    joinCells [shorten hash (e ++ '_' :: n), "M".toList, shorten hash (e ++ '_' :: n), code, storeLetters p, chargeText whole p] ∈ t.storages ∧
    converterText pr sqrt (shorten hash (e ++ '_' :: n)) "80".toList p.converter = .ok conv ∧ conv ∈ t.converters
  section_ : dgSection (shorten hash (e ++ '_' :: n)) e n ++ storeLetters p ∈ t.sections
  network : ∀ f, (p.inSubstation = false ∧ p.feeder = some f ∧ f ≠ []) ∨ (p.inSubstation = true ∧ ∃ x, p.substation = some x ∧ x ≠ [] ∧
    f = "substation_".toList ++ x) → ∃ l, getEntry f t.networks = some l ∧ dgSection (shorten hash (e ++ '_' :: n)) e n ++ storeLetters p ∈ l

theorem StoreWritten.kept {pr whole : ℚ → Text} {sqrt : ℚ → ℚ} {hash : Text → Text} {p : StoreIn} {n e : Text} {s t : DgOut}
    (h : StoreWritten pr whole sqrt hash p n e s) (k : DgKept s t) : StoreWritten pr whole sqrt hash p n e t := by
  obtain ⟨h0, ⟨code, conv, h1, h2, h3, h4⟩, h5, h6⟩ := h
  refine ⟨k.nodes _ h0, ⟨code, conv, k.codes _ _ h1, k.storages _ h2, h3, k.converters _ h4⟩, k.sections _ h5, ?_⟩
  intro f hf
  obtain ⟨l, g1, g2⟩ := h6 f hf
  obtain ⟨l', g3, g4⟩ := k.networks f l g1
  exact ⟨l', g3, g4 _ g2⟩

/-- the codes are different names with numbers up to the counter -/
def CodesOk (codes : List (Text × Text)) (count : Nat) : Prop :=
  (codes.map (·.1)).Nodup ∧ (codes.map (·.2)).Nodup ∧ ∀ v ∈ codes.map (·.2), ∃ k, k ≤ count ∧ v = "BESS_".toList ++ k.repr.toList

theorem put_fresh {codes : List (Text × Text)} {k : Text} (h : codeOf k codes = none) (v : Text) : putCode k v codes = codes ++ [(k, v)] := by
  induction codes with
  | nil => rfl
  | cons e l ih =>
    rw [codeOf] at h
    by_cases he : e.1 = k
    · rw [if_pos he] at h
      exact nomatch h
    · rw [if_neg he] at h
      rw [putCode, if_neg he, ih h]
      rfl

theorem storeCode_ok {codes : List (Text × Text)} {count : Nat} (h : CodesOk codes count) (data : Text) :
    CodesOk (storeCode codes count data).2.1 (storeCode codes count data).2.2 := by
  unfold storeCode
  cases hc : codeOf data codes with
  | some c => exact h
  | none =>
    dsimp only
    rw [put_fresh hc]
    obtain ⟨h1, h2, h3⟩ := h
    refine ⟨?_, ?_, ?_⟩
    · rw [List.map_append]
      refine h1.append (List.nodup_singleton _) fun x hx hx' => (codeOf_none_iff data).mp hc ?_
      have hd : x = data := List.mem_singleton.mp hx'
      rw [← hd]
      exact hx
    · rw [List.map_append]
      refine h2.append (List.nodup_singleton _) fun x hx hx' => ?_
      obtain ⟨k, hk, hv⟩ := h3 x hx
      rw [List.mem_singleton.mp hx'] at hv
      have := repr_inj (List.append_cancel_left hv)
      omega
    · intro v hv
      rw [List.map_append] at hv
      rcases List.mem_append.mp hv with hv | hv
      · obtain ⟨k, hk, hv⟩ := h3 v hv
        exact ⟨k, by omega, hv⟩
      · exact ⟨count + 1, Nat.le_refl _, List.mem_singleton.mp hv⟩

theorem storeCode_get (codes : List (Text × Text)) (count : Nat) (data : Text) :
    codeOf data (storeCode codes count data).2.1 = some (storeCode codes count data).1 ∧
      ∀ k v, codeOf k codes = some v → codeOf k (storeCode codes count data).2.1 = some v := by
  unfold storeCode
  cases hc : codeOf data codes with
  | some c => exact ⟨hc, fun _ _ h => h⟩
  | none =>
    dsimp only
    refine ⟨by rw [codeOf_put, if_pos rfl], fun k v h => ?_⟩
    rw [codeOf_put, if_neg ?_]
    · exact h
    · rintro rfl
      rw [hc] at h
      exact nomatch h

theorem storeNetwork_own {last : Option Text} {p : StoreIn} {f : Text} (h : (p.inSubstation = false ∧ p.feeder = some f ∧ f ≠ []) ∨
    (p.inSubstation = true ∧ ∃ x, p.substation = some x ∧ x ≠ [] ∧ f = "substation_".toList ++ x)) : storeNetwork last p = some f := by
  unfold storeNetwork
  rcases h with ⟨h1, h2, h3⟩ | ⟨h1, x, h2, h3, rfl⟩
  · rw [h1, h2, if_neg (by decide)]
    exact if_neg h3
  · rw [h1, h2, if_pos rfl]
    exact if_neg h3

theorem store_step {pr whole : ℚ → Text} {sqrt : ℚ → ℚ} {hash : Text → Text} {s t : DgOut} {p : StoreIn} (h : storeStep pr whole sqrt hash s p = .ok t) :
    DgKept s t ∧ (CodesOk s.codes s.count → CodesOk t.codes t.count) ∧ (∀ n e, StoreAt p n e → StoreWritten pr whole sqrt hash p n e t) := by
  by_cases hat : ∃ n e, StoreAt p n e
  · obtain ⟨n, e, hn, he, hk⟩ := hat
    unfold storeStep at h
    rw [hn, he] at h
    dsimp only at h
    rw [hk, if_pos rfl] at h
    cases hf : storeNetwork s.network p with
    | none => rw [hf] at h; exact nomatch h
    | some f =>
      rw [hf] at h
      dsimp only at h
      cases hs : s.started with
      | false => rw [hs] at h; exact nomatch h
      | true =>
        rw [hs] at h
        rw [if_neg (by decide)] at h
        cases h2 : converterText pr sqrt (shorten hash (e ++ '_' :: n)) "80".toList p.converter with
        | error x => rw [h2] at h; exact nomatch h
        | ok conv =>
          rw [h2] at h
          obtain rfl := Except.ok.inj h
          obtain ⟨g1, g2⟩ := storeCode_get s.codes s.count (storeData pr p)
          refine ⟨⟨fun r hr => List.mem_append_left _ hr, fun r hr => List.mem_append_left _ hr, fun g l hl => push_kept f _ _ g l hl,
            fun r hr => List.mem_append_left _ hr, fun r hr => List.mem_append_left _ hr, fun r hr => hr, fun r hr => hr,
            fun r hr => List.mem_append_left _ hr, g2⟩, fun hc => storeCode_ok hc _, ?_⟩
          intro n' e' hp
          obtain ⟨q1, q2, -⟩ := hp
          rw [hn] at q1
          rw [he] at q2
          obtain rfl := Option.some.inj q1
          obtain rfl := Option.some.inj q2
          refine ⟨mem_snoc _ _, ⟨_, conv, g1, ?_, h2, mem_snoc _ _⟩, mem_snoc _ _, ?_⟩
          · refine List.mem_append_right _ (List.mem_singleton.mpr ?_)
            rw [← join_commas, show ",M,".toList = ',' :: ("M".toList ++ [',']) by decide]
            unfold withCommas
            simp only [List.flatMap_cons, List.flatMap_nil, List.append_assoc, List.cons_append, List.nil_append, List.append_nil]
            rfl
          · intro g hg
            rw [storeNetwork_own hg] at hf
            rw [Option.some.inj hf]
            exact push_has f _ _
  · have ht : t = s := by
      unfold storeStep at h
      cases hn : p.name with
      | none => rw [hn] at h; exact (Except.ok.inj h).symm
      | some n =>
        cases he : p.element with
        | none => rw [hn, he] at h; exact (Except.ok.inj h).symm
        | some e =>
          cases hk : p.known with
          | true => exact absurd ⟨n, e, hn, he, hk⟩ hat
          | false =>
            rw [hn, he, hk] at h
            exact (Except.ok.inj h).symm
    rw [ht]
    exact ⟨DgKept.refl s, id, fun n e hp => absurd ⟨n, e, hp⟩ hat⟩

theorem dg_step {pr whole : ℚ → Text} {sqrt : ℚ → ℚ} {hash : Text → Text} {s t : DgOut} {d : DgIn} (h : dgStep pr whole sqrt hash s d = .ok t) :
    DgKept s t ∧ (CodesOk s.codes s.count → CodesOk t.codes t.count) := by
  cases d with
  | pv p =>
    obtain ⟨h1, h2, h3, -⟩ := pv_step h
    exact ⟨h1, fun hc => by rw [h2, h3]; exact hc⟩
  | store p =>
    obtain ⟨h1, h2, -⟩ := store_step h
    exact ⟨h1, h2⟩
  | other f =>
    cases f with
    | none =>
      obtain rfl := Except.ok.inj h
      exact ⟨DgKept.refl _, id⟩
    | some f =>
      obtain rfl := Except.ok.inj h
      exact ⟨⟨fun _ h => h, fun _ h => h, fun _ l h => ⟨l, h, fun _ h => h⟩, fun _ h => h, fun _ h => h, fun _ h => h, fun _ h => h, fun _ h => h, fun _ _ h => h⟩, id⟩

/-- **C125**, the tables: if the writer does not stop, each photovoltaic system and each storage that is connected has its rows, its section is in the
network it belongs to, and codes of storages stand for equal data. -/
theorem dg_loop {pr whole : ℚ → Text} {sqrt : ℚ → ℚ} {hash : Text → Text} {ds : List DgIn} {s t : DgOut} (h : dgLoop pr whole sqrt hash s ds = .ok t) :
    DgKept s t ∧ (CodesOk s.codes s.count → CodesOk t.codes t.count) ∧
    (∀ p n e, .pv p ∈ ds → PvAt p n e → PvWritten pr sqrt hash p n e t) ∧ ∀ p n e, .store p ∈ ds → StoreAt p n e → StoreWritten pr whole sqrt hash p n e t := by
  induction ds generalizing s with
  | nil =>
    obtain rfl := Except.ok.inj h
    exact ⟨DgKept.refl _, id, fun p n e hp => (List.not_mem_nil hp).elim, fun p n e hp => (List.not_mem_nil hp).elim⟩
  | cons d ds ih =>
    rw [dgLoop] at h
    cases hd : dgStep pr whole sqrt hash s d with
    | error x => rw [hd] at h; exact nomatch h
    | ok u =>
      rw [hd] at h
      obtain ⟨h1, h2, h3, h4⟩ := ih h
      obtain ⟨g1, g2⟩ := dg_step hd
      refine ⟨g1.trans h1, fun hc => h2 (g2 hc), ?_, ?_⟩
      · intro p n e hp hat
        rcases List.mem_cons.mp hp with rfl | hp
        · exact ((pv_step hd).2.2.2 n e hat).kept h1
        · exact h3 p n e hp hat
      · intro p n e hp hat
        rcases List.mem_cons.mp hp with rfl | hp
        · exact ((store_step hd).2.2 n e hat).kept h1
        · exact h4 p n e hp hat

/-- **C125**, photovoltaic systems: if the writer does not stop, each one that is connected has its node, its section, which is in the network of its
feeder if it has one, and rows of converter, control and settings. -/
theorem C125_pvs_partial {pr whole : ℚ → Text} {sqrt : ℚ → ℚ} {hash : Text → Text} {ds : List DgIn} {t : DgOut} (h : dgLoop pr whole sqrt hash {} ds = .ok t)
    {p : PvIn} {n e : Text} (hp : .pv p ∈ ds) (hat : PvAt p n e) :
    pointText pr n p.point ∈ t.nodes ∧ ∃ letters conv ctl, phaseLetters p.phases = .ok letters ∧
      converterText pr sqrt (shorten hash (e ++ '_' :: n)) "45".toList p.converter = .ok conv ∧ conv ∈ t.converters ∧
      controlText pr (shorten hash (e ++ '_' :: n)) p.control = .ok ctl ∧ ctl ∈ t.controls ∧
      settingText pr (shorten hash (e ++ '_' :: n)) letters p ∈ t.settings ∧
      joinCells [shorten hash (e ++ '_' :: n), e, "0".toList, n, "0".toList, letters] ∈ t.sections ∧
      ∀ f, p.feeder = some f → ∃ l, getEntry f t.networks = some l ∧ joinCells [shorten hash (e ++ '_' :: n), e, "0".toList, n, "0".toList, letters] ∈ l := by
  obtain ⟨h0, letters, conv, ctl, gen, h1, h2, h3, h4, h5, h6, h7, h8, h9, h10⟩ := (dg_loop h).2.2.1 p n e hp hat
  have hsec : ∀ sec : Text, dgSection sec e n ++ letters = joinCells [sec, e, "0".toList, n, "0".toList, letters] := by
    intro sec
    rw [← join_commas]
    unfold dgSection withCommas
    rw [show ",0,".toList = ',' :: ("0".toList ++ [',']) by decide]
    simp only [List.flatMap_cons, List.flatMap_nil, List.append_assoc, List.cons_append, List.nil_append, List.append_nil]
  rw [hsec] at h9
  refine ⟨h0, letters, conv, ctl, h1, h2, h5, h3, h6, h8, h9, ?_⟩
  intro f hf
  obtain ⟨l, g1, g2⟩ := h10 f hf
  rw [hsec] at g2
  exact ⟨l, g1, g2⟩

/-- **C125**, storages: if the writer does not stop, each one that is connected has a row with a code, and the equipment file has a row with this code
and the data of the storage. -/
theorem C125_storages_partial {pr whole : ℚ → Text} {sqrt : ℚ → ℚ} {hash : Text → Text} {ds : List DgIn} {t : DgOut}
    (h : dgLoop pr whole sqrt hash {} ds = .ok t) {p : StoreIn} {n e : Text} (hp : .store p ∈ ds) (hat : StoreAt p n e) :
    ∃ code, joinCells [shorten hash (e ++ '_' :: n), "M".toList, shorten hash (e ++ '_' :: n), code, storeLetters p, chargeText whole p] ∈ t.storages ∧
      ∃ a b c f, joinCells [code, a, b, b, c, f] ∈ storeRows t.codes ∧ KilowattCell pr p.energy a ∧ KilowattCell pr p.converter.rated b ∧
        ValueCell pr p.charging c ∧ ValueCell pr p.discharging f ∧ (code, storeData pr p) ∈ t.codes.map Prod.swap ∧
        ∀ d, (code, d) ∈ t.codes.map Prod.swap → d = storeData pr p := by
  obtain ⟨-, hc, -, h4⟩ := dg_loop h
  obtain ⟨k1, k2, -⟩ := hc ⟨List.nodup_nil, List.nodup_nil, fun v hv => (List.not_mem_nil hv).elim⟩
  obtain ⟨-, ⟨code, conv, g1, g2, -, -⟩, -, -⟩ := h4 p n e hp hat
  have hm : (storeData pr p, code) ∈ t.codes := (codeOf_iff k1 _ _).mp g1
  refine ⟨code, g2, _, _, _, _, List.mem_map.mpr ⟨_, hm, ?_⟩, optCell_kilo pr _, optCell_kilo pr _, optCell_value pr _, optCell_value pr _,
    List.mem_map.mpr ⟨_, hm, rfl⟩, ?_⟩
  · dsimp only
    rw [← join_commas]
    unfold storeData withCommas
    simp only [List.flatMap_cons, List.flatMap_nil, List.append_assoc, List.cons_append, List.nil_append, List.append_nil]
  · intro d hd
    obtain ⟨x, hx, hxs⟩ := List.mem_map.mp hd
    have h1 : x.2 = code := congrArg Prod.fst hxs
    have h2 : x.1 = d := congrArg Prod.snd hxs
    have := List.inj_on_of_nodup_map k2 hx hm h1
    rw [← h2, this]

/-- Two storages have the same code if and only if their data are the same texts. -/
theorem C125_shared {pr whole : ℚ → Text} {sqrt : ℚ → ℚ} {hash : Text → Text} {ds : List DgIn} {t : DgOut}
    (h : dgLoop pr whole sqrt hash {} ds = .ok t) {a b c d : Text} (h1 : (a, c) ∈ t.codes) (h2 : (b, d) ∈ t.codes) : a = b ↔ c = d := by
  obtain ⟨k1, k2, -⟩ := (dg_loop h).2.1 ⟨List.nodup_nil, List.nodup_nil, fun v hv => (List.not_mem_nil hv).elim⟩
  constructor
  · intro hab
    exact congrArg Prod.snd (List.inj_on_of_nodup_map k1 h1 h2 hab)
  · intro hcd
    exact congrArg Prod.fst (List.inj_on_of_nodup_map k2 h1 h2 hcd)

/-- **C125**, storages without photovoltaic systems before them: the writer always stops. -/
theorem C125_first_violated (pr whole : ℚ → Text) (sqrt : ℚ → ℚ) (hash : Text → Text) {pre post : List DgIn} {p : StoreIn} {n e : Text}
    (hpre : ∀ q, .pv q ∉ pre) (hat : StoreAt p n e) : dgLoop pr whole sqrt hash {} (pre ++ .store p :: post) = .error .unboundLocalError := by
  have key : ∀ s : DgOut, s.started = false → ∀ q : StoreIn, (storeStep pr whole sqrt hash s q = .error .unboundLocalError ∨
      storeStep pr whole sqrt hash s q = .ok s) ∧ ((∃ n e, StoreAt q n e) → storeStep pr whole sqrt hash s q = .error .unboundLocalError) := by
    intro s hs q
    unfold storeStep
    cases hn : q.name with
    | none => exact ⟨Or.inr rfl, fun ⟨n, e, h⟩ => (by rw [h.1] at hn; exact nomatch hn)⟩
    | some n =>
      cases he : q.element with
      | none => exact ⟨Or.inr rfl, fun ⟨n, e, h⟩ => (by rw [h.2.1] at he; exact nomatch he)⟩
      | some e =>
        dsimp only
        cases hk : q.known with
        | false => exact ⟨Or.inr rfl, fun ⟨n, e, h⟩ => (by rw [h.2.2] at hk; exact nomatch hk)⟩
        | true =>
          rw [if_pos rfl]
          cases storeNetwork s.network q with
          | none => exact ⟨Or.inl rfl, fun _ => rfl⟩
          | some f =>
            dsimp only
            rw [hs]
            exact ⟨Or.inl rfl, fun _ => rfl⟩
  suffices H : ∀ s : DgOut, s.started = false → dgLoop pr whole sqrt hash s (pre ++ .store p :: post) = .error .unboundLocalError from H {} rfl
  induction pre with
  | nil =>
    intro s hs
    rw [List.nil_append, dgLoop, show dgStep pr whole sqrt hash s (.store p) = storeStep pr whole sqrt hash s p from rfl, (key s hs p).2 ⟨n, e, hat⟩]
  | cons d pre ih =>
    intro s hs
    have ih := ih fun q hq => hpre q (.tail _ hq)
    rw [List.cons_append, dgLoop]
    cases d with
    | pv q => exact absurd (.head _) (hpre q)
    | store q =>
      show (match storeStep pr whole sqrt hash s q with | .error e => Except.error e | .ok s' => dgLoop pr whole sqrt hash s' (pre ++ DgIn.store p :: post)) = _
      rcases (key s hs q).1 with h | h
      · rw [h]
      · rw [h]
        exact ih s hs
    | other f =>
      cases f with
      | none => exact ih s hs
      | some f => exact ih _ hs

/-- **C125**, storages without feeder: the section goes to the network of an object before them, whatever that is. -/
theorem C125_stale_violated {pr whole : ℚ → Text} {sqrt : ℚ → ℚ} {hash : Text → Text} {s t : DgOut} {p : StoreIn} {n e f : Text}
    (h : storeStep pr whole sqrt hash s p = .ok t) (hat : StoreAt p n e) (hs : s.network = some f) (hf : p.inSubstation = false) (hn : p.feeder = none) :
    ∃ l, getEntry f t.networks = some l ∧ dgSection (shorten hash (e ++ '_' :: n)) e n ++ storeLetters p ∈ l := by
  have hnet : storeNetwork s.network p = some f := by
    unfold storeNetwork
    rw [hf, hn, hs]
    rfl
  obtain ⟨q1, q2, q3⟩ := hat
  unfold storeStep at h
  rw [q1, q2] at h
  dsimp only at h
  rw [q3, if_pos rfl, hnet] at h
  dsimp only at h
  cases hst : s.started with
  | false => rw [hst] at h; exact nomatch h
  | true =>
    rw [hst] at h
    rw [if_neg (by decide)] at h
    cases h2 : converterText pr sqrt (shorten hash (e ++ '_' :: n)) "80".toList p.converter with
    | error x => rw [h2] at h; exact nomatch h
    | ok conv =>
      rw [h2] at h
      obtain rfl := Except.ok.inj h
      exact push_has f _ _

/-- **C125**, photovoltaic systems without feeder: their section is in no network. -/
theorem C125_loose_violated {pr : ℚ → Text} {sqrt : ℚ → ℚ} {hash : Text → Text} {s t : DgOut} {p : PvIn} (h : pvStep pr sqrt hash s p = .ok t)
    (hf : p.feeder = none) : t.networks = s.networks := by
  unfold pvStep at h
  cases hn : p.name with
  | none => rw [hn] at h; exact nomatch h
  | some n =>
    cases he : p.element with
    | none =>
      rw [hn, he] at h
      obtain rfl := Except.ok.inj h
      rfl
    | some e =>
      rw [hn, he] at h
      dsimp only at h
      cases hk : p.known with
      | false =>
        rw [hk, if_neg (by decide)] at h
        obtain rfl := Except.ok.inj h
        rfl
      | true =>
        rw [hk, if_pos rfl, hf] at h
        revert h
        cases phaseLetters p.phases with
        | error x => exact fun h => (nomatch h)
        | ok letters =>
          dsimp only
          cases converterText pr sqrt (shorten hash (e ++ '_' :: n)) "45".toList p.converter with
          | error x => exact fun h => (nomatch h)
          | ok conv =>
            dsimp only
            cases generationText pr (shorten hash (e ++ '_' :: n)) p.converter with
            | error x => exact fun h => (nomatch h)
            | ok gen =>
              dsimp only
              cases controlText pr (shorten hash (e ++ '_' :: n)) p.control with
              | error x => exact fun h => (nomatch h)
              | ok ctl =>
                intro h
                obtain rfl := Except.ok.inj h
                rfl

/-- **C125**, phases that are plain texts, as the reader of Synergi sets them, and systems without name: the writer stops. -/
theorem C125_phase_violated (pr : ℚ → Text) (sqrt : ℚ → ℚ) (hash : Text → Text) (s : DgOut) (p : PvIn) :
    (∀ n e, PvAt p n e → none ∈ p.phases → pvStep pr sqrt hash s p = .error .attributeError) ∧ (p.name = none → pvStep pr sqrt hash s p = .error .typeError) := by
  constructor
  · intro n e hat hp
    have hl : phaseLetters p.phases = .error .attributeError := by
      generalize p.phases = ps at hp
      induction ps with
      | nil => exact (List.not_mem_nil hp).elim
      | cons q ps ih =>
        cases q with
        | none => rfl
        | some t =>
          rcases List.mem_cons.mp hp with hp | hp
          · exact nomatch hp
          · rw [phaseLetters, ih hp]
    unfold pvStep
    rw [hat.1, hat.2.1]
    dsimp only
    rw [hat.2.2, if_pos rfl, hl]
  · intro h
    unfold pvStep
    rw [h]

/-- The letters of phases that are traits are those among A, B and C, in their order. -/
theorem C125_letters (ps : List Text) :
    phaseLetters (ps.map some) = .ok (ps.filter fun t => t ∈ ["A".toList, "B".toList, "C".toList]).flatten := by
  induction ps with
  | nil => rfl
  | cons t ps ih =>
    rw [List.map_cons, phaseLetters, ih]
    dsimp only
    by_cases h : t ∈ ["A".toList, "B".toList, "C".toList]
    · rw [if_pos h, List.filter_cons_of_pos (p := fun t => decide (t ∈ ["A".toList, "B".toList, "C".toList])) (decide_eq_true h)]
      rfl
    · rw [if_neg h, List.filter_cons_of_neg (p := fun t => decide (t ∈ ["A".toList, "B".toList, "C".toList])) (fun hh => h (of_decide_eq_true hh))]

/-- The row of settings has the numbers of panels, the temperature, the phases and the profile in the right columns. -/
theorem C125_setting (pr : ℚ → Text) (sec letters : Text) (p : PvIn) :
    ∃ x y t k l, settingText pr sec letters p = joinCells [sec, "M".toList, sec, "DEFAULT".toList, x, y, t, letters, k, l] ∧
      ValueCell pr ((pvPanels p.converter.rated p.converter.active).map Prod.fst) x ∧ ValueCell pr ((pvPanels p.converter.rated p.converter.active).map Prod.snd) y ∧
      ValueCell pr p.temperature t ∧ (∀ label place, p.profile = some (some label, some place) → k = "0".toList ∧ l = label) ∧
      ((∀ label place, p.profile ≠ some (some label, some place)) → k = "1".toList ∧ l = []) := by
  have hprof : ∃ k l : Text, profileText p.profile = ',' :: (k ++ ',' :: l) ∧ (∀ label place, p.profile = some (some label, some place) → k = "0".toList ∧ l = label) ∧
      ((∀ label place, p.profile ≠ some (some label, some place)) → k = "1".toList ∧ l = []) := by
    rcases p.profile with _ | ⟨_ | label, _ | place⟩
    · exact ⟨"1".toList, [], rfl, fun a b h => (nomatch h), fun _ => ⟨rfl, rfl⟩⟩
    · exact ⟨"1".toList, [], rfl, fun a b h => (nomatch h), fun _ => ⟨rfl, rfl⟩⟩
    · exact ⟨"1".toList, [], rfl, fun a b h => (nomatch h), fun _ => ⟨rfl, rfl⟩⟩
    · exact ⟨"1".toList, [], rfl, fun a b h => (nomatch h), fun _ => ⟨rfl, rfl⟩⟩
    · refine ⟨"0".toList, label, rfl, fun a b h => ⟨rfl, ?_⟩, fun h => absurd rfl (h label place)⟩
      exact Option.some.inj (Prod.mk.inj (Option.some.inj h)).1
  obtain ⟨k, l, h1, h2, h3⟩ := hprof
  refine ⟨_, _, _, k, l, ?_, optCell_value pr _, optCell_value pr _, optCell_value pr _, h2, h3⟩
  unfold settingText
  rw [h1, ← join_commas, show ",M,".toList = ',' :: ("M".toList ++ [',']) by decide, show ",DEFAULT,".toList = ',' :: ("DEFAULT".toList ++ [',']) by decide]
  unfold withCommas
  cases pvPanels p.converter.rated p.converter.active with
  | none =>
    dsimp only
    rw [show ",,".toList = [',', ','] by decide]
    simp only [List.flatMap_cons, List.flatMap_nil, List.append_assoc, List.cons_append, List.nil_append, List.append_nil, Option.map_none, optCell]
  | some q =>
    dsimp only
    simp only [List.flatMap_cons, List.flatMap_nil, List.append_assoc, List.cons_append, List.nil_append, List.append_nil, Option.map_some, optCell]

/-- **C125**, energies: the reader takes the cell as it is, which is a thousandth of the energy. -/
theorem C125_energy_violated {num : Text → Option ℚ} {pr : ℚ → Text} (p : StoreIn) {x : ℚ} (hx : p.energy = some x) (h0 : x ≠ 0)
    (hread : num (pr (x / 1000)) = some (x / 1000)) {c : Text} (hc : KilowattCell pr p.energy c) : num c ≠ p.energy := by
  rw [hc.1 x hx, hread, hx]
  intro h
  have h1 : x / 1000 = x := Option.some.inj h
  refine h0 ?_
  linarith

/-- The charge is in percent of the energy. -/
theorem C125_charge (whole : ℚ → Text) (p : StoreIn) :
    (∀ a b, p.stored = some a → p.energy = some b → b ≠ 0 → chargeText whole p = whole (a / b * 100)) ∧
    (p.stored = none ∨ p.energy = none ∨ p.energy = some 0 → chargeText whole p = []) := by
  unfold chargeText
  constructor
  · intro a b h1 h2 h3
    rw [h1, h2]
    exact if_pos h3
  · rintro (h | h | h)
    · rw [h]
    · rw [h]
      cases p.stored <;> rfl
    · rw [h]
      cases p.stored with
      | none => rfl
      | some a => exact if_neg (fun hh => hh rfl)

/-! ### examples -/

def topText (x : ℚ) : Text := (toString x.num.natAbs).toList

def somePv : PvIn where
  name := some "pv1".toList
  element := some "n1".toList
  known := true
  point := some (3, 4)
  phases := [some "A".toList, some "N".toList, some "C".toList]
  feeder := some "f1".toList
  substation := none
  temperature := some 25
  profile := none
  converter := ⟨some 320, some 2000, none, false, none, none, some 10⟩
  control := ⟨some "VoltVar_fixed_vars".toList, some 100, some "vv".toList, some "vw".toList, none, none⟩

def someStore : StoreIn where
  name := some "b1".toList
  element := some "n1".toList
  known := true
  point := none
  phases := ["A".toList, "B".toList]
  inSubstation := false
  substation := none
  feeder := none
  energy := some 50000
  stored := some 25000
  charging := some 98
  discharging := none
  converter := ⟨some 1000, some 3000, some 4000, false, none, none, none⟩

def someDg : List DgIn := [.pv somePv, .other (some "f2".toList), .store someStore, .store { someStore with name := some "b2".toList }]

def someDgOut : DgOut where
  nodes := ["pv1,3,4".toList, "b1,0,0".toList, "b2,0,0".toList]
  sections := ["n1_pv1,n1,0,pv1,0,AC".toList, "n1_b1,n1,0,b1,0,AB".toList, "n1_b2,n1,0,b2,0,AB".toList]
  networks := [("f1".toList, ["n1_pv1,n1,0,pv1,0,AC".toList]), ("f2".toList, ["n1_b1,n1,0,b1,0,AB".toList, "n1_b2,n1,0,b2,0,AB".toList])]
  ids := [("f1".toList, ["n1_pv1".toList])]
  converters := ["n1_pv1,45,2,2,44,,,10,0".toList, "n1_b1,80,25000,3,4,,,,".toList, "n1_b2,80,25000,3,4,,,,".toList]
  controls := ["n1_pv1,45,0,0,2,100,2,,,".toList, "n1_b1,80,0,0,10,,,,,".toList, "n1_b2,80,0,0,10,,,,,".toList]
  settings := ["n1_pv1,M,n1_pv1,DEFAULT,2,2,25,AC,1,".toList]
  generation := ["n1_pv145,DEFAULT,8,,".toList]
  storages := ["n1_b1,M,n1_b1,BESS_1,AB,50".toList, "n1_b2,M,n1_b2,BESS_1,AB,50".toList]
  codes := [("50,1,1,98,".toList, "BESS_1".toList)]
  count := 1
  network := some "f2".toList
  started := true

example : (dgLoop topText topText id id {} someDg).toOption = some someDgOut := by decide +kernel

example : ∃ code, joinCells ["n1_b2".toList, "M".toList, "n1_b2".toList, code, "AB".toList, "50".toList] ∈ someDgOut.storages := by
  have h : dgLoop topText topText id id {} someDg = .ok someDgOut := by decide +kernel
  obtain ⟨code, h1, -⟩ := C125_storages_partial h (p := { someStore with name := some "b2".toList }) (.tail _ (.tail _ (.tail _ (.head _)))) ⟨rfl, rfl, rfl⟩
  exact ⟨code, by have e : chargeText topText { someStore with name := some "b2".toList } = "50".toList := (by decide +kernel)
                  rw [e] at h1
                  exact h1⟩

example : controlText topText "s".toList ⟨some "PowerFactor".toList, none, none, none, none, none⟩ = .error .attributeError :=
  C125_powerfactor_violated _ _ _ rfl (by decide) rfl

example : dgLoop topText topText id id {} [.other none, .store someStore, .pv somePv] = .error .unboundLocalError :=
  C125_first_violated _ _ _ _ (pre := [.other none]) (fun q hq => by rw [List.mem_singleton] at hq; exact nomatch hq) (n := "b1".toList) (e := "n1".toList) ⟨rfl, rfl, rfl⟩

end Ditto.Cyme
