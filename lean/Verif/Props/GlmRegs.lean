import Verif.Lemmas.GlmRegs
import Verif.Props.GlmTrafos

/-! C105: the regulators of GridLAB-D files. -/
namespace Ditto.Glm
open Ditto Glm.Spec

section numbers
variable {K : Type} {flt : Text → Option K} {int : Text → Option Int} {schema : Schema} {due : List Text → Py Bool}
  {files : Text → Option (List Text)} {rows : List Text} {s : GState} {ds : List Decl} {rs : List (GReadReg K)}

theorem reg_file (hr : readGlm schema due files [] rows = .ok s) :
    readRegFile flt int schema due files [] rows = readClass "regulator".toList (readReg flt int s.objects) s.objects := by
  unfold readRegFile
  rw [hr]

theorem reg_ok {objects : List (Text × GldObj)} (hh : Holds objects [] ds) {o : GldObj} {d : Decl} (ho : Stored o d) (hn : (nameOf d).isSome) {r : GReadReg K}
    (h : readReg flt int objects o = .ok r) : RegSays flt int ds d r ∧ r.source = none ∧ r.sink = none := by
  unfold readReg at h
  split at h
  · cases h
  · rename_i v hv
    have hv' := regVoltage_ok hh ho hv
    obtain ⟨hc1, hc2⟩ := configObject_ok hh ho
    split at h
    · rename_i hco
      cases h
      refine ⟨⟨readName_ok ho hn, hv', fun c hc => absurd hc (hc2 hco c), fun _ => ⟨⟨rfl, rfl, rfl, rfl, rfl, rfl, rfl, rfl, rfl, ?_⟩, ?_⟩⟩, rfl, rfl⟩
      · intro p hp
        obtain ⟨q, -, rfl⟩ := List.mem_map.mp hp
        exact ⟨rfl, rfl, rfl⟩
      · rw [plain_letters]
        exact trafoPhases_ok ho
    · rename_i oc hco
      obtain ⟨c, hc, hsc⟩ := hc1 oc hco
      obtain ⟨h1, h2, h3, h4, h5⟩ := configuredReg_ok ho hsc h
      refine ⟨⟨by rw [h1]; exact readName_ok ho hn, by rw [h4]; exact hv', fun c' hc' => ?_, fun hb => absurd hc (hb c)⟩, h2, h3⟩
      rw [config_unique hc' hc]
      exact h5

/-- C105 (partial): reading a file gives exactly one regulator for each name of a regulator in the file, with the phases, tap positions, compensators,
connections, steps, ratios and limits that the configuration in the file says, and the voltage of the object at its first end. What is missing are the
ends, see `C105_ends_violated`. -/
theorem C105_regulators_partial (hr : readGlm schema due files [] rows = .ok s) (hh : Holds s.objects [] ds)
    (h : readRegFile flt int schema due files [] rows = .ok rs) :
    ∃ names : List Text, names.Nodup ∧ (∀ n, n ∈ names ↔ ∃ d, lastNamed ds n = some d ∧ d.cls = "regulator".toList) ∧
      List.Forall₂ (fun n r => ∃ d, lastNamed ds n = some d ∧ RegSays flt int ds d r) names rs := by
  rw [reg_file hr] at h
  exact class_names (fun ho hn h => (reg_ok hh ho hn h).1) hr hh h

/-- a file with clean numbers is read, if the first end of each regulator is in the file and only its phases have compensators -/
theorem C105_succeeds (hr : readGlm schema due files [] rows = .ok s) (hh : Holds s.objects [] ds)
    (hf : ∀ n d, lastNamed ds n = some d → d.cls = "regulator".toList → ∀ m, attrOf d "from".toList = some m →
      ∃ f, lastNamed ds m = some f ∧ Clean flt f "nominal_voltage".toList)
    (hc : ∀ n d, lastNamed ds n = some d → d.cls = "regulator".toList → ∀ c, ConfigIs ds d c → CleanReg flt int c ∧ CompensatedPhases d c) :
    ∃ rs, readRegFile flt int schema due files [] rows = .ok rs := by
  rw [reg_file hr]
  refine class_clean fun p hp hcls => ?_
  obtain ⟨d, hd, hs⟩ := holds_mem hh (glm_once hr) hp
  have hdc : d.cls = "regulator".toList := by rw [← hs.1]; exact hcls
  have hv : ∃ v, regVoltage flt s.objects p.2 = .ok v := by
    unfold regVoltage
    rw [entry_attr hs]
    cases ha : attrOf d "from".toList with
    | none => exact ⟨_, rfl⟩
    | some m =>
      obtain ⟨f, hl, hcl⟩ := hf p.1 d hd hdc m ha
      have hm := hh m
      rw [hl] at hm
      obtain ⟨of, h1, h2⟩ := hm
      dsimp only
      rw [entry_find, h1]
      exact optional_clean h2 hcl
  obtain ⟨v, hv⟩ := hv
  unfold readReg
  rw [hv]
  dsimp only
  cases hco : configObject s.objects p.2 with
  | none => exact ⟨_, rfl⟩
  | some oc =>
    obtain ⟨c, hc', hsc⟩ := (configObject_ok hh hs).1 oc hco
    obtain ⟨h1, h2⟩ := hc p.1 d hd hdc c hc'
    refine configuredReg_run hsc h1 _ fun q hq hqs => ?_
    obtain ⟨cs, hcs, hm⟩ := h2 q hq hqs
    rw [plain_letters, trafoPhases_unique (trafoPhases_ok hs) hcs]
    exact hm

/-- the regulator for a name, with its objects -/
theorem reg_found (hr : readGlm schema due files [] rows = .ok s) (hh : Holds s.objects [] ds) (h : readRegFile flt int schema due files [] rows = .ok rs)
    {n : Text} {d : Decl} (hd : lastNamed ds n = some d) (hc : d.cls = "regulator".toList) :
    ∃ r ∈ rs, r.name = n ∧ RegSays flt int ds d r ∧ r.source = none ∧ r.sink = none ∧ ∃ o, Stored o d ∧ readReg flt int s.objects o = .ok r := by
  rw [reg_file hr] at h
  obtain ⟨o, ho, hs⟩ := holds_find hh (glm_once hr) hd
  have hall := class_ok h
  obtain ⟨r, hr', hread⟩ := found_right hall (List.mem_filter.mpr ⟨ho, by simp [hs.1, hc]⟩)
  obtain ⟨h1, h2, h3⟩ := reg_ok hh hs (by rw [lastNamed_name hd]; rfl) hread
  have hname := h1.name
  rw [lastNamed_name hd] at hname
  injection hname with hname
  exact ⟨r, hr', hname.symm, h1, h2, h3, o, hs, hread⟩

/-- C105 violated: no regulator is connected to anything, whatever the file says -/
theorem C105_ends_violated (hr : readGlm schema due files [] rows = .ok s) (hh : Holds s.objects [] ds)
    (h : readRegFile flt int schema due files [] rows = .ok rs) : ∀ r ∈ rs, r.source = none ∧ r.sink = none := by
  rw [reg_file hr] at h
  intro r hm
  obtain ⟨p, hp, hread⟩ := found_left (class_ok h) hm
  obtain ⟨hp, -⟩ := List.mem_filter.mp hp
  obtain ⟨d, hd, hs⟩ := holds_mem hh (glm_once hr) hp
  exact (reg_ok hh hs (by rw [lastNamed_name hd]; rfl) hread).2

/-- C105 violated: the nominal voltage of the regulator itself is not looked at. If the object at its first end has none, there is none. -/
theorem C105_voltage_violated (hr : readGlm schema due files [] rows = .ok s) (hh : Holds s.objects [] ds)
    (h : readRegFile flt int schema due files [] rows = .ok rs) {n m : Text} {d f : Decl} (hd : lastNamed ds n = some d) (hc : d.cls = "regulator".toList)
    {v : K} (_hv : Value flt d "nominal_voltage".toList v) (hm : attrOf d "from".toList = some m) (hf : lastNamed ds m = some f)
    (hn : attrOf f "nominal_voltage".toList = none) : ∃ r ∈ rs, r.name = n ∧ r.voltage = none := by
  obtain ⟨r, hr', hname, hs, -⟩ := reg_found hr hh h hd hc
  refine ⟨r, hr', hname, ?_⟩
  rcases hs.voltage with ⟨-, hv⟩ | ⟨m', f', h1, h2, h3⟩
  · exact hv
  · rw [hm] at h1
    cases h1
    rw [hf] at h2
    cases h2
    cases hv : r.voltage with
    | none => rfl
    | some w =>
      rw [hv] at h3
      obtain ⟨t, ht, -⟩ := h3
      rw [hn] at ht
      cases ht

/-- C105 violated: a file with a regulator whose first end has no object, such as an end in another file, cannot be read -/
theorem C105_unknown_end_violated (hr : readGlm schema due files [] rows = .ok s) (hh : Holds s.objects [] ds) {n m : Text} {d : Decl}
    (hd : lastNamed ds n = some d) (hc : d.cls = "regulator".toList) (hm : attrOf d "from".toList = some m) (hf : lastNamed ds m = none) :
    ∀ rs, readRegFile flt int schema due files [] rows ≠ .ok rs := by
  intro rs h
  obtain ⟨r, -, -, hs, -⟩ := reg_found hr hh h hd hc
  rcases hs.voltage with ⟨h1, -⟩ | ⟨m', f', h1, h2, -⟩
  · rw [hm] at h1; cases h1
  · rw [hm] at h1
    cases h1
    rw [hf] at h2
    cases h2

/-- C105 violated: a file with a compensator for a phase that is not among the phases of the regulator and has no tap position cannot be read, although
phases are added for tap positions -/
theorem C105_compensator_violated (hr : readGlm schema due files [] rows = .ok s) (hh : Holds s.objects [] ds) {n : Text} {d c : Decl}
    (hd : lastNamed ds n = some d) (hc : d.cls = "regulator".toList) (hcon : ConfigIs ds d c) {p : Char} (hp : p ∈ ['A', 'B', 'C'])
    (hs : (attrOf c (ofPhase "compensator_r_setting".toList p)).isSome ∨ (attrOf c (ofPhase "compensator_x_setting".toList p)).isSome)
    {cs : List Char} (hcs : TrafoPhases d cs) (hnot : p ∉ cs) (htap : attrOf c (ofPhase "tap_pos".toList p) = none) :
    ∀ rs, readRegFile flt int schema due files [] rows ≠ .ok rs := by
  intro rs h
  obtain ⟨r, -, -, -, -, -, o, ho, hread⟩ := reg_found hr hh h hd hc
  unfold readReg at hread
  split at hread
  · cases hread
  · rename_i v hv
    split at hread
    · rename_i hco
      exact (configObject_ok hh ho).2 hco c hcon
    · rename_i oc hco
      obtain ⟨c', hc', hsc⟩ := (configObject_ok hh ho).1 oc hco
      rw [config_unique hc' hcon] at hsc
      unfold configuredReg at hread
      split at hread
      · cases hread
      · rename_i ps hps
        clear hread
        unfold regPhases at hps
        split at hps
        · cases hps
        · rename_i ps1 h1
          split at hps
          · cases hps
          · rename_i ps2 h2
            have e1 := (taps_ok (flt := flt) hsc h1 (by decide) (t := []) (by simp)).1
            rw [plain_letters, trafoPhases_unique (trafoPhases_ok ho) hcs] at e1
            have hno : p ∉ ps1.map (·.phase) := by
              rw [e1, List.mem_append, List.mem_filter, decide_eq_true_eq, htap]
              rintro (h | ⟨-, h, -⟩)
              · exact hnot h
              · cases h
            rcases hs with hs | hs
            · exact hno (compensators_fail (set := fun v (a : GRegPhase K) => { a with r := some v }) hsc (fun _ _ => rfl) hs hp h2)
            · have e2 := (compensators_ok hsc (set := fun v (a : GRegPhase K) => { a with r := some v }) (fun _ _ => rfl) (S := fun _ _ => True)
                (fun _ _ _ _ _ _ => trivial) (fun _ _ _ _ _ => trivial) (fun _ _ _ _ _ _ _ => trivial) h2 (by decide) (t := []) (by simp)).1
              rw [← e2] at hno
              exact hno (compensators_fail (set := fun v (a : GRegPhase K) => { a with x := some v }) hsc (fun _ _ => rfl) hs hp hps)

end numbers

/-! ### an example -/

/-- the attributes of regulators -/
def exRegSchema : Schema := fun c =>
  if c = "regulator".toList then some ["name".toList, "from".toList, "to".toList, "phases".toList, "configuration".toList, "nominal_voltage".toList]
  else if c = "node".toList then some ["name".toList, "nominal_voltage".toList]
  else if c = "regulator_configuration".toList then
    some ["name".toList, "connect_type".toList, "time_delay".toList, "band_width".toList, "raise_taps".toList, "PT_phase".toList, "tap_pos_A".toList,
      "tap_pos_B".toList, "compensator_r_setting_A".toList, "compensator_x_setting_A".toList, "compensator_x_setting_C".toList]
  else none

/-- a regulator with a voltage -/
def exReg1 : List (Text × Text) :=
  [("name".toList, "r1".toList), ("from".toList, "n1".toList), ("to".toList, "n2".toList), ("phases".toList, "\"AN\"".toList), ("configuration".toList, "k1".toList),
    ("nominal_voltage".toList, "7200".toList)]

/-- its configuration, with a tap position of another phase -/
def exRegConfig : List (Text × Text) :=
  [("name".toList, "k1".toList), ("connect_type".toList, "WYE_WYE".toList), ("time_delay".toList, "3".toList), ("raise_taps".toList, "6".toList),
    ("PT_phase".toList, "\"AB\"".toList), ("tap_pos_A".toList, "3".toList), ("tap_pos_B".toList, "6".toList), ("compensator_x_setting_A".toList, "6".toList)]

/-- the objects: a node without voltage, the regulator and its configuration -/
def exRegObjects : List (Text × GldObj) :=
  [("n1".toList, ⟨"node".toList, [("name".toList, "n1".toList)]⟩), ("r1".toList, ⟨"regulator".toList, exReg1⟩),
    ("k1".toList, ⟨"regulator_configuration".toList, exRegConfig⟩)]

/-- whole numbers that can be read -/
def exInt : Text → Option Int := fun t => if t = "3".toList then some 3 else if t = "6".toList then some 6 else none

theorem ex_reg_read : readGlm exRegSchema (fun _ => .ok true) (fun _ => none) [] (exObjectRows exRegObjects) = .ok { objects := exRegObjects, schedules := [] } := rfl

/-- the declarations -/
def exRegDecls : List Decl := exRegObjects.map fun p => ⟨p.2.cls, none, p.2.attrs⟩

theorem ex_reg_holds : Holds exRegObjects [] exRegDecls := holds_all (by decide +kernel) (by decide +kernel)

/-- the regulator that is read -/
def exRegs : List (GReadReg ℚ) :=
  [{ name := "r1".toList, source := none, sink := none, voltage := none, connection := some 'Y', phases := [⟨'A', some 3, none, some 6⟩, ⟨'B', some 6, none, none⟩],
     delay := some 3, bandwidth := none, bandcenter := none, highstep := some 6, lowstep := none, ptRatio := none, ctRatio := none, ptPhase := some 'A' }]

theorem ex_reg_ok : readRegFile exReal exInt exRegSchema (fun _ => .ok true) (fun _ => none) [] (exObjectRows exRegObjects) = .ok exRegs := by
  rw [reg_file ex_reg_read]
  decide +kernel

example : ∃ names : List Text, names.Nodup ∧ (∀ n, n ∈ names ↔ ∃ d, lastNamed exRegDecls n = some d ∧ d.cls = "regulator".toList) ∧
    List.Forall₂ (fun n r => ∃ d, lastNamed exRegDecls n = some d ∧ RegSays exReal exInt exRegDecls d r) names exRegs :=
  C105_regulators_partial ex_reg_read ex_reg_holds ex_reg_ok

example : ∀ r ∈ exRegs, r.source = none ∧ r.sink = none := C105_ends_violated ex_reg_read ex_reg_holds ex_reg_ok

example : ∃ r ∈ exRegs, r.name = "r1".toList ∧ r.voltage = none :=
  C105_voltage_violated (v := 7200) ex_reg_read ex_reg_holds ex_reg_ok (n := "r1".toList) (m := "n1".toList) rfl rfl ⟨"7200".toList, rfl, by decide +kernel⟩ rfl rfl rfl

theorem clean_all {V : Type} {conv : Text → Option V} {c : Decl} {k : Text} (h : ((attrOf c k).all fun t => (conv t).isSome) = true) : Clean conv c k := by
  intro t ht
  rw [ht] at h
  exact h

theorem ex_reg_clean : CleanReg exReal exInt ⟨"regulator_configuration".toList, none, exRegConfig⟩ where
  numbers := fun k hk => clean_all (List.forall_iff_forall_mem.mp (by decide +kernel :
    ["time_delay".toList, "band_width".toList, "band_center".toList, "power_transducer_ratio".toList, "current_transducer_ratio".toList].Forall fun k =>
      ((attrOf ⟨"regulator_configuration".toList, none, exRegConfig⟩ k).all fun t => (exReal t).isSome) = true) k hk)
  steps := fun k hk => clean_all (List.forall_iff_forall_mem.mp (by decide +kernel :
    ["raise_taps".toList, "lower_taps".toList].Forall fun k =>
      ((attrOf ⟨"regulator_configuration".toList, none, exRegConfig⟩ k).all fun t => (exInt t).isSome) = true) k hk)
  taps := fun p hp => clean_all ((by decide +kernel : ∀ p ∈ ['A', 'B', 'C'],
    ((attrOf ⟨"regulator_configuration".toList, none, exRegConfig⟩ (ofPhase "tap_pos".toList p)).all fun t => (exInt t).isSome) = true) p hp)
  compensators := fun p hp => ⟨clean_all ((by decide +kernel : ∀ p ∈ ['A', 'B', 'C'],
      ((attrOf ⟨"regulator_configuration".toList, none, exRegConfig⟩ (ofPhase "compensator_r_setting".toList p)).all fun t => (exReal t).isSome) = true) p hp),
    clean_all ((by decide +kernel : ∀ p ∈ ['A', 'B', 'C'],
      ((attrOf ⟨"regulator_configuration".toList, none, exRegConfig⟩ (ofPhase "compensator_x_setting".toList p)).all fun t => (exReal t).isSome) = true) p hp)⟩
  pt := by
    intro t ht h
    have e : t = "\"AB\"".toList := by
      have : attrOf ⟨"regulator_configuration".toList, none, exRegConfig⟩ "PT_phase".toList = some "\"AB\"".toList := by decide +kernel
      rw [this] at ht
      exact (Option.some.inj ht).symm
    subst e
    have := strip_unquoted h
    revert this
    decide +kernel

theorem lastNamed_class {n : Text} {d : Decl} (h : lastNamed exRegDecls n = some d) (hc : d.cls = "regulator".toList) : d = ⟨"regulator".toList, none, exReg1⟩ := by
  have hm : d ∈ exRegDecls := List.mem_reverse.mp (List.mem_of_find?_eq_some h)
  unfold exRegDecls exRegObjects at hm
  rcases List.mem_cons.mp hm with rfl | hm
  · exact absurd hc (show "node".toList ≠ "regulator".toList by decide)
  · rcases List.mem_cons.mp hm with rfl | hm
    · rfl
    · rw [List.map_singleton, List.mem_singleton] at hm
      subst hm
      exact absurd hc (show "regulator_configuration".toList ≠ "regulator".toList by decide)

example : ∃ rs : List (GReadReg ℚ), readRegFile exReal exInt exRegSchema (fun _ => .ok true) (fun _ => none) [] (exObjectRows exRegObjects) = .ok rs := by
  refine C105_succeeds ex_reg_read ex_reg_holds ?_ ?_
  · intro n d hd hc m hm
    rw [lastNamed_class hd hc] at hm
    have : attrOf ⟨"regulator".toList, none, exReg1⟩ "from".toList = some "n1".toList := by decide +kernel
    rw [this] at hm
    cases hm
    exact ⟨⟨"node".toList, none, [("name".toList, "n1".toList)]⟩, rfl, clean_all (by decide +kernel)⟩
  · intro n d hd hc c hcon
    rw [lastNamed_class hd hc] at hcon ⊢
    have e : ConfigIs exRegDecls ⟨"regulator".toList, none, exReg1⟩ ⟨"regulator_configuration".toList, none, exRegConfig⟩ := ⟨"k1".toList, rfl, rfl⟩
    rw [config_unique hcon e]
    refine ⟨ex_reg_clean, fun p hp hs => ⟨['A'], .inr ⟨"\"AN\"".toList, "AN".toList, rfl, ⟨1, 1, by decide, by decide, by decide⟩, by decide⟩, ?_⟩⟩
    revert p
    decide +kernel

/-- a compensator for phase C only -/
def exBadConfig : List (Text × Text) := [("name".toList, "k1".toList), ("compensator_x_setting_C".toList, "6".toList)]

/-- a regulator of phase A with this compensator -/
def exBadObjects : List (Text × GldObj) :=
  [("n1".toList, ⟨"node".toList, [("name".toList, "n1".toList)]⟩), ("r1".toList, ⟨"regulator".toList, exReg1⟩),
    ("k1".toList, ⟨"regulator_configuration".toList, exBadConfig⟩)]

theorem ex_bad_read : readGlm exRegSchema (fun _ => .ok true) (fun _ => none) [] (exObjectRows exBadObjects) = .ok { objects := exBadObjects, schedules := [] } := rfl

/-- the declarations -/
def exBadDecls : List Decl := exBadObjects.map fun p => ⟨p.2.cls, none, p.2.attrs⟩

theorem ex_bad_holds : Holds exBadObjects [] exBadDecls := holds_all (by decide +kernel) (by decide +kernel)

example : ∀ rs, readRegFile exReal exInt exRegSchema (fun _ => .ok true) (fun _ => none) [] (exObjectRows exBadObjects) ≠ .ok rs :=
  C105_compensator_violated ex_bad_read ex_bad_holds (n := "r1".toList) rfl rfl ⟨"k1".toList, rfl, rfl⟩ (p := 'C') (by decide) (.inr rfl)
    (cs := ['A']) (.inr ⟨"\"AN\"".toList, "AN".toList, rfl, ⟨1, 1, by decide, by decide, by decide⟩, by decide⟩) (by decide) rfl

/-- a regulator alone -/
def exAloneObjects : List (Text × GldObj) := [("r1".toList, ⟨"regulator".toList, exReg1⟩)]

theorem ex_alone_read : readGlm exRegSchema (fun _ => .ok true) (fun _ => none) [] (exObjectRows exAloneObjects) =
    .ok { objects := exAloneObjects, schedules := [] } := rfl

example : ∀ rs, readRegFile exReal exInt exRegSchema (fun _ => .ok true) (fun _ => none) [] (exObjectRows exAloneObjects) ≠ .ok rs :=
  C105_unknown_end_violated (ds := exAloneObjects.map fun p => ⟨p.2.cls, none, p.2.attrs⟩) ex_alone_read (holds_all (by decide +kernel) (by decide +kernel))
    (n := "r1".toList) (m := "n1".toList) rfl rfl rfl rfl

end Ditto.Glm
