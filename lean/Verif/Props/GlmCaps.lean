import Verif.Props.GlmLoads
import Verif.Lemmas.GlmCaps

/-! C88: capacitors in GridLAB-D files. -/
namespace Ditto.Glm
open Ditto Glm.Spec

section numbers
variable {K : Type} [Field K] {flt : Text → Option K} {schema : Schema} {due : List Text → Py Bool} {files : Text → Option (List Text)}
  {rows : List Text} {s : GState} {ds : List Decl} {rs : List (GReadCap K)}

theorem cap_file (hr : readGlm schema due files [] rows = .ok s) : readCapFile flt schema due files [] rows = readClass "capacitor".toList (readCap flt) s.objects := by
  unfold readCapFile
  rw [hr]

/-- C88 (partial): reading a file gives exactly one capacitor for each name of a capacitor in the file, with the voltage, delay, limits, control
mode and reactive powers that the file says -/
theorem C88_capacitors_partial (hr : readGlm schema due files [] rows = .ok s) (hh : Holds s.objects [] ds)
    (h : readCapFile flt schema due files [] rows = .ok rs) :
    ∃ names : List Text, names.Nodup ∧ (∀ n, n ∈ names ↔ ∃ d, lastNamed ds n = some d ∧ d.cls = "capacitor".toList) ∧
      List.Forall₂ (fun n r => ∃ d, lastNamed ds n = some d ∧ CapSays flt d r) names rs := by
  rw [cap_file hr] at h
  exact class_names (fun ho hn h => (cap_ok ho hn h).1) hr hh h

/-- C88: if all numbers of the capacitors can be read, then all capacitors are read -/
theorem C88_succeeds (hr : readGlm schema due files [] rows = .ok s) (hh : Holds s.objects [] ds)
    (hc : ∀ n d, lastNamed ds n = some d → d.cls = "capacitor".toList →
      CleanCap flt d ∧ ∀ c ∈ ['A', 'B', 'C'], attrOf d (ofPhase "switch".toList c) = none) :
    ∃ rs, readCapFile flt schema due files [] rows = .ok rs := by
  rw [cap_file hr]
  refine class_clean fun p hp hcls => ?_
  obtain ⟨d, hd, hs⟩ := holds_mem hh (glm_once hr) hp
  obtain ⟨h1, h2⟩ := hc p.1 d hd (hs.1 ▸ hcls)
  exact cap_clean hs h1 h2

/-- C88: the only errors are those of numbers that cannot be read, and of switches `switch_A`, which GridLAB-D does not have -/
theorem C88_error_kinds (hr : readGlm schema due files [] rows = .ok s) (hh : Holds s.objects [] ds) {e : PyErr}
    (h : readCapFile flt schema due files [] rows = .error e) :
    e = .valueError ∨ (e = .traitError ∧ ∃ n d, lastNamed ds n = some d ∧ ∃ c ∈ ['A', 'B', 'C'], (attrOf d (ofPhase "switch".toList c)).isSome) := by
  rw [cap_file hr] at h
  obtain ⟨p, hp, -, he⟩ := class_error h
  rcases cap_error he with h | ⟨h, c, hc, ht⟩
  · exact Or.inl h
  · obtain ⟨d, hd, hs⟩ := holds_mem hh (glm_once hr) hp
    exact Or.inr ⟨h, p.1, d, hd, c, hc, by rw [← stored_get hs]; exact ht⟩

/-- the capacitor of an object of the file -/
theorem cap_found (hr : readGlm schema due files [] rows = .ok s) (hh : Holds s.objects [] ds)
    (h : readCapFile flt schema due files [] rows = .ok rs) {n : Text} {d : Decl} (hd : lastNamed ds n = some d) (hc : d.cls = "capacitor".toList) :
    ∃ r ∈ rs, CapSays flt d r := by
  obtain ⟨names, -, h2, h3⟩ := C88_capacitors_partial hr hh h
  obtain ⟨r, hr', d', hd', hl⟩ := found_right h3 ((h2 n).mpr ⟨d, hd, hc⟩)
  rw [hd] at hd'
  cases hd'
  exact ⟨r, hr', hl⟩

theorem caps_bare (hr : readGlm schema due files [] rows = .ok s) (hh : Holds s.objects [] ds)
    (h : readCapFile flt schema due files [] rows = .ok rs) : ∀ r ∈ rs, r.element = none ∧ ∀ p ∈ r.phases, p.switch = none := by
  rw [cap_file hr] at h
  obtain ⟨names, -, -, h3⟩ := class_names (Says := fun _ r => r.element = none ∧ ∀ p ∈ r.phases, p.switch = none)
    (fun ho hn h => (cap_ok ho hn h).2) hr hh h
  intro r hr'
  clear hr hh h
  induction h3 with
  | nil => cases hr'
  | cons h _ ih =>
    rcases List.mem_cons.mp hr' with rfl | hr'
    · exact h.choose_spec.2
    · exact ih hr'

/-- C88 violated: no capacitor has a bus, although the files give one as parent -/
theorem C88_element_violated (hr : readGlm schema due files [] rows = .ok s) (hh : Holds s.objects [] ds)
    (h : readCapFile flt schema due files [] rows = .ok rs) : ∀ r ∈ rs, r.element = none := fun r hr' => (caps_bare hr hh h r hr').1

/-- C88 violated: it is not read whether the phases of a capacitor are switched in -/
theorem C88_switch_violated (hr : readGlm schema due files [] rows = .ok s) (hh : Holds s.objects [] ds)
    (h : readCapFile flt schema due files [] rows = .ok rs) : ∀ r ∈ rs, ∀ p ∈ r.phases, p.switch = none := fun r hr' => (caps_bare hr hh h r hr').2

/-- C88 violated: a low limit without a high one of the same kind is lost -/
theorem C88_low_only_violated (hr : readGlm schema due files [] rows = .ok s) (hh : Holds s.objects [] ds)
    (h : readCapFile flt schema due files [] rows = .ok rs) {n : Text} {d : Decl} (hd : lastNamed ds n = some d) (hc : d.cls = "capacitor".toList)
    (h1 : attrOf d "voltage_set_high".toList = none) (h2 : attrOf d "VAr_set_high".toList = none) : ∃ r ∈ rs, r.name = n ∧ r.low = none := by
  obtain ⟨r, hr', hs⟩ := cap_found hr hh h hd hc
  refine ⟨r, hr', ?_, hs.limits.low_none (Or.inl h1) h2⟩
  have := hs.name
  rw [lastNamed_name hd] at this
  cases this
  rfl

/-- C88 violated: a capacitor with limits for the reactive power and only a high limit for the voltage gets this voltage as its high limit and a
reactive power as its low one -/
theorem C88_mixed_violated (hr : readGlm schema due files [] rows = .ok s) (hh : Holds s.objects [] ds)
    (h : readCapFile flt schema due files [] rows = .ok rs) {n : Text} {d : Decl} (hd : lastNamed ds n = some d) (hc : d.cls = "capacitor".toList)
    {volts vars : K} {t : Text} (h1 : Value flt d "voltage_set_high".toList volts) (h2 : attrOf d "voltage_set_low".toList = none)
    (h3 : attrOf d "VAr_set_high".toList = some t) (h4 : Value flt d "VAr_set_low".toList vars) :
    ∃ r ∈ rs, r.name = n ∧ r.high = some volts ∧ r.low = some vars := by
  obtain ⟨r, hr', hs⟩ := cap_found hr hh h hd hc
  have hl := hs.limits.low_var (Or.inr h2) (by rw [h3]; rfl)
  refine ⟨r, hr', ?_, hs.limits.high_volt _ h1, ?_⟩
  · have := hs.name
    rw [lastNamed_name hd] at this
    cases this
    rfl
  · cases hlow : r.low with
    | none => rw [hlow] at hl; exact (value_missing h4 hl).elim
    | some x => rw [hlow] at hl; rw [value_unique h4 hl]

/-- C88 violated: a capacitor that is controlled by voltage and reactive power has no control mode -/
theorem C88_mode_violated (hr : readGlm schema due files [] rows = .ok s) (hh : Holds s.objects [] ds)
    (h : readCapFile flt schema due files [] rows = .ok rs) {n : Text} {d : Decl} (hd : lastNamed ds n = some d) (hc : d.cls = "capacitor".toList)
    {t : Text} (ht : attrOf d "control".toList = some t) (hv : AnyCase t "VARVOLT".toList) : ∃ r ∈ rs, r.name = n ∧ r.mode = none := by
  obtain ⟨r, hr', hs⟩ := cap_found hr hh h hd hc
  refine ⟨r, hr', ?_, ?_⟩
  · have := hs.name
    rw [lastNamed_name hd] at this
    cases this
    rfl
  · have hm := hs.mode
    rw [ht] at hm
    generalize r.mode = m at hm
    cases hm with
    | volt h => exact absurd (h.symm.trans hv) (by decide)
    | var h => exact absurd (h.symm.trans hv) (by decide)
    | manual h => exact absurd (h.symm.trans hv) (by decide)
    | other => rfl

end numbers

/-! ### an example -/

/-- the attributes of capacitors -/
def exCapSchema : Schema := fun c =>
  if c = "capacitor".toList then
    some (["name".toList, "parent".toList, "phases".toList, "nominal_voltage".toList, "time_delay".toList, "control".toList, "VAr_set_high".toList,
      "VAr_set_low".toList, "voltage_set_high".toList, "voltage_set_low".toList, "pt_phase".toList, "capacitor_A".toList, "capacitor_B".toList,
      "capacitor_C".toList, "switchA".toList, "switchB".toList, "switchC".toList])
  else none

/-- a capacitor -/
def exCapAttrs : List (Text × Text) :=
  [("name".toList, "c1".toList), ("parent".toList, "n1".toList), ("nominal_voltage".toList, "7200".toList), ("time_delay".toList, "3".toList),
    ("control".toList, "VarVolt".toList), ("VAr_set_high".toList, "6".toList), ("VAr_set_low".toList, "3".toList),
    ("voltage_set_high".toList, "7200".toList), ("pt_phase".toList, "A".toList), ("capacitor_A".toList, "0.5".toList), ("switchA".toList, "CLOSED".toList),
    ("capacitor_C".toList, "0.25".toList)]

/-- a capacitor with a low limit only -/
def exLowAttrs : List (Text × Text) := [("name".toList, "c2".toList), ("control".toList, "volt".toList), ("voltage_set_low".toList, "3".toList)]

/-- the rows of a capacitor -/
def exCapRows (l : List (Text × Text)) : List Text :=
  "object capacitor {".toList :: (l.map fun p => "  ".toList ++ p.1 ++ ' ' :: p.2 ++ [';']) ++ ["}".toList]

/-- the object of a capacitor -/
def exCapDecl (l : List (Text × Text)) : Decl := ⟨"capacitor".toList, none, l⟩

theorem ex_cap_read : readGlm exCapSchema (fun _ => .ok true) (fun _ => none) [] (exCapRows exCapAttrs) =
    .ok { objects := [("c1".toList, ⟨"capacitor".toList, exCapAttrs⟩)], schedules := [] } := rfl

theorem ex_cap_holds : Holds [("c1".toList, (⟨"capacitor".toList, exCapAttrs⟩ : GldObj))] [] [exCapDecl exCapAttrs] :=
  holds_one (by decide) (by decide) (by decide +kernel)

/-- the capacitor that is read -/
def exCap : GReadCap ℚ where
  name := "c1".toList
  element := none
  voltage := some 7200
  delay := some 3
  mode := none
  low := some 3
  high := some 7200
  ptPhase := some "A".toList
  phases := [⟨'A', 500000, none⟩, ⟨'C', 250000, none⟩]

theorem ex_cap_ok : readCapFile exReal exCapSchema (fun _ => .ok true) (fun _ => none) [] (exCapRows exCapAttrs) = .ok [exCap] := by decide +kernel

theorem ex_cap_named : lastNamed [exCapDecl exCapAttrs] "c1".toList = some (exCapDecl exCapAttrs) := rfl

example : ∃ names : List Text, names.Nodup ∧
    (∀ n, n ∈ names ↔ ∃ d, lastNamed [exCapDecl exCapAttrs] n = some d ∧ d.cls = "capacitor".toList) ∧
      List.Forall₂ (fun n r => ∃ d, lastNamed [exCapDecl exCapAttrs] n = some d ∧ CapSays exReal d r) names [exCap] :=
  C88_capacitors_partial ex_cap_read ex_cap_holds ex_cap_ok

example : ∃ rs, readCapFile exReal exCapSchema (fun _ => .ok true) (fun _ => none) [] (exCapRows exCapAttrs) = .ok rs := by
  refine C88_succeeds ex_cap_read ex_cap_holds fun n d hd _ => ?_
  have hd' : d = exCapDecl exCapAttrs := by
    have := List.mem_of_find?_eq_some hd
    simpa using this
  subst hd'
  refine ⟨?_, by decide⟩
  unfold CleanCap Clean
  decide +kernel

example : ∀ r ∈ [exCap], r.element = none := C88_element_violated ex_cap_read ex_cap_holds ex_cap_ok

example : ∀ r ∈ [exCap], ∀ p ∈ r.phases, p.switch = none := C88_switch_violated ex_cap_read ex_cap_holds ex_cap_ok

example : ∃ r ∈ [exCap], r.name = "c1".toList ∧ r.high = some 7200 ∧ r.low = some 3 :=
  C88_mixed_violated ex_cap_read ex_cap_holds ex_cap_ok ex_cap_named rfl ⟨"7200".toList, by decide, by decide +kernel⟩ (by decide)
    (t := "6".toList) (by decide) ⟨"3".toList, by decide, by decide +kernel⟩

example : ∃ r ∈ [exCap], r.name = "c1".toList ∧ r.mode = none :=
  C88_mode_violated ex_cap_read ex_cap_holds ex_cap_ok ex_cap_named rfl (t := "VarVolt".toList) (by decide) (by unfold AnyCase; decide)

theorem ex_low_read : readGlm exCapSchema (fun _ => .ok true) (fun _ => none) [] (exCapRows exLowAttrs) =
    .ok { objects := [("c2".toList, ⟨"capacitor".toList, exLowAttrs⟩)], schedules := [] } := rfl

theorem ex_low_holds : Holds [("c2".toList, (⟨"capacitor".toList, exLowAttrs⟩ : GldObj))] [] [exCapDecl exLowAttrs] :=
  holds_one (by decide) (by decide) (by decide +kernel)

/-- the capacitor with a low limit only, as it is read -/
def exLowCap : GReadCap ℚ where
  name := "c2".toList
  element := none
  voltage := none
  delay := none
  mode := some "voltage".toList
  low := none
  high := none
  ptPhase := none
  phases := []

theorem ex_low_ok : readCapFile exReal exCapSchema (fun _ => .ok true) (fun _ => none) [] (exCapRows exLowAttrs) = .ok [exLowCap] := by decide +kernel

example : ∃ r ∈ [exLowCap], r.name = "c2".toList ∧ r.low = none :=
  C88_low_only_violated ex_low_read ex_low_holds ex_low_ok (d := exCapDecl exLowAttrs) rfl rfl (by decide) (by decide)

end Ditto.Glm
