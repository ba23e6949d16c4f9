import Verif.Model.GlmLines

/-! Regulators in the GridLAB-D writer: `write_regulator_configurations` and `write_regulators` in ditto/writers/gridlabd/write.py. Numbers are exact;
`shown` prints a number and `showInt` a whole number as `str` does. The dictionaries have the printed values; different numbers are printed differently. -/
namespace Ditto.Glm
open Ditto

/-- a `PhaseWinding`: ditto/models/phase_winding.py:9-23 -/
structure WGRegPhase (K : Type) where
  phase : Option Text
  tap : Option K
  r : Option K
  x : Option K
deriving DecidableEq

/-- the attributes of a `Regulator` that are used: ditto/models/regulator.py:21-95. `phases` are the phase windings of all windings; ends are texts. -/
structure WGReg (K : Type) where
  name : Option Text
  source : Option Text
  sink : Option Text
  delay : Option K
  highstep : Option Int
  lowstep : Option Int
  ptRatio : Option K
  ctRatio : Option K
  bandwidth : Option K
  bandcenter : Option K
  ptPhase : Option Text
  transformer : Option Text
  phases : List (WGRegPhase K)
deriving DecidableEq

/-- a configuration with the settings of its phases: an item of `regulator_configurations` and of `regulator_phases`, which have the same keys -/
structure RegConf where
  items : List (Text × Text)
  name : Text
  phases : List (Text × Text)
deriving DecidableEq

/-- the class attributes of the writer that all writers share: ditto/writers/gridlabd/write.py:33-36 -/
structure RegState where
  configs : List RegConf := []
  names : List (Option Text × Text) := []

section numbers
variable {K : Type} (shown : K → Text) (showInt : Int → Text)

/-- the items of a regulator: ditto/writers/gridlabd/write.py:532-563. They always come in this order, so that equal sets are equal lists
(`regItems_same`). -/
def regItems (r : WGReg K) : List (Text × Text) :=
  optEntry "time_delay".toList (r.delay.map shown) ++ optEntry "raise_taps".toList (r.highstep.map showInt) ++
    optEntry "lower_taps".toList ((r.lowstep.or r.highstep).map showInt) ++ optEntry "power_transducer_ratio".toList (r.ptRatio.map shown) ++
    optEntry "current_transducer_ratio".toList (r.ctRatio.map shown) ++ optEntry "band_width".toList (r.bandwidth.map shown) ++
    optEntry "band_center".toList (r.bandcenter.map shown) ++ optEntry "pt_phase".toList r.ptPhase ++ [("connect_type".toList, "WYE_WYE".toList)]

/-- the phase windings: those of the connected transformers, or else the own ones: ditto/writers/gridlabd/write.py:567-582, 613-619. `trafos` are all
transformers, with names and phase windings. -/
def regSettings (trafos : List (Option Text × List (WGRegPhase K))) (r : WGReg K) : List (WGRegPhase K) :=
  match r.transformer with
  | some n => (trafos.filter fun t => t.1 = some n).flatMap (·.2)
  | none => r.phases

/-- `tap_pos_{phase}` and similar -/
def settingKey (k : Text) (p : Text) : Text := k ++ '_' :: p

/-- one phase winding: ditto/writers/gridlabd/write.py:583-611, 620-643. A known reactance makes the resistance be written again. -/
def setPhase (d : List (Text × Text)) (w : WGRegPhase K) : List (Text × Text) :=
  match w.phase with
  | none => d
  | some p =>
    let d1 := setEntry (settingKey "tap_pos".toList p) (formatOpt shown w.tap) d
    let d2 := if w.r.isSome then setEntry (settingKey "compensator_r_setting".toList p) (formatOpt shown w.r) d1 else d1
    if w.x.isSome then setEntry (settingKey "compensator_r_setting".toList p) (formatOpt shown w.r) d2 else d2

/-- `regulator_config_{num}`: ditto/writers/gridlabd/write.py:653, 657 -/
def regConfigName (n : Nat) : Text := "regulator_config_".toList ++ (Nat.repr n).toList

/-- one regulator: ditto/writers/gridlabd/write.py:530-658. Gives the next number, too. -/
def regStep (trafos : List (Option Text × List (WGRegPhase K))) (s : RegState × Nat) (r : WGReg K) : RegState × Nat :=
  match s.1.configs.find? fun e => e.items = regItems shown showInt r with
  | some e =>
    (⟨s.1.configs.map fun f => if f.items = regItems shown showInt r then { f with phases := (regSettings trafos r).foldl (setPhase shown) f.phases } else f,
      (r.name, e.name) :: s.1.names⟩, s.2)
  | none =>
    (⟨s.1.configs ++ [⟨regItems shown showInt r, regConfigName s.2, (regSettings trafos r).foldl (setPhase shown) []⟩],
      (r.name, regConfigName s.2) :: s.1.names⟩, s.2 + 1)

/-- the configurations after all regulators: ditto/writers/gridlabd/write.py:528-658 -/
def regConfigs (trafos : List (Option Text × List (WGRegPhase K))) (st : RegState) (rs : List (WGReg K)) : RegState :=
  (rs.foldl (regStep shown showInt trafos) (st, 1)).1

end numbers

/-- what is written for a configuration. The order of the items in a `frozenset` is not known: ditto/writers/gridlabd/write.py:661-670 -/
def regConfigEntries (order : List (Text × Text) → List (Text × Text)) (e : RegConf) : List (Text × Text) :=
  ("name".toList, e.name) :: (order e.items ++ e.phases)

/-- all configurations, also those of earlier files: ditto/writers/gridlabd/write.py:659-671 -/
def regConfigRows (order : List (Text × Text) → List (Text × Text)) (st : RegState) : List Text :=
  st.configs.flatMap fun e => entryRows "regulator_configuration".toList (regConfigEntries order e)

section numbers
variable {K : Type}

/-- the attributes of a regulator. Phases are not written: ditto/writers/gridlabd/write.py:686-735 -/
def regEntries (names : List (Option Text × Text)) (r : WGReg K) : List (Text × Text) :=
  optEntry "name".toList (r.name.map ('n' :: ·)) ++ optEntry "from".toList (r.source.map ('n' :: ·)) ++ optEntry "to".toList (r.sink.map ('n' :: ·)) ++
    optEntry "configuration".toList (r.name.bind (configOf names))

/-- the rows of a regulator. There is no blank before the brace: ditto/writers/gridlabd/write.py:685-737 -/
def regRows (names : List (Option Text × Text)) (r : WGReg K) : List Text :=
  "object regulator{".toList :: ((regEntries names r).map fun p => entryRow four p.1 p.2) ++ ["};".toList, []]

/-- both ends as one text, if both are known: ditto/writers/gridlabd/write.py:676-684 -/
def regEnds (r : WGReg K) : Option Text :=
  match r.source, r.sink with
  | some a, some b => some (a ++ '_' :: b)
  | _, _ => none

/-- `write_regulators`: ditto/writers/gridlabd/write.py:673-737. `seen` are the ends of the regulators before, also those of earlier files. -/
def writeRegRows (names : List (Option Text × Text)) : List Text → List (WGReg K) → List Text × List Text
  | seen, [] => (seen, [])
  | seen, r :: rs =>
    match regEnds r with
    | none => ((writeRegRows names seen rs).1, regRows names r ++ (writeRegRows names seen rs).2)
    | some e =>
      if e ∈ seen then writeRegRows names seen rs
      else ((writeRegRows names (e :: seen) rs).1, regRows names r ++ (writeRegRows names (e :: seen) rs).2)

end numbers
end Ditto.Glm
