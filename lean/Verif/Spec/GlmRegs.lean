import Verif.Model.GlmRegs
import Verif.Spec.GlmTrafos

/-! What a regulator in a GridLAB-D file says. Only the types of the regulators are taken from the model. -/
namespace Ditto.Glm.Spec
open Ditto Glm

/-- the phase whose voltage is measured is the first letter -/
def PtSays (c : Decl) : Option Char → Prop
  | none => attrOf c "PT_phase".toList = none
  | some p => ∃ t rest, attrOf c "PT_phase".toList = some t ∧ Unquoted t (p :: rest)

/-- the phases of a regulator, and after them those that only have a tap position -/
def regLetters (c : Decl) (cs : List Char) : List Char :=
  cs ++ ['A', 'B', 'C'].filter fun p => (attrOf c (ofPhase "tap_pos".toList p)).isSome ∧ p ∉ cs

section numbers
variable {K : Type}

/-- the voltage is the one of the object at the first end -/
def EndVoltage (flt : Text → Option K) (ds : List Decl) (d : Decl) (v : Option K) : Prop :=
  (attrOf d "from".toList = none ∧ v = none) ∨
    ∃ n f, attrOf d "from".toList = some n ∧ lastNamed ds n = some f ∧ Optional flt f "nominal_voltage".toList v

/-- tap position and compensator of a phase -/
structure RegPhaseSays (flt : Text → Option K) (int : Text → Option Int) (c : Decl) (p : GRegPhase K) : Prop where
  tap : Optional int c (ofPhase "tap_pos".toList p.phase) p.tap
  r : Optional flt c (ofPhase "compensator_r_setting".toList p.phase) p.r
  x : Optional flt c (ofPhase "compensator_x_setting".toList p.phase) p.x

/-- what the configuration says -/
structure RegConfigSays (flt : Text → Option K) (int : Text → Option Int) (d c : Decl) (r : GReadReg K) : Prop where
  phases : ∃ cs, TrafoPhases d cs ∧ r.phases.map (·.phase) = regLetters c cs ∧
    (cs.Nodup → ∀ p ∈ r.phases, if p.phase ∈ ['A', 'B', 'C'] then RegPhaseSays flt int c p else p.tap = none ∧ p.r = none ∧ p.x = none)
  connection : r.connection = if attrOf c "connect_type".toList = some "WYE_WYE".toList then some 'Y' else none
  delay : Optional flt c "time_delay".toList r.delay
  bandwidth : Optional flt c "band_width".toList r.bandwidth
  bandcenter : Optional flt c "band_center".toList r.bandcenter
  highstep : Optional int c "raise_taps".toList r.highstep
  lowstep : Optional int c "lower_taps".toList r.lowstep
  ptRatio : Optional flt c "power_transducer_ratio".toList r.ptRatio
  ctRatio : Optional flt c "current_transducer_ratio".toList r.ctRatio
  ptPhase : PtSays c r.ptPhase

/-- nothing is known without configuration -/
def Unconfigured (r : GReadReg K) : Prop :=
  r.connection = none ∧ r.delay = none ∧ r.bandwidth = none ∧ r.bandcenter = none ∧ r.highstep = none ∧ r.lowstep = none ∧ r.ptRatio = none ∧
    r.ctRatio = none ∧ r.ptPhase = none ∧ ∀ p ∈ r.phases, p.tap = none ∧ p.r = none ∧ p.x = none

/-- the regulator that is read is the one of the file, apart from its ends -/
structure RegSays (flt : Text → Option K) (int : Text → Option Int) (ds : List Decl) (d : Decl) (r : GReadReg K) : Prop where
  name : nameOf d = some r.name
  voltage : EndVoltage flt ds d r.voltage
  configured : ∀ c, ConfigIs ds d c → RegConfigSays flt int d c r
  bare : (∀ c, ¬ConfigIs ds d c) → Unconfigured r ∧ TrafoPhases d (r.phases.map (·.phase))

/-- all numbers of the configuration can be read -/
structure CleanReg (flt : Text → Option K) (int : Text → Option Int) (c : Decl) : Prop where
  numbers : ∀ k ∈ ["time_delay".toList, "band_width".toList, "band_center".toList, "power_transducer_ratio".toList, "current_transducer_ratio".toList],
    Clean flt c k
  steps : ∀ k ∈ ["raise_taps".toList, "lower_taps".toList], Clean int c k
  taps : ∀ p ∈ ['A', 'B', 'C'], Clean int c (ofPhase "tap_pos".toList p)
  compensators : ∀ p ∈ ['A', 'B', 'C'], Clean flt c (ofPhase "compensator_r_setting".toList p) ∧ Clean flt c (ofPhase "compensator_x_setting".toList p)
  pt : ∀ t, attrOf c "PT_phase".toList = some t → ¬Unquoted t []

/-- each phase with a compensator is a phase of the regulator or has a tap position -/
def CompensatedPhases (d c : Decl) : Prop :=
  ∀ p ∈ ['A', 'B', 'C'], (attrOf c (ofPhase "compensator_r_setting".toList p)).isSome ∨ (attrOf c (ofPhase "compensator_x_setting".toList p)).isSome →
    ∃ cs, TrafoPhases d cs ∧ p ∈ regLetters c cs

end numbers
end Ditto.Glm.Spec
