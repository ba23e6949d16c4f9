import Verif.Model.GlmRegWrite
import Verif.Spec.GlmTrafoWrite

/-! What is written about regulators to a GridLAB-D file. Only the types of the regulators and of the states are taken from the model. -/
namespace Ditto.Glm.Spec
open Ditto Glm

section numbers
variable {K : Type}

/-- two regulators have the same settings apart from those of the phases -/
structure SameSettings (r r' : WGReg K) : Prop where
  delay : r.delay = r'.delay
  highstep : r.highstep = r'.highstep
  lowstep : r.lowstep.or r.highstep = r'.lowstep.or r'.highstep
  ptRatio : r.ptRatio = r'.ptRatio
  ctRatio : r.ctRatio = r'.ctRatio
  bandwidth : r.bandwidth = r'.bandwidth
  bandcenter : r.bandcenter = r'.bandcenter
  ptPhase : r.ptPhase = r'.ptPhase

/-- what a configuration says about a regulator apart from the phases. If only the highest tap is known, the lowest tap is the same. -/
structure RegConfigWritten (flt : Text → Option K) (int : Text → Option Int) (r : WGReg K) (c : Decl) : Prop where
  cls : c.cls = "regulator_configuration".toList
  delay : Optional flt c "time_delay".toList r.delay
  highstep : Optional int c "raise_taps".toList r.highstep
  lowstep : Optional int c "lower_taps".toList (r.lowstep.or r.highstep)
  ptRatio : Optional flt c "power_transducer_ratio".toList r.ptRatio
  ctRatio : Optional flt c "current_transducer_ratio".toList r.ctRatio
  bandwidth : Optional flt c "band_width".toList r.bandwidth
  bandcenter : Optional flt c "band_center".toList r.bandcenter
  ptPhase : attrOf c "pt_phase".toList = r.ptPhase
  connection : attrOf c "connect_type".toList = some "WYE_WYE".toList

/-- the phase windings that hold the settings of a regulator: its own ones, or those of all transformers with the name of its transformer -/
inductive SettingsOf (trafos : List (Option Text × List (WGRegPhase K))) (r : WGReg K) : List (WGRegPhase K) → Prop
  | own : r.transformer = none → SettingsOf trafos r r.phases
  | transformer {n : Text} : r.transformer = some n → SettingsOf trafos r ((trafos.filter fun t => t.1 = some n).map (·.2)).flatten

/-- this winding is the last one with this phase among the windings of the regulators with the property `P` -/
inductive LastSetting (trafos : List (Option Text × List (WGRegPhase K))) (P : WGReg K → Prop) (rs : List (WGReg K)) (p : Text) (w : WGRegPhase K) : Prop
  | intro {pre post : List (WGReg K)} {r : WGReg K} {a b : List (WGRegPhase K)} : rs = pre ++ r :: post → P r → SettingsOf trafos r (a ++ w :: b) →
      w.phase = some p → (∀ w' ∈ b, w'.phase ≠ some p) → (∀ r' ∈ post, P r' → ∀ l, SettingsOf trafos r' l → ∀ w' ∈ l, w'.phase ≠ some p) →
      LastSetting trafos P rs p w

/-- what a configuration says about the phase of a winding. The reactance is never written. -/
structure SettingSays (flt : Text → Option K) (p : Text) (w : WGRegPhase K) (c : Decl) : Prop where
  tap : ∀ x, w.tap = some x → Value flt c ("tap_pos_".toList ++ p) x
  untapped : w.tap = none → attrOf c ("tap_pos_".toList ++ p) = some "None".toList
  resistance : ∀ x, w.r = some x → Value flt c ("compensator_r_setting_".toList ++ p) x
  unknown : w.r = none → w.x.isSome → attrOf c ("compensator_r_setting_".toList ++ p) = some "None".toList

/-- a regulator whose texts have no blanks -/
structure WritableReg (trafos : List (Option Text × List (WGRegPhase K))) (r : WGReg K) (name : Text) : Prop where
  named : r.name = some name
  token : Token ('n' :: name)
  source : ∀ x, r.source = some x → Token ('n' :: x)
  sink : ∀ x, r.sink = some x → Token ('n' :: x)
  ptPhase : ∀ x, r.ptPhase = some x → Token x
  phases : ∀ l, SettingsOf trafos r l → ∀ w ∈ l, ∀ p, w.phase = some p → ∀ c ∈ p, c.isWhitespace = false

/-- what is written for a regulator -/
structure RegWritten (config : Text → Option Text) (r : WGReg K) (n : Text) (d : Decl) : Prop where
  cls : d.cls = "regulator".toList
  name : nameOf d = some ('n' :: n)
  source : attrOf d "from".toList = r.source.map ('n' :: ·)
  sink : attrOf d "to".toList = r.sink.map ('n' :: ·)
  configuration : attrOf d "configuration".toList = config n
  phases : attrOf d "phases".toList = none

/-- the ends of a regulator, both of them known, joined by an underscore, are this text -/
def JoinedEnds (r : WGReg K) (e : Text) : Prop := ∃ a b, r.source = some a ∧ r.sink = some b ∧ e = a ++ "_".toList ++ b

end numbers
end Ditto.Glm.Spec
