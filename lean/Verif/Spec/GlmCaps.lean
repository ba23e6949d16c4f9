import Verif.Model.GlmCaps
import Verif.Spec.GlmLoads
import Verif.Spec.GlmNodes

/-! What a capacitor in a GridLAB-D file says. Only the types of the capacitors are taken from the model. -/
namespace Ditto.Glm.Spec
open Ditto Glm

/-- the attribute is missing and there is no value, or it is this value -/
def Optional {V : Type} (conv : Text → Option V) (d : Decl) (k : Text) : Option V → Prop
  | none => attrOf d k = none
  | some v => Value conv d k v

/-- the text is this word, in small or capital letters -/
def AnyCase (t w : Text) : Prop := t.map Char.toUpper = w

/-- the control mode that a word stands for -/
inductive ModeSays : Option Text → Option Text → Prop
  | missing : ModeSays none none
  | volt {t : Text} : AnyCase t "VOLT".toList → ModeSays (some t) (some "voltage".toList)
  | var {t : Text} : AnyCase t "VAR".toList → ModeSays (some t) (some "reactivePower".toList)
  | manual {t : Text} : AnyCase t "MANUAL".toList → ModeSays (some t) (some "none".toList)
  | other {t : Text} : ¬AnyCase t "VOLT".toList → ¬AnyCase t "VAR".toList → ¬AnyCase t "MANUAL".toList → ModeSays (some t) none

section numbers
variable {K : Type} [Field K]

/-- the limits: those of the voltage, or else those of the reactive power. The low one is only looked at together with the high one of the same kind. -/
structure LimitsSay (flt : Text → Option K) (d : Decl) (high low : Option K) : Prop where
  high_volt : ∀ v, Value flt d "voltage_set_high".toList v → high = some v
  high_var : attrOf d "voltage_set_high".toList = none → Optional flt d "VAr_set_high".toList high
  low_volt : ∀ v, (attrOf d "voltage_set_high".toList).isSome → Value flt d "voltage_set_low".toList v → low = some v
  low_var : attrOf d "voltage_set_high".toList = none ∨ attrOf d "voltage_set_low".toList = none → (attrOf d "VAr_set_high".toList).isSome →
    Optional flt d "VAr_set_low".toList low
  low_none : attrOf d "voltage_set_high".toList = none ∨ attrOf d "voltage_set_low".toList = none → attrOf d "VAr_set_high".toList = none → low = none

/-- the phases with a capacitor -/
def capLetters (d : Decl) : List Char := ['A', 'B', 'C'].filter fun c => (attrOf d (ofPhase "capacitor".toList c)).isSome

/-- the reactive power of a phase, in var instead of Mvar -/
def PhaseCapSays (flt : Text → Option K) (d : Decl) (c : Char) (p : GPhaseCap K) : Prop :=
  p.phase = c ∧ ∃ v, Value flt d (ofPhase "capacitor".toList c) v ∧ p.var = v * 10 ^ 6

/-- the capacitor that is read is the one of the file -/
structure CapSays (flt : Text → Option K) (d : Decl) (r : GReadCap K) : Prop where
  name : nameOf d = some r.name
  voltage : Optional flt d "nominal_voltage".toList r.voltage
  delay : Optional flt d "time_delay".toList r.delay
  mode : ModeSays (attrOf d "control".toList) r.mode
  limits : LimitsSay flt d r.high r.low
  ptPhase : r.ptPhase = attrOf d "pt_phase".toList
  phases : List.Forall₂ (PhaseCapSays flt d) (capLetters d) r.phases

/-- all numbers of the capacitor can be read -/
def CleanCap (flt : Text → Option K) (d : Decl) : Prop :=
  ∀ k ∈ ["nominal_voltage".toList, "time_delay".toList, "VAr_set_high".toList, "VAr_set_low".toList, "voltage_set_high".toList,
    "voltage_set_low".toList, "capacitor_A".toList, "capacitor_B".toList, "capacitor_C".toList], Clean flt d k

/-- a capacitor with a name without blanks, without delay and with different phases A, B and C -/
structure WritableCap (c : WCap K) (name : Text) : Prop where
  named : c.name = some name
  token : Token ('n' :: name)
  delay : c.delay = none
  mode : ∀ t, c.mode = some t → Token t
  ptPhase : ∀ t, c.ptPhase = some t → Token t
  element : ∀ e, c.element = some e → Token ('n' :: e)
  phases : ∃ cs, List.Forall₂ (fun (j : WPhaseCap K) ch => j.phase = some [ch] ∧ ch ∈ ['A', 'B', 'C']) c.phases cs ∧ cs.Nodup

/-- both limits are given, or none -/
def BothLimits (c : WCap K) : Prop := c.low.isSome = c.high.isSome

/-- what is written for a capacitor -/
structure CapWritten (flt : Text → Option K) (c : WCap K) (name : Text) (d : Decl) : Prop where
  cls : d.cls = "capacitor".toList
  name : nameOf d = some ('n' :: name)
  voltage : Optional flt d "nominal_voltage".toList c.voltage
  control : attrOf d "control".toList = c.mode
  low : Optional flt d "voltage_set_low".toList c.low
  high : BothLimits c → Optional flt d "voltage_set_high".toList c.high
  ptPhase : attrOf d "pt_phase".toList = c.ptPhase
  parent : attrOf d "parent".toList = c.element.map ('n' :: ·)
  phases : attrOf d "phases".toList = if c.phases = [] then none else some (c.phases.flatMap fun j => j.phase.toList.flatten)
  vars : ∀ j ∈ c.phases, ∀ ch, j.phase = some [ch] →
    (j.var = none ∧ attrOf d (ofPhase "capacitor".toList ch) = none ∧ attrOf d ("switch".toList ++ [ch]) = none) ∨
      ∃ v m, j.var = some v ∧ Value flt d (ofPhase "capacitor".toList ch) m ∧ v = m * 10 ^ 6 ∧
        attrOf d ("switch".toList ++ [ch]) = some (if j.switch = some 1 then "OPEN".toList else "CLOSED".toList)
  others : ∀ ch ∈ ['A', 'B', 'C'], (∀ j ∈ c.phases, j.phase ≠ some [ch]) →
    attrOf d (ofPhase "capacitor".toList ch) = none ∧ attrOf d ("switch".toList ++ [ch]) = none

/-- the schema has capacitors with these attributes -/
def CapSchema (schema : Schema) : Prop :=
  ∃ ps, schema "capacitor".toList = some ps ∧
    (∀ k ∈ ["name".toList, "nominal_voltage".toList, "control".toList, "voltage_set_low".toList, "voltage_set_high".toList, "pt_phase".toList,
      "parent".toList, "phases".toList], k ∈ ps) ∧
    ∀ c ∈ ['A', 'B', 'C'], ofPhase "capacitor".toList c ∈ ps ∧ "switch".toList ++ [c] ∈ ps

/-- the capacitor that is read has the name, the voltage, the limits and the reactive powers of the one that was written -/
structure SameCap (c : WCap K) (name : Text) (r : GReadCap K) : Prop where
  name : r.name = 'n' :: name
  voltage : r.voltage = c.voltage
  low : r.low = c.low
  high : r.high = c.high
  ptPhase : r.ptPhase = c.ptPhase
  vars : ∀ ch v, (∃ p ∈ r.phases, p.phase = ch ∧ p.var = v) ↔ ∃ j ∈ c.phases, j.phase = some [ch] ∧ j.var = some v
  once : (r.phases.map (·.phase)).Nodup

end numbers

end Ditto.Glm.Spec
