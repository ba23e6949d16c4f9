import Verif.Model.GlmLoadWrite
import Verif.Spec.GlmLoads
import Verif.Spec.GlmNodes

/-! What a written load says, and what is expected after reading it again. -/
namespace Ditto.Glm.Spec
open Ditto Glm

section numbers
variable {K : Type} [Field K]

/-- complex numbers are printed in parentheses or without them, and can be read without them -/
structure ComplexNumbers (showCx : Cx K → Text) (cpx : Text → Option (Cx K)) : Prop where
  inverse : ∀ z, cpx (stripParens (showCx z)) = some z
  token : ∀ z, Token (showCx z)
  stripped : ∀ z, Token (stripParens (showCx z))

/-- a fraction with a power factor: active and reactive share are given, and not both zero -/
def Fraction (p q : Option K) : Prop := ∃ a b, p = some a ∧ q = some b ∧ a + b ≠ 0

/-- a phase A, B or C with power, and with all six shares if it is a ZIP load -/
structure WritablePhase (j : WPhaseLoad K) (c : Char) : Prop where
  phase : j.phase = some [c]
  letter : c ∈ ['A', 'B', 'C']
  active : j.p.isSome
  reactive : j.q.isSome
  flag : j.useZip.isSome
  shares : j.useZip = some 1 → Fraction j.pcurrent j.qcurrent ∧ Fraction j.ppower j.qpower ∧ Fraction j.pimpedance j.qimpedance

/-- a load with a name without blanks and with different phases -/
structure WritableLoad (l : WLoad K) (name : Text) : Prop where
  named : l.name = some name
  token : Token ('n' :: name)
  element : ∀ e, l.element = some e → Token ('n' :: e)
  phases : ∃ cs, List.Forall₂ WritablePhase l.phaseLoads cs ∧ cs.Nodup

/-- fraction and power factor in the file -/
def FractionSays (flt : Text → Option K) (d : Decl) (kind : Text) (c : Char) (p q : Option K) : Prop :=
  ∃ a b f pf, p = some a ∧ q = some b ∧ Value flt d (ofPhase (kind ++ "_fraction".toList) c) f ∧ Value flt d (ofPhase (kind ++ "_pf".toList) c) pf ∧
    f = a + b ∧ f * pf = a ∧ f * (1 - pf) = b

/-- what is written for a phase -/
structure PhaseWritten (flt : Text → Option K) (cpx : Text → Option (Cx K)) (showCx : Cx K → Text) (d : Decl) (j : WPhaseLoad K) (c : Char) : Prop where
  constant : j.useZip ≠ some 1 → ∃ p q, j.p = some p ∧ j.q = some q ∧ Value cpx d (ofPhase "constant_power".toList c) ⟨p, q⟩
  zip : j.useZip = some 1 → FractionSays flt d "current".toList c j.pcurrent j.qcurrent ∧ FractionSays flt d "power".toList c j.ppower j.qpower ∧
    FractionSays flt d "impedance".toList c j.pimpedance j.qimpedance ∧
    ∃ p q, j.p = some p ∧ j.q = some q ∧ attrOf d (ofPhase "base_power".toList c) = some (showCx ⟨p, q⟩)

/-- what is written for a load -/
structure LoadWritten (flt : Text → Option K) (cpx : Text → Option (Cx K)) (showCx : Cx K → Text) (l : WLoad K) (name : Text) (d : Decl) : Prop where
  cls : d.cls = "load".toList
  name : nameOf d = some ('n' :: name)
  parent : attrOf d "parent".toList = l.element.map ('n' :: ·)
  voltage : (l.voltage = none ∧ attrOf d "nominal_voltage".toList = none) ∨
    ∃ v, l.voltage = some v ∧ Value flt d "nominal_voltage".toList v
  phases : ∀ j ∈ l.phaseLoads, ∀ c, j.phase = some [c] → PhaseWritten flt cpx showCx d j c

/-- the schema has loads with these attributes for the phases A, B and C -/
def LoadSchema (schema : Schema) : Prop :=
  ∃ ps, schema "load".toList = some ps ∧ (∀ k ∈ ["name".toList, "parent".toList, "phases".toList, "nominal_voltage".toList], k ∈ ps) ∧
    ∀ k ∈ ["constant_power".toList, "base_power".toList] ++ zipAttrs, ∀ c ∈ ['A', 'B', 'C'], ofPhase k c ∈ ps

/-- the load that is read has the name, the bus and the voltage of the load that was written, with the letter that the writer puts before names -/
def SamePlace (l : WLoad K) (name : Text) (r : GReadLoad K × Option (GReadNode K)) : Prop :=
  r.1.voltage = l.voltage ∧
    match l.element with
    | some e => r.1.name = 'n' :: name ∧ r.1.element = some ('n' :: e) ∧ r.2 = none
    | none => r.1.name = "load_n".toList ++ name ∧ r.1.element = some ('n' :: name) ∧ ∃ node, r.2 = some node ∧ node.name = 'n' :: name

end numbers

end Ditto.Glm.Spec
