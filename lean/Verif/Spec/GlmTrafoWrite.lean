import Verif.Model.GlmTrafoWrite
import Verif.Spec.GlmTrafos
import Verif.Spec.GlmLines

/-! What is written about transformers to a GridLAB-D file. Only the types of the transformers are taken from the model. -/
namespace Ditto.Glm.Spec
open Ditto Glm

section numbers
variable {K : Type}

/-- the windings have known resistances if the impedance is to be written, and there are not three windings with three reactances -/
structure WritableImpedance (t : WGTrafo K) : Prop where
  two : ∀ w1 w2 x, t.windings = [w1, w2] → t.reactances = [x] → w1.resistance.isSome ∧ w2.resistance.isSome
  three : ¬(t.windings.length = 3 ∧ t.reactances.length = 3)
  install : ∀ i, t.install = some i → Token i

variable [Field K]

/-- what a configuration says about the windings, of which `n` come after the two first ones -/
structure WindingsWritten (flt : Text → Option K) (n : Nat) (w1 w2 : WGWinding K) (c : Decl) : Prop where
  tapped : Tapped c ↔ n = 1
  connections : n ≠ 1 → ∀ a b, w1.connection = some [a] → w2.connection = some [b] → (a, b) ∈ [('Y', 'Y'), ('D', 'D'), ('D', 'Y')] →
    ConnectionsSay (attrOf c "connect_type".toList) (some a) (some b)
  unknown : n ≠ 1 → w1.connection = none ∨ w2.connection = none → attrOf c "connect_type".toList = none
  straight : w1.voltageType ≠ some 2 → w2.voltageType ≠ some 0 →
    Optional flt c "primary_voltage".toList w1.voltage ∧ Optional flt c "secondary_voltage".toList w2.voltage
  turned : w1.voltageType = some 2 → w2.voltageType = some 0 →
    Optional flt c "primary_voltage".toList w2.voltage ∧ Optional flt c "secondary_voltage".toList w1.voltage
  power : (w1.power = none ∧ attrOf c "power_rating".toList = none) ∨ ∃ p v, w1.power = some p ∧ Value flt c "power_rating".toList v ∧ v * 1000 = p

/-- what a configuration says about a transformer -/
structure TrafoConfigSays (flt : Text → Option K) (t : WGTrafo K) (c : Decl) : Prop where
  cls : c.cls = "transformer_configuration".toList
  install : attrOf c "install_type".toList = t.install
  loss : Optional flt c "no_load_loss".toList t.loss
  windings : ∀ w1 w2 ws, t.windings = w1 :: w2 :: ws → WindingsWritten flt ws.length w1 w2 c
  few : t.windings.length < 2 → ∀ k ∈ ["connect_type".toList, "primary_voltage".toList, "secondary_voltage".toList, "power_rating".toList], attrOf c k = none
  two : ∀ w1 w2 x r1 r2, t.windings = [w1, w2] → t.reactances = [x] → w1.resistance = some r1 → w2.resistance = some r2 →
    Value flt c "reactance".toList x ∧ Value flt c "resistance".toList (r1 + r2)
  unknown : ¬(t.windings.length = 2 ∧ t.reactances.length = 1) → attrOf c "reactance".toList = none ∧ attrOf c "resistance".toList = none
  others : ∀ k ∈ ["impedance".toList, "impedance1".toList, "impedance2".toList, "powerA_rating".toList, "powerB_rating".toList, "powerC_rating".toList],
    attrOf c k = none

omit [Field K] in
/-- some winding has this phase -/
def HasPhase (t : WGTrafo K) (c : Char) : Prop := ∃ w ∈ t.windings, some [c] ∈ w.phases

/-- a transformer with names without blanks and with letters as phases -/
structure WritableTrafo (t : WGTrafo K) (name : Text) : Prop where
  named : t.name = some name
  token : Token ('n' :: name)
  source : ∀ x, t.source = some x → Token ('n' :: x)
  sink : ∀ x, t.sink = some x → Token ('n' :: x)
  phases : ∀ w ∈ t.windings, ∀ p ∈ w.phases, p = none ∨ ∃ c : Char, p = some [c] ∧ c.isWhitespace = false ∧ c ≠ '}'

/-- what is written for a transformer -/
structure TrafoWritten (config : Text → Option Text) (t : WGTrafo K) (n : Text) (d : Decl) : Prop where
  cls : d.cls = "transformer".toList
  name : nameOf d = some ('n' :: n)
  source : attrOf d "from".toList = t.source.map ('n' :: ·)
  sink : attrOf d "to".toList = t.sink.map ('n' :: ·)
  phases : ∃ cs : List Char, (∀ c, c ∈ cs ↔ HasPhase t c) ∧ cs.Pairwise (fun a b => a.toNat < b.toNat) ∧
    attrOf d "phases".toList = if cs = [] then none else some cs
  configuration : attrOf d "configuration".toList = config n

/-- two transformers have the same data apart from names and phases -/
structure SameData (t t' : WGTrafo K) : Prop where
  install : t.install = t'.install
  loss : t.loss = t'.loss
  reactances : t.reactances = t'.reactances
  windings : List.Forall₂ (fun (w w' : WGWinding K) => w.connection = w'.connection ∧ w.voltageType = w'.voltageType ∧ w.voltage = w'.voltage ∧
    w.resistance = w'.resistance ∧ w.power = w'.power) t.windings t'.windings

end numbers
end Ditto.Glm.Spec
