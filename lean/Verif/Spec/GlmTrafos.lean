import Verif.Model.GlmTrafos
import Verif.Spec.GlmCaps
import Verif.Spec.GlmSwitches

/-! What a transformer in a GridLAB-D file says. Only the types of the transformers are taken from the model. -/
namespace Ditto.Glm.Spec
open Ditto Glm

/-- the object `c` is the configuration of `d` -/
def ConfigIs (ds : List Decl) (d c : Decl) : Prop := ∃ n, attrOf d "configuration".toList = some n ∧ lastNamed ds n = some c

/-- the object has these phases, apart from the neutral N and the S of secondaries -/
def TrafoPhases (d : Decl) (cs : List Char) : Prop :=
  (attrOf d "phases".toList = none ∧ cs = []) ∨
    ∃ t u, attrOf d "phases".toList = some t ∧ Unquoted t u ∧ cs = u.filter fun c => c ≠ 'N' ∧ c ≠ 'S'

/-- a transformer with two secondary windings -/
def Tapped (c : Decl) : Prop := attrOf c "connect_type".toList = some "SINGLE_PHASE_CENTER_TAPPED".toList

/-- the connections that a word stands for -/
inductive ConnectionsSay : Option Text → Option Char → Option Char → Prop
  | wye : ConnectionsSay (some "WYE_WYE".toList) (some 'Y') (some 'Y')
  | delta : ConnectionsSay (some "DELTA_DELTA".toList) (some 'D') (some 'D')
  | mixed : ConnectionsSay (some "DELTA_GWYE".toList) (some 'D') (some 'Y')
  | other {t : Option Text} : t ≠ some "WYE_WYE".toList → t ≠ some "DELTA_DELTA".toList → t ≠ some "DELTA_GWYE".toList → ConnectionsSay t none none

section numbers
variable {K : Type} [Field K]

/-- the resistance of the transformer: the one of the impedance if there is an impedance and no reactance -/
inductive ResistanceSays (flt : Text → Option K) (cpx : Text → Option (Cx K)) (c : Decl) : Option K → Prop
  | own {r : Option K} : (attrOf c "reactance".toList).isSome ∨ attrOf c "impedance".toList = none → Optional flt c "resistance".toList r →
      ResistanceSays flt cpx c r
  | impedance {z : Cx K} : attrOf c "reactance".toList = none → Value cpx c "impedance".toList z → ResistanceSays flt cpx c (some z.re)

/-- the reactance between two windings -/
inductive ReactanceSays (flt : Text → Option K) (cpx : Text → Option (Cx K)) (c : Decl) : List K → Prop
  | missing : attrOf c "reactance".toList = none → attrOf c "impedance".toList = none → ReactanceSays flt cpx c []
  | own {x : K} : Value flt c "reactance".toList x → ReactanceSays flt cpx c [x]
  | impedance {z : Cx K} : attrOf c "reactance".toList = none → Value cpx c "impedance".toList z → ReactanceSays flt cpx c [z.im]

/-- the usual reactances of a center-tapped transformer: 0.8, 0.4 and 0.4 of the whole one -/
def Usual (x : K) (l : List K) : Prop := ∃ a b, l = [a, b, b] ∧ 5 * a = 4 * x ∧ 5 * b = 2 * x

/-- the reactances between three windings -/
inductive TappedReactances (flt : Text → Option K) (cpx : Text → Option (Cx K)) (c : Decl) : List K → Prop
  | missing : attrOf c "reactance".toList = none → attrOf c "impedance".toList = none → TappedReactances flt cpx c []
  | own {x : K} {z1 z2 : Cx K} : Value flt c "reactance".toList x → Value cpx c "impedance1".toList z1 → Value cpx c "impedance2".toList z2 →
      TappedReactances flt cpx c [x, z1.im, z2.im]
  | usual {x : K} {l : List K} : Value flt c "reactance".toList x → attrOf c "impedance1".toList = none → Usual x l → TappedReactances flt cpx c l
  | impedance {z : Cx K} {l : List K} : attrOf c "reactance".toList = none → Value cpx c "impedance".toList z → Usual z.im l → TappedReactances flt cpx c l

/-- the rated power in VA of a transformer whose rating is given for all phases together -/
def RatingSays (flt : Text → Option K) (c : Decl) (p : Option K) : Prop :=
  (attrOf c "power_rating".toList = none ∧ p = none) ∨ ∃ v, Value flt c "power_rating".toList v ∧ p = some (v * 1000)

/-- no ratings for phases -/
def OneRating (c : Decl) : Prop :=
  attrOf c "powerA_rating".toList = none ∧ attrOf c "powerB_rating".toList = none ∧ attrOf c "powerC_rating".toList = none

/-- half of a value, or nothing -/
def HalfOf (a b : Option K) : Prop := (a = none ∧ b = none) ∨ ∃ x y, a = some x ∧ b = some y ∧ 2 * x = y

/-- two windings: the resistance is split equally -/
structure TwoSay (flt : Text → Option K) (cpx : Text → Option (Cx K)) (d c : Decl) (ws : List (GWinding K)) (xs : List K) (w1 w2 : GWinding K) : Prop where
  all : ws = [w1, w2]
  types : w1.voltageType = 0 ∧ w2.voltageType = 2
  connections : ConnectionsSay (attrOf c "connect_type".toList) w1.connection w2.connection
  high : Optional flt c "primary_voltage".toList w1.voltage
  low : Optional flt c "secondary_voltage".toList w2.voltage
  resistance : ∃ r, ResistanceSays flt cpx c r ∧ HalfOf w1.resistance r ∧ HalfOf w2.resistance r
  power : OneRating c → RatingSays flt c w1.power
  same : w2.power = w1.power
  phases : TrafoPhases d w1.phases ∧ w2.phases = w1.phases
  reactances : ReactanceSays flt cpx c xs

/-- three windings: half of the resistance is at the first one, and the whole one at each of the others, which are parallel; these have half of the power -/
structure ThreeSay (flt : Text → Option K) (cpx : Text → Option (Cx K)) (d c : Decl) (ws : List (GWinding K)) (xs : List K) (w1 w2 w3 : GWinding K) : Prop where
  all : ws = [w1, w2, w3]
  types : w1.voltageType = 0 ∧ w2.voltageType = 2 ∧ w3.voltageType = 2
  connections : w1.connection = none ∧ w2.connection = none ∧ w3.connection = none
  high : Optional flt c "primary_voltage".toList w1.voltage
  low : Optional flt c "secondary_voltage".toList w2.voltage ∧ w3.voltage = w2.voltage
  resistance : ResistanceSays flt cpx c w2.resistance ∧ HalfOf w1.resistance w2.resistance ∧ w3.resistance = w2.resistance
  power : OneRating c → RatingSays flt c w1.power
  half : HalfOf w2.power w1.power ∧ w3.power = w2.power
  phases : TrafoPhases d w1.phases ∧ w2.phases.length = w1.phases.length ∧ w3.phases.length = 1
  reactances : (attrOf c "impedance1".toList).isSome = (attrOf c "impedance2".toList).isSome → TappedReactances flt cpx c xs

/-- the transformer that is read is the one of the file -/
structure TrafoSays (flt : Text → Option K) (cpx : Text → Option (Cx K)) (ds : List Decl) (d : Decl) (r : GReadTrafo K) : Prop where
  name : nameOf d = some r.name
  source : r.source = attrOf d "from".toList
  sink : r.sink = attrOf d "to".toList
  two : ∀ c, ConfigIs ds d c → ¬Tapped c → ∃ w1 w2, TwoSay flt cpx d c r.windings r.reactances w1 w2
  three : ∀ c, ConfigIs ds d c → Tapped c → ∃ w1 w2 w3, ThreeSay flt cpx d c r.windings r.reactances w1 w2 w3
  install : ∀ c, ConfigIs ds d c → r.install = attrOf c "install_type".toList
  loss : ∀ c, ConfigIs ds d c → Optional flt c "no_load_loss".toList r.loss
  bare : (∀ c, ¬ConfigIs ds d c) → r.install = none ∧ r.loss = none ∧ r.reactances = [] ∧ ∃ cs, TrafoPhases d cs ∧
    r.windings = [⟨0, none, none, none, none, cs⟩, ⟨2, none, none, none, none, cs⟩]

/-- all numbers of the configuration can be read -/
structure CleanConfig (flt : Text → Option K) (cpx : Text → Option (Cx K)) (c : Decl) : Prop where
  numbers : ∀ k ∈ ["no_load_loss".toList, "primary_voltage".toList, "secondary_voltage".toList, "resistance".toList, "reactance".toList, "power_rating".toList,
    "powerA_rating".toList, "powerB_rating".toList, "powerC_rating".toList], Clean flt c k
  impedances : ∀ k ∈ ["impedance".toList, "impedance1".toList, "impedance2".toList], Clean cpx c k

end numbers
end Ditto.Glm.Spec
