import Verif.Model.GlmLoads
import Verif.Spec.GlmParse
import Mathlib.Data.List.Forall2

/-! What a load in a GridLAB-D file says. Only the types of the results are taken from the model. -/
namespace Ditto.Glm.Spec
open Ditto Glm

/-- the object has this attribute, and its text is this value -/
def Value {V : Type} (conv : Text → Option V) (d : Decl) (k : Text) (v : V) : Prop := ∃ t, attrOf d k = some t ∧ conv t = some v

/-- the attribute of a phase, such as `constant_power_A` -/
def ofPhase (k : Text) (c : Char) : Text := k ++ ['_', c]

/-- the attribute is missing or can be converted -/
def Clean {V : Type} (conv : Text → Option V) (d : Decl) (k : Text) : Prop := ∀ t, attrOf d k = some t → (conv t).isSome

/-- the letters A, B and C in the attribute `phases` -/
def lettersOf (d : Decl) : List Char :=
  match attrOf d "phases".toList with
  | none => []
  | some t => t.filter fun c => c ∈ ['A', 'B', 'C']

/-- the text is `a*b`, perhaps with further factors -/
def Factors (t a b : Text) : Prop := ∃ rest, t = a ++ '*' :: (b ++ rest) ∧ '*' ∉ a ∧ '*' ∉ b ∧ (rest = [] ∨ rest.head? = some '*')

/-- the present value of a schedule -/
def scheduleValue (schedules : List (Text × Text)) (n : Text) : Option Text := (schedules.find? fun p => p.1 = n).map (·.2)

/-- the six attributes of a ZIP load -/
def zipAttrs : List Text :=
  ["current_fraction".toList, "current_pf".toList, "power_fraction".toList, "power_pf".toList, "impedance_fraction".toList, "impedance_pf".toList]

section numbers
variable {K : Type} [Field K]

/-- Ohm's law: the current `i` through the impedance `z` at the voltage `v` -/
def Ohm (z i v : Cx K) : Prop := v.re = z.re * i.re - z.im * i.im ∧ v.im = z.re * i.im + z.im * i.re

/-- the complex power of the current `i` at the voltage `v`, which is `v` times the conjugate of `i` -/
def Draws (v i : Cx K) (p q : K) : Prop := p = v.re * i.re + v.im * i.im ∧ q = v.im * i.re - v.re * i.im

/-- the base power of a phase -/
inductive BasePower (flt : Text → Option K) (schedules : List (Text × Text)) (d : Decl) (c : Char) : K → Prop
  | missing : attrOf d (ofPhase "base_power".toList c) = none → BasePower flt schedules d c 0
  | number {p : K} : Value flt d (ofPhase "base_power".toList c) p → BasePower flt schedules d c p
  | second {t a b v : Text} {x y : K} : attrOf d (ofPhase "base_power".toList c) = some t → flt t = none → Factors t a b →
      scheduleValue schedules b = some v → flt v = some x → flt a = some y → BasePower flt schedules d c (x * y)
  | first {t a b v : Text} {x y : K} : attrOf d (ofPhase "base_power".toList c) = some t → flt t = none → Factors t a b →
      scheduleValue schedules b = none → scheduleValue schedules a = some v → flt v = some x → flt b = some y → BasePower flt schedules d c (x * y)
  | unknown {t a b : Text} : attrOf d (ofPhase "base_power".toList c) = some t → flt t = none → Factors t a b →
      scheduleValue schedules b = none → scheduleValue schedules a = none → BasePower flt schedules d c 0

/-- fractions and power factors of the current, power and impedance of a phase -/
structure ZipValues (flt : Text → Option K) (d : Decl) (c : Char) (cf cpf pf ppf zf zpf : K) : Prop where
  cf : Value flt d (ofPhase "current_fraction".toList c) cf
  cpf : Value flt d (ofPhase "current_pf".toList c) cpf
  pf : Value flt d (ofPhase "power_fraction".toList c) pf
  ppf : Value flt d (ofPhase "power_pf".toList c) ppf
  zf : Value flt d (ofPhase "impedance_fraction".toList c) zf
  zpf : Value flt d (ofPhase "impedance_pf".toList c) zpf

/-- no constant power with an active part is given -/
def NoPower (cpx : Text → Option (Cx K)) (d : Decl) (c : Char) : Prop :=
  attrOf d (ofPhase "constant_power".toList c) = none ∨ ∃ s, Value cpx d (ofPhase "constant_power".toList c) s ∧ s.re = 0

/-- no such constant impedance or current with a voltage is given, or its real part is zero -/
def NoConstant (cpx : Text → Option (Cx K)) (d : Decl) (c : Char) (k : Text) : Prop :=
  attrOf d (ofPhase k c) = none ∨
    ∃ z, Value cpx d (ofPhase k c) z ∧ (attrOf d (ofPhase "voltage".toList c) = none ∨ z.re = 0)

/-- The load of a phase: its power is the given one, or the one at the given voltage, or the base power. -/
inductive PhaseSays (flt : Text → Option K) (cpx : Text → Option (Cx K)) (schedules : List (Text × Text)) (d : Decl) (c : Char) :
    GPhaseLoad K → Prop
  | power {s : Cx K} : Value cpx d (ofPhase "constant_power".toList c) s → s.re ≠ 0 →
      PhaseSays flt cpx schedules d c { phase := c, p := s.re, q := s.im, model := 1, zip := false, shares := none }
  | impedance {z v i : Cx K} {p q : K} : NoPower cpx d c → Value cpx d (ofPhase "constant_impedance".toList c) z →
      Value cpx d (ofPhase "voltage".toList c) v → z.re ≠ 0 → Ohm z i v → Draws v i p q →
      PhaseSays flt cpx schedules d c { phase := c, p := p, q := q, model := 2, zip := false, shares := none }
  | current {i v : Cx K} {p q : K} : NoPower cpx d c → NoConstant cpx d c "constant_impedance".toList →
      Value cpx d (ofPhase "constant_current".toList c) i → Value cpx d (ofPhase "voltage".toList c) v → i.re ≠ 0 → Draws v i p q →
      PhaseSays flt cpx schedules d c { phase := c, p := p, q := q, model := 5, zip := false, shares := none }
  | zip {p cf cpf pf ppf zf zpf : K} : NoPower cpx d c → NoConstant cpx d c "constant_impedance".toList →
      NoConstant cpx d c "constant_current".toList → BasePower flt schedules d c p → ZipValues flt d c cf cpf pf ppf zf zpf →
      PhaseSays flt cpx schedules d c
        ⟨c, p, 0, 1, true, some ⟨cf * cpf, cf * (1 - cpf), pf * ppf, pf * (1 - ppf), zf * zpf, zf * (1 - zpf)⟩⟩
  | other {p : K} {k : Text} : NoPower cpx d c → NoConstant cpx d c "constant_impedance".toList →
      NoConstant cpx d c "constant_current".toList → BasePower flt schedules d c p → k ∈ zipAttrs → attrOf d (ofPhase k c) = none →
      PhaseSays flt cpx schedules d c { phase := c, p := p, q := 0, model := 1, zip := false, shares := none }

/-- where the load is: at its parent, or else at a node that has its name -/
def Placed (d : Decl) (r : GReadLoad K × Option (GReadNode K)) : Prop :=
  ∃ n, nameOf d = some n ∧
    match attrOf d "parent".toList with
    | some p => r.1.name = n ∧ r.1.element = some p ∧ r.2 = none
    | none => r.1.name = "load_".toList ++ n ∧ r.1.element = some n ∧
        r.2 = some { source := false, name := n, phases := (lettersOf d).map fun c => [c], voltage := r.1.voltage }

/-- the load that is read is the one of the file -/
structure LoadSays (flt : Text → Option K) (cpx : Text → Option (Cx K)) (schedules : List (Text × Text)) (d : Decl)
    (r : GReadLoad K × Option (GReadNode K)) : Prop where
  placed : Placed d r
  voltage : (attrOf d "nominal_voltage".toList = none ∧ r.1.voltage = none) ∨
    ∃ v, Value flt d "nominal_voltage".toList v ∧ r.1.voltage = some v
  phases : List.Forall₂ (PhaseSays flt cpx schedules d) (lettersOf d) r.1.phaseLoads

/-- the base power is missing, or a number, or a product of a number and the value of a schedule -/
def BaseClean (flt : Text → Option K) (schedules : List (Text × Text)) (d : Decl) (c : Char) : Prop :=
  ∀ t, attrOf d (ofPhase "base_power".toList c) = some t → (flt t).isSome ∨
    ∃ a b, Factors t a b ∧ (∀ v, scheduleValue schedules a = some v → (flt v).isSome ∧ (flt b).isSome) ∧
      ∀ v, scheduleValue schedules b = some v → (flt v).isSome ∧ (flt a).isSome

/-- all numbers of the load can be read -/
structure CleanLoad (flt : Text → Option K) (cpx : Text → Option (Cx K)) (schedules : List (Text × Text)) (d : Decl) : Prop where
  voltage : Clean flt d "nominal_voltage".toList
  complex : ∀ c ∈ lettersOf d, ∀ k ∈ ["constant_power".toList, "constant_impedance".toList, "constant_current".toList, "voltage".toList],
    Clean cpx d (ofPhase k c)
  shares : ∀ c ∈ lettersOf d, ∀ k ∈ zipAttrs, Clean flt d (ofPhase k c)
  base : ∀ c ∈ lettersOf d, BaseClean flt schedules d c

/-- the load has this phase, and `P` holds for it -/
def PhaseHas (r : GReadLoad K × Option (GReadNode K)) (c : Char) (P : GPhaseLoad K → Prop) : Prop :=
  (∃ l ∈ r.1.phaseLoads, l.phase = c) ∧ ∀ l ∈ r.1.phaseLoads, l.phase = c → P l

end numbers

end Ditto.Glm.Spec
