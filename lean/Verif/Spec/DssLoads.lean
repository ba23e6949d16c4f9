import Verif.Model.DssLoads

/-! What is meant by the power of a load, and what is assumed of OpenDSS, which is between the written file and the reader. -/
namespace Ditto.Spec
open Ditto Ditto.Dss

/-- total active power: phases without a value count as 0 -/
def totalP {K : Type} [Field K] (ps : List (PLoad K)) : K := (ps.filterMap (·.p)).sum

/-- total reactive power -/
def totalQ {K : Type} [Field K] (ps : List (PLoad K)) : K := (ps.filterMap (·.q)).sum

/-- `sqrt` is the square root of the numbers that have one -/
def IsSqrt {K : Type} [Field K] [LinearOrder K] (sqrt : K → K) : Prop := ∀ x, 0 ≤ x → 0 ≤ sqrt x ∧ sqrt x * sqrt x = x

/-- The power factor of OpenDSS: P over the apparent power, negative if P and Q have opposite signs, 1 without any power. -/
def PowerFactor {K : Type} [Field K] [LinearOrder K] (P Q pf : K) : Prop :=
  pf ^ 2 * (P ^ 2 + Q ^ 2) = P ^ 2 ∧ 0 ≤ pf * (P * Q) ∧ (P = 0 → Q = 0 → pf = 1)

/-- OpenDSS reports what it has been given, in lower case, with the power factor for kvar. -/
structure Reports {K : Type} [Field K] [LinearOrder K] (t : LoadText K) (d : LoadData K) : Prop where
  enabled : d.enabled = true
  name : pyLower d.name = pyLower t.name
  bus : ∀ b ns, t.bus = some (b, ns.map some) → ∃ b', pyLower b' = pyLower b ∧ d.bus = some (b', if ns = [] then none else some ns)
  conn : ∀ c, t.conn = some c → ∃ c', pyLower c' = pyLower c ∧ d.conn = some c'
  kV : ∀ v, t.kV = some v → d.kV = some v
  vmin : ∀ v, t.vmin = some v → d.vmin = some v
  vmax : ∀ v, t.vmax = some v → d.vmax = some v
  phases : ∀ n, t.phases = some n → d.phases = some n
  model : ∀ m, t.model = some m → d.model = some m
  kW : ∀ P, t.kW = some P → d.kW = some P
  kVA : ∃ s, d.kVA = some s
  pf : ∀ P Q, t.kW = some P → t.kvar = some Q → ∃ pf, d.pf = some pf ∧ PowerFactor P Q pf
  zipv : d.zipv = none

end Ditto.Spec
