import Verif.Model.DssCaps

/-! What is assumed of OpenDSS for capacitors. -/
namespace Ditto.Spec
open Ditto Ditto.Dss

/-- total reactive power -/
def totalVar {K : Type} [Field K] (ps : List (PCap K)) : K := (ps.filterMap (·.var)).sum

/-- OpenDSS reports a control as it has been given. `spell` is how it writes the types. -/
structure ReportsControl {K : Type} (spell : String → String) (t : CtlText K) (c : CtlData K) : Prop where
  element : ∀ e, t.element = some e → c.element = some e
  delay : ∀ v, t.delay = some v → c.delay = some v
  type : ∀ m, t.type = some (some m) → c.type = some (spell m)
  vmin : ∀ v, t.vmin = some v → c.vmin = some v
  vmax : ∀ v, t.vmax = some v → c.vmax = some v
  pt : ∀ v, t.pt = some v → c.pt = some v
  ct : ∀ v, t.ct = some v → c.ct = some v
  ptPhase : ∀ n, t.ptPhase = some (some n) → c.ptPhase = some n

/-- OpenDSS reports a capacitor as it has been given, with kvar as a number or a single step, and its control, if it has one, as the only
one for it. -/
structure ReportsCap {K : Type} [Field K] (spell : String → String) (t : CapText K) (d : CapData K) (cs : List (CtlData K)) : Prop where
  enabled : d.enabled = true
  name : pyLower d.name = pyLower t.name
  bus : ∀ b ns, t.bus = some (b, ns) → ∃ b', pyLower b' = pyLower b ∧ d.bus = some (b', if ns = [] then none else some ns)
  conn : ∀ c, t.conn = some c → ∃ c', pyLower c' = pyLower c ∧ d.conn = some c'
  kV : ∀ v, t.kV = some v → d.kV = some v
  phases : ∀ n, t.phases = some n → d.phases = some n
  kvar : ∀ x, t.kvar = some x → d.kvar = .one x ∨ d.kvar = .steps [x]
  own : ∀ k, t.control = some k → ∃ c ∈ cs, pyLower c.capacitor = pyLower t.name
  control : ∀ c ∈ cs, pyLower c.capacitor = pyLower t.name → ∃ k, t.control = some k ∧ ReportsControl spell k c

end Ditto.Spec
