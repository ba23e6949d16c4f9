import Verif.Model.DssRegs

/-! What is assumed of OpenDSS for regulators. -/
namespace Ditto.Spec
open Ditto Ditto.Dss

/-- OpenDSS reports what is written; if a value is given twice it reports the last. -/
structure ReportsReg (t : RegText) (d : RegData) : Prop where
  enabled : d.enabled = true
  name : pyLower d.name = pyLower t.name
  transformer : ∃ x, d.transformer = some x ∧ pyLower x = pyLower t.transformer
  winding : d.winding = some t.winding
  ct : ∀ v, t.ct = some v → d.ct = some v
  delay : ∀ v, t.delay = some v → d.delay = some v
  ptratio : ∀ v, t.ptratio = some v → d.ptratio = some v
  band : ∀ v, t.band = some v → d.band = some v
  vlimit : ∀ v, t.vlimit = some v → d.vlimit = some v
  vreg : ∀ v, t.vregs.getLast? = some v → d.vreg = some v
  vregInt : ∀ k : Int, d.vregInt = some k → d.vreg = some (k : ℚ)
  ptPhase : ∀ n : Nat, t.ptPhase = some (some n) → d.ptPhase = some (n : Int)
  r : ∀ v, t.r = some v → d.r = some v
  x : ∀ v, t.x = some v → d.x = some v

/-- OpenDSS reports a transformer that was made for a regulator as it is written, with its name in lower case. Lists are kept if they have
an item for each winding; the powers of two windings are kept if they are equal. Each winding has a tap. -/
structure ReportsNew (t : NewTrafo) (d : TrafoData) : Prop where
  name : d.name = pyLower t.name
  enabled : d.enabled = true
  windings : d.windings = some t.windings
  taps : d.taps.length = t.windings
  buses : t.windings = 2 → ∀ a b ns, t.buses = some (a, b, ns.map some) → ns ≠ [] →
    ∃ a' b', pyLower a' = pyLower a ∧ pyLower b' = pyLower b ∧ d.buses = [(a', some ns), (b', some ns)]
  conns : t.conns.length = t.windings → d.conns.map pyLower = t.conns.map pyLower
  kVs : t.kVs.length = t.windings → d.kVs = t.kVs
  kVAs : t.kVAs.length = t.windings → (∀ x ∈ t.kVAs, ∀ y ∈ t.kVAs, x = y) → d.kVAs = t.kVAs
  emerg : ∀ v, t.emerg = some v → d.emerg = some v
  xsc : t.windings = 2 → ∀ x, t.xhl = some x → d.xsc = some [x]

/-- the regulator `r` is read from files in which `t` was written; `new` is the transformer that was made for it, if there is one -/
def RegReadBack (pick : List ℚ → Option ℚ) (comps : List CompSource) (parsed : List DTrafo) (ts : List TrafoData) (new : Option NewTrafo)
    (t r : DReg) : Prop :=
  ∃ text d st v, writeReg pick comps t = .ok (some (text, new)) ∧ ReportsReg text d ∧ readReg parsed ts st d = .ok (some (v, r))

/-- the transformer `new` is reported as `td` and read as `tr`, and no other has its name -/
structure NewRead (new : NewTrafo) (parsed : List DTrafo) (ts : List TrafoData) (td : TrafoData) (tr : DTrafo) : Prop where
  reports : ReportsNew new td
  mem : td ∈ ts
  only : ∀ x ∈ ts, x.name = td.name → x = td
  read : ∃ seen st st', pyLower td.name ∉ seen ∧ readTrafo seen st td = .ok (some (st', tr))
  mem' : tr ∈ parsed
  only' : ∀ x ∈ parsed, x.name = tr.name → x = tr

/-- a regulator from `f` to `e` without a transformer, with two windings in wye or delta whose voltages are known -/
structure OwnTrafo (t : DReg) (f e : String) (w1 w2 : RWinding) : Prop where
  alone : t.connected = none
  from_el : t.fromEl = some f
  to_el : t.toEl = some e
  windings : t.windings = [w1, w2]
  conn1 : w1.conn = some "Y" ∨ w1.conn = some "D"
  conn2 : w2.conn = some "Y" ∨ w2.conn = some "D"
  nominal1 : w1.nominal.isSome = true
  nominal2 : w2.nominal.isSome = true

/-- the phases of a winding of a regulator -/
def regPhasesOf (w : RWinding) : List (Option String) := w.pws.map (·.phase)

end Ditto.Spec
