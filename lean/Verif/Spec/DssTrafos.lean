import Verif.Model.DssTrafos

/-! What is assumed of OpenDSS for transformers, and what has to be kept. -/
namespace Ditto.Spec
open Ditto Ditto.Dss

/-- OpenDSS reports what is written, winding by winding. It keeps one emergency rating for the transformer, the last that is given. The
load loss and the normal rating are assumed to be kept only if no resistance and no power of a winding is given (OpenDSS computes them from
these), and the powers of two windings only if they are equal. The reactances are reported in one array, in the order of the pairs of
windings (1,2), (1,3), (2,3), which are called XHL, XHT and XLT. -/
structure ReportsTrafo (t : TrafoText) (d : TrafoData) : Prop where
  name : ∀ n, t.name = some n → pyLower d.name = pyLower n
  enabled : d.enabled = true
  sub : d.sub = false
  windings : ∀ n, t.windings = some n → d.windings = some n ∧ d.buses.length = n ∧ d.conns.length = n ∧ d.kVs.length = n
  phases : ∀ n : Nat, t.phases = some (n : Int) → d.phases = some n
  loadloss : (∀ w ∈ t.wdgs, w.r = none) → ∀ v, t.loadloss = some v → d.loadloss = some v
  noload : ∀ v, t.noload = some v → d.noload = some v
  normhkva : (∀ w ∈ t.wdgs, w.kVA = none) → ∀ v, t.normhkva = some v → d.normhkva = some v
  bus : ∀ (i : Nat) w b ns, t.wdgs[i]? = some w → w.bus = (b, ns.map some) →
    ∃ b', pyLower b' = pyLower b ∧ d.buses[i]? = some (b', if ns = [] then none else some ns)
  conn : ∀ (i : Nat) w c, t.wdgs[i]? = some w → w.conn = some c → ∃ c', d.conns[i]? = some c' ∧ pyLower c' = c
  kV : ∀ (i : Nat) w v, t.wdgs[i]? = some w → w.kV = some v → d.kVs[i]? = some v
  kVA : (t.wdgs.length = 2 → ∀ w ∈ t.wdgs, ∀ w' ∈ t.wdgs, w.kVA = w'.kVA) →
    ∀ (i : Nat) w v, t.wdgs[i]? = some w → w.kVA = some v → d.kVAs[i]? = some v
  r : ∀ (i : Nat) w v, t.wdgs[i]? = some w → w.r = some v → d.rs[i]? = some v
  tap : ∀ (i : Nat) w v, t.wdgs[i]? = some w → w.tap = some v → d.taps[i]? = some v
  emerg : ∀ v, (t.wdgs.filterMap (·.emerg)).getLast? = some v → d.emerg = some v
  xsc2 : t.wdgs.length = 2 → ∀ x, t.xhl = some x → d.xsc = some [x]
  xsc3 : t.wdgs.length = 3 → ∀ hl ht lt, t.xhl = some hl → t.xht = some ht → t.xlt = some lt → d.xsc = some [hl, ht, lt]

/-- what a winding has to keep besides its phases and its rating -/
structure WindingKept (taps : Bool) (w w' : TWinding) : Prop where
  conn : w'.conn = w.conn
  nominal : w'.nominal = w.nominal
  resistance : ∀ v, w.resistance = some v → w'.resistance = some v
  tap : taps = true → ∀ p v, w.pws.head? = some p → p.tap = some v → ∀ p' ∈ w'.pws, p'.tap = some v

/-- a transformer `n` with two windings from `f` to `e`, in wye or delta, whose voltages are known -/
structure TwoWindings (t : DTrafo) (n f e : String) (w1 w2 : TWinding) : Prop where
  name : t.name = some n
  from_el : t.fromEl = some f
  to_el : t.toEl = some e
  windings : t.windings = [w1, w2]
  conn1 : w1.conn = some "Y" ∨ w1.conn = some "D"
  conn2 : w2.conn = some "Y" ∨ w2.conn = some "D"
  nominal1 : w1.nominal.isSome = true
  nominal2 : w2.nominal.isSome = true

/-- a center tap `n` from `f` to `e`, in wye or delta, whose voltages are known -/
structure CenterTap (t : DTrafo) (n f e : String) (w1 w2 w3 : TWinding) : Prop where
  name : t.name = some n
  from_el : t.fromEl = some f
  to_el : t.toEl = some e
  windings : t.windings = [w1, w2, w3]
  center : t.centerTap = true
  conn1 : w1.conn = some "Y" ∨ w1.conn = some "D"
  conn2 : w2.conn = some "Y" ∨ w2.conn = some "D"
  conn3 : w3.conn = some "Y" ∨ w3.conn = some "D"
  nominal1 : w1.nominal.isSome = true
  nominal2 : w2.nominal.isSome = true
  nominal3 : w3.nominal.isSome = true

/-- the transformer `r` is read from files in which `t` was written; `seen` are the names of the objects read before -/
def ReadBack (taps : Bool) (seen : List String) (t r : DTrafo) : Prop :=
  ∃ text d st st', writeTrafo taps t = .ok text ∧ ReportsTrafo text d ∧ (∀ n, t.name = some n → pyLower n ∉ seen) ∧
    readTrafo seen st d = .ok (some (st', r))

/-- the phases of a winding -/
def phasesOf (w : TWinding) : List (Option String) := w.pws.map (·.phase)

end Ditto.Spec
