import Verif.Model.CenterTap
import Verif.Spec.Route

/-! Center taps: what the loads should be. -/
namespace Ditto.Net

/-- the phase loads that are written -/
def active (pls : List PhaseLoad) : List PhaseLoad := pls.filter fun pl => !pl.drop

/-- the phase loads have the total active power `v` -/
def TotalP (pls : List PhaseLoad) (v : ℚ) : Prop :=
  ∃ vs : List ℚ, pls.map (·.p) = vs.map some ∧ v = vs.sum

/-- the phase loads have the total reactive power `v` -/
def TotalQ (pls : List PhaseLoad) (v : ℚ) : Prop :=
  ∃ vs : List ℚ, pls.map (·.q) = vs.map some ∧ v = vs.sum

/-- the equipment of the edge is a transformer called `nm` -/
def TrafoEdge (n : Network) (e : Edge) (nm : Option String) : Prop := n.graph.equipOf e.u e.v = some ("PowerTransformer", nm)

/-- `t` is the last transformer on the route, and `lines` are the lines after it, beginning with the last -/
def AboveOn (n : Network) (es : List Edge) (t : Option String) (lines : List (Option String)) : Prop :=
  ∃ pre e post, es = pre ++ e :: post ∧ TrafoEdge n e t ∧ (∀ e' ∈ post, ∀ nm, ¬ TrafoEdge n e' nm) ∧
    lines = post.reverse.filterMap fun e' => (n.graph.equipOf e'.u e'.v).bind fun q => if q.1 = "Line" then some q.2 else none

/-- `ph` are the phases of the windings of the transformer `t` -/
def PhasesOf (devs : List TapDev) (t : Option String) (ph : List (Option String)) : Prop :=
  ∃ d ∈ devs, d.net.name = t ∧ ph.Nodup ∧ ∀ p, p ∈ ph ↔ ∃ w ∈ d.windings, p ∈ w

/-- the phase loads `pls'` are what has to become of `pls` below a transformer with the phases `ph` -/
structure Retapped (ph : List (Option String)) (pls pls' : List PhaseLoad) : Prop where
  /-- the phase loads are kept in order, and new ones come after them -/
  kept : ∃ new, pls'.map (·.phase) = pls.map (·.phase) ++ new ∧ ∀ p, p ∈ new ↔ p ∈ ph ∧ p ∉ pls.map (·.phase)
  /-- what is written has a phase of the transformer -/
  phases : ∀ pl ∈ active pls', pl.phase ∈ ph
  /-- what had such a phase and was written before, still is -/
  stays : ∀ p, p ∈ ph → (p ∈ (active pls).map (·.phase) ∨ p ∉ pls.map (·.phase)) → p ∈ (active pls').map (·.phase)
  /-- the power is that of all the phase loads before, -/
  power : ∀ v, TotalP pls v → TotalP (active pls') v
  reactive : ∀ v, TotalQ pls v → TotalQ (active pls') v
  /-- in equal parts -/
  equal : ∀ pl ∈ pls', ∀ pl' ∈ pls', pl.p = pl'.p ∧ pl.q = pl'.q

/-- the wires `ws'` are what has to become of the wires `ws` of a line below a transformer with the phases `ph` -/
structure Rewired (ph : List (Option String)) (ws ws' : List TapWire) : Prop where
  /-- the wires are kept in order, and new ones, which are written, come after them -/
  kept : ∃ old new, ws' = old ++ new ∧ old.map (·.phase) = ws.map (·.phase) ∧ (∀ w ∈ new, w.drop = false) ∧
    ∀ p, p ∈ new.map (·.phase) ↔ p ∈ ph ∧ p ∉ ws.map (·.phase)
  /-- what is written is neutral or has a phase of the transformer -/
  phases : ∀ w ∈ ws', w.drop = false → w.phase ∈ [some "N", some "N1", some "N2"] ∨ w.phase ∈ ph
  /-- nothing else is dropped -/
  stays : ∀ w ∈ ws, w.phase ∈ [some "N", some "N1", some "N2"] ∨ w.phase ∈ ph → w ∈ ws'

end Ditto.Net
