import Verif.Model.Tag
import Verif.Spec.Route

/-! Feeders of objects. -/
namespace Ditto.Net

/-- On the route from the source `s` to `a`, before `a`, the last mapped node is `u`. -/
def NearestMapped (n : Network) (s : String) (mp : String → Option String) (a u : String) : Prop :=
  ∃ pre e post, Route n.digraph s (pre ++ e :: post) a ∧ e.u = u ∧ mp u ≠ none ∧ ∀ e' ∈ post, mp e'.u = none

/-- On the route from the source `s` to `a` no node before `a` is mapped. -/
def NoneMapped (n : Network) (s : String) (mp : String → Option String) (a : String) : Prop :=
  ∃ es, Route n.digraph s es a ∧ ∀ e ∈ es, mp e.u = none

/-- what becomes of the object `d` of the model `devs` -/
structure Tagged (n : Network) (s : String) (mp subs : String → Option String) (devs : List TagDev) (d d' : TagDev) : Prop where
  same : d'.net = d.net
  other : d.hasFeeder = false → d' = d
  /-- its node is mapped -/
  own : d.hasFeeder = true → ∀ a f, d.anchor = some a → mp a = some f → d'.feeder = some f ∧ d'.substation = (subs f).or d.substation
  /-- the nearest mapped node above is `u` -/
  above : d.hasFeeder = true → ∀ a u f, d.anchor = some a → mp a = none → NearestMapped n s mp a u → mp u = some f →
    d'.feeder = some f ∧ ∀ p ∈ devs, p.net.name = some u → d'.substation = (subs f).or p.substation
  /-- nothing is mapped -/
  unmapped : ∀ a, d.anchor = some a → mp a = none → NoneMapped n s mp a → d'.feeder = d.feeder ∧ d'.substation = d.substation
  /-- the time series of a mapped object are tagged like it -/
  series : d.net.cls ∈ oneTerminalClasses → d.anchor.bind mp ≠ none → d'.series = d.series.map fun _ => (d'.feeder, d'.substation)
  /-- the time series of other objects have the names that the object had before -/
  stale : d.net.cls ∈ oneTerminalClasses → d.anchor.bind mp = none → d'.series = d.series.map fun _ => (d.feeder, d.substation)

end Ditto.Net
