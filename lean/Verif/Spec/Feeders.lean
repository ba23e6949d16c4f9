import Verif.Model.Feeders
import Verif.Spec.Walk
import Verif.Spec.Connect
import Verif.Props.Network

/-! Feeders: what lies below a substation. -/
namespace Ditto.Net
open Ditto.Spec

/-- `x` is a node at or below `t`, or the equipment between two such nodes -/
def Below (n : Network) (t x : String) : Prop :=
  Reach (Directed n) t x ∨ ∃ u v ty, Reach (Directed n) t u ∧ Directed n u v ∧ n.graph.equipOf u v = some (ty, some x)

/-- `elt` is a substation transformer called `nm` with something below its `to_element` `t`, but no other substation: the head of a
feeder -/
structure FeederHead (n : Network) (devs : List FeedDev) (elt : FeedDev) (nm t : String) : Prop where
  mem : elt ∈ devs
  cls : elt.net.cls = "PowerTransformer"
  sub : elt.isSub = true
  name : elt.net.name = some nm
  toEl : elt.net.toEl = some t
  feeds : ∃ y, Directed n t y
  lowest : ∀ d ∈ devs, ∀ x, d.net.name = some x → Below n t x → d.isSub = false

/-- the object with the names of a feeder -/
def FeedDev.onFeeder (d : FeedDev) (nm : String) : FeedDev := { d with substation := some nm, feeder := some ("Feeder_" ++ nm) }

/-- `d'` is `d`, but names that were not set before may be set -/
structure Kept (d d' : FeedDev) : Prop where
  net : d'.net = d.net
  isSub : d'.isSub = d.isSub
  hasNames : d'.hasNames = d.hasNames
  substation : ∀ x, d.substation = some x → x ≠ "" → d'.substation = some x
  feeder : ∀ x, d.feeder = some x → x ≠ "" → d'.feeder = some x

/-- the object called `x` has the attributes for the names of a feeder, and they are not set -/
def Free (devs : List FeedDev) (x : String) : Prop :=
  ∃ d ∈ devs, d.net.name = some x ∧ d.hasNames = true ∧ isSet d.substation = false ∧ isSet d.feeder = false

/-- what a model needs in order that its feeders can be named -/
structure Feedable (n : Network) (devs : List FeedDev) : Prop where
  /-- the `to_element` of a substation is a node of the directed graph, and below it the nodes and the equipment are objects of the
  model -/
  known : ∀ elt ∈ devs, elt.net.cls = "PowerTransformer" → elt.isSub = true → ∃ t, elt.net.toEl = some t ∧
    (∃ y, Directed n t y ∨ Directed n y t) ∧
    ∀ u v, Reach (Directed n) t u → Directed n u v → (∃ d ∈ devs, d.net.name = some u) ∧ (∃ d ∈ devs, d.net.name = some v) ∧
      ∀ ty nm, n.graph.equipOf u v = some (ty, nm) → ∃ d ∈ devs, d.net.name = nm
  /-- below the head of a feeder no name is set -/
  free : ∀ elt nm t, FeederHead n devs elt nm t → ∀ x, Below n t x → Free devs x
  /-- nothing is on two feeders -/
  disjoint : ∀ elt elt' nm nm' t t', FeederHead n devs elt nm t → FeederHead n devs elt' nm' t' →
    ∀ x, Below n t x → Below n t' x → elt = elt'

end Ditto.Net
