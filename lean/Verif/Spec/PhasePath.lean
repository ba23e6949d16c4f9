import Verif.Model.PhasePath
import Verif.Spec.ClosedLink

/-! Devices along a path, and the loads they serve. -/
namespace Ditto.Net
open Ditto.Spec

/-- no two objects have the same two terminals -/
def NoParallel (objs : List NetObj) : Prop :=
  objs.Pairwise fun o o' => ∀ a b, TwoTerminal o a b → ¬ TwoTerminal o' a b

/-- `ds` are devices that join the consecutive nodes of the path -/
inductive Along (devs : List Dev) : List String → List Dev → Prop
  | single (x : String) : Along devs [x] []
  | cons {a b : String} {p : List String} {d : Dev} {ds : List Dev} :
      d ∈ devs → TwoTerminal d.net a b → Along devs (b :: p) ds → Along devs (a :: b :: p) (d :: ds)

/-- a transformer that is not in a substation -/
def Distribution (d : Dev) : Prop := d.net.cls = "PowerTransformer" ∧ d.isSub = false

instance (d : Dev) : Decidable (Distribution d) := by unfold Distribution; infer_instance

/-- Conditions under which a path has definite devices: objects have different names, no two are in parallel, exactly the
objects of class `Line` are lines. -/
structure Tidy (devs : List Dev) : Prop where
  named : ∀ d ∈ devs, d.net.name ≠ none
  names : (devs.map (·.net.name)).Nodup
  parallel : NoParallel (netList devs)
  lines : ∀ d ∈ devs, d.net.isLine = true ↔ d.net.cls = "Line"

/-- The path from the source `s` to the load follows devices, and the network as built (open switches included) orients them
along the path. -/
def Routed (devs : List Dev) (s : String) (l : Dev) : Prop :=
  ∀ c p, l.net.connecting = some c → IsSimplePath (ClosedLink (netList devs)) s c p →
    ∃ ds n, Along devs p ds ∧ build (netList devs) s = .ok n ∧ p.IsChain (fun a b => ∃ e ∈ n.digraph, e.u = a ∧ e.v = b)

/-- the only distribution transformer on a path between the source and the load is `t` -/
def Serves (devs : List Dev) (s : String) (t l : Dev) : Prop :=
  ∃ c p ds, l.net.connecting = some c ∧ IsSimplePath (ClosedLink (netList devs)) s c p ∧ Along devs p ds ∧
    ds.filter (fun d => Distribution d) = [t]

/-- phases of a line without the neutral -/
def livePhases (d : Dev) : List (Option String) := d.wirePhases.filter (· ≠ some "N")

/-- the numbers of phases of the lines among the devices -/
def phaseCounts (ds : List Dev) : List Nat := (ds.filter fun d => d.net.cls = "Line").map fun d => (livePhases d).length

/-- What the check accepts of a path without distribution transformer: none is needed, and from three phases at the source the
number of phases of the lines never increases. -/
def NoneOk (needs : Bool) (ds : List Dev) : Prop :=
  needs = false ∧ (3 :: phaseCounts ds).IsChain (· ≥ ·)

/-- What the check accepts of a path with the distribution transformer `t` after `up` and before `down`: the first device below it
that is no transformer (skipping those of substations) starts at its `to_element`; the lines below have the phases of its second
winding; the lines above have all phases of its first winding, and their number of phases never increases. -/
def OneOk (p : List String) (up : List Dev) (t : Dev) (down : List Dev) : Prop :=
  (∃ subs d rest, down = subs ++ d :: rest ∧ (∀ x ∈ subs, x.net.cls = "PowerTransformer") ∧
    d.net.cls ≠ "PowerTransformer" ∧ t.net.toEl ≠ none ∧ t.net.toEl = p[up.length + 1 + subs.length]?) ∧
  (∃ w0 w1 rest, t.windings = w0 :: w1 :: rest ∧
    (∀ d ∈ down, d.net.cls = "Line" → ∀ x, x ∈ livePhases d ↔ x ∈ w1.phases) ∧
    (∀ d ∈ up, d.net.cls = "Line" → ∀ x ∈ w0.phases, x ∈ livePhases d)) ∧
  (3 :: phaseCounts up).IsChain (· ≥ ·)

/-- what the check accepts of a path -/
def PathOk (needs : Bool) (p : List String) (ds : List Dev) : Prop :=
  ((∀ d ∈ ds, ¬ Distribution d) ∧ NoneOk needs ds) ∨
  (∃ up t down, ds = up ++ t :: down ∧ Distribution t ∧ (∀ d ∈ up, ¬ Distribution d) ∧ (∀ d ∈ down, ¬ Distribution d) ∧
    OneOk p up t down) ∨
  (ds.filter fun d => Distribution d).length = 2

/-- active power of a load in kW -/
def demand (l : Dev) : ℚ := (l.phaseLoads.filterMap id).sum / 1000

/-- The rating of the windings after a transformer with the given total load in kW has been looked at: unchanged if the first
winding covers the load or no catalogue size is above it, else the least catalogue size above the load, for all windings. -/
def Resized (total : ℚ) (ws ws' : List Winding) : Prop :=
  ∃ w0 rest r, ws = w0 :: rest ∧ w0.rated = some r ∧
    ((total ≤ r / 1000 ∨ ∀ sz ∈ catalogue, sz ≤ total) ∧ ws' = ws ∨
      r / 1000 < total ∧ ∃ sz ∈ catalogue, total < sz ∧ (∀ sz' ∈ catalogue, total < sz' → sz ≤ sz') ∧
        ws' = ws.map fun w => { w with rated := some (sz * 1000) })

end Ditto.Net
