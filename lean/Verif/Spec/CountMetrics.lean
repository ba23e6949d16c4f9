import Verif.Spec.Metrics

/-! What the numbers of objects in the metrics are. -/
namespace Ditto.Metrics
open Ditto

/-- the dictionary has the keys with `f k > 0`, each once and with the value `f k` -/
def Counts (d : Counter) (f : Option String → Nat) : Prop := (d.map (·.1)).Nodup ∧ ∀ k n, (k, n) ∈ d ↔ 0 < n ∧ n = f k

/-- the first two windings have different known voltages -/
def Distribution (w0 w1 : MWinding) : Prop := ∃ v0 v1, w0.voltage = some v0 ∧ w1.voltage = some v1 ∧ v0 ≠ v1

/-- a transformer between different voltages, with the primary `w` -/
def IsDistribution (w : MWinding) (o : MObj) : Prop := ∃ w' rest, o = .transformer (some (w :: w' :: rest)) ∧ Distribution w w'

open Classical in
/-- the primaries of the transformers between different voltages -/
noncomputable def primaries (objs : List MObj) : List MWinding := objs.filterMap fun o => match o with
  | .transformer (some (w :: w' :: _)) => if Distribution w w' then some w else none
  | _ => none

def nRegulators (objs : List MObj) : Nat := (objs.filter fun o => o = .regulator).length
def nCapacitors (objs : List MObj) : Nat := (objs.filter fun o => o = .capacitor).length

/-- the numbers of lines and of loads with a property -/
def nLines (p : MLine → Bool) (objs : List MObj) : Nat := ((linesOf objs).filter p).length
open Classical in
noncomputable def nLoads (P : MLoad → Prop) (objs : List MObj) : Nat := ((loadsOf objs).filter fun l => P l).length

/-- all wires of all lines -/
def allWires (objs : List MObj) : List MWire := (linesOf objs).flatMap fun l => match l.wires with
  | none => []
  | some ws => ws

end Ditto.Metrics
