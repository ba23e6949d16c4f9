import Verif.Spec.CymeLoads
import Verif.Spec.CymeSources
import Verif.Model.CymeLoadFile

/-! What the tables of the load file of CYME say, independent of the reader. -/
namespace Ditto.Cyme.Spec
open Ditto Glm Cyme

/-- a cell with a number -/
def NumberCell {N : Type} (num : Text → Option N) (cols row : List Text) (k : Text) (x : N) : Prop := ∃ c, Cell cols row k c ∧ num c = some x

/-- the row of the customer loads says this -/
structure RowDemand (num : Text → Option ℝ) (int : Text → Option ℤ) (cols row : List Text) (d : Demand) : Prop where
  section_ : d.sec = (keyOf row).map Char.toLower
  phases : Inner cols row "loadphase".toList d.phases ∧ d.phases ≠ []
  users : NumberCell num cols row "numberofcustomer".toList d.users
  connected : (¬∃ c, Cell cols row "connectedkva".toList c) ∧ d.connected = none ∨ ∃ x, NumberCell num cols row "connectedkva".toList x ∧ d.connected = some x
  values : ∃ t a b, NumberCell int cols row "valuetype".toList t ∧ NumberCell num cols row "value1".toList a ∧ NumberCell num cols row "value2".toList b ∧
    Stated d.connected t a b d.p d.q

/-- for each key, whether an earlier one is the same -/
def repeats : List Text → List Text → List Bool
  | _, [] => []
  | done, k :: ks => decide (k ∈ done) :: repeats (done ++ [k]) ks

/-- the load has what the rows say, and the connection of the row of the loads -/
structure ServesFile (secs : List (Text × Values)) (feeders : List (Text × Text)) (lcols : List Text) (lrows : List (List Text)) (sec : Text)
    (ds : List Demand) (l : LoadRec) : Prop where
  name : l.name = "Load_".toList ++ sec ++ (ds.flatMap (·.phases)).flatMap fun ph => ['_', ph]
  phases : l.phases.map (fun x => (x.phase, x.powers)) = shares ds
  feeder : l.feeder = getEntry sec feeders
  element : l.element = (getEntry sec secs).bind fun d => getEntry "fromnodeid".toList d
  connection : (∀ row c, FirstRow lrows sec row → Inner lcols row "connection".toList c → l.connection = wiring c) ∧
    ((∀ row ∈ lrows, keyOf row ≠ sec) → l.connection = none)
  users : l.users = (ds.getLast?).map (·.users)
  kva : l.kva = if ds.filterMap (·.connected) = [] then none else some (1000 * (ds.filterMap (·.connected)).sum)

end Ditto.Cyme.Spec
