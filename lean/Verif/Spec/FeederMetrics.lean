import Verif.Spec.CountMetrics

/-! The objects and metrics of feeders. -/
namespace Ditto.Metrics
open Ditto

/-- the objects of the feeder, in their order -/
def objsIn (f : String) (objs : List (Option String × MObj)) : List MObj :=
  (objs.filter fun o => o.1 = some f).map (·.2)

/-- the objects which are in one of the feeders -/
def objsInAny (fs : List String) (objs : List (Option String × MObj)) : List MObj :=
  (objs.filter fun o => ∃ f ∈ fs, o.1 = some f).map (·.2)

/-- the feeders with a substation -/
def withSubstation (subs : String → Option (Option String)) (fs : List String) : List String :=
  fs.filter fun f => subs f ≠ none ∧ subs f ≠ some none ∧ subs f ≠ some (some "")

end Ditto.Metrics
