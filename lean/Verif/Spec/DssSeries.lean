import Verif.Model.DssSeries
import Verif.Spec.DssFiles

/-! What it means that time series are written. -/
namespace Ditto.Spec
open Ditto Ditto.Dss

/-- a series with a label and a file of data, which is not to be scaled; `unit`: the factor one is given -/
structure PlainSeries (K : Type) where
  label : String
  file : String
  kvar : Option String := none
  unit : Bool := true
  interval : Option K := none
  feeder : Option String := none
  substation : Option String := none
deriving DecidableEq, Repr

/-- the object of the model -/
def PlainSeries.object {K : Type} [Field K] (s : PlainSeries K) : DSeries K :=
  ⟨some s.label, some s.file, s.kvar, if s.unit then some 1 else none, s.interval, s.feeder, s.substation⟩

/-- substation and feeder of a series, as of other objects -/
def seriesGroup {K : Type} (sf ss : Bool) (s : PlainSeries K) : String × String :=
  ((if ss then s.substation.getD "DEFAULT" else "DEFAULT"), (if sf then s.feeder.getD "DEFAULT" else "DEFAULT"))

/-- the shape of a series: its label, the number of rows of its file, its interval (one hour if there is none), and its file -/
def shapeOf {K : Type} [Field K] (rows : String → List (List K)) (s : PlainSeries K) : ShapeText K :=
  ⟨s.label, (rows s.file).length, s.interval.getD 1, s.file, s.kvar.getD ""⟩

/-- the series as an object that is written -/
def seriesItem {K : Type} [Field K] (rows : String → List (List K)) (s : PlainSeries K) : Item (ShapeText K) :=
  ⟨s.feeder, s.substation, some (shapeOf rows s)⟩

/-- series of one group with the same file -/
def SameData {K : Type} (sf ss : Bool) (a b : PlainSeries K) : Prop := seriesGroup sf ss a = seriesGroup sf ss b ∧ a.file = b.file

instance {K : Type} (sf ss : Bool) (a b : PlainSeries K) : Decidable (SameData sf ss a b) := by unfold SameData; infer_instance

/-- the first series of each file in each group, in the order of the model -/
def firstSeries {K : Type} (sf ss : Bool) (series : List (PlainSeries K)) : List (PlainSeries K) :=
  series.foldl (fun kept s => if ∃ a ∈ kept, SameData sf ss a s then kept else kept ++ [s]) []

/-- data of a day: one row for each hour, minute or second -/
def Daily (n : Nat) : Prop := n = 24 ∨ n = 1440 ∨ n = 86400

instance (n : Nat) : Decidable (Daily n) := by unfold Daily; infer_instance

end Ditto.Spec
