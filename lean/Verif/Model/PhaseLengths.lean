import Verif.Model.Metrics

/-! Lengths of lines and numbers of loads by phases: ditto/metrics/network_analysis.py. -/
namespace Ditto.Metrics
open Ditto

/-- does the line have wires, `x` of them with the phases A, B and C? ditto/metrics/network_analysis.py:2345-2352, 2369-2376 -/
def hasPhases (x : Int) (l : MLine) : Bool :=
  match l.wires with
  | none => false
  | some ws => decide (((ws.filter fun w => decide (w.phase ∈ [some "A", some "B", some "C"])).length : Int) = x)

/-- `length_mvXph_miles`: ditto/metrics/network_analysis.py:2335-2357, for an integer -/
def lengthMvPhases (x : Int) (objs : List MObj) : Py ℚ :=
  if 1 ≤ x ∧ x ≤ 3 then inMiles (sumLines (fun v => mvThreshold ≥ v ∧ v > lvThreshold) (hasPhases x) objs) else .error .valueError

/-- `length_lvXph_miles`: ditto/metrics/network_analysis.py:2359-2381, for an integer -/
def lengthLvPhases (x : Int) (objs : List MObj) : Py ℚ :=
  if 1 ≤ x ∧ x ≤ 3 then inMiles (sumLines (fun v => v ≤ lvThreshold) (hasPhases x) objs) else .error .valueError

/-- is it a load in the class of voltages, with `x` phase loads? ditto/metrics/network_analysis.py:2413-2417, 2425-2429 -/
def loadWith (inClass : ℚ → Bool) (x : Int) : MObj → Bool
  | .load l =>
    match l.voltage, l.phaseLoads with
    | some v, some pls => inClass v && decide ((pls.length : Int) = x)
    | _, _ => false
  | _ => false

/-- `number_of_loads_LV_Xph`: ditto/metrics/network_analysis.py:2405-2419, for an integer -/
def loadsLvPhases (x : Int) (objs : List MObj) : Py Nat :=
  if x ∈ [1, 3] then .ok (objs.filter (loadWith (fun v => v ≤ lvThreshold) x)).length else .error .valueError

/-- `number_of_loads_MV_3ph`: ditto/metrics/network_analysis.py:2421-2431 -/
def loadsMvThree (objs : List MObj) : Nat := (objs.filter (loadWith (fun v => mvThreshold ≥ v ∧ v > lvThreshold) 3)).length

end Ditto.Metrics
