import Verif.Model.Metrics
import Mathlib.Analysis.Real.Sqrt

/-! What the metrics of a network are, independently of the way they are computed. -/
namespace Ditto.Metrics
open Ditto

/-- low voltage: at most 1 kV between phases -/
def Low (v : Option ℚ) : Prop := ∃ x, v = some x ∧ (x : ℝ) * √3 ≤ 1000

/-- medium voltage: more than 1 kV and less than 69 kV between phases -/
def Medium (v : Option ℚ) : Prop := ∃ x, v = some x ∧ 1000 < (x : ℝ) * √3 ∧ (x : ℝ) * √3 < 69000

def linesOf (objs : List MObj) : List MLine := objs.filterMap fun o => match o with
  | .line l => some l
  | _ => none

def loadsOf (objs : List MObj) : List MLoad := objs.filterMap fun o => match o with
  | .load l => some l
  | _ => none

/-- the line has `k` wires which are in use on one of the three phases -/
def HasPhases (k : Nat) (l : MLine) : Prop :=
  ∃ ws, l.wires = some ws ∧ (ws.filter fun w => w.dropped = false ∧ w.phase ∈ [some "A", some "B", some "C"]).length = k

def Overhead (l : MLine) : Prop := l.lineType = some "overhead"

open Classical in
/-- the total length, in metres, of the lines with the property; negative lengths are not lengths -/
noncomputable def totalLength (P : MLine → Prop) (objs : List MObj) : ℚ :=
  ((((linesOf objs).filter fun l => P l).filterMap (·.length)).filter fun x => 0 ≤ x).sum

/-- from metres to miles -/
def miles (x : ℚ) : ℚ := x * (621371 / 10 ^ 9)

/-- the reported lengths are those of the lines with the property `C` -/
structure LengthsOf (C : MLine → Prop) (objs : List MObj) (l : Lens) : Prop where
  total : l.total = miles (totalLength C objs)
  ph1 : l.ph1 = miles (totalLength (fun x => C x ∧ HasPhases 1 x) objs)
  ph2 : l.ph2 = miles (totalLength (fun x => C x ∧ HasPhases 2 x) objs)
  ph3 : l.ph3 = miles (totalLength (fun x => C x ∧ HasPhases 3 x) objs)
  oh1 : l.oh1 = miles (totalLength (fun x => C x ∧ HasPhases 1 x ∧ Overhead x) objs)
  oh2 : l.oh2 = miles (totalLength (fun x => C x ∧ HasPhases 2 x ∧ Overhead x) objs)
  oh3 : l.oh3 = miles (totalLength (fun x => C x ∧ HasPhases 3 x ∧ Overhead x) objs)

/-- the metrics can be computed for the object -/
def Analyzable : MObj → Prop
  | .line l => l.wires ≠ none ∧ (Low l.voltage ∨ Medium l.voltage → l.length ≠ none)
  | .load l => ∀ pls, l.phaseLoads = some pls → ∃ pl rest, pls = pl :: rest ∧ pl.p ≠ none ∧ pl.q ≠ none
  | .transformer (some [w]) => w.voltage = none
  | _ => True

/-- the phase loads in use -/
def live (l : MLoad) : List MPhaseLoad :=
  match l.phaseLoads with
  | none => []
  | some pls => pls.filter fun pl => pl.dropped = false

/-- the active and the reactive power of the phase loads, as far as known -/
def activePower (pls : List MPhaseLoad) : ℚ := (pls.filterMap (·.p)).sum
def reactivePower (pls : List MPhaseLoad) : ℚ := (pls.filterMap (·.q)).sum

/-- the phase loads on one phase -/
def onPhase (ph : String) (pls : List MPhaseLoad) : List MPhaseLoad := pls.filter fun pl => pl.phase = some ph

/-- the load has phase loads, of which those in use have no power, and the capacity of its transformer is known -/
def Estimated (l : MLoad) : Prop :=
  l.phaseLoads ≠ none ∧ (∀ pl ∈ live l, pl.p = some 0 ∧ pl.q = some 0) ∧ ∃ k, l.kva = some k ∧ k ≠ 0

open Classical in
/-- the demand of a load: the power of its phase loads in use, or the capacity of its transformer when estimated -/
noncomputable def demand (l : MLoad) : ℚ :=
  match l.kva with
  | some k => if Estimated l then k else activePower (live l)
  | none => activePower (live l)

open Classical in
/-- the demand on one phase, equally shared between the phase loads when estimated -/
noncomputable def phaseDemand (ph : String) (l : MLoad) : ℚ :=
  match l.kva with
  | some k => if Estimated l then (onPhase ph (live l)).length * (k / (live l).length) else activePower (onPhase ph (live l))
  | none => activePower (onPhase ph (live l))

open Classical in
/-- the loads of low voltage -/
noncomputable def lowLoads (objs : List MObj) : List MLoad := (loadsOf objs).filter fun l => Low l.voltage

end Ditto.Metrics
