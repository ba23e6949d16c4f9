import Verif.Model.GlmLoads

/-! Loads in the GridLAB-D writer: `write_loads` in ditto/writers/gridlabd/write.py. `shown` prints a number of type `float`, and `showCx` one
of type `complex`, as `str` does. -/
namespace Ditto.Glm
open Ditto

/-- the attributes of a `PhaseLoad` that are written: ditto/models/phase_load.py:20-74 -/
structure WPhaseLoad (K : Type) where
  phase : Option Text
  p : Option K
  q : Option K
  useZip : Option Int := some 0
  pcurrent : Option K := none
  qcurrent : Option K := none
  ppower : Option K := none
  qpower : Option K := none
  pimpedance : Option K := none
  qimpedance : Option K := none
deriving DecidableEq

/-- the attributes of a `Load` that are written: ditto/models/load.py:22-62 -/
structure WLoad (K : Type) where
  name : Option Text
  voltage : Option K
  element : Option Text
  phaseLoads : List (WPhaseLoad K)
deriving DecidableEq

/-- `t.strip("()")` -/
def stripParens (t : Text) : Text :=
  ((t.dropWhile fun c => c = '(' ∨ c = ')').reverse.dropWhile fun c => c = '(' ∨ c = ')').reverse

section numbers
variable {K : Type} [Field K] [DecidableEq K] (shown : K → Text) (showCx : Cx K → Text)

/-- a fraction and its power factor: ditto/writers/gridlabd/write.py:275-292 for currents, 293-307 for powers, 308-328 for impedances -/
def fractionRows (kind ph : Text) : Option K → Option K → Py (List Text)
  | some p, some q =>
    if p + q = 0 then .error .zeroDivisionError
    else .ok [entryRow four (kind ++ "_fraction_".toList ++ ph) (shown (p + q)), entryRow four (kind ++ "_pf_".toList ++ ph) (shown (p / (p + q)))]
  | _, _ => .error .typeError

/-- the base power: ditto/writers/gridlabd/write.py:329-333 -/
def baseRow (ph : Text) : Option K → Option K → Py (List Text)
  | some p, some q => .ok [entryRow four ("base_power_".toList ++ ph) (showCx ⟨p, q⟩)]
  | _, _ => .error .typeError

/-- a ZIP load: ditto/writers/gridlabd/write.py:272-333 -/
def zipRows (ph : Text) (j : WPhaseLoad K) : Py (List Text) :=
  match fractionRows shown "current".toList ph j.pcurrent j.qcurrent with
  | .error e => .error e
  | .ok a =>
    match fractionRows shown "power".toList ph j.ppower j.qpower with
    | .error e => .error e
    | .ok b =>
      match fractionRows shown "impedance".toList ph j.pimpedance j.qimpedance with
      | .error e => .error e
      | .ok c =>
        match baseRow showCx ph j.p j.q with
        | .error e => .error e
        | .ok d => .ok (a ++ b ++ c ++ d)

/-- a load that is no ZIP load: ditto/writers/gridlabd/write.py:335-349 -/
def constantRows (ph : Text) : Option K → Option K → List Text
  | some p, some q => [entryRow four ("constant_power_".toList ++ ph) (stripParens (showCx ⟨p, q⟩))]
  | _, _ => []

/-- one phase: ditto/writers/gridlabd/write.py:268-349. The text with all phases (lines 266, 269) is not represented: it is never written. -/
def phaseLoadRows (j : WPhaseLoad K) : Py (List Text) :=
  match j.phase with
  | none => .ok []
  | some ph =>
    match j.useZip with
    | none => .ok []
    | some z => if z = 1 then zipRows shown showCx ph j else .ok (constantRows showCx ph j.p j.q)

/-- all phases: ditto/writers/gridlabd/write.py:265-349 -/
def phaseLoadsRows : List (WPhaseLoad K) → Py (List Text)
  | [] => .ok []
  | j :: js =>
    match phaseLoadRows shown showCx j with
    | .error e => .error e
    | .ok a =>
      match phaseLoadsRows js with
      | .error e => .error e
      | .ok b => .ok (a ++ b)

/-- an attribute that may be missing -/
def optRows (k : Text) : Option Text → List Text
  | none => []
  | some v => [entryRow four k v]

/-- name, voltage and parent: ditto/writers/gridlabd/write.py:253-263 -/
def loadHeadRows (l : WLoad K) : List Text :=
  optRows "name".toList (l.name.map ('n' :: ·)) ++ optRows "nominal_voltage".toList (l.voltage.map shown) ++
    optRows "parent".toList (l.element.map ('n' :: ·))

/-- one load: ditto/writers/gridlabd/write.py:251-351 -/
def loadRows (l : WLoad K) : Py (List Text) :=
  match phaseLoadsRows shown showCx l.phaseLoads with
  | .error e => .error e
  | .ok rows => .ok ("object load {".toList :: (loadHeadRows shown l ++ rows) ++ ["};".toList, []])

/-- `write_loads`: ditto/writers/gridlabd/write.py:249-351 -/
def writeLoadRows : List (WLoad K) → Py (List Text)
  | [] => .ok []
  | l :: ls =>
    match loadRows shown showCx l with
    | .error e => .error e
    | .ok a =>
      match writeLoadRows ls with
      | .error e => .error e
      | .ok b => .ok (a ++ b)

end numbers

end Ditto.Glm
