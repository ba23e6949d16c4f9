import Verif.Model.GlmNodes
import Mathlib.Algebra.Field.Defs

/-! Loads in GridLAB-D files: the part for loads of `parse` in ditto/readers/gridlabd/read.py. Numbers are exact. `flt` stands for `float` and
`cpx` for `complex`, which raise a `ValueError` where they give nothing. -/
namespace Ditto.Glm
open Ditto

/-- a number of the type `complex` -/
structure Cx (K : Type) where
  re : K
  im : K
deriving DecidableEq

/-- the six shares of a ZIP load: ditto/models/phase_load.py:53-74 -/
structure ZipShares (K : Type) where
  pcurrent : K
  qcurrent : K
  ppower : K
  qpower : K
  pimpedance : K
  qimpedance : K
deriving DecidableEq

/-- A `PhaseLoad`: ditto/models/phase_load.py:20-74. `shares` is nothing if the six shares are not set. -/
structure GPhaseLoad (K : Type) where
  phase : Char
  p : K
  q : K
  model : Nat := 1
  zip : Bool := false
  shares : Option (ZipShares K) := none
deriving DecidableEq

/-- A `Load` that is read: ditto/models/load.py:22-62. Its `connection_type` is not represented: it is never set. -/
structure GReadLoad (K : Type) where
  name : Text
  element : Option Text
  voltage : Option K
  phaseLoads : List (GPhaseLoad K)
deriving DecidableEq

/-- the name of an attribute of a phase -/
def phaseKey (k : Text) (c : Char) : Text := k ++ ['_', c]

/-- a number that is converted: a missing attribute raises an `AttributeError` (ditto/formats/gridlabd/base.py:22-28) -/
def readAs {V : Type} (conv : Text → Option V) (o : GldObj) (k : Text) : Py V :=
  match getEntry k o.attrs with
  | none => .error .attributeError
  | some t =>
    match conv t with
    | some v => .ok v
    | none => .error .valueError

/-- `except AttributeError: pass` -/
def passMissing {V : Type} : Py (Option V) → Py (Option V)
  | .ok v => .ok v
  | .error .attributeError => .ok none
  | .error e => .error e

section numbers
variable {K : Type} [Field K] [DecidableEq K]

/-- `z.conjugate()` -/
def Cx.conj (z : Cx K) : Cx K := ⟨z.re, -z.im⟩

/-- the product of complex numbers -/
def Cx.mul (a b : Cx K) : Cx K := ⟨a.re * b.re - a.im * b.im, a.re * b.im + a.im * b.re⟩

/-- a real number divided by a complex one -/
def Cx.under (x : K) (b : Cx K) : Cx K :=
  ⟨x * b.re / (b.re * b.re + b.im * b.im), -(x * b.im) / (b.re * b.re + b.im * b.im)⟩

/-- a load with constant power: ditto/readers/gridlabd/read.py:967-984, 1099-1115, 1227-1243 -/
def powerOf (cpx : Text → Option (Cx K)) (o : GldObj) (c : Char) : Py (Option (GPhaseLoad K)) :=
  match readAs cpx o (phaseKey "constant_power".toList c) with
  | .error e => .error e
  | .ok s => if s.re ≠ 0 then .ok (some { phase := c, p := s.re, q := s.im }) else .ok none

/-- the load of an impedance: ditto/readers/gridlabd/read.py:995-1018 -/
def impedanceLoad (c : Char) (v z : Cx K) : GPhaseLoad K where
  phase := c
  p := (Cx.under (v.re * v.re + v.im * v.im) z.conj).re
  q := (Cx.under (v.re * v.re + v.im * v.im) z.conj).im
  model := 2

/-- a load with constant impedance: ditto/readers/gridlabd/read.py:986-1022, 1117-1153, 1245-1281 -/
def impedanceOf (cpx : Text → Option (Cx K)) (o : GldObj) (c : Char) : Py (Option (GPhaseLoad K)) :=
  match readAs cpx o (phaseKey "constant_impedance".toList c) with
  | .error e => .error e
  | .ok z =>
    match readAs cpx o (phaseKey "voltage".toList c) with
    | .error e => .error e
    | .ok v => if z.re ≠ 0 then .ok (some (impedanceLoad c v z)) else .ok none

/-- the load of a current: ditto/readers/gridlabd/read.py:1030-1041 -/
def currentLoad (c : Char) (v i : Cx K) : GPhaseLoad K where
  phase := c
  p := (v.mul i.conj).re
  q := (v.mul i.conj).im
  model := 5

/-- a load with constant current: ditto/readers/gridlabd/read.py:1024-1045, 1155-1175, 1283-1303 -/
def currentOf (cpx : Text → Option (Cx K)) (o : GldObj) (c : Char) : Py (Option (GPhaseLoad K)) :=
  match readAs cpx o (phaseKey "constant_current".toList c) with
  | .error e => .error e
  | .ok i =>
    match readAs cpx o (phaseKey "voltage".toList c) with
    | .error e => .error e
    | .ok v => if i.re ≠ 0 then .ok (some (currentLoad c v i)) else .ok none

/-- the value of a schedule, multiplied: ditto/readers/gridlabd/read.py:1058-1060, 1062-1064 -/
def scheduled (flt : Text → Option K) (value : Text) : Option Text → Py K
  | factor =>
    match flt value with
    | none => .error .valueError
    | some x =>
      match factor with
      | none => .error .indexError
      | some t =>
        match flt t with
        | none => .error .valueError
        | some y => .ok (x * y)

/-- the first of the two assignments: ditto/readers/gridlabd/read.py:1057-1060 -/
def firstScheduled (flt : Text → Option K) (schedules : List (Text × Text)) (a : Text) (rest : List Text) : Py K :=
  match getEntry a schedules with
  | none => .ok 0
  | some v => scheduled flt v rest.head?

/-- a base power that is not a number: ditto/readers/gridlabd/read.py:1054-1064, 1183-1192, 1311-1320 -/
def productPower (flt : Text → Option K) (schedules : List (Text × Text)) : List Text → Py K
  | [] => .error .indexError
  | a :: rest =>
    match firstScheduled flt schedules a rest with
    | .error e => .error e
    | .ok p =>
      match rest with
      | [] => .error .indexError
      | b :: _ =>
        match getEntry b schedules with
        | none => .ok p
        | some v => scheduled flt v (some a)

/-- the base power of a phase: ditto/readers/gridlabd/read.py:1047-1064, 1177-1192, 1305-1320 -/
def basePower (flt : Text → Option K) (schedules : List (Text × Text)) (o : GldObj) (c : Char) : Py K :=
  match getEntry (phaseKey "base_power".toList c) o.attrs with
  | none => .ok 0
  | some t =>
    match flt t with
    | some p => .ok p
    | none => productPower flt schedules (Net.splitCh '*' t)

/-- the six names, in the order in which they are read: ditto/readers/gridlabd/read.py:1068-1073 -/
def shareNames : List Text :=
  ["current_fraction".toList, "current_pf".toList, "power_fraction".toList, "power_pf".toList, "impedance_fraction".toList, "impedance_pf".toList]

/-- the numbers of several attributes -/
def readAll (flt : Text → Option K) (o : GldObj) (c : Char) : List Text → Py (List K)
  | [] => .ok []
  | k :: ks =>
    match readAs flt o (phaseKey k c) with
    | .error e => .error e
    | .ok x =>
      match readAll flt o c ks with
      | .error e => .error e
      | .ok xs => .ok (x :: xs)

/-- the shares from fractions and power factors: ditto/readers/gridlabd/read.py:1075-1086 -/
def sharesOf : List K → Option (ZipShares K)
  | [cf, cpf, pf, ppf, zf, zpf] => some ⟨cf * cpf, cf * (1 - cpf), pf * ppf, pf * (1 - ppf), zf * zpf, zf * (1 - zpf)⟩
  | _ => none

/-- the shares of a ZIP load: ditto/readers/gridlabd/read.py:1066-1089, 1194-1217, 1322-1345 -/
def readShares (flt : Text → Option K) (o : GldObj) (c : Char) : Py (Option (ZipShares K)) :=
  match readAll flt o c shareNames with
  | .error e => .error e
  | .ok xs => .ok (sharesOf xs)

/-- a load that is not of constant power, impedance or current: ditto/readers/gridlabd/read.py:1047-1091, 1177-1219, 1305-1347 -/
def zipLoad (flt : Text → Option K) (schedules : List (Text × Text)) (o : GldObj) (c : Char) : Py (GPhaseLoad K) :=
  match basePower flt schedules o c with
  | .error e => .error e
  | .ok p =>
    match passMissing (readShares flt o c) with
    | .error e => .error e
    | .ok s => .ok { phase := c, p := p, q := 0, zip := s.isSome, shares := s }

/-- `a`, and otherwise `b` -/
def orNext {V : Type} (a : Py (Option V)) (b : Py V) : Py V :=
  match passMissing a with
  | .error e => .error e
  | .ok (some v) => .ok v
  | .ok none => b

/-- the load of a phase: ditto/readers/gridlabd/read.py:961-1091, 1093-1219, 1221-1347 -/
def readPhaseLoad (flt : Text → Option K) (cpx : Text → Option (Cx K)) (schedules : List (Text × Text)) (o : GldObj) (c : Char) :
    Py (GPhaseLoad K) :=
  orNext (powerOf cpx o c) (orNext (impedanceOf cpx o c) (orNext (currentOf cpx o c) (zipLoad flt schedules o c)))

/-- the loads of all phases: ditto/readers/gridlabd/read.py:960-1347 -/
def readPhaseLoads (flt : Text → Option K) (cpx : Text → Option (Cx K)) (schedules : List (Text × Text)) (o : GldObj) :
    List Char → Py (List (GPhaseLoad K))
  | [] => .ok []
  | c :: cs =>
    match readPhaseLoad flt cpx schedules o c with
    | .error e => .error e
    | .ok l =>
      match readPhaseLoads flt cpx schedules o cs with
      | .error e => .error e
      | .ok ls => .ok (l :: ls)

/-- the phases of a load: ditto/readers/gridlabd/read.py:947-956 -/
def loadPhases (o : GldObj) : List Char :=
  match getEntry "phases".toList o.attrs with
  | none => []
  | some t => (stripQuotes t).filter fun c => c = 'A' ∨ c = 'B' ∨ c = 'C'

/-- the name of the load: ditto/readers/gridlabd/read.py:929-937 -/
def loadNameOf (o : GldObj) : Text :=
  match getEntry "name".toList o.attrs with
  | none => []
  | some n => if (getEntry "parent".toList o.attrs).isSome then n else "load_".toList ++ n

/-- the element of the load: ditto/readers/gridlabd/read.py:923-937 -/
def loadElementOf (o : GldObj) : Option Text :=
  match getEntry "parent".toList o.attrs with
  | some p => some p
  | none => getEntry "name".toList o.attrs

/-- the node that is made for a load without parent: ditto/readers/gridlabd/read.py:926-928, 935, 941-942, 953-954 -/
def loadNode (o : GldObj) (v : Option K) : Option (GReadNode K) :=
  match getEntry "parent".toList o.attrs with
  | some _ => none
  | none => some ⟨false, readName o, (loadPhases o).map fun c => [c], v⟩

/-- one load, with the node that is made for it: ditto/readers/gridlabd/read.py:918-1350 -/
def readLoad (flt : Text → Option K) (cpx : Text → Option (Cx K)) (schedules : List (Text × Text)) (o : GldObj) :
    Py (GReadLoad K × Option (GReadNode K)) :=
  match readVoltage flt o with
  | .error e => .error e
  | .ok v =>
    match readPhaseLoads flt cpx schedules o (loadPhases o) with
    | .error e => .error e
    | .ok ls => .ok (⟨loadNameOf o, loadElementOf o, v, ls⟩, loadNode o v)

/-- all loads, in the order of the dictionary: ditto/readers/gridlabd/read.py:620-621, 918-1350. Objects of other classes give no loads. -/
def readGldLoads (flt : Text → Option K) (cpx : Text → Option (Cx K)) (schedules : List (Text × Text)) :
    List (Text × GldObj) → Py (List (GReadLoad K × Option (GReadNode K)))
  | [] => .ok []
  | (_, o) :: l =>
    if o.cls = "load".toList then
      match readLoad flt cpx schedules o with
      | .error e => .error e
      | .ok a =>
        match readGldLoads flt cpx schedules l with
        | .error e => .error e
        | .ok b => .ok (a :: b)
    else readGldLoads flt cpx schedules l

/-- the loads of a file -/
def readLoadFile (schema : Schema) (due : List Text → Py Bool) (files : Text → Option (List Text)) (flt : Text → Option K)
    (cpx : Text → Option (Cx K)) (before : List (Text × GldObj)) (rows : List Text) : Py (List (GReadLoad K × Option (GReadNode K))) :=
  match readGlm schema due files before rows with
  | .error e => .error e
  | .ok s => readGldLoads flt cpx s.schedules s.objects

end numbers

end Ditto.Glm
