import Verif.Model.CymeTable
import Mathlib.Analysis.Real.Sqrt

/-! Loads of CYME files: `parse_loads` in ditto/readers/cyme/read.py, from the dictionaries that the tables give (C73). Powers are real
numbers. -/
namespace Ditto.Cyme
open Ditto Glm

/-- What `parse_loads` works with. `num` is `float` and `int` is `int`; none stands for an exception. -/
structure LoadInput where
  num : Text → Option ℝ
  int : Text → Option ℤ
  /-- `self.loads` -/
  loads : List (Text × Values)
  /-- `self.customer_class` -/
  classes : List (Text × Values)
  /-- `self.section_phase_mapping` -/
  sectionData : List (Text × Values)
  /-- `self.section_feeder_mapping` -/
  sectionFeeder : List (Text × Text)

/-- a phase load. `zip` are the shares that were assigned, in the order of ditto/readers/cyme/read.py:5869-5887. -/
structure PhaseLoadRec where
  phase : Char
  /-- `p` and `q`, or none if they were not assigned -/
  powers : Option (ℝ × ℝ)
  zip : List ℝ

/-- a load -/
structure LoadRec where
  name : Text := []
  kva : Option ℝ := none
  connection : Option Text := none
  element : Option Text := none
  feeder : Option Text := none
  users : Option ℝ := none
  phases : List PhaseLoadRec := []

/-- The variables of the loop. `p`, `q` and `valueType` keep their values from the row before; none stands for an unbound variable. Before
it is bound, `load_type_data` fails as the empty dictionary does. A load that is replaced in `self._loads` stays in the store; this is not
represented. -/
structure LoadVars where
  valueType : Option ℤ := none
  p : Option ℝ := none
  q : Option ℝ := none
  /-- `load_type_data` -/
  classData : Values := []
  /-- `self._loads` -/
  loads : List (Text × LoadRec) := []

/-- `x.strip("*")` -/
def stripStars (t : Text) : Text := ((t.dropWhile (· = '*')).reverse.dropWhile (· = '*')).reverse

/-- the section of a row: ditto/readers/cyme/read.py:5691 -/
def rowSection (key : Text) : Text := lower (stripStars key)

/-- `duplicate_loads`: ditto/readers/cyme/read.py:5685-5688 -/
def duplicateLoads (keys : List Text) : List Text := (keys.filter fun k => k.getLast? = some '*').map fun k => stripStars (lower k)

/-- `connection_configuration_mapping` for a text: ditto/readers/cyme/read.py:581-608. None after an exception, and for a text that is not
known, when the function returns nothing. -/
def connectionOf (value : Text) : Option Text :=
  if value = "0".toList ∨ lower value = "yg".toList ∨ value = "1".toList ∨ lower value = "y".toList then some "Y".toList
  else if value = "2".toList ∨ lower value = "delta".toList ∨ value = "3".toList ∨ lower value = "open delta".toList ∨ value = "4".toList ∨
      lower value = "closed delta".toList then some "D".toList
  else if value = "5".toList ∨ lower value = "zg".toList then some "Z".toList
  else none

/-- the apparent power: ditto/readers/cyme/read.py:5727-5728 -/
noncomputable def apparentPower (connected : Option ℝ) (kva : ℝ) : ℝ :=
  match connected with
  | none => kva
  | some c => if kva = 0 then c else kva

/-- active and reactive power from the apparent power and the power factor: ditto/readers/cyme/read.py:5729-5730. None if the square root
fails. -/
noncomputable def kvaPowers (s pf : ℝ) : Option (ℝ × ℝ) :=
  if s ^ 2 - (s * (pf * (1 / 100))) ^ 2 < 0 then none else some (s * (pf * (1 / 100)), √(s ^ 2 - (s * (pf * (1 / 100))) ^ 2))

/-- reactive power from active power and power factor: ditto/readers/cyme/read.py:5741-5748. The first option is none after an exception; the
second one if the variable is not assigned. -/
noncomputable def factorPower (p pf : ℝ) : Option (Option ℝ) :=
  if 0 ≤ pf ∧ pf ≤ 1 then if pf = 0 then none else some (some (p * √((1 - pf ^ 2) / pf ^ 2)))
  else if 1 < pf ∧ pf ≤ 100 then some (some (p * √((1 - (pf / 100) ^ 2) / (pf / 100) ^ 2)))
  else some none

/-- the variables `p` and `q` -/
abbrev Powers := Option ℝ × Option ℝ

/-- Powers by the type of the values: ditto/readers/cyme/read.py:5713-5757. The first component is false if the row is skipped. An exception
can come after `p` has been assigned. -/
noncomputable def powersOf (connected : Option ℝ) (vars : LoadVars) (a : ℝ) (b : Option ℝ) : Py (Bool × Powers) :=
  match vars.valueType with
  | none => .error .unboundLocalError
  | some t =>
    if t = 0 then
      match b with
      | none => .ok (false, vars.p, vars.q)
      | some b => .ok (true, some a, some b)
    else if t = 1 then
      match b with
      | none => .ok (false, vars.p, vars.q)
      | some b =>
        match kvaPowers (apparentPower connected a) b with
        | none => .ok (false, some (apparentPower connected a * (b * (1 / 100))), vars.q)
        | some (p, q) => .ok (true, some p, some q)
    else if t = 2 then
      match b with
      | none => .ok (false, vars.p, vars.q)
      | some b =>
        match factorPower a b with
        | none => .ok (false, some a, vars.q)
        | some none => .ok (true, some a, vars.q)
        | some (some q) => .ok (true, some a, some q)
    else if t = 3 then .ok (false, vars.p, vars.q)
    else .ok (true, vars.p, vars.q)

/-- the powers of a row: ditto/readers/cyme/read.py:5706-5757 -/
noncomputable def rowPowers (inp : LoadInput) (connected : Option ℝ) (vars : LoadVars) (v1 v2 : Text) : Py (Bool × Powers) :=
  match inp.num v1 with
  | none => .error .valueError
  | some a =>
    if a = 0 then
      match inp.num v2 with
      | none => .error .valueError
      | some b => if b = 0 then .ok (true, some 0, some 0) else powersOf connected vars a (some b)
    else powersOf connected vars a (inp.num v2)

/-- `p >= 0 or q >= 0`: ditto/readers/cyme/read.py:5759. The second variable is looked at only if the first one is negative. -/
noncomputable def keepsRow : Powers → Py Bool
  | (none, _) => .error .unboundLocalError
  | (some p, none) => if 0 ≤ p then .ok true else .error .unboundLocalError
  | (some p, some q) => .ok (decide (0 ≤ p ∨ 0 ≤ q))

/-- the letters of the phases with underscores between them: ditto/readers/cyme/read.py:5787-5797. None after an exception. -/
def phaseNames : Text → Option Text
  | [] => none
  | [c] => some [c]
  | c :: d :: cs => (phaseNames (d :: cs)).map fun t => c :: '_' :: t

/-- the name: ditto/readers/cyme/read.py:5785-5798 -/
def loadName (old : Option LoadRec) (sec phases : Text) : Text :=
  match old, phaseNames phases with
  | none, none => []
  | none, some t => "Load_".toList ++ sec ++ '_' :: t
  | some l, none => l.name
  | some l, some t => l.name ++ '_' :: t

/-- the apparent power of the transformer: ditto/readers/cyme/read.py:5800-5816 -/
noncomputable def loadKva (old : Option LoadRec) (connected : Option ℝ) : Option ℝ :=
  match old, connected with
  | none, none => none
  | none, some c => some (c * 1000)
  | some l, none => l.kva
  | some l, some c =>
    match l.kva with
    | none => some (c * 1000)
    | some k => some (k + c * 1000)

/-- the connection: ditto/readers/cyme/read.py:5693-5696, 5818-5824 -/
def loadConnection (inp : LoadInput) (old : Option LoadRec) (sec : Text) : Option Text :=
  match old with
  | some l => l.connection
  | none =>
    match getEntry sec inp.loads with
    | none => none
    | some d =>
      match getEntry "connection".toList d with
      | none => none
      | some v => connectionOf v

/-- the customer class: ditto/readers/cyme/read.py:5827-5833 -/
def loadClass (inp : LoadInput) (old : Option LoadRec) (before : Values) (s : Values) : Values :=
  match old with
  | some _ => before
  | none =>
    match getEntry "loadtype".toList s with
    | none => []
    | some t =>
      match getEntry t inp.classes with
      | none => []
      | some d => d

/-- the node: ditto/readers/cyme/read.py:5835-5841 -/
def loadElement (inp : LoadInput) (old : Option LoadRec) (sec : Text) : Option Text :=
  match old with
  | some l => l.element
  | none =>
    match getEntry sec inp.sectionData with
    | none => none
    | some d => getEntry "fromnodeid".toList d

/-- the names of the shares, in the order in which they are assigned: ditto/readers/cyme/read.py:5869-5887 -/
def zipNames : List Text :=
  ["constantcurrentip".toList, "constantcurrentiq".toList, "constantpowerpp".toList, "constantpowerpq".toList, "constantimpedancezp".toList,
    "constantimpedancezq".toList]

/-- one share -/
noncomputable def zipShare (inp : LoadInput) (d : Values) (k : Text) : Option ℝ :=
  match getEntry k d with
  | none => none
  | some t => (inp.num t).map fun x => x / 100

/-- the shares until the first exception: ditto/readers/cyme/read.py:5868-5891 -/
noncomputable def zipShares (inp : LoadInput) (d : Values) : List Text → List ℝ
  | [] => []
  | k :: ks =>
    match zipShare inp d k with
    | none => []
    | some x => x :: zipShares inp d ks

/-- the powers of one of `n` phases: ditto/readers/cyme/read.py:5860-5866. An unbound variable leaves both unassigned. -/
noncomputable def phasePowers (n : ℕ) : Powers → Option (ℝ × ℝ)
  | (some p, some q) => some (1000 * p / n, 1000 * q / n)
  | _ => none

/-- the phase loads of a row: ditto/readers/cyme/read.py:5847-5897 -/
noncomputable def phaseLoads (inp : LoadInput) (d : Values) (phases : Text) (pq : Powers) : List PhaseLoadRec :=
  phases.map fun ph => ⟨ph, phasePowers phases.length pq, zipShares inp d zipNames⟩

/-- `settings["loadphase"]`: ditto/readers/cyme/read.py:5761-5764 -/
def rowPhases (s : Values) : Text :=
  match getEntry "loadphase".toList s with
  | none => []
  | some t => t

/-- `phase_loads` of a load that exists already, or none -/
def oldPhases : Option LoadRec → List PhaseLoadRec
  | none => []
  | some l => l.phases

/-- the load that the row makes or extends: ditto/readers/cyme/read.py:5785-5900 -/
noncomputable def storeLoad (inp : LoadInput) (connected : Option ℝ) (vars : LoadVars) (old : Option LoadRec) (sec : Text) (s : Values)
    (pq : Powers) (users : ℝ) (feeder : Text) : LoadVars :=
  { vars with
    classData := loadClass inp old vars.classData s
    loads := setEntry sec
      { name := loadName old sec (rowPhases s)
        kva := loadKva old connected
        connection := loadConnection inp old sec
        element := loadElement inp old sec
        feeder := some feeder
        users := some users
        phases := oldPhases old ++ phaseLoads inp (loadClass inp old vars.classData s) (rowPhases s) pq } vars.loads }

/-- `float(settings["numberofcustomer"])`: ditto/readers/cyme/read.py:5845 -/
def rowUsers (inp : LoadInput) (s : Values) : Py ℝ :=
  match getEntry "numberofcustomer".toList s with
  | none => .error .keyError
  | some t =>
    match inp.num t with
    | none => .error .valueError
    | some x => .ok x

/-- the load of the section, if the row belongs to it: ditto/readers/cyme/read.py:5768-5777 -/
def oldLoad (dups : List Text) (vars : LoadVars) (sec : Text) : Option LoadRec := if sec ∈ dups then getEntry sec vars.loads else none

/-- a row with powers: ditto/readers/cyme/read.py:5761-5904 -/
noncomputable def addLoad (inp : LoadInput) (dups : List Text) (connected : Option ℝ) (vars : LoadVars) (sec : Text) (s : Values)
    (pq : Powers) : Py LoadVars :=
  if sec ∈ dups ∧ pq.1 = some 0 then .ok vars
  else
    match getEntry sec inp.sectionFeeder with
    | none => .error .keyError
    | some feeder =>
      match rowUsers inp s with
      | .error e => .error e
      | .ok users => .ok (storeLoad inp connected vars (oldLoad dups vars sec) sec s pq users feeder)

/-- `connectedkva`: ditto/readers/cyme/read.py:5698-5701 -/
def rowConnected (inp : LoadInput) (s : Values) : Py (Option ℝ) :=
  match getEntry "connectedkva".toList s with
  | none => .ok none
  | some t =>
    match inp.num t with
    | none => .error .valueError
    | some x => .ok (some x)

/-- `value_type`: ditto/readers/cyme/read.py:5703-5704 -/
def rowType (inp : LoadInput) (vars : LoadVars) (s : Values) : Py (Option ℤ) :=
  match getEntry "valuetype".toList s with
  | none => .ok vars.valueType
  | some t =>
    match inp.int t with
    | none => .error .valueError
    | some x => .ok (some x)

/-- the rest of a row, when its powers are known: ditto/readers/cyme/read.py:5759-5904 -/
noncomputable def rowLoad (inp : LoadInput) (dups : List Text) (connected : Option ℝ) (vars : LoadVars) (sec : Text) (s : Values)
    (pq : Powers) : Py LoadVars :=
  match keepsRow pq with
  | .error e => .error e
  | .ok false => .ok { vars with p := pq.1, q := pq.2 }
  | .ok true => addLoad inp dups connected { vars with p := pq.1, q := pq.2 } sec s pq

/-- one row of the customer loads: ditto/readers/cyme/read.py:5689-5904 -/
noncomputable def loadRow (inp : LoadInput) (dups : List Text) (vars : LoadVars) (row : Text × Values) : Py LoadVars :=
  match rowConnected inp row.2 with
  | .error e => .error e
  | .ok connected =>
    match rowType inp vars row.2 with
    | .error e => .error e
    | .ok t =>
      match getEntry "value1".toList row.2, getEntry "value2".toList row.2 with
      | some v1, some v2 =>
        match rowPowers inp connected { vars with valueType := t } v1 v2 with
        | .error e => .error e
        | .ok (false, pq) => .ok { vars with valueType := t, p := pq.1, q := pq.2 }
        | .ok (true, pq) => rowLoad inp dups connected { vars with valueType := t } (rowSection row.1) row.2 pq
      | _, _ => .ok { vars with valueType := t }

/-- all rows -/
noncomputable def loadRows (inp : LoadInput) (dups : List Text) : LoadVars → List (Text × Values) → Py LoadVars
  | vars, [] => .ok vars
  | vars, row :: rows =>
    match loadRow inp dups vars row with
    | .error e => .error e
    | .ok vars' => loadRows inp dups vars' rows

/-- `parse_loads`: ditto/readers/cyme/read.py:5563-5906, after the tables have been read. The loads by their sections. -/
noncomputable def parseLoads (inp : LoadInput) (rows : List (Text × Values)) : Py (List (Text × LoadRec)) :=
  match loadRows inp (duplicateLoads (rows.map (·.1))) {} rows with
  | .error e => .error e
  | .ok vars => .ok vars.loads

end Ditto.Cyme
