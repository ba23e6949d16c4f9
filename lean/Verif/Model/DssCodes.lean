import Verif.Model.Json
import Mathlib.Algebra.Order.Field.Rat

/-! Wire data, cable data, line geometries and line codes of the OpenDSS writer: ditto/writers/opendss/write.py. -/
namespace Ditto.Dss
open Ditto Ditto.Json

/-- values in the dictionaries that describe wires and line codes. Simplification: matrices are kept as numbers, not as text; equal
numbers have equal texts. -/
inductive PVal
  | num (x : ℚ)
  | nat (n : Nat)
  | str (s : String)
  | mat (m : List (List ℚ))
deriving DecidableEq, Repr

abbrev Params := List (String × PVal)

/-- the attributes of a `Wire` that are written -/
structure DWire where
  nameclass : Option String := none
  phase : Option String := none
  x : Option ℚ := none
  y : Option ℚ := none
  gmr : Option ℚ := none
  diameter : Option ℚ := none
  ampacity : Option ℚ := none
  emergency : Option ℚ := none
  resistance : Option ℚ := none
  insulation : Option ℚ := none
  cnGmr : Option ℚ := none
  cnResistance : Option ℚ := none
  cnDiameter : Option ℚ := none
  cnOutside : Option ℚ := none
  cnNstrand : Option ℚ := none
deriving DecidableEq, Repr

/-- the attributes of a `Line` that are used here. `device`: one of `is_switch`, `is_breaker`, `is_fuse`, `is_recloser` is set. Matrices are
lists of rows, `[]` if `None` or empty; the impedances are in two matrices of the same shape. -/
structure DLine where
  name : Option String := none
  nameclass : Option String := none
  lineType : Option String := none
  wires : List DWire := []
  faultrate : Option ℚ := none
  r : List (List ℚ) := []
  xm : List (List ℚ) := []
  c : List (List ℚ) := []
  device : Bool := false
  feeder : Option String := none
  substation : Option String := none
deriving DecidableEq, Repr

/-! ### The choice between geometries and codes -/

/-- `use_linecodes`: ditto/writers/opendss/write.py:2807-2860 -/
def useLinecodes (l : DLine) : Bool :=
  if l.lineType ≠ some "underground" then
    l.wires.isEmpty || l.wires.any fun w => w.x.isNone || w.y.isNone || w.gmr.isNone || w.diameter.isNone || w.ampacity.isNone
  else
    l.wires.isEmpty || l.wires.any fun w => w.x.isNone || w.y.isNone || w.gmr.isNone || w.diameter.isNone || w.ampacity.isNone ||
      w.cnGmr.isNone || w.cnResistance.isNone || w.cnDiameter.isNone || w.cnOutside.isNone || w.cnNstrand.isNone

/-! ### Wire data -/

/-- an entry of a dictionary which is only there if the value is known -/
def entry (k : String) : Option ℚ → Params
  | some v => [(k, .num v)]
  | none => []

/-- the same, followed by the unit -/
def entryUnit (k u : String) : Option ℚ → Params
  | some v => [(k, .num v), (u, .str "m")]
  | none => []

/-- `parse_wire`: ditto/writers/opendss/write.py:3779-3812 -/
def parseWire (w : DWire) : Params :=
  entryUnit "GMRac" "GMRunits" w.gmr ++ entryUnit "Diam" "Radunits" w.diameter ++ entry "normamps" w.ampacity ++ entry "emergamps" w.emergency ++
    entry "Rac" w.resistance

/-- the outer diameter of the insulation: ditto/writers/opendss/write.py:3714-3715 -/
def diaIns (w : DWire) : Option ℚ :=
  match w.insulation, w.diameter with
  | some t, some d => some (d + 2 * t)
  | _, _ => none

/-- `parse_cable`: ditto/writers/opendss/write.py:3697-3777 -/
def parseCable (w : DWire) : Params :=
  entry "InsLayer" w.insulation ++ entry "DiaIns" (diaIns w) ++ entry "k" w.cnNstrand ++ entry "DiaStrand" w.cnDiameter ++
    entry "Rstrand" w.cnResistance ++ entry "Diam" w.diameter ++ entry "DiaCable" w.cnOutside ++ entry "Rac" w.resistance ++
    entry "GmrStrand" w.cnGmr ++ entry "GMRac" w.gmr ++ [("Runits", .str "m"), ("Radunits", .str "m"), ("GMRunits", .str "m")]

/-- the last key with this value, as found by the loops of ditto/writers/opendss/write.py:3134-3137, 3167-3170 and 3304-3307 -/
def findKey {P : Type} [DecidableEq P] (p : P) (d : List (String × P)) : Option String :=
  ((d.filter fun e => decide (e.2 = p)).map Prod.fst).getLast?

/-- `base + "_" + str(n)` -/
def numbered (base : String) (n : Nat) : String := base ++ "_" ++ n.repr

/-- a name for the data `p`, the dictionary and the counter: ditto/writers/opendss/write.py:3118-3143 (wires, `pre` is "Wire"), 3151-3176
(cables, "CNCable") and 3292-3313 (geometries, "Geometry") -/
def assignName {P : Type} [DecidableEq P] (pre : String) (p : P) (nc : Option String) (d : List (String × P)) (cnt : Nat) :
    String × List (String × P) × Nat :=
  match nc with
  | some n =>
    match d.lookup n with
    | none => (n, setKey n p d, cnt)
    | some q => if q ≠ p then (numbered n cnt, setKey (numbered n cnt) p d, cnt + 1) else (n, d, cnt)
  | none =>
    match findKey p d with
    | some k => (k, d, cnt)
    | none => (numbered pre cnt, setKey (numbered pre cnt) p d, cnt + 1)

/-- the dictionaries of the writer and the counter of `write_wiredata` -/
structure WireState where
  wires : List (String × Params) := []
  cables : List (String × Params) := []
  cnt : Nat := 1
deriving DecidableEq, Repr

/-- one wire of a line; `cable`: the line is underground -/
def wireStep (cable : Bool) (st : WireState) (w : DWire) : WireState × DWire :=
  if cable = false then
    if parseWire w = [] then (st, w)
    else
      let r := assignName "Wire" (parseWire w) w.nameclass st.wires st.cnt
      ({ st with wires := r.2.1, cnt := r.2.2 }, { w with nameclass := some r.1 })
  else
    if parseCable w = [] then (st, w)
    else
      let r := assignName "CNCable" (parseCable w) w.nameclass st.cables st.cnt
      ({ st with cables := r.2.1, cnt := r.2.2 }, { w with nameclass := some r.1 })

/-- a loop that changes the elements of a list and a state -/
def mapState {σ α β : Type} (f : σ → α → σ × β) : σ → List α → σ × List β
  | st, [] => (st, [])
  | st, a :: as =>
    let r := f st a
    let rs := mapState f r.1 as
    (rs.1, r.2 :: rs.2)

def lineWires (st : WireState) (l : DLine) : WireState × DLine :=
  let r := mapState (wireStep (decide (l.lineType = some "underground"))) st l.wires
  (r.1, { l with wires := r.2 })

/-- `write_wiredata`: ditto/writers/opendss/write.py:3095-3176. The result is what is written: the two dictionaries, and the lines with the
new names of their wires. Simplification: no two lines share a wire object. -/
def writeWiredata (ls : List DLine) : WireState × List DLine := mapState lineWires {} ls

/-! ### Geometries -/

/-- one conductor of a geometry; `cable`: the name is under "CNCable", otherwise under "Wire" -/
structure Cond where
  cable : Bool
  wire : String
  x : Option ℚ
  h : Option ℚ
  normamps : Option ℚ
  emergamps : Option ℚ
deriving DecidableEq, Repr

structure Geometry where
  nphases : Nat
  conds : List Cond
  reduce : Bool
deriving DecidableEq, Repr

def isPhase (w : DWire) : Bool := decide (w.phase ∈ [some "A", some "B", some "C"])

/-- ditto/writers/opendss/write.py:3832-3856 -/
def condOf (st : WireState) (w : DWire) : Py Cond :=
  match w.nameclass with
  | none => .error .valueError
  | some n =>
    if (st.wires.lookup n).isSome then .ok ⟨false, n, w.x, w.y, w.ampacity, w.emergency⟩
    else if (st.cables.lookup n).isSome then .ok ⟨true, n, w.x, w.y, w.ampacity, w.emergency⟩
    else .error .valueError

/-- `parse_line_geometry`: ditto/writers/opendss/write.py:3814-3863; "nconds" is the number of conductors, "units" always "m" -/
def parseGeometry (st : WireState) (l : DLine) : Py Geometry :=
  match mapPy (condOf st) l.wires with
  | .error e => .error e
  | .ok cs => .ok ⟨(l.wires.filter isPhase).length, cs, decide ((l.wires.filter isPhase).length ≠ l.wires.length)⟩

structure GeoState where
  geos : List (String × Geometry) := []
  cpt : Nat := 1
deriving DecidableEq, Repr

def geometryStep (ws : WireState) (st : GeoState) (l : DLine) : Py (GeoState × DLine) :=
  match parseGeometry ws l with
  | .error e => .error e
  | .ok g =>
    let r := assignName "Geometry" g l.nameclass st.geos st.cpt
    .ok (⟨r.2.1, r.2.2⟩, { l with nameclass := some r.1 })

/-- a loop that changes the elements of a list and a state, with exceptions -/
def mapStatePy {σ α β : Type} (f : σ → α → Py (σ × β)) : σ → List α → Py (σ × List β)
  | st, [] => .ok (st, [])
  | st, a :: as =>
    match f st a with
    | .error e => .error e
    | .ok r =>
      match mapStatePy f r.1 as with
      | .error e => .error e
      | .ok rs => .ok (rs.1, r.2 :: rs.2)

/-- `write_linegeometry`: ditto/writers/opendss/write.py:3276-3313 -/
def writeGeometries (ws : WireState) (ls : List DLine) : Py (GeoState × List DLine) := mapStatePy (geometryStep ws) {} ls

/-! ### Line codes -/

/-- a matrix in units per km: ditto/writers/opendss/write.py:3632-3642 -/
def perKm (m : List (List ℚ)) : List (List ℚ) := m.map (List.map (· * 1000))

/-- the matrix of a device without impedances: ditto/writers/opendss/write.py:3621-3630 -/
def smallMatrix (n : Nat) : List (List ℚ) := (List.range n).map fun i => (List.range n).map fun j => if j = i then 1 / 100000000 else 0

/-- the impedances: ditto/writers/opendss/write.py:3595-3630 -/
def lineMatrices (l : DLine) : Option (List (List ℚ) × List (List ℚ)) :=
  if l.r ≠ [] then some (l.r, l.xm)
  else if l.device then some (smallMatrix (l.wires.filter isPhase).length, smallMatrix (l.wires.filter isPhase).length)
  else none

/-- `parse_line`: ditto/writers/opendss/write.py:3570-3695 -/
def parseLine (l : DLine) : Params :=
  [("units", .str "km"), ("nphases", .nat (l.wires.filter isPhase).length)] ++ entry "Faultrate" l.faultrate ++
    (match lineMatrices l with
    | some m => [("Rmatrix", .mat (perKm m.1)), ("Xmatrix", .mat (perKm m.2))]
    | none => []) ++
    (if l.c ≠ [] then [("Cmatrix", .mat (perKm l.c))] else []) ++
    entry "normamps" (l.wires.head?.bind (·.ampacity)) ++ entry "emergamps" (l.wires.head?.bind (·.emergency))

/-- the state of `write_linecodes`: `all` is `all_linecodes`, `files` is `feeder_text_map` -/
structure CodeState where
  all : List (String × Params) := []
  files : List (String × List (String × Params)) := []
  cnt : Nat := 0
deriving DecidableEq, Repr

/-- the substation and feeder of an object as it is written: ditto/writers/opendss/write.py:3408-3423. `sf`, `ss`: `separate_feeders`,
`separate_substations` -/
def groupOf (sf ss : Bool) (feeder substation : Option String) : String × String :=
  ((if ss then substation.getD "DEFAULT" else "DEFAULT"), (if sf then feeder.getD "DEFAULT" else "DEFAULT"))

def groupKey (g : String × String) : String := g.1 ++ "_" ++ g.2

/-- the new name of a code without nameclass: ditto/writers/opendss/write.py:3480-3500 -/
def codeName (l : DLine) (cnt : Nat) : String :=
  (l.wires.filter isPhase).length.repr ++ "P_" ++ (if l.lineType = some "overhead" then "OH_" else "") ++
    (if l.lineType = some "underground" then "UG_" else "") ++ "Code" ++ cnt.repr

/-- one line: name, dictionary of all codes, codes of the file, counter: ditto/writers/opendss/write.py:3437-3501 -/
def codeStep (l : DLine) (all txt : List (String × Params)) (cnt : Nat) : String × List (String × Params) × List (String × Params) × Nat :=
  let p := parseLine l
  match l.nameclass with
  | some nc =>
    let n := nc ++ "_" ++ (l.wires.filter isPhase).length.repr
    match all.lookup n with
    | none => (n, setKey n p all, setKey n p txt, cnt)
    | some q =>
      if (txt.lookup n).isNone then (n, all, setKey n p txt, cnt)
      else if q ≠ p then
        match (List.range cnt).find? fun j => (all.lookup (numbered n j)).isSome with
        | some j => (numbered n j, all, (if (txt.lookup (numbered n j)).isNone then setKey (numbered n j) p txt else txt), cnt)
        | none => (numbered n cnt, setKey (numbered n cnt) p all, setKey (numbered n cnt) p txt, cnt + 1)
      else (n, all, txt, cnt)
  | none =>
    match findKey p all with
    | some k => (k, all, txt, cnt)
    | none => (codeName l cnt, setKey (codeName l cnt) p all, setKey (codeName l cnt) p txt, cnt + 1)

def linecodeStep (sf ss : Bool) (st : CodeState) (l : DLine) : CodeState × DLine :=
  let key := groupKey (groupOf sf ss l.feeder l.substation)
  let r := codeStep l st.all ((st.files.lookup key).getD []) st.cnt
  (⟨r.2.1, setKey key r.2.2.1 st.files, r.2.2.2⟩, { l with nameclass := some r.1 })

/-- the first part of `write_linecodes`: ditto/writers/opendss/write.py:3398-3502 -/
def writeLinecodes (sf ss : Bool) (ls : List DLine) : CodeState × List DLine := mapState (linecodeStep sf ss) {} ls

/-- `re.sub('[^0-9a-zA-Z]+', '_', s)` on lists of characters; `skip`: the previous character was replaced -/
def cleanChars : Bool → List Char → List Char
  | _, [] => []
  | skip, c :: cs =>
    if c.isAlphanum then c :: cleanChars false cs
    else if skip then cleanChars true cs
    else '_' :: cleanChars true cs

/-- `re.sub('[^0-9a-zA-Z]+', '_', s)` -/
def cleanName (s : String) : String := String.ofList (cleanChars false s.toList)

end Ditto.Dss
