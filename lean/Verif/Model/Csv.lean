import Verif.Model.Py
import Verif.Model.OpenClose
import Verif.Model.SynTables

/-! The CSV reader: ditto/readers/csv/read.py. Simplifications: the text of the file (`pd.read_csv`) is not modelled, a file is the list of its
columns and rows, where a cell is empty (an empty text or NaN), a text or another value; `globals()` only has the classes that are imported;
attributes that are lists of objects cannot be given as cells (a TraitError). -/
namespace Ditto.Csv
open Ditto Glm

/-- the indexed attributes on the way from an object to a nested one -/
abbrev Path := List (Text × Nat)

/-- a cell that is not empty -/
inductive Cell (K : Type) where
  | text (t : Text)
  | value (x : K)
  deriving DecidableEq

/-- an object of ditto: its class, the attributes that were set, and the lists of nested objects, which are numbers of objects of the model -/
structure Obj (K : Type) where
  klass : Text
  attrs : List (Text × Cell K)
  lists : List (Text × List Nat)
  deriving DecidableEq

/-- the classes of ditto and what python does with them -/
structure Classes (K : Type) where
  /-- the names in `globals()` -/
  known : Text → Bool
  /-- `str(parent.traits()[name]._trait.klass)`, the class of the objects in a list; a KeyError or AttributeError if it is no list of objects -/
  element : Text → Text → Py Text
  /-- whether the attribute of this class takes this value; a TraitError otherwise -/
  takes : Text → Text → Cell K → Bool
  /-- `int(_)`; a ValueError if it gives none -/
  int : Text → Option Int

section
variable {K : Type}

/-- `getattr(obj, name)` of a list of objects -/
def Obj.children (o : Obj K) (name : Text) : List Nat :=
  match o.lists.find? fun e => e.1 = name with
  | none => []
  | some e => e.2

/-- `getattr(obj, name).append(_)`: ditto/readers/csv/read.py:125-127 -/
def Obj.append (o : Obj K) (name : Text) (id : Nat) : Obj K :=
  { o with lists := (name, o.children name ++ [id]) :: o.lists.filter fun e => e.1 ≠ name }

/-- `setattr(obj, name, value)`: ditto/readers/csv/read.py:133-139 -/
def Obj.set (o : Obj K) (name : Text) (v : Cell K) : Obj K := { o with attrs := (name, v) :: o.attrs.filter fun e => e.1 ≠ name }

/-- the objects of the model, and the dictionary `all_objs` of a row. Its keys are texts like `PowerTransformer.windings[1].phase_windings[0]`;
here they are the class and the path. -/
structure State (K : Type) where
  objs : List (Obj K)
  all : List ((Text × Path) × Nat)

/-- `all_objs[key]` -/
def State.get (st : State K) (key : Text × Path) : Option Nat := (st.all.find? fun e => e.1 = key).map (·.2)

/-- `x.strip("]")` -/
def stripBracket (t : Text) : Text := ((t.dropWhile (· = ']')).reverse.dropWhile (· = ']')).reverse

/-- name and number of a layer: ditto/readers/csv/read.py:89-92 -/
def layerOf (int : Text → Option Int) (t : Text) : Py (Text × Int) :=
  match Net.splitCh '[' t with
  | name :: number :: _ =>
    match int (stripBracket number) with
    | none => .error .valueError
    | some i => .ok (name, i)
  | _ => .error .indexError

/-- `layer_name + "[" + str(j) + "]"`: ditto/readers/csv/read.py:112-115 -/
def layerText (name : Text) (j : Nat) : Text := name ++ '[' :: (j.repr.toList ++ [']'])

/-- the number of the layer, if the layer is written as the key of a nested object is. For another way to write it, such as `windings[01]`, or for a
negative number, `all_objs[full_name]` is a KeyError, whatever is done before: ditto/readers/csv/read.py:100-130 -/
def layerIndex (t : Text) (name : Text) : Int → Option Nat
  | .ofNat n => if t = layerText name n then some n else none
  | .negSucc _ => none

variable (cs : Classes K)

/-- one turn of the loop that creates the objects of a list: ditto/readers/csv/read.py:109-128 -/
def child (cls : Text) (path : Path) (parent : Nat) (name klass : Text) (j : Nat) (st : State K) : Py (State K) :=
  if (st.get (cls, path ++ [(name, j)])).isSome then .ok st
  else if cs.known klass then
    .ok ⟨st.objs.modify parent (fun o => o.append name st.objs.length) ++ [⟨klass, [], []⟩],
      st.all ++ [((cls, path ++ [(name, j)]), st.objs.length)]⟩
  else .error .keyError

/-- the loop over `m` numbers from `j`: ditto/readers/csv/read.py:108-128 -/
def children (cls : Text) (path : Path) (parent : Nat) (name klass : Text) : Nat → Nat → State K → Py (State K)
  | _, 0, st => .ok st
  | j, m + 1, st =>
    match child cs cls path parent name klass j st with
    | .error e => .error e
    | .ok st' => children cls path parent name klass (j + 1) m st'

/-- the loop over the layers between the class and the attribute: ditto/readers/csv/read.py:86-130. Gives the object, its path and the new state. -/
def descend (cls : Text) : List Text → Path → Nat → State K → Py (Nat × Path × State K)
  | [], path, parent, st => .ok (parent, path, st)
  | t :: ts, path, parent, st =>
    match layerOf cs.int t with
    | .error e => .error e
    | .ok (name, i) =>
      match st.objs[parent]? with
      | none => .error .keyError
      | some o =>
        match cs.element o.klass name with
        | .error e => .error e
        | .ok klass =>
          match layerIndex t name i with
          | none => .error .keyError
          | some n =>
            match (if (st.get (cls, path ++ [(name, n)])).isSome then Except.ok st else children cs cls path parent name klass 0 (n + 1) st) with
            | .error e => .error e
            | .ok st' =>
              match st'.get (cls, path ++ [(name, n)]) with
              | none => .error .keyError
              | some id => descend cls ts (path ++ [(name, n)]) id st'

/-- the object for the class: ditto/readers/csv/read.py:80-85 -/
def baseObject (cls : Text) (st : State K) : Py (Nat × State K) :=
  match st.get (cls, []) with
  | some id => .ok (id, st)
  | none => if cs.known cls then .ok (st.objs.length, ⟨st.objs ++ [⟨cls, [], []⟩], st.all ++ [((cls, []), st.objs.length)]⟩) else .error .keyError

/-- the value that is stored: ditto/readers/csv/read.py:132-139. Only texts have `lower`. -/
def valueOf (attr : Text) : Cell K → Py (Cell K)
  | .text t => .ok (.text (if attr = "name".toList then Syn.lower t else t))
  | .value x => if attr = "name".toList then .error .attributeError else .ok (.value x)

/-- a cell of a row: ditto/readers/csv/read.py:68-139 -/
def readCell (header : Text) (cell : Option (Cell K)) (st : State K) : Py (State K) :=
  match Net.splitCh '.' header with
  | cls :: l :: ls =>
    match cell with
    | none => .ok st
    | some c =>
      match baseObject cs cls st with
      | .error e => .error e
      | .ok (id, st1) =>
        match descend cs cls (l :: ls).dropLast [] id st1 with
        | .error e => .error e
        | .ok (id', _, st2) =>
          match valueOf ((l :: ls).getLast (by simp)) c with
          | .error e => .error e
          | .ok v =>
            match st2.objs[id']? with
            | none => .error .keyError
            | some o =>
              if cs.takes o.klass ((l :: ls).getLast (by simp)) v then
                .ok { st2 with objs := st2.objs.modify id' fun o => o.set ((l :: ls).getLast (by simp)) v }
              else .error .traitError
  | _ => .error .genericException

/-- the cells of a row: ditto/readers/csv/read.py:67-139 -/
def readCells : List (Text × Option (Cell K)) → State K → Py (State K)
  | [], st => .ok st
  | (h, c) :: rest, st =>
    match readCell cs h c st with
    | .error e => .error e
    | .ok st' => readCells rest st'

/-- the rows: ditto/readers/csv/read.py:60-139. Each row starts with an empty dictionary. -/
def readRows (headers : List Text) : List (List (Option (Cell K))) → List (Obj K) → Py (List (Obj K))
  | [], objs => .ok objs
  | row :: rest, objs =>
    match readCells cs (headers.zip row) ⟨objs, []⟩ with
    | .error e => .error e
    | .ok st => readRows headers rest st.objs

/-- the objects of a file, in the order of the model: ditto/readers/csv/read.py:58-141 -/
def readCsv (headers : List Text) (rows : List (List (Option (Cell K)))) : Py (List (Obj K)) := readRows cs headers rows []

end

/-- the classes that are imported: ditto/readers/csv/read.py:19-31 -/
def importedClasses : List Text :=
  ["Node", "Line", "Load", "PhaseLoad", "Regulator", "Wire", "Capacitor", "PhaseCapacitor", "PowerTransformer", "Winding", "PhaseWinding", "Timeseries",
    "Position"].map String.toList

end Ditto.Csv
