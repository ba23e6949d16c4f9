import Verif.Model.Py
import Mathlib.Data.Rat.Defs

/-! The JSON writer and reader: ditto/writers/json/write.py and ditto/readers/json/read.py. Objects are records of attribute values; nested
objects are part of the value of their parent. The text of the file (json_tricks) is not modelled: a file is the tree that is dumped
and loaded. Floats are exact. -/
namespace Ditto.Json
open Ditto

/-- a loop that collects results until an exception -/
def mapPy {α β : Type} (f : α → Py β) : List α → Py (List β)
  | [] => .ok []
  | a :: as =>
    match f a with
    | .error e => .error e
    | .ok b =>
      match mapPy f as with
      | .error e => .error e
      | .ok bs => .ok (b :: bs)

/-- `d[k] = v` for a dictionary in insertion order -/
def setKey {α : Type} (k : String) (v : α) : List (String × α) → List (String × α)
  | [] => [(k, v)]
  | e :: es => if e.1 = k then (k, v) :: es else e :: setKey k v es

/-- values of attributes that are no list; `other` is any value of another type -/
inductive Scalar
  | none
  | int (n : Int)
  | float (x : ℚ)
  | str (s : String)
  | bool (b : Bool)
  | complex (re im : ℚ)
  | npfloat (x : ℚ)
  | other (type : String)
deriving DecidableEq, Repr

/-- `str(type(v)).split("'")[1]`: ditto/writers/json/write.py:156, 162, 180, 195, 205, 216, 230, 240 and 254 -/
def Scalar.type : Scalar → String
  | .none => "NoneType"
  | .int _ => "int"
  | .float _ => "float"
  | .str _ => "str"
  | .bool _ => "bool"
  | .complex _ _ => "complex"
  | .npfloat _ => "numpy.float64"
  | .other t => t

/-- an object nested in a list, without lists of its own; `attrs` is `_trait_values` -/
structure Leaf where
  cls : String
  attrs : List (String × Scalar)
deriving DecidableEq, Repr

/-- an object in a list: `winding` is a `Winding` with its attributes but `phase_windings`, and `phase_windings` (`none`: `None`) -/
inductive Sub
  | leaf (l : Leaf)
  | winding (attrs : List (String × Scalar)) (phases : Option (List Leaf))
deriving DecidableEq, Repr

/-- an element of a list; `unicode` is an instance of the trait `Unicode` with this `default_value` -/
inductive Item
  | scalar (s : Scalar)
  | unicode (s : Scalar)
  | sub (x : Sub)
  | row (r : List Scalar)
deriving DecidableEq, Repr

inductive Val
  | scalar (s : Scalar)
  | list (l : List Item)
deriving DecidableEq, Repr

/-- an object of the model: `attrs` is `_trait_values`, which has the values that were set or accessed and all default values that are
no lists (traitlets 5.1) -/
structure Obj where
  cls : String
  attrs : List (String × Val)
deriving DecidableEq, Repr

/-! ### Files -/

/-- what is under "value" -/
inductive Payload
  | scalar (s : Scalar)
  | pair (re im : ℚ)
deriving DecidableEq, Repr

/-- `{"class": ..., "value": ...}` -/
structure JV where
  cls : String
  value : Payload
deriving DecidableEq, Repr

/-- `{"class": ..., attribute: ...}` -/
structure JLeaf where
  cls : String
  fields : List (String × JV)
deriving DecidableEq, Repr

/-- the same with the key "phase_windings", if any. Simplification: no other attributes of nested objects are lists; the writer never
makes such files. -/
structure JSub where
  cls : String
  fields : List (String × JV)
  phases : Option (List JLeaf)
deriving DecidableEq, Repr

inductive JItem
  | v (j : JV)
  | row (r : List JV)
  | sub (x : JSub)
deriving DecidableEq, Repr

inductive JVal
  | v (j : JV)
  | list (l : List JItem)
deriving DecidableEq, Repr

structure JObj where
  cls : String
  fields : List (String × JVal)
deriving DecidableEq, Repr

/-- the file: without the key "model", with something else than a list under it, or with a list of objects -/
inductive JFile
  | noModel
  | noList
  | model (objs : List JObj)
deriving DecidableEq, Repr

/-! ### Writer -/

/-- the value in a file; a `numpy.float64` is a `float` -/
def dump : Scalar → Scalar
  | .npfloat x => .float x
  | s => s

/-- ditto/writers/json/write.py:178-182, 193-197, 203-207, 213-218, 226-232, 238-242 and 253-256 -/
def scalarJ (s : Scalar) : JV := ⟨s.type, .scalar (dump s)⟩

/-- ditto/writers/json/write.py:133-136, 142-159, 161-163, 169-172 and 246-256 -/
def valueJ : Scalar → JV
  | .complex re im => ⟨"complex", .pair re im⟩
  | s => scalarJ s

/-- the attributes that hold numbers: ditto/writers/json/write.py:130 -/
def matrixKeys : List String := ["capacitance_matrix", "impedance_matrix", "reactances"]

/-- ditto/writers/json/write.py:132-163. Other elements than numbers and lists are not accepted by the traits; they are marked here. -/
def matrixItem : Item → JItem
  | .scalar s => .v (valueJ s)
  | .row r => .row (r.map valueJ)
  | .unicode _ => .v ⟨"ditto.models.base.Unicode", .scalar (.other "Unicode")⟩
  | .sub _ => .v ⟨"object", .scalar (.other "object")⟩

/-- the classes of nested objects without lists: ditto/writers/json/write.py:174, 189, 199 and 234 -/
def leafClasses : List String := ["Position", "Wire", "PhaseCapacitor", "PhaseLoad"]

def leafFields (attrs : List (String × Scalar)) : List (String × JV) := attrs.map fun e => (e.1, scalarJ e.2)

/-- an element of a list, `none` if it is dropped: ditto/writers/json/write.py:167-242. `None` as `phase_windings` raises `TypeError`. -/
def listItem : Item → Py (Option JItem)
  | .scalar (.complex re im) => .ok (some (.v ⟨"complex", .pair re im⟩))
  | .scalar _ => .ok none
  | .row _ => .ok none
  | .unicode s => .ok (some (.v ⟨"Unicode", .scalar (dump s)⟩))
  | .sub (.leaf l) => .ok (if l.cls ∈ leafClasses then some (.sub ⟨l.cls, leafFields l.attrs, none⟩) else none)
  | .sub (.winding _ none) => .error .typeError
  | .sub (.winding attrs (some ps)) =>
    .ok (some (.sub ⟨"Winding", leafFields attrs, some (ps.map fun p => ⟨"PhaseWinding", leafFields p.attrs⟩)⟩))

/-- one attribute: ditto/writers/json/write.py:129-256. `for v in None` raises `TypeError`. -/
def writeVal (k : String) (v : Val) : Py JVal :=
  if k ∈ matrixKeys then
    match v with
    | .scalar _ => .error .typeError
    | .list l => .ok (.list (l.map matrixItem))
  else
    match v with
    | .list l =>
      match mapPy listItem l with
      | .error e => .error e
      | .ok js => .ok (.list (js.filterMap id))
    | .scalar s => .ok (.v (valueJ s))

/-- the attributes, added to the dictionary -/
def writeAttrs : List (String × JVal) → List (String × Val) → Py (List (String × JVal))
  | fs, [] => .ok fs
  | fs, (k, v) :: rest =>
    match writeVal k v with
    | .error e => .error e
    | .ok j => writeAttrs (setKey k j fs) rest

/-- `obj.name`: ditto/writers/json/write.py:123-127 -/
def nameOf (o : Obj) : Scalar :=
  match o.attrs.lookup "name" with
  | some (.scalar s) => dump s
  | some (.list _) => .other "list"
  | none => .none

/-- one object: ditto/writers/json/write.py:110-256. The comparison in 111-118 is between a string and classes and never true. All
objects with a name have it in `_trait_values`; the others raise `AttributeError` at `obj.name`. -/
def writeObj (o : Obj) : Py JObj :=
  match writeAttrs [("name", .v ⟨"str", .scalar (nameOf o)⟩)] o.attrs with
  | .error e => .error e
  | .ok fs => .ok ⟨o.cls, fs⟩

/-- `Writer.write`: ditto/writers/json/write.py:94-261, without the metadata. The keys are sorted in the file, which only changes which of
several exceptions the reader raises. -/
def write (model : List Obj) : Py JFile :=
  match mapPy writeObj model with
  | .error e => .error e
  | .ok js => .ok (.model js)

/-! ### Reader -/

/-- the classes of objects in `class_mapping`: ditto/readers/json/read.py:37-53 -/
def objectClasses : List String :=
  ["PowerSource", "Photovoltaic", "Node", "Line", "Winding", "PowerTransformer", "Regulator", "Position", "Wire", "PhaseWinding", "Load",
   "PhaseLoad", "Capacitor", "PhaseCapacitor", "Feeder_metadata", "Storage", "PhaseStorage"]

/-- the other ones: ditto/readers/json/read.py:54-60 -/
def valueClasses : List String := ["Unicode", "int", "float", "str", "bool", "unicode", "numpy.float64"]

/-- ditto/readers/json/read.py:140-157 -/
def dittoClasses : List String :=
  ["PowerSource", "Photovoltaic", "Node", "Line", "Winding", "PowerTransformer", "Position", "Wire", "PhaseWinding", "Load",
   "PhaseLoad", "Capacitor", "PhaseCapacitor", "Feeder_metadata", "Regulator", "Storage"]

/-- objects that are only read as a part of others: ditto/readers/json/read.py:178-186 -/
def ignoredClasses : List String := ["Winding", "PhaseWinding", "Wire", "PhaseCapacitor", "Position", "PhaseLoad"]

/-- what is not modelled: `conv c p` is the value, or exception, of `class_mapping[c](p)` where the type of `p` is not `c`; `dflt c` are
the values of a new object of class `c` in `_trait_values`. -/
structure Env where
  conv : String → Payload → Py Scalar
  dflt : String → List (String × Scalar)

/-- `class_mapping[c](p)`: a missing class raises `KeyError`. -/
def cast (env : Env) (c : String) (p : Payload) : Py Scalar :=
  match p with
  | .pair _ _ => if c ∈ objectClasses ∨ c ∈ valueClasses then env.conv c p else .error .keyError
  | .scalar s =>
    if c = "numpy.float64" then
      match s with
      | .float x => .ok (.npfloat x)
      | _ => env.conv c p
    else if c = "str" ∧ s = .none then .ok (.str "None")
    else if c = "unicode" then
      match s with
      | .str x => .ok (.str x)
      | _ => env.conv c p
    else if c = s.type ∧ c ∈ valueClasses then .ok s
    else if c ∈ objectClasses ∨ c ∈ valueClasses then env.conv c p
    else .error .keyError

/-- a value which is no list; `none` is skipped: ditto/readers/json/read.py:280-323, 358-378 and 441-459. A value without two elements
raises `TypeError` for "complex", one that cannot be iterated for "list". -/
def readJV (env : Env) (j : JV) : Py (Option Scalar) :=
  if j.cls = "list" then .error .typeError
  else if j.cls = "complex" then
    match j.value with
    | .pair re im => .ok (some (.complex re im))
    | .scalar _ => .error .typeError
  else if j.cls = "NoneType" then .ok none
  else
    match cast env j.cls j.value with
    | .error e => .error e
    | .ok s => .ok (some s)

/-- the attributes of a nested object -/
def readFields (env : Env) : List (String × Scalar) → List (String × JV) → Py (List (String × Scalar))
  | attrs, [] => .ok attrs
  | attrs, (k, j) :: rest =>
    match readJV env j with
    | .error e => .error e
    | .ok none => readFields env attrs rest
    | .ok (some s) => readFields env (setKey k s attrs) rest

/-- an object in a list of a nested object: ditto/readers/json/read.py:251-329. Another class has no key "value": `KeyError`. -/
def readLeaf (env : Env) (j : JLeaf) : Py Leaf :=
  if j.cls ∈ dittoClasses then
    match readFields env (env.dflt j.cls) j.fields with
    | .error e => .error e
    | .ok attrs => .ok ⟨j.cls, attrs⟩
  else .error .keyError

/-- an object in a list: ditto/readers/json/read.py:226-381. Another class has no key "value": `KeyError`. -/
def readSub (env : Env) (j : JSub) : Py Sub :=
  if j.cls ∈ dittoClasses then
    match readFields env (env.dflt j.cls) j.fields with
    | .error e => .error e
    | .ok attrs =>
      match j.phases with
      | none => .ok (if j.cls = "Winding" then .winding attrs (some []) else .leaf ⟨j.cls, attrs⟩)
      | some ps =>
        match mapPy (readLeaf env) ps with
        | .error e => .error e
        | .ok ls => .ok (.winding attrs (some ls))
  else .error .keyError

/-- the elements of a matrix: ditto/readers/json/read.py:384-412 -/
def readRow (env : Env) : List JV → Py (List Scalar)
  | [] => .ok []
  | j :: rest =>
    match readJV env j with
    | .error e => .error e
    | .ok s =>
      match readRow env rest with
      | .error e => .error e
      | .ok r => .ok (s.toList ++ r)

/-- an element of a list, `none` if skipped: ditto/readers/json/read.py:217-434. A value whose class is that of an object raises
`TypeError` at 242, as does one of the class "list" that is none. -/
def readItem (env : Env) : JItem → Py (Option Item)
  | .sub x =>
    match readSub env x with
    | .error e => .error e
    | .ok s => .ok (some (.sub s))
  | .row r =>
    match readRow env r with
    | .error e => .error e
    | .ok l => .ok (some (.row l))
  | .v j =>
    if j.cls ∈ dittoClasses then .error .typeError
    else if j.cls = "Unicode" then
      match j.value with
      | .scalar s => .ok (some (.unicode s))
      | .pair _ _ =>
        match env.conv j.cls j.value with
        | .error e => .error e
        | .ok s => .ok (some (.unicode s))
    else if "ditto.".toList <:+: j.cls.toList then
      match env.conv j.cls j.value with
      | .error e => .error e
      | .ok s => .ok (some (.unicode s))
    else
      match readJV env j with
      | .error e => .error e
      | .ok none => .ok none
      | .ok (some s) => .ok (some (.scalar s))

/-- the attributes of an object: ditto/readers/json/read.py:200-459 -/
def readAttrs (env : Env) : List (String × Val) → List (String × JVal) → Py (List (String × Val))
  | attrs, [] => .ok attrs
  | attrs, (k, .list l) :: rest =>
    match mapPy (readItem env) l with
    | .error e => .error e
    | .ok is => readAttrs env (setKey k (.list (is.filterMap id)) attrs) rest
  | attrs, (k, .v j) :: rest =>
    match readJV env j with
    | .error e => .error e
    | .ok none => readAttrs env attrs rest
    | .ok (some s) => readAttrs env (setKey k (.scalar s) attrs) rest

/-- one object, `none` if ignored: ditto/readers/json/read.py:169-459. Simplification: the names of `class_mapping` which are no
classes of objects, which the writer never writes for an object, are rejected here. -/
def readObj (env : Env) (j : JObj) : Py (Option Obj) :=
  if j.cls ∈ ignoredClasses then .ok none
  else if j.cls ∈ objectClasses then
    match readAttrs env ((env.dflt j.cls).map fun e => (e.1, .scalar e.2)) j.fields with
    | .error e => .error e
    | .ok attrs => .ok (some ⟨j.cls, attrs⟩)
  else if j.cls ∈ valueClasses then .error .typeError
  else .error .valueError

/-- `Reader.parse`: ditto/readers/json/read.py:134-460. The result are the objects created for those of the file, in their order; the
nested objects are in the model too, as they are in their parents. -/
def parse (env : Env) : JFile → Py (List Obj)
  | .noModel => .error .valueError
  | .noList => .error .typeError
  | .model js =>
    match mapPy (readObj env) js with
    | .error e => .error e
    | .ok os => .ok (os.filterMap id)

end Ditto.Json
