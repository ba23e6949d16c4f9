import Verif.Model.Py
import Mathlib.Data.Rat.Defs

/-! The default values of a reader: ditto/readers/abstract_reader.py:849-858 and 913-1056. -/
namespace Ditto.Defaults
open Ditto

/-- values of attributes and of the file with the default values. Simplification: the file holds null, numbers, strings, lists of numbers and
lists of lists of numbers; `cnum`, `cmat` and `nested` only arise from the conversions below. -/
inductive Val
  | none
  | num (x : ℚ)
  | str (s : String)
  | vec (l : List ℚ)
  | mat (m : List (List ℚ))
  | nested (m : List (List ℚ))
  | cnum (re im : ℚ)
  | cmat (m : List (List (ℚ × ℚ)))
deriving DecidableEq, Repr

/-- an object of the model: its class and its attributes (`get a = none`: there is no attribute `a`) -/
structure Obj where
  cls : String
  get : String → Option Val

/-- `setattr(obj, attr, value)`. Simplification: the validation of traits is not modelled. -/
def Obj.set (o : Obj) (a : String) (v : Val) : Obj := ⟨o.cls, fun b => if b = a then some v else o.get b⟩

/-- the dictionary of default values; `D s = none`: no section `s`, and `.none` stands for the `None` of `.get(key, None)` -/
abbrev Dict := String → Option (String → Val)

/-- `default_values_json.py:Default_Values.parse` reads the dictionary; without a file it has one empty section
(ditto/readers/abstract_reader.py:938-942) -/
def dictOf : Option Dict → Dict
  | some D => D
  | none => fun s => if s = "Line" then some fun _ => .none else none

/-- the rows of an array with the number of its dimensions. `np.array` of rows of different lengths has objects as entries, which cannot be added:
`TypeError`, like `None` and strings. -/
def rowsOf : Val → Py (Nat × List (List ℚ))
  | .num x => .ok (0, [[x]])
  | .vec l => .ok (1, [l])
  | .mat [] => .ok (1, [[]])
  | .mat (r :: rs) => if ∀ s ∈ rs, s.length = r.length then .ok (2, r :: rs) else .error .typeError
  | _ => .error .typeError

/-- broadcasting of one dimension: equal lengths, or one of them is 1 -/
def broadcast {α β γ : Type} (f : α → β → Py γ) (a : List α) (b : List β) : Py (List γ) :=
  if a.length = b.length then (a.zip b).mapM fun p => f p.1 p.2
  else
    match a, b with
    | [x], b => b.mapM fun y => f x y
    | a, [y] => a.mapM fun x => f x y
    | _, _ => .error .valueError

/-- `new_rmatrix + 1j * new_xmatrix`: ditto/readers/abstract_reader.py:924-931 -/
def impedance (r x : Val) : Py Val := do
  let a ← rowsOf r
  let b ← rowsOf x
  let z ← broadcast (broadcast fun u v => .ok (u, v)) a.2 b.2
  match max a.1 b.1, z with
  | 0, [[(u, v)]] => .ok (.cnum u v)
  | _, z => .ok (.cmat z)

/-- `np.array(value)` turned into a list of rows: ditto/readers/abstract_reader.py:917-922. Rows of different lengths make an array of one
dimension. -/
def capacitance : Val → Val
  | .vec l => .mat [l]
  | .mat [] => .mat [[]]
  | .mat (r :: rs) => if ∀ s ∈ rs, s.length = r.length then .mat (r :: rs) else .nested (r :: rs)
  | v => v

/-- `set_default_values`: ditto/readers/abstract_reader.py:913-934 -/
def setDefault (remove : Bool) (o : Obj) (attr : String) (value arg : Val) : Py Obj :=
  if remove = false then
    if (o.get attr).isSome then
      if attr = "capacitance_matrix" then .ok (o.set attr (capacitance value))
      else if attr = "impedance_matrix" then do
        let z ← impedance value arg
        .ok (o.set attr z)
      else .ok (o.set attr value)
    else .ok (o.set attr value)
  else .ok (o.set attr .none)

/-- one call of `set_default_values` in `parse_default_values` -/
structure Entry where
  attr : String
  sect : String
  key : String
  arg : Option String := none
  only : Option String := none
deriving DecidableEq, Repr

/-- the calls in their order: ditto/readers/abstract_reader.py:945-1056 -/
def entries : List Entry :=
  [⟨"faultrate", "Line", "faultrate", none, none⟩,
   ⟨"impedance_matrix", "Line", "rmatrix", some "xmatrix", none⟩,
   ⟨"capacitance_matrix", "Line", "cmatrix", none, none⟩,
   ⟨"ampacity", "Wire", "ampacity", none, none⟩,
   ⟨"emergency_ampacity", "Wire", "emergency_ampacity", none, none⟩,
   ⟨"insulation_thickness", "Wire", "insulation_thickness", none, none⟩,
   ⟨"connection_type", "Capacitor", "connection_type", none, some "Capacitor"⟩,
   ⟨"delay", "Capacitor", "delay", none, some "Capacitor"⟩,
   ⟨"pt_ratio", "Capacitor", "pt_ratio", none, some "Capacitor"⟩,
   ⟨"low", "Capacitor", "low", none, none⟩,
   ⟨"high", "Capacitor", "high", none, none⟩,
   ⟨"ct_ratio", "Capacitor", "ct_ratio", none, none⟩,
   ⟨"pt_phase", "Capacitor", "pt_phase", none, none⟩,
   ⟨"connection_type", "Regulator", "connection_type", none, some "Regulator"⟩,
   ⟨"delay", "Regulator", "delay", none, some "Regulator"⟩,
   ⟨"pt_ratio", "Regulator", "pt_ratio", none, some "Regulator"⟩,
   ⟨"ct_prim", "Regulator", "ct_prim", none, none⟩,
   ⟨"highstep", "Regulator", "highstep", none, none⟩,
   ⟨"bandwidth", "Regulator", "bandwidth", none, none⟩,
   ⟨"bandcenter", "Regulator", "bandcenter", none, none⟩,
   ⟨"connection_type", "Transformer", "connection_type", none, some "Transformer"⟩,
   ⟨"reactances", "Transformer", "reactances", none, none⟩,
   ⟨"connection_type", "Load", "connection_type", none, some "Load"⟩,
   ⟨"vmin", "Load", "vmin", none, none⟩,
   ⟨"vmax", "Load", "vmax", none, none⟩]

/-- `parsed_values.get(section, {}).get(key, None)`; for the section "Line" the default is `None`, which has no `get` -/
def lookup (D : Dict) (s k : String) : Py Val :=
  match D s with
  | some f => .ok (f k)
  | none => if s = "Line" then .error .attributeError else .ok .none

/-- the further argument of a call, if any -/
def argOf (D : Dict) (e : Entry) : Py Val :=
  match e.arg with
  | some k => lookup D e.sect k
  | none => .ok .none

/-- one call, guarded by the class of the object -/
def applyEntry (D : Dict) (remove : Bool) (o : Obj) (e : Entry) : Py Obj :=
  if e.only = none ∨ e.only = some o.cls then do
    let v ← lookup D e.sect e.key
    let a ← argOf D e
    setDefault remove o e.attr v a
  else .ok o

/-- the body of the loop -/
def applyAll (D : Dict) (remove : Bool) (o : Obj) : Py Obj := entries.foldlM (applyEntry D remove) o

/-- `parse_default_values`: ditto/readers/abstract_reader.py:936-1056. `model.set_names()`, which only changes the dictionary of names, is left
out; if a call fails the objects before it have been changed, which is not modelled. -/
def parseDefaults (file : Option Dict) (remove : Bool) (m : List Obj) : Py (List Obj) := m.mapM (applyAll (dictOf file) remove)

/-- the guard in `parse`: ditto/readers/abstract_reader.py:849-858; `dss`: the reader has the attribute `DSS_file_names` -/
def defaultsStep (dss : Bool) (file : Option Dict) (remove : Bool) (m : List Obj) : Py (List Obj) :=
  if dss = true ∧ (file.isSome = true ∨ remove = true) then parseDefaults file remove m else .ok m

end Ditto.Defaults
