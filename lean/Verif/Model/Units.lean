import Verif.Model.Py
import Mathlib.Data.Rat.Defs
import Mathlib.Algebra.Field.Rat
import Mathlib.Tactic.NormNum

/-!
Length-unit conversions.

Simplifications: python floats are exact rationals; `str.lower` is `Ditto.pyLower`
(they agree on ASCII).
-/
namespace Ditto.Units
open Ditto

/-- The `unit` argument of the conversion helpers: `None`, something that is not a string, or a string. -/
inductive UnitArg
  | none
  | notString
  | str (s : String)
  deriving DecidableEq

/-- The keyword argument `inverse`: absent, present but not a `bool`, or a `bool`. -/
inductive InverseArg
  | absent
  | notBool
  | bool (b : Bool)
  deriving DecidableEq

/-- `if "inverse" in kwargs and isinstance(kwargs["inverse"], bool)`:
ditto/readers/abstract_reader.py:135-138 and 244-247, ditto/writers/abstract_writer.py:99-102. -/
def InverseArg.eval : InverseArg → Bool
  | .absent => false
  | .notBool => false
  | .bool b => b

/-- `AbstractReader.convert_to_meters`: ditto/readers/abstract_reader.py:78-190. -/
def toMeters (quantity : Option ℚ) (unit : UnitArg) (inverse : InverseArg := .absent) : Option ℚ :=
  let inv := inverse.eval
  match unit with
  | .none => none
  | .notString => none
  | .str u =>
    match quantity with
    | none => none
    | some q =>
      if pyLower u = "mi" then some (if inv then q / 1609.34 else 1609.34 * q)
      else if pyLower u = "km" then some (if inv then q / 1000 else 1000 * q)
      else if pyLower u = "kft" then some (if inv then q / 304.8 else 304.8 * q)
      else if pyLower u = "m" then some q
      else if pyLower u = "ft" then some (if inv then q / 0.3048 else 0.3048 * q)
      else if pyLower u = "in" then some (if inv then q / 0.0254 else 0.0254 * q)
      else if pyLower u = "cm" then some (if inv then q / 0.01 else 0.01 * q)
      else none

/-- `AbstractReader.convert_from_meters`: ditto/readers/abstract_reader.py:192-299. -/
def fromMeters (quantity : Option ℚ) (unit : UnitArg) (inverse : InverseArg := .absent) : Option ℚ :=
  let inv := inverse.eval
  match unit with
  | .none => none
  | .notString => none
  | .str u =>
    match quantity with
    | none => none
    | some q =>
      if pyLower u = "mi" then some (if inv then q / 0.000621371 else 0.000621371 * q)
      else if pyLower u = "km" then some (if inv then q / (1/1000) else (1/1000) * q)
      else if pyLower u = "kft" then some (if inv then q / 0.00328084 else 0.00328084 * q)
      else if pyLower u = "m" then some q
      else if pyLower u = "ft" then some (if inv then q / 3.28084 else 3.28084 * q)
      else if pyLower u = "in" then some (if inv then q / 39.3701 else 39.3701 * q)
      else if pyLower u = "cm" then some (if inv then q / 100 else 100 * q)
      else none

/-- The writers' own copy, `AbstractWriter.convert_from_meters`: ditto/writers/abstract_writer.py:45-154. -/
def writerFromMeters (quantity : Option ℚ) (unit : UnitArg) (inverse : InverseArg := .absent) :
    Option ℚ :=
  let inv := inverse.eval
  match unit with
  | .none => none
  | .notString => none
  | .str u =>
    match quantity with
    | none => none
    | some q =>
      if pyLower u = "mi" then (if inv then some (q / 0.000621371) else some (0.000621371 * q))
      else if pyLower u = "km" then (if inv then some (q / (1/1000)) else some ((1/1000) * q))
      else if pyLower u = "kft" then (if inv then some (q / 0.00328084) else some (0.00328084 * q))
      else if pyLower u = "m" then some q
      else if pyLower u = "ft" then (if inv then some (q / 3.28084) else some (3.28084 * q))
      else if pyLower u = "in" then (if inv then some (q / 39.3701) else some (39.3701 * q))
      else if pyLower u = "cm" then (if inv then some (q / 100) else some (100 * q))
      else none

/-- `supported_units` of `unit_conversion`: ditto/readers/abstract_reader.py:331. -/
def supportedUnits : List String := ["km", "m", "ft", "kft", "in", "cm", "mi"]

/-- `AbstractReader.unit_conversion`: ditto/readers/abstract_reader.py:301-342.
The membership test at 332-335 is on the unit as given (no `lower`). -/
def unitConversion (quantity : Option ℚ) (unitFrom unitTo : UnitArg) : Option ℚ :=
  match unitFrom, unitTo with
  | .str a, .str b =>
    if a ∉ supportedUnits then none
    else if b ∉ supportedUnits then none
    else fromMeters (toMeters quantity (.str a)) (.str b)
  | _, _ => none

/-! ### Synergi reader -/

/-- `SynergiValueType`: ditto/readers/synergi/length_units.py:4-8. -/
inductive SynergiValueType
  | SUL | MUL | LUL | Per_LUL
  deriving DecidableEq

/-- `CONVERSION_FACTORS`: ditto/readers/synergi/length_units.py:79-104 (a missing key is `none`). -/
def synergiFactor (units : String) (t : SynergiValueType) : Option ℚ :=
  if units = "english2" then
    some (match t with | .SUL => 0.0254 | .MUL => 0.3048 | .LUL => 1609.34 | .Per_LUL => 1 / 1609.34)
  else if units = "english1" then
    some (match t with
      | .SUL => 0.0254 | .MUL => 0.3048 | .LUL => 304.8 | .Per_LUL => 3.28084 * (1/1000))
  else if units = "metric" then
    some (match t with | .SUL => 1/1000 | .MUL => 1 | .LUL => 1000 | .Per_LUL => 1/1000)
  else if units = "english" then
    some (match t with
      | .SUL => 0.0254 | .MUL => 0.3048 | .LUL => 304.8 | .Per_LUL => 3.28084 * (1/1000))
  else none

/-- `convert_length_unit`: ditto/readers/synergi/length_units.py:11-107.
`valueType = none` stands for an argument that is not a `SynergiValueType`,
`lengthUnits = none` for one that is not a string. The check at line 72 lower-cases the unit, the
dictionary access at line 106 does not. -/
def convertLengthUnit (value : ℚ) (valueType : Option SynergiValueType) (lengthUnits : Option String) :
    Py ℚ :=
  match valueType with
  | none => .error .valueError
  | some t =>
    match lengthUnits with
    | none => .error .valueError
    | some u =>
      if pyLower u ∉ ["english", "english2", "english1", "metric"] then .error .valueError
      else
        match synergiFactor u t with
        | none => .error .keyError
        | some f => .ok (value * f)

end Ditto.Units
