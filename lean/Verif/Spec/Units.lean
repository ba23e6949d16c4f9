import Verif.Model.Py
import Mathlib.Data.Rat.Defs
import Mathlib.Algebra.Field.Rat
import Mathlib.Algebra.Order.Ring.Unbundled.Rat
import Mathlib.Tactic.NormNum

/-! Independent specification of length units: the international definitions. -/
namespace Ditto.Spec

/-- The seven supported units. -/
inductive LengthUnit
  | mile | kilometer | kilofoot | meter | foot | inch | centimeter
  deriving DecidableEq

/-- Meters in one unit, by international definition (1 in = 2.54 cm, 1 ft = 12 in, 1 mi = 5280 ft). -/
def LengthUnit.meters : LengthUnit → ℚ
  | .mile => 1609.344
  | .kilometer => 1000
  | .kilofoot => 304.8
  | .meter => 1
  | .foot => 0.3048
  | .inch => 0.0254
  | .centimeter => 0.01

/-- Abbreviation of the unit, lower case. -/
def LengthUnit.abbrev : LengthUnit → String
  | .mile => "mi"
  | .kilometer => "km"
  | .kilofoot => "kft"
  | .meter => "m"
  | .foot => "ft"
  | .inch => "in"
  | .centimeter => "cm"

/-- A string names a unit if it is the unit's abbreviation in any letter case. -/
def Names (s : String) (u : LengthUnit) : Prop := pyLower s = u.abbrev

/-- `a` approximates `b` within relative error `ε`. -/
def Approx (ε a b : ℚ) : Prop := |a - b| ≤ ε * |b|

end Ditto.Spec
