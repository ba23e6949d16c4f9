import Verif.Model.Defaults

/-! What applying default values means. -/
namespace Ditto.Spec
open Ditto Ditto.Defaults

/-- the attributes which get default values: class of the objects, section of the file, attribute (its key in the section is the same) -/
def listedDefaults : List (String × String × String) :=
  [("Line", "Line", "faultrate"),
   ("Wire", "Wire", "ampacity"), ("Wire", "Wire", "emergency_ampacity"), ("Wire", "Wire", "insulation_thickness"),
   ("Capacitor", "Capacitor", "connection_type"), ("Capacitor", "Capacitor", "delay"), ("Capacitor", "Capacitor", "pt_ratio"),
   ("Capacitor", "Capacitor", "low"), ("Capacitor", "Capacitor", "high"), ("Capacitor", "Capacitor", "ct_ratio"),
   ("Capacitor", "Capacitor", "pt_phase"),
   ("Regulator", "Regulator", "connection_type"), ("Regulator", "Regulator", "delay"), ("Regulator", "Regulator", "pt_ratio"),
   ("Regulator", "Regulator", "ct_prim"), ("Regulator", "Regulator", "highstep"), ("Regulator", "Regulator", "bandwidth"),
   ("Regulator", "Regulator", "bandcenter"),
   ("PowerTransformer", "Transformer", "reactances"), ("PowerTransformer", "Transformer", "connection_type"),
   ("Load", "Load", "connection_type"), ("Load", "Load", "vmin"), ("Load", "Load", "vmax")]

/-- the two matrices of lines -/
def matrixDefaults : List String := ["impedance_matrix", "capacitance_matrix"]

/-- the attributes that get a default value on objects of some class -/
def DefaultAttr (a : String) : Prop := a ∈ matrixDefaults ∨ ∃ c s, (c, s, a) ∈ listedDefaults

/-- the value in the file, `None` if there is none -/
def defaultValue (D : Dict) (s k : String) : Val :=
  match D s with
  | some f => f k
  | none => .none

/-- the matrix `r + jx` of two matrices of the same shape -/
def IsImpedance (r x : List (List ℚ)) (z : List (List (ℚ × ℚ))) : Prop :=
  z.map (List.map Prod.fst) = r ∧ z.map (List.map Prod.snd) = x

end Ditto.Spec
