import Verif.Model.DssSource

/-! `set_nominal_voltages` of ditto/readers/opendss/read.py. -/
namespace Ditto.Dss
open Ditto

/-- an object of the model, as far as `set_nominal_voltages` looks at it. `name`: `none` if the class has no attribute `name`; `volt`: `none` if
it has no attribute `nominal_voltage`; `conn`: `none` if it has no attribute `connecting_element`; `windings`: positions of the windings in the
list of objects. -/
structure VObj (K : Type) where
  name : Option (Option String) := none
  volt : Option (Option K) := none
  conn : Option (Option String) := none
  hasFrom : Bool := false
  fromName : Option String := none
  toName : Option String := none
  isTrafo : Bool := false
  windings : List Nat := []
deriving DecidableEq, Repr

/-- the voltages of the objects, by position -/
abbrev Volts (K : Type) := Nat → Option (Option K)

/-- an assignment -/
def setVolt {K : Type} (i : Nat) (x : Option K) (v : Volts K) : Volts K := fun j => if j = i then some x else v j

/-- `hasattr(obj, "nominal_voltage") and obj.nominal_voltage is None` -/
def unset {K : Type} : Option (Option K) → Bool
  | some none => true
  | _ => false

/-- `model[name]` after `set_names`: ditto/store.py:69-70, 116-120, ditto/models/base.py:26-35: the position of the last object with that name -/
def lastNamed {K : Type} (objs : List (VObj K)) (n : Option String) : Option Nat :=
  ((List.range objs.length).filter fun i => decide ((objs[i]?).bind (·.name) = some n)).getLast?

/-- the loop over the buses: ditto/readers/opendss/read.py:264-276. `s3` is `math.sqrt(3)`; the number of a bus is `dss.Bus.kVBase()`. A bus
without object is skipped. The assignment works for objects without the attribute too. -/
def setBuses {K : Type} [Field K] (s3 : K) (objs : List (VObj K)) (bs : List (String × K)) (v : Volts K) : Volts K :=
  bs.foldl (fun v b => match lastNamed objs (some (pyLower b.1)) with
    | none => v
    | some i => setVolt i (some (b.2 * s3 * 1000)) v) v

/-- `obj.nominal_voltage = model[name].nominal_voltage` with all errors caught -/
def takeVolt {K : Type} (objs : List (VObj K)) (i : Nat) (n : Option String) (v : Volts K) : Volts K :=
  match (lastNamed objs n).bind v with
  | none => v
  | some x => setVolt i x v

/-- `mapp`: ditto/readers/opendss/read.py:298 -/
def mapp {K : Type} (o : VObj K) (x : Nat) : Option String := if x = 0 then o.fromName else o.toName

/-- the body of the loop over `x`: ditto/readers/opendss/read.py:299-309 -/
def setWinding {K : Type} (objs : List (VObj K)) (o : VObj K) (x : Nat) (v : Volts K) : Volts K :=
  match o.windings[x]? with
  | none => v
  | some w => if unset (v w) then takeVolt objs w (mapp o x) v else v

/-- the voltage of an object that has none: ditto/readers/opendss/read.py:280-292 -/
def takeOwn {K : Type} (objs : List (VObj K)) (o : VObj K) (i : Nat) (v : Volts K) : Volts K :=
  match o.conn with
  | some c => takeVolt objs i c v
  | none => if o.hasFrom then takeVolt objs i o.fromName v else v

/-- the body of the loop over the objects: ditto/readers/opendss/read.py:279-309 -/
def objStep {K : Type} (objs : List (VObj K)) (v : Volts K) (i : Nat) : Volts K :=
  match objs[i]? with
  | none => v
  | some o =>
    if unset (v i) then takeOwn objs o i v
    else if o.isTrafo then setWinding objs o 2 (setWinding objs o 1 (setWinding objs o 0 v))
    else v

/-- `set_nominal_voltages`: ditto/readers/opendss/read.py:259-309: the voltage of every object afterwards -/
def setVoltages {K : Type} [Field K] (s3 : K) (objs : List (VObj K)) (bs : List (String × K)) : Volts K :=
  (List.range objs.length).foldl (objStep objs) (setBuses s3 objs bs fun i => (objs[i]?).bind (·.volt))

end Ditto.Dss
