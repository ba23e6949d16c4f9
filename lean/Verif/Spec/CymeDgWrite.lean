import Verif.Model.CymeDgWrite
import Verif.Spec.CymeTable

/-! What the CYME writer has to write for photovoltaic systems and storages, for C125. -/
namespace Ditto.Cyme.Spec
open Ditto Glm

/-- the active power of an inverter; it is a tenth larger than the device if nothing else is known -/
def inverterActive (c : ConverterIn) : Option ℚ :=
  match c.active with
  | some a => some a
  | none => c.rated.map (· * (11 / 10))

/-- its reactive power -/
def inverterReactive (c : ConverterIn) : Option ℚ :=
  match c.reactive with
  | some q => some q
  | none => c.rated.map (· * (11 / 10))

/-- its apparent power; the active one if there is no rating of the reactive power -/
def inverterApparent (sqrt : ℚ → ℚ) (c : ConverterIn) : Option ℚ :=
  (inverterActive c).map fun a =>
    match c.reactive with
    | some q => sqrt (q ^ 2 + a ^ 2)
    | none => a

/-- a number in a cell, which is empty if there is none -/
def ValueCell (pr : ℚ → Text) (x : Option ℚ) (c : Text) : Prop := (∀ v, x = some v → c = pr v) ∧ (x = none → c = [])

/-- a power in kilowatts -/
def KilowattCell (pr : ℚ → Text) (x : Option ℚ) (c : Text) : Prop := (∀ v, x = some v → c = pr (v / 1000)) ∧ (x = none → c = [])

/-- names of controls and their codes -/
def controlNumbers : List (Text × Text) :=
  [("voltvar".toList, "1".toList), ("voltvar_vars_over_watts".toList, "1".toList), ("voltvar_watts_over_vars".toList, "0".toList),
    ("voltvar_fixed_vars".toList, "2".toList), ("voltvar_novars".toList, "3".toList), ("voltwatt".toList, "5".toList),
    ("watt_powerfactor".toList, "6".toList), ("powerfactor".toList, "10".toList)]

/-- the cell has the code of a control -/
def CodeCell (t c : Text) : Prop := (∀ e ∈ controlNumbers, e.1 = t → c = e.2) ∧ (t ∉ controlNumbers.map (·.1) → c = [])

/-- the cells of an injection -/
def InjectionCells (pr : ℚ → Text) (t : Text) (x : Option ℚ) (a b : Text) : Prop :=
  (∀ v, t = "voltvar_fixed_vars".toList → x = some v → a = pr v ∧ b = "2".toList) ∧
  (t ≠ "voltvar_fixed_vars".toList ∨ x = none → a = [] ∧ b = [])

/-- the cells of a curve -/
def CurveCells (t : Text) (c : ControlIn) (a b : Text) : Prop :=
  (t = "voltvar_watts_over_vars".toList ∨ t = "voltvar_vars_over_watts".toList → ∀ x, c.varCurve = some x → a = x ∧ b = []) ∧
  (t = "voltwatt".toList → ∀ x, c.wattVoltCurve = some x → a = x ∧ b = "0".toList) ∧
  (t = "watt_powerfactor".toList → ∀ x, c.wattCurve = some (some x) → a = x ∧ b = "0".toList) ∧
  (t ∉ ["voltvar_watts_over_vars".toList, "voltvar_vars_over_watts".toList, "voltwatt".toList, "watt_powerfactor".toList] → a = [] ∧ b = [])

/-- a storage that is written: it has a name and is connected to something -/
def StoreAt (p : StoreIn) (n e : Text) : Prop := p.name = some n ∧ p.element = some e ∧ p.known = true

/-- a photovoltaic system that is written -/
def PvAt (p : PvIn) (n e : Text) : Prop := p.name = some n ∧ p.element = some e ∧ p.known = true

end Ditto.Cyme.Spec
