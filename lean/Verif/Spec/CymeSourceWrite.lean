import Verif.Model.CymeSourceWrite

/-! What the CYME writer has to write for power sources, for C123. -/
namespace Ditto.Cyme.Spec
open Ditto Glm

/-- a source at a node that is written -/
def SourceAt {N : Type} (s : PowerRec N) (e : Text) : Prop := s.dropped = false ∧ s.sourcebus = true ∧ s.element = some e

/-- a source that is connected to nothing -/
def Loose {N : Type} (s : PowerRec N) : Prop := s.dropped = false ∧ s.sourcebus = true ∧ s.element = none

/-- a number in kV, or an empty cell -/
def KiloCell {N : Type} [Field N] (v : Option N) (c : SourceCell N) : Prop := (v = none ∧ c = .blank) ∨ ∃ x, v = some x ∧ c = .num (x / 1000)

/-- an impedance in two cells, or empty cells -/
def ImpedanceCells {N : Type} (z : Option (N × N)) (r x : SourceCell N) : Prop :=
  (z = none ∧ r = .blank ∧ x = .blank) ∨ ∃ a b, z = some (a, b) ∧ r = .num a ∧ x = .num b

/-- three angles, a third of a turn apart -/
def AnglesIn {N : Type} [Field N] (a : Option N) (c₁ c₂ c₃ : SourceCell N) : Prop :=
  (a = none ∧ c₁ = .blank ∧ c₂ = .blank ∧ c₃ = .blank) ∨ ∃ x, a = some x ∧ c₁ = .num x ∧ c₂ = .num (x - 120) ∧ c₃ = .num (x + 120)

/-- The row of a source at a node: its voltage, or that of the node, its angles, its impedances, with the zero sequence impedance also for the negative sequence,
and its own voltage as operating voltage. -/
def EquivOf {N : Type} [Field N] (voltageOf : Text → Option N) (s : PowerRec N) (e : Text) (row : EquivRow N) : Prop :=
  row.node = some e ∧ ∃ v a₁ a₂ a₃ r₁ x₁ r₀ x₀ r₂ x₂ o,
    row.cells = [v, a₁, a₂, a₃, r₁, x₁, r₀, x₀, r₂, x₂, o, o, o] ∧
    KiloCell (if s.voltage = none then voltageOf e else s.voltage) v ∧ AnglesIn s.angle a₁ a₂ a₃ ∧ ImpedanceCells s.positive r₁ x₁ ∧
    ImpedanceCells s.zero r₀ x₀ ∧ ImpedanceCells s.zero r₂ x₂ ∧ KiloCell s.voltage o

/-- a number divided by something, or an empty cell -/
def ScaledCell {N : Type} [Field N] (v : Option N) (by' : N) (c : SourceCell N) : Prop := (v = none ∧ c = .blank) ∨ ∃ x, v = some x ∧ c = .num (x / by')

/-- an impedance in two cells, or two texts DEFAULT -/
def ImpedanceOrDefault {N : Type} (z : Option (N × N)) (r x : SourceCell N) : Prop :=
  (z = none ∧ r = .default ∧ x = .default) ∨ ∃ a b, z = some (a, b) ∧ r = .num a ∧ x = .num b

/-- The cells of a source at a node in the equipment file: power in MVA, voltage in kV, twice, impedances and angle. -/
def SubstationOf {N : Type} [Field N] (voltageOf : Text → Option N) (s : PowerRec N) (e : Text) (cells : List (SourceCell N)) : Prop :=
  ∃ m v r₁ x₁ r₀ x₀ a, cells = [m, v, v, r₁, x₁, r₀, x₀, r₀, x₀, a] ∧ ScaledCell s.power 1000000 m ∧
    KiloCell (if s.voltage = none then voltageOf e else s.voltage) v ∧ ImpedanceOrDefault s.positive r₁ x₁ ∧ ImpedanceOrDefault s.zero r₀ x₀ ∧
    ((s.angle = none ∧ a = .blank) ∨ ∃ x, s.angle = some x ∧ a = .num x)

end Ditto.Cyme.Spec
