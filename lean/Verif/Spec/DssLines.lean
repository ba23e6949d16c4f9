import Verif.Model.DssLines
import Verif.Props.Symmetrize

/-! What is assumed of OpenDSS for lines. -/
namespace Ditto.Spec
open Ditto Ditto.Dss Ditto.Mat

/-- the lower triangle -/
def lowerTriangle (m : List (List ℚ)) : List (List ℚ) := m.mapIdx fun i row => row.take (i + 1)

/-- OpenDSS reports the lower triangle of a matrix, and a single row as a list -/
def reported : List (List ℚ) → RawMatrix
  | [row] => .flat row
  | m => .rows (lowerTriangle m)

/-- a symmetric matrix with `n` rows -/
def SymmetricSquare (n : Nat) (m : List (List ℚ)) : Prop := IsSquare n m ∧ ∀ i j v, HasEntry m i j v → HasEntry m j i v

/-- OpenDSS reports a line as it has been given, with the parameters of its code (in the units of the code, which are those of the line). -/
structure ReportsLine (t : LineText) (code : Params) (d : LineData) : Prop where
  name : pyLower d.name = pyLower t.name
  switch : d.switch = t.switch
  enabled : d.enabled = (match t.enabled with | some b => b | none => true)
  units : pyLower d.units = t.units
  length : ∀ v, t.length = some v → d.length = some v
  bus1 : ∀ b ns, t.bus1 = some (b, ns.map some) → ∃ b', pyLower b' = pyLower b ∧ d.bus1 = some (b', if ns = [] then none else some ns)
  bus2 : ∀ b ns, t.bus2 = some (b, ns.map some) → ∃ b', pyLower b' = pyLower b ∧ d.bus2 = some (b', if ns = [] then none else some ns)
  phases : d.phases = some t.phases
  r : ∀ m, code.lookup "Rmatrix" = some (.mat m) → d.r = some (reported m)
  x : ∀ m, code.lookup "Xmatrix" = some (.mat m) → d.x = some (reported m)
  c : ∀ m, code.lookup "Cmatrix" = some (.mat m) → d.c = some (reported m)
  normamps : ∀ v, code.lookup "normamps" = some (.num v) → d.normamps = some v
  emergamps : ∀ v, code.lookup "emergamps" = some (.num v) → d.emergamps = some v
  faultrate : ∀ v, code.lookup "Faultrate" = some (.num v) → d.faultrate = some v

end Ditto.Spec
