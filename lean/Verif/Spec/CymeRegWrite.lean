import Verif.Spec.CymeTable
import Verif.Model.CymeRegWrite

/-! What the regulators in a CYME file should say, independent of the writer. -/
namespace Ditto.Cyme.Spec
open Ditto Glm Cyme

/-- the section of a regulator: the names of its nodes, or their digest if they are long -/
def sectionOf (hash : Text → Text) (r : RegIn) : Text :=
  let name := (if r.changes then r.stop ++ "_reg".toList else r.start) ++ "_".toList ++ r.stop
  if name.length ≤ 64 then name else hash name

/-- the letters of the phases of the regulators -/
def lettersOf (g : List RegIn) : Text := g.flatMap fun r => r.phases.map (·.1)

/-- the value of a phase: that of the regulator with the phase, or 0 -/
def valueFor (f : Char × Text × Text → Text) (g : List RegIn) (c : Char) : Text :=
  match (g.flatMap (·.phases)).find? fun p => p.1 = c with
  | none => "0".toList
  | some p => f p

/-- a missing value is empty -/
def orEmpty : Option Text → Text
  | none => []
  | some t => t

/-- a missing value is `None` -/
def orNone : Option Text → Text
  | none => "None".toList
  | some t => t

/-- a missing place is empty -/
def placeOf : Option (Text × Text) → Text × Text
  | none => ([], [])
  | some p => p

/-- the two regulators differ only in nodes, phases and compensators -/
def Alike (a b : RegIn) : Prop :=
  a.place = b.place ∧ a.band = b.band ∧ a.ct = b.ct ∧ a.pt = b.pt ∧ a.setpoint = b.setpoint ∧ a.kva = b.kva ∧ a.kvln = b.kvln

/-- The regulator has phases A, B or C, each at most once, and values without commas. -/
structure RegOk (hash : Text → Text) (r : RegIn) : Prop where
  phases : r.phases ≠ []
  letters : ∀ p ∈ r.phases, p.1 = 'A' ∨ p.1 = 'B' ∨ p.1 = 'C'
  once : (r.phases.map (·.1)).Nodup
  numbers : ∀ p ∈ r.phases, ∀ t ∈ [p.2.1, p.2.2], ',' ∉ t
  place : ',' ∉ (placeOf r.place).1 ∧ ',' ∉ (placeOf r.place).2
  values : ',' ∉ orEmpty r.band ∧ ',' ∉ orEmpty r.ct ∧ ',' ∉ orEmpty r.pt ∧ ',' ∉ orEmpty r.setpoint ∧ ',' ∉ r.kva ∧ ',' ∉ r.kvln
  power : r.kva ≠ []
  name : ',' ∉ sectionOf hash r

/-- the regulators of a section -/
def regsIn (hash : Text → Text) (regs : List RegIn) (sec : Text) : List RegIn := regs.filter fun r => sectionOf hash r = sec

/-- The row of the section `sec` with the regulators `g`: their phases, in order if there are several regulators, the data they have in common,
and the compensators of each phase. `eq` is the name of their equipment. -/
def RowOf (sec : Text) (g : List RegIn) (eq row : Text) : Prop :=
  ∃ ph : Text, ph.Perm (lettersOf g) ∧ (2 ≤ g.length → ph.Pairwise fun a b => a.toNat ≤ b.toNat) ∧ ∀ r ∈ g,
    row = joinCells [sec, (placeOf r.place).1, (placeOf r.place).2, ph, orEmpty r.band, orEmpty r.ct, orEmpty r.pt, orEmpty r.setpoint,
      orEmpty r.setpoint, orEmpty r.setpoint, eq, sec, "M".toList, "10".toList, "10".toList, "T".toList, valueFor (·.2.1) g 'A',
      valueFor (·.2.1) g 'B', valueFor (·.2.1) g 'C', valueFor (·.2.2) g 'A', valueFor (·.2.2) g 'B', valueFor (·.2.2) g 'C', "0".toList,
      "0".toList, "0".toList, "0".toList]

/-- the row of the equipment `eq` of a regulator -/
def equipmentRow (eq : Text) (r : RegIn) : Text :=
  joinCells [eq, r.kva, orNone r.band, orNone r.ct, orNone r.pt, "0".toList, r.kvln, "10".toList, "10".toList, "32".toList, "0".toList]

end Ditto.Cyme.Spec
