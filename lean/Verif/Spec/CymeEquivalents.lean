import Verif.Spec.CymeLines
import Verif.Model.CymeEquivalents

/-! What network equivalents of CYME files are, for C118. -/
namespace Ditto.Cyme.Spec
open Ditto Glm

/-- a part of the network that CYME has reduced: resistances and reactances between the phases, the loads at both ends and the lengths -/
structure Reduced (N : Type) where
  r : Char → Char → N
  x : Char → Char → N
  startKw : Char → N
  startKvar : Char → N
  stopKw : Char → N
  stopKvar : Char → N
  length : Char → N

/-- the phases with the letters that the columns have for them -/
def threePhases : List (Char × Char) := [('A', 'a'), ('B', 'b'), ('C', 'c')]

/-- all numbers of the row are there -/
structure ReducedRow {N : Type} (num : Text → Option N) (settings : Values) (d : Reduced N) : Prop where
  r : ∀ p ∈ threePhases, ∀ q ∈ threePhases, numberIn num settings ("zr".toList ++ [p.2, q.2]) = some (d.r p.1 q.1)
  x : ∀ p ∈ threePhases, ∀ q ∈ threePhases, numberIn num settings ("zx".toList ++ [p.2, q.2]) = some (d.x p.1 q.1)
  startKw : ∀ p ∈ threePhases, numberIn num settings ("loadfromkw".toList ++ [p.2]) = some (d.startKw p.1)
  startKvar : ∀ p ∈ threePhases, numberIn num settings ("loadfromkvar".toList ++ [p.2]) = some (d.startKvar p.1)
  stopKw : ∀ p ∈ threePhases, numberIn num settings ("loadtokw".toList ++ [p.2]) = some (d.stopKw p.1)
  stopKvar : ∀ p ∈ threePhases, numberIn num settings ("loadtokvar".toList ++ [p.2]) = some (d.stopKvar p.1)
  length : ∀ p ∈ threePhases, numberIn num settings ("totallength".toList ++ [p.2]) = some (d.length p.1)

/-- the section of an equivalent is known, with its nodes and its network -/
structure EquivalentSection (secs : List (Text × Values)) (feeders : List (Text × Text)) (key sec start stop feeder : Text) (ends : Values) : Prop where
  named : SectionOf key sec
  section_ : getEntry sec secs = some ends
  start : getEntry "fromnodeid".toList ends = some start
  stop : getEntry "tonodeid".toList ends = some stop
  network : getEntry sec feeders = some feeder

/-- the phases are those of `A`, `B` and `C`, in this order, that have a resistance -/
def Resistive {N : Type} [Zero N] (d : Reduced N) (phases : List Char) : Prop :=
  List.Sublist phases ['A', 'B', 'C'] ∧ ∀ p ∈ ['A', 'B', 'C'], p ∈ phases ↔ d.r p p ≠ 0

/-- the powers of all phases, in W and var -/
def PowersOf {N : Type} [Field N] (phases : List Char) (kw kvar : Char → N) (l : List (Char × Option (N × N))) : Prop :=
  List.Forall₂ (fun p e => e = (p, some (1000 * kw p, 1000 * kvar p))) phases l

/-- the line of an equivalent -/
structure EquivalentLine {N : Type} [Field N] [LinearOrder N] (d : Reduced N) (sec start stop feeder : Text) (phases : List Char)
    (l : ReadEquivalent N) : Prop where
  name : l.name = sec ++ "_ne_line".toList
  start : l.start = start
  stop : l.stop = stop
  feeder : l.feeder = feeder
  wires : l.wires = phases
  impedance : List.Forall₂ (fun p row => List.Forall₂ (fun q z => z = (d.r p q, d.x p q)) phases row) phases l.impedance
  longest : (∃ p ∈ ['A', 'B', 'C'], l.length = d.length p) ∧ ∀ p ∈ ['A', 'B', 'C'], d.length p ≤ l.length

end Ditto.Cyme.Spec
