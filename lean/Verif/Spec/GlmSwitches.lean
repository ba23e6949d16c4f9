import Verif.Model.GlmSwitches
import Verif.Spec.GlmParse
import Mathlib.Data.List.Perm.Basic

/-! What fuses and switches in a GridLAB-D file say. Only the types of the results are taken from the model. -/
namespace Ditto.Glm.Spec
open Ditto Glm

/-- the two kinds of objects: their class, the end of the attribute with the state of a phase, the word for an open phase -/
structure SwitchKind where
  cls : Text
  suffix : Text
  word : Text

/-- fuses have `phase_A_status`, which is `BLOWN` or `GOOD` -/
def fuses : SwitchKind := ⟨"fuse".toList, "status".toList, "BLOWN".toList⟩

/-- switches have `phase_A_state`, which is `OPEN` or `CLOSED` -/
def switches : SwitchKind := ⟨"switch".toList, "state".toList, "OPEN".toList⟩

/-- the attribute with the state of a phase -/
def SwitchKind.key (k : SwitchKind) (c : Char) : Text := "phase_".toList ++ [c] ++ "_".toList ++ k.suffix

/-- a text without the quotes around it -/
def Unquoted (t u : Text) : Prop :=
  ∃ a b, t = List.replicate a '"' ++ u ++ List.replicate b '"' ∧ u.head? ≠ some '"' ∧ u.getLast? ≠ some '"'

/-- the phases of the object are these letters, apart from the neutral N -/
def HasPhases (d : Decl) (cs : List Char) : Prop := ∃ t u, attrOf d "phases".toList = some t ∧ Unquoted t u ∧ cs = u.filter fun c => c ≠ 'N'

/-- a phase has its own state -/
def HasState (k : SwitchKind) (d : Decl) (c : Char) : Prop := (attrOf d (k.key c)).isSome

/-- whether a phase is open: its own state says so, or else the status of the object -/
def PhaseOpen (k : SwitchKind) (d : Decl) (c : Char) : Prop :=
  attrOf d (k.key c) = some k.word ∨ (attrOf d (k.key c) = none ∧ attrOf d "status".toList = some "OPEN".toList)

/-- all phases have their own states, or none and there is a status for all of them -/
def Described (k : SwitchKind) (d : Decl) (cs : List Char) : Prop :=
  (∀ c ∈ ['A', 'B', 'C'], HasState k d c ↔ c ∈ cs) ∨ ((∀ c ∈ ['A', 'B', 'C'], ¬HasState k d c) ∧ (attrOf d "status".toList).isSome)

/-- the wires are those of the phases, each one open or closed -/
def WiresSay (k : SwitchKind) (d : Decl) (cs : List Char) (ws : List GWire) : Prop :=
  (ws.map (·.phase)).Perm cs ∧ ∀ w ∈ ws, ∃ b, w.isOpen = some b ∧ (b = true ↔ PhaseOpen k d w.phase)

/-- name and ends -/
structure EndsSay (d : Decl) (r : GReadSwitch) : Prop where
  name : nameOf d = some r.name
  source : r.source = attrOf d "from".toList
  target : r.target = attrOf d "to".toList

end Ditto.Glm.Spec
