import Verif.Spec.CymeTable
import Verif.Model.CymeNodes

/-! What the header, the nodes and the head nodes of a CYME file are, independent of the reader. -/
namespace Ditto.Cyme.Spec
open Ditto Glm Cyme

/-- keys with a star for each earlier one that is the same -/
def starred : List Text → List Text → List Text
  | _, [] => []
  | done, k :: ks => (k ++ List.replicate (done.count k) '*') :: starred (done ++ [k]) ks

/-- the file has one table with this header -/
def OneTable (headers content cols : List Text) (rows : List (List Text)) : Prop :=
  ∃ pre h f lines blank post, content = pre ++ h :: f :: (lines ++ blank :: post) ∧ (∀ l ∈ pre, ¬Heads headers l) ∧ Heads headers h ∧
    FormatLine f cols ∧ List.Forall₂ RowLine lines rows ∧ blank.length ≤ 2 ∧ ∀ l ∈ post, ¬Heads headers l

/-- the file has one table with this header, with at least one row, and ends after it -/
def EndTable (headers content cols : List Text) (rows : List (List Text)) : Prop :=
  rows ≠ [] ∧ ∃ pre h f lines, content = pre ++ h :: f :: lines ∧ (∀ l ∈ pre, ¬Heads headers l) ∧ Heads headers h ∧ FormatLine f cols ∧
    List.Forall₂ RowLine lines rows

/-- the file has one table with this header, with two formats one after the other -/
def TwoFormats (headers content cols : List Text) (rows : List (List Text)) (cols' : List Text) (rows' : List (List Text)) : Prop :=
  ∃ pre h f lines f' lines' blank post, content = pre ++ h :: f :: (lines ++ f' :: (lines' ++ blank :: post)) ∧ (∀ l ∈ pre, ¬Heads headers l) ∧
    Heads headers h ∧ FormatLine f cols ∧ List.Forall₂ RowLine lines rows ∧ FormatLine f' cols' ∧ List.Forall₂ RowLine lines' rows' ∧
    blank.length ≤ 2 ∧ ∀ l ∈ post, ¬Heads headers l

/-- the row has these two numbers -/
def Point {N : Type} (num : Text → Option N) (cols row : List Text) (kx ky : Text) (p : N × N) : Prop :=
  (∃ c, Cell cols row kx c ∧ num c = some p.1) ∧ ∃ c, Cell cols row ky c ∧ num c = some p.2

/-- the voltage of the row, if there is one -/
def Rated {N : Type} (num : Text → Option N) (cols row : List Text) (v : Option N) : Prop :=
  (∀ c, Cell cols row "ratedvoltage".toList c → v = num c) ∧ ((¬∃ c, Cell cols row "ratedvoltage".toList c) → v = none)

/-- a node with one position -/
def NodeOk {N : Type} (num : Text → Option N) (cols row : List Text) (n : NodeRec N) : Prop :=
  n.name = keyOf row ∧ (∃ p, Point num cols row "coordx".toList "coordy".toList p ∧ n.points = [p]) ∧ Rated num cols row n.voltage

/-- a bus: its first position, those of its connectors in the order of the file, its last one -/
def BusOk {N : Type} (num : Text → Option N) (cols row ccols : List Text) (conns : List (List Text)) (n : NodeRec N) : Prop :=
  n.name = keyOf row ∧ Rated num cols row n.voltage ∧
  ∃ p q mid, Point num cols row "coordx1".toList "coordy1".toList p ∧ Point num cols row "coordx2".toList "coordy2".toList q ∧
    List.Forall₂ (fun c m => Point num ccols c "coordx".toList "coordy".toList m) (conns.filter fun c => keyOf c = keyOf row) mid ∧
    n.points = p :: (mid ++ [q])

/-- a line with this word, in any case of letters -/
def Mentions (word line : Text) : Prop := word <:+: line.map Char.toLower

/-- a line that gives a version -/
def VersionLine (line version : Text) : Prop :=
  Mentions "cyme_version".toList line ∧ ∃ a e, '=' ∉ a ∧ '=' ∉ version ∧ Net.pyStrip version = version ∧ Eol e ∧ line = a ++ '=' :: (version ++ e)

end Ditto.Cyme.Spec
