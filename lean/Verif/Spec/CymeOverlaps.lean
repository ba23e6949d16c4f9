import Verif.Model.CymeOverlaps
import Mathlib.Data.List.Forall2

/-! What sections of CYME files with several elements should become, independent of the reader. -/
namespace Ditto.Cyme.Spec
open Ditto Glm Cyme

/-- The elements are in series from the node `a` to the node `b`, with the nodes `ns` between them. -/
inductive Series : Text → Text → List SectionPart → List Text → Prop
  | last {a b : Text} {e : SectionPart} : e.start = some a → e.stop = some b → Series a b [e] []
  | step {a n b : Text} {e : SectionPart} {es : List SectionPart} {ns : List Text} : e.start = some a → e.stop = some n → Series n b es ns →
      Series a b (e :: es) (n :: ns)

/-- one element, except for its nodes -/
structure SamePart (e e' : SectionPart) : Prop where
  kind : e'.kind = e.kind
  name : e'.name = e.name
  place : e'.place = e.place

/-- it connects two nodes -/
def Connecting (e : SectionPart) : Prop := e.kind ∈ [PartKind.regulator, .transformer, .line]

/-- all elements of the section that connect nodes are between its nodes -/
def Between (es : List SectionPart) (a b : Text) : Prop := ∀ e ∈ es, Connecting e → e.start = some a ∧ e.stop = some b

/-- regulators first, then transformers, then lines -/
def kindRank : PartKind → Nat
  | .regulator => 0
  | .transformer => 1
  | _ => 2

/-- `e'` is the load, storage or capacitor `e` at the node `b` -/
def PlacedAt (b : Text) (e e' : SectionPart) : Prop :=
  if e.kind = .other then e' = e else e' = { e with place := some b }

end Ditto.Cyme.Spec
