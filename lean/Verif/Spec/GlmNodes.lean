import Verif.Model.GlmNodes
import Verif.Spec.GlmParse

/-! What is expected of nodes after writing and reading a GridLAB-D file. -/
namespace Ditto.Glm.Spec
open Ditto Glm

/-- a text without blanks that does not look like the end of an object -/
def Token (v : Text) : Prop := (∀ c ∈ v, c.isWhitespace = false) ∧ v.getLast? ≠ some '}'

/-- numbers can be written and read -/
structure Numbers {K : Type} (shown : K → Text) (flt : Text → Option K) : Prop where
  inverse : ∀ x, flt (shown x) = some x
  token : ∀ x, Token (shown x)

/-- a node with a name without blanks and with phases of one letter -/
structure WritableNode {K : Type} (n : GNode K) (name : Text) : Prop where
  named : n.name = some name
  token : Token ('n' :: name)
  phases : ∀ p ∈ n.phases, ∃ c : Char, p = [c] ∧ c.isWhitespace = false

/-- the node that is read is the node that was written, apart from its name -/
def SameNode {K : Type} (n : GNode K) (r : GReadNode K) : Prop := r.phases = n.phases ∧ ∀ v, n.voltage = some v → r.voltage = some v

/-- the schema has nodes with these attributes -/
def NodeSchema (schema : Schema) : Prop :=
  ∃ ps, schema "node".toList = some ps ∧ ∀ k ∈ ["name".toList, "bustype".toList, "phases".toList, "nominal_voltage".toList], k ∈ ps

end Ditto.Glm.Spec
