import Verif.Model.SynNodes
import Verif.Spec.SynLoads

/-! What a Synergi database says about sources and nodes. Only the types of tables and results are taken from the model. -/
namespace Ditto.Syn.Spec
open Ditto Glm Syn

section
variable {K : Type}

/-- `extra` has the feeders of sections that are no rows of the table of feeders, each once -/
structure Others (db : HeadDb K) (extra : List Text) : Prop where
  nodup : extra.Nodup
  members : ∀ t, t ∈ extra ↔ (∃ s ∈ db.secs, t = s.feeder.map Char.toLower) ∧ ∀ r ∈ db.feeders, t ≠ r.id.map Char.toLower

/-- each feeder has one substation -/
def OneSubstation (db : HeadDb K) : Prop := ∀ p ∈ db.feeders, ∀ q ∈ db.feeders, shown p.id = shown q.id → shown p.substation = shown q.substation

/-- `s` is the source of the feeder `r` -/
structure SourceAt [Field K] (db : HeadDb K) (r : FeederRow K) (s : SynSource K) : Prop where
  name : s.name = shown r.id
  connecting : s.connecting = shown r.id
  substation : OneSubstation db → s.substation = some (shown r.substation)
  voltage : s.voltage = 1000 * r.kv
  perUnit : s.perUnit = r.level / 120
  phases : s.phases = ['A', 'B', 'C']
  isSourcebus : s.isSourcebus = true
  connection : s.connection = (r.connection.map Char.toUpper).take 1
  angle : s.angle = r.angle
  impedances : s.z1 = r.pos ∧ s.z0 = r.zero

/-- the section starts or ends at this node -/
def Meets (s : SecRow) (r : NodeRow K) : Prop := Same s.fromNode r.id ∨ Same s.toNode r.id

instance (s : SecRow) (r : NodeRow K) : Decidable (Meets s r) := inferInstanceAs (Decidable (_ ∨ _))

/-- the phases of the sections at a node -/
def lettersAt (secs : List SecRow) (r : NodeRow K) : List Char := ['A', 'B', 'C', 'N'].filter fun c => decide (∃ s ∈ secs, Meets s r ∧ c ∈ phasesOf s)

end
end Ditto.Syn.Spec
