import Verif.Model.CymeLineCodes

/-! What references to the equipment of lines in CYME files have to be, for C121. -/
namespace Ditto.Cyme.Spec
open Ditto Glm

/-- a table of equipment has these data, and no other ones, for an identifier -/
def HasData {K D : Type} (codes : List (K × D)) (k : K) (d : D) : Prop := (k, d) ∈ codes ∧ ∀ d', (k, d') ∈ codes → d' = d

/-- a device with a name, a voltage and a current -/
def RatedDevice {N : Type} (l : DeviceLine N) (n : Text) (v a : N) : Prop :=
  l.name = some n ∧ n ≠ [] ∧ l.voltage = some v ∧ ∃ rest, l.amps = some a :: rest

/-- the reference of a device to its table -/
inductive DeviceRef {N : Type} [Field N] (whole : N → Text) (codes : List (Text × N × N)) (l : DeviceLine N) : List Text → Prop
  | rated {n : Text} {v a : N} : RatedDevice l n v a → HasData codes (n ++ '_' :: whole v ++ '_' :: whole a) (a, v / 1000) →
      DeviceRef whole codes l [n ++ '_' :: whole v ++ '_' :: whole a]
  | default : (∀ n v a, ¬RatedDevice l n v a) → DeviceRef whole codes l ["DEFAULT".toList]

/-- devices with the same name, voltage and current in whole numbers have the same data -/
def SameRatings {N : Type} (whole : N → Text) (ls : List (DeviceLine N)) : Prop :=
  ∀ l ∈ ls, ∀ l' ∈ ls, ∀ n v a n' v' a', RatedDevice l n v a → RatedDevice l' n' v' a' →
    n ++ '_' :: whole v ++ '_' :: whole a = n' ++ '_' :: whole v' ++ '_' :: whole a' → v = v' ∧ a = a'

/-- all have names, and with the same name they have the same data -/
def WellNamed {D : Type} (l : List (Option Text × D)) : Prop :=
  (∀ p ∈ l, ∃ n, p.1 = some n ∧ n ≠ []) ∧ ∀ p ∈ l, ∀ q ∈ l, p.1 = q.1 → p.2 = q.2

/-- the conductor of a phase in the row of a line: that of its last wire -/
def PhaseRef {D : Type} (codes : List (Text × D)) (ws : List (CodeWire D)) (phase : Text) (column : Text) : Prop :=
  ((∀ w ∈ ws, w.phase ≠ phase) ∧ column = "NONE".toList) ∨
    ∃ before w after, ws = before ++ w :: after ∧ w.phase = phase ∧ (∀ x ∈ after, x.phase ≠ phase) ∧ w.name = some column ∧ HasData codes column w.data

/-- the columns of a line by phases -/
structure RowRefs {D : Type} (codes : List (Text × D)) (ws : List (CodeWire D)) (id : Text) (phases : Nat) (columns : List Text) : Prop where
  row : ∃ a b c n₁ n₂, columns = [id, a, b, c, n₁, n₂] ++ (if phases = 0 ∨ 3 < phases then [] else ["N_ABOVE_".toList ++ phases.repr.toList ++ "PH".toList]) ∧
    PhaseRef codes ws "A".toList a ∧ PhaseRef codes ws "B".toList b ∧ PhaseRef codes ws "C".toList c ∧ PhaseRef codes ws "N2".toList n₂ ∧
    ((∀ w ∈ ws, w.phase ≠ "N".toList) → PhaseRef codes ws "N1".toList n₁) ∧ ((∀ w ∈ ws, w.phase ≠ "N1".toList) → PhaseRef codes ws "N".toList n₁)

end Ditto.Cyme.Spec
