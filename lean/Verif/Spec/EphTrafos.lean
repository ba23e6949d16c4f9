import Verif.Model.EphTrafos
import Verif.Spec.EphBuses

/-! What the sheet Multiphase Transformer of an ePHASOR file should say. -/
namespace Ditto.Eph.Spec
open Ditto Ditto.Eph
open Ditto.Glm (Text)

variable {K : Type}

/-- the first winding has one phase -/
def isSingle (t : EphTrafo K) : Bool := match t.windings with
  | [] => false
  | w :: _ => w.phases.length == 1

/-- node and name of a single phase transformer, joined -/
def keyOf (t : EphTrafo K) : Option Text :=
  if isSingle t then match t.source, t.name with
    | some e, some n => some (e ++ n)
    | _, _ => none
  else none

/-- those of all single phase transformers -/
def singleKeys (trafos : List (EphTrafo K)) : List Text := trafos.filterMap keyOf

/-- the columns of the buses: those of the phases of the winding, in order -/
def BusesSay (element : Option Text) (w : EphWinding K) (buses : List (Option Text)) : Prop :=
  buses.length = 3 ∧ ∀ i < 3, (∀ pw, w.phases[i]? = some pw → ∃ e p b, element = some e ∧ pw.phase = some p ∧ buses[i]? = some (some b) ∧ BusOf e p b) ∧
    (w.phases[i]? = none → buses[i]? = some none)

/-- the column of the connection -/
def ConnectionSays (w : EphWinding K) (cell : Option Text) : Prop :=
  (w.connection = some ['Y'] → cell = some "wye".toList) ∧ (w.connection = some ['D'] → cell = some "delta".toList) ∧
    (w.connection ≠ some ['Y'] → w.connection ≠ some ['D'] → cell = none)

/-- the columns of a winding: kV, kVA, and the resistance as a fraction, while the model has it in percent -/
def WindingSays [Field K] (element : Option Text) (w : EphWinding K) (c : WindingCells K) : Prop :=
  BusesSay element w c.buses ∧ ConnectionSays w c.connection ∧ (∃ v, w.voltage = some v ∧ c.voltage = some (v / 1000)) ∧
    (∃ p, w.power = some p ∧ c.power = some (p / 1000)) ∧ ∃ r, w.resistance = some r ∧ c.resistance = some (r / 100)

/-- the tap of a phase; it is 0 if it is not known -/
def tapOf [Zero K] (pw : EphPhaseWinding K) : K := match pw.tap with
  | some t => t
  | none => 0

/-- the columns of the taps: that of the phase of the second winding, or else that of the phase of the first one -/
def TapsSay [Zero K] (w1 w2 : EphWinding K) (taps : List (Option K)) : Prop :=
  ∀ i < 3, taps[i]? = some ((w2.phases[i]?.map tapOf).or (w1.phases[i]?.map tapOf))

/-- the row of a transformer with the two windings; the reactance is in percent -/
def TrafoSays [Field K] (t : EphTrafo K) (w1 w2 : EphWinding K) (r : TrafoRow K) : Prop :=
  (∀ n ∈ t.name, r.id = some n) ∧ r.phases = some w1.phases.length ∧ WindingSays t.source w1 r.first ∧ WindingSays t.sink w2 r.second ∧ TapsSay w1 w2 r.taps ∧
    (∃ x, t.reactances.head? = some x ∧ r.x = some x)

/-- the winding can be written -/
def WindingOk (element : Option Text) (w : EphWinding K) : Prop :=
  w.power ≠ none ∧ w.voltage ≠ none ∧ w.resistance ≠ none ∧ w.phases.length ≤ 3 ∧ ∀ pw ∈ w.phases, element ≠ none ∧ pw.phase ≠ none

/-- the transformer can be written -/
def TrafoOk (t : EphTrafo K) : Prop :=
  t.reactances ≠ [] ∧ (isSingle t → t.name ≠ none) ∧ ∃ w1 w2 ws, t.windings = w1 :: w2 :: ws ∧ WindingOk t.source w1 ∧ WindingOk t.sink w2

/-- the model has the nodes of all windings, with their phases -/
def TrafosHaveNodes (nodes : List (EphNode K)) (trafos : List (EphTrafo K)) : Prop :=
  ∀ t ∈ trafos, ∀ w1 w2 ws, t.windings = w1 :: w2 :: ws → ∀ e w, (e, w) ∈ [(t.source, w1), (t.sink, w2)] → ∀ pw ∈ w.phases, ∀ p ∈ pw.phase, ∀ m ∈ e,
    ∃ n ∈ nodes, n.name = some m ∧ p.map Char.toLower ∈ lettersOf n.phases

end Ditto.Eph.Spec
