import Verif.Model.CymeLoads

/-! What the rows of the customer loads of a CYME file say, independent of the reader. -/
namespace Ditto.Cyme.Spec
open Ditto Glm Cyme

/-- what a row says: powers in kW and kvar -/
structure Demand where
  sec : Text
  /-- an earlier row has the same section -/
  again : Bool
  phases : Text
  p : ℝ
  q : ℝ
  users : ℝ
  connected : Option ℝ

/-- The powers `p` and `q` that two values stand for, by the type of the values: 0 for powers, 1 for apparent power and power factor in
percent, 2 for active power and power factor, in percent or as a fraction. `connected` is the apparent power of the transformer, which counts
if there is no other. -/
inductive Stated (connected : Option ℝ) : ℤ → ℝ → ℝ → ℝ → ℝ → Prop
  | zero {t : ℤ} : Stated connected t 0 0 0 0
  | power {p q : ℝ} : Stated connected 0 p q p q
  | apparent {s f p q : ℝ} : (s ≠ 0 ∨ connected = none) → 0 ≤ f → 100 * p = s * f → p ^ 2 + q ^ 2 = s ^ 2 → 0 ≤ q → Stated connected 1 s f p q
  | connected {s f p q : ℝ} : connected = some s → 0 < f → 100 * p = s * f → p ^ 2 + q ^ 2 = s ^ 2 → 0 ≤ q → Stated connected 1 0 f p q
  | factor {p q f g : ℝ} : 0 < f → (f ≤ 1 ∧ g = f ∨ 1 < f ∧ f ≤ 100 ∧ 100 * g = f) → p ^ 2 = g ^ 2 * (p ^ 2 + q ^ 2) → 0 ≤ p * q →
      Stated connected 2 p f p q

/-- a value of a row that is a number -/
def Number {N : Type} (num : Text → Option N) (s : Values) (k : Text) (x : N) : Prop := ∃ t, getEntry k s = some t ∧ num t = some x

/-- The row has this section, these phases, users and transformers. Its key is the section with stars for earlier rows (C73). -/
def Form (inp : LoadInput) (row : Text × Values) (d : Demand) : Prop :=
  (∃ name n, row.1 = name ++ List.replicate n '*' ∧ '*' ∉ name ∧ d.sec = name.map Char.toLower ∧ (d.again = true ↔ 0 < n)) ∧
  getEntry "loadphase".toList row.2 = some d.phases ∧ d.phases ≠ [] ∧
  Number inp.num row.2 "numberofcustomer".toList d.users ∧
  (getEntry "connectedkva".toList row.2 = none ∧ d.connected = none ∨ ∃ c, Number inp.num row.2 "connectedkva".toList c ∧ d.connected = some c)

/-- the row has values of this type -/
def Given (inp : LoadInput) (row : Text × Values) (t : ℤ) (a b : ℝ) : Prop :=
  Number inp.int row.2 "valuetype".toList t ∧ Number inp.num row.2 "value1".toList a ∧ Number inp.num row.2 "value2".toList b

/-- the row says this -/
def Says (inp : LoadInput) (row : Text × Values) (d : Demand) : Prop :=
  Form inp row d ∧ ∃ t a b, Given inp row t a b ∧ Stated d.connected t a b d.p d.q

/-- the rows of a section -/
def ofSection (ds : List Demand) (sec : Text) : List Demand := ds.filter fun d => d.sec = sec

/-- the rows of a section that have active power, or the only one -/
noncomputable def counted (ds : List Demand) (sec : Text) : List Demand :=
  (ofSection ds sec).filter fun d => d.p ≠ 0 ∨ (ofSection ds sec).length = 1

/-- the phases of the rows, each with its share of the powers, in W and var -/
noncomputable def shares (ds : List Demand) : List (Char × Option (ℝ × ℝ)) :=
  ds.flatMap fun d => d.phases.map fun ph => (ph, some (1000 * d.p / d.phases.length, 1000 * d.q / d.phases.length))

/-- The shares of constant current, constant power and constant impedance of a class of customers, each of active and of reactive power. The
class gives them in percent. -/
def Percentages (inp : LoadInput) (c : Values) (zs : List ℝ) : Prop :=
  ∃ ip iq pp pq zp zq : ℝ, Number inp.num c "constantcurrentip".toList ip ∧ Number inp.num c "constantcurrentiq".toList iq ∧
    Number inp.num c "constantpowerpp".toList pp ∧ Number inp.num c "constantpowerpq".toList pq ∧
    Number inp.num c "constantimpedancezp".toList zp ∧ Number inp.num c "constantimpedancezq".toList zq ∧
    zs = [ip / 100, iq / 100, pp / 100, pq / 100, zp / 100, zq / 100]

/-- the words for connections -/
def wirings : List (List Text × Text) :=
  [(["0".toList, "yg".toList, "1".toList, "y".toList], "Y".toList),
    (["2".toList, "delta".toList, "3".toList, "open delta".toList, "4".toList, "closed delta".toList], "D".toList),
    (["5".toList, "zg".toList], "Z".toList)]

/-- the connection that a word stands for, in any case of letters -/
def wiring (word : Text) : Option Text := (wirings.find? fun w => word.map Char.toLower ∈ w.1).map (·.2)

/-- the load has what the rows say -/
structure Serves (inp : LoadInput) (sec : Text) (ds : List Demand) (l : LoadRec) : Prop where
  name : l.name = "Load_".toList ++ sec ++ (ds.flatMap (·.phases)).flatMap fun ph => ['_', ph]
  phases : l.phases.map (fun x => (x.phase, x.powers)) = shares ds
  feeder : l.feeder = getEntry sec inp.sectionFeeder
  element : l.element = (getEntry sec inp.sectionData).bind fun d => getEntry "fromnodeid".toList d
  connection : l.connection = ((getEntry sec inp.loads).bind fun d => getEntry "connection".toList d).bind wiring
  users : l.users = (ds.getLast?).map (·.users)
  kva : l.kva = if ds.filterMap (·.connected) = [] then none else some (1000 * (ds.filterMap (·.connected)).sum)

end Ditto.Cyme.Spec
