import Verif.Spec.CymeRegRead
import Verif.Model.CymeCaps

/-! What the capacitors of a CYME file are, independent of the reader. -/
namespace Ditto.Cyme.Spec
open Ditto Glm Cyme

/-- all rows of a file, with the kinds and the columns of their tables -/
def fileRows (ts : List (List Text × Table)) : List (List Text × List Text × List Text) :=
  ts.flatMap fun t => t.2.rows.map fun r => (t.1, t.2.cols, r)

/-- no two tables have rows for the same thing -/
def KeysApart (ts : List (List Text × Table)) : Prop :=
  ts.Pairwise fun t t' => ∀ r ∈ t.2.rows, ∀ r' ∈ t'.2.rows, keyOf r ≠ keyOf r'

/-- the row for a piece of equipment, with its columns, if there is one -/
inductive EquipmentFor (ets : List (List Text × Table)) (hs : List Text) (k : Text) : Option (List Text × List Text) → Prop
  | found {t : Table} {row : List Text} : (hs, t) ∈ ets → FirstRow t.rows k row → EquipmentFor ets hs k (some (t.cols, row))
  | missing : '*' ∉ k → (∀ t ∈ ets, ∀ r ∈ t.2.rows, keyOf r ≠ k) → EquipmentFor ets hs k none

/-- the row for the equipment that is named in column `k` -/
def DeviceOf (ets : List (List Text × Table)) (hs cols row : List Text) (k : Text) (e : Option (List Text × List Text)) : Prop :=
  (∃ eq, Inner cols row k eq ∧ EquipmentFor ets hs eq e) ∨ ((¬∃ c, Cell cols row k c) ∧ e = none)

/-- the section of a row -/
structure Placed (secs : List (Text × Values)) (feeders : List (Text × Text)) (row : List Text) (ends : Values) (feeder phases : Text) : Prop where
  section_ : getEntry ((keyOf row).map Char.toLower) secs = some ends
  phased : getEntry "phase".toList ends = some phases
  network : getEntry ((keyOf row).map Char.toLower) feeders = some feeder

/-- a number of the equipment -/
def FromEquipment {N : Type} (P : List Text → List Text → Option N → Prop) (e : Option (List Text × List Text)) (v : Option N) : Prop :=
  (∀ cols row, e = some (cols, row) → P cols row v) ∧ (e = none → v = none)

/-- the numbers in the three columns for the phases -/
def BankIs {N : Type} (num : Text → Option N) (cols row : List Text) (k : Text) (b : Char → N) : Prop :=
  ∀ p ∈ ['A', 'B', 'C'], ∃ c, Cell cols row (columnOf k p) c ∧ num c = some (b p)

/-- one of the three columns is missing, or there is no power in any of them -/
def Idle {N : Type} [Semiring N] [LinearOrder N] (num : Text → Option N) (cols row : List Text) (k : Text) : Prop :=
  (∃ p ∈ ['A', 'B', 'C'], ¬∃ c, Cell cols row (columnOf k p) c) ∨ ∃ b, BankIs num cols row k b ∧ ∀ p ∈ ['A', 'B', 'C'], b p ≤ 0

/-- the three columns have power -/
def Bank {N : Type} [Semiring N] [LinearOrder N] (num : Text → Option N) (cols row : List Text) (k : Text) (b : Char → N) : Prop :=
  BankIs num cols row k b ∧ ∃ p ∈ ['A', 'B', 'C'], 0 < b p

/-- The power of phase `p`: that of the fixed capacitors, or of the switched ones if there are no fixed ones, or else of the equipment. -/
structure PowerOk {N : Type} [Semiring N] [LinearOrder N] (num : Text → Option N) (cols row : List Text) (e : Option (List Text × List Text)) (p : Char)
    (v : Option N) : Prop where
  fixed : ∀ b, Bank num cols row "fixedkvar".toList b → v = some (1000 * b p)
  switched : Idle num cols row "fixedkvar".toList → ∀ b, Bank num cols row "switchedkvar".toList b → v = some (1000 * b p)
  equipment : Idle num cols row "fixedkvar".toList → Idle num cols row "switchedkvar".toList →
    FromEquipment (fun cols row v => Kilo num cols row "kvar".toList v) e v

/-- the connections by their codes -/
def capWirings : List (Text × Text) :=
  [("0".toList, "Y".toList), ("Y".toList, "Y".toList), ("1".toList, "Y".toList), ("YNG".toList, "Y".toList), ("2".toList, "D".toList),
    ("D".toList, "D".toList)]

/-- the connection for a code, which is the code itself if it is not known -/
def IsWiring (code w : Text) : Prop := (code, w) ∈ capWirings ∨ ((∀ p ∈ capWirings, p.1 ≠ code) ∧ w = code)

/-- The voltage of a capacitor that is not connected in delta, with `n` phases: the voltage of the row is between a line and neutral, and that
between two lines is wanted for three phases. `s3` is the square root of 3. -/
def VoltageOk {N : Type} [Semiring N] (num : Text → Option N) (s3 : N) (cols row : List Text) (w : Option Text) (n : Nat)
    (e : Option (List Text × List Text)) (v : Option N) : Prop :=
  (∀ c x, Cell cols row "kv".toList c → num c = some x → (n = 3 → v = some (1000 * x * s3)) ∧
    (n ≠ 3 → n = 1 ∨ w = some "Y".toList → v = some (1000 * x)) ∧
    (n ≠ 3 → n ≠ 1 → w ≠ some "Y".toList → FromEquipment (fun cols row v => Kilo num cols row "kv".toList v) e v)) ∧
  ((¬∃ c x, Cell cols row "kv".toList c ∧ num c = some x) → FromEquipment (fun cols row v => Kilo num cols row "kv".toList v) e v)

/-- what all capacitors have -/
structure CapacitorOk {N : Type} (ends : Values) (feeder phases : Text) (row : List Text) (c : ReadCapacitor N) : Prop where
  name : c.name = "Cap_".toList ++ (keyOf row).map Char.toLower
  element : c.element = getEntry "fromnodeid".toList ends
  network : c.feeder = feeder
  each : c.phases.map (·.1) = phases

/-- the capacitor of a row of the series capacitors -/
structure SeriesOk {N : Type} (num : Text → Option N) (ends : Values) (feeder phases : Text) (row : List Text)
    (e : Option (List Text × List Text)) (c : ReadCapacitor N) : Prop extends CapacitorOk ends feeder phases row c where
  reactance : FromEquipment (fun cols row v => NumberAt num cols row "reactance".toList v) e c.reactance
  rest : c.connection = none ∧ c.voltage = none ∧ ∀ p ∈ c.phases, p.2 = none

/-- the capacitor of a row of the shunt capacitors -/
structure ShuntOk {N : Type} [Semiring N] [LinearOrder N] (num : Text → Option N) (s3 : N) (ends : Values) (feeder phases : Text) (cols row : List Text)
    (e : Option (List Text × List Text)) (c : ReadCapacitor N) : Prop extends CapacitorOk ends feeder phases row c where
  connection : (∀ t, Inner cols row "connection".toList t → ∃ w, IsWiring t w ∧ c.connection = some w) ∧
    ((¬∃ t, Cell cols row "connection".toList t) → c.connection = none)
  voltage : VoltageOk num s3 cols row c.connection phases.length e c.voltage
  power : ∀ p ∈ c.phases, PowerOk num cols row e p.1 p.2
  reactance : c.reactance = none

/-- the numbers of a row of the shunt capacitors can be read -/
def Readable {N : Type} [Semiring N] [LinearOrder N] (num : Text → Option N) (cols row : List Text) : Prop :=
  ∀ k ∈ ["fixedkvar".toList, "switchedkvar".toList], Idle num cols row k ∨ ∃ b, Bank num cols row k b

/-- the row for the equipment of a row of the settings -/
def DeviceFor (ets : List (List Text × Table)) (r : List Text × List Text × List Text) (e : Option (List Text × List Text)) : Prop :=
  (r.1 = seriesSettingQuery.headers ∧ DeviceOf ets seriesQuery.headers r.2.1 r.2.2 "eqid".toList e) ∨
  (r.1 = shuntSettingQuery.headers ∧ DeviceOf ets shuntQuery.headers r.2.1 r.2.2 "shuntcapacitorid".toList e)

/-- a row of the settings for a capacitor on a known section, with numbers that can be read -/
def GoodRow {N : Type} [Semiring N] [LinearOrder N] (num : Text → Option N) (secs : List (Text × Values)) (feeders : List (Text × Text))
    (r : List Text × List Text × List Text) : Prop :=
  (∃ ends feeder phases, Placed secs feeders r.2.2 ends feeder phases ∧ ∀ p ∈ phases, p ∈ ['A', 'B', 'C']) ∧
  (r.1 = shuntSettingQuery.headers → Readable num r.2.1 r.2.2)

end Ditto.Cyme.Spec
