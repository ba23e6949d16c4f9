import Verif.Model.DssFiles

/-! Time series in OpenDSS files: `write_timeseries` of ditto/writers/opendss/write.py, the references of loads and PV systems to them, and the
last line of the master file. -/
namespace Ditto.Dss
open Ditto Ditto.Json

/-- the attributes of a `Timeseries` that are used: ditto/models/timeseries.py:9-53. `scale`: `scale_factor`. -/
structure DSeries (K : Type) where
  label : Option String := none
  location : Option String := none
  kvar : Option String := none
  scale : Option K := none
  interval : Option K := none
  feeder : Option String := none
  substation : Option String := none
deriving DecidableEq, Repr

/-- a `New Loadshape` command: ditto/writers/opendss/write.py:1690-1696. `after`: what is written directly after the bracket of `mult`. -/
structure ShapeText (K : Type) where
  name : String
  npts : Nat
  interval : K
  file : String
  after : String
deriving DecidableEq, Repr

/-- the command as text: ditto/writers/opendss/write.py:1690. `shown`: how a number is shown. -/
def shapeLine {K : Type} (shown : K → String) (t : ShapeText K) : String :=
  "New Loadshape." ++ t.name ++ " npts= " ++ t.npts.repr ++ " interval=" ++ shown t.interval ++ " mult = (file=" ++ t.file ++ ")" ++ t.after ++ "\n\n"

/-- the state of the first loop and the attributes of the writer it changes: `substation_text_map` and `feeder_text_map`,
`timeseries_datasets`, `timeseries_format` (true for "daily"), `timeseries_solve_format`, `timeseries_iternumber`, whether the variable
`filename` has a value, and the files of scaled data: ditto/writers/opendss/write.py:92-110, 1613-1615 -/
structure SeriesState (K : Type) where
  split : Split (ShapeText K) := {}
  datasets : List (String × List (String × String)) := []
  formats : List (String × Bool) := []
  solve : Option Bool := none
  number : Option Nat := none
  bound : Bool := false
  scaled : List (String × List (List K)) := []
deriving DecidableEq, Repr

/-- exactly one day of hours, minutes or seconds: ditto/writers/opendss/write.py:1667-1669 -/
def oneDay (n : Nat) : Bool := n = 24 || n = 24 * 60 || n = 24 * 60 * 60

/-- ditto/writers/opendss/write.py:1662-1664 -/
def lessOf : Option Nat → Nat → Nat
  | none, n => n
  | some m, n => min m n

/-- ditto/writers/opendss/write.py:1671-1675 -/
def solveOf (old : Option Bool) (n : Nat) : Option Bool :=
  if oneDay n then (match old with | none => some true | some b => some b) else some false

/-- the numbers of a series that is not skipped: ditto/writers/opendss/write.py:1662-1675 and 1723-1740 -/
def notePoints {K : Type} (st : SeriesState K) (name : String) (n : Nat) : SeriesState K :=
  { st with number := some (lessOf st.number n), formats := setKey name (oneDay n) st.formats, solve := solveOf st.solve n }

/-- whether the location is already there: ditto/writers/opendss/write.py:1652-1656 -/
def seriesKnown {K : Type} (st : SeriesState K) (k loc : String) : Bool :=
  (((st.datasets.lookup k).getD []).lookup loc).isSome && (st.split.texts.lookup k).isSome

/-- the text and the name of a series are kept: ditto/writers/opendss/write.py:1689-1701 -/
def keepShape {K : Type} (st : SeriesState K) (k loc : String) (t : ShapeText K) : SeriesState K :=
  { st with
    split := { st.split with texts := setKey k ((st.split.texts.lookup k).getD [] ++ [t]) st.split.texts }
    datasets := setKey k (setKey loc t.name ((st.datasets.lookup k).getD [])) st.datasets }

/-- a series that is not to be scaled: ditto/writers/opendss/write.py:1642-1701. `read`: the rows of a file of the output folder, or the
exception of `pd.read_csv`; `remove`: `remove_loadshapes`. -/
def plainSeries {K : Type} [Field K] (read : String → Py (List (List K))) (remove : Bool) (k label loc : String) (s : DSeries K)
    (st : SeriesState K) : Py (SeriesState K) :=
  if seriesKnown st k loc then .ok { st with bound := true }
  else match read loc with
    | .error e => .error e
    | .ok rows =>
      let st' := notePoints { st with bound := true } label rows.length
      .ok (if remove then st' else keepShape st' k loc ⟨label, rows.length, s.interval.getD 1, loc, s.kvar.getD ""⟩)

/-- `timeseries.iloc[:, [0]] * i.scale_factor`: ditto/writers/opendss/write.py:1728 -/
def scaledRows {K : Type} [Field K] (c : K) (rows : List (List K)) : List (List K) := rows.map fun r => r.modifyHead (· * c)

/-- `scaled_data_location`: ditto/writers/opendss/write.py:1711-1715. `percent`: `str(int(c * 100)).zfill(3)`. -/
def scaledName {K : Type} (percent : K → String) (loc : String) (c : K) : String :=
  String.ofList (loc.toList.take (loc.toList.length - 4)) ++ "__scaled" ++ percent c ++ String.ofList (loc.toList.drop (loc.toList.length - 4))

/-- a series that is to be scaled: ditto/writers/opendss/write.py:1704-1768. The text has a place "interv", for which `format` is given no
value: `KeyError`. -/
def scaledSeries {K : Type} [Field K] (read : String → Py (List (List K))) (percent : K → String) (remove : Bool) (k label loc : String) (c : K)
    (st : SeriesState K) : Py (SeriesState K) :=
  if seriesKnown st k loc then .ok { st with bound := true }
  else match read loc with
    | .error e => .error e
    | .ok rows =>
      if remove then
        let st' := notePoints { st with bound := true } (label ++ "_scaled") rows.length
        .ok { st' with scaled := setKey (scaledName percent loc c) (scaledRows c rows) st'.scaled }
      else .error .keyError

/-- ditto/writers/opendss/write.py:1636-1642: the group is noted before anything else -/
def noteGroup {K : Type} (g : String × String) (st : SeriesState K) : SeriesState K :=
  { st with
    split := { st.split with subs := addGroup g.1 g.2 st.split.subs }
    datasets := match st.datasets.lookup (groupKey g) with | none => setKey (groupKey g) [] st.datasets | some _ => st.datasets }

/-- one series: ditto/writers/opendss/write.py:1616-1768. The message for a series without label or location has the name of the series before. -/
def seriesStep {K : Type} [Field K] [DecidableEq K] (read : String → Py (List (List K))) (percent : K → String) (remove sf ss : Bool)
    (st : SeriesState K) (s : DSeries K) : Py (SeriesState K) :=
  let g := groupOf sf ss s.feeder s.substation
  let st' := noteGroup g st
  match s.location, s.label with
  | some loc, some label =>
    match s.scale with
    | none => plainSeries read remove (groupKey g) label loc s st'
    | some c => if c = 1 then plainSeries read remove (groupKey g) label loc s st'
      else scaledSeries read percent remove (groupKey g) label loc c st'
  | _, _ => if st'.bound then .ok st' else .error .unboundLocalError

/-- the first loop: ditto/writers/opendss/write.py:1613-1768 -/
def seriesLoop {K : Type} [Field K] [DecidableEq K] (read : String → Py (List (List K))) (percent : K → String) (remove sf ss : Bool)
    (series : List (DSeries K)) : Py (SeriesState K) :=
  series.foldlM (seriesStep read percent remove sf ss) {}

/-- `write_timeseries`: the state and the files: ditto/writers/opendss/write.py:1605-1832 -/
def writeSeries {K : Type} [Field K] [DecidableEq K] (read : String → Py (List (List K))) (percent : K → String) (remove sf ss : Bool)
    (ord : List String → List String) (series : List (DSeries K)) : Py (SeriesState K × Written (ShapeText K)) :=
  match seriesLoop read percent remove sf ss series with
  | .error e => .error e
  | .ok st =>
    match writeSubs sf ss ord st.split.texts st.split.subs {} with
    | .error e => .error e
    | .ok w => .ok (st, w)

/-- a reference to a shape: ditto/writers/opendss/write.py:2043-2054 and 1482-1493. `true` is "daily", `false` is "yearly". -/
def shapeRef {K : Type} (st : SeriesState K) (k loc : String) : Py (Bool × String) :=
  match st.datasets.lookup k with
  | none => .error .keyError
  | some d =>
    match d.lookup loc with
    | none => .error .keyError
    | some name =>
      match st.formats.lookup name with
      | none => .error .keyError
      | some b => .ok (b, name)

/-- the series of a load: ditto/writers/opendss/write.py:2030-2057. The names of the series are used, whether files are separated or not. -/
def loadRefs {K : Type} (st : SeriesState K) : List (DSeries K) → Py (List (Bool × String))
  | [] => .ok []
  | s :: ss =>
    match s.label, s.location with
    | some _, some loc =>
      match shapeRef st (groupKey (s.substation.getD "DEFAULT", s.feeder.getD "DEFAULT")) loc with
      | .error e => .error e
      | .ok r =>
        match loadRefs st ss with
        | .error e => .error e
        | .ok rs => .ok (r :: rs)
    | _, _ => loadRefs st ss

/-- the series of a PV system of the group `g`: ditto/writers/opendss/write.py:1470-1496. `isFile`: the location is that of a file. -/
def pvRefs {K : Type} (st : SeriesState K) (isFile : String → Bool) (g : String × String) : List (DSeries K) → Py (List (Bool × String))
  | [] => .ok []
  | s :: ss =>
    match s.location with
    | none => pvRefs st isFile g ss
    | some loc =>
      if isFile loc then
        match shapeRef st (groupKey g) loc with
        | .error e => .error e
        | .ok r =>
          match pvRefs st isFile g ss with
          | .error e => .error e
          | .ok rs => .ok (r :: rs)
      else pvRefs st isFile g ss

/-- the last command of a master file: "Solve", or its mode and number, which may both be "None":
ditto/writers/opendss/write.py:3996-4000, 4092-4096, with `has_timeseries` of 1618 -/
def solveCommand {K : Type} (series : List (DSeries K)) (st : SeriesState K) : Option (Option Bool × Option Nat) :=
  if series.isEmpty then none else some (st.solve, st.number)

end Ditto.Dss
