import Verif.Model.CymeSectionWrite

/-! Names of the equipment of lines that the CYME writer makes, and the columns that refer to them: parts of `write_network_file` and
`write_equipment_file` of ditto/writers/cyme/write.py. The data of an equipment are of any type `D`, for devices they are the current and the voltage in
kV of which the text is made. -/
namespace Ditto.Cyme
open Ditto Glm

/-- `d[k]` for dictionaries in the order of insertion, with keys of any type -/
def codeOf {K D : Type} [DecidableEq K] (k : K) : List (K × D) → Option D
  | [] => none
  | e :: l => if e.1 = k then some e.2 else codeOf k l

/-- `d[k] = v` -/
def putCode {K D : Type} [DecidableEq K] (k : K) (d : D) : List (K × D) → List (K × D)
  | [] => [(k, d)]
  | e :: l => if e.1 = k then (k, d) :: l else e :: putCode k d l

/-- the keys that have a value: the loops of ditto/writers/cyme/write.py:898-901, 966-969, 1379-1382, 1545-1548 -/
def keysOf {K D : Type} [DecidableEq D] (d : D) (codes : List (K × D)) : List K := (codes.filter fun e => e.2 = d).map (·.1)

/-- A switch, fuse, recloser or breaker: its `nameclass`, its nominal voltage, and the ampacities of its wires that are not dropped. -/
structure DeviceLine (N : Type) where
  name : Option Text
  voltage : Option N
  amps : List (Option N)

/-- the name with the voltage and current: ditto/writers/cyme/write.py:932-936; `whole` is `str(int(x))` -/
def deviceName {N : Type} (whole : N → Text) (name : Text) (v a : N) : Text := name ++ '_' :: whole v ++ '_' :: whole a

/-- The codes after a device with this name and these data, and the columns: ditto/writers/cyme/write.py:931-994, 1011-1074, 1091-1154, 1171-1234. -/
def deviceCode {D : Type} [DecidableEq D] (codes : List (Text × D)) (key : Text) (d : D) : List Text × List (Text × D) :=
  match codeOf key codes with
  | none => ([key], putCode key d codes)
  | some d' =>
    if d' ≠ d then
      match keysOf d codes with
      | [] => ([key], putCode key d codes)
      | ks => (ks, codes)
    else ([key], codes)

/-- A device: ditto/writers/cyme/write.py:919-997, 999-1077, 1079-1157, 1159-1237. The data are the current and the voltage in kV. -/
def deviceStep {N : Type} [Field N] [DecidableEq N] (whole : N → Text) (codes : List (Text × N × N)) (l : DeviceLine N) :
    Py (List Text × List (Text × N × N)) :=
  match l.name with
  | none => .ok (["DEFAULT".toList], codes)
  | some n =>
    if n = [] then .ok (["DEFAULT".toList], codes)
    else
      match l.amps with
      | [] => .error .indexError
      | a :: _ =>
        match a, l.voltage with
        | some a, some v => .ok (deviceCode codes (deviceName whole n v a) (a, v / 1000))
        | _, _ => .ok (["DEFAULT".toList], codes)

/-- A wire of a line: its phase, its `nameclass` and its data (diameter, radius, resistance, ampacities). Wires without a phase are not represented. -/
structure CodeWire (D : Type) where
  phase : Text
  name : Option Text
  data : D

/-- Conductors and `ID_cond`: ditto/writers/cyme/write.py:317, 320. -/
structure Conductors (D : Type) where
  codes : List (Text × D) := []
  count : Nat := 0
deriving DecidableEq

/-- A wire: ditto/writers/cyme/write.py:881-908. The result has what is kept in `cond_id`. -/
def conductorStep {D : Type} [DecidableEq D] (s : Conductors D) (w : CodeWire D) : Text × Conductors D :=
  let unnamed :=
    match (keysOf w.data s.codes).getLast? with
    | some k => (k, s)
    | none =>
      ((s.count + 1).repr.toList,
        { codes := putCode ("conductor_".toList ++ (s.count + 1).repr.toList) w.data s.codes, count := s.count + 1 })
  match w.name with
  | none => unnamed
  | some n =>
    if n = [] then unnamed
    else
      match codeOf n s.codes with
      | none => (n, { s with codes := putCode n w.data s.codes })
      | some _ => (n, s)

/-- The wires of a line, with `cond_id`: ditto/writers/cyme/write.py:788-791, 881-908. -/
def conductorLoop {D : Type} [DecidableEq D] : Conductors D → List (Text × Text) → List (CodeWire D) → List (Text × Text) × Conductors D
  | s, refs, [] => (refs, s)
  | s, refs, w :: ws => conductorLoop (conductorStep s w).2 (putCode w.phase (conductorStep s w).1 refs) ws

/-- `tt["CondID_A"]` and so on: ditto/writers/cyme/write.py:1393-1416 -/
def conductorColumn (refs : List (Text × Text)) (phase : Text) : Text :=
  match codeOf phase refs with
  | none => "NONE".toList
  | some r => r

/-- columns of a line by phases: ditto/writers/cyme/write.py:1560-1601 -/
def byPhaseColumns (id : Text) (refs : List (Text × Text)) (phases : Nat) : List Text :=
  let c := fun p : String => conductorColumn refs p.toList
  [id, c "A", c "B", c "C"] ++
    (if c "N1" ≠ "NONE".toList ∧ c "N2" ≠ "NONE".toList then [c "N1", c "N2"]
     else if c "N" ≠ "NONE".toList then [c "N", c "N2"]
     else [c "N1", c "N2"]) ++
    (if phases = 1 then ["N_ABOVE_1PH".toList] else if phases = 2 then ["N_ABOVE_2PH".toList]
     else if phases = 3 then ["N_ABOVE_3PH".toList] else [])

/-- Cables and `ID_cable`: ditto/writers/cyme/write.py:307-308. -/
structure Cables (D : Type) where
  codes : List (Text × D) := []
  count : Nat := 0
deriving DecidableEq

/-- A cable with the name of the first wire: ditto/writers/cyme/write.py:1364-1388. -/
def cableStep {D : Type} [DecidableEq D] (s : Cables D) (name : Option Text) (d : D) : List Text × Cables D :=
  let fresh : List Text × Cables D :=
    (["cable_".toList ++ (s.count + 1).repr.toList],
      { codes := putCode ("cable".toList ++ (s.count + 1).repr.toList) d s.codes, count := s.count + 1 })
  let unnamed :=
    if s.codes = [] then fresh
    else
      match keysOf d s.codes with
      | [] => fresh
      | ks => (ks.map fun k => "cable_".toList ++ k, s)
  match name with
  | none => unnamed
  | some n => if n = [] then unnamed else ([n], { s with codes := putCode n d s.codes })

/-- keys of overhead lines: the first one without a name has a number -/
inductive CodeKey
  | number (n : Nat)
  | name (t : Text)
deriving DecidableEq

/-- `str(ID)`: ditto/writers/cyme/write.py:1547, 4717 -/
def CodeKey.text : CodeKey → Text
  | .number n => n.repr.toList
  | .name t => t

/-- Codes of overhead lines and `ID`: ditto/writers/cyme/write.py:305-306. -/
structure Overheads (D : Type) where
  codes : List (CodeKey × D) := []
  count : Nat := 0
deriving DecidableEq

/-- A line with three phases and an impedance matrix: ditto/writers/cyme/write.py:1527-1554. -/
def overheadStep {D : Type} [DecidableEq D] (s : Overheads D) (name : Option Text) (d : D) : List Text × Overheads D :=
  let unnamed :=
    if s.codes = [] then
      (["line_".toList ++ (s.count + 1).repr.toList], { codes := putCode (.number (s.count + 1)) d s.codes, count := s.count + 1 })
    else
      match keysOf d s.codes with
      | [] =>
        (["line_".toList ++ (s.count + 1).repr.toList],
          { codes := putCode (.name ("line_".toList ++ (s.count + 1).repr.toList)) d s.codes, count := s.count + 1 })
      | ks => (ks.map (·.text), s)
  match name with
  | none => unnamed
  | some n => if n = [] then unnamed else ([n], { s with codes := putCode (.name n) d s.codes })

/-- one after the other, for the codes of a table -/
def codeLoop {S R C : Type} (step : S → R → C × S) : S → List R → List C × S
  | s, [] => ([], s)
  | s, r :: rs => ((step s r).1 :: (codeLoop step (step s r).2 rs).1, (codeLoop step (step s r).2 rs).2)

/-- the loop over devices, which may fail: ditto/writers/cyme/write.py:402-405, 919-1237 -/
def deviceLoop {N : Type} [Field N] [DecidableEq N] (whole : N → Text) :
    List (Text × N × N) → List (DeviceLine N) → Py (List (List Text) × List (Text × N × N))
  | codes, [] => .ok ([], codes)
  | codes, l :: ls =>
    match deviceStep whole codes l with
    | .error e => .error e
    | .ok r =>
      match deviceLoop whole r.2 ls with
      | .error e => .error e
      | .ok r' => .ok (r.1 :: r'.1, r'.2)

/-- The table `[CONDUCTOR]`: ditto/writers/cyme/write.py:4768-4775. `standard` are the data of the first row. -/
def conductorRows {D : Type} (standard : D) (codes : List (Text × D)) : List (Text × D) :=
  ("DEFAULT".toList, standard) :: codes.filter fun e => e.1 ≠ "DEFAULT".toList

/-- Rows with identifiers and data, for overhead lines: ditto/writers/cyme/write.py:4716-4717. For devices and cables the keys are the identifiers:
ditto/writers/cyme/write.py:4637-4640, 4653-4656, 4669-4672, 4685-4688, 4699-4700. -/
def overheadRows {D : Type} (codes : List (CodeKey × D)) : List (Text × D) := codes.map fun e => (e.1.text, e.2)

end Ditto.Cyme
