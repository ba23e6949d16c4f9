import Verif.Model.DssNodes

/-! Power sources in OpenDSS files: the circuit of `write_master_file` of ditto/writers/opendss/write.py, and `parse_power_source` and
`parse_feeder_metadata` of ditto/readers/opendss/read.py. -/
namespace Ditto.Dss
open Ditto

/-! ### Writer -/

/-- the attributes of a `PowerSource`: ditto/models/power_source.py:21-98. Impedances are pairs of resistance and reactance. -/
structure DSource (K : Type) where
  name : Option String := none
  isSource : Bool := false
  bus : Option String := none
  volt : Option K := none
  pu : Option K := none
  z1 : Option (K × K) := none
  z0 : Option (K × K) := none
  angle : Option K := none
  rated : Option K := none
  emergency : Option K := none
  phases : List String := []
deriving DecidableEq, Repr

/-- the values written for a source. `pu`: `none` is the text "None". -/
structure SourceText (K : Type) where
  bus : String
  pu : Option K := none
  kV : Option K := none
  z1 : Option (K × K) := none
  z0 : Option (K × K) := none
deriving DecidableEq, Repr

/-- `"_src" in s` on characters -/
def hasSrc : List Char → Bool
  | [] => false
  | c :: cs => ['_', 's', 'r', 'c'].isPrefixOf (c :: cs) || hasSrc cs

/-- `cleaned_name`: ditto/writers/opendss/write.py:3875-3878. The last four characters are dropped wherever "_src" is. -/
def sourceName (n : String) : String :=
  if hasSrc n.toList then String.ofList (n.toList.take (n.toList.length - 4)) else n

/-- one source of the master file: ditto/writers/opendss/write.py:3872-3931. A source without name raises `TypeError` in `"_src" in None`. -/
def sourceText {K : Type} [Field K] (s : DSource K) : Py (SourceText K) :=
  match s.name with
  | none => .error .typeError
  | some n => .ok
    { bus := cleanName (s.bus.getD (sourceName n))
      pu := s.pu
      kV := s.volt.map (· / 1000)
      z1 := s.z1
      z0 := s.z0 }

/-- all sources of the model, written one after the other into the one command `New Circuit.Full_Network`:
ditto/writers/opendss/write.py:3870-3931 -/
def masterSources {K : Type} [Field K] : List (DSource K) → Py (List (SourceText K))
  | [] => .ok []
  | s :: ss =>
    if s.isSource then
      match sourceText s with
      | .error e => .error e
      | .ok t =>
        match masterSources ss with
        | .error e => .error e
        | .ok ts => .ok (t :: ts)
    else masterSources ss

/-! ### Reader -/

/-- what OpenDSS reports of a voltage source. Numbers that are missing or cannot be cast are `none`. `z0l`, `z1l`: the lists `Z0`, `Z1`, `none`
if these are no lists. -/
structure SourceData (K : Type) where
  name : String
  enabled : Bool := true
  bus : Option BusRef := none
  basekv : Option K := none
  pu : Option K := none
  baseMVA : Option K := none
  mvasc3 : Option K := none
  z0l : Option (List (Option K)) := none
  r0 : Option K := none
  x0 : Option K := none
  z1l : Option (List (Option K)) := none
  r1 : Option K := none
  x1 : Option K := none
  angle : Option K := none
deriving DecidableEq, Repr

/-- ditto/readers/opendss/read.py:400-420, the same at 422-442 -/
def readSrcImpedance {K : Type} (l : Option (List (Option K))) (r x : Option K) : Option (K × K) :=
  match l with
  | some [some a, some b] => some (a, b)
  | some _ => none
  | none =>
    match r, x with
    | some a, some b => some (a, b)
    | _, _ => none

/-- the variables `X`, `Y` after the loop over the file of coordinates: ditto/readers/opendss/read.py:454-494 -/
def lastCoords (flt : List Char → Option ℚ) (d : Char) : Option (List (List Char)) → Coord × Coord
  | none => (.none, .none)
  | some ls => (ls.filterMap (readCoord flt d)).foldl (fun _ c => c.2) (.none, .none)

/-- a `PowerSource` that was read. Attributes that are not assigned keep their default: `per_unit` 1, `phase_angle` 0. -/
structure RSource (K : Type) where
  name : String
  isSource : Bool := true
  bus : Option String := none
  volt : Option K := none
  pu : K
  z1 : Option (K × K) := none
  z0 : Option (K × K) := none
  angle : K
  rated : Option K := none
  emergency : Option K := none
  phases : List (Option String) := []
  position : Option ℚ × Option ℚ
deriving DecidableEq, Repr

/-- a `Feeder_metadata` -/
structure Meta (K : Type) where
  name : String
  headnode : Option String := none
  substation : Option String := none
  transformer : Option String := none
  volt : Option K := none
deriving DecidableEq, Repr

/-- the assignment of the position: a text raises `TraitError`, which is not caught: ditto/readers/opendss/read.py:496-499 -/
def sourcePosition (c : Coord × Coord) : Py (Option ℚ × Option ℚ) :=
  match coordValue c.1, coordValue c.2 with
  | some x, some y => .ok (x, y)
  | _, _ => .error .traitError

/-- one source: ditto/readers/opendss/read.py:353-507 -/
def readSource {K : Type} [Field K] (pos : Option ℚ × Option ℚ) (s : SourceData K) : RSource K :=
  { name := s.name
    bus := s.bus.map (·.1)
    volt := s.basekv.map (· * 1000)
    pu := s.pu.getD 1
    z1 := readSrcImpedance s.z1l s.r1 s.x1
    z0 := readSrcImpedance s.z0l s.r0 s.x0
    angle := s.angle.getD 0
    rated := s.baseMVA.map (· * 1000000)
    emergency := s.mvasc3.map (· * 1000000)
    phases := [1, 2, 3].map ofDssPhase
    position := pos }

/-- ditto/readers/opendss/read.py:508-513 -/
def sourceMeta {K : Type} (r : RSource K) : Option (Meta K) :=
  r.bus.map fun b => { name := b ++ "_src", headnode := some b, substation := some b, volt := r.volt }

/-- the loop of `parse_power_source`: ditto/readers/opendss/read.py:337-517. The state: sources, metadata, and the name of the feeder of all
objects (`self.source_name`). -/
def readSourcesLoop {K : Type} [Field K] (c : Coord × Coord) :
    List (SourceData K) → List (RSource K) × List (Meta K) × String → Py (List (RSource K) × List (Meta K) × String)
  | [], st => .ok st
  | s :: ss, st =>
    if s.enabled then
      match sourcePosition c with
      | .error e => .error e
      | .ok pos =>
        match sourceMeta (readSource pos s) with
        | none => readSourcesLoop c ss (st.1 ++ [readSource pos s], st.2.1, st.2.2)
        | some m => readSourcesLoop c ss (st.1 ++ [readSource pos s], st.2.1 ++ [m], m.name)
    else readSourcesLoop c ss st

/-- `parse_power_source`, with the name of the feeder that `parse` sets before: ditto/readers/opendss/read.py:229, 337-517 -/
def readSources {K : Type} [Field K] (flt : List Char → Option ℚ) (d : Char) (file : Option (List (List Char))) (ss : List (SourceData K)) :
    Py (List (RSource K) × List (Meta K) × String) :=
  readSourcesLoop (lastCoords flt d file) ss ([], [], "Sourcebus")

/-! ### Feeder metadata -/

/-- `x.lower().replace(".", "")` -/
def undot (l : List Char) : String := String.ofList ((l.map Char.toLower).filter fun c => decide (c ≠ '.'))

/-- a line of the feeder file: ditto/readers/opendss/read.py:318: exactly four fields, otherwise `ValueError` -/
def feederFields (line : List Char) : Py (List Char × List Char × List Char × List Char) :=
  match (Net.splitCh ' ' line).map Net.pyStrip with
  | [n, s, f, t] => .ok (n, s, f, t)
  | _ => .error .valueError

/-- the dictionaries `feeders`, `substations` and `substation_transformers` by feeder: nodes, substation, transformer:
ditto/readers/opendss/read.py:319-326. The name for the transformer is taken from the variable `sub`. -/
def addFeeder (d : List (String × List String × String × String)) (x : List Char × List Char × List Char × List Char) :
    List (String × List String × String × String) :=
  match d.lookup (String.ofList x.2.2.1) with
  | none => d ++ [(String.ofList x.2.2.1, [undot x.1], undot x.2.1, undot x.2.1)]
  | some e => Json.setKey (String.ofList x.2.2.1) (e.1 ++ [undot x.1], e.2) d

/-- `parse_feeder_metadata`: ditto/readers/opendss/read.py:311-334; the first line is skipped -/
def readFeeders {K : Type} (file : List (List Char)) : Py (List (Meta K)) :=
  match (file.drop 1).mapM feederFields with
  | .error e => .error e
  | .ok xs => .ok ((xs.foldl addFeeder []).map fun e => { name := e.1, substation := some e.2.2.1, transformer := some e.2.2.2 })

end Ditto.Dss
