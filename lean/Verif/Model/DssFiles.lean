import Verif.Model.DssCodes

/-! How the OpenDSS writer distributes objects over files: ditto/writers/opendss/write.py. The same two loops are in `write_bus_coordinates`,
`write_transformers`, `write_storages`, `write_PVs`, `write_timeseries`, `write_loads`, `write_regulators`, `write_capacitors` and
`write_lines`. -/
namespace Ditto.Dss
open Ditto Ditto.Json

/-- an object that is written. `out`: its text, or `none` if the object has no name and is skipped with `continue`. -/
structure Item (α : Type) where
  feeder : Option String := none
  substation : Option String := none
  out : Option α := none
deriving DecidableEq, Repr

/-- the state of the first loop: `substation_text_map` (sets are lists without duplicates) and `feeder_text_map`. Texts are lists of the
texts of objects. -/
structure Split (α : Type) where
  subs : List (String × List String) := []
  texts : List (String × List α) := []
deriving DecidableEq, Repr

/-- `set.add` -/
def addTo (f : String) (fs : List String) : List String := if f ∈ fs then fs else fs ++ [f]

/-- ditto/writers/opendss/write.py:2892-2895 for lines; loads: 1864-1867, capacitors: 2564-2567, transformers: 448-451 -/
def addGroup (s f : String) (subs : List (String × List String)) : List (String × List String) :=
  match subs.lookup s with
  | none => setKey s [f] subs
  | some fs => setKey s (addTo f fs) subs

/-- one object of the first loop: ditto/writers/opendss/write.py:1846-1878 and 2059-2060 for loads -/
def splitStep {α : Type} (sf ss : Bool) (st : Split α) (i : Item α) : Split α :=
  let g := groupOf sf ss i.feeder i.substation
  match i.out with
  | none => { st with subs := addGroup g.1 g.2 st.subs }
  | some x => ⟨addGroup g.1 g.2 st.subs, setKey (groupKey g) ((st.texts.lookup (groupKey g)).getD [] ++ [x]) st.texts⟩

/-- the first loop -/
def splitItems {α : Type} (sf ss : Bool) (is : List (Item α)) : Split α := is.foldl (splitStep sf ss) {}

/-- `re.sub('[^0-9a-zA-Z]+', '_', s.lower())` -/
def cleanLower (s : String) : String := cleanName (pyLower s)

/-- opening a file for writing: an existing one is replaced -/
def putFile {α : Type} (p : List String) (t : List α) : List (List String × List α) → List (List String × List α)
  | [] => [(p, t)]
  | e :: es => if e.1 = p then (p, t) :: es else e :: putFile p t es

/-- what is written: the files by their folder, and the new elements of `files_to_redirect` (as folders) -/
structure Written (α : Type) where
  files : List (List String × List α) := []
  redirects : List (List String) := []
deriving DecidableEq, Repr

/-- `output_redirect`: ditto/writers/opendss/write.py:2068-2085 for loads -/
def folder (sf ss : Bool) (s f : String) : List String := (if ss then [s] else []) ++ (if sf then [f] else [])

/-- the inner loop over the feeders of a substation: ditto/writers/opendss/write.py:2063-2112 for loads. `s` is the current value of the
variable `substation_name`, which the loop changes. -/
def writeFeeders {α : Type} (sf ss : Bool) (texts : List (String × List α)) : String → List String → Written α → Py (Written α)
  | _, [], w => .ok w
  | s, f :: fs, w =>
    match texts.lookup (groupKey (s, f)) with
    | none => .error .keyError
    | some t =>
      let p := folder sf ss (cleanLower s) (cleanLower f)
      writeFeeders sf ss texts (cleanLower s) fs (if t.isEmpty then w else ⟨putFile p t w.files, w.redirects ++ [p]⟩)

/-- the outer loop over the substations; `ord`: the order in which a set is iterated -/
def writeSubs {α : Type} (sf ss : Bool) (ord : List String → List String) (texts : List (String × List α)) :
    List (String × List String) → Written α → Py (Written α)
  | [], w => .ok w
  | e :: es, w =>
    match writeFeeders sf ss texts e.1 (ord e.2) w with
    | .error err => .error err
    | .ok w' => writeSubs sf ss ord texts es w'

/-- both loops, e.g. `write_loads`: ditto/writers/opendss/write.py:1843-2112 -/
def writeItems {α : Type} (sf ss : Bool) (ord : List String → List String) (is : List (Item α)) : Py (Written α) :=
  writeSubs sf ss ord (splitItems sf ss is).texts (splitItems sf ss is).subs {}

/-! ### Bus coordinates -/

/-- the attributes of a `Node` that are written; `position`: longitude and latitude of the first position -/
structure DNode where
  name : Option String := none
  position : Option (ℚ × ℚ) := none
  feeder : Option String := none
  substation : Option String := none
deriving DecidableEq, Repr

/-- a line of the file: ditto/writers/opendss/write.py:352-354 -/
abbrev BusLine := String × ℚ × ℚ

/-- nodes without name or position are skipped before anything else: ditto/writers/opendss/write.py:321-326 -/
def busItem (n : DNode) : Option (Item BusLine) :=
  match n.name, n.position with
  | some s, some p => some ⟨n.feeder, n.substation, some (cleanLower s, p)⟩
  | _, _ => none

/-- the state of the second loop of `write_bus_coordinates`: the files and `self.all_buses` -/
structure BusState where
  files : List (List String × List BusLine) := []
  all : List BusLine := []
deriving DecidableEq, Repr

/-- the inner loop: ditto/writers/opendss/write.py:358-389. The result also has the last value of `substation_name` and
`all_substation_buses`. -/
def busFeeders (sf ss : Bool) (texts : List (String × List BusLine)) : String → List String → List BusLine → BusState → Py (String × List BusLine × BusState)
  | s, [], sub, st => .ok (s, sub, st)
  | s, f :: fs, sub, st =>
    match texts.lookup (groupKey (s, f)) with
    | none => .error .keyError
    | some t =>
      if t.isEmpty then busFeeders sf ss texts (cleanLower s) fs sub st
      else busFeeders sf ss texts (cleanLower s) fs (sub ++ t)
        ⟨if sf then putFile (folder sf ss (cleanLower s) (cleanLower f)) t st.files else st.files, st.all ++ t⟩

/-- the outer loop: ditto/writers/opendss/write.py:357-397 -/
def busSubs (sf ss : Bool) (ord : List String → List String) (texts : List (String × List BusLine)) :
    List (String × List String) → BusState → Py BusState
  | [], st => .ok st
  | e :: es, st =>
    match busFeeders sf ss texts e.1 (ord e.2) [] st with
    | .error err => .error err
    | .ok r => busSubs sf ss ord texts es ⟨if ss then putFile [r.1] r.2.1 r.2.2.files else r.2.2.files, r.2.2.all⟩

/-- `write_bus_coordinates`: ditto/writers/opendss/write.py:301-404; the combined file is in the folder `[]` -/
def writeBuses (sf ss : Bool) (ord : List String → List String) (ns : List DNode) : Py (List (List String × List BusLine)) :=
  match busSubs sf ss ord (splitItems sf ss (ns.filterMap busItem)).texts (splitItems sf ss (ns.filterMap busItem)).subs {} with
  | .error err => .error err
  | .ok st => .ok (if st.all.isEmpty then st.files else putFile [] st.all st.files)

/-! ### The master file -/

/-- a file is redirected first, if it is there: ditto/writers/opendss/write.py:3935-3971 -/
def takeFirst : List String → List String → List String × List String
  | [], files => ([], files)
  | n :: ns, files =>
    if n ∈ files then
      let r := takeFirst ns (files.erase n)
      (n :: r.1, r.2)
    else takeFirst ns files

/-- the redirects of the master file: ditto/writers/opendss/write.py:3935-3980. `first`: the names of the files of wire data, cables, geometries,
codes, lines and transformers; `isBus`: the name ends with the name of the file of the buses. -/
def masterRedirects (first : List String) (isBus : String → Bool) (files : List String) : List String :=
  (takeFirst first files).1 ++ (takeFirst first files).2.filter fun f => !isBus f

end Ditto.Dss
