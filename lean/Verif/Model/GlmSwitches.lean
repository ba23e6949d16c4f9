import Verif.Model.GlmCaps

/-! Fuses and switches in GridLAB-D files: the parts for fuses and switches of `parse` in ditto/readers/gridlabd/read.py. -/
namespace Ditto.Glm
open Ditto

/-- a `Wire` that is read: ditto/models/wire.py:21-23, 69-72 -/
structure GWire where
  phase : Char
  isOpen : Option Bool
deriving DecidableEq

/-- a `Line` that is read from a fuse or a switch: ditto/readers/gridlabd/read.py:1353-1368, 1424-1440 -/
structure GReadSwitch where
  name : Text
  fuse : Bool
  source : Option Text
  target : Option Text
  wires : List GWire
deriving DecidableEq

/-- the attribute with the state of a phase, such as `phase_A_state` -/
def stateKey (suffix : Text) (c : Char) : Text := "phase_".toList ++ c :: '_' :: suffix

/-- the wire of a phase with its own state: ditto/readers/gridlabd/read.py:1371-1381, 1443-1453 -/
def stateWire (suffix word : Text) (o : GldObj) (c : Char) : List GWire :=
  match getEntry (stateKey suffix c) o.attrs with
  | none => []
  | some t => [⟨c, some (t == word)⟩]

/-- the wires of all letters but N. Without a status, the first wire is made and then the loop is left:
ditto/readers/gridlabd/read.py:1408-1419, 1479-1490 -/
def statusWires (status : Option Text) (letters : List Char) : List GWire :=
  match status with
  | some t => (letters.filter fun c => c ≠ 'N').map fun c => ⟨c, some (t == "OPEN".toList)⟩
  | none => ((letters.filter fun c => c ≠ 'N').take 1).map fun c => ⟨c, none⟩

/-- the wires, if no phase has its own state: ditto/readers/gridlabd/read.py:1406-1419, 1477-1490 -/
def wholeWires (o : GldObj) : List GWire :=
  match getEntry "phases".toList o.attrs with
  | none => []
  | some t => statusWires (getEntry "status".toList o.attrs) (stripQuotes t)

/-- the wires: ditto/readers/gridlabd/read.py:1370-1421, 1442-1492 -/
def switchWires (suffix word : Text) (o : GldObj) : List GWire :=
  if (['A', 'B', 'C'].flatMap (stateWire suffix word o)).length = 0 then wholeWires o else ['A', 'B', 'C'].flatMap (stateWire suffix word o)

/-- one fuse: ditto/readers/gridlabd/read.py:1352-1421 -/
def readFuse (o : GldObj) : Py GReadSwitch :=
  .ok ⟨readName o, true, getEntry "from".toList o.attrs, getEntry "to".toList o.attrs, switchWires "status".toList "BLOWN".toList o⟩

/-- one switch: ditto/readers/gridlabd/read.py:1423-1492 -/
def readSwitch (o : GldObj) : Py GReadSwitch :=
  .ok ⟨readName o, false, getEntry "from".toList o.attrs, getEntry "to".toList o.attrs, switchWires "state".toList "OPEN".toList o⟩

/-- the fuses of a file -/
def readFuseFile (schema : Schema) (due : List Text → Py Bool) (files : Text → Option (List Text)) (before : List (Text × GldObj))
    (rows : List Text) : Py (List GReadSwitch) :=
  match readGlm schema due files before rows with
  | .error e => .error e
  | .ok s => readClass "fuse".toList readFuse s.objects

/-- the switches of a file -/
def readSwitchFile (schema : Schema) (due : List Text → Py Bool) (files : Text → Option (List Text)) (before : List (Text × GldObj))
    (rows : List Text) : Py (List GReadSwitch) :=
  match readGlm schema due files before rows with
  | .error e => .error e
  | .ok s => readClass "switch".toList readSwitch s.objects

end Ditto.Glm
