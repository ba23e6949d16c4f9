import Verif.Model.GlmLoads

/-! Capacitors in GridLAB-D files: the part for capacitors of `parse` in ditto/readers/gridlabd/read.py, and `write_capacitors` in
ditto/writers/gridlabd/write.py. Numbers are exact. `flt` stands for `float`, and `shown` prints a number as `str` does. -/
namespace Ditto.Glm
open Ditto

/-- A `PhaseCapacitor` that is read: ditto/models/phase_capacitor.py:11-19 -/
structure GPhaseCap (K : Type) where
  phase : Char
  var : K
  switch : Option Int
deriving DecidableEq

/-- A `Capacitor` that is read: ditto/models/capacitor.py:23-94 -/
structure GReadCap (K : Type) where
  name : Text
  element : Option Text
  voltage : Option K
  delay : Option K
  mode : Option Text
  low : Option K
  high : Option K
  ptPhase : Option Text
  phases : List (GPhaseCap K)
deriving DecidableEq

/-- all objects of a class, in the order of the dictionary: ditto/readers/gridlabd/read.py:620-621. Objects of other classes give nothing. -/
def readClass {R : Type} (cls : Text) (f : GldObj → Py R) : List (Text × GldObj) → Py (List R)
  | [] => .ok []
  | (_, o) :: l =>
    if o.cls = cls then
      match f o with
      | .error e => .error e
      | .ok a =>
        match readClass cls f l with
        | .error e => .error e
        | .ok b => .ok (a :: b)
    else readClass cls f l

/-- `except AttributeError: pass`, with the value that is there already -/
def passOr {V : Type} (old : V) : Py V → Py V
  | .ok v => .ok v
  | .error .attributeError => .ok old
  | .error e => .error e

/-- the control mode: ditto/readers/gridlabd/read.py:2107-2114. `str.upper` is taken for ASCII letters; other letters give none of the three names. -/
def capMode (o : GldObj) : Option Text :=
  match getEntry "control".toList o.attrs with
  | none => none
  | some t =>
    if t.map Char.toUpper = "VOLT".toList then some "voltage".toList
    else if t.map Char.toUpper = "VAR".toList then some "reactivePower".toList
    else if t.map Char.toUpper = "MANUAL".toList then some "none".toList
    else none

section numbers
variable {K : Type} [Field K] (flt : Text → Option K) (shown : K → Text)

/-- `float(obj[k])`, if there is one -/
def readOptional (o : GldObj) (k : Text) : Py (Option K) :=
  passOr none (match readAs flt o k with | .error e => .error e | .ok v => .ok (some v))

/-- the low limit after the high one: ditto/readers/gridlabd/read.py:2126, 2132 -/
def lowLimit (o : GldObj) (lk : Text) (old : Option K) (high : K) : Py (Option K × Option K) :=
  passOr (some high, old) (match readAs flt o lk with | .error e => .error e | .ok v => .ok (some high, some v))

/-- both limits: ditto/readers/gridlabd/read.py:2124-2128, 2130-2134 -/
def readLimits (o : GldObj) (hk lk : Text) (old : Option K × Option K) : Py (Option K × Option K) :=
  match readAs flt o hk with
  | .ok v => lowLimit flt o lk old.2 v
  | .error .attributeError => .ok old
  | .error e => .error e

/-- the switch is a text, but only an `Int` can be stored (ditto/models/phase_capacitor.py:16-19) -/
def capSwitch (o : GldObj) (c : Char) (v : K) : Py (List (GPhaseCap K)) :=
  match getEntry (phaseKey "switch".toList c) o.attrs with
  | none => .ok [⟨c, v * 1000000, none⟩]
  | some _ => .error .traitError

/-- one phase: ditto/readers/gridlabd/read.py:2141-2152, 2154-2164, 2166-2176 -/
def readPhaseCap (o : GldObj) (c : Char) : Py (List (GPhaseCap K)) :=
  match readAs flt o (phaseKey "capacitor".toList c) with
  | .ok v => capSwitch o c v
  | .error .attributeError => .ok []
  | .error e => .error e

/-- the phases A, B and C: ditto/readers/gridlabd/read.py:2141-2178 -/
def readPhaseCaps (o : GldObj) : List Char → Py (List (GPhaseCap K))
  | [] => .ok []
  | c :: cs =>
    match readPhaseCap flt o c with
    | .error e => .error e
    | .ok a =>
      match readPhaseCaps o cs with
      | .error e => .error e
      | .ok b => .ok (a ++ b)

/-- One capacitor: ditto/readers/gridlabd/read.py:2088-2178. The parent goes to a variable that is not used (line 2119). -/
def readCap (o : GldObj) : Py (GReadCap K) :=
  match readOptional flt o "nominal_voltage".toList with
  | .error e => .error e
  | .ok voltage =>
    match readOptional flt o "time_delay".toList with
    | .error e => .error e
    | .ok delay =>
      match readLimits flt o "VAr_set_high".toList "VAr_set_low".toList (none, none) with
      | .error e => .error e
      | .ok vars =>
        match readLimits flt o "voltage_set_high".toList "voltage_set_low".toList vars with
        | .error e => .error e
        | .ok limits =>
          match readPhaseCaps flt o ['A', 'B', 'C'] with
          | .error e => .error e
          | .ok phases =>
            .ok { name := readName o, element := none, voltage := voltage, delay := delay, mode := capMode o, low := limits.2, high := limits.1,
                  ptPhase := getEntry "pt_phase".toList o.attrs, phases := phases }

/-- the capacitors of a file -/
def readCapFile (schema : Schema) (due : List Text → Py Bool) (files : Text → Option (List Text)) (before : List (Text × GldObj))
    (rows : List Text) : Py (List (GReadCap K)) :=
  match readGlm schema due files before rows with
  | .error e => .error e
  | .ok s => readClass "capacitor".toList (readCap flt) s.objects

/-- the attributes of a `PhaseCapacitor` that are written: ditto/models/phase_capacitor.py:11-19 -/
structure WPhaseCap (K : Type) where
  phase : Option Text
  var : Option K
  switch : Option Int
deriving DecidableEq

/-- the attributes of a `Capacitor` that are written: ditto/models/capacitor.py:23-94 -/
structure WCap (K : Type) where
  name : Option Text
  voltage : Option K
  delay : Option K
  mode : Option Text
  low : Option K
  high : Option K
  ptPhase : Option Text
  element : Option Text
  phases : List (WPhaseCap K)
deriving DecidableEq

/-- an attribute that may be missing -/
def optEntry (k : Text) : Option Text → List (Text × Text)
  | none => []
  | some v => [(k, v)]

/-- `"{}".format(x)` -/
def formatOpt : Option K → Text
  | none => "None".toList
  | some x => shown x

/-- `"OPEN"` for 1 and `"CLOSED"` otherwise: ditto/writers/gridlabd/write.py:235-238 -/
def switchText (s : Option Int) : Text := if s = some 1 then "OPEN".toList else "CLOSED".toList

/-- one phase: ditto/writers/gridlabd/write.py:225-238 -/
def phaseCapEntries (j : WPhaseCap K) : List (Text × Text) :=
  match j.phase with
  | none => []
  | some ph =>
    match j.var with
    | none => []
    | some v => [("capacitor_".toList ++ ph, shown (v / 1000000)), ("switch".toList ++ ph, switchText j.switch)]

/-- the text with all phases: ditto/writers/gridlabd/write.py:223, 226 -/
def capPhases : List (WPhaseCap K) → Text
  | [] => []
  | ⟨some ph, _, _⟩ :: js => ph ++ capPhases js
  | ⟨none, _, _⟩ :: js => capPhases js

/-- the phases, unless there are none: ditto/writers/gridlabd/write.py:240-241 -/
def capPhaseEntry (t : Text) : List (Text × Text) := if t = [] then [] else [("phases".toList, t)]

/-- the attributes of one capacitor: ditto/writers/gridlabd/write.py:195-241 -/
def capEntries (c : WCap K) : List (Text × Text) :=
  optEntry "name".toList (c.name.map ('n' :: ·)) ++ optEntry "nominal_voltage".toList (c.voltage.map shown) ++
    optEntry "time_dela".toList (c.delay.map shown) ++ optEntry "control".toList c.mode ++ optEntry "voltage_set_low".toList (c.low.map shown) ++
    optEntry "voltage_set_high".toList (c.low.map fun _ => formatOpt shown c.high) ++ optEntry "pt_phase".toList c.ptPhase ++
    optEntry "parent".toList (c.element.map ('n' :: ·)) ++ c.phases.flatMap (phaseCapEntries shown) ++ capPhaseEntry (capPhases c.phases)

/-- the rows of an object with these attributes -/
def entryRows (cls : Text) (l : List (Text × Text)) : List Text :=
  ("object ".toList ++ cls ++ " {".toList) :: (l.map fun p => entryRow four p.1 p.2) ++ ["};".toList, []]

/-- `write_capacitors`: ditto/writers/gridlabd/write.py:190-247 -/
def writeCapRows (cs : List (WCap K)) : List Text := cs.flatMap fun c => entryRows "capacitor".toList (capEntries shown c)

end numbers

end Ditto.Glm
