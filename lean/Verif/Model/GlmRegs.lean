import Verif.Model.GlmTrafos

/-! Regulators in GridLAB-D files: the part for regulators of `parse` in ditto/readers/gridlabd/read.py. Numbers are exact. `flt` stands for `float` and
`int` for `int`. All values in the objects are texts, so the comparison with the number 1 is false. -/
namespace Ditto.Glm
open Ditto

/-- a `PhaseWinding` of the second winding: ditto/models/phase_winding.py:9-23. The ones of the first winding only have phases, the same ones. -/
structure GRegPhase (K : Type) where
  phase : Char
  tap : Option Int
  r : Option K
  x : Option K
deriving DecidableEq

/-- A `Regulator` that is read: ditto/models/regulator.py:21-95. `voltage` and `connection` are those of both windings. -/
structure GReadReg (K : Type) where
  name : Text
  source : Option Text
  sink : Option Text
  voltage : Option K
  connection : Option Char
  phases : List (GRegPhase K)
  delay : Option K
  bandwidth : Option K
  bandcenter : Option K
  highstep : Option Int
  lowstep : Option Int
  ptRatio : Option K
  ctRatio : Option K
  ptPhase : Option Char
deriving DecidableEq

/-- the phase whose voltage is measured: ditto/readers/gridlabd/read.py:2396-2402 -/
def regPtPhase (c : GldObj) : Py (Option Char) :=
  match getEntry "PT_phase".toList c.attrs with
  | none => .ok none
  | some t =>
    match stripQuotes t with
    | [] => .error .indexError
    | p :: _ => .ok (some p)

/-- the connection of both windings: ditto/readers/gridlabd/read.py:2345-2355 -/
def regConnection (c : GldObj) : Option Char := if getEntry "connect_type".toList c.attrs = some "WYE_WYE".toList then some 'Y' else none

section numbers
variable {K : Type}

/-- the first one with this phase is changed: ditto/readers/gridlabd/read.py:2247-2254, 2264-2266 -/
def changePhase (p : Char) (f : GRegPhase K → GRegPhase K) : List (GRegPhase K) → List (GRegPhase K)
  | [] => []
  | a :: l => if a.phase = p then f a :: l else a :: changePhase p f l

/-- one tap position. A missing phase is added: ditto/readers/gridlabd/read.py:2239-2269 -/
def readTap (int : Text → Option Int) (c : GldObj) (p : Char) (ps : List (GRegPhase K)) : Py (List (GRegPhase K)) :=
  match getEntry (phaseKey "tap_pos".toList p) c.attrs with
  | none => .ok ps
  | some t =>
    match int t with
    | none => .error .valueError
    | some n => .ok (changePhase p (fun a => { a with tap := some n }) (if p ∈ ps.map (·.phase) then ps else ps ++ [⟨p, none, none, none⟩]))

/-- one setting of the compensator. For a missing phase `windings2` is a NameError: ditto/readers/gridlabd/read.py:2272-2306, 2309-2343 -/
def readCompensator (flt : Text → Option K) (c : GldObj) (k : Text) (set : K → GRegPhase K → GRegPhase K) (p : Char) (ps : List (GRegPhase K)) :
    Py (List (GRegPhase K)) :=
  match getEntry (phaseKey k p) c.attrs with
  | none => .ok ps
  | some t =>
    if p ∈ ps.map (·.phase) then
      match flt t with
      | none => .error .valueError
      | some v => .ok (changePhase p (set v) ps)
    else .error .nameError

/-- a loop over phases: ditto/readers/gridlabd/read.py:2238, 2271, 2308 -/
def regLoop (f : Char → List (GRegPhase K) → Py (List (GRegPhase K))) : List Char → List (GRegPhase K) → Py (List (GRegPhase K))
  | [], ps => .ok ps
  | p :: l, ps =>
    match f p ps with
    | .error e => .error e
    | .ok ps' => regLoop f l ps'

/-- the phases with their settings: ditto/readers/gridlabd/read.py:2238-2343 -/
def regPhases (flt : Text → Option K) (int : Text → Option Int) (c : GldObj) (ps : List (GRegPhase K)) : Py (List (GRegPhase K)) :=
  match regLoop (readTap int c) ['A', 'B', 'C'] ps with
  | .error e => .error e
  | .ok ps1 =>
    match regLoop (readCompensator flt c "compensator_r_setting".toList fun v a => { a with r := some v }) ['A', 'B', 'C'] ps1 with
    | .error e => .error e
    | .ok ps2 => regLoop (readCompensator flt c "compensator_x_setting".toList fun v a => { a with x := some v }) ['A', 'B', 'C'] ps2

/-- the voltage of the first end. The attributes of the objects have names with an underscore, so that `hasattr(obj, "nominal_voltage")` is false:
ditto/readers/gridlabd/read.py:2202-2214 and ditto/formats/gridlabd/base.py:22-35 -/
def regVoltage (flt : Text → Option K) (objects : List (Text × GldObj)) (o : GldObj) : Py (Option K) :=
  match getEntry "from".toList o.attrs with
  | none => .ok none
  | some n =>
    match getEntry n objects with
    | none => .error .keyError
    | some f => readOptional flt f "nominal_voltage".toList

/-- a regulator without configuration. The ends go to attributes that a regulator does not have: ditto/readers/gridlabd/read.py:2181-2231 -/
def plainReg (o : GldObj) (voltage : Option K) : GReadReg K where
  name := readName o
  source := none
  sink := none
  voltage := voltage
  connection := none
  phases := (trafoPhases o).map fun p => ⟨p, none, none, none⟩
  delay := none
  bandwidth := none
  bandcenter := none
  highstep := none
  lowstep := none
  ptRatio := none
  ctRatio := none
  ptPhase := none

/-- a regulator with its configuration: ditto/readers/gridlabd/read.py:2233-2405 -/
def configuredReg (flt : Text → Option K) (int : Text → Option Int) (c : GldObj) (r : GReadReg K) : Py (GReadReg K) :=
  match regPhases flt int c r.phases with
  | .error e => .error e
  | .ok ps =>
    match readOptional flt c "time_delay".toList with
    | .error e => .error e
    | .ok delay =>
      match readOptional flt c "band_width".toList with
      | .error e => .error e
      | .ok bw =>
        match readOptional flt c "band_center".toList with
        | .error e => .error e
        | .ok bc =>
          match readOptional int c "raise_taps".toList with
          | .error e => .error e
          | .ok hi =>
            match readOptional int c "lower_taps".toList with
            | .error e => .error e
            | .ok lo =>
              match readOptional flt c "power_transducer_ratio".toList with
              | .error e => .error e
              | .ok pt =>
                match readOptional flt c "current_transducer_ratio".toList with
                | .error e => .error e
                | .ok ct =>
                  match regPtPhase c with
                  | .error e => .error e
                  | .ok pp =>
                    .ok { r with phases := ps, connection := regConnection c, delay := delay, bandwidth := bw, bandcenter := bc, highstep := hi,
                                 lowstep := lo, ptRatio := pt, ctRatio := ct, ptPhase := pp }

/-- one regulator: ditto/readers/gridlabd/read.py:2180-2408 -/
def readReg (flt : Text → Option K) (int : Text → Option Int) (objects : List (Text × GldObj)) (o : GldObj) : Py (GReadReg K) :=
  match regVoltage flt objects o with
  | .error e => .error e
  | .ok v =>
    match configObject objects o with
    | none => .ok (plainReg o v)
    | some c => configuredReg flt int c (plainReg o v)

/-- the regulators of a file -/
def readRegFile (flt : Text → Option K) (int : Text → Option Int) (schema : Schema) (due : List Text → Py Bool) (files : Text → Option (List Text))
    (before : List (Text × GldObj)) (rows : List Text) : Py (List (GReadReg K)) :=
  match readGlm schema due files before rows with
  | .error e => .error e
  | .ok s => readClass "regulator".toList (readReg flt int s.objects) s.objects

end numbers
end Ditto.Glm
