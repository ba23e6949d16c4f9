import Verif.Model.GlmCaps

/-! Transformers in GridLAB-D files: the part for transformers of `parse` in ditto/readers/gridlabd/read.py. Numbers are exact. `flt` stands for
`float` and `cpx` for `complex`. All values in the objects are texts, so comparisons with the numbers 1 to 5 are false. -/
namespace Ditto.Glm
open Ditto

/-- A `Winding` that is read: ditto/models/winding.py:22-59 -/
structure GWinding (K : Type) where
  voltageType : Int
  connection : Option Char
  voltage : Option K
  resistance : Option K
  power : Option K
  phases : List Char
deriving DecidableEq

/-- A `PowerTransformer` that is read: ditto/models/powertransformer.py:23-68 -/
structure GReadTrafo (K : Type) where
  name : Text
  source : Option Text
  sink : Option Text
  install : Option Text
  loss : Option K
  reactances : List K
  windings : List (GWinding K)
deriving DecidableEq

/-- the phases of the windings: ditto/readers/gridlabd/read.py:707-723 -/
def trafoPhases (o : GldObj) : List Char :=
  match getEntry "phases".toList o.attrs with
  | none => []
  | some t => (stripQuotes t).filter fun p => !(p = 'N' || p = 'S')

/-- the connections of both windings: ditto/readers/gridlabd/read.py:733-745 -/
def trafoConnections (conn : Option Text) : Option Char × Option Char :=
  if conn = some "WYE_WYE".toList then (some 'Y', some 'Y')
  else if conn = some "DELTA_DELTA".toList then (some 'D', some 'D')
  else if conn = some "DELTA_GWYE".toList then (some 'D', some 'Y')
  else (none, none)

/-- whether there is a third winding: ditto/readers/gridlabd/read.py:752-766 -/
def centerTapped (conn : Option Text) : Bool := conn = some "SINGLE_PHASE_CENTER_TAPPED".toList

/-- the phases of the second winding: ditto/readers/gridlabd/read.py:752-758 -/
def secondPhases (three : Bool) (ps : List Char) : Py (List Char) :=
  if three then
    match ps with
    | [] => .error .indexError
    | _ :: rest => .ok ('A' :: rest)
  else .ok ps

section numbers
variable {K : Type} [Field K] (flt : Text → Option K) (cpx : Text → Option (Cx K))

/-- the three reactances that are guessed from one: ditto/readers/gridlabd/read.py:833-837, 856-860 -/
def guessed (x : K) : List K := [4 / 5 * x, 2 / 5 * x, 2 / 5 * x]

/-- the reactances of a center-tapped transformer with a reactance `x`: ditto/readers/gridlabd/read.py:820-837. If there is only `impedance1`, it stays in
the list between the guessed ones. -/
def tappedReactances (c : GldObj) (x : K) : Py (List K) :=
  match readAs cpx c "impedance1".toList with
  | .error .attributeError => .ok (guessed x)
  | .error e => .error e
  | .ok z1 =>
    match readAs cpx c "impedance2".toList with
    | .error .attributeError => .ok [4 / 5 * x, z1.im, 2 / 5 * x, 2 / 5 * x]
    | .error e => .error e
    | .ok z2 => .ok [x, z1.im, z2.im]

/-- the reactances, and the resistance if it is taken from the impedance: ditto/readers/gridlabd/read.py:809-862 -/
def trafoReactances (three : Bool) (c : GldObj) : Py (List K × Option K) :=
  match readAs flt c "reactance".toList with
  | .ok x =>
    if three then
      match tappedReactances cpx c x with
      | .error e => .error e
      | .ok xs => .ok (xs, none)
    else .ok ([x], none)
  | .error .attributeError =>
    match readAs cpx c "impedance".toList with
    | .error .attributeError => .ok ([], none)
    | .error e => .error e
    | .ok z => .ok (if three then guessed z.im else [z.im], some z.re)
  | .error e => .error e

/-- the rated power: the last one of these attributes: ditto/readers/gridlabd/read.py:868-908 -/
def trafoPower (c : GldObj) : List Text → Option K → Py (Option K)
  | [], old => .ok old
  | k :: ks, old =>
    match readOptional flt c k with
    | .error e => .error e
    | .ok v => trafoPower c ks ((v.map (· * 1000)).or old)

/-- the names of the ratings: ditto/readers/gridlabd/read.py:869, 879, 890, 900 -/
def ratingNames : List Text := ["power_rating".toList, "powerA_rating".toList, "powerB_rating".toList, "powerC_rating".toList]

/-- the windings of a transformer with two windings: ditto/readers/gridlabd/read.py:699-723, 780-807, 868-916 -/
def twoWindings (conn : Option Char × Option Char) (ps : List Char) (hv lv r p : Option K) : List (GWinding K) :=
  [⟨0, conn.1, hv, r.map (· / 2), p, ps⟩, ⟨2, conn.2, lv, r.map (· / 2), p, ps⟩]

/-- the windings of a center-tapped transformer: ditto/readers/gridlabd/read.py:699-723, 752-807, 868-916 -/
def threeWindings (conn : Option Char × Option Char) (ps ps2 : List Char) (hv lv r p : Option K) : List (GWinding K) :=
  [⟨0, conn.1, hv, r.map (· / 2), p, ps⟩, ⟨2, conn.2, lv, r, p.map (· / 2), ps2⟩, ⟨2, none, lv, r, p.map (· / 2), ['B']⟩]

/-- a transformer with its configuration: ditto/readers/gridlabd/read.py:727-916 -/
def configured (o c : GldObj) : Py (GReadTrafo K) :=
  match secondPhases (centerTapped (getEntry "connect_type".toList c.attrs)) (trafoPhases o) with
  | .error e => .error e
  | .ok ps2 =>
    match readOptional flt c "no_load_loss".toList with
    | .error e => .error e
    | .ok loss =>
      match readOptional flt c "primary_voltage".toList with
      | .error e => .error e
      | .ok hv =>
        match readOptional flt c "secondary_voltage".toList with
        | .error e => .error e
        | .ok lv =>
          match readOptional flt c "resistance".toList with
          | .error e => .error e
          | .ok r =>
            match trafoReactances flt cpx (centerTapped (getEntry "connect_type".toList c.attrs)) c with
            | .error e => .error e
            | .ok (xs, zr) =>
              match trafoPower flt c ratingNames none with
              | .error e => .error e
              | .ok p =>
                .ok { name := readName o, source := getEntry "from".toList o.attrs, sink := getEntry "to".toList o.attrs,
                      install := getEntry "install_type".toList c.attrs, loss := loss, reactances := xs,
                      windings :=
                        if centerTapped (getEntry "connect_type".toList c.attrs) then
                          threeWindings (trafoConnections (getEntry "connect_type".toList c.attrs)) (trafoPhases o) ps2 hv lv (zr.or r) p
                        else twoWindings (trafoConnections (getEntry "connect_type".toList c.attrs)) (trafoPhases o) hv lv (zr.or r) p }

/-- the object with the name of the configuration: ditto/readers/gridlabd/read.py:727-729 -/
def configObject (objects : List (Text × GldObj)) (o : GldObj) : Option GldObj :=
  match getEntry "configuration".toList o.attrs with
  | none => none
  | some n => getEntry n objects

/-- one transformer: ditto/readers/gridlabd/read.py:681-916. Without configuration there are two windings with phases only. -/
def readTrafo (objects : List (Text × GldObj)) (o : GldObj) : Py (GReadTrafo K) :=
  match configObject objects o with
  | some c => configured flt cpx o c
  | none =>
    .ok { name := readName o, source := getEntry "from".toList o.attrs, sink := getEntry "to".toList o.attrs, install := none, loss := none,
          reactances := [], windings := twoWindings (none, none) (trafoPhases o) none none none none }

/-- the transformers of a file -/
def readTrafoFile (schema : Schema) (due : List Text → Py Bool) (files : Text → Option (List Text)) (before : List (Text × GldObj))
    (rows : List Text) : Py (List (GReadTrafo K)) :=
  match readGlm schema due files before rows with
  | .error e => .error e
  | .ok s => readClass "transformer".toList (readTrafo flt cpx s.objects) s.objects

end numbers
end Ditto.Glm
