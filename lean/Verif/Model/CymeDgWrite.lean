import Verif.Model.CymePanels
import Verif.Model.CymeSectionWrite
import Verif.Model.CymeLineCodes
import Verif.Model.CymeRegWrite

/-! Photovoltaic systems and storages in the CYME writer, ditto/writers/cyme/write.py. Floating point numbers are exact; `pr` is `str` of a number and `sqrt`
is `math.sqrt`. -/
namespace Ditto.Cyme
open Ditto Glm

/-- what rows of converters depend on: ratings, limits and power factors. `minimum` tells if there is an attribute `min_powerfactor` that is not None.
`factor` is the attribute `powerfactor`, nothing if there is none: the classes have `power_factor` instead, ditto/models/photovoltaic.py:85-88,
ditto/models/storage.py:40. -/
structure ConverterIn where
  rated : Option ℚ
  active : Option ℚ
  reactive : Option ℚ
  minimum : Bool
  factor : Option (Option ℚ)
  fall : Option ℚ
  rise : Option ℚ
deriving DecidableEq

/-- a number, or an empty cell -/
def optCell (pr : ℚ → Text) : Option ℚ → Text
  | none => []
  | some x => pr x

/-- the three ratings with a comma after each one: ditto/writers/cyme/write.py:1856-1913, 2130-2187 -/
def ratingText (pr : ℚ → Text) (sqrt : ℚ → ℚ) (c : ConverterIn) : Text :=
  (match c.active, c.rated with
    | some a, _ =>
      (match c.reactive with
        | some q => pr (sqrt (q ^ 2 + a ^ 2) / 1000)
        | none => pr (a / 1000)) ++ ',' :: (pr (a / 1000) ++ [','])
    | none, some p =>
      (match c.reactive with
        | some q => pr (sqrt (q ^ 2 + (p * (11 / 10)) ^ 2) / 1000)
        | none => pr (p * (11 / 10) / 1000)) ++ ',' :: (pr (p * (11 / 10) / 1000) ++ [','])
    | none, none => [',', ',']) ++
  (match c.reactive, c.rated with
    | some q, _ => pr (q / 1000) ++ [',']
    | none, some p => pr (p * (11 / 10) / 1000) ++ [',']
    | none, none => [','])

/-- the power factor: ditto/writers/cyme/write.py:1920-1925, 2194-2199 -/
def factorText (pr : ℚ → Text) (c : ConverterIn) : Py Text :=
  if c.minimum then
    match c.factor with
    | none => .error .attributeError
    | some none => .error .typeError
    | some (some x) => .ok (pr (x * 100))
  else .ok []

/-- the rest of a row of converters: ditto/writers/cyme/write.py:1927-1937, 2201-2211 -/
def limitText (pr : ℚ → Text) (c : ConverterIn) : Text :=
  ',' :: (optCell pr c.fall ++ ',' :: (optCell pr c.rise ++ ',' :: (if c.fall ≠ none ∨ c.rise ≠ none then ['0'] else [])))

/-- A row of converters: ditto/writers/cyme/write.py:1791-1793, 1856-1937, 2086-2088, 2130-2211. -/
def converterText (pr : ℚ → Text) (sqrt : ℚ → ℚ) (sec type : Text) (c : ConverterIn) : Py Text :=
  match factorText pr c with
  | .error e => .error e
  | .ok f => .ok (sec ++ ',' :: (type ++ ',' :: (ratingText pr sqrt c ++ (f ++ limitText pr c))))

/-- the end of a row of generation models: ditto/writers/cyme/write.py:2189-2200 -/
def generationText (pr : ℚ → Text) (sec : Text) (c : ConverterIn) : Py Text :=
  match factorText pr c with
  | .error e => .error e
  | .ok f => .ok (sec ++ "45,DEFAULT,".toList ++ (optCell pr (c.rated.map (· / 1000)) ++ ',' :: (f ++ [','])))

/-- What the row of control settings depends on. `wattCurve` is the attribute `watt_powerfactor_curve`, nothing if there is none: the class has
`wattpowerfactor_curve`, ditto/models/photovoltaic.py:93-96. -/
structure ControlIn where
  type : Option Text
  injection : Option ℚ
  varCurve : Option Text
  wattVoltCurve : Option Text
  wattCurve : Option (Option Text)
  factor : Option (Option ℚ)
deriving DecidableEq

/-- the code of a control: ditto/writers/cyme/write.py:1940-1957, 2214-2231. The conditions exclude each other. -/
def typeCode (t : Text) : Text :=
  if t = "voltvar_vars_over_watts".toList ∨ t = "voltvar".toList then "1".toList
  else if t = "voltvar_watts_over_vars".toList then "0".toList
  else if t = "voltvar_fixed_vars".toList then "2".toList
  else if t = "voltvar_novars".toList then "3".toList
  else if t = "voltwatt".toList then "5".toList
  else if t = "watt_powerfactor".toList then "6".toList
  else if t = "powerfactor".toList then "10".toList
  else []

/-- the injection: ditto/writers/cyme/write.py:2234-2242 -/
def injectionText (pr : ℚ → Text) (t : Text) (c : ControlIn) : Text :=
  match c.injection with
  | some x => if t = "voltvar_fixed_vars".toList then pr x ++ ",2,".toList else ",,".toList
  | none => ",,".toList

/-- the curve: ditto/writers/cyme/write.py:2243-2265 -/
def curveText (t : Text) (c : ControlIn) : Py Text :=
  if (t = "voltvar_watts_over_vars".toList ∨ t = "voltvar_vars_over_watts".toList) ∧ c.varCurve ≠ none then
    .ok (nameCell c.varCurve ++ ",,".toList)
  else if t = "voltwatt".toList ∧ c.wattVoltCurve ≠ none then .ok (nameCell c.wattVoltCurve ++ ",0,".toList)
  else if t = "watt_powerfactor".toList then
    match c.wattCurve with
    | none => .error .attributeError
    | some none => .ok ",,".toList
    | some (some x) => .ok (x ++ ",0,".toList)
  else .ok ",,".toList
where nameCell : Option Text → Text
  | none => []
  | some x => x

/-- the power factor of a control: ditto/writers/cyme/write.py:2267-2273 -/
def controlFactor (pr : ℚ → Text) (t : Text) (c : ControlIn) : Py Text :=
  if t = "powerfactor".toList then
    match c.factor with
    | none => .error .attributeError
    | some x => .ok (optCell pr x)
  else .ok []

/-- A row of control settings of a photovoltaic system: ditto/writers/cyme/write.py:2089-2091, 2213-2277. -/
def controlText (pr : ℚ → Text) (sec : Text) (c : ControlIn) : Py Text :=
  match c.type with
  | none => .ok (sec ++ ",45,0,0,".toList ++ "10,,,,,100".toList)
  | some t =>
    match curveText (lower t) c with
    | .error e => .error e
    | .ok v =>
      match controlFactor pr (lower t) c with
      | .error e => .error e
      | .ok f => .ok (sec ++ ",45,0,0,".toList ++ (typeCode (lower t) ++ ',' :: (injectionText pr (lower t) c ++ (v ++ f))))

/-- A `Photovoltaic`. A phase is nothing if it is a plain text, which has no attribute `default_value`. `profile` has label and location of the first time
series. `known` tells if there is an object with the name of the element, or a load: ditto/writers/cyme/write.py:2011-2020. -/
structure PvIn where
  name : Option Text
  element : Option Text
  known : Bool
  point : Option (ℚ × ℚ)
  phases : List (Option Text)
  feeder : Option Text
  substation : Option Text
  temperature : Option ℚ
  profile : Option (Option Text × Option Text)
  converter : ConverterIn
  control : ControlIn
deriving DecidableEq

/-- A `Storage`. It has no attributes for limits and controls; `energy` and `stored` are `rated_kWh` and `stored_kWh`. -/
structure StoreIn where
  name : Option Text
  element : Option Text
  known : Bool
  point : Option (ℚ × ℚ)
  phases : List Text
  inSubstation : Bool
  substation : Option Text
  feeder : Option Text
  energy : Option ℚ
  stored : Option ℚ
  charging : Option ℚ
  discharging : Option ℚ
  converter : ConverterIn
deriving DecidableEq

/-- the objects of a model in their order; other ones may set `ff_name`, for example ditto/writers/cyme/write.py:1683-1691 -/
inductive DgIn where
  | pv (p : PvIn)
  | store (s : StoreIn)
  | other (network : Option Text)

/-- what the loop keeps. `network` is `ff_name` and `started` tells if `new_dg_generation_string` has a value. -/
structure DgOut where
  nodes : List Text := []
  sections : List Text := []
  networks : List (Text × List Text) := []
  ids : List (Text × List Text) := []
  heads : List (Text × Text) := []
  converters : List Text := []
  controls : List Text := []
  settings : List Text := []
  generation : List Text := []
  storages : List Text := []
  codes : List (Text × Text) := []
  count : Nat := 0
  profiles : List (Text × Text) := []
  network : Option Text := none
  started : Bool := false
deriving DecidableEq

/-- the row of the node: ditto/writers/cyme/write.py:1739-1753, 2036-2050 -/
def pointText (pr : ℚ → Text) (name : Text) : Option (ℚ × ℚ) → Text
  | none => name ++ ",0,0".toList
  | some p => name ++ ',' :: (pr p.1 ++ ',' :: pr p.2)

/-- the letters of phases: ditto/writers/cyme/write.py:2052-2056 -/
def phaseLetters : List (Option Text) → Py Text
  | [] => .ok []
  | none :: _ => .error .attributeError
  | some t :: ps =>
    match phaseLetters ps with
    | .error e => .error e
    | .ok r => .ok (if t ∈ ["A".toList, "B".toList, "C".toList] then t ++ r else r)

/-- the section without phases: ditto/writers/cyme/write.py:1730-1737, 2027-2034 -/
def dgSection (sec element name : Text) : Text := sec ++ ',' :: (element ++ ",0,".toList ++ (name ++ ",0,".toList))

/-- the profile of the irradiance: ditto/writers/cyme/write.py:2279-2293 -/
def profileText : Option (Option Text × Option Text) → Text
  | some (some label, some _) => ",0,".toList ++ label
  | _ => ",1,".toList

/-- A row of the settings of photovoltaic systems: ditto/writers/cyme/write.py:2092-2128, 2279-2293. -/
def settingText (pr : ℚ → Text) (sec letters : Text) (p : PvIn) : Text :=
  sec ++ ",M,".toList ++ sec ++ ",DEFAULT,".toList ++
  ((match pvPanels p.converter.rated p.converter.active with
    | none => ",,".toList
    | some q => pr q.1 ++ ',' :: (pr q.2 ++ [','])) ++
  (optCell pr p.temperature ++ ',' :: (letters ++ profileText p.profile)))

/-- One photovoltaic system: ditto/writers/cyme/write.py:2006-2313. -/
def pvStep (pr : ℚ → Text) (sqrt : ℚ → ℚ) (hash : Text → Text) (s : DgOut) (p : PvIn) : Py DgOut :=
  match p.name, p.element with
  | none, _ => .error .typeError
  | some _, none => .ok { s with started := true }
  | some n, some e =>
    if p.known then
      let sec := shorten hash (e ++ '_' :: n)
      match phaseLetters p.phases with
      | .error e => .error e
      | .ok letters =>
        match converterText pr sqrt sec "45".toList p.converter with
        | .error e => .error e
        | .ok conv =>
          match generationText pr sec p.converter with
          | .error e => .error e
          | .ok gen =>
            match controlText pr sec p.control with
            | .error e => .error e
            | .ok ctl =>
              .ok { s with
                nodes := s.nodes ++ [pointText pr n p.point]
                sections := s.sections ++ [dgSection sec e n ++ letters]
                networks := match p.feeder with
                  | none => s.networks
                  | some f => pushEntry f (dgSection sec e n ++ letters) s.networks
                ids := match p.feeder with
                  | none => s.ids
                  | some f => pushEntry f sec s.ids
                heads := match p.feeder, p.substation with
                  | some f, some h => putCode f h s.heads
                  | _, _ => s.heads
                converters := s.converters ++ [conv]
                controls := s.controls ++ [ctl]
                settings := s.settings ++ [settingText pr sec letters p]
                generation := s.generation ++ [gen]
                profiles := match p.profile with
                  | some (some label, some place) => putCode label place s.profiles
                  | _ => s.profiles
                started := true }
    else .ok { s with started := true }

/-- `ff_name` for a storage: ditto/writers/cyme/write.py:1763-1781 -/
def storeNetwork (last : Option Text) (s : StoreIn) : Option Text :=
  if s.inSubstation then
    match s.substation with
    | none => last
    | some t => if t = [] then last else some ("substation_".toList ++ t)
  else
    match s.feeder with
    | none => last
    | some t => if t = [] then last else some t

/-- the data of a storage: ditto/writers/cyme/write.py:1798-1822 -/
def storeData (pr : ℚ → Text) (s : StoreIn) : Text :=
  optCell pr (s.energy.map (· / 1000)) ++ ',' :: (optCell pr (s.converter.rated.map (· / 1000)) ++ ',' ::
    (optCell pr (s.converter.rated.map (· / 1000)) ++ ',' :: (optCell pr s.charging ++ ',' :: optCell pr s.discharging)))

/-- the charge in percent: ditto/writers/cyme/write.py:1845-1854. `whole` is `str(int(x))`. -/
def chargeText (whole : ℚ → Text) (s : StoreIn) : Text :=
  match s.stored, s.energy with
  | some a, some b => if b ≠ 0 then whole (a / b * 100) else []
  | _, _ => []

/-- the code of the data: ditto/writers/cyme/write.py:1824-1830 -/
def storeCode (codes : List (Text × Text)) (count : Nat) (data : Text) : Text × List (Text × Text) × Nat :=
  match codeOf data codes with
  | some c => (c, codes, count)
  | none => ("BESS_".toList ++ (count + 1).repr.toList, putCode data ("BESS_".toList ++ (count + 1).repr.toList) codes, count + 1)

/-- One storage: ditto/writers/cyme/write.py:1708-2002. The row of a generation model is begun by a photovoltaic system only. -/
def storeStep (pr whole : ℚ → Text) (sqrt : ℚ → ℚ) (hash : Text → Text) (s : DgOut) (p : StoreIn) : Py DgOut :=
  match p.name, p.element with
  | some n, some e =>
    if p.known then
      let sec := shorten hash (e ++ '_' :: n)
      let letters := (p.phases.filter fun t => t ∈ ["A".toList, "B".toList, "C".toList]).flatten
      match storeNetwork s.network p with
      | none => .error .unboundLocalError
      | some f =>
        if !s.started then .error .unboundLocalError
        else
          match converterText pr sqrt sec "80".toList p.converter with
          | .error e => .error e
          | .ok conv =>
            let c := storeCode s.codes s.count (storeData pr p)
            .ok { s with
              nodes := s.nodes ++ [pointText pr n p.point]
              sections := s.sections ++ [dgSection sec e n ++ letters]
              networks := pushEntry f (dgSection sec e n ++ letters) s.networks
              converters := s.converters ++ [conv]
              controls := s.controls ++ [sec ++ ",80,0,0,".toList ++ "10,,,,,".toList]
              storages := s.storages ++ [sec ++ ",M,".toList ++ (sec ++ ',' :: (c.1 ++ ',' :: (letters ++ ',' :: chargeText whole p)))]
              codes := c.2.1
              count := c.2.2
              network := some f }
    else .ok s
  | _, _ => .ok s

/-- one object -/
def dgStep (pr whole : ℚ → Text) (sqrt : ℚ → ℚ) (hash : Text → Text) (s : DgOut) : DgIn → Py DgOut
  | .pv p => pvStep pr sqrt hash s p
  | .store p => storeStep pr whole sqrt hash s p
  | .other none => .ok s
  | .other (some f) => .ok { s with network := some f }

/-- the loop: ditto/writers/cyme/write.py:402-2313 for these objects -/
def dgLoop (pr whole : ℚ → Text) (sqrt : ℚ → ℚ) (hash : Text → Text) : DgOut → List DgIn → Py DgOut
  | s, [] => .ok s
  | s, d :: ds =>
    match dgStep pr whole sqrt hash s d with
    | .error e => .error e
    | .ok s' => dgLoop pr whole sqrt hash s' ds

/-- the table of storages in the equipment file: ditto/writers/cyme/write.py:4863-4869 -/
def storeRows (codes : List (Text × Text)) : List Text := codes.map fun c => c.2 ++ ',' :: c.1

end Ditto.Cyme
