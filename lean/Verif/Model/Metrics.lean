import Verif.Model.Py
import Mathlib.Algebra.Order.Field.Rat
import Mathlib.Algebra.BigOperators.Group.List.Basic

/-!
The sums and counts of `compute_all_metrics` and `compute_all_metrics_per_feeder` in `ditto/metrics/network_analysis.py`. Numbers are
exact. What `analyze_object` does with positions, links between feeders, categories of switches, impedances, the lengths of secondaries,
overloaded transformers and power factors is not modelled, except that these parts may raise exceptions.
-/
namespace Ditto.Metrics
open Ditto

/-- `LV_threshold` and `MV_threshold`: ditto/metrics/network_analysis.py:166-167 -/
def lvThreshold : ℚ := 1000
def mvThreshold : ℚ := 69000

/-- `v * math.sqrt(3) <= t`, for `t ≥ 0` -/
def sqrt3Le (v t : ℚ) : Bool := v ≤ 0 || 3 * v ^ 2 ≤ t ^ 2

/-- the class of the voltage `v`, which is `None` for some objects: ditto/metrics/network_analysis.py:895-898, 938-943, 1053-1054 and
1100-1104. `math.sqrt(3)` times a number of the model is never exactly a threshold. -/
inductive VoltClass
  | low | medium | none
deriving DecidableEq, Repr

def voltClass : Option ℚ → VoltClass
  | Option.none => .none
  | some v => if sqrt3Le v lvThreshold then .low else if sqrt3Le v mvThreshold then .medium else .none

/-- the attributes of a wire; `dropped`: `drop == 1` -/
structure MWire where
  phase : Option String
  dropped : Bool := false
  nameclass : Option String := none
deriving DecidableEq, Repr

structure MLine where
  voltage : Option ℚ
  length : Option ℚ
  lineType : Option String := none
  wires : Option (List MWire)
  isFuse : Bool := false
  isSwitch : Bool := false
  isRecloser : Bool := false
  isBreaker : Bool := false
  isSectionalizer : Bool := false
deriving DecidableEq, Repr

structure MPhaseLoad where
  phase : Option String
  p : Option ℚ
  q : Option ℚ
  dropped : Bool := false
deriving DecidableEq, Repr

structure MLoad where
  voltage : Option ℚ
  users : Option ℚ := none
  kva : Option ℚ := none
  upstream : Option String := none
  phaseLoads : Option (List MPhaseLoad)
deriving DecidableEq, Repr

/-- `phases` is the number of phase windings -/
structure MWinding where
  voltage : Option ℚ
  power : Option ℚ
  phases : Option Nat
deriving DecidableEq, Repr

inductive MObj
  | line (l : MLine)
  | load (l : MLoad)
  | regulator
  | capacitor
  | transformer (windings : Option (List MWinding))
  | other
deriving DecidableEq, Repr

/-- the lengths for one voltage class: all lines, those with one, two and three phases, and those of them that are overhead -/
structure Lens where
  total : ℚ := 0
  ph1 : ℚ := 0
  ph2 : ℚ := 0
  ph3 : ℚ := 0
  oh1 : ℚ := 0
  oh2 : ℚ := 0
  oh3 : ℚ := 0
deriving DecidableEq, Repr

/-- a dictionary of counters, in the order of the keys -/
abbrev Counter := List (Option String × Nat)

/-- `if k in d: d[k] += 1 else: d[k] = 1` -/
def Counter.bump (d : Counter) (k : Option String) : Counter :=
  if k ∈ d.map (·.1) then d.map fun e => if e.1 = k then (e.1, e.2 + 1) else e else d ++ [(k, 1)]

/-- the modelled part of `self.results[feeder_name]`: ditto/metrics/network_analysis.py:691-771 -/
structure Results where
  lv : Lens := {}
  mv : Lens := {}
  fuses : Nat := 0
  switches : Nat := 0
  reclosers : Nat := 0
  breakers : Nat := 0
  sectionalizers : Nat := 0
  wireNames : Counter := []
  customers : ℚ := 0
  mva : ℚ := 0
  loadsPer : Counter := []
  custPer : Counter := []
  lv1Loads : Nat := 0
  lv3Loads : Nat := 0
  mv3Loads : Nat := 0
  lvA : ℚ := 0
  lvB : ℚ := 0
  lvC : ℚ := 0
  kw : ℚ := 0
  kwA : ℚ := 0
  kwB : ℚ := 0
  kwC : ℚ := 0
  kvar : ℚ := 0
  loadDistribution : List ℚ := []
  regulators : Nat := 0
  capacitors : Nat := 0
  transformers : Nat := 0
  trafo1 : Nat := 0
  trafo3 : Nat := 0
deriving DecidableEq, Repr

/-! ### Lines -/

/-- the phases of the line: ditto/metrics/network_analysis.py:874-878 -/
def wirePhases (ws : List MWire) : List String :=
  (ws.filter fun w => !w.dropped).filterMap fun w => w.phase.bind fun x => if x ∈ ["A", "B", "C"] then some x else none

/-- ditto/metrics/network_analysis.py:902-935 and 947-980: `k` is the number of phases, `len` the length -/
def Lens.add (l : Lens) (k : Nat) (oh : Bool) (len : ℚ) : Lens :=
  let l := { l with total := l.total + len }
  if k = 1 then { l with ph1 := l.ph1 + len, oh1 := if oh then l.oh1 + len else l.oh1 }
  else if k = 2 then { l with ph2 := l.ph2 + len, oh2 := if oh then l.oh2 + len else l.oh2 }
  else if k = 3 then { l with ph3 := l.ph3 + len, oh3 := if oh then l.oh3 + len else l.oh3 }
  else l

/-- The counters of lines: ditto/metrics/network_analysis.py:838-888. -/
def countLine (r : Results) (l : MLine) (ws : List MWire) : Results :=
  { r with
    fuses := if l.isFuse then r.fuses + 1 else r.fuses
    switches := if l.isSwitch then r.switches + 1 else r.switches
    reclosers := if l.isRecloser then r.reclosers + 1 else r.reclosers
    breakers := if l.isBreaker then r.breakers + 1 else r.breakers
    sectionalizers := if l.isSectionalizer then r.sectionalizers + 1 else r.sectionalizers
    wireNames := (ws.map (·.nameclass)).foldl Counter.bump r.wireNames }

/-- the lengths: ditto/metrics/network_analysis.py:901-935 and 946-980. `None >= 0` raises `TypeError`. -/
def addLength (l : Lens) (line : MLine) (ws : List MWire) : Py Lens :=
  match line.length with
  | none => .error .typeError
  | some len => if 0 ≤ len then .ok (l.add (wirePhases ws).length (line.lineType = some "overhead") len) else .ok l

/-- `analyze_object` for a line: ditto/metrics/network_analysis.py:810-982 -/
def analyzeLine (r : Results) (l : MLine) : Py Results :=
  match l.wires with
  | none => .error .valueError
  | some ws =>
    let r := countLine r l ws
    match voltClass l.voltage with
    | .low =>
      match addLength r.lv l ws with
      | .error e => .error e
      | .ok lens => .ok { r with lv := lens }
    | .medium =>
      match addLength r.mv l ws with
      | .error e => .error e
      | .ok lens => .ok { r with mv := lens }
    | .none => .ok r

/-! ### Loads -/

/-- `p` of the phase load if its phase is `ph`, as added up in ditto/metrics/network_analysis.py:1070-1097 and 1173-1191 -/
def phaseP (ph : String) (pl : MPhaseLoad) : ℚ := if pl.phase = some ph then pl.p.getD 0 else 0

/-- ditto/metrics/network_analysis.py:1131-1164: a share for each phase load with the phase `ph` and a value of `p` -/
def phaseShare (ph : String) (share : ℚ) (pl : MPhaseLoad) : ℚ := if pl.phase = some ph ∧ pl.p.isSome then share else 0

/-- the part for low and medium voltage: ditto/metrics/network_analysis.py:1052-1111 -/
def loadVoltage (r : Results) (l : MLoad) (pls : List MPhaseLoad) : Results :=
  match voltClass l.voltage with
  | .low =>
    { r with
      lv1Loads := if pls.length = 1 then r.lv1Loads + 1 else r.lv1Loads
      lv3Loads := if pls.length = 3 then r.lv3Loads + 1 else r.lv3Loads
      lvA := r.lvA + (pls.map (phaseP "A")).sum
      lvB := r.lvB + (pls.map (phaseP "B")).sum
      lvC := r.lvC + (pls.map (phaseP "C")).sum }
  | .medium => { r with mv3Loads := if pls.length = 3 then r.mv3Loads + 1 else r.mv3Loads }
  | .none => r

/-- `transformer_connected_kva is not None and transformer_connected_kva != 0`: ditto/metrics/network_analysis.py:1122-1125 -/
def kvaOf (l : MLoad) : Option ℚ := l.kva.bind fun k => if k = 0 then none else some k

/-- the total demand: ditto/metrics/network_analysis.py:1113-1195; the division is only done for elements of the list -/
def loadDemand (r : Results) (l : MLoad) (pls : List MPhaseLoad) : Results :=
  let r :=
    if pls.all (fun pl => pl.p = some 0) ∧ pls.all (fun pl => pl.q = some 0) then
      match kvaOf l with
      | none => r
      | some k =>
        { r with
          kw := r.kw + k
          loadDistribution := r.loadDistribution ++ [k]
          kwA := r.kwA + (pls.map (phaseShare "A" (k / pls.length))).sum
          kwB := r.kwB + (pls.map (phaseShare "B" (k / pls.length))).sum
          kwC := r.kwC + (pls.map (phaseShare "C" (k / pls.length))).sum }
    else
      { r with
        kw := r.kw + (pls.filterMap (·.p)).sum
        loadDistribution := r.loadDistribution ++ [(pls.filterMap (·.p)).sum]
        kwA := r.kwA + (pls.map (phaseP "A")).sum
        kwB := r.kwB + (pls.map (phaseP "B")).sum
        kwC := r.kwC + (pls.map (phaseP "C")).sum }
  { r with kvar := r.kvar + (pls.filterMap (·.q)).sum }

/-- the exceptions of the power factor: ditto/metrics/network_analysis.py:1196-1205 -/
def powerFactor (pls : List MPhaseLoad) : Py Unit :=
  match pls with
  | [] => .error .indexError
  | pl :: _ => if pl.p.isSome ∧ pl.q.isSome then .ok () else .error .typeError

/-- customers, capacity and the loads of a transformer: ditto/metrics/network_analysis.py:987-1028. `useTrafos` is
`compute_kva_density_with_transformers`. -/
def loadCounts (useTrafos : Bool) (r : Results) (l : MLoad) : Results :=
  { r with
    customers := match l.users with
      | none => r.customers
      | some u => r.customers + u
    mva := if useTrafos then r.mva else
      match l.kva with
      | none => r.mva
      | some k => r.mva + k / 10 ^ 6
    loadsPer := if l.upstream.isSome then r.loadsPer.bump l.upstream else r.loadsPer
    custPer := if l.upstream.isSome then r.custPer.bump l.upstream else r.custPer }

/-- `analyze_object` for a load: ditto/metrics/network_analysis.py:984-1207. `err`: the exception of the impedances, if any. -/
def analyzeLoad (useTrafos : Bool) (err : Option PyErr) (r : Results) (l : MLoad) : Py Results :=
  let r := loadCounts useTrafos r l
  match err with
  | some e => .error e
  | none =>
    match l.phaseLoads with
    | none => .ok r
    | some all =>
      let pls := all.filter fun pl => !pl.dropped
      match powerFactor all with
      | .error e => .error e
      | .ok () => .ok (loadDemand (loadVoltage r l pls) l pls)

/-! ### Transformers -/

/-- the second part for transformers: ditto/metrics/network_analysis.py:1330-1365 -/
def analyzeWindings (useTrafos : Bool) (r : Results) : List MWinding → Py Results
  | [] => .ok r
  | w0 :: rest =>
    match w0.voltage with
    | none => .ok r
    | some v0 =>
      match rest with
      | [] => .error .indexError
      | w1 :: _ =>
        match w1.voltage with
        | none => .ok r
        | some v1 =>
          if v0 = v1 then .ok r
          else .ok { r with
            transformers := r.transformers + 1
            mva := if useTrafos then
              match w0.power with
              | none => r.mva
              | some p => r.mva + p / 10 ^ 6
              else r.mva
            trafo1 := if w0.phases = some 1 then r.trafo1 + 1 else r.trafo1
            trafo3 := if w0.phases = some 3 then r.trafo3 + 1 else r.trafo3 }

/-- `analyze_object`: ditto/metrics/network_analysis.py:776-1367. `ext` gives the exceptions of the parts that are not modelled. -/
def analyze (useTrafos : Bool) (ext : MObj → Option PyErr) (r : Results) (o : MObj) : Py Results :=
  match o with
  | .line l => analyzeLine r l
  | .load l => analyzeLoad useTrafos (ext o) r l
  | .regulator => .ok { r with regulators := r.regulators + 1 }
  | .capacitor => .ok { r with capacitors := r.capacitors + 1 }
  | .transformer ws =>
    match ext o with
    | some e => .error e
    | none =>
      match ws with
      | none => .ok r
      | some ws => analyzeWindings useTrafos r ws
  | .other => .ok r

/-- the loop over the objects -/
def analyzeAll (useTrafos : Bool) (ext : MObj → Option PyErr) (r : Results) (objs : List MObj) : Py Results :=
  objs.foldlM (analyze useTrafos ext) r

/-! ### Post-processing -/

/-- the factor of the conversion to miles: ditto/metrics/network_analysis.py:1799 -/
def toMiles : ℚ := 621371 / 10 ^ 9

def Lens.scale (l : Lens) (c : ℚ) : Lens := ⟨l.total * c, l.ph1 * c, l.ph2 * c, l.ph3 * c, l.oh1 * c, l.oh2 * c, l.oh3 * c⟩

/-- The results after the post-processing. A `none` is `nan` or, for the first ratio, `inf`; it is also the missing key in the
last one. -/
structure Metrics where
  raw : Results
  lvPctA : ℚ
  lvPctB : ℚ
  lvPctC : ℚ
  ratio1to3 : Option ℚ
  avgLoads : ℚ
  mvPerCust : Option ℚ
  mvOhPct : Option ℚ
  lvOhPct : Option ℚ
  sectPerRecl : Option ℚ
  imbalance : Option ℚ
  lvPerCust : Option ℚ
deriving DecidableEq, Repr

/-- division with a value for a zero denominator -/
def ratio (a b : ℚ) : Option ℚ := if b = 0 then none else some (a / b)

/-- the mean of the values of a counter, 0 if there are none: ditto/metrics/network_analysis.py:1790-1794 -/
def meanCount (d : Counter) : ℚ := if d.length = 0 then 0 else (((d.map (·.2)).sum : Nat) : ℚ) / d.length

/-- the conversions: ditto/metrics/network_analysis.py:1713-1745 and 1796-1804 -/
def convert (r : Results) : Results :=
  { r with
    lv := r.lv.scale toMiles, mv := r.mv.scale toMiles
    kw := r.kw / 1000, kvar := r.kvar / 1000, lvA := r.lvA / 1000, lvB := r.lvB / 1000, lvC := r.lvC / 1000
    kwA := r.kwA / 1000, kwB := r.kwB / 1000, kwC := r.kwC / 1000 }

/-- the percentage of a phase in the low voltage demand: ditto/metrics/network_analysis.py:1756-1780 -/
def phasePct (x total : ℚ) : ℚ := if total ≠ 0 then x / total * 100 else 0

/-- ditto/metrics/network_analysis.py:1751-1880 and 1459-1591 -/
def postProcess (r : Results) : Metrics :=
  let total := r.lvA + r.lvB + r.lvC
  let c := convert r
  { raw := c
    lvPctA := phasePct r.lvA total
    lvPctB := phasePct r.lvB total
    lvPctC := phasePct r.lvC total
    ratio1to3 := ratio r.trafo1 r.trafo3
    avgLoads := meanCount r.loadsPer
    mvPerCust := ratio c.mv.total c.customers
    mvOhPct := (ratio (c.mv.oh1 + c.mv.oh2 + c.mv.oh3) (c.lv.total + c.mv.total)).map (· * 100)
    lvOhPct := (ratio (c.lv.oh1 + c.lv.oh2 + c.lv.oh3) (c.lv.total + c.mv.total)).map (· * 100)
    sectPerRecl := ratio r.sectionalizers r.reclosers
    imbalance := ratio (|c.kwA - c.kw / 3| + |c.kwB - c.kw / 3| + |c.kwC - c.kw / 3|) c.kw
    lvPerCust := ratio c.lv.total c.customers }

/-- `compute_all_metrics`: ditto/metrics/network_analysis.py:1689-1969, after the preparations (1709-1712) -/
def computeAll (useTrafos : Bool) (ext : MObj → Option PyErr) (objs : List MObj) : Py Metrics :=
  match analyzeAll useTrafos ext {} objs with
  | .error e => .error e
  | .ok r => .ok (postProcess r)

/-! ### Per feeder -/

/-- the feeders with a substation: ditto/metrics/network_analysis.py:1439-1443. `self.substations[k]` raises `KeyError`. -/
def mvFeeders (subs : String → Option (Option String)) : List String → Py (List String)
  | [] => .ok []
  | k :: ks =>
    match subs k with
    | none => .error .keyError
    | some s =>
      match mvFeeders subs ks with
      | .error e => .error e
      | .ok l => .ok (if s.any (fun x => x ≠ "") then k :: l else l)

/-- one object: ditto/metrics/network_analysis.py:1450-1457; `res` is the dictionary of the results. `ext` depends on the feeder. -/
def analyzeIn (useTrafos : Bool) (ext : String → MObj → Option PyErr) (res : List (String × Results)) (o : Option String × MObj) :
    Py (List (String × Results)) :=
  match o.1 with
  | none => .ok res
  | some f =>
    match res.find? (fun e => e.1 = f) with
    | none => .ok res
    | some e =>
      match analyze useTrafos (ext f) e.2 o.2 with
      | .error err => .error err
      | .ok r => .ok (res.map fun e => if e.1 = f then (f, r) else e)

/-- the keys of the dictionary of the results: ditto/metrics/network_analysis.py:1446-1448 -/
def keysOf (names : List String) : List String := names.foldl (fun acc k => if k ∈ acc then acc else acc ++ [k]) []

/-- The post-processing is done, in place, once for each element of the list of names: ditto/metrics/network_analysis.py:1462-1591. -/
def postTimes : Nat → Results → Metrics
  | 0, r => postProcess r
  | n + 1, r => postProcess (postTimes n r).raw

/-- `compute_all_metrics_per_feeder`: ditto/metrics/network_analysis.py:1390-1687, after the preparations, for the objects with a `name`
and their `get_feeder`. Every key is at least once in the list. -/
def computePerFeeder (useTrafos : Bool) (ext : String → MObj → Option PyErr) (subs : String → Option (Option String)) (feeders : List String)
    (objs : List (Option String × MObj)) : Py (List (String × Metrics)) :=
  match mvFeeders subs feeders with
  | .error e => .error e
  | .ok names =>
    match objs.foldlM (analyzeIn useTrafos ext) ((keysOf names).map fun f => (f, {})) with
    | .error e => .error e
    | .ok res => .ok (res.map fun e => (e.1, postTimes (names.count e.1 - 1) e.2))

/-! ### Single metrics -/

/-- the loops of ditto/metrics/network_analysis.py:2315-2333: the comparison with `None` raises `TypeError` -/
def sumLines (inClass : ℚ → Bool) (keep : MLine → Bool) : List MObj → Py ℚ
  | [] => .ok 0
  | .line l :: rest =>
    match l.voltage with
    | none => .error .typeError
    | some v =>
      if inClass v && keep l then
        match l.length with
        | none => .error .typeError
        | some len =>
          match sumLines inClass keep rest with
          | .error e => .error e
          | .ok s => .ok (if 0 ≤ len then len + s else s)
      else sumLines inClass keep rest
  | _ :: rest => sumLines inClass keep rest

/-- the sum in miles -/
def inMiles : Py ℚ → Py ℚ
  | .error e => .error e
  | .ok s => .ok (s * toMiles)

/-- `lv_length_miles`: ditto/metrics/network_analysis.py:2315-2323 -/
def lvLengthMiles (objs : List MObj) : Py ℚ := inMiles (sumLines (fun v => v ≤ lvThreshold) (fun _ => true) objs)

/-- `mv_length_miles`: ditto/metrics/network_analysis.py:2325-2333 -/
def mvLengthMiles (objs : List MObj) : Py ℚ :=
  inMiles (sumLines (fun v => mvThreshold ≥ v ∧ v > lvThreshold) (fun _ => true) objs)

/-- the phase loads of a load of the model -/
def MObj.phaseLoads : MObj → List MPhaseLoad
  | .load l => l.phaseLoads.getD []
  | _ => []

/-- `total_demand` and `total_reactive_power`: ditto/metrics/network_analysis.py:2383-2403 -/
def totalDemand (objs : List MObj) : ℚ := (objs.map fun o => (o.phaseLoads.filterMap (·.p)).sum).sum / 1000
def totalReactive (objs : List MObj) : ℚ := (objs.map fun o => (o.phaseLoads.filterMap (·.q)).sum).sum / 1000

/-- `number_of_regulators`, `number_of_fuses`, `number_of_reclosers`, `number_of_switches` and `number_of_capacitors`:
ditto/metrics/network_analysis.py:1971-2007 -/
def numberOfRegulators (objs : List MObj) : Nat := (objs.map fun o => if o = .regulator then 1 else 0).sum
def numberOfFuses (objs : List MObj) : Nat := (objs.map fun o => match o with
  | .line l => if l.isFuse then 1 else 0
  | _ => 0).sum
def numberOfReclosers (objs : List MObj) : Nat := (objs.map fun o => match o with
  | .line l => if l.isRecloser then 1 else 0
  | _ => 0).sum
def numberOfSwitches (objs : List MObj) : Nat := (objs.map fun o => match o with
  | .line l => if l.isSwitch then 1 else 0
  | _ => 0).sum
def numberOfCapacitors (objs : List MObj) : Nat := (objs.map fun o => if o = .capacitor then 1 else 0).sum

/-- the phase loads of the loads up to 1 kV: ditto/metrics/network_analysis.py:2447-2452 -/
def lvPhaseLoads (objs : List MObj) : List MPhaseLoad := objs.flatMap fun o => match o with
  | .load l =>
    match l.voltage with
    | none => []
    | some v => if v ≤ lvThreshold then o.phaseLoads else []
  | _ => []

/-- `percentage_load_LV_kW_phX`: ditto/metrics/network_analysis.py:2433-2465, for a string. Division by zero raises an exception. -/
def percentageLV (X : String) (objs : List MObj) : Py ℚ :=
  if X ∈ ["A", "B", "C"] then
    let pls := lvPhaseLoads objs
    let total := (pls.map (phaseP "A")).sum + (pls.map (phaseP "B")).sum + (pls.map (phaseP "C")).sum
    if total = 0 then .error .zeroDivisionError else .ok ((pls.map (phaseP X)).sum / total * 100)
  else .error .valueError

end Ditto.Metrics
