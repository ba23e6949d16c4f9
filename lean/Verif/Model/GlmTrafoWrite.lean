import Verif.Model.GlmLines
import Mathlib.Data.List.Dedup

/-! Transformers in the GridLAB-D writer: `write_transformer_configurations` and `write_transformers` in ditto/writers/gridlabd/write.py. Numbers are exact
and `shown` prints a number as `str` does. The dictionaries have the printed values; different numbers are printed differently. -/
namespace Ditto.Glm
open Ditto

/-- the attributes of a `Winding` that are used: ditto/models/winding.py:22-59. An absent list of phase windings is like an empty one. -/
structure WGWinding (K : Type) where
  connection : Option Text
  voltageType : Option Int
  voltage : Option K
  resistance : Option K
  power : Option K
  phases : List (Option Text)
deriving DecidableEq

/-- the attributes of a `PowerTransformer` that are used: ditto/models/powertransformer.py:23-68. Absent lists are like empty ones. There is no attribute
`reactance`. -/
structure WGTrafo (K : Type) where
  name : Option Text
  source : Option Text
  sink : Option Text
  install : Option Text
  loss : Option K
  reactances : List K
  windings : List (WGWinding K)
deriving DecidableEq

/-- the word for both connections, if there is one: ditto/writers/gridlabd/write.py:383-401 -/
def connectWord (a b : Text) : Option Text :=
  if a = ['Y'] then
    if b = ['Y'] then some "WYE_WYE".toList else if b = ['D'] then some "WYE_DELTA".toList else none
  else if a = ['D'] then
    if b = ['Y'] then some "DELTA_GWYE".toList else if b = ['D'] then some "DELTA_DELTA".toList else none
  else none

/-- `connect_type`, if there is one: ditto/writers/gridlabd/write.py:374-401 -/
def connectType {K : Type} (n : Nat) (w1 w2 : WGWinding K) : Option Text :=
  if n = 3 then some "SINGLE_PHASE_CENTER_TAPPED".toList
  else
    match w1.connection, w2.connection with
    | some a, some b => connectWord a b
    | _, _ => none

/-- `dic[key] = value` unless the value is `None`: ditto/writers/gridlabd/write.py:358-361, 402-430 -/
def setSome (k : Text) (v : Option Text) (d : List (Text × Text)) : List (Text × Text) :=
  match v with
  | none => d
  | some t => setEntry k t d

section numbers
variable {K : Type} [Field K] (shown : K → Text)

/-- the attributes of the two first windings: ditto/writers/gridlabd/write.py:374-430 -/
def windingDict (n : Nat) (w1 w2 : WGWinding K) (d : List (Text × Text)) : List (Text × Text) :=
  setSome "power_rating".toList (w1.power.map fun p => shown (p / 1000))
    (setSome (if w2.voltageType = some 0 then "primary_voltage".toList else "secondary_voltage".toList) (w2.voltage.map shown)
      (setSome (if w1.voltageType = some 2 then "secondary_voltage".toList else "primary_voltage".toList) (w1.voltage.map shown)
        (setSome "connect_type".toList (connectType n w1 w2) d)))

/-- the impedance: ditto/writers/gridlabd/write.py:436-450. For three windings `i.reactance` raises AttributeError. -/
def impedanceDict (t : WGTrafo K) (d : List (Text × Text)) : Py (List (Text × Text)) :=
  match t.reactances, t.windings with
  | [x], [w1, w2] =>
    match w1.resistance, w2.resistance with
    | some r1, some r2 => .ok (setEntry "resistance".toList (shown (r1 + r2)) (setEntry "reactance".toList (shown x) d))
    | _, _ => .error .typeError
  | [_, _, _], [w1, _, _] =>
    match w1.resistance with
    | none => .error .typeError
    | some _ => .error .attributeError
  | _, _ => .ok d

/-- the dictionary of a transformer: ditto/writers/gridlabd/write.py:357-450 -/
def trafoDict (t : WGTrafo K) : Py (List (Text × Text)) :=
  match t.windings with
  | w1 :: w2 :: ws =>
    impedanceDict shown t (windingDict shown (ws.length + 2) w1 w2
      (setSome "no_load_loss".toList (t.loss.map shown) (setSome "install_type".toList t.install [])))
  | _ => impedanceDict shown t (setSome "no_load_loss".toList (t.loss.map shown) (setSome "install_type".toList t.install []))

/-- `transformer_config_{num}`: ditto/writers/gridlabd/write.py:465-469 -/
def trafoConfigName (n : Nat) : Text := "transformer_config_".toList ++ (Nat.repr n).toList

/-- the rows of a configuration: ditto/writers/gridlabd/write.py:466-473 -/
def trafoConfigRows (d : List (Text × Text)) (name : Text) : List Text :=
  entryRows "transformer_configuration".toList (setEntry "name".toList name d)

/-- `write_transformer_configurations`: ditto/writers/gridlabd/write.py:353-474, with the dictionaries that are there before and the next number -/
def writeTrafoConfigs (st : LineConfigs) (count : Nat) : List (WGTrafo K) → Py (LineConfigs × List Text)
  | [] => .ok (st, [])
  | t :: ts =>
    match trafoDict shown t with
    | .error e => .error e
    | .ok d =>
      match findConfig st.configs d with
      | some n => writeTrafoConfigs { st with names := (t.name, n) :: st.names } count ts
      | none =>
        match writeTrafoConfigs ⟨st.configs ++ [(d, trafoConfigName count)], (t.name, trafoConfigName count) :: st.names⟩ (count + 1) ts with
        | .error e => .error e
        | .ok (st', rows) => .ok (st', trafoConfigRows d (trafoConfigName count) ++ rows)

/-- the different phases of all windings, sorted: ditto/writers/gridlabd/write.py:497-510 -/
def trafoPhaseText (t : WGTrafo K) : Text :=
  ((t.windings.flatMap fun w => w.phases.filterMap id).dedup.insertionSort fun a b => textLe a b = true).flatten

/-- the attributes of a transformer: ditto/writers/gridlabd/write.py:490-524 -/
def trafoEntries (names : List (Option Text × Text)) (t : WGTrafo K) : List (Text × Text) :=
  optEntry "name".toList (t.name.map ('n' :: ·)) ++ optEntry "from".toList (t.source.map ('n' :: ·)) ++
    optEntry "to".toList (t.sink.map ('n' :: ·)) ++ capPhaseEntry (trafoPhaseText t) ++ optEntry "configuration".toList (t.name.bind (configOf names))

/-- the rows of a transformer. There is no blank before the brace: ditto/writers/gridlabd/write.py:489-526 -/
def trafoRows (names : List (Option Text × Text)) (t : WGTrafo K) : List Text :=
  "object transformer{".toList :: ((trafoEntries names t).map fun p => entryRow four p.1 p.2) ++ ["};".toList, []]

/-- `write_transformers`: ditto/writers/gridlabd/write.py:476-526. `regs` are the names of the regulators; transformers of regulators are left out. -/
def writeTrafoRows (names : List (Option Text × Text)) (regs : List (Option Text)) (ts : List (WGTrafo K)) : List Text :=
  (ts.filter fun t => t.name ∉ regs).flatMap (trafoRows names)

end numbers
end Ditto.Glm
