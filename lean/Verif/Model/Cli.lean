import Verif.Model.Py

/-! The command line and `Converter`: ditto/cli.py, ditto/converter.py and ditto/metric_computer.py. A run is the list of its steps; what
the steps do (loading a plugin, reading a file, ...) is not modelled, but each of them can raise any exception. -/
namespace Ditto.Cli
open Ditto

/-- `from` and `to` are `none` if they are not given -/
structure Options where
  fromF : Option String
  toF : Option String
  input : String
  output : String
  jsonize : Option String := none
  defaultValues : Option String := none
  removeDefaults : Bool := false
  warehouse : Option String := none
  byFeeder : Bool := true
deriving DecidableEq, Repr

/-- the arguments of the reader: `paths` is the dictionary of one of the formats, with the two entries added in
ditto/converter.py:166-174 -/
inductive Inputs
  | config
  | paths (format input : String) (defaultValues : Option String) (removeDefaults : Bool)
deriving DecidableEq, Repr

/-- the steps with an effect outside -/
inductive Step
  | loadReader (f : String)
  | loadWriter (f : String)
  | openConfig (path : String)
  | newReader (f : String) (i : Inputs)
  | newWriter (f : String) (out : String)
  | parse (f : String)
  | newJson (path : String)
  | writeJson (path : String)
  | write (f : String)
  | splitFeeders
  | metrics (byFeeder : Bool)
  | export (path : String)
deriving DecidableEq, Repr

/-- what a command does: its steps and the exception after them, if any -/
structure Plan where
  steps : List Step
  err : Option PyErr
deriving DecidableEq, Repr

def Plan.after (steps : List Step) (p : Plan) : Plan := ⟨steps ++ p.steps, p.err⟩

/-- the rest of the world: the registered plugins (ditto/cli.py:25-31), and whether the configuration file has entries -/
structure World where
  readers : List String
  writers : List String
  hasConfig : String → Bool
  fail : Step → Option PyErr

/-- running the steps until one of them fails -/
def exec (fail : Step → Option PyErr) (err : Option PyErr) : List Step → Plan
  | [] => ⟨[], err⟩
  | s :: ss =>
    match fail s with
    | some e => ⟨[s], some e⟩
    | none => (exec fail err ss).after [s]

/-- `input_path.endswith(".json")` -/
def isJson (path : String) : Bool := ".json".toList.isSuffixOf path.toList

/-- `Converter.__init__`: ditto/converter.py:55-59. The configuration is read if the input is a JSON file. -/
def openSteps (path : String) : List Step := if isJson path then [.openConfig path] else []

/-- `get_inputs`: ditto/converter.py:107-185 -/
def getInputs (w : World) (f : String) (o : Options) : Py Inputs :=
  if isJson o.input && w.hasConfig o.input then .ok .config
  else if f ∈ ["opendss", "cyme", "gridlabd", "demo", "synergi", "dew"] then
    .ok (.paths f o.input (match o.defaultValues with
      | some "" => none
      | d => d) o.removeDefaults)
  else .error .notImplementedError

/-- the optional JSON output: ditto/converter.py:248-250 -/
def jsonSteps (o : Options) : List Step :=
  match o.jsonize with
  | some p => [.newJson p, .writeJson p]
  | none => []

/-- `Converter.convert`: ditto/converter.py:232-252 -/
def convertPlan (w : World) (f t : String) (o : Options) : Plan :=
  Plan.after (openSteps o.input)
    (match getInputs w f o with
    | .error e => ⟨[], some e⟩
    | .ok i =>
      ⟨[.newReader f i, .newWriter t o.output, .parse f] ++ jsonSteps o ++ [.write t], none⟩)

/-- `convert`: ditto/cli.py:149-183 -/
def convertCmd (w : World) (o : Options) : Plan :=
  match o.fromF with
  | none => ⟨[], some .badOptionUsage⟩
  | some f =>
    if f ∉ w.readers then ⟨[], some .badOptionUsage⟩
    else
      match o.toF with
      | none => ⟨[], some .badOptionUsage⟩
      | some t =>
        if t ∉ w.writers then ⟨[], some .badOptionUsage⟩
        else
          match o.jsonize with
          | some _ =>
            if "json" ∉ w.writers then ⟨[], some .keyError⟩
            else Plan.after [.loadWriter "json", .loadReader f, .loadWriter t] (convertPlan w f t o)
          | none => Plan.after [.loadReader f, .loadWriter t] (convertPlan w f t o)

/-- the export of metrics: ditto/metric_computer.py:65-68; `None.lower()` raises `AttributeError`. -/
def exportPlan (o : Options) : Plan :=
  match o.toF with
  | none => ⟨[], some .attributeError⟩
  | some t =>
    if pyLower t = "json" then ⟨[.export (o.output ++ "/metrics.json")], none⟩
    else if pyLower t ∈ ["xlsx", "excel", "xls"] then ⟨[.export (o.output ++ "/metrics.xlsx")], none⟩
    else ⟨[], none⟩

/-- the metric computer has no default values -/
def Options.withoutDefaults (o : Options) : Options := { o with defaultValues := none, removeDefaults := false }

/-- `metric`: ditto/cli.py:101-118 and `MetricComputer.compute`: ditto/metric_computer.py:47-68 -/
def metricCmd (w : World) (o : Options) : Plan :=
  match o.fromF with
  | none => ⟨[], some .badOptionUsage⟩
  | some f =>
    if f ∉ w.readers then ⟨[], some .badOptionUsage⟩
    else
      Plan.after ([.loadReader f] ++ openSteps o.input)
        (match getInputs w f o.withoutDefaults with
        | .error e => ⟨[], some e⟩
        | .ok i => Plan.after ([.newReader f i, .parse f] ++ (if o.byFeeder then [.splitFeeders] else []) ++ [.metrics o.byFeeder]) (exportPlan o))

/-- running a command: the steps done and the exception, if any -/
def run (w : World) (cmd : Plan) : Plan := exec w.fail cmd.err cmd.steps

end Ditto.Cli
