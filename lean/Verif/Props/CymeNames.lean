import Verif.Model.CymeCaps
import Verif.Model.CymeLoadFile
import Verif.Model.CymeNodes
import Verif.Model.CymeRegRead
import Verif.Model.CymeSources
import Verif.Model.CymeTrafos
import Verif.Spec.CymeTable

/-! The tables of CYME files by the names that CYME gives them. -/
namespace Ditto.Cyme
open Ditto Glm Cyme.Spec

/-- what the reader looks for, and the name of the table in the file -/
def namedTables : List (Query × Text) :=
  [(headQuery, "[HEADNODES]".toList),
    (connectionQuery, "[SUBNETWORK CONNECTIONS]".toList),
    (nodeQuery, "[NODE]".toList),
    (connectorQuery, "[NODE CONNECTOR]".toList),
    (autoSettingQuery, "[AUTO TRANSFORMER SETTING]".toList),
    (groundSettingQuery, "[GROUNDINGTRANSFORMER SETTINGS]".toList),
    (threeAutoSettingQuery, "[THREE WINDING AUTO TRANSFORMER SETTING]".toList),
    (threeSettingQuery, "[THREE WINDING TRANSFORMER SETTING]".toList),
    (twoSettingQuery, "[TRANSFORMER SETTING]".toList),
    (shifterSettingQuery, "[PHASE SHIFTER TRANSFORMER SETTING]".toList),
    (autoQuery, "[AUTO TRANSFORMER]".toList),
    (groundQuery, "[GROUNDING TRANSFORMER]".toList),
    (threeAutoQuery, "[THREE WINDING AUTO TRANSFORMER]".toList),
    (threeQuery, "[THREE WINDING TRANSFORMER]".toList),
    (twoQuery, "[TRANSFORMER]".toList),
    (loadsQuery, "[LOADS]".toList),
    (customerQuery, "[CUSTOMER LOADS]".toList),
    (classQuery, "[CUSTOMER CLASS]".toList),
    (sourceQuery, "[SOURCE]".toList),
    (equivalentQuery, "[SOURCE EQUIVALENT]".toList),
    (substationQuery, "[SUBSTATION]".toList),
    (settingQuery, "[REGULATOR SETTING]".toList),
    (regulatorQuery, "[REGULATOR]".toList),
    (seriesSettingQuery, "[SERIES CAPACITOR SETTING]".toList),
    (shuntSettingQuery, "[SHUNT CAPACITOR SETTING]".toList),
    (seriesQuery, "[SERIES CAPACITOR]".toList),
    (shuntQuery, "[SHUNT CAPACITOR]".toList)]

theorem heads_one (name line : Text) : Heads [name] line ↔ name <:+: line := by
  unfold Heads
  constructor
  · rintro ⟨h, hm, hi⟩
    rwa [List.mem_singleton.mp hm] at hi
  · exact fun h => ⟨name, List.mem_singleton.mpr rfl, h⟩

/-- C73: each kind of data is looked for in the tables with its name in square brackets, and in no others. -/
theorem C73_names (p : Query × Text) (hp : p ∈ namedTables) (line : Text) : Heads p.1.headers line ↔ p.2 <:+: line := by
  have h : ∀ p ∈ namedTables, p.1.headers = [p.2] := by decide +kernel
  rw [h p hp]
  exact heads_one p.2 line

/-- no name of a table is part of another one, so that no line begins tables of two kinds -/
theorem C73_names_apart (p q : Query × Text) (hp : p ∈ namedTables) (hq : q ∈ namedTables) (h : Heads q.1.headers p.2) : p.2 = q.2 := by
  rw [C73_names q hq] at h
  have key : ∀ p ∈ namedTables, ∀ q ∈ namedTables, q.2 <:+: p.2 → p.2 = q.2 := by decide +kernel
  exact key p hp q hq h

example : Heads autoSettingQuery.headers "[AUTO TRANSFORMER SETTING]\n".toList :=
  (C73_names (autoSettingQuery, "[AUTO TRANSFORMER SETTING]".toList) (by simp [namedTables]) _).mpr ⟨[], ['\n'], rfl⟩

end Ditto.Cyme
