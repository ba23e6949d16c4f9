import Verif.Lemmas.Json

/-! C30: the JSON writer and reader. -/
namespace Ditto.Json
open Ditto

/-- C30: reading back a written model gives the same objects in the same order, with the same attributes; nested objects come back in
their parents. It is assumed that all lists only have elements the writer knows, and that `None` is only the value of attributes
with this default value; without this objects are changed (see the `_violated` theorems). -/
theorem C30_roundtrip_partial (env : Env) (model : List Obj) (h : ∀ o ∈ model, (Nested o ∧ StorableNested o) ∨ Storable env o) :
    ∃ f, write model = .ok f ∧ ∃ res, parse env f = .ok res ∧
      List.Forall₂ SameObj (model.filter fun o => o.cls ∉ ["Winding", "PhaseWinding", "Wire", "PhaseCapacitor", "Position", "PhaseLoad"]) res := by
  have : ∃ js, mapPy writeObj model = .ok js ∧ ∃ os, mapPy (readObj env) js = .ok os ∧
      List.Forall₂ SameObj (model.filter fun o => o.cls ∉ ["Winding", "PhaseWinding", "Wire", "PhaseCapacitor", "Position", "PhaseLoad"])
        (os.filterMap id) := by
    induction model with
    | nil => exact ⟨[], rfl, [], rfl, .nil⟩
    | cons o model ih =>
      obtain ⟨js, h1, os, h2, h3⟩ := ih fun x hx => h x (List.mem_cons_of_mem _ hx)
      rcases h o List.mem_cons_self with ⟨hn, hs⟩ | hs
      · obtain ⟨j, h4, h5⟩ := obj_nested hs
        have h6 : readObj env j = .ok none := by
          unfold readObj
          rw [h5, if_pos (show o.cls ∈ ignoredClasses from hn)]
        refine ⟨j :: js, by simp only [mapPy, h4, h1], none :: os, by simp only [mapPy, h6, h2], ?_⟩
        rw [List.filter_cons_of_neg (by rw [decide_eq_true_iff]; exact fun hh => hh hn), List.filterMap_cons_none rfl]
        exact h3
      · obtain ⟨j, h4, r, h5, h6⟩ := obj_ok env hs
        have hc : o.cls ∉ ["Winding", "PhaseWinding", "Wire", "PhaseCapacitor", "Position", "PhaseLoad"] := by
          have := hs.cls
          simp only [List.mem_cons, List.not_mem_nil, or_false] at this
          rcases this with h | h | h | h | h | h | h | h | h | h <;> rw [h] <;> decide +kernel
        refine ⟨j :: js, by simp only [mapPy, h4, h1], some r :: os, by simp only [mapPy, h5, h2], ?_⟩
        rw [List.filter_cons_of_pos (by simpa using hc), List.filterMap_cons_some (f := id) (b := r) rfl]
        exact .cons h6 h3
  obtain ⟨js, h1, os, h2, h3⟩ := this
  exact ⟨.model js, by simp only [write, h1], os.filterMap id, by simp only [parse, h2], h3⟩

/-- C30: a model with an object of a class the reader does not know (`Generator`, `Reactor`, `Timeseries`, `Meter`, ...) cannot be read back. -/
theorem C30_unsupported (env : Env) (model : List Obj) (f : JFile) (hf : write model = .ok f) (o : Obj) (ho : o ∈ model)
    (h1 : ¬ Nested o) (h2 : o.cls ∉ objectClasses) : ∃ e, parse env f = .error e := by
  unfold write at hf
  cases hj : mapPy writeObj model with
  | error e => rw [hj] at hf; cases hf
  | ok js =>
    rw [hj] at hf
    cases hf
    have : ∃ j ∈ js, j.cls = o.cls := by
      clear h1 h2
      induction model generalizing js with
      | nil => cases ho
      | cons a as ih =>
        simp only [mapPy] at hj
        cases ha : writeObj a with
        | error e => rw [ha] at hj; cases hj
        | ok b =>
          rw [ha] at hj
          cases hb : mapPy writeObj as with
          | error e => rw [hb] at hj; cases hj
          | ok bs =>
            rw [hb] at hj
            cases hj
            rcases List.mem_cons.1 ho with rfl | ho
            · exact ⟨b, List.mem_cons_self, writeObj_cls ha⟩
            · obtain ⟨j, hj1, hj2⟩ := ih ho bs hb
              exact ⟨j, List.mem_cons_of_mem _ hj1, hj2⟩
    obtain ⟨j, hj1, hj2⟩ := this
    obtain ⟨e, he⟩ := mapPy_error (f := readObj env) (l := js) ⟨j, hj1, by
      unfold readObj
      rw [hj2, if_neg (show o.cls ∉ ignoredClasses from h1), if_neg h2]
      split
      · exact ⟨_, rfl⟩
      · exact ⟨_, rfl⟩⟩
    exact ⟨e, by simp only [parse, he]⟩

/-- C30: files without a list of objects are rejected. -/
theorem C30_rejects (env : Env) : parse env .noModel = .error .valueError ∧ parse env .noList = .error .typeError := ⟨rfl, rfl⟩

/-! ### Examples -/

/-- some default values: `length` of a line is 0 (ditto/models/line.py:44-46), those of a position are 0.0 (ditto/models/position.py:8-10),
that of the name is the empty string where there is none -/
def exDflt (c : String) : List (String × Scalar) :=
  if c = "Line" then [("name", .str ""), ("length", .float 0), ("line_type", .none)]
  else if c = "Wire" then [("phase", .none), ("ampacity", .none)]
  else if c = "Winding" then [("nominal_voltage", .none)]
  else if c = "PhaseWinding" then [("phase", .none)]
  else if c = "PowerTransformer" ∨ c = "Storage" ∨ c = "Node" then [("name", .str "")]
  else if c = "PhaseStorage" then [("phase", .none), ("p", .none)]
  else []

/-- conversions that do not occur -/
def exEnv : Env := ⟨fun _ _ => .error .typeError, exDflt⟩

def exWire : Leaf := ⟨"Wire", [("phase", .str "A"), ("ampacity", .none)]⟩
def exPhaseWinding : Leaf := ⟨"PhaseWinding", [("phase", .str "B")]⟩
def exLine : Obj := ⟨"Line", [("name", .scalar (.str "l1")), ("length", .scalar (.float 12)), ("line_type", .scalar .none),
  ("wires", .list [.sub (.leaf exWire)]), ("impedance_matrix", .list [.row [.complex 1 2, .float 3], .row [.float 3, .complex 1 2]])]⟩
def exTrafo : Obj := ⟨"PowerTransformer", [("name", .scalar (.str "t1")), ("reactances", .list [.scalar (.float 7)]),
  ("windings", .list [.sub (.winding [("nominal_voltage", .npfloat 7200)] (some [exPhaseWinding]))])]⟩
def exNode : Obj := ⟨"Node", [("name", .scalar (.str "n1")), ("phases", .list [.unicode (.str "A"), .unicode (.str "C")])]⟩
def exModel : List Obj := [exLine, ⟨"Wire", [("phase", .scalar (.str "A"))]⟩, exTrafo, exNode]

/-- writing and reading back -/
def trip (env : Env) (model : List Obj) : Py (List Obj) :=
  match write model with
  | .error e => .error e
  | .ok f => parse env f

theorem exModel_run : trip exEnv exModel = .ok [exLine, exTrafo, exNode] := by decide +kernel

example : ∀ o ∈ exModel, (Nested o ∧ StorableNested o) ∨ Storable exEnv o := by
  intro o ho
  simp only [exModel, List.mem_cons, List.not_mem_nil, or_false] at ho
  rcases ho with rfl | rfl | rfl | rfl
  · right
    refine ⟨by decide +kernel, by decide +kernel, by decide +kernel, by decide +kernel, ?_⟩
    intro e he
    simp only [exLine, List.mem_cons, List.not_mem_nil, or_false] at he
    rcases he with rfl | rfl | rfl | rfl | rfl
    · exact ⟨by decide +kernel, .inl trivial⟩
    · exact ⟨by decide +kernel, .inl trivial⟩
    · exact ⟨by decide +kernel, .inr ⟨rfl, by decide +kernel⟩⟩
    · unfold StorableVal
      simp only
      rw [if_neg (by decide +kernel)]
      intro i hi
      rw [List.mem_singleton] at hi
      subst hi
      refine ⟨by decide +kernel, by decide +kernel, by decide +kernel, ?_⟩
      intro e he
      simp only [exWire, List.mem_cons, List.not_mem_nil, or_false] at he
      rcases he with rfl | rfl
      · exact .inl trivial
      · exact .inr ⟨rfl, by decide +kernel⟩
    · unfold StorableVal
      simp only
      rw [if_pos (by decide +kernel)]
      intro i hi
      simp only [List.mem_cons, List.not_mem_nil, or_false] at hi
      rcases hi with rfl | rfl <;> intro s hs <;> simp only [List.mem_cons, List.not_mem_nil, or_false] at hs <;>
        rcases hs with rfl | rfl <;> first | exact trivial | exact rfl
  · left
    refine ⟨by unfold Nested; decide +kernel, ?_⟩
    intro e he
    rw [List.mem_singleton] at he
    subst he
    exact ⟨by decide +kernel, fun l hl => by cases hl⟩
  · right
    refine ⟨by decide +kernel, by decide +kernel, by decide +kernel, by decide +kernel, ?_⟩
    intro e he
    simp only [exTrafo, List.mem_cons, List.not_mem_nil, or_false] at he
    rcases he with rfl | rfl | rfl
    · exact ⟨by decide +kernel, .inl trivial⟩
    · unfold StorableVal
      simp only
      rw [if_pos (by decide +kernel)]
      intro i hi
      rw [List.mem_singleton] at hi
      subst hi
      exact trivial
    · unfold StorableVal
      simp only
      rw [if_neg (by decide +kernel)]
      intro i hi
      rw [List.mem_singleton] at hi
      subst hi
      refine ⟨⟨by decide +kernel, by decide +kernel, ?_⟩, [exPhaseWinding], rfl, ?_⟩
      · intro e he
        rw [List.mem_singleton] at he
        subst he
        exact .inl trivial
      · intro p hp
        rw [List.mem_singleton] at hp
        subst hp
        refine ⟨rfl, by decide +kernel, by decide +kernel, ?_⟩
        intro e he
        simp only [exPhaseWinding, List.mem_singleton] at he
        subst he
        exact .inl trivial
  · right
    refine ⟨by decide +kernel, by decide +kernel, by decide +kernel, by decide +kernel, ?_⟩
    intro e he
    simp only [exNode, List.mem_cons, List.not_mem_nil, or_false] at he
    rcases he with rfl | rfl
    · exact ⟨by decide +kernel, .inl trivial⟩
    · unfold StorableVal
      simp only
      rw [if_neg (by decide +kernel)]
      intro i hi
      simp only [List.mem_cons, List.not_mem_nil, or_false] at hi
      rcases hi with rfl | rfl
      · exact ⟨_, rfl⟩
      · exact ⟨_, rfl⟩

/-- C30: the unknown length of a line comes back as 0. -/
theorem C30_none_violated :
    trip exEnv [⟨"Line", [("name", .scalar (.str "l")), ("length", .scalar .none), ("line_type", .scalar .none)]⟩] =
      .ok [⟨"Line", [("name", .scalar (.str "l")), ("length", .scalar (.float 0)), ("line_type", .scalar .none)]⟩] := by decide +kernel

/-- C30: the phases of a storage are lost, and come back as an object of their own with the name "None". -/
theorem C30_storage_violated :
    trip exEnv [⟨"Storage", [("name", .scalar (.str "s")), ("phase_storages", .list [.sub (.leaf ⟨"PhaseStorage", [("phase", .str "A"), ("p", .float 5)]⟩)])]⟩,
      ⟨"PhaseStorage", [("phase", .scalar (.str "A")), ("p", .scalar (.float 5))]⟩] =
      .ok [⟨"Storage", [("name", .scalar (.str "s")), ("phase_storages", .list [])]⟩,
        ⟨"PhaseStorage", [("phase", .scalar (.str "A")), ("p", .scalar (.float 5)), ("name", .scalar (.str "None"))]⟩] := by decide +kernel

/-- C30: a load with a time series cannot be read back. -/
theorem C30_timeseries_violated :
    trip exEnv [⟨"Load", [("name", .scalar (.str "l")), ("timeseries", .list [.sub (.leaf ⟨"Timeseries", [("interval", .float 1)]⟩)])]⟩,
      ⟨"Timeseries", [("interval", .scalar (.float 1))]⟩] = .error .valueError := by decide +kernel

/-- C30: reactances that are `None` cannot be written. -/
theorem C30_matrix_violated :
    trip exEnv [⟨"PowerTransformer", [("name", .scalar (.str "t")), ("reactances", .scalar .none)]⟩] = .error .typeError := by decide +kernel

end Ditto.Json
