import Verif.Lemmas.Tag

/-! C40: `tag_objects` and `get_feeder`. -/
namespace Ditto.Net
open Ditto

/-- C40: `tag_objects` ends, for every mapping and model. -/
theorem C40_ends (objs : List NetObj) (s : String) (n : Network) (hb : build objs s = .ok n) (mp subs : String → Option String)
    (devs : List TagDev) : ∃ r, tagObjects n mp subs devs = some r := by
  cases h : tagObjects n mp subs devs with
  | none => exact absurd h (tagSecond_ends hb mp _ _)
  | some r => exact ⟨r, rfl⟩

/-- C40: the objects that get a feeder are those of these ten classes; the node of an object is itself, its `connecting_element` or its
`from_element`. -/
theorem C40_classes (d : TagDev) :
    (d.hasFeeder = true ↔ d.net.cls ∈ ["Node", "Line", "Load", "PowerTransformer", "Regulator", "Capacitor", "Generator", "Photovoltaic",
      "Storage", "Reactor"]) ∧
    (d.net.cls = "Node" → d.anchor = d.net.name) ∧
    (d.net.cls ∈ ["Load", "Capacitor", "Generator", "Photovoltaic", "Storage"] → d.anchor = d.net.connecting) ∧
    (d.net.cls ∈ ["Line", "PowerTransformer", "Regulator", "Reactor"] → d.anchor = d.net.fromEl) := by
  refine ⟨?_, fun h => by simp [TagDev.anchor, h], fun h => ?_, fun h => ?_⟩
  · simp [TagDev.hasFeeder, oneTerminalClasses, twoTerminalClasses]
    tauto
  · simp only [List.mem_cons, List.not_mem_nil, or_false] at h
    rcases h with h | h | h | h | h <;> simp [TagDev.anchor, oneTerminalClasses, h]
  · simp only [List.mem_cons, List.not_mem_nil, or_false] at h
    rcases h with h | h | h | h <;> simp [TagDev.anchor, oneTerminalClasses, h]

example : ({ net := { cls := "Photovoltaic", name := some "p", connecting := some "n" } } : TagDev).anchor = some "n" := rfl

/-- C40: every object gets the feeder of its own node when mapped, otherwise that of the nearest mapped node above, otherwise keeps its
feeder. The names of the objects are different, the names of feeders are not empty, and nodes above others are objects, mapped ones nodes.
Not proved, since they are false: that objects outside of the network are left as they are (`C40_outside_violated`), that unnamed nodes
are passed over (`C40_missing_violated`), that the nearest mapped predecessor counts when it is no node (`C40_source_violated`), and that
the time series get the same feeder as their object (`C40_series_violated`). -/
theorem C40_tags_partial (objs : List NetObj) (s : String) (n : Network) (hb : build objs s = .ok n) (mp subs : String → Option String)
    (devs : List TagDev) (hn : (devs.filterMap (·.net.name)).Nodup) (hf : ∀ x, mp x ≠ some "")
    (hobj : ∀ e ∈ n.digraph, ∃ d ∈ devs, d.net.name = some e.u ∧ (mp e.u ≠ none → d.net.cls = "Node"))
    (hin : ∀ d ∈ devs, d.hasFeeder = true → d.anchor.bind mp = none → ∃ a, d.anchor = some a ∧ a ∈ diNodes n.digraph) :
    ∃ devs', tagObjects n mp subs devs = some ⟨devs', none⟩ ∧ List.Forall₂ (Tagged n s mp subs devs) devs devs' := by
  have hname : ∀ o, (tagFirst mp subs o).net.name = o.net.name := fun o => by rw [tagFirst_net]
  have H : ∀ e ∈ n.digraph, ∃ p, named (·.net.name) (devs.map (tagFirst mp subs)) (some e.u) = .ok p ∧
      ∀ f, mp e.u = some f → p.hasFeeder = true ∧ p.anchor = some e.u ∧ p.feeder = some f ∧ f ≠ "" ∧
        p.substation = match named (·.net.name) devs (some e.u) with
          | .error _ => none
          | .ok q => (subs f).or q.substation := by
    intro e he
    obtain ⟨d, hd, hdn, hdc⟩ := hobj e he
    have hnd := named_eq (name := fun d : TagDev => d.net.name) hn hd hdn
    refine ⟨tagFirst mp subs d, ?_, fun f hmf => ?_⟩
    · rw [named_map (name := fun d : TagDev => d.net.name) hname, hnd]; rfl
    · have hc := hdc (by simp [hmf])
      have hh : d.hasFeeder = true := by simp [TagDev.hasFeeder, hc]
      have han : d.anchor = some e.u := by simp [TagDev.anchor, hc, hdn]
      obtain ⟨h1, h2⟩ := tagFirst_own (mp := mp) (subs := subs) hh (f := f) (by simp [han, hmf])
      rw [tagFirst_hasFeeder, tagFirst_anchor, hnd]
      exact ⟨hh, han, h1, fun h => hf e.u (by rw [hmf, h]), h2⟩
  obtain ⟨devs', h1, h2⟩ := tagSecond_spec hb (mp := mp)
    (Sub := fun u f => match named (·.net.name) devs (some u) with
          | .error _ => none
          | .ok q => (subs f).or q.substation)
    (devs := devs.map (tagFirst mp subs)) H (by
      intro d hd
      obtain ⟨d0, hd0, rfl⟩ := List.mem_map.1 hd
      rw [tagFirst_hasFeeder, tagFirst_anchor]
      exact hin d0 hd0) (devs.map (tagFirst mp subs)) [] [] rfl .nil
  refine ⟨devs', h1, ?_⟩
  rw [List.forall₂_map_left_iff] at h2
  refine forall₂_imp (fun d d' h => ?_) h2
  have hnet : d'.net = d.net := by rw [h.net, tagFirst_net]
  refine ⟨hnet, fun ho => ?_, fun hh a f ha hmf => ?_, fun hh a u f ha hma hnear hu => ?_, fun a ha hma hnone => ?_, fun hc hma => ?_,
    fun hc hma => ?_⟩
  · rw [h.other (by rw [tagFirst_hasFeeder, ho])]
    unfold tagFirst
    simp [ho]
  · rw [h.own (by rw [tagFirst_anchor, ha]; simp [hmf])]
    exact tagFirst_own hh (by simp [ha, hmf])
  · obtain ⟨q1, q2⟩ := h.above (by rw [tagFirst_hasFeeder, hh]) a u f (by rw [tagFirst_anchor, ha]) hma hnear hu
    refine ⟨q1, fun p hp hpn => ?_⟩
    rw [q2, named_eq (name := fun d : TagDev => d.net.name) hn hp hpn]
  · rw [h.unmapped a (by rw [tagFirst_anchor, ha]) hma hnone]
    exact tagFirst_unmapped (by simp [ha, hma])
  · rw [h.own (by rw [tagFirst_anchor]; exact hma)]
    exact tagFirst_series hc
  · rw [h.series, tagFirst_series hc]
    obtain ⟨q1, q2⟩ := tagFirst_unmapped (subs := subs) hma
    rw [q1, q2]

/-- C40: `get_feeder` agrees with the tag of an object whose node is mapped, unless the name of the object is that of a node of another
feeder. -/
theorem C40_getFeeder (n : Network) (s : String) (mp subs : String → Option String) (devs : List TagDev) (d d' : TagDev)
    (h : Tagged n s mp subs devs d d') (hh : d.hasFeeder = true) (hm : d.anchor.bind mp ≠ none)
    (hname : d.net.name.bind mp = none ∨ d.net.name.bind mp = d.anchor.bind mp)
    (h1 : d.net.cls ∈ oneTerminalClasses → d.net.fromEl = none) (h2 : d.net.cls ∈ twoTerminalClasses → d.net.connecting = none) :
    getFeeder mp d'.net = d'.feeder := by
  obtain ⟨f, hf⟩ := Option.ne_none_iff_exists'.1 hm
  obtain ⟨a, ha, hma⟩ := Option.bind_eq_some_iff.1 hf
  rw [(h.own hh a f ha hma).1, h.same]
  unfold getFeeder
  rcases hname with hn | hn
  · rw [hn, Option.none_or]
    unfold TagDev.anchor at ha
    unfold TagDev.hasFeeder at hh
    split at ha
    · rw [ha] at hn; simp [hma] at hn
    · rename_i hc
      split at ha
      · rw [ha]; simp [hma]
      · rename_i hc1
        have hc2 : d.net.cls ∈ twoTerminalClasses := by simpa [hc, hc1] using hh
        rw [h2 hc2, ha]
        simp [hma]
  · rw [hn, hf]
    simp

/-! ### Examples and violations -/

/-- a source at `a`, lines `a - b - c - d`, and nodes and loads -/
def exTagNet : List NetObj :=
  [{ cls := "PowerSource", name := some "src", connecting := some "a" },
   { cls := "Node", name := some "a" }, { cls := "Node", name := some "b" }, { cls := "Node", name := some "c" },
   { cls := "Node", name := some "d" },
   { cls := "Line", name := some "l1", fromEl := some "a", toEl := some "b", isLine := true },
   { cls := "Line", name := some "l2", fromEl := some "b", toEl := some "c", isLine := true },
   { cls := "Line", name := some "l3", fromEl := some "c", toEl := some "d", isLine := true },
   { cls := "Load", name := some "x", connecting := some "d" },
   { cls := "Load", name := some "y", connecting := some "b" }]

def exTagDevs : List TagDev := exTagNet.map fun o => { net := o, feeder := some "old", series := if o.cls = "Load" then [(none, none)] else [] }

def exTagMap (x : String) : Option String := if x = "b" then some "f1" else none
def exTagSubs (f : String) : Option String := if f = "f1" then some "s1" else none

/-- name, feeder, substation and those of the time series of an object -/
structure TagRow where
  name : Option String
  feeder : Option String
  substation : Option String
  series : List (Option String × Option String)
deriving DecidableEq

/-- the objects after `tag_objects`, and the exception, if any -/
def tagResult (objs : List NetObj) (s : String) (mp subs : String → Option String) (devs : List TagDev) :
    Option (List TagRow × Option PyErr) :=
  match build objs s with
  | .error _ => none
  | .ok n =>
    match tagObjects n mp subs devs with
    | none => none
    | some o => some (o.state.map fun d => ⟨d.net.name, d.feeder, d.substation, d.series⟩, o.err)

/-- `b` is mapped. What is above it keeps its feeder. The time series of the load at `d` does not get the new feeder of the load. -/
theorem exTag_run : tagResult exTagNet "src" exTagMap exTagSubs exTagDevs = some
    ([⟨some "src", some "old", none, []⟩, ⟨some "a", some "old", none, []⟩, ⟨some "b", some "f1", some "s1", []⟩,
      ⟨some "c", some "f1", some "s1", []⟩, ⟨some "d", some "f1", some "s1", []⟩, ⟨some "l1", some "old", none, []⟩,
      ⟨some "l2", some "f1", some "s1", []⟩, ⟨some "l3", some "f1", some "s1", []⟩,
      ⟨some "x", some "f1", some "s1", [(some "old", none)]⟩, ⟨some "y", some "f1", some "s1", [(some "f1", some "s1")]⟩], none) := by
  decide +kernel

/-- the hypotheses of `C40_tags_partial` hold here -/
example : ∃ n, build exTagNet "src" = .ok n ∧ (exTagDevs.filterMap (·.net.name)).Nodup ∧ (∀ x, exTagMap x ≠ some "") ∧
    (∀ e ∈ n.digraph, ∃ d ∈ exTagDevs, d.net.name = some e.u ∧ (exTagMap e.u ≠ none → d.net.cls = "Node")) ∧
    (∀ d ∈ exTagDevs, d.hasFeeder = true → d.anchor.bind exTagMap = none → ∃ a ∈ diNodes n.digraph, d.anchor = some a) := by
  refine ⟨⟨_, _⟩, rfl, by decide +kernel, ?_, by decide +kernel, by decide +kernel⟩
  intro x
  unfold exTagMap
  split <;> simp

/-- C40 is violated: the time series of a load keeps the old feeder when the load gets that of the nearest node. -/
theorem C40_series_violated : ∃ objs s mp subs devs, ∃ (r : List TagRow) (e : Option PyErr), tagResult objs s mp subs devs = some (r, e) ∧
    ∃ q : TagRow, q ∈ r ∧ ∃ t ∈ q.series, q.feeder = some "f1" ∧ t.1 = some "old" :=
  ⟨exTagNet, "src", exTagMap, exTagSubs, exTagDevs, _, _, exTag_run, ⟨some "x", some "f1", some "s1", [(some "old", none)]⟩, by decide +kernel,
    (some "old", none), by decide +kernel⟩

/-- C40 is violated: one unmapped node that is not connected to the network ends the call with an exception, and the objects after it,
as the load `x`, are not tagged. -/
theorem C40_outside_violated : ∃ r, tagResult exTagNet "src" exTagMap exTagSubs
    ({ net := { cls := "Node", name := some "lost" } } :: exTagDevs) = some (r, some .networkXError) ∧
    (⟨some "x", some "old", none, [(some "old", none)]⟩ : TagRow) ∈ r :=
  ⟨[⟨some "lost", none, none, []⟩, ⟨some "src", some "old", none, []⟩, ⟨some "a", some "old", none, []⟩, ⟨some "b", some "f1", some "s1", []⟩,
      ⟨some "c", some "old", none, []⟩, ⟨some "d", some "old", none, []⟩, ⟨some "l1", some "old", none, []⟩,
      ⟨some "l2", some "f1", some "s1", []⟩, ⟨some "l3", some "old", none, []⟩,
      ⟨some "x", some "old", none, [(some "old", none)]⟩, ⟨some "y", some "f1", some "s1", [(some "f1", some "s1")]⟩],
    by decide +kernel, by decide +kernel⟩

/-- C40 is violated: a predecessor without an object of this name (here `c`) raises KeyError. -/
theorem C40_missing_violated : ∃ r, tagResult exTagNet "src" exTagMap exTagSubs (exTagDevs.filter fun d => d.net.name ≠ some "c") =
    some (r, some .keyError) :=
  ⟨[⟨some "src", some "old", none, []⟩, ⟨some "a", some "old", none, []⟩, ⟨some "b", some "f1", some "s1", []⟩,
      ⟨some "d", some "old", none, []⟩, ⟨some "l1", some "old", none, []⟩,
      ⟨some "l2", some "f1", some "s1", []⟩, ⟨some "l3", some "old", none, []⟩,
      ⟨some "x", some "old", none, [(some "old", none)]⟩, ⟨some "y", some "f1", some "s1", [(some "f1", some "s1")]⟩], by decide +kernel⟩

/-- C40 is violated: a mapped predecessor that is a power source, which has no feeder name, does not count. -/
theorem C40_source_violated : ∃ r, tagResult exTagNet "src" (fun x => if x = "src" then some "f1" else none) exTagSubs exTagDevs =
    some (r, none) ∧ ∀ q : TagRow, q ∈ r → q.feeder = some "old" :=
  ⟨[⟨some "src", some "old", none, []⟩, ⟨some "a", some "old", none, []⟩, ⟨some "b", some "old", none, []⟩,
      ⟨some "c", some "old", none, []⟩, ⟨some "d", some "old", none, []⟩, ⟨some "l1", some "old", none, []⟩,
      ⟨some "l2", some "old", none, []⟩, ⟨some "l3", some "old", none, []⟩,
      ⟨some "x", some "old", none, [(some "old", none)]⟩, ⟨some "y", some "old", none, [(some "old", none)]⟩],
    by decide +kernel, by decide +kernel⟩

end Ditto.Net
