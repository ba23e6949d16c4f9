import Verif.Lemmas.Closed
import Mathlib.Data.List.Dedup

/-! C24: `check_loads_connected`. -/
namespace Ditto.Net
open Ditto Ditto.Search Ditto.Spec

/-- entries of the dictionary after the loop over the loads -/
theorem fold_addLoad (r : List String) (s : String) (ls : List NetObj) (hnd : (ls.map (·.name)).Nodup) (m : SourceMap) :
    ls.foldl (addLoad r s) m = m.map fun p =>
      if ∃ l ∈ ls, l.name = p.1 ∧ ∃ c, l.connecting = some c ∧ c ∈ r then (p.1, p.2 ++ [s]) else p := by
  induction ls generalizing m with
  | nil => simp
  | cons l ls ih =>
    simp only [List.map_cons, List.nodup_cons] at hnd
    rw [List.foldl_cons, ih hnd.2]
    have hother : ∀ nm, l.name = nm → ¬ ∃ l' ∈ ls, l'.name = nm ∧ ∃ c, l'.connecting = some c ∧ c ∈ r := by
      rintro nm rfl ⟨l', hl', hn, _⟩
      exact hnd.1 (List.mem_map.2 ⟨l', hl', hn⟩)
    by_cases hc : ∃ c, l.connecting = some c ∧ c ∈ r
    · obtain ⟨c, hc1, hc2⟩ := hc
      have : addLoad r s m l = m.map fun p => if p.1 = l.name then (p.1, p.2 ++ [s]) else p := by
        unfold addLoad; rw [hc1]; simp [hc2]
      rw [this, List.map_map]
      apply List.map_congr_left
      intro p _
      simp only [Function.comp]
      by_cases hp : p.1 = l.name
      · rw [if_pos hp, if_neg (hother _ hp.symm), if_pos ⟨l, by simp, hp.symm, c, hc1, hc2⟩]
      · rw [if_neg hp]
        congr 1
        simp only [List.mem_cons, exists_eq_or_imp, eq_iff_iff, iff_or_self, and_imp]
        intro h; exact absurd h.symm hp
    · have : addLoad r s m l = m := by
        unfold addLoad
        split
        · rfl
        · rename_i c hc1
          rw [if_neg fun hc2 => hc ⟨c, hc1, hc2⟩]
      rw [this]
      apply List.map_congr_left
      intro p _
      congr 1
      simp only [List.mem_cons, exists_eq_or_imp, eq_iff_iff, iff_or_self, and_imp]
      intro _ h; exact absurd h hc

open Classical in
theorem addSource_map {objs : List NetObj} (hu : Usable objs) (hnd : ((loads objs).map (·.name)).Nodup) {src : NetObj}
    (hsrc : src ∈ sources objs) (F : NetObj → List String) :
    ∃ F' : NetObj → List String, addSource objs ((loads objs).map fun l => (l.name, F l)) src =
        .ok ((loads objs).map fun l => (l.name, F' l)) ∧
      ∀ l ∈ loads objs, (F' l).length = (F l).length + if Feeds objs src l then 1 else 0 := by
  obtain ⟨s, hs, n, hn⟩ := source_connects hu hsrc
  have hc := closedNetwork_spec hn
  refine ⟨fun l => F l ++ if Feeds objs src l then [s] else [], ?_, fun l _ => ?_⟩
  · unfold addSource
    rw [hs]
    simp only [hn]
    rw [fold_addLoad _ _ _ hnd, List.map_map]
    congr 1
    apply List.map_congr_left
    intro l hl
    simp only [Function.comp]
    have : (∃ l' ∈ loads objs, l'.name = l.name ∧ ∃ c, l'.connecting = some c ∧ c ∈ reachable n.graph s) ↔
        Feeds objs src l := by
      constructor
      · rintro ⟨l', hl', hnm, c, hc1, hc2⟩
        have := List.inj_on_of_nodup_map hnd hl' hl hnm
        subst this
        exact ⟨s, c, hs, hc1, (hc.reach c).1 hc2⟩
      · rintro ⟨s', c, hs', hc1, hr⟩
        rw [hs] at hs'
        simp only [Option.some.injEq] at hs'
        subst hs'
        exact ⟨l, hl, rfl, c, hc1, (hc.reach c).2 hr⟩
    by_cases hf : Feeds objs src l
    · rw [if_pos (this.2 hf), if_pos hf]
    · rw [if_neg fun h => hf (this.1 h), if_neg hf]; simp
  · by_cases hf : Feeds objs src l <;> simp [hf]

open Classical in
theorem fold_addSource {objs : List NetObj} (hu : Usable objs) (hnd : ((loads objs).map (·.name)).Nodup)
    (srcs : List NetObj) (hsrc : ∀ src ∈ srcs, src ∈ sources objs) (F : NetObj → List String) :
    ∃ F' : NetObj → List String, srcs.foldlM (addSource objs) ((loads objs).map fun l => (l.name, F l)) =
        .ok ((loads objs).map fun l => (l.name, F' l)) ∧
      ∀ l ∈ loads objs, (F' l).length = (F l).length + srcs.countP (fun src => Feeds objs src l) := by
  induction srcs generalizing F with
  | nil => exact ⟨F, rfl, by simp⟩
  | cons src srcs ih =>
    obtain ⟨F1, h1, h1'⟩ := addSource_map hu hnd (hsrc src (by simp)) F
    obtain ⟨F2, h2, h2'⟩ := ih (fun x hx => hsrc x (by simp [hx])) F1
    refine ⟨F2, foldlM_cons_intro h1 h2, fun l hl => ?_⟩
    rw [h2' l hl, h1' l hl, List.countP_cons]
    simp only [decide_eq_true_eq]
    omega

open Classical in
theorem exactlyOne_iff {α : Type} (P : α → Prop) (l : List α) : ExactlyOne P l ↔ l.countP (fun x => P x) = 1 := by
  constructor
  · rintro ⟨pre, x, post, rfl, hx, h1, h2⟩
    have e1 : pre.countP (fun x => P x) = 0 := by rw [List.countP_eq_zero]; simpa using h1
    have e2 : post.countP (fun x => P x) = 0 := by rw [List.countP_eq_zero]; simpa using h2
    simp [List.countP_append, List.countP_cons, e1, e2, hx]
  · intro h
    induction l with
    | nil => simp at h
    | cons a l ih =>
      rw [List.countP_cons] at h
      by_cases ha : P a
      · simp only [ha, decide_true, if_true] at h
        have : l.countP (fun x => P x) = 0 := by omega
        rw [List.countP_eq_zero] at this
        exact ⟨[], a, l, rfl, ha, by simp, by simpa using this⟩
      · simp only [ha, decide_false] at h
        obtain ⟨pre, x, post, rfl, hx, h1, h2⟩ := ih (by simpa using h)
        refine ⟨a :: pre, x, post, rfl, hx, ?_, h2⟩
        intro y hy
        rcases List.mem_cons.1 hy with rfl | hy
        · exact ha
        · exact h1 y hy

open Classical in
theorem atLeastTwo_iff {α : Type} (P : α → Prop) (l : List α) : AtLeastTwo P l ↔ 1 < l.countP (fun x => P x) := by
  constructor
  · rintro ⟨pre, x, mid, y, post, rfl, hx, hy⟩
    simp only [List.countP_append, List.countP_cons, hx, hy, decide_true, if_true]
    omega
  · intro h
    induction l with
    | nil => simp at h
    | cons a l ih =>
      rw [List.countP_cons] at h
      by_cases ha : P a
      · simp only [ha, decide_true, if_true] at h
        have : 0 < l.countP (fun x => P x) := by omega
        rw [List.countP_pos_iff] at this
        obtain ⟨y, hy, hp⟩ := this
        obtain ⟨mid, post, rfl⟩ := List.append_of_mem hy
        exact ⟨[], a, mid, y, post, by simp, ha, by simpa using hp⟩
      · simp only [ha, decide_false] at h
        obtain ⟨pre, x, mid, y, post, rfl, hx, hy⟩ := ih (by simpa using h)
        exact ⟨a :: pre, x, mid, y, post, by simp, hx, hy⟩

open Classical in
/-- the three outcomes -/
theorem checkLoadsConnected_cases (objs : List NetObj) (hu : Usable objs) (hnd : ((loads objs).map (·.name)).Nodup) :
    checkLoadsConnected objs =
      if sources objs = [] then .ok false
      else if ∃ l ∈ loads objs, AtLeastTwo (fun src => Feeds objs src l) (sources objs) then .error .attributeError
      else .ok (decide (∀ l ∈ loads objs, ExactlyOne (fun src => Feeds objs src l) (sources objs))) := by
  unfold checkLoadsConnected
  by_cases h0 : sources objs = []
  · rw [if_pos h0, if_pos h0]
  · rw [if_neg h0, if_neg h0]
    obtain ⟨F, hF, hlen⟩ := fold_addSource hu hnd (sources objs) (fun _ h => h) (fun _ => [])
    have hmap : ((loads objs).map (·.name)).dedup.map (fun nm => (nm, ([] : List String))) =
        (loads objs).map fun l => (l.name, []) := by
      rw [List.Nodup.dedup hnd, List.map_map]; rfl
    rw [hmap, hF]
    simp only [List.length_nil, Nat.zero_add] at hlen
    simp only
    by_cases h2 : ∃ l ∈ loads objs, AtLeastTwo (fun src => Feeds objs src l) (sources objs)
    · rw [if_pos h2, if_pos]
      obtain ⟨l, hl, h⟩ := h2
      rw [List.any_eq_true]
      refine ⟨(l.name, F l), List.mem_map.2 ⟨l, hl, rfl⟩, ?_⟩
      rw [atLeastTwo_iff] at h
      simpa [hlen l hl] using h
    · rw [if_neg h2, if_neg]
      · congr 1
        rw [Bool.eq_iff_iff, decide_eq_true_iff, List.all_eq_true]
        simp only [List.mem_map, forall_exists_index, and_imp, forall_apply_eq_imp_iff₂]
        refine forall_congr' fun l => forall_congr' fun hl => ?_
        rw [exactlyOne_iff]
        have : ¬ AtLeastTwo (fun src => Feeds objs src l) (sources objs) := fun h => h2 ⟨l, hl, h⟩
        rw [atLeastTwo_iff] at this
        simp only [ne_eq, decide_eq_true_eq, hlen l hl]
        omega
      · rw [List.any_eq_true]
        rintro ⟨p, hp, hpl⟩
        obtain ⟨l, hl, rfl⟩ := List.mem_map.1 hp
        refine h2 ⟨l, hl, (atLeastTwo_iff _ _).2 ?_⟩
        simpa [hlen l hl] using hpl

/-- C24: if the loads have different names, `check_loads_connected` answers `True` exactly if there is a source and every load
is connected, through closed devices, with exactly one source. -/
theorem C24_true_iff (objs : List NetObj) (hu : Usable objs) (hnd : ((loads objs).map (·.name)).Nodup) :
    checkLoadsConnected objs = .ok true ↔
      sources objs ≠ [] ∧ ∀ l ∈ loads objs, ExactlyOne (fun src => Feeds objs src l) (sources objs) := by
  classical
  rw [checkLoadsConnected_cases objs hu hnd]
  split
  · simp_all
  · rename_i h0
    split
    · rename_i h2
      obtain ⟨l, hl, h2⟩ := h2
      simp only [reduceCtorEq, ne_eq, h0, not_false_eq_true, true_and, false_iff, not_forall]
      refine ⟨l, hl, fun h => ?_⟩
      rw [exactlyOne_iff] at h
      rw [atLeastTwo_iff] at h2
      omega
    · simp [h0]

/-- C24: it answers `False` if there is no source, or some load has none and no load has two. -/
theorem C24_false_iff (objs : List NetObj) (hu : Usable objs) (hnd : ((loads objs).map (·.name)).Nodup) :
    checkLoadsConnected objs = .ok false ↔
      sources objs = [] ∨ ((∃ l ∈ loads objs, ∀ src ∈ sources objs, ¬ Feeds objs src l) ∧
        ∀ l ∈ loads objs, ¬ AtLeastTwo (fun src => Feeds objs src l) (sources objs)) := by
  classical
  rw [checkLoadsConnected_cases objs hu hnd]
  split
  · simp_all
  · rename_i h0
    split
    · rename_i h2
      obtain ⟨l, hl, h2⟩ := h2
      simp only [reduceCtorEq, h0, false_or, false_iff, not_and]
      intro _ h; exact h l hl h2
    · rename_i h2
      push Not at h2
      simp only [Except.ok.injEq, decide_eq_false_iff_not, not_forall, h0, false_or]
      constructor
      · rintro ⟨l, hl, h⟩
        refine ⟨⟨l, hl, ?_⟩, h2⟩
        have h3 := h2 l hl
        rw [exactlyOne_iff] at h
        rw [atLeastTwo_iff] at h3
        have : (sources objs).countP (fun src => Feeds objs src l) = 0 := by omega
        rw [List.countP_eq_zero] at this
        simpa using this
      · rintro ⟨⟨l, hl, h⟩, _⟩
        refine ⟨l, hl, ?_⟩
        rintro ⟨pre, x, post, heq, hx, _⟩
        exact h x (by simp [heq]) hx

/-- C24 is violated: if a load has two sources the answer is not `False`, but `AttributeError`. -/
theorem C24_two_violated (objs : List NetObj) (hu : Usable objs) (hnd : ((loads objs).map (·.name)).Nodup) (l : NetObj)
    (hl : l ∈ loads objs) (h2 : AtLeastTwo (fun src => Feeds objs src l) (sources objs)) :
    checkLoadsConnected objs = .error .attributeError := by
  classical
  rw [checkLoadsConnected_cases objs hu hnd, if_neg, if_pos ⟨l, hl, h2⟩]
  intro h0
  obtain ⟨pre, x, mid, y, post, heq, _⟩ := h2
  rw [h0] at heq
  simp at heq

/-- The links of C24 are the connections made by the objects that are not open devices, under the conditions of
`C19_exact_partial`. -/
theorem C24_links (objs : List NetObj) (hnames : ∀ o ∈ objs, o.name ≠ none)
    (hbreaker : ∀ o ∈ objs, o.isLine = true → o.isBreaker = some false → o.isSwitch = some true)
    (hset : ∀ o ∈ objs, o.isLine = true → (o.isSwitch = some true ∨ o.isBreaker = some true) → none ∉ o.wires)
    (hline : ∀ o ∈ objs, o.isLine = true → o.connecting = none)
    (hpar : objs.Pairwise fun o o' => (OpenDevice o ∨ OpenDevice o') → ∀ a b, Joins o a b → ¬ Joins o' a b) (a b : String) :
    ClosedLink objs a b ↔ Connects (objs.filter fun o => ¬ OpenDevice o) a b := by
  have main : Connects objs a b → (ClosedLink objs a b ↔ Connects (objs.filter fun o => ¬ OpenDevice o) a b) := by
    intro hab
    have hg : ∃ g, buildGraph objs = .ok g := by
      by_contra hno
      push Not at hno
      rcases (C15_error_iff objs).1 hno with ⟨o, ho, _, hn⟩ | ⟨pre, o, post, heq, hn, _⟩
      · exact hnames o ho hn
      · exact hnames o (by simp [heq]) (hn o (by simp))
    obtain ⟨g, hg⟩ := hg
    obtain ⟨ot, hb⟩ := buildGraph_built hg
    have hsn : a ∈ g.nodes := (hb.nodes a).2 ⟨b, hab⟩
    obtain ⟨n0, hn0⟩ : ∃ n0, build objs a = .ok n0 := ⟨_, by simp [build, hg, rebuildDigraph, bfsOrder, hsn]; rfl⟩
    obtain ⟨n', hn', hadj, _⟩ := C19_exact_partial objs a n0 hn0 hbreaker hset hline hpar
    have hc : closedNetwork objs a = .ok n' := by unfold closedNetwork; rw [hn0]; exact hn'
    rw [← hadj, (closedNetwork_spec hc).adj]
  constructor
  · intro h; exact (main h.1).1 h
  · intro h
    refine (main ?_).2 h
    obtain ⟨o, ho, h⟩ := h
    exact ⟨o, (List.mem_filter.1 ho).1, h⟩

/-! The hypotheses are met. -/

def exFeeders : List NetObj := [
  { cls := "PowerSource", name := some "s1", connecting := some "a" },
  { cls := "PowerSource", name := some "s2", connecting := some "d" },
  { cls := "Line", name := some "l1", fromEl := some "a", toEl := some "b", isLine := true },
  { cls := "Line", name := some "tie", fromEl := some "b", toEl := some "c", isLine := true, isSwitch := some true,
    wires := [some true] },
  { cls := "Line", name := some "l2", fromEl := some "d", toEl := some "c", isLine := true },
  { cls := "Load", name := some "x", connecting := some "b" },
  { cls := "Load", name := some "y", connecting := some "c" }]

/-- the same with the tie closed -/
def exTied : List NetObj := [
  { cls := "PowerSource", name := some "s1", connecting := some "a" },
  { cls := "PowerSource", name := some "s2", connecting := some "b" },
  { cls := "Line", name := some "tie", fromEl := some "a", toEl := some "b", isLine := true, isSwitch := some true,
    wires := [some false] },
  { cls := "Load", name := some "x", connecting := some "b" }]

instance (o : NetObj) : Decidable (Cut o) := by unfold Cut; infer_instance

theorem usable_of_cut {objs : List NetObj} (h1 : ∀ o ∈ objs, o.name ≠ none) (h2 : (objs.filter (fun o => Cut o)).length ≤ 1) :
    Usable objs := by
  refine ⟨h1, ?_⟩
  clear h1
  induction objs with
  | nil => exact .nil
  | cons o objs ih =>
    rw [List.pairwise_cons]
    rw [List.filter_cons] at h2
    refine ⟨fun o' ho' hc hc' => ?_, ih ?_⟩
    · rw [if_pos (by simpa using hc)] at h2
      simp only [List.length_cons] at h2
      have : objs.filter (fun o => Cut o) = [] := by rw [← List.length_eq_zero_iff]; omega
      rw [List.filter_eq_nil_iff] at this
      exact absurd hc' (by simpa using this o' ho')
    · split at h2
      · simp only [List.length_cons] at h2; omega
      · exact h2

example : Usable exFeeders ∧ ((loads exFeeders).map (·.name)).Nodup ∧ checkLoadsConnected exFeeders = .ok true :=
  ⟨usable_of_cut (by decide +kernel) (by decide +kernel), by decide +kernel, by decide +kernel⟩

example : Usable exTied ∧ ((loads exTied).map (·.name)).Nodup ∧ checkLoadsConnected exTied = .error .attributeError :=
  ⟨usable_of_cut (by decide +kernel) (by decide +kernel), by decide +kernel, by decide +kernel⟩

/-- two loads with one name, the second without a connection -/
def exShared : List NetObj := [
  { cls := "PowerSource", name := some "s1", connecting := some "a" },
  { cls := "Line", name := some "l1", fromEl := some "a", toEl := some "b", isLine := true },
  { cls := "Load", name := some "x", connecting := some "b" },
  { cls := "Load", name := some "x", connecting := none }]

/-- C24 is violated if loads share a name: a load without a source is not noticed. -/
theorem C24_names_violated : Usable exShared ∧ checkLoadsConnected exShared = .ok true ∧
    ∃ l ∈ loads exShared, ∀ src ∈ sources exShared, ¬ Feeds exShared src l := by
  refine ⟨usable_of_cut (by decide +kernel) (by decide +kernel), by decide +kernel,
    { cls := "Load", name := some "x", connecting := none }, by decide +kernel, ?_⟩
  rintro src _ ⟨s, c, _, h, _⟩
  simp at h

end Ditto.Net
