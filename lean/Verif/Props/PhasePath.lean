import Verif.Lemmas.PhaseScan
import Verif.Lemmas.ShortestPaths
import Verif.Props.Loops

/-! C29: `check_transformer_phase_path`. -/
namespace Ditto.Net
open Ditto Ditto.Search Ditto.Spec

theorem IsSimplePath.reach' {R : String → String → Prop} {s t : String} {p : List String} (h : IsSimplePath R s t p) :
    Reach R s t :=
  reach_mono (fun _ _ h => h.1) (h.reach (P := fun _ => True) (by simp))

theorem Tidy.usable {devs : List Dev} (h : Tidy devs) : Usable (netList devs) := by
  refine ⟨?_, h.parallel.imp fun h1 _ _ => h1⟩
  intro o ho
  obtain ⟨d, hd, rfl⟩ := List.mem_map.1 ho
  exact h.named d hd

theorem sourceNetwork_ok {devs : List Dev} (hT : Tidy devs) {src : Dev} (hsrc : src ∈ devSources devs) :
    ∃ s n n', src.net.connecting = some s ∧ build (netList devs) s = .ok n ∧ removeOpenSwitches n (netList devs) = .ok n' ∧
      sourceNetwork devs s = .ok (n.digraph, n'.graph) ∧ ClosedNet (netList devs) s n'.graph := by
  have hm : src.net ∈ sources (netList devs) := by
    unfold devSources at hsrc
    unfold sources netList
    simp only [List.mem_filter] at hsrc ⊢
    exact ⟨List.mem_map_of_mem hsrc.1, hsrc.2⟩
  obtain ⟨s, hs, n', hn'⟩ := source_connects hT.usable hm
  have hc := closedNetwork_spec hn'
  unfold closedNetwork at hn'
  split at hn'
  · simp at hn'
  · rename_i n hn
    exact ⟨s, n, n', hs, hn, hn', by simp [sourceNetwork, hn, hn'], hc⟩

/-- the devices of a routed path as the code sees them -/
theorem routed_elements {devs : List Dev} (hT : Tidy devs) {s : String} {n n' : Network} (hb : build (netList devs) s = .ok n)
    (hr : removeOpenSwitches n (netList devs) = .ok n') (hc : ClosedNet (netList devs) s n'.graph) {l : Dev}
    (hroute : Routed devs s l) {c : String} (hl : l.net.connecting = some c) {p : List String}
    (hp : IsSimplePath (ClosedLink (netList devs)) s c p) :
    ∃ ds, Along devs p ds ∧ pathElements n.digraph n'.graph devs p = ds.map elementOf := by
  obtain ⟨ds, n0, ha, hb0, hdir⟩ := hroute c p hl hp
  rw [hb] at hb0
  simp only [Except.ok.injEq] at hb0
  subst hb0
  refine ⟨ds, ha, pathElements_eq hT hb hr ha ?_ hdir⟩
  exact hp.2.2.2.imp fun a b h => (hc.adj a b).2 h

/-- what the check demands of a source and a load -/
def LoadOk (needs : Bool) (devs : List Dev) (src l : Dev) : Prop :=
  ∀ s c p ds, src.net.connecting = some s → l.net.connecting = some c →
    IsSimplePath (ClosedLink (netList devs)) s c p → Along devs p ds → PathOk needs p ds

theorem fold_and {α : Type} (f : Bool → α → Py Bool) (P : α → Prop) [DecidablePred P] (l : List α)
    (hf : ∀ x ∈ l, ∀ r, f r x = .ok (r && decide (P x))) (r : Bool) :
    l.foldlM f r = .ok (r && decide (∀ x ∈ l, P x)) := by
  induction l generalizing r with
  | nil => simp [pure, Except.pure]
  | cons a l ih =>
    rw [List.foldlM_cons, hf a (by simp)]
    have := ih (fun x hx => hf x (by simp [hx])) (r && decide (P a))
    refine this.trans ?_
    rw [Bool.and_assoc]
    congr 2
    rw [Bool.eq_iff_iff]
    simp

open Classical in
theorem checkPathLoad_eq {needs : Bool} {devs : List Dev} (hT : Tidy devs) (hloop : ¬ HasLoop (ClosedLink (netList devs)))
    (hw : ∀ t ∈ devs, Distribution t → 2 ≤ t.windings.length) {src l : Dev} {s : String} {n n' : Network}
    (hs : src.net.connecting = some s) (hb : build (netList devs) s = .ok n)
    (hr : removeOpenSwitches n (netList devs) = .ok n') (hc : ClosedNet (netList devs) s n'.graph) (hroute : Routed devs s l)
    (r : Bool) :
    checkPathLoad needs devs n.digraph n'.graph (shortestPaths n'.graph s) r l = .ok (r && decide (LoadOk needs devs src l)) := by
  unfold checkPathLoad
  cases hl : l.net.connecting with
  | none =>
    have : LoadOk needs devs src l := fun s c p ds _ h => by simp [hl] at h
    simp [this]
  | some c =>
    obtain ⟨h1, h2⟩ := shortestPaths_spec hc c
    simp only
    cases hp : (shortestPaths n'.graph s).lookup c with
    | none =>
      have : LoadOk needs devs src l := by
        intro s' c' p ds h3 h4 h5
        rw [hs] at h3; rw [hl] at h4
        simp only [Option.some.injEq] at h3 h4
        subst h3 h4
        exact absurd h5.reach' (h2.1 hp)
      simp [this]
    | some p =>
      have hsp := (h1 p hp).1
      obtain ⟨ds, ha, hels⟩ := routed_elements hT hb hr hc hroute hl hsp
      simp only
      rw [checkPath_eq hT hw ha hels]
      simp only
      congr 2
      rw [decide_eq_decide]
      constructor
      · intro hok s' c' p' ds' h3 h4 h5 h6
        rw [hs] at h3; rw [hl] at h4
        simp only [Option.some.injEq] at h3 h4
        subst h3 h4
        obtain rfl := simplePath_unique (fun _ _ h => ClosedLink.symm h) hloop hsp h5
        obtain rfl := Along.unique hT.parallel ha h6
        exact hok
      · intro hok
        exact hok s c p ds hs hl hsp ha

open Classical in
/-- On a radial network with definite devices along its paths, `check_transformer_phase_path` answers whether there is a source and
every path from a source to a load is as it should be. -/
theorem C29_iff (needs : Bool) (devs ls : List Dev) (hT : Tidy devs) (hls : ls.Perm (devLoads devs))
    (hloop : ¬ HasLoop (ClosedLink (netList devs))) (hw : ∀ t ∈ devs, Distribution t → 2 ≤ t.windings.length)
    (hroute : ∀ src ∈ devSources devs, ∀ s, src.net.connecting = some s → ∀ l ∈ devLoads devs, Routed devs s l) :
    checkTransformerPhasePath needs devs ls =
      .ok (decide (devSources devs ≠ [] ∧ ∀ src ∈ devSources devs, ∀ l ∈ devLoads devs, LoadOk needs devs src l)) := by
  unfold checkTransformerPhasePath
  by_cases hne : devSources devs = []
  · simp [hne]
  · rw [if_neg hne, fold_and _ (fun src => ∀ l ∈ devLoads devs, LoadOk needs devs src l)]
    · simp [hne]
    · intro src hsrc r
      obtain ⟨s, n, n', hs, hb, hr, hsn, hc⟩ := sourceNetwork_ok hT hsrc
      unfold checkPathSource
      rw [hs]
      simp only [hsn]
      rw [fold_and _ (fun l => LoadOk needs devs src l)]
      · congr 3
        exact propext ⟨fun h l hl => h l (hls.mem_iff.2 hl), fun h l hl => h l (hls.mem_iff.1 hl)⟩
      · intro l hl r
        exact checkPathLoad_eq hT hloop hw hs hb hr hc (hroute src hsrc s hs l (hls.mem_iff.1 hl)) r

/-! ### Networks without open devices -/

/-- Objects that hang on a node (sources, loads) are not themselves terminals of others, and no device is treated as open. -/
structure Plain (devs : List Dev) : Prop where
  leaf : ∀ d ∈ devs, d.net.connecting ≠ none → ∀ d' ∈ devs, d'.net.fromEl ≠ d.net.name ∧ d'.net.toEl ≠ d.net.name ∧
    d'.net.connecting ≠ d.net.name
  closed : ∀ d ∈ devs, ¬ Cut d.net

/-- name of an object that hangs on a node -/
def LeafName (devs : List Dev) (x : String) : Prop := ∃ d ∈ devs, d.net.connecting ≠ none ∧ d.net.name = some x

theorem Plain.link {devs : List Dev} (h : Plain devs) : ClosedLink (netList devs) = Connects (netList devs) := by
  funext a b
  unfold ClosedLink
  refine propext ⟨fun h => h.1, fun hc => ⟨hc, ?_⟩⟩
  rintro ⟨o, ho, hcut, _⟩
  obtain ⟨d, hd, rfl⟩ := List.mem_map.1 ho
  exact h.closed d hd hcut

theorem leaf_neighbour {devs : List Dev} (hT : Tidy devs) (hP : Plain devs) {x : String} {d : Dev} (hd : d ∈ devs)
    (hc : d.net.connecting ≠ none) (hn : d.net.name = some x) {y : String} (h : Connects (netList devs) x y) :
    d.net.connecting = some y := by
  obtain ⟨o, ho, h⟩ := h
  obtain ⟨d', hd', rfl⟩ := List.mem_map.1 ho
  obtain ⟨l1, l2, l3⟩ := hP.leaf d hd hc d' hd'
  rw [hn] at l1 l2 l3
  rcases h with (⟨h1, _⟩ | ⟨h1, _⟩) | (⟨_, h1⟩ | ⟨h1, h2⟩)
  · exact absurd h1 l1
  · exact absurd h1 l3
  · exact absurd h1 l2
  · have := List.inj_on_of_nodup_map hT.names hd' hd (h2.trans hn.symm)
    rw [← this]; exact h1

theorem along_of_path {devs : List Dev} (hT : Tidy devs) (hP : Plain devs) (p : List String) :
    ∀ s c, p.head? = some s → p.getLast? = some c → ¬ LeafName devs s → ¬ LeafName devs c → p.Nodup →
      p.IsChain (Connects (netList devs)) → ∃ ds, Along devs p ds := by
  induction p with
  | nil => intro s c h; simp at h
  | cons a p ih =>
    intro s c h1 h2 h3 h4 h5 h6
    obtain rfl : a = s := by simpa using h1
    cases p with
    | nil => exact ⟨[], .single a⟩
    | cons b p =>
      obtain ⟨h7, h8⟩ := List.isChain_cons_cons.1 h6
      have hb : ¬ LeafName devs b := by
        rintro ⟨d, hd, hc, hn⟩
        have ea := leaf_neighbour hT hP hd hc hn (y := a) (by
          obtain ⟨o, ho, h⟩ := h7; exact ⟨o, ho, h.symm⟩)
        cases p with
        | nil =>
          obtain rfl : b = c := by simpa using h2
          exact h4 ⟨d, hd, hc, hn⟩
        | cons b' p =>
          have eb := leaf_neighbour hT hP hd hc hn (List.isChain_cons_cons.1 h8).1
          rw [ea] at eb
          simp only [Option.some.injEq] at eb
          subst eb
          simp at h5
      rw [List.nodup_cons] at h5
      obtain ⟨ds, hds⟩ := ih b c rfl (by simpa using h2) hb h4 h5.2 h8
      obtain ⟨o, ho, h⟩ := h7
      obtain ⟨d, hd, rfl⟩ := List.mem_map.1 ho
      refine ⟨d :: ds, .cons hd ?_ hds⟩
      rcases h with (h | ⟨e1, e2⟩) | (h | ⟨e1, e2⟩)
      · exact .inl h
      · exact absurd ⟨d, hd, by simp [e1], e2⟩ hb
      · exact .inr h
      · exact absurd ⟨d, hd, by simp [e1], e2⟩ h3

theorem routed_of_plain {devs : List Dev} (hT : Tidy devs) (hP : Plain devs) (hloop : ¬ HasLoop (ClosedLink (netList devs)))
    {src l : Dev} (hsrc : src ∈ devSources devs) (hl : l ∈ devs) {s : String} (hs : src.net.connecting = some s) :
    Routed devs s l := by
  intro c p hc hp
  obtain ⟨s', n, n', hs', hb, hr, hsn, hcn⟩ := sourceNetwork_ok hT hsrc
  rw [hs] at hs'
  simp only [Option.some.injEq] at hs'
  subst hs'
  have noleaf : ∀ d ∈ devs, ∀ x, d.net.connecting = some x → ¬ LeafName devs x := by
    rintro d hd x hx ⟨d', hd', h1, h2⟩
    exact (hP.leaf d' hd' h1 d hd).2.2 (hx.trans h2.symm)
  obtain ⟨ds, hds⟩ := along_of_path hT hP p s c hp.1 hp.2.1 (noleaf src (List.mem_filter.1 hsrc).1 s hs) (noleaf l hl c hc)
    hp.2.2.1 (hP.link ▸ hp.2.2.2)
  refine ⟨ds, n, hds, hb, ?_⟩
  obtain ⟨a1, _, _, a4, _⟩ := C16_arborescence _ s n hb
  obtain ⟨q, hq⟩ := exists_simplePath ((a4 c).1 (hP.link ▸ hp.reach'))
  have hq' : IsSimplePath (ClosedLink (netList devs)) s c q :=
    ⟨hq.1, hq.2.1, hq.2.2.1, hq.2.2.2.imp fun a b hab => hP.link ▸ (a1 a b hab).1⟩
  obtain rfl := simplePath_unique (fun _ _ h => ClosedLink.symm h) hloop hp hq'
  exact hq.2.2.2

open Classical in
/-- The same for a radial network without open devices, where sources and loads hang on nodes. -/
theorem C29_radial (needs : Bool) (devs ls : List Dev) (hT : Tidy devs) (hP : Plain devs) (hls : ls.Perm (devLoads devs))
    (hloop : ¬ HasLoop (ClosedLink (netList devs))) (hw : ∀ t ∈ devs, Distribution t → 2 ≤ t.windings.length) :
    checkTransformerPhasePath needs devs ls =
      .ok (decide (devSources devs ≠ [] ∧ ∀ src ∈ devSources devs, ∀ l ∈ devLoads devs, LoadOk needs devs src l)) :=
  C29_iff needs devs ls hT hls hloop hw fun _ hsrc _ hs _ hl =>
    routed_of_plain hT hP hloop hsrc (List.mem_filter.1 hl).1 hs

/-! ### Cases -/

theorem noParallel_of {objs : List NetObj} (h : objs.Pairwise fun o o' => o.fromEl = none ∨ o.toEl = none ∨
    ¬ ((o.fromEl = o'.fromEl ∧ o.toEl = o'.toEl) ∨ (o.fromEl = o'.toEl ∧ o.toEl = o'.fromEl))) : NoParallel objs := by
  refine h.imp ?_
  rintro o o' h a b h1 h2
  unfold TwoTerminal at h1 h2
  rcases h1 with ⟨h1, h1'⟩ | ⟨h1, h1'⟩ <;> rcases h2 with ⟨h2, h2'⟩ | ⟨h2, h2'⟩ <;> simp [h1, h1', h2, h2'] at h

/-- a feeder: source, line, transformer and line with the given phases, load -/
def exFeeder (hi lo l1 l2 : List String) : List Dev := [
  { net := { cls := "PowerSource", name := some "src", connecting := some "a" } },
  { net := { cls := "Line", name := some "l1", fromEl := some "a", toEl := some "b", isLine := true }, wirePhases := l1.map some },
  { net := { cls := "PowerTransformer", name := some "t", fromEl := some "b", toEl := some "c" },
    windings := [⟨some 10000, hi.map some⟩, ⟨some 10000, lo.map some⟩] },
  { net := { cls := "Line", name := some "l2", fromEl := some "c", toEl := some "d", isLine := true }, wirePhases := l2.map some },
  { net := { cls := "Load", name := some "x", connecting := some "d" }, phaseLoads := [some 12000, some 6000] }]

theorem exFeeder_tidy (hi lo l1 l2 : List String) : Tidy (exFeeder hi lo l1 l2) where
  named := by simp [exFeeder]
  names := by simp [exFeeder]
  parallel := noParallel_of (by simp [exFeeder, netList])
  lines := by simp [exFeeder]

theorem exFeeder_plain (hi lo l1 l2 : List String) : Plain (exFeeder hi lo l1 l2) where
  leaf := by simp [exFeeder]
  closed := by simp [exFeeder, Cut]

theorem exFeeder_radial (hi lo l1 l2 : List String) : ¬ HasLoop (ClosedLink (netList (exFeeder hi lo l1 l2))) :=
  (C25_true_iff _ (exFeeder_tidy hi lo l1 l2).usable (by simp [exFeeder, netList, sources])).1 (by
    have : netList (exFeeder hi lo l1 l2) = netList (exFeeder [] [] [] []) := rfl
    rw [this]; decide +kernel)

example : ∀ t ∈ exFeeder ["A"] ["A"] ["A", "B", "N"] ["A"], Distribution t → 2 ≤ t.windings.length := by
  decide +kernel

example : checkTransformerPhasePath true (exFeeder ["A"] ["A"] ["A", "B", "N"] ["A"])
    (devLoads (exFeeder ["A"] ["A"] ["A", "B", "N"] ["A"])) = .ok true := by decide +kernel

example : checkTransformerPhasePath true (exFeeder ["A"] ["A"] ["A", "B", "N"] ["B"])
    (devLoads (exFeeder ["A"] ["A"] ["A", "B", "N"] ["B"])) = .ok false := by decide +kernel

example : checkTransformerPhasePath true (exFeeder ["C"] ["C"] ["A", "B", "N"] ["C"])
    (devLoads (exFeeder ["C"] ["C"] ["A", "B", "N"] ["C"])) = .ok false := by decide +kernel

/-- two transformers one after the other, the second with other phases than the line between them -/
def exTwoTransformers : List Dev := [
  { net := { cls := "PowerSource", name := some "src", connecting := some "a" } },
  { net := { cls := "PowerTransformer", name := some "t1", fromEl := some "a", toEl := some "b" },
    windings := [⟨none, [some "A"]⟩, ⟨none, [some "A"]⟩] },
  { net := { cls := "Line", name := some "l1", fromEl := some "b", toEl := some "c", isLine := true }, wirePhases := [some "A"] },
  { net := { cls := "PowerTransformer", name := some "t2", fromEl := some "c", toEl := some "d" },
    windings := [⟨none, [some "B"]⟩, ⟨none, [some "B"]⟩] },
  { net := { cls := "Load", name := some "x", connecting := some "d" } }]

/-- The property is violated: the comment of the code forbids more than one distribution transformer on the way to a load, but two
are accepted, and then no phases are compared. -/
theorem C29_two_violated : Tidy exTwoTransformers ∧ Plain exTwoTransformers ∧
    ¬ HasLoop (ClosedLink (netList exTwoTransformers)) ∧
    (∃ ds, Along exTwoTransformers ["a", "b", "c", "d"] ds ∧ (ds.filter fun d => Distribution d).length = 2) ∧
    checkTransformerPhasePath true exTwoTransformers (devLoads exTwoTransformers) = .ok true := by
  have hT : Tidy exTwoTransformers :=
    ⟨by simp [exTwoTransformers], by simp [exTwoTransformers], noParallel_of (by simp [exTwoTransformers, netList]),
      by simp [exTwoTransformers]⟩
  refine ⟨hT, ⟨by simp [exTwoTransformers], by simp [exTwoTransformers, Cut]⟩,
    (C25_true_iff _ hT.usable (by simp [exTwoTransformers, netList, sources])).1 (by decide +kernel), ⟨exTwoTransformers.drop 1 |>.take 3, ?_,
      by decide +kernel⟩, by decide +kernel⟩
  exact .cons (by simp [exTwoTransformers]) (by decide) (.cons (by simp [exTwoTransformers]) (by decide)
    (.cons (by simp [exTwoTransformers]) (by decide) (.single _)))

def exTieSwitch : NetObj where
  cls := "Line"
  name := some "tie"
  fromEl := some "a"
  toEl := some "c"
  isLine := true
  isSwitch := some true
  wires := [some true]

/-- a good feeder with an open tie switch that would shorten the way -/
def exTieFeeder : List Dev :=
  exFeeder ["A"] ["A"] ["A"] ["A"] ++ [{ net := exTieSwitch, wirePhases := [some "A"] }]

/-- The property is violated with an open tie switch: the directed network is made before open switches are removed, and lacks the
transformer, so that the check raises `KeyError`, although the feeder without the tie is accepted. -/
theorem C29_tie_violated : Tidy exTieFeeder ∧ ¬ HasLoop (ClosedLink (netList exTieFeeder)) ∧
    checkTransformerPhasePath true exTieFeeder (devLoads exTieFeeder) = .error .keyError ∧
    checkTransformerPhasePath true (exFeeder ["A"] ["A"] ["A"] ["A"]) (devLoads exTieFeeder) = .ok true := by
  have hT : Tidy exTieFeeder :=
    ⟨by simp [exTieFeeder, exTieSwitch, exFeeder], by simp [exTieFeeder, exTieSwitch, exFeeder], noParallel_of (by simp [exTieFeeder, exTieSwitch, exFeeder, netList]),
      by simp [exTieFeeder, exTieSwitch, exFeeder]⟩
  exact ⟨hT, (C25_true_iff _ hT.usable (by simp [exTieFeeder, exTieSwitch, exFeeder, netList, sources])).1 (by decide +kernel), by decide +kernel,
    by decide +kernel⟩

end Ditto.Net
