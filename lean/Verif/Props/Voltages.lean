import Verif.Lemmas.Voltages

/-! C32: nominal voltages. -/
namespace Ditto.Net
open Ditto

theorem construct_build {devs : List VoltDev} {source : Option String} {s : String} {n : Network}
    (h : construct devs source = .ok (s, n)) : build (devs.map (·.net)) s = .ok n := by
  unfold construct at h
  split at h
  · simp at h
  · simp at h
  · split at h
    · simp at h
    · rename_i hb
      simp only [Except.ok.injEq, Prod.mk.injEq] at h
      obtain ⟨rfl, rfl⟩ := h
      exact hb

theorem put_none (devs : List VoltDev) : devs.map (put fun _ => none) = devs := by
  rw [List.map_congr_left (g := id), List.map_id]
  intro d _
  unfold put
  cases d.net.name <;> rfl

theorem setVoltages_cases {devs : List VoltDev} {s : String} {n : Network} (hb : build (devs.map (·.net)) s = .ok n)
    (he : Energized n s devs) (sv : ℚ) (limit : Nat) :
    (setVoltages n limit s sv devs = .error .recursionError ∧ ∃ es' x, Route n.digraph s es' x ∧ limit ≤ es'.length) ∨
    (∃ F', setVoltages n limit s sv devs = .ok (devs.map (put F')) ∧
      (∀ x z, F' x = some z → VoltageAt n s devs sv x z) ∧
      ∀ es x, Route n.digraph s es x → es.length < limit ∧ F' x ≠ none) := by
  have heq := fun e h => C16_equipment _ s n hb e h
  rcases voltRec_spec he (sv := sv) (limit := limit) heq limit [] s s sv sv (fun _ => none) .nil (by simp)
      (newVoltage_source he sv) (.inl ⟨by simp, rfl⟩) (by simp) with h | ⟨F', h1, h2, _, h4⟩
  · rw [put_none] at h; exact .inl h
  · rw [put_none] at h1
    exact .inr ⟨F', h1, h2, fun es x hr => h4 es x hr⟩

/-- C32: every object with a nominal voltage whose name is a node reached from the source gets the voltage of the route to it: the low
side of the last transformer on it, or the voltage of the source. All other objects stay the same, as does everything else. The
network must be less deep than python's recursion limit. -/
theorem C32_effect (devs : List VoltDev) (source : Option String) (s : String) (n : Network) (sv : ℚ) (limit : Nat)
    (hc : construct devs source = .ok (s, n)) (hsv : sourceVoltage devs = some sv) (he : Energized n s devs)
    (hl : ∀ es x, Route n.digraph s es x → es.length < limit) :
    ∃ devs', setVoltagesOf limit devs source = .ok devs' ∧
      List.Forall₂ (fun d d' =>
        (d.hasVoltage = true ∧ ∃ x es y, d.net.name = some x ∧ Route n.digraph s es x ∧ RouteVoltage devs sv es y ∧
          d' = { d with voltage := some y }) ∨
        ((d.hasVoltage = false ∨ ∀ x es, d.net.name = some x → ¬ Route n.digraph s es x) ∧ d' = d)) devs devs' := by
  rcases setVoltages_cases (construct_build hc) he sv limit with ⟨_, es, x, hr, hlen⟩ | ⟨F, h1, h2, h3⟩
  · exact absurd (hl es x hr) (by omega)
  · refine ⟨_, by simp only [setVoltagesOf, hc, hsv, h1]; rfl, ?_⟩
    rw [List.forall₂_map_right_iff]
    refine List.forall₂_same.2 fun d hd => ?_
    cases hv : d.hasVoltage with
    | false =>
      right
      refine ⟨.inl rfl, ?_⟩
      unfold put
      split
      · rfl
      · simp [hv]
    | true =>
      cases hn : d.net.name with
      | none =>
        right
        refine ⟨.inr (by simp), ?_⟩
        unfold put; simp [hn]
      | some x =>
        cases hF : F x with
        | none =>
          right
          refine ⟨.inr fun x' es hx' hr => ?_, by unfold put; simp [hn, hF]⟩
          simp only [Option.some.injEq] at hx'; subst hx'
          exact (h3 es x hr).2 hF
        | some y =>
          left
          obtain ⟨es, hr, hy⟩ := h2 x y hF
          exact ⟨rfl, x, es, y, rfl, hr, hy, by unfold put; simp [hn, hF, hv]⟩

/-- C32: the route determines the voltage. -/
theorem C32_unique (devs : List VoltDev) (s : String) (n : Network) (sv : ℚ) (hb : build (devs.map (·.net)) s = .ok n)
    (hn : (devs.filterMap (·.net.name)).Nodup) (x : String) (y y' : ℚ) (h : VoltageAt n s devs sv x y)
    (h' : VoltageAt n s devs sv x y') : y = y' := by
  obtain ⟨es, hr, hy⟩ := h
  obtain ⟨es', hr', hy'⟩ := h'
  have : es = es' := by
    by_cases hx : x ∈ diNodes n.digraph
    · exact (C18_route _ s n hb x hx).unique hr hr'
    · have key : ∀ es, Route n.digraph s es x → es = [] := by
        intro es hr
        cases hr with
        | nil => rfl
        | snoc _ hm _ =>
          exact absurd (List.mem_flatMap.2 ⟨_, hm, by simp⟩) hx
      rw [key es hr, key es' hr']
  subst this
  exact hy.unique hn hy'

/-- C32: in a network with distinct names and known voltages the only failure is that of python's recursion limit, and it occurs iff
some node is at least that many edges away from the source. -/
theorem C32_limit (devs : List VoltDev) (source : Option String) (s : String) (n : Network) (sv : ℚ) (limit : Nat)
    (hc : construct devs source = .ok (s, n)) (hsv : sourceVoltage devs = some sv) (he : Energized n s devs) :
    setVoltagesOf limit devs source = .error .recursionError ↔ ∃ es x, Route n.digraph s es x ∧ limit ≤ es.length := by
  have heq : setVoltagesOf limit devs source = setVoltages n limit s sv devs := by simp only [setVoltagesOf, hc, hsv]
  rw [heq]
  rcases setVoltages_cases (construct_build hc) he sv limit with ⟨h, hr⟩ | ⟨F, h1, _, h3⟩
  · exact ⟨fun _ => hr, fun _ => h⟩
  · rw [h1]
    refine ⟨fun h => by simp at h, ?_⟩
    rintro ⟨es, x, hr, hlen⟩
    exact absurd (h3 es x hr).1 (by omega)

/-! ### Lines -/

/-- the line `d` has no voltage and its `from_element` has the voltage `v` -/
def Inherits (devs : List VoltDev) (d : VoltDev) (v : ℚ) : Prop :=
  d.net.isLine = true ∧ d.voltage = none ∧ ∃ f, d.net.fromEl = some f ∧ ∃ o ∈ devs, o.net.name = some f ∧ o.hasVoltage = true ∧
    o.voltage = some v

/-- C32: lines without a voltage get that of the element they come from, if it has one. Nothing else changes. -/
theorem C32_lines (devs : List VoltDev) (hn : (devs.filterMap (·.net.name)).Nodup)
    (hf : ∀ d ∈ devs, d.net.isLine = true → ∀ f, d.net.fromEl = some f → ∃ o ∈ devs, o.net.name = some f ∧ o.net.isLine = false) :
    ∃ devs', lineVoltages [] devs = .ok devs' ∧
      List.Forall₂ (fun d d' => (∃ v, Inherits devs d v ∧ d' = { d with voltage := some v }) ∨
        ((¬ ∃ v, Inherits devs d v) ∧ d' = d)) devs devs' := by
  have key : ∀ (post pre pre' : List VoltDev), devs = pre ++ post →
      List.Forall₂ (fun d d' => (∃ v, Inherits devs d v ∧ d' = { d with voltage := some v }) ∨
        ((¬ ∃ v, Inherits devs d v) ∧ d' = d)) pre pre' →
      ∃ devs', lineVoltages pre' post = .ok devs' ∧
        List.Forall₂ (fun d d' => (∃ v, Inherits devs d v ∧ d' = { d with voltage := some v }) ∨
          ((¬ ∃ v, Inherits devs d v) ∧ d' = d)) devs devs' := by
    intro post
    induction post with
    | nil => intro pre pre' h hR; rw [List.append_nil] at h; exact ⟨pre', rfl, h ▸ hR⟩
    | cons d post ih =>
      intro pre pre' h hR
      have hd : d ∈ devs := by simp [h]
      have hnames : (pre' ++ d :: post).filterMap (fun d : VoltDev => d.net.name) = devs.filterMap (·.net.name) := by
        rw [h, List.filterMap_append, List.filterMap_append]
        congr 1
        clear h
        induction hR with
        | nil => rfl
        | cons hab _ ih' =>
          rename_i a b l1 l2 _
          have : b.net = a.net := by
            rcases hab with ⟨v, _, rfl⟩ | ⟨_, rfl⟩ <;> rfl
          rw [List.filterMap_cons, List.filterMap_cons, this, ih']
      have hlook : ∀ o ∈ devs, o.net.isLine = false → o ∈ pre' ++ d :: post := by
        intro o ho hl
        rw [h] at ho
        rcases List.mem_append.1 ho with h1 | h1
        · have : o ∈ pre' := by
            clear h hnames ih hd
            induction hR with
            | nil => simp at h1
            | cons hab _ ih' =>
              rcases List.mem_append.1 ho with h2 | h2
              · rcases List.mem_cons.1 h2 with rfl | h2
                · rcases hab with ⟨v, hi, _⟩ | ⟨_, rfl⟩
                  · exact absurd hi.1 (by simp [hl])
                  · simp
                · exact List.mem_cons_of_mem _ (ih' (List.mem_append_left _ h2) h2)
              · rcases List.mem_cons.1 h1 with rfl | h1
                · rcases hab with ⟨v, hi, _⟩ | ⟨_, rfl⟩
                  · exact absurd hi.1 (by simp [hl])
                  · simp
                · exact List.mem_cons_of_mem _ (ih' (List.mem_append_left _ h1) h1)
          exact List.mem_append_left _ this
        · exact List.mem_append_right _ h1
      have hstep : ∃ d', lineVoltage (pre' ++ d :: post) d = .ok d' ∧
          ((∃ v, Inherits devs d v ∧ d' = { d with voltage := some v }) ∨ ((¬ ∃ v, Inherits devs d v) ∧ d' = d)) := by
        unfold lineVoltage
        by_cases hc : (d.net.isLine && d.voltage.isNone) = true
        · rw [if_pos hc]
          simp only [Bool.and_eq_true, Option.isNone_iff_eq_none] at hc
          cases hfe : d.net.fromEl with
          | none =>
            refine ⟨d, rfl, .inr ⟨?_, rfl⟩⟩
            rintro ⟨v, _, _, f, hf', _⟩
            rw [hfe] at hf'; simp at hf'
          | some f =>
            obtain ⟨o, ho, hno, hlo⟩ := hf d hd hc.1 f hfe
            have hnm := named_eq (name := fun d : VoltDev => d.net.name) (by rw [hnames]; exact hn) (hlook o ho hlo) hno
            simp only
            rw [hnm]
            simp only
            have huniq : ∀ o' ∈ devs, o'.net.name = some f → o' = o := fun o' ho' hn' =>
              name_inj (name := fun d : VoltDev => d.net.name) hn ho' ho hn' hno
            by_cases hv : (o.hasVoltage && o.voltage.isSome) = true
            · rw [if_pos hv]
              simp only [Bool.and_eq_true] at hv
              obtain ⟨v, hv'⟩ := Option.isSome_iff_exists.1 hv.2
              exact ⟨_, rfl, .inl ⟨v, ⟨hc.1, hc.2, f, hfe, o, ho, hno, hv.1, hv'⟩, by rw [hv']⟩⟩
            · rw [if_neg hv]
              refine ⟨d, rfl, .inr ⟨?_, rfl⟩⟩
              rintro ⟨v, _, _, f', hf', o', ho', hn', h1, h2⟩
              rw [hfe, Option.some.injEq] at hf'
              subst hf'
              rw [huniq o' ho' hn'] at h1 h2
              exact hv (by simp [h1, h2])
        · rw [if_neg hc]
          refine ⟨d, rfl, .inr ⟨?_, rfl⟩⟩
          rintro ⟨v, h1, h2, _⟩
          exact hc (by simp [h1, h2])
      obtain ⟨d', hd', hR'⟩ := hstep
      unfold lineVoltages
      rw [hd']
      simp only
      exact ih (pre ++ [d]) (pre' ++ [d']) (by simp [h]) (List.rel_append hR (.cons hR' .nil))
  exact key devs [] [] rfl .nil

/-! ### The voltage of the source -/

/-- C32: the voltage that the propagation starts from is that of the last sourcebus that has one. -/
theorem C32_sourceVoltage (devs : List VoltDev) (v : ℚ) : sourceVoltage devs = some v ↔
    ∃ pre d post, devs = pre ++ d :: post ∧ d.net.cls = "PowerSource" ∧ d.isSourcebus = some true ∧ d.voltage = some v ∧
      ∀ d' ∈ post, d'.net.cls = "PowerSource" → d'.isSourcebus = some true → d'.voltage = none := by
  unfold sourceVoltage
  constructor
  · intro h
    obtain ⟨d, hd, hv⟩ := Option.bind_eq_some_iff.1 h
    obtain ⟨l, hl⟩ := List.getLast?_eq_some_iff.1 hd
    obtain ⟨l1, l2, rfl, h1, h2⟩ := List.filter_eq_append_iff.1 hl
    obtain ⟨l3, post, rfl, h3, h4, h5⟩ := List.filter_eq_cons_iff.1 h2
    simp only [Bool.and_eq_true, decide_eq_true_eq, beq_iff_eq] at h4
    refine ⟨l1 ++ l3, d, post, by simp, h4.1.1, h4.2, hv, fun d' hd' hc hs => ?_⟩
    have := List.filter_eq_nil_iff.1 h5 d' hd'
    simp only [Bool.and_eq_true, decide_eq_true_eq, beq_iff_eq] at this
    cases hv' : d'.voltage with
    | none => rfl
    | some w => exact absurd ⟨⟨hc, by simp [hv']⟩, hs⟩ this
  · rintro ⟨pre, d, post, rfl, hc, hs, hv, hp⟩
    rw [List.filter_append, List.filter_cons_of_pos (by simp [hc, hs, hv]), (List.filter_eq_nil_iff (l := post)).2]
    · simp [hv]
    · intro d' hd'
      simp only [Bool.and_eq_true, decide_eq_true_eq, beq_iff_eq]
      rintro ⟨⟨h1, h2⟩, h3⟩
      rw [hp d' hd' h1 h3] at h2
      simp at h2

/-- C32: without the voltage of a sourcebus the propagation fails with `AttributeError`. -/
theorem C32_noVoltage (devs : List VoltDev) (source : Option String) (limit : Nat) (s : String) (n : Network)
    (h : construct devs source = .ok (s, n))
    (hv : ∀ d ∈ devs, d.net.cls = "PowerSource" → d.isSourcebus = some true → d.voltage = none) :
    setVoltagesOf limit devs source = .error .attributeError := by
  have : sourceVoltage devs = none := by
    cases hs : sourceVoltage devs with
    | none => rfl
    | some v =>
      obtain ⟨pre, d, post, rfl, hc, hb, hd, _⟩ := (C32_sourceVoltage devs v).1 hs
      rw [hv d (by simp) hc hb] at hd
      simp at hd
  unfold setVoltagesOf
  rw [h]
  simp only [this]

/-! ### Examples -/

/-- a node -/
def exVNode (x : String) : VoltDev where
  net := { cls := "Node", name := some x }

/-- source `src`, line to `a`, transformer to `b`, line to `c`; the node `z` is not connected -/
def exVolt : List VoltDev :=
  [{ net := { cls := "PowerSource", name := some "src" }, voltage := some 12470, isSourcebus := some true },
   exVNode "a", exVNode "b", exVNode "c", exVNode "z",
   { net := { cls := "Line", name := some "l1", fromEl := some "src", toEl := some "a", isLine := true } },
   { net := { cls := "PowerTransformer", name := some "t", fromEl := some "a", toEl := some "b" }, hasVoltage := false,
     windings := some [some 12470, some 120, none] },
   { net := { cls := "Line", name := some "l2", fromEl := some "c", toEl := some "b", isLine := true } }]

/-- the network of `exVolt` -/
def exVoltNet : Network :=
  ⟨⟨["a", "src", "b", "c"],
    [⟨"src", "a", some ("Line", some "l1"), some 0⟩, ⟨"a", "b", some ("PowerTransformer", some "t"), some 0⟩,
     ⟨"c", "b", some ("Line", some "l2"), some 0⟩]⟩,
   [⟨"src", "a", some ("Line", some "l1"), none⟩, ⟨"a", "b", some ("PowerTransformer", some "t"), none⟩,
    ⟨"b", "c", some ("Line", some "l2"), none⟩]⟩

theorem exVolt_construct : construct exVolt none = .ok ("src", exVoltNet) := by decide +kernel

theorem exVolt_energized : Energized exVoltNet "src" exVolt where
  names := by decide +kernel
  source := ⟨exVolt[0], by decide +kernel, rfl⟩
  nodes := by decide +kernel
  trafos := by
    intro e he nm ht
    have hlow : LowSide exVolt "t" 120 := ⟨exVolt[6], by decide +kernel, rfl, _, rfl, by decide +kernel, by
      intro z hz
      simp only [List.mem_cons, Option.some.injEq, List.not_mem_nil, or_false, reduceCtorEq] at hz
      rcases hz with rfl | rfl <;> decide +kernel⟩
    unfold Edge.Trafo at ht
    simp only [exVoltNet, List.mem_cons, List.not_mem_nil, or_false] at he
    rcases he with rfl | rfl | rfl
    · simp at ht
    · simp only [Option.some.injEq, Prod.mk.injEq, true_and] at ht
      exact ⟨"t", 120, ht.symm, hlow⟩
    · simp at ht
  noSelf := by
    intro e he h1 h2
    revert e
    simp [exVoltNet]

/-- the hypotheses of `C32_effect`, `C32_unique`, `C32_limit` -/
example : ∃ s n, construct exVolt none = .ok (s, n) ∧ sourceVoltage exVolt = some 12470 ∧ Energized n s exVolt ∧
    (∀ es x, Route n.digraph s es x → es.length < 4) ∧ ∃ es x, Route n.digraph s es x ∧ 3 ≤ es.length := by
  refine ⟨_, _, exVolt_construct, by decide +kernel, exVolt_energized, fun es x hr => ?_, ?_⟩
  · obtain ⟨depth, ha⟩ := arbo_of_build (construct_build exVolt_construct)
    have := hr.length_le ha
    exact Nat.lt_succ_of_le this
  · have h1 : Route exVoltNet.digraph "src" [⟨"src", "a", some ("Line", some "l1"), none⟩] "a" :=
      Route.nil.snoc (by decide +kernel) rfl
    have h2 := h1.snoc (e := ⟨"a", "b", some ("PowerTransformer", some "t"), none⟩) (by decide +kernel) rfl
    have h3 := h2.snoc (e := ⟨"b", "c", some ("Line", some "l2"), none⟩) (by decide +kernel) rfl
    exact ⟨_, _, h3, by simp⟩

example : (setVoltagesOf 4 exVolt none).map (·.map (·.voltage)) =
    .ok [some 12470, some 12470, some 120, some 120, none, none, none, none] := by decide +kernel

example : setVoltagesOf 3 exVolt none = .error .recursionError := by decide +kernel

/-- `exVolt` after `set_nominal_voltages_recur` -/
def exVolt2 : List VoltDev :=
  exVolt.map (put fun x => if x = "src" ∨ x = "a" then some 12470 else if x = "b" ∨ x = "c" then some 120 else none)

/-- the hypotheses of `C32_lines` -/
example : setVoltagesOf 4 exVolt none = .ok exVolt2 ∧ (exVolt2.filterMap (·.net.name)).Nodup ∧
    (∀ d ∈ exVolt2, d.net.isLine = true → ∀ f ∈ d.net.fromEl, ∃ o ∈ exVolt2, o.net.name = some f ∧ o.net.isLine = false) ∧
    (lineVoltages [] exVolt2).map (·.map (·.voltage)) =
      .ok [some 12470, some 12470, some 120, some 120, none, some 12470, none, some 120] := by decide +kernel

/-- the hypotheses of `C32_noVoltage` -/
example : ∃ devs s n, construct devs none = .ok (s, n) ∧
    ∀ d ∈ devs, d.net.cls = "PowerSource" → d.isSourcebus = some true → d.voltage = none :=
  ⟨exVolt.map fun d => { d with voltage := none }, "src", exVoltNet, by decide +kernel, by decide +kernel⟩

/-- two sourcebuses of the same name: the last voltage counts -/
example : sourceVoltage
    [{ net := { cls := "PowerSource", name := some "src" }, voltage := some 12470, isSourcebus := some true },
     { net := { cls := "PowerSource", name := some "src" }, voltage := some 7200, isSourcebus := some true },
     { net := { cls := "PowerSource", name := some "src" }, voltage := none, isSourcebus := some true }] = some 7200 := by
  decide +kernel

/-! ### Where the code differs -/

/-- With an explicit source the voltage is still that of the sourcebus. If the source is the node `c`, below the transformer, then `c`
gets the voltage of the high side and `src`, now below the transformer, that of the low side. -/
theorem C32_start_violated : (setVoltagesOf 4 exVolt (some "c")).map (·.map fun d => (d.net.name, d.voltage)) =
    .ok [(some "src", some 120), (some "a", some 120), (some "b", some 12470), (some "c", some 12470), (some "z", none),
      (some "l1", none), (some "t", none), (some "l2", none)] := by decide +kernel

/-- A node of the network that is not the name of an object makes the propagation fail. -/
theorem C32_missing_violated : ∃ devs n, construct devs none = .ok ("src", n) ∧ sourceVoltage devs = some 12470 ∧
    (devs.filterMap (·.net.name)).Nodup ∧ ∀ limit, 1 < limit → setVoltagesOf limit devs none = .error .keyError := by
  refine ⟨exVolt.filter fun d => d.net.name ≠ some "a", exVoltNet, by decide +kernel, by decide +kernel, by decide +kernel, ?_⟩
  intro limit hl
  obtain ⟨k, rfl⟩ : ∃ k, limit = k + 2 := ⟨limit - 2, by omega⟩
  rfl

end Ditto.Net
