import Verif.Spec.TrafoFix
import Mathlib.Data.List.Basic

/-! C127: repair of transformers on the paths to loads -/
namespace Ditto.TrafoFix
open Ditto Spec

theorem isTrafo_iff (e : PathEdge) : e.isTrafo = true ↔ e.equipment = "PowerTransformer" := decide_eq_true_iff

theorem counted_iff (e : PathEdge) : e.counted = true ↔ e.equipment = "PowerTransformer" ∧ e.substation = false := by
  unfold PathEdge.counted
  rw [Bool.and_eq_true, isTrafo_iff, Bool.not_eq_true']

theorem climb_names (path : List PathEdge) : (climb path).1 = (transformersOn path).reverse := by
  unfold climb transformersOn
  rw [List.foldl_reverse]
  induction path with
  | nil => rfl
  | cons e es ih =>
    rw [List.foldr_cons]
    have hstep : ∀ s : List String × Option String, (climbStep s e).1 = if e.counted then s.1 ++ [e.name] else s.1 := fun _ => rfl
    rw [hstep, ih]
    by_cases h : e.counted = true
    · rw [List.filter_cons_of_pos (p := fun e : PathEdge => decide (e.equipment = "PowerTransformer" ∧ e.substation = false))
        (decide_eq_true ((counted_iff e).mp h)), List.map_cons, List.reverse_cons, if_pos h]
    · rw [List.filter_cons_of_neg (p := fun e : PathEdge => decide (e.equipment = "PowerTransformer" ∧ e.substation = false))
        (fun hh => h ((counted_iff e).mpr (of_decide_eq_true hh))), if_neg h]

theorem climb_down {down : List PathEdge} (h : ∀ e ∈ down, e.equipment ≠ "PowerTransformer") : climb down = ([], down.head?.map (·.upper)) := by
  unfold climb
  rw [List.foldl_reverse]
  induction down with
  | nil => rfl
  | cons e es ih =>
    rw [List.foldr_cons, ih fun x hx => h x (.tail _ hx)]
    have h1 : e.counted = false := by
      rw [Bool.eq_false_iff]
      exact fun hh => h e (.head _) ((counted_iff e).mp hh).1
    have h2 : e.isTrafo = false := by
      rw [Bool.eq_false_iff]
      exact fun hh => h e (.head _) ((isTrafo_iff e).mp hh)
    unfold climbStep
    rw [h1, h2]
    rfl

theorem climb_one {path up down : List PathEdge} {t : PathEdge} (h : OneTrafo path up t down) :
    climb path = ([t.name], down.head?.map fun _ => t.lower) := by
  obtain ⟨rfl, h1, h2, h3, h4, h5⟩ := h
  have hd := climb_down h4
  have hmap : down.head?.map (·.upper) = down.head?.map fun _ => t.lower := by
    cases hh : down.head? with
    | none => rfl
    | some e => exact congrArg some (h5 e hh)
  unfold climb at hd ⊢
  rw [List.foldl_reverse] at hd ⊢
  rw [List.foldr_append, List.foldr_cons, hd, hmap]
  have hc : t.counted = true := (counted_iff t).mpr ⟨h1, h2⟩
  have ht : climbStep ([], down.head?.map fun _ => t.lower) t = ([t.name], down.head?.map fun _ => t.lower) := by
    unfold climbStep
    rw [hc]
    dsimp only
    rw [if_pos rfl, if_neg (fun hh => nomatch hh.1)]
    rfl
  rw [ht]
  clear hd hmap
  induction up with
  | nil => rfl
  | cons e es ih =>
    rw [List.foldr_cons, ih fun x hx => h3 x (.tail _ hx)]
    have hn : e.counted = false := by
      rw [Bool.eq_false_iff]
      intro hh
      obtain ⟨g1, g2⟩ := (counted_iff e).mp hh
      rw [h3 e (.head _) g1] at g2
      exact nomatch g2
    unfold climbStep
    rw [hn]
    dsimp only
    rw [if_neg (by decide), if_neg (fun hh => nomatch hh.1)]

theorem fixLoad_one {model : String → Option FixTrafo} {path up down : List PathEdge} {t : PathEdge} (h : OneTrafo path up t down) {r : FixTrafo}
    (hr : model t.name = some r) {high : List String} (hf : r.first = some high) :
    fixLoad model path = .ok fun x => if x = t.name then
      some { rotate (down.head?.map fun _ => t.lower) r with first := some (phaseLoop high high path) } else model x := by
  unfold fixLoad
  rw [climb_one h]
  dsimp only
  rw [hr]
  dsimp only
  rw [hf]

/-- the ends after the rotation -/
theorem rotate_ends {t : PathEdge} {r : FixTrafo} (hne : t.upper ≠ t.lower) (h : EndsOf t r) :
    (rotate (some t.lower) r).fromElement = some t.upper ∧ (rotate (some t.lower) r).toElement = some t.lower := by
  unfold rotate
  rcases h with ⟨h1, h2⟩ | ⟨h1, h2⟩
  · rw [if_neg (fun hh => hh h2)]
    exact ⟨h1, h2⟩
  · rw [if_pos (by rw [h2]; exact fun hh => hne (Option.some.inj hh)), if_pos h1]
    exact ⟨h2, h1⟩

theorem rotate_none {t : PathEdge} {r : FixTrafo} (h : EndsOf t r) : rotate none r = r := by
  unfold rotate
  rcases h with ⟨h1, h2⟩ | ⟨h1, h2⟩ <;> rw [h1, h2, if_pos (fun hh => nomatch hh), if_neg (fun hh => nomatch hh)]

/-- **C127**, orientation: after the repair a transformer that is the only one on the path to some load leads from the side of the source to the side of the
load, whatever the order of loads. Missing: transformers whose loads are all connected to the transformer itself. -/
theorem C127_oriented_partial {model model' : String → Option FixTrafo} {paths : List (List PathEdge)} {t : PathEdge} {r : FixTrafo}
    (hrun : fixLoads model paths = .ok model') (hr : model t.name = some r) (hends : EndsOf t r) (hne : t.upper ≠ t.lower)
    (hall : ∀ p ∈ paths, t.name ∈ transformersOn p → ∃ up e down, OneTrafo p up e down ∧ e.upper = t.upper ∧ e.lower = t.lower ∧ e.name = t.name)
    (hsome : ∃ p ∈ paths, ∃ up e down, OneTrafo p up e down ∧ e.upper = t.upper ∧ e.lower = t.lower ∧ e.name = t.name ∧ down ≠ []) :
    ∃ r', model' t.name = some r' ∧ r'.fromElement = some t.upper ∧ r'.toElement = some t.lower := by
  have key : ∀ (paths : List (List PathEdge)) (model : String → Option FixTrafo) (r : FixTrafo), fixLoads model paths = .ok model' →
      model t.name = some r → EndsOf t r →
      (∀ p ∈ paths, t.name ∈ (climb p).1 → ∃ up e down, OneTrafo p up e down ∧ e.upper = t.upper ∧ e.lower = t.lower ∧ e.name = t.name) →
      ((r.fromElement = some t.upper ∧ r.toElement = some t.lower) ∨
        ∃ p ∈ paths, ∃ up e down, OneTrafo p up e down ∧ e.upper = t.upper ∧ e.lower = t.lower ∧ e.name = t.name ∧ down ≠ []) →
      ∃ r', model' t.name = some r' ∧ r'.fromElement = some t.upper ∧ r'.toElement = some t.lower := by
    intro paths
    induction paths with
    | nil =>
      intro model r hrun hr _ _ hs
      rw [fixLoads, Except.ok.injEq] at hrun
      subst hrun
      rcases hs with hs | ⟨p, hp, -⟩
      · exact ⟨r, hr, hs⟩
      · exact (List.not_mem_nil hp).elim
    | cons p ps ih =>
      intro model r hrun hr hends hall hs
      by_cases hm : t.name ∈ (climb p).1
      · obtain ⟨up, e, down, g1, g2, g3, g4⟩ := hall p (.head _) hm
        rw [← g4] at hr
        cases hf : r.first with
        | none =>
          exfalso
          have : fixLoad model p = .error .indexError := by
            unfold fixLoad
            rw [climb_one g1]
            dsimp only
            rw [hr]
            dsimp only
            rw [hf]
          rw [fixLoads, this] at hrun
          exact nomatch hrun
        | some high =>
          rw [fixLoads, fixLoad_one g1 hr hf] at hrun
          dsimp only at hrun
          by_cases hd : down = []
          · rw [hd] at hrun
            have hends' : EndsOf t (rotate none r) := by
              rw [rotate_none hends]
              exact hends
            refine ih _ { rotate none r with first := some (phaseLoop high high p) } hrun (if_pos g4.symm) hends'
              (fun q hq => hall q (.tail _ hq)) ?_
            rcases hs with hs | ⟨q, hq, hx⟩
            · left
              dsimp only
              rw [rotate_none hends]
              exact hs
            · rcases List.mem_cons.mp hq with rfl | hq
              · obtain ⟨up', e', down', k1, -, -, k4, k5⟩ := hx
                exfalso
                have e1 := (climb_one g1).symm.trans (climb_one k1)
                rw [hd] at e1
                obtain ⟨a, as, ha⟩ := List.exists_cons_of_ne_nil k5
                rw [ha] at e1
                have := (Prod.mk.injEq ..).mp e1
                exact nomatch this.2
              · exact Or.inr ⟨q, hq, hx⟩
          · obtain ⟨a, as, ha⟩ := List.exists_cons_of_ne_nil hd
            rw [ha] at hrun
            have hrot := rotate_ends hne hends
            refine ih _ { rotate (some e.lower) r with first := some (phaseLoop high high p) } hrun (if_pos g4.symm) ?_
              (fun q hq => hall q (.tail _ hq)) ?_
            · rw [g3]
              exact Or.inl hrot
            · rw [g3]
              exact Or.inl hrot
      · have hkeep : ∀ m, fixLoad model p = .ok m → m t.name = model t.name := by
          intro m h
          unfold fixLoad at h
          rcases hc : climb p with ⟨_ | ⟨n, _ | ⟨n', ns⟩⟩, low⟩
          · rw [hc] at h
            cases h
            rfl
          · rw [hc] at h hm
            dsimp only at h
            cases hmn : model n with
            | none => rw [hmn] at h; exact nomatch h
            | some x =>
              rw [hmn] at h
              dsimp only at h
              cases hx : x.first with
              | none => rw [hx] at h; exact nomatch h
              | some high =>
                rw [hx] at h
                cases h
                exact if_neg fun hh => hm (by rw [hh]; exact List.mem_singleton.mpr rfl)
          · rw [hc] at h
            cases h
            rfl
        cases hx : fixLoad model p with
        | error e => rw [fixLoads, hx] at hrun; exact nomatch hrun
        | ok m =>
          rw [fixLoads, hx] at hrun
          refine ih m r hrun ((hkeep m hx).trans hr) hends (fun q hq => hall q (.tail _ hq)) ?_
          rcases hs with hs | ⟨q, hq, up, e, down, k1, k2, k3, k4, k5⟩
          · exact Or.inl hs
          · rcases List.mem_cons.mp hq with rfl | hq
            · exact absurd (by rw [climb_one k1, k4]; exact List.mem_singleton.mpr rfl) hm
            · exact Or.inr ⟨q, hq, up, e, down, k1, k2, k3, k4, k5⟩
  refine key paths model r hrun hr hends (fun p hp hm => hall p hp ?_) (Or.inr hsome)
  rw [climb_names, List.mem_reverse] at hm
  exact hm

/-- **C127**, other transformers: those that are not the only one on the path to a load are not changed. -/
theorem C127_others (model : String → Option FixTrafo) {paths : List (List PathEdge)} {n : String} (h : ∀ p ∈ paths, transformersOn p ≠ [n])
    {model' : String → Option FixTrafo} (hrun : fixLoads model paths = .ok model') : model' n = model n := by
  induction paths generalizing model with
  | nil => cases hrun; rfl
  | cons p ps ih =>
    rw [fixLoads] at hrun
    cases hx : fixLoad model p with
    | error e => rw [hx] at hrun; exact nomatch hrun
    | ok m =>
      rw [hx] at hrun
      rw [ih m (fun q hq => h q (.tail _ hq)) hrun]
      unfold fixLoad at hx
      rcases hc : climb p with ⟨_ | ⟨k, _ | ⟨k', ks⟩⟩, low⟩
      · rw [hc] at hx; cases hx; rfl
      · rw [hc] at hx
        dsimp only at hx
        cases hmn : model k with
        | none => rw [hmn] at hx; exact nomatch hx
        | some x =>
          rw [hmn] at hx
          dsimp only at hx
          cases hf : x.first with
          | none => rw [hf] at hx; exact nomatch hx
          | some high =>
            rw [hf] at hx
            cases hx
            refine if_neg fun hh => h p (.head _) ?_
            have := climb_names p
            rw [hc, ← hh] at this
            exact List.reverse_eq_iff.mp this.symm
      · rw [hc] at hx; cases hx; rfl

/-! ### phases -/

theorem mem_line (e : PathEdge) (p : String) : p ∈ e.phases.filter (· ≠ "N") ↔ LinePhase e p := by
  rw [List.mem_filter]
  exact and_congr_right fun _ => decide_eq_true_iff

/-- a transformer with one phase on lines that share another one -/
theorem phase_loop {p a : String} (path rest : List PathEdge) (hu : ∀ e ∈ path, e.counted = false) (hrest : ∀ t ∈ rest.head?, t.counted = true)
    (hl : ∀ e ∈ path, e.equipment = "Line" → LinePhase e a ∧ (¬LinePhase e p → ∀ x, LinePhase e x → x = a)) :
    ∀ h c, (h = p ∨ h = a) → (c = p ∨ c = a) →
      ∃ q, phaseLoop [h] [c] (path ++ rest) = [q] ∧ (q = c ∨ q = a) ∧
        ((∃ e ∈ path, e.equipment = "Line" ∧ ¬LinePhase e p) → h = p ∨ c = a → q = a) := by
  induction path with
  | nil =>
    intro h c hh hc
    refine ⟨c, ?_, Or.inl rfl, fun ⟨e, he, _⟩ => (List.not_mem_nil he).elim⟩
    cases rest with
    | nil => rfl
    | cons t ts => rw [List.nil_append, phaseLoop, if_pos (hrest t rfl)]
  | cons e es ih =>
    intro h c hh hc
    have ih := ih (fun x hx => hu x (.tail _ hx)) (fun x hx => hl x (.tail _ hx))
    rw [List.cons_append, phaseLoop, if_neg (by rw [hu e (.head _)]; decide)]
    by_cases hline : e.equipment = "Line"
    · rw [if_pos hline]
      obtain ⟨ga, gp⟩ := hl e (.head _) hline
      dsimp only
      by_cases hin : LinePhase e h
      · rw [if_pos (by rw [List.all_eq_true]; intro x hx; rw [List.mem_singleton.mp hx]; exact decide_eq_true ((mem_line e h).mpr hin))]
        obtain ⟨q, h1, h2, h3⟩ := ih h c hh hc
        refine ⟨q, h1, h2, ?_⟩
        rintro ⟨x, hx, g1, g2⟩ hor
        rcases List.mem_cons.mp hx with rfl | hx
        · rcases hor with rfl | rfl
          · exact absurd hin g2
          · rcases h2 with h2 | h2 <;> exact h2
        · exact h3 ⟨x, hx, g1, g2⟩ hor
      · rw [if_neg (fun hall => hin ((mem_line e h).mp (of_decide_eq_true (List.all_eq_true.mp hall h (List.mem_singleton.mpr rfl)))))]
        have hp : h = p := hh.resolve_right fun hh => hin (hh ▸ ga)
        subst hp
        have hone : ∀ x, x ∈ e.phases.filter (· ≠ "N") → x = a := fun x hx => gp hin x ((mem_line e x).mp hx)
        have hmem : a ∈ e.phases.filter (· ≠ "N") := (mem_line e a).mpr ga
        obtain ⟨y, ys, hy⟩ : ∃ y ys, e.phases.filter (· ≠ "N") = y :: ys := List.exists_cons_of_ne_nil (List.ne_nil_of_mem hmem)
        rw [hy] at hone ⊢
        have hya : y = a := hone y (.head _)
        have honeE : oneElement (y :: ys) = true := by
          rw [oneElement, List.all_eq_true]
          intro x hx
          exact decide_eq_true ((hone x (.tail _ hx)).trans hya.symm)
        rw [if_pos (by rw [honeE]; rfl), hya]
        obtain ⟨q, h1, h2, -⟩ := ih c a hc (Or.inr rfl)
        have hq : q = a := h2.elim id id
        exact ⟨q, h1, Or.inr hq, fun _ _ => hq⟩
    · rw [if_neg hline]
      obtain ⟨q, h1, h2, h3⟩ := ih h c hh hc
      refine ⟨q, h1, h2, ?_⟩
      rintro ⟨x, hx, g1, g2⟩ hor
      rcases List.mem_cons.mp hx with rfl | hx
      · exact absurd g1 hline
      · exact h3 ⟨x, hx, g1, g2⟩ hor

/-- **C127**, phases: if the lines above a transformer with one phase have a common phase `a`, and those without its phase have only `a`, then after the
repair the transformer has a phase that all these lines have, which is its own one if possible. Missing: transformers with several phases, and lines without a
common phase. -/
theorem C127_phase_partial {model : String → Option FixTrafo} {path up down : List PathEdge} {t : PathEdge} (h : OneTrafo path up t down) {r : FixTrafo}
    (hr : model t.name = some r) {p a : String} (hf : r.first = some [p])
    (hl : ∀ e ∈ up, e.equipment = "Line" → LinePhase e a ∧ (¬LinePhase e p → ∀ x, LinePhase e x → x = a)) :
    ∃ model' r' q, fixLoad model path = .ok model' ∧ model' t.name = some r' ∧ r'.first = some [q] ∧
      (∀ e ∈ up, e.equipment = "Line" → LinePhase e q) ∧ ((∀ e ∈ up, e.equipment = "Line" → LinePhase e p) → q = p) := by
  have hun : ∀ e ∈ up, e.counted = false := by
    intro e he
    rw [Bool.eq_false_iff]
    intro hh
    obtain ⟨g1, g2⟩ := (counted_iff e).mp hh
    rw [h.2.2.2.1 e he g1] at g2
    exact nomatch g2
  have hcount : ∀ x ∈ (t :: down).head?, x.counted = true := by
    intro x hx
    cases hx
    exact (counted_iff t).mpr ⟨h.2.1, h.2.2.1⟩
  obtain ⟨q, h1, h2, h3⟩ := phase_loop up (t :: down) hun hcount hl p p (Or.inl rfl) (Or.inl rfl)
  rw [← h.1] at h1
  refine ⟨_, _, q, fixLoad_one h hr hf, if_pos rfl, by rw [h1], ?_, ?_⟩
  · intro e he hline
    by_cases hex : ∃ e ∈ up, e.equipment = "Line" ∧ ¬LinePhase e p
    · rw [h3 hex (Or.inl rfl)]
      exact (hl e he hline).1
    · have hp : ∀ e ∈ up, e.equipment = "Line" → LinePhase e p := fun e he hh => by
        by_contra hc
        exact hex ⟨e, he, hh, hc⟩
      rcases h2 with rfl | rfl
      · exact hp e he hline
      · exact (hl e he hline).1
  · intro hp
    have keep : ∀ (es : List PathEdge), (∀ e ∈ es, e.counted = false) → (∀ e ∈ es, e.equipment = "Line" → LinePhase e p) →
        phaseLoop [p] [p] (es ++ t :: down) = [p] := by
      intro es
      induction es with
      | nil =>
        intro _ _
        rw [List.nil_append, phaseLoop, if_pos (hcount t rfl)]
      | cons e es ih =>
        intro g1 g2
        rw [List.cons_append, phaseLoop, if_neg (by rw [g1 e (.head _)]; decide)]
        have ih := ih (fun x hx => g1 x (.tail _ hx)) fun x hx => g2 x (.tail _ hx)
        by_cases hline : e.equipment = "Line"
        · rw [if_pos hline]
          dsimp only
          rw [if_pos (by rw [List.all_eq_true]; intro x hx; rw [List.mem_singleton.mp hx]
                         exact decide_eq_true ((mem_line e p).mpr (g2 e (.head _) hline)))]
          exact ih
        · rw [if_neg hline]
          exact ih
    have := keep up hun hp
    rw [← h.1, h1] at this
    exact (List.cons.inj this).1

/-! ### what is not as expected -/

/-- **C127**, loads at the transformer: if the load is connected to the transformer itself the low side is not known, and a transformer that is backwards is not
rotated. -/
theorem C127_direct_violated {model : String → Option FixTrafo} {path up : List PathEdge} {t : PathEdge} (h : OneTrafo path up t []) {r : FixTrafo}
    (hr : model t.name = some r) (h1 : r.fromElement = some t.lower) (h2 : r.toElement = some t.upper) {high : List String} (hf : r.first = some high) :
    ∃ model' r', fixLoad model path = .ok model' ∧ model' t.name = some r' ∧ r'.fromElement = some t.lower ∧ r'.toElement = some t.upper := by
  refine ⟨_, _, fixLoad_one h hr hf, if_pos rfl, ?_⟩
  have : rotate ((([] : List PathEdge).head?).map fun _ => t.lower) r = r := rotate_none (t := t) (Or.inr ⟨h1, h2⟩)
  rw [this]
  exact ⟨h1, h2⟩

/-- **C127**, the phase of the line at the transformer: if lines of different phases follow each other, a transformer with the phase of the last one gets
that of the first one. -/
theorem C127_stale_violated {model : String → Option FixTrafo} {path down : List PathEdge} {t e e' : PathEdge} (h : OneTrafo path [e, e'] t down)
    {r : FixTrafo} (hr : model t.name = some r) {p a : String} (hne : p ≠ a) (hp : p ≠ "N") (ha : a ≠ "N") (he : e.equipment = "Line")
    (he' : e'.equipment = "Line") (hw : e.phases = [a]) (hw' : e'.phases = [p]) (hf : r.first = some [p]) :
    ∃ model' r', fixLoad model path = .ok model' ∧ model' t.name = some r' ∧ r'.first = some [a] ∧ ¬LinePhase e' a := by
  refine ⟨_, _, fixLoad_one h hr hf, if_pos rfl, ?_, ?_⟩
  · have hc : ∀ x : PathEdge, x.equipment = "Line" → x.counted = false := by
      intro x hx
      rw [Bool.eq_false_iff]
      intro hh
      have := ((counted_iff x).mp hh).1
      rw [hx] at this
      exact absurd this (by decide)
    have ht : t.counted = true := (counted_iff t).mpr ⟨h.2.1, h.2.2.1⟩
    have f1 : ([a] : List String).filter (· ≠ "N") = [a] := List.filter_cons_of_pos (by simpa using ha)
    have f2 : ([p] : List String).filter (· ≠ "N") = [p] := List.filter_cons_of_pos (by simpa using hp)
    rw [h.1]
    change some (phaseLoop [p] [p] (e :: e' :: t :: down)) = _
    rw [phaseLoop, if_neg (by rw [hc e he]; decide), if_pos he, hw, f1]
    dsimp only
    rw [if_neg (by simpa using hne), if_pos (show (oneElement [p] && oneElement [a]) = true from rfl), phaseLoop, if_neg (by rw [hc e' he']; decide), if_pos he', hw', f2]
    dsimp only
    rw [if_pos (by simp), phaseLoop, if_pos ht]
    rfl
  · rintro ⟨hm, -⟩
    rw [hw'] at hm
    exact hne (List.mem_singleton.mp hm).symm

/-- **C127**, several phases: a transformer with several phases keeps them, even if the lines above it have as many others. -/
theorem C127_several_violated {model : String → Option FixTrafo} {path up down : List PathEdge} {t : PathEdge} (h : OneTrafo path up t down)
    {r : FixTrafo} (hr : model t.name = some r) {p q : String} {ps : List String} (hne : p ≠ q) (hf : r.first = some (p :: q :: ps)) :
    ∃ model' r', fixLoad model path = .ok model' ∧ model' t.name = some r' ∧ r'.first = r.first := by
  refine ⟨_, _, fixLoad_one h hr hf, if_pos rfl, ?_⟩
  dsimp only
  rw [hf]
  congr 1
  generalize path = es
  have hone : oneElement (p :: q :: ps) = false := by
    rw [Bool.eq_false_iff, oneElement]
    intro hh
    exact hne (of_decide_eq_true (List.all_eq_true.mp hh q (.head _))).symm
  induction es with
  | nil => rfl
  | cons e es ih =>
    rw [phaseLoop, hone, ih]
    dsimp only
    rw [Bool.false_and]
    split <;> [rfl; (split <;> [(split <;> rfl); rfl])]

/-! ### examples -/

def feederLine (a b : String) (ps : List String) : PathEdge := { upper := a, lower := b, equipment := "Line", name := a ++ b, phases := ps }

/-- a transformer of phase B, backwards, on lines of phase A -/
def backPath : List PathEdge :=
  [{ upper := "s", lower := "a", equipment := "PowerTransformer", substation := true, name := "sub" }, feederLine "a" "b" ["A", "B", "C", "N"],
    feederLine "b" "c" ["A", "N"], { upper := "c", lower := "d", equipment := "PowerTransformer", name := "t" }, feederLine "d" "load" ["A"]]

def backModel : String → Option FixTrafo := fun n => if n = "t" then some ⟨some "d", some "c", some ["B"]⟩ else none

example : OneTrafo backPath (backPath.take 3) { upper := "c", lower := "d", equipment := "PowerTransformer", name := "t" } (backPath.drop 4) := by
  refine ⟨rfl, rfl, rfl, by decide, by decide, ?_⟩
  intro e he
  cases he
  rfl

/-- it is rotated and gets phase A -/
example : (fixLoads backModel [backPath]).map (fun m => m "t") = .ok (some ⟨some "c", some "d", some ["A"]⟩) := by decide +kernel

/-- without the line to the load it is not rotated -/
example : (fixLoads backModel [backPath.take 4]).map (fun m => m "t") = .ok (some ⟨some "d", some "c", some ["A"]⟩) := by decide +kernel

/-- the phases of the lines are as the theorem wants them -/
example : ∀ e ∈ backPath.take 3, e.equipment = "Line" → LinePhase e "A" ∧ (¬LinePhase e "B" → ∀ x, LinePhase e x → x = "A") := by
  intro e he hl
  simp only [backPath, List.take, List.mem_cons, List.not_mem_nil, or_false] at he
  rcases he with rfl | rfl | rfl
  · exact absurd hl (by decide)
  · exact ⟨by decide, fun h => absurd (by decide) h⟩
  · refine ⟨by decide, fun _ x hx => ?_⟩
    obtain ⟨h1, h2⟩ := hx
    simp only [feederLine, List.mem_cons, List.not_mem_nil, or_false] at h1
    exact h1.resolve_right h2

end Ditto.TrafoFix
