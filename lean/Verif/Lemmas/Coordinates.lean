import Verif.Spec.Coordinates
import Verif.Lemmas.Graph
import Mathlib.Algebra.BigOperators.Group.List.Basic
import Mathlib.Algebra.Order.Field.Rat
import Mathlib.Data.List.Forall2
import Mathlib.Tactic.Ring

/-! Invariants of `set_missing_coords_recur`. -/
namespace Ditto.Net
open Ditto

/-- the object after filling -/
def place (F : String → Option (ℚ × ℚ)) (o : CoordObj) : CoordObj :=
  match o.name.bind F with
  | none => o
  | some p => { o with hasPositions := true, positions := some [(some p.1, some p.2)] }

theorem place_name (F : String → Option (ℚ × ℚ)) (o : CoordObj) : (place F o).name = o.name := by
  unfold place; split <;> rfl

theorem place_none {F : String → Option (ℚ × ℚ)} {o : CoordObj} {x : String} (hn : o.name = some x) (hF : F x = none) :
    place F o = o := by
  unfold place; simp [hn, hF]

theorem place_some {F : String → Option (ℚ × ℚ)} {o : CoordObj} {x : String} {p : ℚ × ℚ} (hn : o.name = some x)
    (hF : F x = some p) : place F o = { o with hasPositions := true, positions := some [(some p.1, some p.2)] } := by
  unfold place; simp [hn, hF]

theorem unset_iff {g : Graph} {objs : List CoordObj} (h : Placed g objs) {o : CoordObj} (ho : o ∈ objs)
    (hp : o.hasPositions = true) : o.unset = false ↔ ∃ p, o.LocatedAt p := by
  unfold CoordObj.unset CoordObj.LocatedAt
  cases hps : o.positions with
  | none => simp
  | some ps =>
    cases ps with
    | nil => simp
    | cons p ps =>
      obtain ⟨h1, h2⟩ := h.numbers o ho _ p hps (by simp)
      obtain ⟨a, ha⟩ := Option.ne_none_iff_exists'.1 h1
      obtain ⟨b, hb⟩ := Option.ne_none_iff_exists'.1 h2
      obtain ⟨p1, p2⟩ := p
      simp only at ha hb
      subst ha hb
      simp [hp]

theorem inj_name {objs : List CoordObj} (h : (objs.filterMap (·.name)).Nodup) {o o' : CoordObj} (ho : o ∈ objs) (ho' : o' ∈ objs)
    {x : String} (hn : o.name = some x) (hn' : o'.name = some x) : o = o' := by
  induction objs with
  | nil => simp at ho
  | cons a objs ih =>
    rw [List.filterMap_cons] at h
    rcases List.mem_cons.1 ho with h1 | h1 <;> rcases List.mem_cons.1 ho' with h2 | h2
    · rw [h1, h2]
    · subst h1
      rw [hn] at h
      simp only [List.nodup_cons] at h
      exact absurd (List.mem_filterMap.2 ⟨o', h2, hn'⟩) h.1
    · subst h2
      rw [hn'] at h
      simp only [List.nodup_cons] at h
      exact absurd (List.mem_filterMap.2 ⟨o, h1, hn⟩) h.1
    · refine ih ?_ h1 h2
      split at h
      · exact h
      · exact (List.nodup_cons.1 h).2

theorem coordNamed_place {objs : List CoordObj} (h : (objs.filterMap (·.name)).Nodup) (F : String → Option (ℚ × ℚ)) {o : CoordObj}
    (ho : o ∈ objs) {x : String} (hn : o.name = some x) : coordNamed (objs.map (place F)) x = .ok (place F o) := by
  have hne : (objs.map (place F)).filter (fun o => o.name = some x) ≠ [] := by
    refine List.ne_nil_of_mem (List.mem_filter.2 ⟨List.mem_map_of_mem ho, ?_⟩)
    simp [place_name, hn]
  unfold coordNamed
  obtain ⟨y, hy⟩ := Option.isSome_iff_exists.1 (List.getLast?_isSome.2 hne)
  rw [hy]
  have hm := List.mem_of_getLast? hy
  rw [List.mem_filter] at hm
  obtain ⟨o', ho', rfl⟩ := List.mem_map.1 hm.1
  have : o'.name = some x := by simpa [place_name] using hm.2
  rw [inj_name h ho' ho this hn]

theorem setPosition_place {objs : List CoordObj} (h : (objs.filterMap (·.name)).Nodup) (F : String → Option (ℚ × ℚ)) (x : String)
    (p : ℚ × ℚ) : setPosition x p (objs.map (place F)) = objs.map (place fun y => if y = x then some p else F y) := by
  have hkeep : ∀ o : CoordObj, o.name ≠ some x → place F o = place (fun y => if y = x then some p else F y) o := by
    intro o ho
    unfold place
    cases hn : o.name with
    | none => rfl
    | some y =>
      have : y ≠ x := by rintro rfl; exact ho hn
      simp [this]
  have hset : ∀ o : CoordObj, o.name = some x →
      { place F o with hasPositions := true, positions := some [(some p.1, some p.2)] } =
        place (fun y => if y = x then some p else F y) o := by
    intro o ho
    rw [place_some (F := fun y => if y = x then some p else F y) (p := p) ho (by simp)]
    unfold place
    split <;> rfl
  induction objs with
  | nil => rfl
  | cons o objs ih =>
    rw [List.filterMap_cons] at h
    have hsub : (objs.filterMap (·.name)).Nodup := by
      split at h
      · exact h
      · exact (List.nodup_cons.1 h).2
    rw [List.map_cons, List.map_cons]
    unfold setPosition
    split
    · rename_i hany
      rw [List.any_eq_true] at hany
      obtain ⟨o1, ho1, hc⟩ := hany
      obtain ⟨o', ho', rfl⟩ := List.mem_map.1 ho1
      have hn' : o'.name = some x := by simpa [place_name] using hc
      have hne : o.name ≠ some x := by
        intro hn
        rw [hn] at h
        simp only [List.nodup_cons] at h
        exact h.1 (List.mem_filterMap.2 ⟨o', ho', hn'⟩)
      rw [ih hsub, hkeep o hne]
    · rename_i hany
      have hno : ∀ o' ∈ objs, o'.name ≠ some x := by
        intro o' ho' hn
        exact hany (List.any_eq_true.2 ⟨place F o', List.mem_map_of_mem ho', by simp [place_name, hn]⟩)
      have hrest : objs.map (place F) = objs.map (place fun y => if y = x then some p else F y) :=
        List.map_congr_left fun o' ho' => hkeep o' (hno o' ho')
      rw [hrest]
      by_cases hn : o.name = some x
      · rw [if_pos (by rw [place_name]; exact hn), hset o hn]
      · rw [if_neg (by rw [place_name]; exact hn), hkeep o hn]

/-! ### The invariant -/

/-- preserved by averages -/
def Convex (Good : ℚ × ℚ → Prop) : Prop := ∀ p ps, IsAverage p ps → (∀ q ∈ ps, Good q) → Good p

/-- `F` are the nodes filled so far, `is` those still to be filled -/
structure Filled (g : Graph) (objs : List CoordObj) (F : String → Option (ℚ × ℚ)) (is : List String) : Prop where
  done : ∀ x p, F x = some p → x ∈ recurNodes g objs ∧ x ∉ is
  pending : ∀ x, x ∈ is ↔ x ∈ recurNodes g objs ∧ F x = none
  nodup : is.Nodup
  average : ∀ x p, F x = some p → ∃ S ps, S.Sublist (g.neighbors x) ∧ (∀ y ∈ g.neighbors x, (∃ q, At objs y q) → y ∈ S) ∧
    List.Forall₂ (At (objs.map (place F))) S ps ∧ IsAverage p ps
  convex : ∀ Good, Convex Good → (∀ y q, At objs y q → Good q) → ∀ x p, F x = some p → Good p

theorem mem_recurNodes {g : Graph} {objs : List CoordObj} {x : String} :
    x ∈ recurNodes g objs ↔ ∃ o ∈ objs, o.name = some x ∧ x ∈ g.nodes ∧ o.hasPositions = true ∧ o.unset = true := by
  unfold recurNodes
  rw [List.mem_filterMap]
  constructor
  · rintro ⟨o, ho, h⟩
    split at h
    · rename_i hc
      rw [Bool.and_eq_true] at hc
      rw [Option.filter_eq_some_iff] at h
      exact ⟨o, ho, h.1, by simpa using h.2, hc⟩
    · simp at h
  · rintro ⟨o, ho, h1, h2, h3, h4⟩
    exact ⟨o, ho, by rw [if_pos (by simp [h3, h4]), h1, Option.filter_some, if_pos (by simpa using h2)]⟩

theorem recurNodes_nodup {g : Graph} {objs : List CoordObj} (h : (objs.filterMap (·.name)).Nodup) : (recurNodes g objs).Nodup := by
  refine List.Nodup.sublist ?_ h
  unfold recurNodes
  clear h
  induction objs with
  | nil => exact .slnil
  | cons o objs ih =>
    rw [List.filterMap_cons, List.filterMap_cons]
    cases hn : o.name with
    | none => simpa using ih
    | some x =>
      by_cases hc : o.hasPositions && o.unset
      · rw [if_pos hc, Option.filter_some]
        by_cases hx : x ∈ g.nodes
        · simp only [hx, decide_true, if_true]; exact ih.cons_cons x
        · simp only [hx, decide_false]; exact ih.cons x
      · rw [if_neg hc]; exact ih.cons x

/-- a node still to be filled is not located -/
theorem not_at_pending {g : Graph} {objs : List CoordObj} (h : Placed g objs) {F : String → Option (ℚ × ℚ)} {is : List String}
    (hF : Filled g objs F is) {x : String} (hx : x ∈ is) (q : ℚ × ℚ) : ¬ At (objs.map (place F)) x q := by
  rintro ⟨o1, ho1, hn, hl⟩
  obtain ⟨o, ho, rfl⟩ := List.mem_map.1 ho1
  rw [place_name] at hn
  obtain ⟨hr, hnone⟩ := (hF.pending x).1 hx
  rw [place_none hn hnone] at hl
  obtain ⟨o', ho', hn', _, hp, hu⟩ := mem_recurNodes.1 hr
  obtain rfl := inj_name h.names ho' ho hn' hn
  have := (unset_iff h ho' hp).2 ⟨q, hl⟩
  rw [hu] at this
  simp at this

theorem at_mono {g : Graph} {objs : List CoordObj} (h : Placed g objs) {F : String → Option (ℚ × ℚ)} {is : List String}
    (hF : Filled g objs F is) {i : String} (hi : i ∈ is) (p : ℚ × ℚ) {x : String} {q : ℚ × ℚ}
    (hat : At (objs.map (place F)) x q) : At (objs.map (place fun y => if y = i then some p else F y)) x q := by
  have hne : x ≠ i := by rintro rfl; exact not_at_pending h hF hi q hat
  obtain ⟨o1, ho1, hn, hl⟩ := hat
  obtain ⟨o, ho, rfl⟩ := List.mem_map.1 ho1
  refine ⟨place _ o, List.mem_map_of_mem ho, by rw [place_name]; rwa [place_name] at hn, ?_⟩
  rw [place_name] at hn
  have : place (fun y => if y = i then some p else F y) o = place F o := by
    unfold place
    simp [hn, hne]
  rw [this]
  exact hl

/-- initially located nodes stay -/
theorem at_initial {g : Graph} {objs : List CoordObj} (h : Placed g objs) {F : String → Option (ℚ × ℚ)} {is : List String}
    (hF : Filled g objs F is) {x : String} {q : ℚ × ℚ} (hat : At objs x q) : At (objs.map (place F)) x q := by
  obtain ⟨o, ho, hn, hl⟩ := hat
  refine ⟨place F o, List.mem_map_of_mem ho, by rw [place_name]; exact hn, ?_⟩
  cases hx : F x with
  | none => rw [place_none hn hx]; exact hl
  | some p =>
    exfalso
    obtain ⟨o', ho', hn', _, hp, hu⟩ := mem_recurNodes.1 (hF.done x p hx).1
    obtain rfl := inj_name h.names ho' ho hn' hn
    have := (unset_iff h ho' hp).2 ⟨q, hl⟩
    rw [hu] at this
    simp at this

/-! ### One node -/

theorem placed_map {g : Graph} {objs : List CoordObj} (h : Placed g objs) (F : String → Option (ℚ × ℚ)) :
    Placed g (objs.map (place F)) where
  names := by
    rw [List.filterMap_map]
    have : (CoordObj.name ∘ place F) = CoordObj.name := by funext o; exact place_name F o
    rw [this]; exact h.names
  nodes := by
    intro x hx
    obtain ⟨o, ho, hn, hp⟩ := h.nodes x hx
    refine ⟨place F o, List.mem_map_of_mem ho, by rw [place_name]; exact hn, ?_⟩
    unfold place; split
    · exact hp
    · rfl
  numbers := by
    intro o1 ho1 ps p hps hm
    obtain ⟨o, ho, rfl⟩ := List.mem_map.1 ho1
    unfold place at hps
    split at hps
    · exact h.numbers o ho ps p hps hm
    · simp only [Option.some.injEq] at hps
      subst hps
      obtain rfl : p = _ := by simpa using hm
      simp

/-- the positions collected from the neighbours -/
theorem adjPositions_eq {g : Graph} {objs : List CoordObj} (h : Placed g objs) (F : String → Option (ℚ × ℚ)) (js : List String)
    (hjs : ∀ j ∈ js, ∃ y, g.Adj j y) : ∃ S ps, S.Sublist js ∧
      adjPositions (objs.map (place F)) js = .ok (ps.map fun p : ℚ × ℚ => (some p.1, some p.2)) ∧
      (∀ y ∈ js, (∃ q, At (objs.map (place F)) y q) → y ∈ S) ∧ List.Forall₂ (At (objs.map (place F))) S ps := by
  induction js with
  | nil => exact ⟨[], [], .slnil, rfl, by simp, .nil⟩
  | cons j js ih =>
    obtain ⟨S, ps, h1, h2, h3, h4⟩ := ih fun x hx => hjs x (by simp [hx])
    obtain ⟨o, ho, hn, hp⟩ := h.nodes j (hjs j (by simp))
    have hP := placed_map h F
    have hm : place F o ∈ objs.map (place F) := List.mem_map_of_mem ho
    have hn' : (place F o).name = some j := by rw [place_name]; exact hn
    have hp' : (place F o).hasPositions = true := by unfold place; split <;> simp [hp]
    unfold adjPositions
    rw [coordNamed_place h.names F ho hn, h2]
    simp only
    cases hu : (place F o).unset with
    | false =>
      obtain ⟨p, hl⟩ := (unset_iff hP hm hp').1 hu
      obtain ⟨_, rest, hps, _⟩ := id hl
      refine ⟨j :: S, p :: ps, h1.cons_cons j, ?_, ?_, .cons ⟨_, hm, hn', hl⟩ h4⟩
      · simp [hps, hp']
      · intro y hy hat
        rcases List.mem_cons.1 hy with rfl | hy
        · simp
        · exact List.mem_cons_of_mem _ (h3 y hy hat)
    | true =>
      refine ⟨S, ps, h1.cons j, ?_, ?_, h4⟩
      · split
        · simp
        · rfl
      · intro y hy hat
        rcases List.mem_cons.1 hy with rfl | hy
        · exfalso
          obtain ⟨q, o1, ho1, hn1, hl1⟩ := hat
          obtain rfl := inj_name hP.names ho1 hm hn1 hn'
          have := (unset_iff hP hm hp').2 ⟨q, hl1⟩
          rw [hu] at this
          simp at this
        · exact h3 y hy hat

theorem sumPositions_eq (ps : List (ℚ × ℚ)) (t : ℚ × ℚ) : sumPositions (ps.map fun p => (some p.1, some p.2)) t =
    .ok (t.1 + (ps.map (·.1)).sum, t.2 + (ps.map (·.2)).sum) := by
  induction ps generalizing t with
  | nil => simp [sumPositions]
  | cons p ps ih =>
    rw [List.map_cons, sumPositions, ih]
    simp [add_assoc]

/-- filling one node -/
theorem fillNode_spec {g : Graph} {objs : List CoordObj} (h : Placed g objs) {F : String → Option (ℚ × ℚ)} {i : String}
    {is is' : List String} (hF : Filled g objs F is) (hi : i ∈ is) (his : ∀ x, x ∈ is' ↔ x ∈ is ∧ x ≠ i) (hnd : is'.Nodup) :
    (fillNode g (objs.map (place F)) i = .ok none ∧ ∀ y ∈ g.neighbors i, ¬ ∃ q, At (objs.map (place F)) y q) ∨
    ∃ F', fillNode g (objs.map (place F)) i = .ok (some (objs.map (place F'))) ∧ Filled g objs F' is' := by
  have hsymm : ∀ j ∈ g.neighbors i, ∃ y, g.Adj j y := fun j hj => ⟨i, (mem_neighbors.1 hj).symm⟩
  obtain ⟨S, ps, h1, h2, h3, h4⟩ := adjPositions_eq h F (g.neighbors i) hsymm
  unfold fillNode
  rw [h2]
  cases ps with
  | nil =>
    left
    refine ⟨rfl, ?_⟩
    intro y hy hat
    cases h4
    simpa using h3 y hy hat
  | cons p ps =>
    right
    have hs := sumPositions_eq (p :: ps) (0, 0)
    rw [List.map_cons] at hs ⊢
    simp only [hs, zero_add, List.length_map]
    refine ⟨_, congrArg (fun x => Except.ok (some x)) (setPosition_place h.names F i _), ?_⟩
    have havg : IsAverage (((p :: ps).map (·.1)).sum / (ps.length + 1), ((p :: ps).map (·.2)).sum / (ps.length + 1)) (p :: ps) :=
      ⟨by simp, by simp, by simp⟩
    obtain ⟨hri, hni⟩ := (hF.pending i).1 hi
    refine ⟨?_, ?_, hnd, ?_, ?_⟩
    · intro x q hx
      by_cases hxi : x = i
      · subst hxi
        exact ⟨hri, fun hc => ((his x).1 hc).2 rfl⟩
      · simp only [hxi, if_false] at hx
        exact ⟨(hF.done x q hx).1, fun hc => (hF.done x q hx).2 ((his x).1 hc).1⟩
    · intro x
      rw [his, hF.pending]
      by_cases hxi : x = i
      · simp [hxi]
      · simp [hxi]
    · intro x q hx
      have hat : ∀ {S : List String} {ps : List (ℚ × ℚ)}, List.Forall₂ (At (objs.map (place F))) S ps →
          List.Forall₂ (At (objs.map (place fun y => if y = i then some
            (((p :: ps).map (·.1)).sum / (ps.length + 1), ((p :: ps).map (·.2)).sum / (ps.length + 1)) else F y))) S ps :=
        fun hf => hf.imp fun _ _ ha => at_mono h hF hi _ ha
      by_cases hxi : x = i
      · subst hxi
        simp only [if_true, Option.some.injEq] at hx
        subst hx
        refine ⟨S, p :: ps, h1, ?_, h4.imp fun _ _ ha => at_mono h hF hi _ ha, havg⟩
        intro y hy hq
        exact h3 y hy (hq.imp fun q hq => at_initial h hF hq)
      · simp only [hxi, if_false] at hx
        obtain ⟨S', ps', a1, a2, a3, a4⟩ := hF.average x q hx
        exact ⟨S', ps', a1, a2, a3.imp fun _ _ ha => at_mono h hF hi _ ha, a4⟩
    · intro Good hG h0 x q hx
      by_cases hxi : x = i
      · simp only [hxi, if_true, Option.some.injEq] at hx
        subst hx
        refine hG _ _ havg ?_
        intro r hr
        have : ∃ y, At (objs.map (place F)) y r := by
          have hz := List.forall₂_iff_zip.1 h4
          obtain ⟨n, hn, rfl⟩ := List.getElem_of_mem hr
          have hn' : n < S.length := by rw [hz.1]; exact hn
          exact ⟨S[n], h4.get hn' hn⟩
        obtain ⟨y, o1, ho1, hn1, hl1⟩ := this
        obtain ⟨o, ho, rfl⟩ := List.mem_map.1 ho1
        rw [place_name] at hn1
        cases hFy : F y with
        | none => rw [place_none hn1 hFy] at hl1; exact h0 y r ⟨o, ho, hn1, hl1⟩
        | some q =>
          rw [place_some hn1 hFy] at hl1
          obtain ⟨_, rest, hps, _⟩ := hl1
          simp only [Option.some.injEq, List.cons.injEq, Prod.mk.injEq] at hps
          have hqr : q = r := Prod.ext hps.1.1 hps.1.2
          subst hqr
          exact hF.convex Good hG h0 y q hFy
      · simp only [hxi, if_false] at hx
        exact hF.convex Good hG h0 x q hx

/-! ### Rounds -/

theorem fillRound_spec {g : Graph} {objs : List CoordObj} (h : Placed g objs) (is : List String) :
    ∀ (acc : List String) (F : String → Option (ℚ × ℚ)), Filled g objs F (acc ++ is) →
      ∃ F' next, fillRound g is (objs.map (place F)) = .ok (objs.map (place F'), next) ∧ Filled g objs F' (acc ++ next) ∧
        next.Sublist is ∧ (next = is → F' = F ∧ ∀ i ∈ is, ∀ y ∈ g.neighbors i, ¬ ∃ q, At (objs.map (place F)) y q) := by
  induction is with
  | nil => intro acc F hF; exact ⟨F, [], rfl, hF, .slnil, fun _ => ⟨rfl, by simp⟩⟩
  | cons i is ih =>
    intro acc F hF
    unfold fillRound
    have hnd := hF.nodup
    rw [List.nodup_append, List.nodup_cons] at hnd
    have hmem : ∀ x, x ∈ acc ++ is ↔ x ∈ acc ++ i :: is ∧ x ≠ i := by
      intro x
      simp only [List.mem_append, List.mem_cons]
      constructor
      · rintro (hx | hx)
        · exact ⟨.inl hx, fun hc => hnd.2.2 x hx i (by simp) hc⟩
        · exact ⟨.inr (.inr hx), fun hc => hnd.2.1.1 (hc ▸ hx)⟩
      · rintro ⟨hx | rfl | hx, hne⟩
        · exact .inl hx
        · exact absurd rfl hne
        · exact .inr hx
    have hnd' : (acc ++ is).Nodup := by
      rw [List.nodup_append]
      exact ⟨hnd.1, hnd.2.1.2, fun a ha b hb => hnd.2.2 a ha b (by simp [hb])⟩
    rcases fillNode_spec h hF (i := i) (is' := acc ++ is) (by simp) hmem hnd' with ⟨h1, h2⟩ | ⟨F1, h1, h2⟩
    · rw [h1]
      simp only
      obtain ⟨F', next, g1, g2, g3, g4⟩ := ih (acc ++ [i]) F (by simpa using hF)
      rw [g1]
      simp only
      refine ⟨F', i :: next, rfl, by simpa using g2, g3.cons_cons i, ?_⟩
      intro heq
      rw [List.cons.injEq] at heq
      obtain ⟨e1, e2⟩ := g4 heq.2
      refine ⟨e1, fun x hx => ?_⟩
      rcases List.mem_cons.1 hx with rfl | hx
      · exact h2
      · exact e2 x hx
    · rw [h1]
      simp only
      obtain ⟨F', next, g1, g2, g3, g4⟩ := ih acc F1 h2
      refine ⟨F', next, g1, g2, g3.cons i, ?_⟩
      intro heq
      have := g3.length_le
      rw [heq] at this
      simp at this

theorem fillLoop_spec {g : Graph} {objs : List CoordObj} (h : Placed g objs) (n : Nat) :
    ∀ (is : List String) (F : String → Option (ℚ × ℚ)), Filled g objs F is → is.length < n →
      ∃ F' is', fillLoop g n is (objs.map (place F)) = some (.ok (objs.map (place F'))) ∧ Filled g objs F' is' ∧
        ∀ i ∈ is', ∀ y ∈ g.neighbors i, ¬ ∃ q, At (objs.map (place F')) y q := by
  induction n with
  | zero => intro is F _ hlt; omega
  | succ n ih =>
    intro is F hF hlt
    unfold fillLoop
    split
    · rename_i hnil
      subst hnil
      exact ⟨F, [], rfl, hF, by simp⟩
    · obtain ⟨F', next, g1, g2, g3, g4⟩ := fillRound_spec h is [] F (by simpa using hF)
      rw [g1]
      simp only
      rw [List.nil_append] at g2
      split
      · rename_i hlen
        have heq := g3.eq_of_length hlen
        obtain ⟨rfl, e2⟩ := g4 heq
        exact ⟨F', next, rfl, g2, heq ▸ e2⟩
      · rename_i hlen
        have := g3.length_le
        exact ih next F' g2 (by omega)

/-- the number of rounds does not matter if it is larger than the number of nodes -/
theorem fillRound_sublist {g : Graph} (is : List String) : ∀ (objs objs' : List CoordObj) (next : List String),
    fillRound g is objs = .ok (objs', next) → next.Sublist is := by
  induction is with
  | nil => intro objs objs' next h; simp only [fillRound, Except.ok.injEq, Prod.mk.injEq] at h; rw [← h.2]
  | cons i is ih =>
    intro objs objs' next h
    unfold fillRound at h
    split at h
    · simp at h
    · split at h
      · simp at h
      · rename_i hr
        simp only [Except.ok.injEq, Prod.mk.injEq] at h
        rw [← h.2]
        exact (ih _ _ _ hr).cons_cons i
    · exact (ih _ _ _ h).cons i

theorem fillLoop_terminates (g : Graph) (n : Nat) : ∀ (is : List String) (objs : List CoordObj), is.length < n →
    ∃ r, ∀ m, is.length < m → fillLoop g m is objs = some r := by
  induction n with
  | zero => intro is _ h; omega
  | succ n ih =>
    intro is objs hlt
    by_cases hnil : is = []
    · refine ⟨.ok objs, fun m hm => ?_⟩
      obtain ⟨m, rfl⟩ := Nat.exists_eq_succ_of_ne_zero (by omega : m ≠ 0)
      rw [fillLoop, if_pos hnil]
    · cases hr : fillRound g is objs with
      | error e =>
        refine ⟨.error e, fun m hm => ?_⟩
        obtain ⟨m, rfl⟩ := Nat.exists_eq_succ_of_ne_zero (by omega : m ≠ 0)
        rw [fillLoop, if_neg hnil, hr]
      | ok x =>
        obtain ⟨objs', next⟩ := x
        have hs := (fillRound_sublist is _ _ _ hr).length_le
        by_cases hlen : next.length = is.length
        · refine ⟨.ok objs', fun m hm => ?_⟩
          obtain ⟨m, rfl⟩ := Nat.exists_eq_succ_of_ne_zero (by omega : m ≠ 0)
          rw [fillLoop, if_neg hnil, hr]
          simp [hlen]
        · obtain ⟨r, hr'⟩ := ih next objs' (by omega)
          refine ⟨r, fun m hm => ?_⟩
          obtain ⟨m, rfl⟩ := Nat.exists_eq_succ_of_ne_zero (by omega : m ≠ 0)
          rw [fillLoop, if_neg hnil, hr]
          simp only [if_neg hlen]
          exact hr' m (by omega)

end Ditto.Net
