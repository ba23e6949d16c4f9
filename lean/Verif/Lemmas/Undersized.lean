import Verif.Lemmas.Along
import Verif.Lemmas.ShortestPaths
import Mathlib.Algebra.Order.Field.Rat
import Mathlib.Tactic.Ring

/-! `fix_undersized_transformers`: the map of loads and the resizing. -/
namespace Ditto.Net
open Ditto Ditto.Search Ditto.Spec

/-! ### Grouping the loads by transformer -/

/-- `m` groups the pairs by their first component -/
structure Grouped (ps : List (Option String × Option String)) (m : LoadMap) : Prop where
  keys : (m.map (·.1)).Nodup
  value : ∀ e ∈ m, e.2 = (ps.filter fun p => p.1 = e.1).map (·.2)
  key : ∀ k, k ∈ m.map (·.1) ↔ ∃ p ∈ ps, p.1 = k

theorem grouped_append {ps : List (Option String × Option String)} {m : LoadMap} (h : Grouped ps m) (t l : Option String) :
    Grouped (ps ++ [(t, l)]) (appendLoad m t l) := by
  unfold appendLoad
  by_cases ht : m.any (fun p => p.1 = t)
  · rw [if_pos ht]
    have hk : (m.map fun p => if p.1 = t then (p.1, p.2 ++ [l]) else p).map (·.1) = m.map (·.1) := by
      rw [List.map_map]
      apply List.map_congr_left
      intro p _
      simp only [Function.comp]
      split <;> rfl
    refine ⟨by rw [hk]; exact h.keys, ?_, ?_⟩
    · intro e he
      obtain ⟨e0, he0, rfl⟩ := List.mem_map.1 he
      have hv := h.value e0 he0
      rw [List.filter_append, List.map_append]
      by_cases hc : e0.1 = t
      · rw [if_pos hc]
        simp only [List.filter_cons, hc, decide_true, if_true, List.filter_nil, List.map_cons, List.map_nil]
        rw [hv, hc]
      · rw [if_neg hc]
        have : ¬ t = e0.1 := fun h => hc h.symm
        simp [this, hv]
    · intro k
      rw [hk, h.key]
      constructor
      · rintro ⟨p, hp, rfl⟩; exact ⟨p, by simp [hp], rfl⟩
      · rintro ⟨p, hp, rfl⟩
        rcases List.mem_append.1 hp with hp | hp
        · exact ⟨p, hp, rfl⟩
        · obtain rfl : p = (t, l) := by simpa using hp
          rw [← h.key]
          rw [List.any_eq_true] at ht
          obtain ⟨e, he, hc⟩ := ht
          exact List.mem_map.2 ⟨e, he, by simpa using hc⟩
  · rw [if_neg ht]
    have hnk : t ∉ m.map (·.1) := by
      intro hc
      obtain ⟨e, he, hc⟩ := List.mem_map.1 hc
      exact ht (List.any_eq_true.2 ⟨e, he, by simpa using hc⟩)
    refine ⟨?_, ?_, ?_⟩
    · rw [List.map_append, List.nodup_append]
      refine ⟨h.keys, by simp, ?_⟩
      intro a ha b hb hab
      simp only [List.map_cons, List.map_nil, List.mem_singleton] at hb
      subst hab hb
      exact hnk ha
    · intro e he
      rw [List.filter_append, List.map_append]
      rcases List.mem_append.1 he with he | he
      · have : ¬ t = e.1 := fun hc => hnk (hc ▸ List.mem_map_of_mem he)
        simp [this, h.value e he]
      · obtain rfl : e = (t, [l]) := by simpa using he
        have : ps.filter (fun p => p.1 = t) = [] := by
          rw [List.filter_eq_nil_iff]
          intro p hp hc
          exact hnk ((h.key t).2 ⟨p, hp, by simpa using hc⟩)
        simp [this]
    · intro k
      rw [List.map_append, List.mem_append, h.key]
      constructor
      · rintro (⟨p, hp, rfl⟩ | hk)
        · exact ⟨p, by simp [hp], rfl⟩
        · exact ⟨(t, l), by simp, by simpa [eq_comm] using hk⟩
      · rintro ⟨p, hp, rfl⟩
        rcases List.mem_append.1 hp with hp | hp
        · exact .inl ⟨p, hp, rfl⟩
        · obtain rfl : p = (t, l) := by simpa using hp
          right; simp

/-- the loop over the loads, if each load adds at most one pair -/
theorem mapLoad_fold {devs : List Dev} {d : List Edge} {g : Graph} {paths : List (String × List String)}
    (f : Dev → Option (Option String)) (ls : List Dev)
    (hf : ∀ l ∈ ls, ∀ m, mapLoad devs d g paths m l = .ok (match f l with | some t => appendLoad m t l.net.name | none => m))
    (ps : List (Option String × Option String)) (m : LoadMap) (h : Grouped ps m) :
    ∃ m', ls.foldlM (mapLoad devs d g paths) m = .ok m' ∧
      Grouped (ps ++ ls.filterMap fun l => (f l).map fun t => (t, l.net.name)) m' := by
  induction ls generalizing ps m with
  | nil => exact ⟨m, rfl, by simpa using h⟩
  | cons l ls ih =>
    rw [List.foldlM_cons, hf l (by simp), List.filterMap_cons]
    cases hl : f l with
    | none =>
      simp only [Option.map_none]
      exact ih (fun x hx => hf x (by simp [hx])) ps m h
    | some t =>
      simp only [Option.map_some]
      obtain ⟨m', h1, h2⟩ := ih (fun x hx => hf x (by simp [hx])) _ _ (grouped_append h t l.net.name)
      exact ⟨m', h1, by simpa using h2⟩

/-! ### Windings -/

theorem catalogue_sorted : catalogue.Pairwise (· < ·) := by decide +kernel

theorem resize_resized {ws ws' : List Winding} {total : ℚ} (h : resize ws total = .ok ws') : Resized total ws ws' := by
  unfold resize at h
  split at h
  · simp at h
  · rename_i w0 rest
    split at h
    · simp at h
    · rename_i r hr
      split at h
      · rename_i hlt
        split at h
        · rename_i sz hsz
          simp only [Except.ok.injEq] at h
          refine ⟨w0, rest, r, rfl, hr, .inr ⟨hlt, sz, List.mem_of_find?_eq_some hsz, ?_, ?_, h.symm⟩⟩
          · have := List.find?_some hsz
            simpa using this
          · intro sz' hs' hlt'
            obtain ⟨_, pre, post, heq, hpre⟩ := List.find?_eq_some_iff_append.1 hsz
            have hsorted := catalogue_sorted
            rw [heq] at hs' hsorted
            rcases List.mem_append.1 hs' with hm | hm
            · have := hpre sz' hm
              simp only [gt_iff_lt, Bool.not_eq_eq_eq_not, Bool.not_true, decide_eq_false_iff_not] at this
              exact absurd hlt' this
            · rcases List.mem_cons.1 hm with rfl | hm
              · exact le_refl _
              · rw [List.pairwise_append, List.pairwise_cons] at hsorted
                exact (hsorted.2.1.1 sz' hm).le
        · rename_i hno
          simp only [Except.ok.injEq] at h
          refine ⟨w0, rest, r, rfl, hr, .inl ⟨.inr ?_, h.symm⟩⟩
          intro sz hsz
          rw [List.find?_eq_none] at hno
          simpa using hno sz hsz
      · rename_i hge
        simp only [Except.ok.injEq] at h
        exact ⟨w0, rest, r, rfl, hr, .inl ⟨.inl (not_lt.1 hge), h.symm⟩⟩

theorem resize_ok {ws : List Winding} {w0 : Winding} {rest : List Winding} {r : ℚ} (h : ws = w0 :: rest)
    (hr : w0.rated = some r) (total : ℚ) : ∃ ws', resize ws total = .ok ws' := by
  subst h
  unfold resize
  simp only [hr]
  split
  · split <;> exact ⟨_, rfl⟩
  · exact ⟨_, rfl⟩

/-- what a step may do to an object -/
def Relabelled (k : Option String) (ws : List Winding) (d d' : Dev) : Prop :=
  d' = d ∨ d.net.name = k ∧ d' = { d with windings := ws }

theorem setWindings_rel (k : Option String) (ws : List Winding) (devs : List Dev) :
    List.Forall₂ (Relabelled k ws) devs (setWindings k ws devs) := by
  have hrefl : ∀ l : List Dev, List.Forall₂ (Relabelled k ws) l l := fun l => List.forall₂_same.2 fun _ _ => .inl rfl
  induction devs with
  | nil => exact .nil
  | cons d devs ih =>
    unfold setWindings
    split
    · exact .cons (.inl rfl) ih
    · split
      · rename_i h; exact .cons (.inr ⟨h, rfl⟩) (hrefl _)
      · exact hrefl _

theorem setWindings_nodup (k : Option String) (ws : List Winding) (devs : List Dev) (hn : (devs.map (·.net.name)).Nodup) :
    setWindings k ws devs = devs.map fun d => if d.net.name = k then { d with windings := ws } else d := by
  induction devs with
  | nil => rfl
  | cons d devs ih =>
    rw [List.map_cons, List.nodup_cons] at hn
    have hkeep : (∀ x ∈ devs, x.net.name ≠ k) →
        devs.map (fun d => if d.net.name = k then { d with windings := ws } else d) = devs := by
      intro h
      conv_rhs => rw [← List.map_id devs]
      apply List.map_congr_left
      intro x hx
      simp [h x hx]
    unfold setWindings
    split
    · rename_i h
      rw [List.any_eq_true] at h
      obtain ⟨x, hx, hc⟩ := h
      have : d.net.name ≠ k := by
        rintro rfl
        exact hn.1 (List.mem_map.2 ⟨x, hx, by simpa using hc⟩)
      rw [List.map_cons, ih hn.2]
      simp [this]
    · rename_i h
      have hno : ∀ x ∈ devs, x.net.name ≠ k := fun x hx hc => h (List.any_eq_true.2 ⟨x, hx, by simpa using hc⟩)
      rw [List.map_cons, hkeep hno]
      split
      · rfl
      · rfl

/-! ### Loads do not change -/

/-- same object up to its windings -/
def SameButWindings (d d' : Dev) : Prop := d' = { d with windings := d'.windings }

theorem devNamed_same {devs devs' : List Dev} (h : List.Forall₂ SameButWindings devs devs') (nm : Option String) :
    (devNamed devs nm).map (·.phaseLoads) = (devNamed devs' nm).map (·.phaseLoads) := by
  have hf : List.Forall₂ SameButWindings (devs.filter fun d => d.net.name = nm) (devs'.filter fun d => d.net.name = nm) := by
    induction h with
    | nil => exact .nil
    | @cons a b _ _ hab _ ih =>
      have : a.net.name = b.net.name := by rw [hab]
      simp only [List.filter_cons, this]
      split
      · exact .cons hab ih
      · exact ih
  unfold devNamed
  cases nm with
  | none => rfl
  | some x =>
    simp only
    have hr := List.rel_reverse hf
    rw [← List.head?_reverse, ← List.head?_reverse]
    generalize (devs.filter fun d => d.net.name = some x).reverse = a at hr
    generalize (devs'.filter fun d => d.net.name = some x).reverse = b at hr
    cases hr with
    | nil => rfl
    | cons hab _ => simp only [List.head?_cons, Except.map]; rw [hab]

theorem totalLoad_same {devs devs' : List Dev} (h : List.Forall₂ SameButWindings devs devs') (nms : List (Option String)) :
    totalLoad devs nms = totalLoad devs' nms := by
  induction nms with
  | nil => rfl
  | cons nm nms ih =>
    have := devNamed_same h nm
    unfold totalLoad
    rw [ih]
    cases h1 : devNamed devs nm <;> cases h2 : devNamed devs' nm <;> simp_all [Except.map]

theorem sumP_eq (ps : List (Option ℚ)) (h : ∀ x ∈ ps, x ≠ none) : sumP ps = .ok ((ps.filterMap id).sum / 1000) := by
  induction ps with
  | nil => simp [sumP]
  | cons p ps ih =>
    cases p with
    | none => exact absurd rfl (h none (by simp))
    | some p =>
      rw [sumP, ih fun x hx => h x (by simp [hx])]
      simp [add_div]

theorem totalLoad_eq {devs : List Dev} (hT : Tidy devs) (ls : List Dev) (hls : ∀ l ∈ ls, l ∈ devs)
    (hp : ∀ l ∈ ls, ∀ x ∈ l.phaseLoads, x ≠ none) :
    totalLoad devs (ls.map (·.net.name)) = .ok ((ls.map demand).sum) := by
  induction ls with
  | nil => rfl
  | cons l ls ih =>
    rw [List.map_cons, totalLoad, devNamed_of_mem hT (hls l (by simp))]
    simp only
    rw [sumP_eq _ (hp l (by simp))]
    simp only
    rw [ih (fun x hx => hls x (by simp [hx])) (fun x hx => hp x (by simp [hx]))]
    simp [demand]

/-- the loop over the transformers, for objects with different names -/
theorem resize_fold (m : LoadMap) : ∀ (devs : List Dev), (∀ d ∈ devs, d.net.name ≠ none) → (devs.map (·.net.name)).Nodup →
    (m.map (·.1)).Nodup → (total : Option String → ℚ) → (∀ e ∈ m, totalLoad devs e.2 = .ok (total e.1)) →
    (∀ e ∈ m, ∃ t ∈ devs, t.net.name = e.1 ∧ ∃ w0 rest r, t.windings = w0 :: rest ∧ w0.rated = some r) →
    ∃ devs', m.foldlM resizeStep devs = .ok devs' ∧ List.Forall₂ (fun d d' => SameButWindings d d' ∧
      (d.net.name ∈ m.map (·.1) → Resized (total d.net.name) d.windings d'.windings) ∧
      (d.net.name ∉ m.map (·.1) → d' = d)) devs devs' := by
  induction m with
  | nil =>
    intro devs _ _ _ _ _ _
    exact ⟨devs, rfl, List.forall₂_same.2 fun d _ => ⟨rfl, by simp, by simp⟩⟩
  | cons e m ih =>
    intro devs hnamed hn hm total htot hex
    obtain ⟨k, v⟩ := e
    rw [List.map_cons, List.nodup_cons] at hm
    obtain ⟨t, ht, rfl, w0, rest, r, hw, hr⟩ := hex (k, v) (by simp)
    obtain ⟨ws, hws⟩ := resize_ok hw hr (total t.net.name)
    have hd : devNamed devs t.net.name = .ok t := by
      obtain ⟨nm, hnm⟩ := Option.ne_none_iff_exists'.1 (hnamed t ht)
      have hf : devs.filter (fun x => x.net.name = some nm) = [t] := by
        have hn := hn
        obtain ⟨pre, post, rfl⟩ := List.append_of_mem ht
        rw [List.map_append, List.map_cons, List.nodup_append, List.nodup_cons] at hn
        rw [List.filter_append, List.filter_cons, List.filter_eq_nil_iff.2, List.filter_eq_nil_iff.2, if_pos]
        · rfl
        · simp [hnm]
        · intro x hx
          simp only [decide_eq_true_eq]
          intro h
          exact hn.2.1.1 (List.mem_map.2 ⟨x, hx, h.trans hnm.symm⟩)
        · intro x hx
          simp only [decide_eq_true_eq]
          intro h
          exact hn.2.2 _ (List.mem_map_of_mem hx) _ (by simp) (h.trans hnm.symm)
      unfold devNamed
      rw [hnm]
      simp only
      rw [hf]
      rfl
    have hstep : resizeStep devs (t.net.name, v) = .ok (setWindings t.net.name ws devs) := by
      unfold resizeStep
      simp only [hd]
      have h0 := htot (t.net.name, v) (by simp)
      simp only at h0
      rw [h0]
      simp only [hws]
    rw [List.foldlM_cons, hstep]
    have hset := setWindings_nodup t.net.name ws devs hn
    have hmapname : ∀ d : Dev, (if d.net.name = t.net.name then { d with windings := ws } else d).net = d.net := by
      intro d; split <;> rfl
    have hsame : List.Forall₂ SameButWindings devs (setWindings t.net.name ws devs) := by
      rw [hset, List.forall₂_map_right_iff]
      refine List.forall₂_same.2 fun d _ => ?_
      unfold SameButWindings
      split <;> rfl
    obtain ⟨devs', h1, h2⟩ := ih (setWindings t.net.name ws devs)
      (by
        rw [hset]
        intro d hd
        obtain ⟨d0, hd0, rfl⟩ := List.mem_map.1 hd
        rw [hmapname]; exact hnamed d0 hd0)
      (by
        rw [hset, List.map_map]
        have : ((fun x : Dev => x.net.name) ∘ fun d => if d.net.name = t.net.name then { d with windings := ws } else d) =
            fun x : Dev => x.net.name := by
          funext d; simp only [Function.comp, hmapname]
        rw [this]; exact hn)
      hm.2 total
      (fun e he => by rw [← totalLoad_same hsame]; exact htot e (by simp [he]))
      (fun e he => by
        obtain ⟨t', ht', hname, w0', rest', r', hw', hr'⟩ := hex e (by simp [he])
        have hne : t'.net.name ≠ t.net.name := by
          intro hc
          exact hm.1 (List.mem_map.2 ⟨e, he, by rw [← hname, hc]⟩)
        refine ⟨t', ?_, hname, w0', rest', r', hw', hr'⟩
        rw [hset]
        exact List.mem_map.2 ⟨t', ht', by simp [hne]⟩)
    refine ⟨devs', h1, ?_⟩
    rw [hset, List.forall₂_map_left_iff] at h2
    have hmem : List.Forall₂ (fun d _ => d ∈ devs) devs devs' :=
      List.forall₂_iff_zip.2 ⟨h2.length_eq, fun h => (List.of_mem_zip h).1⟩
    have h3 := List.forall₂_iff_zip.1 h2
    refine List.forall₂_iff_zip.2 ⟨h3.1, fun {d d'} hz => ?_⟩
    obtain ⟨g1, g2, g3⟩ := h3.2 hz
    have hdm : d ∈ devs := (List.of_mem_zip hz).1
    simp only [hmapname] at g2 g3
    by_cases hc : d.net.name = t.net.name
    · have hdt : d = t := List.inj_on_of_nodup_map hn hdm ht hc
      subst hdt
      simp only [if_true] at g1 g3
      have hd' := g3 hm.1
      subst hd'
      refine ⟨rfl, fun _ => resize_resized hws, fun h => absurd ?_ h⟩
      simp
    · simp only [hc, if_false] at g1 g2 g3
      refine ⟨g1, fun h => g2 ?_, fun h => g3 ?_⟩
      · rw [List.map_cons, List.mem_cons] at h
        exact h.resolve_left hc
      · intro h'
        exact h (by rw [List.map_cons]; exact List.mem_cons_of_mem _ h')

end Ditto.Net
