import Verif.Spec.FeederMetrics
import Verif.Lemmas.CountMetrics

namespace Ditto.Metrics
open Ditto

theorem mvFeeders_spec (subs : String → Option (Option String)) (ks : List String) :
    mvFeeders subs ks = if ∃ k ∈ ks, subs k = none then .error .keyError else .ok (withSubstation subs ks) := by
  induction ks with
  | nil => simp [mvFeeders, withSubstation]
  | cons k ks ih =>
    unfold mvFeeders
    cases hk : subs k with
    | none => rw [if_pos ⟨k, List.mem_cons_self, hk⟩]
    | some s =>
      simp only []
      rw [ih]
      by_cases h : ∃ k ∈ ks, subs k = none
      · rw [if_pos h, if_pos]
        obtain ⟨x, hx, hs⟩ := h
        exact ⟨x, List.mem_cons_of_mem _ hx, hs⟩
      · rw [if_neg h, if_neg]
        · cases s with
          | none => simp [withSubstation, hk]
          | some s => by_cases hs : s = "" <;> simp [withSubstation, hk, hs]
        · rintro ⟨x, hx, hs⟩
          rcases List.mem_cons.1 hx with rfl | hx
          · rw [hk] at hs; cases hs
          · exact h ⟨x, hx, hs⟩

theorem keysOf_aux (names : List String) : ∀ acc : List String, (acc ++ names).Nodup →
    names.foldl (fun acc k => if k ∈ acc then acc else acc ++ [k]) acc = acc ++ names := by
  induction names with
  | nil => intro acc _; simp
  | cons k ks ih =>
    intro acc h
    rw [List.foldl_cons]
    have hk : k ∉ acc := by
      intro hk
      rw [List.nodup_append] at h
      exact h.2.2 k hk k List.mem_cons_self rfl
    rw [if_neg hk, ih _ (by rwa [List.append_assoc, List.singleton_append]), List.append_assoc, List.singleton_append]

theorem keysOf_nodup {names : List String} (h : names.Nodup) : keysOf names = names := by
  unfold keysOf
  rw [keysOf_aux names [] (by simpa using h)]
  rfl

theorem objsIn_cons (f : String) (o : Option String × MObj) (os : List (Option String × MObj)) :
    objsIn f (o :: os) = if o.1 = some f then o.2 :: objsIn f os else objsIn f os := by
  unfold objsIn
  by_cases h : o.1 = some f <;> simp [h]

/-- the results of the loop over the objects -/
theorem feeder_fold (u : Bool) (ext : String → MObj → Option PyErr) (objs : List (Option String × MObj)) :
    ∀ (res res' : List (String × Results)), (res.map (·.1)).Nodup → objs.foldlM (analyzeIn u ext) res = .ok res' →
      List.Forall₂ (fun e e' => e'.1 = e.1 ∧ analyzeAll u (ext e.1) e.2 (objsIn e.1 objs) = .ok e'.2) res res' := by
  induction objs with
  | nil =>
    intro res res' _ h
    cases h
    induction res with
    | nil => exact .nil
    | cons e res ih =>
      rename_i hn
      rw [List.map_cons, List.nodup_cons] at hn
      exact .cons ⟨rfl, rfl⟩ (ih hn.2)
  | cons o os ih =>
    intro res res' hn h
    rw [List.foldlM_cons] at h
    obtain ⟨fo, ob⟩ := o
    have skip : (∀ e ∈ res, fo ≠ some e.1) → analyzeIn u ext res (fo, ob) = .ok res → List.Forall₂ (fun e e' => e'.1 = e.1 ∧
        analyzeAll u (ext e.1) e.2 (objsIn e.1 ((fo, ob) :: os)) = .ok e'.2) res res' := by
      intro hne h1
      rw [h1] at h
      have := ih res res' hn h
      clear h h1 ih hn
      induction this with
      | nil => exact .nil
      | cons hd tl ih2 =>
        refine .cons ?_ (ih2 fun e he => hne e (List.mem_cons_of_mem _ he))
        rw [objsIn_cons, if_neg (hne _ List.mem_cons_self)]
        exact hd
    cases fo with
    | none => exact skip (fun e _ h => by cases h) rfl
    | some f =>
      cases hf : res.find? (fun e => e.1 = f) with
      | none =>
        refine skip (fun e he h => ?_) (by simp only [analyzeIn, hf])
        cases h
        simpa using List.find?_eq_none.1 hf e he
      | some e0 =>
        have he0 : e0.1 = f := by simpa using List.find?_some hf
        have hm0 := List.mem_of_find?_eq_some hf
        cases ha : analyze u (ext f) e0.2 ob with
        | error err => simp only [analyzeIn, hf, ha] at h; cases h
        | ok r =>
          simp only [analyzeIn, hf, ha] at h
          have hn' : ((res.map fun e => if e.1 = f then (f, r) else e).map (·.1)) = res.map (·.1) := by
            rw [List.map_map]
            apply List.map_congr_left
            intro e _
            by_cases he : e.1 = f <;> simp [he]
          have := ih _ res' (by rw [hn']; exact hn) h
          rw [List.forall₂_map_left_iff] at this
          have uniq : ∀ e ∈ res, e.1 = f → e = e0 := by
            intro e he hef
            have : ∀ l : List (String × Results), (l.map (·.1)).Nodup → ∀ a ∈ l, ∀ b ∈ l, a.1 = b.1 → a = b := by
              intro l hl a ha b hb hab
              exact List.inj_on_of_nodup_map hl ha hb hab
            exact this res hn e he e0 hm0 (hef.trans he0.symm)
          clear h hf ih hn hn' hm0 skip
          induction this with
          | nil => exact .nil
          | @cons a b l1 l2 hd tl ih2 =>
            refine .cons ?_ (ih2 fun e he => uniq e (List.mem_cons_of_mem _ he))
            rw [objsIn_cons]
            by_cases ha1 : a.1 = f
            · have hae := uniq a List.mem_cons_self ha1
              rw [if_pos ha1] at hd
              rw [if_pos (by simp [ha1])]
              refine ⟨hd.1.trans ha1.symm, ?_⟩
              unfold analyzeAll
              rw [List.foldlM_cons, ha1, hae, ha]
              exact hd.2
            · rw [if_neg ha1] at hd
              rw [if_neg (by simp; exact fun h => ha1 h.symm)]
              exact hd

/-- the loop raises no exception if no object of the feeders does -/
theorem feeder_ok (u : Bool) (ext : String → MObj → Option PyErr) (objs : List (Option String × MObj)) :
    ∀ (res : List (String × Results)), (∀ o ∈ objs, ∀ f, o.1 = some f → f ∈ res.map (·.1) → ext f o.2 = none ∧ Analyzable o.2) →
      ∃ res', objs.foldlM (analyzeIn u ext) res = .ok res' := by
  induction objs with
  | nil => intro res _; exact ⟨res, rfl⟩
  | cons o os ih =>
    intro res h
    rw [List.foldlM_cons]
    have step : ∃ res1, analyzeIn u ext res o = .ok res1 ∧ res1.map (·.1) = res.map (·.1) := by
      obtain ⟨fo, ob⟩ := o
      cases fo with
      | none => exact ⟨res, rfl, rfl⟩
      | some f =>
        cases hf : res.find? (fun e => e.1 = f) with
        | none => exact ⟨res, by simp only [analyzeIn, hf], rfl⟩
        | some e0 =>
          have he0 : e0.1 = f := by simpa using List.find?_some hf
          obtain ⟨h1, h2⟩ := h _ List.mem_cons_self f rfl (List.mem_map.2 ⟨e0, List.mem_of_find?_eq_some hf, he0⟩)
          obtain ⟨r, hr⟩ := (analyze_ok_iff u (ext f) e0.2 ob h1).2 h2
          refine ⟨res.map fun e => if e.1 = f then (f, r) else e, by simp only [analyzeIn, hf, hr], ?_⟩
          rw [List.map_map]
          apply List.map_congr_left
          intro e _
          by_cases he : e.1 = f <;> simp [he]
    obtain ⟨res1, h1, h2⟩ := step
    rw [h1]
    exact ih res1 fun o ho f hf hm => h o (List.mem_cons_of_mem _ ho) f hf (by rwa [h2] at hm)

/-- sums over the objects of different feeders -/
theorem sum_feeders {α : Type} [AddCommMonoid α] (S : List MObj → α) (h0 : S [] = 0) (hs : ∀ o os, S (o :: os) = S [o] + S os)
    (fs : List String) (hn : fs.Nodup) (objs : List (Option String × MObj)) :
    (fs.map fun f => S (objsIn f objs)).sum = S (objsInAny fs objs) := by
  induction objs with
  | nil =>
    simp only [objsIn, objsInAny, List.filter_nil, List.map_nil, h0]
    clear hn
    induction fs with
    | nil => rfl
    | cons f fs ih => rw [List.map_cons, List.sum_cons, ih, add_zero]
  | cons o os ih =>
    have key : (fs.map fun f => S (objsIn f (o :: os))).sum =
        (if ∃ f ∈ fs, o.1 = some f then S [o.2] else 0) + (fs.map fun f => S (objsIn f os)).sum := by
      clear ih
      induction fs with
      | nil => simp
      | cons f fs ih =>
        rw [List.nodup_cons] at hn
        rw [List.map_cons, List.sum_cons, List.map_cons, List.sum_cons, ih hn.2, objsIn_cons]
        by_cases hf : o.1 = some f
        · have hnot : ¬ ∃ g ∈ fs, o.1 = some g := by
            rintro ⟨g, hg, hog⟩
            rw [hf] at hog
            cases hog
            exact hn.1 hg
          rw [if_pos hf, if_neg hnot, if_pos ⟨f, List.mem_cons_self, hf⟩, hs, zero_add, add_assoc]
        · rw [if_neg hf]
          by_cases hex : ∃ g ∈ fs, o.1 = some g
          · have : ∃ g ∈ f :: fs, o.1 = some g := by
              obtain ⟨g, hg, hog⟩ := hex
              exact ⟨g, List.mem_cons_of_mem _ hg, hog⟩
            rw [if_pos hex, if_pos this, ← add_assoc, ← add_assoc, add_comm (S (objsIn f os))]
          · have : ¬ ∃ g ∈ f :: fs, o.1 = some g := by
              rintro ⟨g, hg, hog⟩
              rcases List.mem_cons.1 hg with rfl | hg
              · exact hf hog
              · exact hex ⟨g, hg, hog⟩
            rw [if_neg hex, if_neg this, zero_add, zero_add]
    rw [key, ih]
    unfold objsInAny
    by_cases hex : ∃ g ∈ fs, o.1 = some g
    · rw [if_pos hex, List.filter_cons_of_pos (by simpa using hex), List.map_cons]
      exact (hs _ _).symm
    · rw [if_neg hex, List.filter_cons_of_neg (by simpa using hex), zero_add]

end Ditto.Metrics
