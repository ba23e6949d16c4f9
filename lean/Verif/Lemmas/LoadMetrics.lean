import Verif.Lemmas.Metrics

namespace Ditto.Metrics
open Ditto

/-- the results for loads -/
def loadPart (r : Results) : Results :=
  { r with lv := {}, mv := {}, fuses := 0, switches := 0, reclosers := 0, breakers := 0, sectionalizers := 0, wireNames := [], mva := 0,
           regulators := 0, capacitors := 0, transformers := 0, trafo1 := 0, trafo3 := 0 }

theorem windings_part {u : Bool} {r r' : Results} {ws : List MWinding} (h : analyzeWindings u r ws = .ok r') :
    loadPart r' = loadPart r := by
  unfold analyzeWindings at h
  split at h
  · cases h; rfl
  · split at h
    · cases h; rfl
    · split at h
      · cases h
      · split at h
        · cases h; rfl
        · split at h <;> (cases h; rfl)

/-- the results for loads are only changed by loads -/
theorem analyze_loadPart {u : Bool} {ext : MObj → Option PyErr} {r r' : Results} {o : MObj} (h : analyze u ext r o = .ok r')
    (ho : ∀ l, o ≠ .load l) : loadPart r' = loadPart r := by
  cases o with
  | load l => exact absurd rfl (ho l)
  | line l =>
    obtain ⟨ws, -, lv, mv, rfl, -⟩ := analyzeLine_ok h
    rfl
  | regulator => cases h; rfl
  | capacitor => cases h; rfl
  | other => cases h; rfl
  | transformer ws =>
    simp only [analyze] at h
    cases he : ext (.transformer ws) with
    | some e => rw [he] at h; cases h
    | none =>
      rw [he] at h
      cases ws with
      | none => cases h; rfl
      | some ws => exact windings_part h

/-- the results after a load -/
def afterLoad (u : Bool) (r : Results) (l : MLoad) : Results :=
  match l.phaseLoads with
  | none => loadCounts u r l
  | some _ => loadDemand (loadVoltage (loadCounts u r l) l (live l)) l (live l)

theorem analyzeLoad_ok {u : Bool} {err : Option PyErr} {r r' : Results} {l : MLoad} (h : analyzeLoad u err r l = .ok r') :
    r' = afterLoad u r l := by
  unfold analyzeLoad at h
  cases err with
  | some e => cases h
  | none =>
    unfold afterLoad live
    cases hp : l.phaseLoads with
    | none => rw [hp] at h; cases h; rfl
    | some all =>
      rw [hp] at h
      simp only [] at h
      cases hf : powerFactor all with
      | error e => rw [hf] at h; cases h
      | ok x =>
        rw [hf] at h
        cases h
        have : (fun pl : MPhaseLoad => !pl.dropped) = fun pl => decide (pl.dropped = false) := by
          funext pl; cases pl.dropped <;> rfl
        rw [this]

theorem loadsOf_cons (o : MObj) (os : List MObj) : loadsOf (o :: os) = loadsOf [o] ++ loadsOf os := by
  simp only [loadsOf, ← List.filterMap_append, List.cons_append, List.nil_append]

/-- a result to which each load contributes separately -/
theorem fold_loads {α : Type} [AddCommMonoid α] {u : Bool} {ext : MObj → Option PyErr} (F : Results → α) (c : MLoad → α)
    (hF : ∀ r, F (loadPart r) = F r) (h : ∀ r l, F (afterLoad u r l) = F r + c l) (objs : List MObj) (r r' : Results)
    (hr : analyzeAll u ext r objs = .ok r') : F r' = F r + ((loadsOf objs).map c).sum := by
  refine fold_add F (fun objs => ((loadsOf objs).map c).sum) (by simp [loadsOf]) (fun o os => ?_) (fun r o r' h1 => ?_) objs r r' hr
  · rw [loadsOf_cons, List.map_append, List.sum_append]
  · by_cases ho : ∀ l, o ≠ .load l
    · have : loadsOf [o] = [] := by cases o <;> first | rfl | exact absurd rfl (ho _)
      rw [this, ← hF, analyze_loadPart h1 ho, hF]
      simp
    · push Not at ho
      obtain ⟨l, rfl⟩ := ho
      rw [analyzeLoad_ok h1, h]
      simp [loadsOf]

theorem phaseP_sum (ph : String) (pls : List MPhaseLoad) : (pls.map (phaseP ph)).sum = activePower (onPhase ph pls) := by
  induction pls with
  | nil => rfl
  | cons pl pls ih =>
    unfold activePower onPhase at ih ⊢
    rw [List.map_cons, List.sum_cons, ih]
    by_cases h : pl.phase = some ph
    · cases hp : pl.p <;> simp [phaseP, h, hp]
    · simp [phaseP, h]

theorem phaseShare_sum (ph : String) (c : ℚ) (pls : List MPhaseLoad) (h : ∀ pl ∈ pls, pl.p.isSome = true) :
    (pls.map (phaseShare ph c)).sum = (onPhase ph pls).length * c := by
  induction pls with
  | nil => simp [onPhase]
  | cons pl pls ih =>
    rw [List.map_cons, List.sum_cons, ih fun x hx => h x (List.mem_cons_of_mem _ hx)]
    have hp := h pl List.mem_cons_self
    unfold onPhase phaseShare
    by_cases hph : pl.phase = some ph
    · simp [hph, hp]; ring
    · simp [hph]

theorem allZero_iff (pls : List MPhaseLoad) : (pls.all (fun pl => pl.p = some 0) = true ∧ pls.all (fun pl => pl.q = some 0) = true) ↔
    ∀ pl ∈ pls, pl.p = some 0 ∧ pl.q = some 0 := by
  simp only [List.all_eq_true, decide_eq_true_eq]
  exact ⟨fun h pl hp => ⟨h.1 pl hp, h.2 pl hp⟩, fun h => ⟨fun pl hp => (h pl hp).1, fun pl hp => (h pl hp).2⟩⟩

theorem kvaOf_some {l : MLoad} {k : ℚ} : kvaOf l = some k ↔ l.kva = some k ∧ k ≠ 0 := by
  unfold kvaOf
  cases l.kva with
  | none => simp
  | some x =>
    by_cases hx : x = 0
    · simp only [hx, Option.bind_some, if_true, Option.some.injEq]
      simp
      exact fun h => h.symm
    · simp only [hx, Option.bind_some, if_false, Option.some.injEq]
      exact ⟨fun h => ⟨h, h ▸ hx⟩, fun h => h.1⟩

theorem activePower_zero {pls : List MPhaseLoad} (h : ∀ pl ∈ pls, pl.p = some 0) : activePower pls = 0 := by
  induction pls with
  | nil => rfl
  | cons pl pls ih =>
    have := ih fun x hx => h x (List.mem_cons_of_mem _ hx)
    unfold activePower at this ⊢
    simp [h pl List.mem_cons_self, this]

theorem onPhase_sub {ph : String} {pls : List MPhaseLoad} {pl : MPhaseLoad} (h : pl ∈ onPhase ph pls) : pl ∈ pls := (List.mem_filter.1 h).1

/-- the contributions of a load to the total demand -/
theorem afterLoad_demand (u : Bool) (r : Results) (l : MLoad) :
    (afterLoad u r l).kw = r.kw + demand l ∧ (afterLoad u r l).kwA = r.kwA + phaseDemand "A" l ∧
    (afterLoad u r l).kwB = r.kwB + phaseDemand "B" l ∧ (afterLoad u r l).kwC = r.kwC + phaseDemand "C" l := by
  have hv : ∀ r0 : Results, (loadVoltage r0 l (live l)).kw = r0.kw ∧ (loadVoltage r0 l (live l)).kwA = r0.kwA ∧
      (loadVoltage r0 l (live l)).kwB = r0.kwB ∧ (loadVoltage r0 l (live l)).kwC = r0.kwC := by
    intro r0
    unfold loadVoltage
    cases voltClass l.voltage <;> exact ⟨rfl, rfl, rfl, rfl⟩
  obtain ⟨v1, v2, v3, v4⟩ := hv (loadCounts u r l)
  unfold afterLoad
  cases hp : l.phaseLoads with
  | none =>
    have hE : ¬ Estimated l := fun h => h.1 hp
    have hl : live l = [] := by simp [live, hp]
    unfold demand phaseDemand
    cases l.kva <;> simp [hE, hl, activePower, onPhase, loadCounts]
  | some all =>
    simp only []
    unfold loadDemand
    by_cases hz : ∀ pl ∈ live l, pl.p = some 0 ∧ pl.q = some 0
    · rw [if_pos ((allZero_iff _).2 hz)]
      have hz1 : ∀ pl ∈ live l, pl.p = some 0 := fun pl h => (hz pl h).1
      cases hk : kvaOf l with
      | none =>
        have hE : ¬ Estimated l := by
          rintro ⟨-, -, k, h1, h2⟩
          rw [kvaOf_some.2 ⟨h1, h2⟩] at hk
          cases hk
        have e1 : demand l = 0 := by unfold demand; cases l.kva <;> simp [hE, activePower_zero hz1]
        have e2 : ∀ ph, phaseDemand ph l = 0 := by
          intro ph
          have := activePower_zero (pls := onPhase ph (live l)) fun pl h => hz1 pl (onPhase_sub h)
          unfold phaseDemand; cases l.kva <;> simp [hE, this]
        simp only [v1, v2, v3, v4, e1, e2, add_zero]
        exact ⟨rfl, rfl, rfl, rfl⟩
      | some k =>
        obtain ⟨h1, h2⟩ := kvaOf_some.1 hk
        have hE : Estimated l := ⟨by simp [hp], hz, k, h1, h2⟩
        have hs : ∀ pl ∈ live l, pl.p.isSome = true := fun pl h => by rw [hz1 pl h]; rfl
        simp only [v1, v2, v3, v4, demand, phaseDemand, h1, hE, if_true, phaseShare_sum _ _ _ hs]
        exact ⟨rfl, rfl, rfl, rfl⟩
    · rw [if_neg (fun h => hz ((allZero_iff _).1 h))]
      have hE : ¬ Estimated l := fun h => hz h.2.1
      have e1 : demand l = activePower (live l) := by unfold demand; cases l.kva <;> simp [hE]
      have e2 : ∀ ph, phaseDemand ph l = activePower (onPhase ph (live l)) := by intro ph; unfold phaseDemand; cases l.kva <;> simp [hE]
      simp only [v1, v2, v3, v4, e1, e2, phaseP_sum]
      exact ⟨rfl, rfl, rfl, rfl⟩

open Classical in
/-- the contributions to the demand of low voltage -/
theorem afterLoad_low (u : Bool) (r : Results) (l : MLoad) :
    (afterLoad u r l).lvA = r.lvA + (if Low l.voltage then activePower (onPhase "A" (live l)) else 0) ∧
    (afterLoad u r l).lvB = r.lvB + (if Low l.voltage then activePower (onPhase "B" (live l)) else 0) ∧
    (afterLoad u r l).lvC = r.lvC + (if Low l.voltage then activePower (onPhase "C" (live l)) else 0) := by
  have hd : ∀ r0 : Results, (loadDemand r0 l (live l)).lvA = r0.lvA ∧ (loadDemand r0 l (live l)).lvB = r0.lvB ∧
      (loadDemand r0 l (live l)).lvC = r0.lvC := by
    intro r0
    unfold loadDemand
    cases kvaOf l <;> simp only [] <;> split_ifs <;> exact ⟨rfl, rfl, rfl⟩
  unfold afterLoad
  cases hp : l.phaseLoads with
  | none =>
    have hl : live l = [] := by simp [live, hp]
    simp [hl, activePower, onPhase, loadCounts]
  | some all =>
    simp only [hd]
    unfold loadVoltage
    rw [← voltClass_low]
    cases voltClass l.voltage <;> simp [phaseP_sum, loadCounts]

theorem afterLoad_kvar (u : Bool) (r : Results) (l : MLoad) : (afterLoad u r l).kvar = r.kvar + reactivePower (live l) := by
  unfold afterLoad
  cases hp : l.phaseLoads with
  | none =>
    have hl : live l = [] := by simp [live, hp]
    simp [hl, reactivePower, loadCounts]
  | some all =>
    simp only []
    unfold loadDemand loadVoltage reactivePower
    cases voltClass l.voltage <;> cases kvaOf l <;> simp only [] <;> split_ifs <;> rfl

open Classical in
theorem sum_ite_filter {α : Type} (l : List α) (P : α → Prop) (f : α → ℚ) :
    (l.map fun x => if P x then f x else 0).sum = ((l.filter fun x => P x).map f).sum := by
  induction l with
  | nil => rfl
  | cons x l ih =>
    rw [List.map_cons, List.sum_cons, ih]
    by_cases h : P x <;> simp [h]

end Ditto.Metrics
