import Verif.Spec.CountMetrics
import Verif.Lemmas.LoadMetrics

namespace Ditto.Metrics
open Ditto

/-! ### Counters -/

theorem counts_nil : Counts [] (fun _ => 0) := ⟨List.nodup_nil, fun k n => by simp; omega⟩

theorem counts_bump {d : Counter} {f : Option String → Nat} (h : Counts d f) (k : Option String) :
    Counts (d.bump k) (fun x => f x + if x = k then 1 else 0) := by
  obtain ⟨h1, h2⟩ := h
  unfold Counter.bump
  by_cases hk : k ∈ d.map (·.1)
  · rw [if_pos hk]
    constructor
    · have : (d.map fun e => if e.1 = k then (e.1, e.2 + 1) else e).map (·.1) = d.map (·.1) := by
        rw [List.map_map]
        apply List.map_congr_left
        intro e _
        by_cases he : e.1 = k <;> simp [he]
      rw [this]
      exact h1
    · obtain ⟨⟨k', n0⟩, he, rfl⟩ := List.mem_map.1 hk
      have hn0 := (h2 _ _).1 he
      intro x n
      simp only [List.mem_map]
      constructor
      · rintro ⟨⟨a, b⟩, hab, hx⟩
        have hb := (h2 a b).1 hab
        by_cases ha : a = k'
        · simp only [ha, if_true, Prod.mk.injEq] at hx
          obtain ⟨rfl, rfl⟩ := hx
          subst ha
          simp
          exact hb.2
        · simp only [ha, if_false, Prod.mk.injEq] at hx
          obtain ⟨rfl, rfl⟩ := hx
          simpa [ha] using hb
      · rintro ⟨hn, rfl⟩
        by_cases hx : x = k'
        · subst hx
          exact ⟨(x, n0), he, by simp; exact hn0.2⟩
        · refine ⟨(x, f x), (h2 _ _).2 ?_, by simp [hx]⟩
          simpa [hx] using hn
  · rw [if_neg hk]
    have hfk : f k = 0 := by
      by_contra h0
      exact hk (List.mem_map.2 ⟨(k, f k), (h2 _ _).2 ⟨Nat.pos_of_ne_zero h0, rfl⟩, rfl⟩)
    constructor
    · rw [List.map_append, List.nodup_append]
      refine ⟨h1, List.nodup_singleton _, ?_⟩
      rintro a ha b hb rfl
      simp only [List.map_cons, List.map_nil, List.mem_singleton] at hb
      exact hk (hb ▸ ha)
    · intro x n
      rw [List.mem_append, h2]
      simp only [List.mem_singleton, Prod.mk.injEq]
      by_cases hx : x = k
      · subst hx
        simp [hfk]
        omega
      · simp [hx]

theorem counts_foldl {f : Option String → Nat} (ks : List (Option String)) : ∀ {d : Counter}, Counts d f →
    ∀ g : Option String → Nat, (∀ x, g x = f x + ks.count x) → Counts (ks.foldl Counter.bump d) g := by
  induction ks generalizing f with
  | nil =>
    intro d h g hg
    have : g = f := by funext x; rw [hg]; simp
    rw [this]
    exact h
  | cons k ks ih =>
    intro d h g hg
    refine ih (counts_bump h k) g fun x => ?_
    rw [hg, List.count_cons]
    by_cases hx : x = k
    · simp [hx]; omega
    · have : ¬ k = x := fun h => hx h.symm
      simp [hx, this]

/-! ### Invariants of the loop -/

theorem fold_inv {u : Bool} {ext : MObj → Option PyErr} (I : List MObj → Results → Prop)
    (h : ∀ pre r o r', I pre r → analyze u ext r o = .ok r' → I (pre ++ [o]) r') :
    ∀ (objs pre : List MObj) (r r' : Results), I pre r → analyzeAll u ext r objs = .ok r' → I (pre ++ objs) r' := by
  intro objs
  induction objs with
  | nil => intro pre r r' hI hr; cases hr; rwa [List.append_nil]
  | cons o os ih =>
    intro pre r r' hI hr
    unfold analyzeAll at hr
    rw [List.foldlM_cons] at hr
    cases h1 : analyze u ext r o with
    | error e => rw [h1] at hr; cases hr
    | ok r1 =>
      rw [h1] at hr
      have := ih (pre ++ [o]) r1 r' (h pre r o r1 hI h1) hr
      rwa [List.append_assoc] at this

/-- the results for lines, without the lengths -/
def linePart (r : Results) : Results :=
  { ({} : Results) with fuses := r.fuses, switches := r.switches, reclosers := r.reclosers, breakers := r.breakers,
                        sectionalizers := r.sectionalizers, wireNames := r.wireNames }

theorem afterLoad_linePart (u : Bool) (r : Results) (l : MLoad) : linePart (afterLoad u r l) = linePart r := by
  unfold afterLoad
  cases l.phaseLoads with
  | none => rfl
  | some all =>
    simp only []
    unfold loadDemand loadVoltage
    cases voltClass l.voltage <;> cases kvaOf l <;> simp only [] <;> split_ifs <;> rfl

theorem windings_linePart {u : Bool} {r r' : Results} {ws : List MWinding} (h : analyzeWindings u r ws = .ok r') :
    linePart r' = linePart r := by
  unfold analyzeWindings at h
  split at h
  · cases h; rfl
  · split at h
    · cases h; rfl
    · split at h
      · cases h
      · split at h
        · cases h; rfl
        · split at h <;> (cases h; rfl)

theorem analyze_trafo {u : Bool} {ext : MObj → Option PyErr} {r r' : Results} {ws : Option (List MWinding)}
    (h : analyze u ext r (.transformer ws) = .ok r') : (ws = none ∧ r' = r) ∨ ∃ l, ws = some l ∧ analyzeWindings u r l = .ok r' := by
  simp only [analyze] at h
  cases he : ext (.transformer ws) with
  | some e => rw [he] at h; cases h
  | none =>
    rw [he] at h
    cases ws with
    | none => cases h; exact .inl ⟨rfl, rfl⟩
    | some ws => exact .inr ⟨ws, rfl, h⟩

theorem analyze_linePart {u : Bool} {ext : MObj → Option PyErr} {r r' : Results} {o : MObj} (h : analyze u ext r o = .ok r')
    (ho : ∀ l, o ≠ .line l) : linePart r' = linePart r := by
  cases o with
  | line l => exact absurd rfl (ho l)
  | load l => rw [analyzeLoad_ok h]; exact afterLoad_linePart u r l
  | regulator => cases h; rfl
  | capacitor => cases h; rfl
  | other => cases h; rfl
  | transformer ws =>
    rcases analyze_trafo h with ⟨-, rfl⟩ | ⟨l, -, h⟩
    · rfl
    · exact windings_linePart h

theorem linesOf_cons (o : MObj) (os : List MObj) : linesOf (o :: os) = linesOf [o] ++ linesOf os := by
  simp only [linesOf, ← List.filterMap_append, List.cons_append, List.nil_append]

theorem linesOf_append (os os' : List MObj) : linesOf (os ++ os') = linesOf os ++ linesOf os' := List.filterMap_append

theorem linesOf_other {o : MObj} (ho : ∀ l, o ≠ .line l) : linesOf [o] = [] := by
  cases o <;> first | rfl | exact absurd rfl (ho _)

/-- a result to which each line contributes separately -/
theorem fold_lines {u : Bool} {ext : MObj → Option PyErr} (F : Results → Nat) (p : MLine → Bool)
    (hF : ∀ r, F (linePart r) = F r) (h : ∀ r l ws, F (countLine r l ws) = if p l then F r + 1 else F r) (objs : List MObj) (r r' : Results)
    (hr : analyzeAll u ext r objs = .ok r') : F r' = F r + nLines p objs := by
  refine fold_add F (nLines p) rfl (fun o os => ?_) (fun r o r' h1 => ?_) objs r r' hr
  · unfold nLines
    rw [linesOf_cons, List.filter_append, List.length_append]
  · by_cases ho : ∀ l, o ≠ .line l
    · unfold nLines
      rw [linesOf_other ho, ← hF, analyze_linePart h1 ho, hF]
      rfl
    · push Not at ho
      obtain ⟨l, rfl⟩ := ho
      obtain ⟨ws, -, lv, mv, rfl, -⟩ := analyzeLine_ok h1
      have e1 : linesOf [.line l] = [l] := rfl
      have e2 : F { countLine r l ws with lv := lv, mv := mv } = F (countLine r l ws) := by
        rw [← hF, ← hF (countLine r l ws)]
        rfl
      unfold nLines
      rw [e2, h, e1]
      cases hp : p l <;> simp [hp]

/-- the numbers of regulators, capacitors and transformers -/
theorem analyze_devices {u : Bool} {ext : MObj → Option PyErr} {r r' : Results} {o : MObj} (h : analyze u ext r o = .ok r') :
    r'.regulators = r.regulators + nRegulators [o] ∧ r'.capacitors = r.capacitors + nCapacitors [o] ∧
    r'.transformers = r.transformers + (primaries [o]).length ∧
    r'.trafo1 = r.trafo1 + ((primaries [o]).filter fun w => w.phases = some 1).length ∧
    r'.trafo3 = r.trafo3 + ((primaries [o]).filter fun w => w.phases = some 3).length := by
  cases o with
  | line l =>
    obtain ⟨ws, -, lv, mv, rfl, -⟩ := analyzeLine_ok h
    refine ⟨?_, ?_, ?_, ?_, ?_⟩ <;> simp [nRegulators, nCapacitors, primaries, countLine]
  | load l =>
    rw [analyzeLoad_ok h]
    have : (afterLoad u r l).regulators = r.regulators ∧ (afterLoad u r l).capacitors = r.capacitors ∧
        (afterLoad u r l).transformers = r.transformers ∧ (afterLoad u r l).trafo1 = r.trafo1 ∧ (afterLoad u r l).trafo3 = r.trafo3 := by
      unfold afterLoad
      cases l.phaseLoads with
      | none => exact ⟨rfl, rfl, rfl, rfl, rfl⟩
      | some all =>
        simp only []
        unfold loadDemand loadVoltage
        cases voltClass l.voltage <;> cases kvaOf l <;> simp only [] <;> split_ifs <;> exact ⟨rfl, rfl, rfl, rfl, rfl⟩
    obtain ⟨a, b, c, d, e⟩ := this
    rw [a, b, c, d, e]
    refine ⟨?_, ?_, ?_, ?_, ?_⟩ <;> simp [nRegulators, nCapacitors, primaries]
  | regulator => cases h; refine ⟨?_, ?_, ?_, ?_, ?_⟩ <;> simp [nRegulators, nCapacitors, primaries]
  | capacitor => cases h; refine ⟨?_, ?_, ?_, ?_, ?_⟩ <;> simp [nRegulators, nCapacitors, primaries]
  | other => cases h; refine ⟨?_, ?_, ?_, ?_, ?_⟩ <;> simp [nRegulators, nCapacitors, primaries]
  | transformer ws =>
    rcases analyze_trafo h with ⟨rfl, rfl⟩ | ⟨l, rfl, hw⟩
    · clear h; refine ⟨?_, ?_, ?_, ?_, ?_⟩ <;> simp [nRegulators, nCapacitors, primaries]
    · match l, hw with
      | [], h => cases h; refine ⟨?_, ?_, ?_, ?_, ?_⟩ <;> simp [nRegulators, nCapacitors, primaries]
      | [w], h =>
        have : r' = r := by
          cases hv : w.voltage with
          | none => simp only [analyzeWindings, hv] at h; cases h; rfl
          | some v => simp only [analyzeWindings, hv] at h; cases h
        subst this
        refine ⟨?_, ?_, ?_, ?_, ?_⟩ <;> simp [nRegulators, nCapacitors, primaries]
      | w :: w' :: rest, h =>
        cases hv : w.voltage with
        | none =>
          simp only [analyzeWindings, hv] at h; cases h
          refine ⟨?_, ?_, ?_, ?_, ?_⟩ <;> simp [nRegulators, nCapacitors, primaries, Distribution, hv]
        | some v =>
          cases hv' : w'.voltage with
          | none =>
            simp only [analyzeWindings, hv, hv'] at h; cases h
            refine ⟨?_, ?_, ?_, ?_, ?_⟩ <;> simp [nRegulators, nCapacitors, primaries, Distribution, hv']
          | some v' =>
            simp only [analyzeWindings, hv, hv'] at h
            by_cases hvv : v = v'
            · rw [if_pos hvv] at h; cases h
              refine ⟨?_, ?_, ?_, ?_, ?_⟩ <;> simp [nRegulators, nCapacitors, primaries, Distribution, hv, hv', hvv]
            · rw [if_neg hvv] at h; cases h
              refine ⟨?_, ?_, ?_, ?_, ?_⟩
              · simp [nRegulators]
              · simp [nCapacitors]
              · simp [primaries, Distribution, hv, hv', hvv]
              · by_cases hp : w.phases = some 1 <;> simp [primaries, Distribution, hv, hv', hvv, hp]
              · by_cases hp : w.phases = some 3 <;> simp [primaries, Distribution, hv, hv', hvv, hp]

theorem primaries_cons (o : MObj) (os : List MObj) : primaries (o :: os) = primaries [o] ++ primaries os := by
  simp only [primaries, ← List.filterMap_append, List.cons_append, List.nil_append]

theorem nLoads_eq (P : MLoad → Prop) (objs : List MObj) [DecidablePred P] :
    ((loadsOf objs).map fun l => if P l then 1 else 0).sum = nLoads P objs := by
  unfold nLoads
  generalize loadsOf objs = ls
  induction ls with
  | nil => rfl
  | cons l ls ih =>
    rw [List.map_cons, List.sum_cons, ih]
    by_cases h : P l
    · simp [h]; omega
    · simp [h]

theorem count_names (ws : List MWire) (k : Option String) :
    (ws.filter fun w => w.nameclass = k).length = (ws.map (·.nameclass)).count k := by
  induction ws with
  | nil => rfl
  | cons w ws ih =>
    rw [List.map_cons, List.count_cons, ← ih]
    by_cases h : w.nameclass = k <;> simp [h]

open Classical in
/-- the numbers of loads by voltage and number of phase loads -/
theorem afterLoad_counts (u : Bool) (r : Results) (l : MLoad) :
    (afterLoad u r l).lv1Loads = r.lv1Loads + (if Low l.voltage ∧ (live l).length = 1 then 1 else 0) ∧
    (afterLoad u r l).lv3Loads = r.lv3Loads + (if Low l.voltage ∧ (live l).length = 3 then 1 else 0) ∧
    (afterLoad u r l).mv3Loads = r.mv3Loads + (if Medium l.voltage ∧ (live l).length = 3 then 1 else 0) := by
  have hd : ∀ r0 : Results, (loadDemand r0 l (live l)).lv1Loads = r0.lv1Loads ∧ (loadDemand r0 l (live l)).lv3Loads = r0.lv3Loads ∧
      (loadDemand r0 l (live l)).mv3Loads = r0.mv3Loads := by
    intro r0
    unfold loadDemand
    cases kvaOf l <;> simp only [] <;> split_ifs <;> exact ⟨rfl, rfl, rfl⟩
  unfold afterLoad
  cases hp : l.phaseLoads with
  | none =>
    have hl : live l = [] := by simp [live, hp]
    simp [hl, loadCounts]
  | some all =>
    simp only [hd]
    unfold loadVoltage
    rw [← voltClass_low, ← voltClass_medium]
    cases voltClass l.voltage <;> simp only [loadCounts]
    · refine ⟨?_, ?_, ?_⟩
      · by_cases h : (live l).length = 1 <;> simp [h]
      · by_cases h : (live l).length = 3 <;> simp [h]
      · simp
    · refine ⟨by simp, by simp, ?_⟩
      by_cases h : (live l).length = 3 <;> simp [h]
    · simp

/-- customers and loads of transformers -/
theorem afterLoad_trafo (u : Bool) (r : Results) (l : MLoad) :
    (afterLoad u r l).customers = r.customers + (l.users.elim 0 id) ∧
    (afterLoad u r l).loadsPer = (if l.upstream.isSome then r.loadsPer.bump l.upstream else r.loadsPer) ∧
    (afterLoad u r l).custPer = (if l.upstream.isSome then r.custPer.bump l.upstream else r.custPer) := by
  have hc : (loadCounts u r l).customers = r.customers + (l.users.elim 0 id) := by
    unfold loadCounts
    cases l.users <;> simp
  unfold afterLoad
  cases hp : l.phaseLoads with
  | none => exact ⟨hc, rfl, rfl⟩
  | some all =>
    have hd : ∀ r0 : Results, (loadDemand (loadVoltage r0 l (live l)) l (live l)).customers = r0.customers ∧
        (loadDemand (loadVoltage r0 l (live l)) l (live l)).loadsPer = r0.loadsPer ∧
        (loadDemand (loadVoltage r0 l (live l)) l (live l)).custPer = r0.custPer := by
      intro r0
      unfold loadDemand loadVoltage
      cases voltClass l.voltage <;> cases kvaOf l <;> simp only [] <;> split_ifs <;> exact ⟨rfl, rfl, rfl⟩
    rw [← hc]
    exact hd (loadCounts u r l)

/-- the capacity of the transformers, from the transformers or from the loads -/
theorem analyze_mva {u : Bool} {ext : MObj → Option PyErr} {r r' : Results} {o : MObj} (h : analyze u ext r o = .ok r') :
    r'.mva = r.mva + if u then ((primaries [o]).filterMap (·.power)).sum / 10 ^ 6 else ((loadsOf [o]).filterMap (·.kva)).sum / 10 ^ 6 := by
  cases o with
  | line l =>
    obtain ⟨ws, -, lv, mv, rfl, -⟩ := analyzeLine_ok h
    simp [primaries, loadsOf, countLine]
  | load l =>
    rw [analyzeLoad_ok h]
    have : (afterLoad u r l).mva = (loadCounts u r l).mva := by
      unfold afterLoad
      cases l.phaseLoads with
      | none => rfl
      | some all =>
        simp only []
        unfold loadDemand loadVoltage
        cases voltClass l.voltage <;> cases kvaOf l <;> simp only [] <;> split_ifs <;> rfl
    rw [this]
    unfold loadCounts
    cases u <;> cases hk : l.kva <;> simp [primaries, loadsOf, hk]
  | regulator => cases h; simp [primaries, loadsOf]
  | capacitor => cases h; simp [primaries, loadsOf]
  | other => cases h; simp [primaries, loadsOf]
  | transformer ws =>
    rcases analyze_trafo h with ⟨rfl, rfl⟩ | ⟨l, rfl, hw⟩
    · simp [primaries, loadsOf]
    · clear h
      match l, hw with
      | [], h => cases h; simp [primaries, loadsOf]
      | [w], h =>
        have : r' = r := by
          cases hv : w.voltage with
          | none => simp only [analyzeWindings, hv] at h; cases h; rfl
          | some v => simp only [analyzeWindings, hv] at h; cases h
        subst this
        simp [primaries, loadsOf]
      | w :: w' :: rest, h =>
        cases hv : w.voltage with
        | none => simp only [analyzeWindings, hv] at h; cases h; simp [primaries, loadsOf, Distribution, hv]
        | some v =>
          cases hv' : w'.voltage with
          | none => simp only [analyzeWindings, hv, hv'] at h; cases h; simp [primaries, loadsOf, Distribution, hv']
          | some v' =>
            simp only [analyzeWindings, hv, hv'] at h
            by_cases hvv : v = v'
            · rw [if_pos hvv] at h; cases h
              simp [primaries, loadsOf, Distribution, hv, hv', hvv]
            · rw [if_neg hvv] at h; cases h
              cases u <;> cases hp : w.power <;> simp [primaries, loadsOf, Distribution, hv, hv', hvv, hp]

theorem bump_sum {d : Counter} {f : Option String → Nat} (h : Counts d f) (k : Option String) :
    ((d.bump k).map (·.2)).sum = (d.map (·.2)).sum + 1 := by
  unfold Counter.bump
  by_cases hk : k ∈ d.map (·.1)
  · rw [if_pos hk]
    have hn := h.1
    clear h
    induction d with
    | nil => cases hk
    | cons e d ih =>
      rw [List.map_cons, List.nodup_cons] at hn
      by_cases he : e.1 = k
      · have : d.map (fun e => if e.1 = k then (e.1, e.2 + 1) else e) = d := by
          conv_rhs => rw [← List.map_id d]
          apply List.map_congr_left
          intro a ha
          have : a.1 ≠ k := fun hak => hn.1 (List.mem_map.2 ⟨a, ha, hak.trans he.symm⟩)
          simp [this]
        rw [List.map_cons, this, if_pos he]
        simp only [List.map_cons, List.sum_cons]
        omega
      · have hk' : k ∈ d.map (·.1) := by
          rcases List.mem_cons.1 hk with rfl | hk
          · exact absurd rfl he
          · exact hk
        rw [List.map_cons, if_neg he]
        simp only [List.map_cons, List.sum_cons]
        rw [ih hk' hn.2]
        omega
  · rw [if_neg hk]
    simp

end Ditto.Metrics
