import Verif.Spec.SynLoads
import Verif.Lemmas.SynTables
import Verif.Lemmas.Carson
import Verif.Lemmas.GroupVoltages
import Mathlib.Tactic.Ring

namespace Ditto.Syn
open Ditto Glm Syn.Spec

theorem same_iff {a b : Text} : Same a b ↔ lower a = lower b := Iff.rfl

theorem clean_eq (t : Text) : clean t = shown t := by
  unfold clean unblank lower shown
  rw [List.map_map]
  apply List.map_congr_left
  intro c _
  show (if c.toLower = ' ' then '_' else c.toLower) = _
  by_cases h : c = ' '
  · rw [if_pos ((lower_blank_iff c).mpr h), if_pos h]
  · rw [if_neg fun e => h ((lower_blank_iff c).mp e), if_neg h]

theorem unblank_lower (t : Text) : unblank (lower t) = shown t := clean_eq t

theorem clean_lower_eq (t : Text) : clean (lower t) = shown t := by rw [clean_lower, clean_eq]

section
variable {K : Type}

theorem upper_one {t : Text} {u : Char} {d : Char} (h : ∀ c : Char, c.toUpper = u ↔ c.toLower = d) : upper t = [u] ↔ lower t = [d] := by
  cases t with
  | nil => simp [upper, lower]
  | cons c t =>
    cases t with
    | nil => simp [upper, lower, h]
    | cons c' t => simp [upper, lower]

theorem custIsLoad_iff (c : CustRow K) : custIsLoad (lowerCust c) = decide (Same c.category ['L'] ∨ Same c.category ['C']) := by
  unfold custIsLoad
  have h1 : upper (lower c.category) = ['L'] ↔ Same c.category ['L'] := by
    rw [upper_one fun c => upper_L, lower_idem]; rfl
  have h2 : upper (lower c.category) = ['C'] ↔ Same c.category ['C'] := by
    rw [upper_one fun c => upper_C, lower_idem]; rfl
  show (decide (upper (lower c.category) = ['L']) || decide (upper (lower c.category) = ['C'])) = _
  rw [Bool.decide_or]
  congr 1
  · exact decide_eq_decide.mpr h1
  · exact decide_eq_decide.mpr h2

/-- the row of a load of the database after `ToLowerCase` -/
def rowOf (d : Demand K) : LoadRow K := ⟨lower d.name, d.kw, d.kvar⟩

theorem allLoadRows_eq (db : LoadDb K) : allLoadRows (db.loads.map lowerLoad) (db.cust.map lowerCust) = (demands db).map rowOf := by
  unfold allLoadRows demands
  rw [List.map_append, List.filter_map, List.map_map, List.map_map, List.map_map]
  congr 1
  have : (custIsLoad ∘ lowerCust : CustRow K → Bool) = fun c => decide (Same c.category ['L'] ∨ Same c.category ['C']) := funext fun c => custIsLoad_iff c
  rw [this]
  rfl

theorem keptRows_eq [Zero K] [DecidableEq K] (db : LoadDb K) :
    keptRows (allLoadRows (db.loads.map lowerLoad) (db.cust.map lowerCust)) = ((demands db).filter active).map rowOf := by
  rw [allLoadRows_eq]
  unfold keptRows
  rw [List.filter_map]
  congr 1
  apply List.filter_congr
  intro d _
  show (!(decide (d.kw.1 = 0) && decide (d.kw.2.1 = 0) && decide (d.kw.2.2 = 0))) = decide _
  rw [Bool.eq_iff_iff]
  simp only [Bool.not_eq_true', Bool.and_eq_false_iff, decide_eq_false_iff_not, decide_eq_true_eq]
  tauto

theorem ids_lower {secs : List SecRow} : ((secs.map lowerSec).map (·.id)) = secs.map fun s => lower s.id := by
  rw [List.map_map]; rfl

theorem ids_nodup {secs : List SecRow} (h : secs.Pairwise fun s t => ¬Same s.id t.id) : ((secs.map lowerSec).map (·.id)).Nodup := by
  rw [ids_lower]
  exact List.pairwise_map.mpr h

theorem loadSite_at {db : LoadDb K} {feeders : List (Text × Text)} (hf : sectionFeeders (db.secs.map lowerSec) = .ok feeders)
    (hsep : Separate db) {d : Demand K} (hd : d ∈ demands db) {s : SecRow} (hs : Site db d s) :
    loadSite feeders (db.secs.map lowerSec) (db.cust.map lowerCust) (lower d.name) = .ok (some (shown s.feeder), some (lowerSec s)) := by
  obtain ⟨hn, hfind⟩ := sectionFeeders_ok hf
  have hmem : lowerSec s ∈ db.secs.map lowerSec := List.mem_map_of_mem hs.1
  have hfe : find feeders (lower s.id) = some (shown s.feeder) := by
    rw [← unblank_lower]; exact hfind _ hmem
  unfold loadSite
  rcases List.mem_append.mp hd with hd | hd
  · obtain ⟨r, hr, rfl⟩ := List.mem_map.mp hd
    have e : lower s.id = lower r.name := hs.2
    have h1 := firstSection_of hn hmem
    have h1' : firstSection (db.secs.map lowerSec) (lower r.name) = some (lowerSec s) := by rw [← e]; exact h1
    show (match firstSection (db.secs.map lowerSec) (lower r.name) with | _ => _) = _
    rw [h1']
    dsimp only
    rw [← e, hfe]
  · obtain ⟨c, hc, rfl⟩ := List.mem_map.mp hd
    have hc' : c ∈ db.cust := (List.mem_filter.mp hc).1
    have h0 : firstSection (db.secs.map lowerSec) (lower c.device) = none := by
      rw [firstSection_none]
      intro t ht
      obtain ⟨t', ht', rfl⟩ := List.mem_map.mp ht
      exact fun e => hsep.names c hc' t' ht' e.symm
    have e : lower s.id = lower c.sec := hs.2
    have h2 : custSection (db.secs.map lowerSec) (db.cust.map lowerCust) (lower c.device) = some (lowerSec s) := by
      have hfl : ((db.cust.map lowerCust).filter fun x => decide (x.device = lower c.device)) = [lowerCust c] := by
        rw [List.filter_map]
        have : db.cust.filter ((fun x : CustRow K => decide (x.device = lower c.device)) ∘ lowerCust) = [c] := by
          have hdev := hsep.devices
          clear hd hc h0 hsep hs hmem hf
          revert hc' hdev
          generalize db.cust = l
          intro hc' hdev
          induction l with
          | nil => cases hc'
          | cons x l ih =>
            have hp := List.pairwise_cons.mp hdev
            rcases List.mem_cons.mp hc' with rfl | hm
            · rw [List.filter_cons_of_pos (by simp [lowerCust])]
              congr 1
              rw [List.filter_eq_nil_iff]
              intro y hy
              have := hp.1 y hy
              simp only [Function.comp, decide_eq_true_eq]
              exact fun e => this e.symm
            · have := hp.1 c hm
              rw [List.filter_cons_of_neg]
              · exact ih hm hp.2
              · simp only [Function.comp, decide_eq_true_eq]
                exact fun e => this e
        rw [this]
        rfl
      unfold custSection
      rw [hfl]
      have h3 := firstSection_of hn hmem
      have h3' : firstSection (db.secs.map lowerSec) (lowerCust c).sec = some (lowerSec s) := by
        show firstSection _ (lower c.sec) = _
        rw [← e]; exact h3
      simp only [List.filterMap_cons, h3', List.filterMap_nil, List.getLast?_singleton]
    show (match firstSection (db.secs.map lowerSec) (lower c.device) with | _ => _) = _
    rw [h0]
    dsimp only
    rw [h2]
    dsimp only
    have hfe' : find feeders (lowerSec s).id = some (shown s.feeder) := hfe
    rw [hfe']

section
variable [Field K]

theorem afterDash_of {t a b : Text} (h : t = a ++ '-' :: b) (hb : '-' ∉ b) : afterDash t = some b := by
  unfold afterDash
  rw [if_pos (by rw [h]; simp)]
  congr 1
  rw [h, List.reverse_append, List.reverse_cons, List.append_assoc]
  rw [List.takeWhile_append_of_pos]
  · simp
  · intro c hc
    simp only [ne_eq, decide_not, Bool.not_eq_eq_eq_not, Bool.not_true, decide_eq_false_iff_not]
    exact fun e => hb (e ▸ List.mem_reverse.mp hc)

theorem lineVoltage_kv {num : Text → Option K} {s : SecRow} {v : K} (h : Kv num s v) : lineVoltage num (lowerSec s).description = .ok v := by
  obtain ⟨a, b, x, h1, h2, h3, rfl⟩ := h
  unfold lineVoltage
  rw [afterDash_of (t := (lowerSec s).description) h1 h2]
  dsimp only
  rw [h3, mul_comm]

theorem secPhases_lower (s : SecRow) : secPhases (lowerSec s).phases = phasesOf s := by
  unfold secPhases phasesOf lowerSec lower
  dsimp only
  rw [List.filter_map, List.map_map]
  have h1 : ((fun c : Char => decide (c ≠ ' ')) ∘ Char.toLower) = fun c => decide (c ≠ ' ') := by
    funext c
    show decide (c.toLower ≠ ' ') = decide (c ≠ ' ')
    exact decide_eq_decide.mpr (not_congr (lower_blank_iff c))
  rw [h1]
  exact List.map_congr_left fun c _ => upperLower c

theorem nodeVoltages_keep {num : Text → Option K} {n : Text} {x : K × List Char} : ∀ {secs : List SecRow} {d m : List (Text × K × List Char)},
    nodeVoltages num d (secs.map lowerSec) = .ok m →
    (∀ t ∈ secs, Touches t n → lineVoltage num (lowerSec t).description = .ok x.1 ∧ phasesOf t = x.2) →
    ((∃ t ∈ secs, Touches t n) ∨ find d n = some x) → find m n = some x
  | [], d, m, h, _, ht => by
    injection h with h
    subst h
    rcases ht with ⟨t, ht, _⟩ | ht
    · cases ht
    · exact ht
  | s :: secs, d, m, h, hall, ht => by
    rw [List.map_cons] at h
    unfold nodeVoltages at h
    split at h
    · cases h
    · rename_i v hv
      refine nodeVoltages_keep h (fun t h1 h2 => hall t (List.mem_cons_of_mem _ h1) h2) ?_
      by_cases hs : Touches s n
      · right
        obtain ⟨h1, h2⟩ := hall s List.mem_cons_self hs
        have e : v = x.1 := by
          rw [h1] at hv
          injection hv with hv
          exact hv.symm
        have e2 : secPhases (lowerSec s).phases = x.2 := by rw [secPhases_lower]; exact h2
        rw [find_cons, find_cons, e, e2]
        rcases hs with hs | hs
        · have : clean (lowerSec s).fromNode = n := by rw [← hs]; exact clean_lower_eq _
          rw [if_pos this, ite_self]
        · have : clean (lowerSec s).toNode = n := by rw [← hs]; exact clean_lower_eq _
          rw [if_pos this]
      · rcases ht with ⟨t, ht, htn⟩ | ht
        · rcases List.mem_cons.mp ht with rfl | ht
          · exact absurd htn hs
          · exact .inl ⟨t, ht, htn⟩
        · right
          have h1 : clean (lowerSec s).toNode ≠ n := fun e => hs (.inr (by rw [← e]; exact (clean_lower_eq _).symm))
          have h2 : clean (lowerSec s).fromNode ≠ n := fun e => hs (.inl (by rw [← e]; exact (clean_lower_eq _).symm))
          rw [find_cons, find_cons, if_neg h1, if_neg h2]
          exact ht

theorem nodeVoltages_none {num : Text → Option K} {n : Text} : ∀ {secs : List SecRow} {d m : List (Text × K × List Char)},
    nodeVoltages num d (secs.map lowerSec) = .ok m → (find m n = none ↔ find d n = none ∧ ∀ t ∈ secs, ¬Touches t n)
  | [], d, m, h => by
    injection h with h
    subst h
    simp
  | s :: secs, d, m, h => by
    rw [List.map_cons] at h
    unfold nodeVoltages at h
    split at h
    · cases h
    · rename_i v hv
      rw [nodeVoltages_none h, find_cons, find_cons]
      have e1 : clean (lowerSec s).toNode = shown s.toNode := clean_lower_eq _
      have e2 : clean (lowerSec s).fromNode = shown s.fromNode := clean_lower_eq _
      rw [e1, e2]
      by_cases h1 : shown s.toNode = n
      · rw [if_pos h1]
        simp [Touches, h1]
      · rw [if_neg h1]
        by_cases h2 : shown s.fromNode = n
        · rw [if_pos h2]
          simp [Touches, h2]
        · rw [if_neg h2]
          simp [Touches, h1, h2]

theorem nodeVoltages_of {num : Text → Option K} : ∀ {secs : List SecRow} {d : List (Text × K × List Char)}, (∀ t ∈ secs, ∃ v, Kv num t v) →
    ∃ m, nodeVoltages num d (secs.map lowerSec) = .ok m
  | [], d, _ => ⟨d, rfl⟩
  | s :: secs, d, h => by
    obtain ⟨v, hv⟩ := h s List.mem_cons_self
    rw [List.map_cons]
    unfold nodeVoltages
    rw [lineVoltage_kv hv]
    exact nodeVoltages_of fun t ht => h t (List.mem_cons_of_mem _ ht)

end

theorem lines_eq {db : LoadDb K} :
    ((db.secs.map lowerSec).filter fun s => decide (s.id ∉ db.skipped.map lower)) =
      (db.secs.filter fun s => decide (lower s.id ∉ db.skipped.map lower)).map lowerSec := by
  rw [List.filter_map]; rfl

theorem mem_lines {db : LoadDb K} {s : SecRow} :
    s ∈ (db.secs.filter fun s => decide (lower s.id ∉ db.skipped.map lower)) ↔ IsLine db.skipped db.secs s := by
  rw [List.mem_filter, decide_eq_true_eq]
  unfold IsLine
  constructor
  · rintro ⟨h1, h2⟩
    exact ⟨h1, fun k hk e => h2 (List.mem_map.mpr ⟨k, hk, e⟩)⟩
  · rintro ⟨h1, h2⟩
    refine ⟨h1, fun h => ?_⟩
    obtain ⟨k, hk, e⟩ := List.mem_map.mp h
    exact h2 k hk e

theorem substation_of {tab : List (Text × Text)} {f : Text}
    (hu : ∀ p ∈ tab, ∀ q ∈ tab, shown p.1 = shown q.1 → shown p.2 = shown q.2) {p : Text × Text} (hp : p ∈ tab) (e : shown p.1 = f) :
    find (feederSubstations (tab.map fun f => (lower f.1, lower f.2))) f = some (shown p.2) := by
  cases h : find (feederSubstations (tab.map fun f => (lower f.1, lower f.2))) f with
  | none =>
    exfalso
    refine find_none.mp h (shown p.1, shown p.2) ?_ e
    unfold feederSubstations
    rw [List.mem_reverse, List.map_map]
    exact List.mem_map.mpr ⟨p, hp, by simp only [Function.comp, unblank_lower]⟩
  | some v =>
    have h1 := find_mem h
    unfold feederSubstations at h1
    rw [List.mem_reverse, List.map_map] at h1
    obtain ⟨q, hq, e1⟩ := List.mem_map.mp h1
    simp only [Function.comp, unblank_lower, Prod.mk.injEq] at e1
    rw [← e1.2, hu q hq p hp (by rw [e1.1, e])]

theorem substation_none {tab : List (Text × Text)} {f : Text} (h : ∀ p ∈ tab, shown p.1 ≠ f) :
    find (feederSubstations (tab.map fun f => (lower f.1, lower f.2))) f = none := by
  rw [find_none]
  intro e he
  unfold feederSubstations at he
  rw [List.mem_reverse, List.map_map] at he
  obtain ⟨q, hq, rfl⟩ := List.mem_map.mp he
  simp only [Function.comp, unblank_lower]
  exact h q hq

section
variable [Field K] [DecidableEq K]

theorem phaseLoads_letters (d : Demand K) :
    (phaseLoadsOf (rowOf d)).map (·.1) = ['A', 'B', 'C'].filter fun c => decide (phaseOf d c ≠ (0, 0)) := by
  have key : ∀ a b : K, (decide ((1000 * a, 1000 * b) ≠ ((0 : K), (0 : K)))) = !(decide (a * 1000 = 0) && decide (b * 1000 = 0)) := by
    intro a b
    rw [mul_comm a, mul_comm b, Bool.eq_iff_iff]
    simp [Prod.ext_iff]
  unfold phaseLoadsOf rowOf
  simp only [List.filter_cons, phaseOf, key, List.filter_nil]
  split <;> split <;> split <;> rfl

theorem phaseLoads_powers {d : Demand K} {x : Char × K × K} (h : x ∈ phaseLoadsOf (rowOf d)) : x.2 = phaseOf d x.1 := by
  unfold phaseLoadsOf rowOf at h
  have h := (List.mem_filter.mp h).1
  simp only [List.mem_cons, List.not_mem_nil, or_false] at h
  rcases h with rfl | rfl | rfl <;> simp only [phaseOf, mul_comm]

theorem phaseLoads_sum (d : Demand K) : ((phaseLoadsOf (rowOf d)).map fun x => x.2.1).sum = 1000 * three d.kw := by
  have key : ∀ (l : List (Char × K × K)), ((l.filter fun x => !(decide (x.2.1 = 0) && decide (x.2.2 = 0))).map fun x => x.2.1).sum = (l.map fun x => x.2.1).sum := by
    intro l
    induction l with
    | nil => rfl
    | cons x l ih =>
      rw [List.filter_cons]
      split
      · rw [List.map_cons, List.sum_cons, List.map_cons, List.sum_cons, ih]
      · rename_i h
        have : x.2.1 = 0 := by
          simp only [Bool.not_eq_true', Bool.not_eq_false', Bool.and_eq_true, decide_eq_true_eq, Bool.not_eq_false] at h
          exact h.1
        rw [ih, List.map_cons, List.sum_cons, this, zero_add]
  unfold phaseLoadsOf
  rw [key]
  simp only [List.map_cons, List.map_nil, List.sum_cons, List.sum_nil, rowOf, three]
  ring

theorem voltage_eq (rnd : K → K) (n : Nat) (v : K) (ph : List Char) : voltageAt rnd n v ph = loadVoltage rnd n v ph := rfl

end
end
end Ditto.Syn
