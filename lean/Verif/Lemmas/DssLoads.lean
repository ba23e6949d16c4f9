import Verif.Spec.DssLoads
import Mathlib.Tactic.Linarith
import Mathlib.Tactic.FieldSimp
import Mathlib.Tactic.Ring
import Mathlib.Algebra.BigOperators.Group.List.Basic

namespace Ditto.Dss
open Ditto Ditto.Spec

variable {K : Type} [Field K] [LinearOrder K] [IsStrictOrderedRing K]

theorem sumKnown_acc {K : Type} [Field K] (xs : List (Option K)) : ∀ s : K,
    xs.foldl addKnown s = s + (xs.filterMap id).sum := by
  induction xs with
  | nil => intro s; simp
  | cons x xs ih =>
    intro s
    rw [List.foldl_cons, ih]
    cases x with
    | none => simp [addKnown]
    | some v => simp [addKnown, add_assoc]

theorem sumKnown_eq {K : Type} [Field K] {α : Type} (f : α → Option K) (ps : List α) : sumKnown (ps.map f) = (ps.filterMap f).sum := by
  unfold sumKnown
  rw [sumKnown_acc, zero_add, List.filterMap_map]
  rfl

theorem readPhases_eq {sqrt : K → K} {d : LoadData K} {kW pf : K} {z : Option Bool × Option (List K)} (hpf : d.pf = some pf)
    (hz : zipOf d.model d.zipv = .ok z) : ∀ phs : List (Option String),
    readPhases sqrt d kW phs = .ok (phs.map fun ph => ⟨ph, kW * 1000, reactive sqrt kW pf, d.model, z.1, z.2⟩) := by
  intro phs
  induction phs with
  | nil => rfl
  | cons ph phs ih => rw [readPhases, hpf, hz]; simp only; rw [ih]; rfl

theorem readLoad_eq {sqrt : K → K} {d : LoadData K} {kW kVA pf : K} {z : Option Bool × Option (List K)} (hen : d.enabled = true) (hkW : d.kW = some kW)
    (hkVA : d.kVA = some kVA) (hpf : d.pf = some pf) (hz : zipOf d.model d.zipv = .ok z) (hne : loadPhases d ≠ []) :
    readLoad sqrt d = .ok (some ⟨"load_" ++ pyLower d.name, d.bus.map (·.1), connOf d.conn, d.kV.map (· * 1000), d.vmin, d.vmax,
      (loadPhases d).map fun ph => ⟨ph, kW / ((loadPhases d).length : K) * 1000, reactive sqrt (kW / ((loadPhases d).length : K)) pf, d.model, z.1, z.2⟩⟩) := by
  have hl : (loadPhases d).length ≠ 0 := fun h => hne (List.length_eq_zero_iff.1 h)
  unfold readLoad perPhase
  rw [hen, hkW, hkVA]
  simp only [hl, if_false, Bool.true_eq_false]
  rw [readPhases_eq hpf hz]

omit [LinearOrder K] [IsStrictOrderedRing K] in
theorem cast_ne_zero' [LinearOrder K] [IsStrictOrderedRing K] {n : Nat} (h : n ≠ 0) : (n : K) ≠ 0 := Nat.cast_ne_zero.2 h

theorem sum_const {α : Type} (l : List α) (c : K) : (l.map fun _ => c).sum = (l.length : K) * c := by
  rw [List.map_const', List.sum_replicate, nsmul_eq_mul]

/-- the power factor gives back the reactive power -/
theorem reactive_spec {sqrt : K → K} (hs : IsSqrt sqrt) {P Q pf n : K} (hpf : PowerFactor P Q pf) (h : P ≠ 0 ∨ Q = 0) :
    reactive sqrt (P / n) pf = .val (Q * 1000 / n) := by
  obtain ⟨h1, h2, h3⟩ := hpf
  by_cases hP : P = 0
  · have hQ : Q = 0 := h.resolve_left (fun h => h hP)
    rw [h3 hP hQ]
    unfold reactive
    rw [if_neg (by simp), hP, hQ]
    simp
  · have hP2 : 0 < P ^ 2 := by positivity
    have hS : 0 < P ^ 2 + Q ^ 2 := by positivity
    have hpf0 : pf ≠ 0 := by
      intro h0
      rw [h0] at h1
      simp at h1
      exact hP2.ne h1
    have hle : pf ^ 2 ≤ 1 := by
      by_contra hlt
      push Not at hlt
      have : P ^ 2 + Q ^ 2 < pf ^ 2 * (P ^ 2 + Q ^ 2) := by nlinarith
      nlinarith [sq_nonneg Q]
    unfold reactive
    rw [if_neg (by push Not; exact ⟨hpf0, hle⟩)]
    obtain ⟨hs1, hs2⟩ := hs (1 - pf ^ 2) (by linarith)
    -- the root times P over pf is Q
    have key : P * sqrt (1 - pf ^ 2) = Q * pf := by
      have hsq : (P * sqrt (1 - pf ^ 2)) ^ 2 = (Q * pf) ^ 2 := by
        have : (P * sqrt (1 - pf ^ 2)) ^ 2 = P ^ 2 * (sqrt (1 - pf ^ 2) * sqrt (1 - pf ^ 2)) := by ring
        rw [this, hs2]
        nlinarith
      rcases sq_eq_sq_iff_eq_or_eq_neg.1 hsq with he | he
      · exact he
      · have h4 : (P * sqrt (1 - pf ^ 2)) * P = -(pf * (P * Q)) := by rw [he]; ring
        have h5 : 0 ≤ (P * sqrt (1 - pf ^ 2)) * P := by
          have : (P * sqrt (1 - pf ^ 2)) * P = P ^ 2 * sqrt (1 - pf ^ 2) := by ring
          rw [this]
          positivity
        have h6 : pf * (P * Q) = 0 := by linarith
        have h7 : Q = 0 := by
          rcases mul_eq_zero.1 h6 with h | h
          · exact absurd h hpf0
          · exact (mul_eq_zero.1 h).resolve_left hP
        rw [he, h7]
        ring
    congr 1
    have : P / n * 1000 * sqrt (1 - pf ^ 2) / pf = (P * sqrt (1 - pf ^ 2)) * 1000 / n / pf := by ring
    rw [this, key]
    field_simp

theorem ofDss_toDss {p : String} (h : p ∈ ["A", "B", "C"]) : ∃ n, toDssPhase p = some n ∧ ofDssPhase n = some p := by
  simp only [List.mem_cons, List.not_mem_nil, or_false] at h
  rcases h with rfl | rfl | rfl
  · exact ⟨1, rfl, rfl⟩
  · exact ⟨2, rfl, rfl⟩
  · exact ⟨3, rfl, rfl⟩

theorem suffix_known {K : Type} : ∀ (ps : List (PLoad K)), (∀ p ∈ ps, ∃ ph ∈ ["A", "B", "C"], p.phase = some ph) →
    ∃ ns : List Nat, (ps.filterMap (·.phase)).map toDssPhase = ns.map some ∧ ns.map ofDssPhase = ps.map (·.phase) := by
  intro ps
  induction ps with
  | nil => intro _; exact ⟨[], rfl, rfl⟩
  | cons p ps ih =>
    intro h
    obtain ⟨ns, h1, h2⟩ := ih fun q hq => h q (List.mem_cons_of_mem _ hq)
    obtain ⟨ph, hm, hp⟩ := h p List.mem_cons_self
    obtain ⟨n, h3, h4⟩ := ofDss_toDss hm
    refine ⟨n :: ns, ?_, ?_⟩
    · rw [List.filterMap_cons_some hp, List.map_cons, h1, h3]; rfl
    · rw [List.map_cons, h2, h4, List.map_cons, hp]

theorem pyLower_conn {c c' : String} (h : pyLower c' = pyLower c) : connOf (some c') = connOf (some c) := by
  unfold connOf
  simp only [h]

end Ditto.Dss
