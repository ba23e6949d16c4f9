import Verif.Lemmas.Carson
import Verif.Props.Kron
import Mathlib.Tactic.FieldSimp
import Mathlib.Tactic.Ring
import Mathlib.LinearAlgebra.Matrix.ToLinearEquiv

/-! C63: the impedances of lines that are computed from their wires follow Carson's equations. -/
namespace Ditto.Carson
open Ditto Ditto.Mat Ditto.Spec

/-- Any wires: the primitive impedances are those of Carson's equations, for radii that are not zero and distances that are not zero. -/
theorem C63_primitive {dist : Nat → Nat → Option ℝ} {n : Nat} {gs rs : List (Option ℝ)} {g r : Nat → ℝ} {d : Nat → Nat → ℝ}
    (hg : ∀ i < n, gs[i]? = some (some (g i)) ∧ g i ≠ 0) (hr : ∀ i < n, rs[i]? = some (some (r i)))
    (hd : ∀ i < n, ∀ j < n, i ≠ j → dist i j = some (d i j) ∧ d i j ≠ 0) :
    ∃ m, primMatrix dist n gs rs = .ok m ∧ IsMatrix n m fun i j => if i = j then selfZ (r i) (g i) else mutualZ (d i j) := by
  refine primMatrix_ok fun i hi j hj => ?_
  unfold primCell
  by_cases h : i = j
  · subst h
    rw [if_pos rfl, if_pos rfl, hr i hi, (hg i hi).1]
    simp only [carsonSelf]
    rw [if_neg (hg i hi).2]
    rfl
  · rw [if_neg h, if_neg h, (hd i hi j hj h).1]
    simp only [carsonMutual]
    rw [if_neg (hd i hi j hj h).2]
    rfl

/-- A missing radius or resistance, a radius of zero, or two wires at the same place raise `ValueError`: the first of them in the order of
the rows. -/
theorem C63_primitive_errors {dist : Nat → Nat → Option ℝ} {n : Nat} {gs rs : List (Option ℝ)} {g r : Nat → Option ℝ} {d : Nat → Nat → ℝ}
    (hg : ∀ i < n, gs[i]? = some (g i)) (hr : ∀ i < n, rs[i]? = some (r i))
    (hd : ∀ i < n, ∀ j < n, i ≠ j → dist i j = some (d i j)) :
    primMatrix dist n gs rs = .error .valueError ↔
      (∃ i < n, g i = none ∨ g i = some 0 ∨ r i = none) ∨ ∃ i < n, ∃ j < n, i ≠ j ∧ d i j = 0 := by
  have cell : ∀ i < n, ∀ j < n, (primCell dist gs rs i j = .error .valueError ∧
        ((i = j ∧ (g i = none ∨ g i = some 0 ∨ r i = none)) ∨ (i ≠ j ∧ d i j = 0))) ∨
      ((∃ y, primCell dist gs rs i j = .ok y) ∧ ¬ ((i = j ∧ (g i = none ∨ g i = some 0 ∨ r i = none)) ∨ (i ≠ j ∧ d i j = 0))) := by
    intro i hi j hj
    by_cases h : i = j
    · subst h
      simp only [primCell, hr i hi, hg i hi, if_true]
      cases hri : r i with
      | none => left; simp [carsonSelf]
      | some x =>
        cases hgi : g i with
        | none => left; simp [carsonSelf]
        | some y =>
          by_cases hy : y = 0
          · left; simp [carsonSelf, hy]
          · right; simp [carsonSelf, hy]
    · simp only [primCell, if_neg h, hd i hi j hj h]
      by_cases hy : d i j = 0
      · left; simp [carsonMutual, hy, h]
      · right; simp [carsonMutual, hy, h]
  constructor
  · intro h
    by_contra hc
    have hall : ∀ i < n, ∀ j < n, ∃ y, primCell dist gs rs i j = .ok y := by
      intro i hi j hj
      rcases cell i hi j hj with ⟨-, h1⟩ | ⟨h1, -⟩
      · exfalso
        rcases h1 with ⟨rfl, h1⟩ | ⟨h0, h1⟩
        · exact hc (.inl ⟨i, hi, h1⟩)
        · exact hc (.inr ⟨i, hi, j, hj, h0, h1⟩)
      · exact h1
    obtain ⟨m, hm, -⟩ := primMatrix_ok (dist := dist) (n := n) (gs := gs) (rs := rs) (V := fun i j => match primCell dist gs rs i j with | .ok y => y | .error _ => 0)
      fun i hi j hj => by obtain ⟨y, hy⟩ := hall i hi j hj; simp only [hy]
    rw [hm] at h
    cases h
  · intro h
    have row : ∀ i < n, (primRow dist gs rs n i = .error .valueError) ∨ ∃ y, primRow dist gs rs n i = .ok y := by
      intro i hi
      by_cases hx : ∃ j ∈ List.range n, primCell dist gs rs i j = .error .valueError
      · left
        refine mapM_error (fun j hj => ?_) hx
        rcases cell i hi j (List.mem_range.1 hj) with ⟨h1, -⟩ | ⟨h1, -⟩
        · exact .inl h1
        · exact .inr h1
      · right
        refine ⟨_, mapM_ok (g := fun j => match primCell dist gs rs i j with | .ok y => y | .error _ => 0) fun j hj => ?_⟩
        rcases cell i hi j (List.mem_range.1 hj) with ⟨h1, -⟩ | ⟨⟨y, hy⟩, -⟩
        · exact absurd ⟨j, hj, h1⟩ hx
        · simp only [hy]
    have bad : ∃ i < n, ∃ j < n, primCell dist gs rs i j = .error .valueError := by
      rcases h with ⟨i, hi, h1⟩ | ⟨i, hi, j, hj, h0, h1⟩
      · refine ⟨i, hi, i, hi, ?_⟩
        rcases cell i hi i hi with ⟨h2, -⟩ | ⟨-, h2⟩
        · exact h2
        · exact absurd (.inl ⟨rfl, h1⟩) h2
      · refine ⟨i, hi, j, hj, ?_⟩
        rcases cell i hi j hj with ⟨h2, -⟩ | ⟨-, h2⟩
        · exact h2
        · exact absurd (.inr ⟨h0, h1⟩) h2
    obtain ⟨i, hi, j, hj, hb⟩ := bad
    refine mapM_error (fun i hi => row i (List.mem_range.1 hi)) ⟨i, List.mem_range.2 hi, ?_⟩
    refine mapM_error (fun j hj => ?_) ⟨j, List.mem_range.2 hj, hb⟩
    rcases cell i hi j (List.mem_range.1 hj) with ⟨h1, -⟩ | ⟨h1, -⟩
    · exact .inl h1
    · exact .inr h1

/-- Sequence impedances are never computed, for any number of wires and any values. -/
theorem C63_sequence_violated (dist : Nat → Nat → Option ℝ) (n : Nat) (gs rs : List (Option ℝ)) :
    ∃ e, seqImpedances dist n gs rs = .error e := by
  unfold seqImpedances
  cases primMatrix dist n gs rs with
  | error e => exact ⟨e, rfl⟩
  | ok prim =>
    simp only
    cases hk : kronReduction (entry prim) n none with
    | error e => exact ⟨e, rfl⟩
    | ok x =>
      obtain ⟨p, m⟩ := x
      have hp : p ≤ 1 := by
        by_contra hp
        by_cases hn : 3 ≤ n
        · rw [C05_default_violated _ n hn] at hk
          cases hk
        · unfold kronReduction at hk
          dsimp only at hk
          split at hk
          · cases hk
          · split at hk
            · cases hk
            · split at hk
              · split at hk
                · cases hk
                · split at hk
                  · cases hk
                  · cases hk
                    simp only [Option.getD_none, List.length_singleton] at hp
                    omega
              · cases hk
      refine ⟨.valueError, ?_⟩
      obtain rfl | rfl : p = 0 ∨ p = 1 := by omega
      · simp [sequenceMatrix, seqComponent]
      · simp [sequenceMatrix, seqComponent]

/-! ### overhead lines -/

/-- what the code computes for overhead wires -/
noncomputable def rawOverhead (ws : List CWire) (d : Nat → Nat → ℝ) (i j : Nat) : ℂ :=
  if i = j then
    match ws[i]? with
    | some w => selfZ (perFt (orElse 0 w.resistance)) (feet (orElse 0 w.gmr))
    | none => 0
  else mutualZ (feet (d i j))

theorem overhead_prim {ws : List CWire} {d : Nat → Nat → ℝ} {dist : List (List (Option ℝ))} (hw : ∀ w ∈ ws, KnownWire w)
    (hd : ∀ i < ws.length, ∀ j < ws.length, i ≠ j → at2 dist i j = some (feet (d i j)))
    (hpos : ∀ i j, i < ws.length → j < ws.length → i ≠ j → 0 < d i j) :
    ∃ l m, ws.mapM overheadWire = .ok l ∧ (l = [] ↔ ws = []) ∧
      primMatrix (at2 dist) ws.length (l.map fun x => some x.1) (l.map fun x => some x.2) = .ok m ∧ IsMatrix ws.length m (rawOverhead ws d) := by
  have h1 : ws.mapM overheadWire = .ok (ws.map fun w => (toFt (orElse 0 w.gmr), perFt (orElse 0 w.resistance))) := by
    refine mapM_ok fun w hw' => ?_
    obtain ⟨⟨g, hg, -⟩, r, hr⟩ := hw w hw'
    simp [overheadWire, hg, hr, orElse]
  have h2 := primMatrix_ok (dist := at2 dist) (n := ws.length)
    (gs := (ws.map fun w => (toFt (orElse 0 w.gmr), perFt (orElse 0 w.resistance))).map fun x => some x.1)
    (rs := (ws.map fun w => (toFt (orElse 0 w.gmr), perFt (orElse 0 w.resistance))).map fun x => some x.2)
    (V := rawOverhead ws d) ?_
  · obtain ⟨m, hm, hm'⟩ := h2
    exact ⟨_, m, h1, by simp, hm, hm'⟩
  · intro i hi j hj
    unfold primCell rawOverhead
    by_cases h : i = j
    · subst h
      rw [if_pos rfl, if_pos rfl]
      have hw' := hw ws[i] (List.getElem_mem hi)
      obtain ⟨⟨g, hg, hg0⟩, r, hr⟩ := hw'
      have hne : toFt g ≠ 0 := by unfold toFt; positivity
      simp only [List.map_map, List.getElem?_map, List.getElem?_eq_getElem hi, Option.map_some, Function.comp_apply, hg, hr, orElse, carsonSelf]
      rw [if_neg hne]
      rfl
    · rw [if_neg h, if_neg h, hd i hi j hj h]
      have hne : feet (d i j) ≠ 0 := by
        have := hpos i j hi hj h
        unfold feet; positivity
      simp [carsonMutual, hne, mutualZ]

/-- Overhead lines: mutual impedances and reactances are those of Carson's equations. (Missing: the resistances of the wires,
`C63_resistance_violated`; reduction of a neutral, `C63_reduction_violated`.) -/
theorem C63_overhead_partial {ws : List CWire} {dm : List (List (Option ℝ))} {d : Nat → Nat → ℝ} {kron : Option Bool} (hne : ws ≠ [])
    (h4 : ws.length ≠ 4) (hk : kron ≠ some true) (hw : ∀ w ∈ ws, KnownWire w) (hd : Distances ws.length dm d) :
    ∃ m Z, phaseImpedances ws (some dm) true kron = .ok m ∧ IsMatrix ws.length m Z ∧
      (∀ i j, i ≠ j → Z i j = mutualZ (feet (d i j)) / 1609.34) ∧
      (∀ i w g r, ws[i]? = some w → w.gmr = some g → w.resistance = some r →
        Z i i = selfZ (r / 3.28084) (feet g) / 1609.34 ∧ (Z i i).im = (selfZ (perMile r) (feet g) / 1609.34).im) := by
  obtain ⟨dist, hdist, hat⟩ := distancesFt_ok hd
  obtain ⟨l, m, hl, hle, hm, hm'⟩ := overhead_prim hw hat hd.pos
  have him : ∀ z : ℂ, (z / 1609.34).im = z.im / 1609.34 := by
    intro z
    have : (1609.34 : ℂ) = ((1609.34 : ℝ) : ℂ) := by norm_num
    rw [this, Complex.div_ofReal_im]
  refine ⟨m.map fun row => row.map fromPerMi, fun i j => rawOverhead ws d i j / 1609.34, ?_, ?_, ?_, ?_⟩
  · unfold phaseImpedances
    simp only [givenDistances, hdist]
    rw [if_pos trivial]
    unfold overheadImpedances
    simp only [hl]
    rw [if_neg (by rw [hle]; exact hne)]
    simp only [hm]
    rw [if_neg]
    simp [kronFlag, h4, hk]
  · unfold IsMatrix at hm' ⊢
    subst hm'
    simp [fromPerMi, Function.comp_def]
  · intro i j hij
    simp [rawOverhead, hij]
  · intro i w g r hi hg hr
    simp only [rawOverhead, if_true, hi, hg, hr, orElse]
    refine ⟨rfl, ?_⟩
    rw [him, him]
    rfl

/-- The resistance of a wire is taken in ohms per foot where Carson's equation needs ohms per mile, so that every self impedance of an
overhead line is wrong unless the resistance is zero. -/
theorem C63_resistance_violated {ws : List CWire} {dm : List (List (Option ℝ))} {d : Nat → Nat → ℝ} {kron : Option Bool}
    (h4 : ws.length ≠ 4) (hk : kron ≠ some true) (hw : ∀ w ∈ ws, KnownWire w) (hd : Distances ws.length dm d) {i : Nat} {w : CWire} {g r : ℝ}
    (hi : ws[i]? = some w) (hg : w.gmr = some g) (hr : w.resistance = some r) (h0 : r ≠ 0) :
    ∃ m Z, phaseImpedances ws (some dm) true kron = .ok m ∧ IsMatrix ws.length m Z ∧ Z i i ≠ selfZ (perMile r) (feet g) / 1609.34 := by
  have hne : ws ≠ [] := by rintro rfl; cases hi
  obtain ⟨m, Z, h1, h2, -, h3⟩ := C63_overhead_partial hne h4 hk hw hd
  refine ⟨m, Z, h1, h2, ?_⟩
  rw [(h3 i w g r hi hg hr).1]
  intro h
  have h5 : selfZ (r / 3.28084) (feet g) = selfZ (perMile r) (feet g) := by
    have : (1609.34 : ℂ) ≠ 0 := by norm_num
    field_simp at h
    exact h
  have h6 := congrArg Complex.re h5
  simp only [selfZ, perMile, add_left_inj] at h6
  apply h0
  have : r * (1 / 3.28084 - 1 / 0.000621371) = 0 := by linear_combination h6
  rcases mul_eq_zero.1 this with h | h
  · exact h
  · norm_num at h

/-- The matrix of an overhead line is symmetric if the distances are. -/
theorem C63_symmetric {ws : List CWire} {dm : List (List (Option ℝ))} {d : Nat → Nat → ℝ} {kron : Option Bool} {m : List (List ℂ)}
    (hw : ∀ w ∈ ws, KnownWire w) (hd : Distances ws.length dm d) (hs : ∀ i j, d i j = d j i)
    (h : phaseImpedances ws (some dm) true kron = .ok m) :
    ∃ Z, IsMatrix ws.length m Z ∧ ∀ i j, Z i j = Z j i := by
  obtain ⟨dist, hdist, hat⟩ := distancesFt_ok hd
  obtain ⟨l, p, hl, hle, hm, hm'⟩ := overhead_prim hw hat hd.pos
  unfold phaseImpedances at h
  simp only [givenDistances, hdist] at h
  rw [if_pos trivial] at h
  unfold overheadImpedances at h
  simp only [hl, hm] at h
  split at h
  · cases h
  · split at h
    · cases h
    · cases h
      refine ⟨fun i j => fromPerMi (rawOverhead ws d i j), ?_, fun i j => ?_⟩
      · unfold IsMatrix at hm' ⊢
        subst hm'
        simp [Function.comp_def]
      · unfold rawOverhead
        by_cases hij : i = j
        · subst hij; rfl
        · dsimp only
          rw [if_neg hij, if_neg (Ne.symm hij), hs]

/-- With four wires, or if it is asked for, the reduction of the neutral raises `AttributeError`. -/
theorem C63_reduction_violated {ws : List CWire} {dm : List (List (Option ℝ))} {d : Nat → Nat → ℝ} {kron : Option Bool} (hne : ws ≠ [])
    (hk : ws.length = 4 ∨ kron = some true) (hw : ∀ w ∈ ws, KnownWire w) (hd : Distances ws.length dm d) :
    phaseImpedances ws (some dm) true kron = .error .attributeError := by
  obtain ⟨dist, hdist, hat⟩ := distancesFt_ok hd
  obtain ⟨l, p, hl, hle, hm, hm'⟩ := overhead_prim hw hat hd.pos
  unfold phaseImpedances
  simp only [givenDistances, hdist]
  rw [if_pos trivial]
  unfold overheadImpedances
  simp only [hl, hm]
  rw [if_neg (by rw [hle]; exact hne), if_pos]
  unfold kronFlag
  rcases hk with hk | hk
  · rw [if_pos hk]
  · split
    · rfl
    · simp [hk]

/-- A missing radius or resistance of an overhead wire is not replaced by a default value: it raises `NameError`. -/
theorem C63_missing_violated {ws : List CWire} {dm : List (List (Option ℝ))} {d : Nat → Nat → ℝ} {kron : Option Bool}
    (hd : Distances ws.length dm d) (hw : ∃ w ∈ ws, w.gmr = none ∨ w.resistance = none) :
    phaseImpedances ws (some dm) true kron = .error .nameError := by
  obtain ⟨dist, hdist, -⟩ := distancesFt_ok hd
  have : ws.mapM overheadWire = .error .nameError := by
    refine mapM_error (fun w _ => ?_) ?_
    · unfold overheadWire
      cases w.gmr <;> cases w.resistance <;> simp
    · obtain ⟨w, hw, h⟩ := hw
      refine ⟨w, hw, ?_⟩
      unfold overheadWire
      rcases h with h | h <;> cases hg : w.gmr <;> cases hr : w.resistance <;> simp_all
  unfold phaseImpedances overheadImpedances
  simp [givenDistances, hdist, this]

/-- Without distances the wires are 60 cm apart, and cables 30 cm. -/
theorem C63_default_distances (ws : List CWire) (overhead : Bool) (kron : Option Bool) :
    ∃ dm, Distances ws.length dm (fun i j => |(i : ℝ) - j| * (if overhead then 0.6 else 0.3)) ∧
      phaseImpedances ws none overhead kron = phaseImpedances ws (some dm) overhead kron := by
  refine ⟨defaultDistances ws.length overhead, ⟨by simp [defaultDistances], ?_, ?_, ?_⟩, rfl⟩
  · intro row hrow
    simp only [defaultDistances, List.mem_map] at hrow
    obtain ⟨i, -, rfl⟩ := hrow
    simp
  · intro i j row _ hj hrow
    have hi : i < ws.length := by
      have := (List.getElem?_eq_some_iff.1 hrow).1
      simpa [defaultDistances] using this
    simp only [defaultDistances, List.getElem?_map, List.getElem?_range hi, Option.map_some, Option.some.injEq] at hrow
    subst hrow
    simp [hj]
  · intro i j _ _ hij
    have : (i : ℝ) - j ≠ 0 := by
      rw [sub_ne_zero]
      exact_mod_cast hij
    have := abs_pos.2 this
    split <;> positivity

/-- The number of rows of the distances must be that of the wires, and each row must be long enough. -/
theorem C63_sizes (ws : List CWire) (dm : List (List (Option ℝ))) (overhead : Bool) (kron : Option Bool) :
    (dm.length ≠ ws.length → phaseImpedances ws (some dm) overhead kron = .error .valueError) ∧
    (dm.length = ws.length → (∃ row ∈ dm, row.length < ws.length) → phaseImpedances ws (some dm) overhead kron = .error .indexError) ∧
    (ws = [] → phaseImpedances ws none overhead kron = .error .valueError) := by
  refine ⟨fun h => ?_, fun h hr => ?_, fun h => ?_⟩
  · unfold phaseImpedances distancesFt
    simp [givenDistances, Ne.symm h]
  · have : distancesFt dm ws.length = .error .indexError := by
      have cell : ∀ i j, ((cellOf dm i j).map (Option.map toFt) = .error .indexError) ∨ ∃ y, (cellOf dm i j).map (Option.map toFt) = .ok y := by
        intro i j
        unfold cellOf
        cases dm[i]? with
        | none => left; rfl
        | some row =>
          simp only
          cases row[j]? with
          | none => left; rfl
          | some x => right; exact ⟨_, rfl⟩
      have row : ∀ i, ((List.range ws.length).mapM fun j => (cellOf dm i j).map (Option.map toFt)) = .error .indexError ∨
          ∃ y, ((List.range ws.length).mapM fun j => (cellOf dm i j).map (Option.map toFt)) = .ok y := by
        intro i
        by_cases hx : ∃ j ∈ List.range ws.length, (cellOf dm i j).map (Option.map toFt) = .error .indexError
        · exact .inl (mapM_error (fun j _ => cell i j) hx)
        · right
          refine ⟨_, mapM_ok (g := fun j => match (cellOf dm i j).map (Option.map toFt) with | .ok y => y | .error _ => none) fun j hj => ?_⟩
          rcases cell i j with h1 | ⟨y, hy⟩
          · exact absurd ⟨j, hj, h1⟩ hx
          · simp only [hy]
      unfold distancesFt
      rw [if_neg (by rw [h]; simp)]
      obtain ⟨r, hr, hlt⟩ := hr
      obtain ⟨i, hi, hri⟩ := List.getElem_of_mem hr
      refine mapM_error (fun i _ => row i) ⟨i, by rw [List.mem_range, ← h]; exact hi, ?_⟩
      refine mapM_error (fun j _ => cell i j) ⟨r.length, List.mem_range.2 hlt, ?_⟩
      simp [cellOf, List.getElem?_eq_getElem hi, hri]
      rfl
    unfold phaseImpedances
    simp [givenDistances, this]
  · subst h
    unfold phaseImpedances distancesFt overheadImpedances cableImpedances
    cases overhead <;> simp [givenDistances, defaultDistances] <;> rfl

/-! ### cables -/

theorem cableOf_known {w : CWire} {c : Cable} (h : KnownCable w c) : cableOf w = c := by
  unfold cableOf
  rw [h.gmr, h.resistance, h.neutralGmr, h.strands, h.neutralDiameter, h.outsideDiameter, h.neutralResistance]
  rfl

/-- what the code computes for a cable -/
noncomputable def rawCableFt (c : Cable) : CableFt where
  g := feet c.gmr
  r := perFt c.resistance
  gn := neutralRadius c
  rn := strandResistance c
  radius := circleRadius c

theorem cables_ft {ws : List CWire} {cs : List Cable} (h : List.Forall₂ KnownCable ws cs) :
    (ws.mapM fun w => cableFt (cableOf w)) = .ok (cs.map rawCableFt) := by
  induction h with
  | nil => rfl
  | @cons w c ws cs hw _ ih =>
    have : cableFt (cableOf w) = .ok (rawCableFt c) := by
      rw [cableOf_known hw]
      unfold cableFt
      rw [if_neg (by have := hw.strands_pos; omega)]
      rfl
    rw [List.mapM_cons, this, ih]
    rfl

/-- a symmetric complex matrix whose real part is a constant plus positive numbers on the diagonal is invertible -/
theorem det_ne_zero {n : Nat} (Z : Matrix (Fin n) (Fin n) ℂ) (hs : ∀ i j, Z i j = Z j i) {k : ℝ} (hk : 0 ≤ k) {r : Fin n → ℝ}
    (hr : ∀ i, 0 < r i) (hre : ∀ i j, (Z i j).re = k + if i = j then r i else 0) : Z.det ≠ 0 := by
  intro h0
  obtain ⟨v, hv, hz⟩ := Matrix.exists_mulVec_eq_zero_iff.2 h0
  have hz' : ∀ i, ∑ j, Z i j * v j = 0 := fun i => congrFun hz i
  have h1 : ∑ i, (starRingEnd ℂ (v i) * ∑ j, Z i j * v j).re = 0 := by
    simp [hz']
  have hre' : ∀ i, (∑ j, Z i j * v j).re = ∑ j, ((Z i j).re * (v j).re - (Z i j).im * (v j).im) := by
    intro i; simp [Complex.mul_re]
  have him' : ∀ i, (∑ j, Z i j * v j).im = ∑ j, ((Z i j).re * (v j).im + (Z i j).im * (v j).re) := by
    intro i; simp [Complex.mul_im]
  simp only [Complex.mul_re, Complex.conj_re, Complex.conj_im, hre', him'] at h1
  have h2 : ∑ i, ∑ j, ((Z i j).re * ((v i).re * (v j).re + (v i).im * (v j).im) + (Z i j).im * ((v i).im * (v j).re - (v i).re * (v j).im)) = 0 := by
    rw [← h1]
    refine Finset.sum_congr rfl fun i _ => ?_
    rw [Finset.mul_sum, Finset.mul_sum, ← Finset.sum_sub_distrib]
    refine Finset.sum_congr rfl fun j _ => ?_
    ring
  have h3 : ∑ i, ∑ j, (Z i j).im * ((v i).im * (v j).re - (v i).re * (v j).im) = 0 := by
    have hsw : ∑ i, ∑ j, (Z i j).im * ((v i).im * (v j).re - (v i).re * (v j).im) =
        - ∑ i, ∑ j, (Z i j).im * ((v i).im * (v j).re - (v i).re * (v j).im) := by
      conv_lhs => rw [Finset.sum_comm]
      rw [← Finset.sum_neg_distrib]
      refine Finset.sum_congr rfl fun i _ => ?_
      rw [← Finset.sum_neg_distrib]
      refine Finset.sum_congr rfl fun j _ => ?_
      rw [hs j i]
      ring
    linarith
  have h4 : ∑ i, ∑ j, (Z i j).re * ((v i).re * (v j).re + (v i).im * (v j).im) = 0 := by
    simp only [Finset.sum_add_distrib] at h2
    rw [h3, add_zero] at h2
    exact h2
  have h5 : k * ((∑ i, (v i).re) ^ 2 + (∑ i, (v i).im) ^ 2) + ∑ i, r i * ((v i).re ^ 2 + (v i).im ^ 2) = 0 := by
    rw [← h4]
    simp only [hre, add_mul, Finset.sum_add_distrib, ite_mul, zero_mul, Finset.sum_ite_eq, Finset.mem_univ, if_true]
    congr 1
    · have e : (∑ i, (v i).re) ^ 2 + (∑ i, (v i).im) ^ 2 = ∑ i, ∑ j, ((v i).re * (v j).re + (v i).im * (v j).im) := by
        simp only [pow_two, Finset.sum_mul_sum, Finset.sum_add_distrib]
      rw [e]
      simp only [Finset.mul_sum]
    · refine Finset.sum_congr rfl fun i _ => ?_
      ring
  have h6 : ∀ i ∈ Finset.univ, 0 ≤ r i * ((v i).re ^ 2 + (v i).im ^ 2) := by
    intro i _
    have := hr i
    positivity
  have h7 : ∑ i, r i * ((v i).re ^ 2 + (v i).im ^ 2) = 0 := by
    have a1 := Finset.sum_nonneg h6
    have a2 : 0 ≤ k * ((∑ i, (v i).re) ^ 2 + (∑ i, (v i).im) ^ 2) := by positivity
    linarith
  apply hv
  ext i
  have h8 := (Finset.sum_eq_zero_iff_of_nonneg h6).1 h7 i (Finset.mem_univ i)
  have h9 : (v i).re ^ 2 + (v i).im ^ 2 = 0 := (mul_eq_zero.1 h8).resolve_left (hr i).ne'
  have ha : (v i).re = 0 := by nlinarith [sq_nonneg (v i).re, sq_nonneg (v i).im]
  have hb : (v i).im = 0 := by nlinarith [sq_nonneg (v i).re, sq_nonneg (v i).im]
  exact Complex.ext ha hb

/-- what the code takes for the impedances between cables and neutrals -/
noncomputable def rawCableZ (n : Nat) (c : Nat → Cable) (d : Nat → Nat → ℝ) (i j : Nat) : ℂ :=
  cableZ n c d i j - if i = j ∧ i < n then ((perMile (c i).resistance - perFt (c i).resistance : ℝ) : ℂ) else 0

theorem feet_pos {x : ℝ} (h : 0 < x) : 0 < feet x := by unfold feet; positivity

theorem circle_pos {w : CWire} {c : Cable} (h : KnownCable w c) : 0 < circleRadius c :=
  feet_pos (by have := h.circle; linarith)

theorem neutral_pos {w : CWire} {c : Cable} (h : KnownCable w c) : 0 < neutralRadius c := by
  unfold neutralRadius
  apply Real.rpow_pos_of_pos
  have h1 := feet_pos h.neutralGmr_pos
  have h2 := circle_pos h
  have h3 : (0 : ℝ) < c.strands := by exact_mod_cast h.strands_pos
  positivity

theorem cable_cell {ws : List CWire} {cs : List Cable} (h : List.Forall₂ KnownCable ws cs) {c : Nat → Cable}
    (hc : ∀ i x, cs[i]? = some x → c i = x) {dist : Nat → Nat → Option ℝ} {d : Nat → Nat → ℝ}
    (hd : ∀ i < ws.length, ∀ j < ws.length, i ≠ j → dist i j = some (feet (d i j)))
    (hpos : ∀ i j, i < ws.length → j < ws.length → i ≠ j → 0 < d i j) (i : Nat) (hi : i < 2 * ws.length) (j : Nat) (hj : j < 2 * ws.length) :
    primCell (cableDistance ws.length dist ((cs.map rawCableFt).map (·.radius)))
      (((cs.map rawCableFt).map fun x => some x.g) ++ (cs.map rawCableFt).map fun x => some x.gn)
      (((cs.map rawCableFt).map fun x => some x.r) ++ (cs.map rawCableFt).map fun x => some x.rn) i j =
      .ok (rawCableZ ws.length c d i j) := by
  have hl : cs.length = ws.length := h.length_eq.symm
  have known : ∀ k < ws.length, ∃ w, KnownCable w (c k) ∧ cs[k]? = some (c k) := by
    intro k hk
    have hk' : k < cs.length := by omega
    have h1 := List.forall₂_iff_get.1 h
    have h2 := h1.2 k hk hk'
    have h3 : cs[k]? = some cs[k] := List.getElem?_eq_getElem hk'
    have h4 : c k = cs[k] := hc k _ h3
    rw [h4]
    exact ⟨ws[k], h2, h3⟩
  have low : ∀ k, k < ws.length → k % ws.length = k := fun k hk => Nat.mod_eq_of_lt hk
  have high : ∀ k, ¬ k < ws.length → k < 2 * ws.length → k % ws.length = k - ws.length := by
    intro k h1 h2
    rw [Nat.mod_eq_sub_mod (by omega), Nat.mod_eq_of_lt (by omega)]
  unfold primCell rawCableZ cableZ
  by_cases hij : i = j
  · subst hij
    rw [if_pos rfl, if_pos rfl]
    by_cases hlt : i < ws.length
    · obtain ⟨w, hw, hk⟩ := known i hlt
      have hg : feet (c i).gmr ≠ 0 := (feet_pos hw.gmr_pos).ne'
      rw [List.getElem?_append_left (by simp; omega), List.getElem?_append_left (by simp; omega)]
      simp only [List.map_map, List.getElem?_map, hk, Option.map_some, Function.comp_apply, rawCableFt, carsonSelf]
      rw [if_neg hg, if_pos hlt, if_pos ⟨trivial, hlt⟩]
      congr 1
      apply Complex.ext
      · simp [selfZ]
        ring
      · simp [selfZ]
    · have hlt' : i - ws.length < ws.length := by omega
      obtain ⟨w, hw, hk⟩ := known _ hlt'
      have hg := (neutral_pos hw).ne'
      rw [List.getElem?_append_right (by simp; omega), List.getElem?_append_right (by simp; omega)]
      simp only [List.map_map, List.getElem?_map, List.length_map, hl, hk, Option.map_some, Function.comp_apply, rawCableFt, carsonSelf]
      rw [if_neg hg, if_neg hlt, if_neg (fun h => hlt h.2), sub_zero]
      rfl
  · have hno : ¬ (i = j ∧ i < ws.length) := fun h => hij h.1
    rw [if_neg hij, if_neg hij, if_neg hno, sub_zero]
    have hmut : ∀ x : ℝ, 0 < x → carsonMutual (some x) = .ok (mutualZ x) := by
      intro x hx
      simp [carsonMutual, hx.ne', mutualZ]
    have hrad : ∀ k < ws.length, ((cs.map rawCableFt).map (·.radius))[k]? = some (circleRadius (c k)) ∧ 0 < circleRadius (c k) := by
      intro k hk
      obtain ⟨w, hw, hk'⟩ := known k hk
      exact ⟨by simp [hk', rawCableFt], circle_pos hw⟩
    unfold cableDistance
    by_cases h1 : i < ws.length <;> by_cases h2 : j < ws.length
    · rw [if_pos h1, if_pos h2, low i h1, low j h2, if_neg hij, hd i h1 j h2 hij, hmut _ (feet_pos (hpos i j h1 h2 hij))]
    · rw [if_pos h1, if_neg h2, low i h1, high j h2 hj]
      by_cases h3 : i = j - ws.length
      · rw [if_pos h3, if_pos h3, (hrad i h1).1, hmut _ (hrad i h1).2]
      · rw [if_neg h3, if_neg h3, hd i h1 _ (by omega) h3, hmut _ (feet_pos (hpos i _ h1 (by omega) h3))]
    · rw [if_neg h1, if_pos h2, high i h1 hi, low j h2]
      by_cases h3 : i - ws.length = j
      · rw [if_pos h3, if_pos h3, (hrad j h2).1, h3, hmut _ (hrad j h2).2]
      · rw [if_neg h3, if_neg h3, hd _ (by omega) j h2 h3, hmut _ (feet_pos (hpos _ j (by omega) h2 h3))]
    · have h3 : i - ws.length ≠ j - ws.length := by omega
      rw [if_neg h1, if_neg h2, high i h1 hi, high j h2 hj, if_neg h3, hd _ (by omega) _ (by omega) h3,
        hmut _ (feet_pos (hpos _ _ (by omega) (by omega) h3))]

theorem rawCableZ_symm {n : Nat} {c : Nat → Cable} {d : Nat → Nat → ℝ} (hs : ∀ i j, d i j = d j i) (i j : Nat) :
    rawCableZ n c d i j = rawCableZ n c d j i := by
  by_cases h : i = j
  · subst h; rfl
  · have h' : ¬ j = i := fun x => h x.symm
    have h1 : ¬ (i = j ∧ i < n) := fun x => h x.1
    have h2 : ¬ (j = i ∧ j < n) := fun x => h' x.1
    unfold rawCableZ cableZ
    rw [if_neg h1, if_neg h2, if_neg h, if_neg h']
    by_cases hm : i % n = j % n
    · rw [if_pos hm, if_pos hm.symm, hm]
    · rw [if_neg hm, if_neg (Ne.symm hm), hs]

/-- the numbers of the neutrals of `n` cables -/
theorem neutrals_lists (n : Nat) :
    phaseList (2 * n) ((List.range n).map (· + n)) = List.range n ∧
    neutralList (2 * n) ((List.range n).map (· + n)) = (List.range n).map (· + n) := by
  have hr : List.range (2 * n) = List.range n ++ (List.range n).map (n + ·) := by rw [two_mul, List.range_add]
  have hc : (List.range n).map (n + ·) = (List.range n).map (· + n) := by
    apply List.map_congr_left; intro x _; omega
  have hmem : ∀ x, x ∈ (List.range n).map (· + n) ↔ n ≤ x ∧ x < 2 * n := by
    intro x
    simp only [List.mem_map, List.mem_range]
    constructor
    · rintro ⟨a, ha, rfl⟩; omega
    · intro h; exact ⟨x - n, by omega, by omega⟩
  constructor
  · unfold phaseList
    rw [hr, List.filter_append, List.filter_eq_self.2, List.filter_eq_nil_iff.2, List.append_nil]
    · intro a ha
      rw [hc] at ha
      simpa using ha
    · intro a ha
      have := List.mem_range.1 ha
      simp only [Bool.not_eq_true', decide_eq_false_iff_not, hmem]
      omega
  · unfold neutralList
    rw [hr, List.filter_append, List.filter_eq_nil_iff.2, List.filter_eq_self.2, List.nil_append, hc]
    · intro a ha
      rw [hc] at ha
      simpa using ha
    · intro a ha
      have := List.mem_range.1 ha
      simp only [decide_eq_true_eq, hmem]
      omega

theorem cable_kron {n : Nat} (hn : 0 < n) {c : Nat → Cable} {d : Nat → Nat → ℝ} (hs : ∀ i j, d i j = d j i)
    (hr : ∀ i < n, 0 < (c i).neutralResistance ∧ 0 < (c i).strands) {m : Nat → Nat → ℂ}
    (hm : ∀ i < 2 * n, ∀ j < 2 * n, m i j = rawCableZ n c d i j) :
    ∃ M : Matrix (Fin n) (Fin n) ℂ, kronReduction m (2 * n) (some ((List.range n).map (· + n))) = .ok ⟨n, M⟩ ∧
      IsKronReduction m (2 * n) ((List.range n).map (· + n)) n M := by
  obtain ⟨hp, hq⟩ := neutrals_lists n
  have hlen : ((List.range n).map (· + n)).length = n := by simp
  have hsub : 2 * n - ((List.range n).map (· + n)).length = n := by rw [hlen]; omega
  have hsym : ∀ i < 2 * n, ∀ j < 2 * n, m i j = m j i := by
    intro i hi j hj
    rw [hm i hi j hj, hm j hj i hi, rawCableZ_symm hs]
  have hcross : ∀ i < n, ∀ j < n, m i (j + n) = m j (i + n) := by
    intro i hi j hj
    rw [hm i (by omega) _ (by omega), hm j (by omega) _ (by omega)]
    have e1 : ¬ (i = j + n ∧ i < n) := by omega
    have e2 : ¬ (j = i + n ∧ j < n) := by omega
    have e3 : ¬ i = j + n := by omega
    have e4 : ¬ j = i + n := by omega
    unfold rawCableZ cableZ
    rw [if_neg e1, if_neg e2, if_neg e3, if_neg e4]
    simp only [Nat.add_mod_right, Nat.mod_eq_of_lt hi, Nat.mod_eq_of_lt hj]
    by_cases hij : i = j
    · subst hij; rfl
    · rw [if_neg hij, if_neg (Ne.symm hij), hs]
  have key := C05_symmetric_partial m (2 * n) ((List.range n).map (· + n)) ?_ ?_ ?_ (fun r => r.val) ?_ (fun r => r.val + n) ?_ ?_ ?_ ?_ ?_ ?_
  · rw [hsub] at key
    exact key
  · refine ⟨?_, ?_⟩
    · exact List.Nodup.map (fun a b h => by simpa using h) List.nodup_range
    · intro i hi
      simp only [List.mem_map, List.mem_range] at hi
      obtain ⟨a, ha, rfl⟩ := hi
      omega
  · rw [hlen]; exact hn
  · rw [hsub, hlen]
  · intro r
    have := r.isLt
    rw [hp, List.getElem?_range (by omega)]
  · intro r
    have := r.isLt
    rw [hq, List.getElem?_map, List.getElem?_range (by omega)]
    rfl
  · intro a b
    have := a.isLt
    have := b.isLt
    exact hsym _ (by omega) _ (by omega)
  · intro a b
    have := a.isLt
    have := b.isLt
    exact hsym _ (by omega) _ (by omega)
  · intro a b
    have := a.isLt
    have := b.isLt
    exact hcross _ (by omega) _ (by omega)
  · intro a b
    have := a.isLt
    have := b.isLt
    show m (a.val + n) b.val = m (b.val + n) a.val
    rw [hsym _ (by omega) _ (by omega), hsym (b.val + n) (by omega) _ (by omega)]
    exact hcross _ (by omega) _ (by omega)
  · refine det_ne_zero _ ?_ (k := 0.0953) (by norm_num) (r := fun i => strandResistance (c i.val)) ?_ ?_
    · intro a b
      have := a.isLt
      have := b.isLt
      exact hsym _ (by omega) _ (by omega)
    · intro a
      have h1 : a.val < n := by have := a.isLt; omega
      obtain ⟨h2, h3⟩ := hr a.val h1
      have h4 : (0 : ℝ) < (c a.val).strands := by exact_mod_cast h3
      unfold strandResistance perMile
      positivity
    · intro a b
      have h1 : a.val < n := by have := a.isLt; omega
      have h2 : b.val < n := by have := b.isLt; omega
      simp only [Matrix.of_apply]
      rw [hm _ (by omega) _ (by omega)]
      have e1 : ¬ (a.val + n = b.val + n ∧ a.val + n < n) := by omega
      unfold rawCableZ cableZ
      rw [if_neg e1, sub_zero]
      by_cases hab : a = b
      · subst hab
        rw [if_pos rfl, if_neg (by omega), if_pos rfl]
        simp [selfZ, add_comm]
      · have hab' : ¬ a.val = b.val := fun h => hab (Fin.ext h)
        rw [if_neg (by omega), if_neg hab]
        simp only [Nat.add_mod_right, Nat.mod_eq_of_lt h1, Nat.mod_eq_of_lt h2]
        rw [if_neg hab']
        simp [mutualZ]

/-- A Kron reduction with other self impedances of the phases differs from it only in these. -/
theorem kron_diag {n : Nat} {m m' : Nat → Nat → ℂ} {e : Nat → ℂ} (hm : ∀ i < 2 * n, ∀ j < 2 * n, m' i j = m i j + if i = j ∧ i < n then e i else 0)
    {M : Matrix (Fin n) (Fin n) ℂ} (h : IsKronReduction m (2 * n) ((List.range n).map (· + n)) n M) :
    IsKronReduction m' (2 * n) ((List.range n).map (· + n)) n (M + Matrix.diagonal fun i => e i.val) := by
  obtain ⟨hp, hq⟩ := neutrals_lists n
  have hdrop : ∀ cur i, i < 2 * n → drop m' (2 * n) cur i = drop m (2 * n) cur i + if i < n then e i * cur i else 0 := by
    intro cur i hi
    unfold drop
    have : ∀ j ∈ Finset.range (2 * n), m' i j * cur j = m i j * cur j + if i = j then (if i < n then e i * cur i else 0) else 0 := by
      intro j hj
      rw [hm i hi j (Finset.mem_range.1 hj), add_mul]
      congr 1
      by_cases hij : i = j
      · subst hij
        by_cases hin : i < n <;> simp [hin]
      · simp [hij]
    rw [Finset.sum_congr rfl this, Finset.sum_add_distrib, Finset.sum_ite_eq, if_pos (Finset.mem_range.2 hi)]
  refine ⟨h.1, fun cur hcur r i hi => ?_⟩
  have hr := r.isLt
  have hir : i = r.val := by
    rw [hp, List.getElem?_range hr] at hi
    exact (Option.some.inj hi).symm
  have hcur' : ∀ q ∈ neutralList (2 * n) ((List.range n).map (· + n)), drop m (2 * n) cur q = 0 := by
    intro q hq'
    have h1 := hcur q hq'
    rw [hq] at hq'
    simp only [List.mem_map, List.mem_range] at hq'
    obtain ⟨a, ha, rfl⟩ := hq'
    rw [hdrop _ _ (by omega), if_neg (by omega), add_zero] at h1
    exact h1
  have h2 := h.2 cur hcur' r i hi
  rw [hdrop _ _ (by omega), h2, if_pos (by omega)]
  simp only [Matrix.add_apply, add_mul, Finset.sum_add_distrib]
  congr 1
  rw [Finset.sum_eq_single r]
  · rw [Matrix.diagonal_apply_eq, hp, List.getElem?_range hr, hir]
    rfl
  · intro b _ hb
    rw [Matrix.diagonal_apply_ne _ (Ne.symm hb), zero_mul]
  · simp

/-- Cables: the impedances are those that remain of Carson's equations for the cables and their neutrals when the neutrals are at zero
voltage, but for the resistance of the cable itself, which is again taken per foot. -/
theorem C63_cables_partial {ws : List CWire} {cs : List Cable} (hne : ws ≠ []) (h : List.Forall₂ KnownCable ws cs) {c : Nat → Cable}
    (hc : ∀ i x, cs[i]? = some x → c i = x) (hr : ∀ x ∈ cs, 0 < x.neutralResistance) {dm : List (List (Option ℝ))} {d : Nat → Nat → ℝ}
    (hd : Distances ws.length dm d) (hs : ∀ i j, d i j = d j i) (kron : Option Bool) :
    ∃ N : Matrix (Fin ws.length) (Fin ws.length) ℂ,
      IsKronReduction (cableZ ws.length c d) (2 * ws.length) ((List.range ws.length).map (· + ws.length)) ws.length N ∧
      phaseImpedances ws (some dm) false kron = .ok (List.ofFn fun i => List.ofFn fun j =>
        (N i j - if i = j then ((perMile (c i).resistance - (c i).resistance / 3.28084 : ℝ) : ℂ) else 0) / 1609.34) := by
  obtain ⟨dist, hdist, hat⟩ := distancesFt_ok hd
  have hl : cs.length = ws.length := h.length_eq.symm
  have hn : 0 < ws.length := List.length_pos_of_ne_nil hne
  obtain ⟨prim, hprim, hmat⟩ := primMatrix_ok (fun i hi j hj => cable_cell h hc hat hd.pos i hi j hj)
  have hr' : ∀ i < ws.length, 0 < (c i).neutralResistance ∧ 0 < (c i).strands := by
    intro i hi
    have hi' : i < cs.length := by omega
    have h3 : c i = cs[i] := hc i _ (List.getElem?_eq_getElem hi')
    have h4 := (List.forall₂_iff_get.1 h).2 i hi hi'
    rw [h3]
    exact ⟨hr _ (List.getElem_mem hi'), h4.strands_pos⟩
  obtain ⟨M, hM, hK⟩ := cable_kron hn hs hr' (m := entry prim) fun i hi j hj => entry_isMatrix hmat hi hj
  refine ⟨M + Matrix.diagonal fun i => ((perMile (c i.val).resistance - perFt (c i.val).resistance : ℝ) : ℂ), ?_, ?_⟩
  · refine kron_diag (e := fun i => ((perMile (c i).resistance - perFt (c i).resistance : ℝ) : ℂ)) (fun i hi j hj => ?_) hK
    rw [entry_isMatrix hmat hi hj]
    unfold rawCableZ
    rw [sub_add_cancel]
  · unfold phaseImpedances
    simp only [givenDistances, hdist]
    rw [if_neg (by simp)]
    unfold cableImpedances
    simp only [cables_ft h]
    rw [if_neg (by intro h0; apply hne; rw [List.map_eq_nil_iff] at h0; rw [h0] at hl; exact List.eq_nil_of_length_eq_zero hl.symm)]
    simp only [hprim, hM]
    congr 1
    refine congrArg List.ofFn (funext fun i => congrArg List.ofFn (funext fun j => ?_))
    unfold fromPerMi
    congr 1
    rw [Matrix.add_apply, Matrix.diagonal_apply]
    unfold perFt
    rw [add_sub_cancel_right]

/-- The resistance of a cable is taken in ohms per foot: the self impedance of every cable is wrong unless the resistance is zero. -/
theorem C63_cable_resistance_violated {ws : List CWire} {cs : List Cable} (h : List.Forall₂ KnownCable ws cs) {c : Nat → Cable}
    (hc : ∀ i x, cs[i]? = some x → c i = x) (hr : ∀ x ∈ cs, 0 < x.neutralResistance) {dm : List (List (Option ℝ))} {d : Nat → Nat → ℝ}
    (hd : Distances ws.length dm d) (hs : ∀ i j, d i j = d j i) (kron : Option Bool) (i : Fin ws.length) (h0 : (c i).resistance ≠ 0) :
    ∃ N M : Matrix (Fin ws.length) (Fin ws.length) ℂ,
      IsKronReduction (cableZ ws.length c d) (2 * ws.length) ((List.range ws.length).map (· + ws.length)) ws.length N ∧
      phaseImpedances ws (some dm) false kron = .ok (List.ofFn fun i => List.ofFn fun j => M i j) ∧ M i i ≠ N i i / 1609.34 := by
  have hne : ws ≠ [] := by rintro rfl; exact i.elim0
  obtain ⟨N, h1, h2⟩ := C63_cables_partial hne h hc hr hd hs kron
  refine ⟨N, Matrix.of fun i j => (N i j - if i = j then ((perMile (c i).resistance - (c i).resistance / 3.28084 : ℝ) : ℂ) else 0) / 1609.34,
    h1, h2, ?_⟩
  intro h3
  simp only [Matrix.of_apply, if_true] at h3
  have h4 : (((perMile (c i).resistance - (c i).resistance / 3.28084 : ℝ)) : ℂ) = 0 := by
    have h5 : (1609.34 : ℂ) ≠ 0 := by norm_num
    rw [div_left_inj' h5] at h3
    exact sub_eq_self.1 h3
  have h6 : perMile (c i).resistance - (c i).resistance / 3.28084 = 0 := by exact_mod_cast h4
  apply h0
  unfold perMile at h6
  have : (c i).resistance * (1 / 0.000621371 - 1 / 3.28084) = 0 := by linear_combination h6
  rcases mul_eq_zero.1 this with h | h
  · exact h
  · norm_num at h

/-- Values of cables that are missing are replaced by fixed ones. -/
theorem C63_cable_defaults (ws : List CWire) (dm : Option (List (List (Option ℝ)))) (kron : Option Bool) :
    phaseImpedances ws dm false kron = phaseImpedances (ws.map filled) dm false kron := by
  have e1 : (13.26 / 2 / 1000 * 0.7788 : ℝ) = 0.005163444 := by norm_num
  have e2 : (0.5 / 1000 * 0.7788 : ℝ) = 0.0003894 := by norm_num
  have e3 : (1 / 1000 : ℝ) = 0.001 := by norm_num
  have e4 : (25.93 / 1000 : ℝ) = 0.02593 := by norm_num
  have hw : ∀ w, cableOf (filled w) = cableOf w := by
    intro w
    have ho : ∀ {α : Type} (x : α) (o : Option α), orElse x (known x o) = orElse x o := by
      intro α x o; cases o <;> rfl
    unfold cableOf filled
    simp only [e1, e2, e3, e4, ho]
  have hm : ((ws.map filled).mapM fun w => cableFt (cableOf w)) = ws.mapM fun w => cableFt (cableOf w) := by
    clear dm
    induction ws with
    | nil => rfl
    | cons w ws ih => rw [List.map_cons, List.mapM_cons, List.mapM_cons, hw, ih]
  unfold phaseImpedances
  simp only [List.length_map]
  cases distancesFt (givenDistances ws.length false dm) ws.length with
  | error e => rfl
  | ok dist =>
    simp only [Bool.false_eq_true, if_false]
    unfold cableImpedances
    rw [hm, List.length_map]

/-- A cable whose neutral has no strands raises `ZeroDivisionError`. -/
theorem C63_no_strands {ws : List CWire} {dm : List (List (Option ℝ))} {d : Nat → Nat → ℝ} {kron : Option Bool}
    (hd : Distances ws.length dm d) (hw : ∃ w ∈ ws, w.strands = some 0) : phaseImpedances ws (some dm) false kron = .error .zeroDivisionError := by
  obtain ⟨dist, hdist, -⟩ := distancesFt_ok hd
  have : (ws.mapM fun w => cableFt (cableOf w)) = .error .zeroDivisionError := by
    refine mapM_error (fun w _ => ?_) ?_
    · unfold cableFt
      by_cases h : (cableOf w).strands = 0
      · rw [if_pos h]; exact .inl rfl
      · rw [if_neg h]; exact .inr ⟨_, rfl⟩
    · obtain ⟨w, hw, h⟩ := hw
      exact ⟨w, hw, by simp [cableFt, cableOf, h, orElse]⟩
  unfold phaseImpedances cableImpedances
  simp [givenDistances, hdist, this]

/-- The distance of two points is the euclidean one: it is symmetric, and zero for equal points only. Points of different dimensions raise. -/
theorem C63_distance (p q : List ℝ) :
    (p.length ≠ q.length → distance p q = .error .valueError) ∧
    (p.length = q.length → ∃ x, distance p q = .ok x ∧ distance q p = .ok x ∧ 0 ≤ x ∧
      x ^ 2 = (List.zipWith (fun a b => (a - b) ^ 2) p q).sum ∧ (x = 0 ↔ p = q)) := by
  have hnn : ∀ p q : List ℝ, 0 ≤ (List.zipWith (fun a b => (a - b) ^ 2) p q).sum := by
    intro p q
    apply List.sum_nonneg
    intro x hx
    obtain ⟨i, hi, rfl⟩ := List.getElem_of_mem hx
    rw [List.getElem_zipWith]
    positivity
  have hcomm : (List.zipWith (fun a b : ℝ => (a - b) ^ 2) q p) = List.zipWith (fun a b => (a - b) ^ 2) p q := by
    rw [List.zipWith_comm]
    congr 1
    funext a b
    ring
  have hzero : ∀ p q : List ℝ, p.length = q.length → ((List.zipWith (fun a b : ℝ => (a - b) ^ 2) p q).sum = 0 ↔ p = q) := by
    intro p
    induction p with
    | nil => intro q h; cases q with | nil => simp | cons _ _ => simp at h
    | cons a p ih =>
      intro q h
      cases q with
      | nil => simp at h
      | cons b q =>
        rw [List.zipWith_cons_cons, List.sum_cons]
        have h1 := hnn p q
        have h2 : 0 ≤ (a - b) ^ 2 := by positivity
        rw [add_eq_zero_iff_of_nonneg h2 h1, ih q (by simpa using h)]
        simp [sub_eq_zero]
  refine ⟨fun h => ?_, fun h => ?_⟩
  · unfold distance
    rw [if_pos (Ne.symm h)]
  · refine ⟨_, if_neg (by simp [h]), ?_, Real.sqrt_nonneg _, Real.sq_sqrt (hnn p q), ?_⟩
    · unfold distance
      rw [if_neg (by simp [h]), hcomm]
    · rw [Real.sqrt_eq_zero (hnn p q)]
      exact hzero p q h

/-! ### examples -/

/-- three wires side by side -/
noncomputable def exWires : List CWire := [⟨some 0.01, some 0.0002, none, none, none, none, none⟩, ⟨some 0.01, some 0.0002, none, none, none, none, none⟩,
  ⟨some 0.02, some 0.0001, none, none, none, none, none⟩]

example : ∃ dm d, exWires ≠ [] ∧ exWires.length ≠ 4 ∧ (∀ w ∈ exWires, KnownWire w) ∧ Distances exWires.length dm d ∧ (∀ i j, d i j = d j i) ∧
    exWires[2]?.bind (·.resistance) = some (0.0001 : ℝ) := by
  obtain ⟨dm, h, -⟩ := C63_default_distances exWires true none
  refine ⟨dm, _, by simp [exWires], by simp [exWires], ?_, h, ?_, by simp [exWires]⟩
  · intro w hw
    simp only [exWires, List.mem_cons, List.not_mem_nil, or_false] at hw
    rcases hw with rfl | rfl | rfl <;> exact ⟨⟨_, rfl, by norm_num⟩, _, rfl⟩
  · intro i j
    rw [abs_sub_comm]

/-- two cables without any values, as they are filled -/
noncomputable def exCable : Cable := cableOf {}

example : ∃ dm d, [filled {}, filled {}] ≠ [] ∧ List.Forall₂ KnownCable [filled {}, filled {}] [exCable, exCable] ∧
    (∀ x ∈ [exCable, exCable], 0 < x.neutralResistance) ∧ Distances 2 dm d ∧ (∀ i j, d i j = d j i) ∧
    ∀ (i : Nat) (x : Cable), [exCable, exCable][i]? = some x → exCable = x := by
  obtain ⟨dm, h, -⟩ := C63_default_distances [filled {}, filled {}] false none
  have hk : KnownCable (filled {}) exCable := by
    refine ⟨?_, rfl, ?_, rfl, ?_, ?_, rfl, ?_, ?_, ?_, ?_⟩ <;> simp [filled, known, exCable, cableOf, orElse] <;> norm_num
  refine ⟨dm, _, by simp, .cons hk (.cons hk .nil), ?_, h, ?_, ?_⟩
  · intro x hx
    have : x = exCable := by simpa using hx
    subst this
    simp [exCable, cableOf, orElse]
    norm_num
  · intro i j
    rw [abs_sub_comm]
  · intro i x hx
    have := List.mem_of_getElem? hx
    simp at this
    exact this.symm

example : ∃ i : Fin 4, ∃ w ∈ List.replicate 4 ({} : CWire), (w.gmr = none ∨ w.resistance = none) ∧ i.val = 3 := ⟨3, {}, by simp, .inl rfl, rfl⟩

end Ditto.Carson
