import Verif.Spec.CymeTrafos
import Mathlib.RingTheory.RootsOfUnity.Complex
import Mathlib.Tactic.FinCases
import Mathlib.Tactic.LinearCombination
import Mathlib.Tactic.FieldSimp
import Mathlib.Tactic.Linarith

/-! The matrices and the impedances of CYME transformers. -/
namespace Ditto.Cyme
open Ditto Glm Spec

theorem turn_sum : 1 + turn + turn * turn = 0 := by
  have h := (Complex.isPrimitiveRoot_exp 3 (by decide)).geom_sum_eq_zero (by decide)
  rw [Finset.sum_range_succ, Finset.sum_range_succ, Finset.sum_range_one] at h
  unfold turn
  have e : Complex.exp (2 * Real.pi * Complex.I / ((3 : ℕ) : ℂ)) = Complex.exp (2 * Real.pi * Complex.I / 3) := by norm_num
  rw [e] at h
  linear_combination h

theorem turn_cube : turn * turn * turn = 1 := by linear_combination (turn - 1) * turn_sum

/-- the inverse of the matrix -/
noncomputable def fortescueInv : Matrix (Fin 3) (Fin 3) ℂ :=
  !![1 / 3, 1 / 3, 1 / 3; 1 / 3, turn / 3, turn * turn / 3; 1 / 3, turn * turn / 3, turn / 3]

theorem fortescue_inv : fortescue⁻¹ = fortescueInv := by
  apply Matrix.inv_eq_right_inv
  have hs := turn_sum
  have hc := turn_cube
  unfold fortescue fortescueInv
  ext i j
  fin_cases i <;> fin_cases j <;>
    simp [Matrix.mul_apply, Fin.sum_univ_three, Matrix.one_apply]
  · norm_num
  · linear_combination hs / 3
  · linear_combination hs / 3
  · linear_combination hs / 3
  · linear_combination 2 / 3 * hc
  · linear_combination hs / 3 + turn / 3 * hc
  · linear_combination hs / 3
  · linear_combination hs / 3 + turn / 3 * hc
  · linear_combination 2 / 3 * hc

/-- the product of the elements has only the zero sequence in its first element -/
theorem phaseImpedances_first (z0 z1 : ℂ) : phaseImpedances z0 z1 0 0 = z0 / 3 := by
  unfold phaseImpedances
  rw [fortescue_inv]
  simp [Matrix.hadamard, fortescue, fortescueInv, sequences]
  ring

/-- the product of the matrices -/
theorem phaseImpedance_eq (z0 z1 : ℂ) : phaseImpedance z0 z1 = (z0 + 2 * z1) / 3 := by
  unfold phaseImpedance
  rw [fortescue_inv]
  simp [Matrix.mul_apply, Fin.sum_univ_three, fortescue, fortescueInv, sequences]
  ring

theorem split_ratio {z xr : ℝ} (hx : 0 < xr) {r x : ℝ} (h : Ratio z xr r x) : splitImpedance z xr = ⟨r, x⟩ := by
  obtain ⟨h1, h2, h3⟩ := h
  have hpos : 0 < 1 + xr * xr := add_pos_of_pos_of_nonneg one_pos (mul_self_nonneg xr)
  have hs : 0 < √(1 + xr * xr) := Real.sqrt_pos.mpr hpos
  have hss : √(1 + xr * xr) * √(1 + xr * xr) = 1 + xr * xr := Real.mul_self_sqrt hpos.le
  have hz : z = r * √(1 + xr * xr) := by
    have hsq : z * z = (r * √(1 + xr * xr)) * (r * √(1 + xr * xr)) := by
      rw [← h2, h1]
      linear_combination -(r * r) * hss
    rcases mul_self_eq_mul_self_iff.mp hsq with h | h
    · exact h
    · have h0 : r * z ≤ 0 := by
        rw [h]
        nlinarith [mul_nonneg (mul_self_nonneg r) hs.le]
      have h00 : r * z = 0 := le_antisymm h0 h3
      rcases mul_eq_zero.mp h00 with h | h'
      · rw [h] at h2 ⊢
        have : z * z = 0 := by rw [← h2, h1, h]; ring
        rw [mul_self_eq_zero.mp this]; ring
      · rw [h'] at h ⊢
        have : r * √(1 + xr * xr) = 0 := by linarith
        rw [this]
  have hinv : √(1 + 1 / (xr * xr)) = √(1 + xr * xr) / xr := by
    rw [show 1 + 1 / (xr * xr) = (1 + xr * xr) / (xr * xr) by field_simp; ring, Real.sqrt_div' _ (mul_self_nonneg xr), Real.sqrt_mul_self hx.le]
  unfold splitImpedance
  rw [if_neg hx.ne', hinv]
  apply Complex.ext
  · show z / √(1 + xr * xr) = r
    rw [hz]; field_simp
  · show z / (√(1 + xr * xr) / xr) = x
    rw [h1, hz]; field_simp

theorem ratio_exists (z xr : ℝ) : ∃ r x, Ratio z xr r x := by
  have hpos : 0 < 1 + xr * xr := add_pos_of_pos_of_nonneg one_pos (mul_self_nonneg xr)
  have hs : 0 < √(1 + xr * xr) := Real.sqrt_pos.mpr hpos
  have hss : √(1 + xr * xr) * √(1 + xr * xr) = 1 + xr * xr := Real.mul_self_sqrt hpos.le
  refine ⟨z / √(1 + xr * xr), xr * (z / √(1 + xr * xr)), rfl, ?_, ?_⟩
  · field_simp
    rw [← sq, ← sq] at *
    rw [hss]
  · rw [div_mul_eq_mul_div]
    exact div_nonneg (mul_self_nonneg z) hs.le

theorem truncate_whole (x : ℝ) : WholePart x (truncate x) := by
  unfold truncate
  constructor
  · intro h
    rw [if_pos h]
    exact ⟨Int.floor_le x, Int.lt_floor_add_one x⟩
  · intro h
    rw [if_neg (not_le.mpr h)]
    exact ⟨by linarith [Int.ceil_lt_add_one x], Int.le_ceil x⟩

theorem codes_apart : ∀ s ∈ windingCodes, ∀ c ∈ windingCodes, lower s.1 ≠ lower c.2.1 := by decide +kernel

theorem windingConnections_codes (t : Text) :
    (∀ code ∈ windingCodes, IsCode t code → windingConnections t = some code.2.2) ∧
    ((∀ code ∈ windingCodes, ¬IsCode t code) → windingConnections t = none) := by
  constructor
  · intro code hc h
    rcases h with h | h
    · rw [h]
      exact (show ∀ code ∈ windingCodes, windingConnections code.1 = some code.2.2 by decide +kernel) code hc
    · have d : ∀ s ∈ windingCodes, t ≠ s.1 := by
        intro s hs e
        rw [e] at h
        exact codes_apart s hs code hc h
      simp only [windingCodes, List.forall_mem_cons] at d
      unfold windingConnections
      simp only [d, false_or]
      rw [show lower t = lower code.2.1 from h]
      exact (show ∀ code ∈ windingCodes, (if lower code.2.1 = "y_y".toList then some ("Y".toList, "Y".toList)
        else if lower code.2.1 = "d_y".toList then some ("D".toList, "Y".toList)
        else if lower code.2.1 = "y_d".toList then some ("Y".toList, "D".toList)
        else if lower code.2.1 = "yng_yng".toList then some ("Y".toList, "Y".toList)
        else if lower code.2.1 = "d_d".toList then some ("D".toList, "D".toList)
        else if lower code.2.1 = "do_do".toList then some ("D".toList, "D".toList)
        else if lower code.2.1 = "yo_do".toList then some ("Y".toList, "D".toList)
        else if lower code.2.1 = "d_yng".toList then some ("D".toList, "Y".toList)
        else if lower code.2.1 = "yng_d".toList then some ("Y".toList, "D".toList)
        else if lower code.2.1 = "y_yng".toList then some ("Y".toList, "Y".toList)
        else if lower code.2.1 = "yng_y".toList then some ("Y".toList, "Y".toList)
        else if lower code.2.1 = "yg_zg".toList then some ("Y".toList, "Z".toList)
        else if lower code.2.1 = "d_zg".toList then some ("D".toList, "Z".toList)
        else none) = some code.2.2 by decide +kernel) code hc
  · intro h
    simp only [windingCodes, List.forall_mem_cons, IsCode, not_or] at h
    obtain ⟨h0, h1, h2, h3, h4, h5, h6, h7, h8, h9, h10, h11, h12, -⟩ := h
    unfold windingConnections
    rw [if_neg (show ¬(t = "0".toList ∨ lower t = "y_y".toList) from not_or.mpr h0),
      if_neg (show ¬(t = "1".toList ∨ lower t = "d_y".toList) from not_or.mpr h1),
      if_neg (show ¬(t = "2".toList ∨ lower t = "y_d".toList) from not_or.mpr h2),
      if_neg (show ¬(t = "3".toList ∨ lower t = "yng_yng".toList) from not_or.mpr h3),
      if_neg (show ¬(t = "4".toList ∨ lower t = "d_d".toList) from not_or.mpr h4),
      if_neg (show ¬(t = "5".toList ∨ lower t = "do_do".toList) from not_or.mpr h5),
      if_neg (show ¬(t = "6".toList ∨ lower t = "yo_do".toList) from not_or.mpr h6),
      if_neg (show ¬(t = "7".toList ∨ lower t = "d_yng".toList) from not_or.mpr h7),
      if_neg (show ¬(t = "8".toList ∨ lower t = "yng_d".toList) from not_or.mpr h8),
      if_neg (show ¬(t = "9".toList ∨ lower t = "y_yng".toList) from not_or.mpr h9),
      if_neg (show ¬(t = "10".toList ∨ lower t = "yng_y".toList) from not_or.mpr h10),
      if_neg (show ¬(t = "11".toList ∨ lower t = "yg_zg".toList) from not_or.mpr h11),
      if_neg (show ¬(t = "12".toList ∨ lower t = "d_zg".toList) from not_or.mpr h12)]

end Ditto.Cyme
