import Verif.Model.Matrix
import Mathlib.Tactic.Ring
import Mathlib.Tactic.LinearCombination
import Mathlib.Tactic.FieldSimp
import Mathlib.Tactic.NormNum
import Mathlib.Tactic.NormNum.Prime
import Mathlib.Algebra.Field.ZMod

/-!
C06: the sequence impedance matrix. `a` is any element with `a² + a + 1 = 0` (in the code `exp(2πi/3)`), in any
field where 3 (2 for the two phase case) is not 0.
-/
namespace Ditto.Mat
open Ditto

variable {K : Type} [Field K]

/-! Specification: the phase quantities of sequence quantities (Fortescue). -/

/-- phase vector of the zero, positive and negative sequence components -/
def fortescue3 (a : K) (s : K × K × K) : K × K × K :=
  (s.1 + s.2.1 + s.2.2, s.1 + a ^ 2 * s.2.1 + a * s.2.2, s.1 + a * s.2.1 + a ^ 2 * s.2.2)

/-- phase vector of the common and differential components -/
def fortescue2 (s : K × K) : K × K := (s.1 + s.2, s.1 - s.2)

/-- a 3x3 matrix (rows) applied to a vector -/
def apply3 (m : Fin 3 → Fin 3 → K) (v : K × K × K) : K × K × K :=
  (m 0 0 * v.1 + m 0 1 * v.2.1 + m 0 2 * v.2.2, m 1 0 * v.1 + m 1 1 * v.2.1 + m 1 2 * v.2.2,
   m 2 0 * v.1 + m 2 1 * v.2.1 + m 2 2 * v.2.2)

/-- a 2x2 matrix (rows) applied to a vector -/
def apply2 (m : Fin 2 → Fin 2 → K) (v : K × K) : K × K :=
  (m 0 0 * v.1 + m 0 1 * v.2, m 1 0 * v.1 + m 1 1 * v.2)

/-- list format of a matrix -/
def rows {n : Nat} (m : Fin n → Fin n → K) : List (List K) := List.ofFn fun i => List.ofFn (m i)

private theorem cube {a : K} (ha : a ^ 2 + a + 1 = 0) :
    a ^ 2 = -1 - a ∧ a ^ 3 = 1 ∧ a ^ 4 = a ∧ a ^ 5 = -1 - a ∧ a ^ 6 = 1 := by
  refine ⟨by linear_combination ha, by linear_combination (a - 1) * ha, by
    linear_combination (a ^ 2 - a) * ha, by linear_combination (a ^ 3 - a ^ 2 + 1) * ha,
    by linear_combination (a ^ 4 - a ^ 3 + a - 1) * ha⟩

/-- The Fortescue transformation is injective: sequence components are determined by the phase quantities. -/
theorem fortescue3_injective (a : K) (ha : a ^ 2 + a + 1 = 0) (h3 : (3 : K) ≠ 0) :
    Function.Injective (fortescue3 a) := by
  obtain ⟨e2, e3, e4, e5, e6⟩ := cube ha
  rintro ⟨x, y, z⟩ ⟨x', y', z'⟩ h
  simp only [fortescue3, Prod.mk.injEq] at h ⊢
  obtain ⟨h1, h2, h3'⟩ := h
  have k0 : 3 * (x - x') = 0 := by linear_combination h1 + h2 + h3' + (y' - y + z' - z) * ha
  have k1 : 3 * (y - y') = 0 := by
    linear_combination h1 + a * h2 + a ^ 2 * h3' + (x' - x + z' - z) * ha +
      (-2 * (y - y')) * e3 - (z - z') * (e4 - e2) - (z - z') * ha - (z - z') * (e2 - ha)
  have k2 : 3 * (z - z') = 0 := by
    linear_combination h1 + a ^ 2 * h2 + a * h3' + (x' - x + y' - y) * ha +
      (-2 * (z - z')) * e3 - (y - y') * (e4 - e2) - (y - y') * ha - (y - y') * (e2 - ha)
  refine ⟨?_, ?_, ?_⟩
  · exact sub_eq_zero.1 ((mul_eq_zero.1 k0).resolve_left h3)
  · exact sub_eq_zero.1 ((mul_eq_zero.1 k1).resolve_left h3)
  · exact sub_eq_zero.1 ((mul_eq_zero.1 k2).resolve_left h3)

/-- C06: for every 3x3 phase impedance matrix `Z` the answer is a 3x3 matrix `S` relating sequence currents to
sequence voltages: if `V = Z I` in phase quantities then `V = S I` in sequence quantities. -/
theorem C06_similarity3 (a : K) (ha : a ^ 2 + a + 1 = 0) (h3 : (3 : K) ≠ 0) (Z : Fin 3 → Fin 3 → K) :
    ∃ S : Fin 3 → Fin 3 → K, sequenceMatrix a (rows Z) = rows S ∧
      (∀ i, fortescue3 a (apply3 S i) = apply3 Z (fortescue3 a i)) ∧
      S 0 0 + S 1 1 + S 2 2 = Z 0 0 + Z 1 1 + Z 2 2 := by
  obtain ⟨e2, e3, e4, e5, e6⟩ := cube ha
  refine ⟨fun i j => entry (sequenceMatrix a (rows Z)) i j, ?_, ?_, ?_⟩
  · simp [sequenceMatrix, matMul, rows, List.range_succ, entry]
  · rintro ⟨x, y, z⟩
    simp [sequenceMatrix, matMul, rows, List.range_succ, entry, fortescue3, apply3]
    refine ⟨?_, ?_, ?_⟩ <;> field_simp <;> ring_nf <;> (try simp only [e2, e3, e4, e5, e6]) <;> ring
  · simp [sequenceMatrix, matMul, rows, List.range_succ, entry]
    field_simp; ring_nf; simp only [e2, e3, e4]; ring

/-- C06, two phases. -/
theorem C06_similarity2 (a : K) (h2 : (2 : K) ≠ 0) (Z : Fin 2 → Fin 2 → K) :
    ∃ S : Fin 2 → Fin 2 → K, sequenceMatrix a (rows Z) = rows S ∧
      (∀ i, fortescue2 (apply2 S i) = apply2 Z (fortescue2 i)) ∧
      S 0 0 + S 1 1 = Z 0 0 + Z 1 1 := by
  refine ⟨fun i j => entry (sequenceMatrix a (rows Z)) i j, ?_, ?_, ?_⟩
  · simp [sequenceMatrix, matMul, rows, List.range_succ, entry]
  · rintro ⟨x, y⟩
    simp [sequenceMatrix, matMul, rows, List.range_succ, entry, fortescue2, apply2]
    refine ⟨?_, ?_⟩ <;> field_simp <;> ring
  · simp [sequenceMatrix, matMul, rows, List.range_succ, entry]
    field_simp; ring

/-- C06: a balanced 3-phase matrix (self impedance `s`, mutual impedance `m`) is decoupled: zero sequence
`s+2m`, positive and negative sequence `s-m`. -/
theorem C06_balanced (a : K) (ha : a ^ 2 + a + 1 = 0) (h3 : (3 : K) ≠ 0) (s m : K) :
    sequenceMatrix a [[s, m, m], [m, s, m], [m, m, s]] =
      [[s + 2 * m, 0, 0], [0, s - m, 0], [0, 0, s - m]] := by
  obtain ⟨e2, e3, e4, e5, e6⟩ := cube ha
  simp [sequenceMatrix, matMul, List.range_succ]
  refine ⟨⟨?_, ?_, ?_⟩, ⟨?_, ?_, ?_⟩, ?_, ?_, ?_⟩ <;> field_simp <;> ring_nf <;>
    simp only [e2, e3, e4] <;> ring

/-- C06: balanced two-phase matrix. -/
theorem C06_balanced2 (a : K) (h2 : (2 : K) ≠ 0) (s m : K) :
    sequenceMatrix a [[s, m], [m, s]] = [[s + m, 0], [0, s - m]] := by
  simp [sequenceMatrix, matMul, List.range_succ]
  refine ⟨⟨?_, ?_⟩, ?_, ?_⟩ <;> field_simp <;> ring

/-- C06: of a balanced 3-phase matrix the three accessors read `s+2m`, `s-m`, `s-m`. -/
theorem C06_accessors (a : K) (ha : a ^ 2 + a + 1 = 0) (h3 : (3 : K) ≠ 0) (s m : K) :
    seqComponent 0 (sequenceMatrix a [[s, m, m], [m, s, m], [m, m, s]]) = .ok (s + 2 * m) ∧
    seqComponent 1 (sequenceMatrix a [[s, m, m], [m, s, m], [m, m, s]]) = .ok (s - m) ∧
    seqComponent 2 (sequenceMatrix a [[s, m, m], [m, s, m], [m, m, s]]) = .ok (s - m) := by
  rw [C06_balanced a ha h3]
  exact ⟨rfl, rfl, rfl⟩

/-- C06: every square matrix of another size gives the empty answer, from which every accessor raises
`ValueError`; of a two-phase matrix there is no negative sequence entry `(2, 2)`. -/
theorem C06_other_sizes (a : K) (n : Nat) (Z : Fin n → Fin n → K) (h2 : n ≠ 2) (h3 : n ≠ 3) :
    sequenceMatrix a (rows Z) = [] ∧ ∀ i, seqComponent i (sequenceMatrix a (rows Z)) = .error .valueError := by
  have h : sequenceMatrix a (rows Z) = [] := by
    have hl : (rows Z).length = n := by simp [rows]
    unfold sequenceMatrix
    split
    · rename_i h; rw [h] at hl; simp at hl; omega
    · rename_i h; rw [h] at hl; simp at hl; omega
    · rfl
  exact ⟨h, fun i => by rw [h]; rfl⟩

theorem C06_two_phase_no_negative (a : K) (Z : Fin 2 → Fin 2 → K) :
    seqComponent 2 (sequenceMatrix a (rows Z)) = .error .valueError := by
  simp [sequenceMatrix, rows, seqComponent, matMul]

instance factPrimeSeven : Fact (Nat.Prime 7) := ⟨by norm_num⟩

/-- The hypotheses on `a` are met, e.g. in the field of 7 elements (2 is a primitive cube root of unity). -/
example : ((2 : ZMod 7) ^ 2 + 2 + 1 = 0) ∧ (3 : ZMod 7) ≠ 0 ∧
    sequenceMatrix (2 : ZMod 7) [[5, 1, 1], [1, 5, 1], [1, 1, 5]] = [[0, 0, 0], [0, 4, 0], [0, 0, 4]] := by
  refine ⟨by decide, by decide, ?_⟩
  rw [C06_balanced (2 : ZMod 7) (by decide) (by decide)]
  decide

end Ditto.Mat
