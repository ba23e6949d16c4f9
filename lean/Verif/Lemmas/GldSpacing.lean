import Verif.Model.GldSpacing
import Verif.Spec.GldSpacing
import Verif.Lemmas.Carson
import Mathlib.Tactic.Ring
import Mathlib.Tactic.Linarith
import Mathlib.Tactic.FieldSimp
import Mathlib.Tactic.IntervalCases
import Mathlib.Data.List.Induction
import Mathlib.Data.List.Nodup
import Mathlib.Data.Nat.Sqrt
import Mathlib.Data.List.Perm.Lattice

namespace Ditto.Gld
open Ditto Ditto.Gld.Spec

theorem gap_sq (p q : ℝ × ℝ) : gap p q ^ 2 = (p.1 - q.1) ^ 2 + (p.2 - q.2) ^ 2 := Real.sq_sqrt (by positivity)

theorem gap_nonneg (p q : ℝ × ℝ) : 0 ≤ gap p q := Real.sqrt_nonneg _

theorem gap_comm (p q : ℝ × ℝ) : gap p q = gap q p := by
  unfold gap; congr 1; ring

theorem gap_self (p : ℝ × ℝ) : gap p p = 0 := by simp [gap]

theorem gap_pos {p q : ℝ × ℝ} (h : p ≠ q) : 0 < gap p q := by
  rcases (gap_nonneg p q).lt_or_eq with h0 | h0
  · exact h0
  · exfalso
    have h1 := gap_sq p q
    rw [← h0] at h1
    apply h
    have h2 : p.1 - q.1 = 0 := by nlinarith [sq_nonneg (p.1 - q.1), sq_nonneg (p.2 - q.2)]
    have h3 : p.2 - q.2 = 0 := by nlinarith [sq_nonneg (p.1 - q.1), sq_nonneg (p.2 - q.2)]
    exact Prod.ext (by linarith) (by linarith)

theorem gap_of_sq {p q : ℝ × ℝ} {d : ℝ} (hd : 0 ≤ d) (h : (p.1 - q.1) ^ 2 + (p.2 - q.2) ^ 2 = d ^ 2) : gap p q = d := by
  unfold gap; rw [h]; exact Real.sqrt_sq hd

theorem gap_meters (p q : ℝ × ℝ) : gap (meters p) (meters q) = gap p q / 3.28084 := by
  apply gap_of_sq (div_nonneg (gap_nonneg _ _) (by norm_num))
  rw [div_pow, gap_sq]
  simp only [meters]
  ring

theorem gap_raised (h : ℝ) (p q : ℝ × ℝ) : gap (raised h p) (raised h q) = gap p q := by
  apply gap_of_sq (gap_nonneg _ _)
  rw [gap_sq]
  simp only [raised]
  ring

theorem gap_rotate (θ : ℝ) (p q : ℝ × ℝ) : gap (rotate θ p) (rotate θ q) = gap p q := by
  apply gap_of_sq (gap_nonneg _ _)
  rw [gap_sq]
  simp only [rotate]
  have h := Real.sin_sq_add_cos_sq θ
  linear_combination ((p.1 - q.1) ^ 2 + (p.2 - q.2) ^ 2) * h

/-- the coordinates along and across the line from `a` to `b` -/
noncomputable def along (a b p : ℝ × ℝ) : ℝ := (p.1 - a.1) * (b.1 - a.1) + (p.2 - a.2) * (b.2 - a.2)

noncomputable def across (a b p : ℝ × ℝ) : ℝ := (p.1 - a.1) * (b.2 - a.2) - (p.2 - a.2) * (b.1 - a.1)

/-- the position by Heron's formula has the coordinates along and across the longest side -/
theorem heron_eq {a b p : ℝ × ℝ} (hab : a ≠ b) (hb : gap p b ≤ gap a b) :
    heron (gap p a) (gap p b) (gap a b) = .ok (|across a b p| / gap a b, -(along a b p / gap a b)) := by
  have hm := gap_pos hab
  have hm2 := gap_sq a b
  have ha2 := gap_sq p a
  have hb2 := gap_sq p b
  have hal : gap p a ^ 2 + gap a b ^ 2 - gap p b ^ 2 = 2 * along a b p := by
    rw [ha2, hb2, hm2]; unfold along; ring
  have hal0 : 0 ≤ along a b p := by
    have : gap p b ^ 2 ≤ gap a b ^ 2 := by nlinarith [gap_nonneg p b]
    nlinarith [sq_nonneg (gap p a)]
  have hac : across a b p ^ 2 + along a b p ^ 2 = gap p a ^ 2 * gap a b ^ 2 := by
    rw [ha2, hm2]; unfold along across; ring
  unfold heron
  generalize gap p a = x at *
  generalize gap p b = y at *
  generalize gap a b = m at *
  have harea : (x + y + m) / 2 * ((x + y + m) / 2 - x) * ((x + y + m) / 2 - y) * ((x + y + m) / 2 - m) = (across a b p / 2) ^ 2 := by
    have h1 : (x + y + m) / 2 * ((x + y + m) / 2 - x) * ((x + y + m) / 2 - y) * ((x + y + m) / 2 - m)
        = (4 * (x ^ 2 * m ^ 2) - (x ^ 2 + m ^ 2 - y ^ 2) ^ 2) / 16 := by ring
    rw [h1, hal, ← hac]; ring
  dsimp only
  rw [harea, if_neg (not_lt.mpr (sq_nonneg _)), if_neg hm.ne', Real.sqrt_sq_eq_abs]
  have hx : 2 * |across a b p / 2| / m = |across a b p| / m := by
    rw [abs_div, abs_two]; ring
  rw [hx]
  have hy : x ^ 2 - (|across a b p| / m) ^ 2 = (along a b p / m) ^ 2 := by
    rw [div_pow, sq_abs, div_pow]
    field_simp
    linarith
  rw [hy, if_neg (not_lt.mpr (sq_nonneg _)), Real.sqrt_sq (div_nonneg hal0 hm.le), neg_one_mul]

/-- a point with the given coordinates on either side has the right distances to the ends -/
theorem gap_start {a b p : ℝ × ℝ} (hab : a ≠ b) {x : ℝ} (hx : x ^ 2 = (|across a b p| / gap a b) ^ 2) :
    gap (x, -(along a b p / gap a b)) (0, 0) = gap p a ∧ gap (x, -(along a b p / gap a b)) (0, 0 - gap a b) = gap p b := by
  have hm := gap_pos hab
  have hm2 := gap_sq a b
  have ha2 := gap_sq p a
  have hb2 := gap_sq p b
  have hac : across a b p ^ 2 + along a b p ^ 2 = gap p a ^ 2 * gap a b ^ 2 := by
    rw [ha2, hm2]; unfold along across; ring
  have hal : gap p a ^ 2 + gap a b ^ 2 - gap p b ^ 2 = 2 * along a b p := by
    rw [ha2, hb2, hm2]; unfold along; ring
  rw [div_pow, sq_abs] at hx
  constructor
  · apply gap_of_sq (gap_nonneg _ _)
    simp only [sub_zero, hx]
    field_simp
    linarith
  · apply gap_of_sq (gap_nonneg _ _)
    simp only [sub_zero, hx]
    have h1 : (-(along a b p / gap a b) - (0 - gap a b)) ^ 2 = along a b p ^ 2 / gap a b ^ 2 - 2 * along a b p + gap a b ^ 2 := by
      field_simp
      ring
    rw [h1]
    field_simp
    nlinarith

/-- two points with the given coordinates are at the right distance if they are on the same side or on different sides as they should -/
theorem gap_sides {a b p q : ℝ × ℝ} (hab : a ≠ b) {x y : ℝ} (h : (x - y) ^ 2 * gap a b ^ 2 = (across a b p - across a b q) ^ 2) :
    gap (x, -(along a b p / gap a b)) (y, -(along a b q / gap a b)) = gap p q := by
  have hm := gap_pos hab
  have hm2 := gap_sq a b
  have h2 := gap_sq p q
  have hpq : (across a b p - across a b q) ^ 2 + (along a b p - along a b q) ^ 2 = gap p q ^ 2 * gap a b ^ 2 := by
    rw [h2, hm2]; unfold along across; ring
  apply gap_of_sq (gap_nonneg _ _)
  simp only
  have h3 : (x - y) ^ 2 = (across a b p - across a b q) ^ 2 / gap a b ^ 2 := by
    rw [eq_div_iff (by positivity)]; exact h
  rw [h3]
  field_simp
  nlinarith

/-- one of the two sides is right -/
theorem sides_cases {a b : ℝ × ℝ} (p q : ℝ × ℝ) (hab : a ≠ b) :
    (|across a b p| / gap a b - |across a b q| / gap a b) ^ 2 * gap a b ^ 2 = (across a b p - across a b q) ^ 2 ∨
    (|across a b p| / gap a b * -1 - |across a b q| / gap a b) ^ 2 * gap a b ^ 2 = (across a b p - across a b q) ^ 2 := by
  have hm := gap_pos hab
  have e1 : (|across a b p| / gap a b - |across a b q| / gap a b) ^ 2 * gap a b ^ 2 = (|across a b p| - |across a b q|) ^ 2 := by
    field_simp
  have e2 : (|across a b p| / gap a b * -1 - |across a b q| / gap a b) ^ 2 * gap a b ^ 2 = (|across a b p| + |across a b q|) ^ 2 := by
    field_simp
    ring
  rw [e1, e2]
  rcases abs_cases (across a b p) with ⟨h1, -⟩ | ⟨h1, -⟩ <;> rcases abs_cases (across a b q) with ⟨h2, -⟩ | ⟨h2, -⟩ <;> rw [h1, h2]
  · left; rfl
  · right; ring
  · right; ring
  · left; ring

/-- the tilt of the line from `a` to `b` -/
theorem tilt_bound {a b : ℝ × ℝ} (hab : a ≠ b) : |(a.2 - b.2) / gap a b| ≤ 1 := by
  have hm := gap_pos hab
  rw [abs_div, abs_of_pos hm, div_le_one hm]
  apply abs_le_of_sq_le_sq _ hm.le
  rw [gap_sq]
  nlinarith [sq_nonneg (a.1 - b.1)]

theorem cos_tilt {a b : ℝ × ℝ} (hab : a ≠ b) : Real.cos (Real.arccos ((a.2 - b.2) / gap a b)) = (a.2 - b.2) / gap a b :=
  Real.cos_arccos (abs_le.mp (tilt_bound hab)).1 (abs_le.mp (tilt_bound hab)).2

theorem sin_tilt {a b : ℝ × ℝ} (hab : a ≠ b) : Real.sin (Real.arccos ((a.2 - b.2) / gap a b)) = |b.1 - a.1| / gap a b := by
  have hm := gap_pos hab
  have h : 1 - ((a.2 - b.2) / gap a b) ^ 2 = (|b.1 - a.1| / gap a b) ^ 2 := by
    rw [div_pow, div_pow, sq_abs, gap_sq]
    rw [eq_div_iff, sub_mul, div_mul_cancel₀]
    · ring
    · rw [← gap_sq]; positivity
    · rw [← gap_sq]; positivity
  rw [Real.sin_arccos, h, Real.sqrt_sq (by positivity)]

/-- the height of a point after the rotation -/
theorem height_eq {a b p : ℝ × ℝ} (hab : a ≠ b) (x : ℝ) :
    (raised a.2 (rotate (Real.arccos ((a.2 - b.2) / gap a b)) (x, -(along a b p / gap a b)))).2 =
      footHeight a b p + |b.1 - a.1| * x / gap a b := by
  have hm := gap_pos hab
  have hm2 := gap_sq a b
  simp only [raised, rotate, cos_tilt hab, sin_tilt hab, footHeight]
  have h1 : (b.1 - a.1) ^ 2 + (b.2 - a.2) ^ 2 = gap a b ^ 2 := by rw [hm2]; ring
  rw [h1]
  change _ = a.2 + along a b p / gap a b ^ 2 * (b.2 - a.2) + _
  field_simp
  ring

/-- the true height of a point -/
theorem true_height {a b : ℝ × ℝ} (p : ℝ × ℝ) (hab : a ≠ b) : p.2 = footHeight a b p - (b.1 - a.1) * across a b p / gap a b ^ 2 := by
  have hm := gap_pos hab
  have h1 : (b.1 - a.1) ^ 2 + (b.2 - a.2) ^ 2 = gap a b ^ 2 := by rw [gap_sq]; ring
  unfold footHeight
  rw [h1]
  have h2 : p.2 * gap a b ^ 2 = a.2 * gap a b ^ 2 + along a b p * (b.2 - a.2) - (b.1 - a.1) * across a b p := by
    rw [← h1]; unfold along across; ring
  change _ = a.2 + along a b p / gap a b ^ 2 * (b.2 - a.2) - _
  field_simp
  linarith

/-- one of the two sides has the right height -/
theorem height_cases {a b : ℝ × ℝ} (p : ℝ × ℝ) (hab : a ≠ b) :
    p.2 = footHeight a b p + |b.1 - a.1| * (|across a b p| / gap a b) / gap a b ∨
    p.2 = footHeight a b p + |b.1 - a.1| * (-1 * (|across a b p| / gap a b)) / gap a b := by
  have hm := gap_pos hab
  have h := true_height p hab
  rcases abs_cases (b.1 - a.1) with ⟨h1, -⟩ | ⟨h1, -⟩ <;> rcases abs_cases (across a b p) with ⟨h2, -⟩ | ⟨h2, -⟩ <;> rw [h1, h2]
  · right; rw [h]; nth_rewrite 1 [← h]; rw [h]; field_simp; ring
  · left; rw [h]; nth_rewrite 1 [← h]; rw [h]; field_simp; ring
  · left; rw [h]; nth_rewrite 1 [← h]; rw [h]; field_simp; ring
  · right; rw [h]; nth_rewrite 1 [← h]; rw [h]; field_simp; ring

/-! The table of distances. -/

section
variable {g : Distances} {ws : List String} {earth : Bool} {P : String → ℝ × ℝ}

theorem letter_get {i : Nat} (hi : i < 5) : letters[i]? = some (letter i) := by
  interval_cases i <;> rfl

theorem earth_not_mem (hw : Wires ws P) : "E" ∉ ws := by
  intro h
  have := hw.phases _ h
  revert this
  decide

theorem attr_eq (hd : Describes g ws earth P) {i j : Nat} (hij : i < j) (hj : j < 5) :
    distAttr g i j = if letter i ∈ ws ∧ letter j ∈ ws then some (gap (P (letter i)) (P (letter j)))
      else if earth = true ∧ letter i ∈ ws ∧ letter j = "E" then some (P (letter i)).2 else none := by
  unfold distAttr
  rw [if_pos hij]
  exact hd i j _ _ hij (letter_get (by omega)) (letter_get hj)

theorem attr_comm (g : Distances) {i j : Nat} (h : i ≠ j) : distAttr g i j = distAttr g j i := by
  unfold distAttr
  rcases lt_or_gt_of_ne h with h | h
  · rw [if_pos h, if_neg (by omega)]
  · rw [if_neg (by omega), if_pos h]

theorem letter_ne_E {i : Nat} (hi : i < 4) : letter i ≠ "E" := by
  interval_cases i <;> decide

theorem letter_inj {i j : Nat} (hi : i < 4) (hj : j < 4) (h : letter i = letter j) : i = j := by
  interval_cases i <;> interval_cases j <;> first | rfl | (revert h; decide)

theorem attr_pair (hd : Describes g ws earth P) {i j : Nat} (hij : i ≠ j) (hi : i < 4) (hj : j < 4) :
    distAttr g i j = if letter i ∈ ws ∧ letter j ∈ ws then some (gap (P (letter i)) (P (letter j))) else none := by
  rcases lt_or_gt_of_ne hij with h | h
  · rw [attr_eq hd h (by omega)]
    congr 1
    rw [if_neg]
    rintro ⟨-, -, h⟩
    exact letter_ne_E hj h
  · rw [attr_comm g hij, attr_eq hd h (by omega), gap_comm]
    simp only [and_comm (a := letter j ∈ ws)]
    congr 1
    rw [if_neg]
    rintro ⟨-, h, -⟩
    exact letter_ne_E hi h

theorem attr_earth (hd : Describes g ws earth P) (hw : Wires ws P) {i : Nat} (hi : i < 4) :
    distAttr g i 4 = if earth = true ∧ letter i ∈ ws then some (P (letter i)).2 else none := by
  rw [attr_eq hd hi (by omega), if_neg]
  · congr 1
    simp [letter]
  · rintro ⟨-, h⟩
    exact earth_not_mem hw h

/-- the letters that occur -/
def present (ws : List String) (earth : Bool) (i : Nat) : Bool := if i < 4 then decide (letter i ∈ ws) else earth

theorem attr_some (hd : Describes g ws earth P) (hw : Wires ws P) {i j : Nat} (hij : i ≠ j) (hi : i < 5) (hj : j < 5)
    (h : present ws earth i = true ∧ present ws earth j = true) :
    ∃ d, distAttr g i j = some d ∧ 0 ≤ d := by
  unfold present at h
  by_cases h1 : i < 4 <;> by_cases h2 : j < 4
  · rw [if_pos h1, if_pos h2] at h
    rw [attr_pair hd hij h1 h2, if_pos (by simpa using h)]
    exact ⟨_, rfl, gap_nonneg _ _⟩
  · rw [if_pos h1, if_neg h2] at h
    obtain rfl : j = 4 := by omega
    rw [attr_earth hd hw h1, if_pos (by simpa using h.symm)]
    exact ⟨_, rfl, (hw.over _ (by simpa using h.1)).le⟩
  · rw [if_neg h1, if_pos h2] at h
    obtain rfl : i = 4 := by omega
    rw [attr_comm g hij, attr_earth hd hw h2, if_pos (by simpa using h)]
    exact ⟨_, rfl, (hw.over _ (by simpa using h.2)).le⟩
  · omega

theorem attr_none (hd : Describes g ws earth P) (hw : Wires ws P) {i j : Nat} (hij : i ≠ j) (hi : i < 5) (hj : j < 5)
    (h : ¬(present ws earth i = true ∧ present ws earth j = true)) : distAttr g i j = none := by
  unfold present at h
  by_cases h1 : i < 4 <;> by_cases h2 : j < 4
  · rw [if_pos h1, if_pos h2] at h
    rw [attr_pair hd hij h1 h2, if_neg (by simpa using h)]
  · rw [if_pos h1, if_neg h2] at h
    obtain rfl : j = 4 := by omega
    rw [attr_earth hd hw h1, if_neg]
    rintro ⟨h3, h4⟩
    exact h ⟨by simpa using h4, h3⟩
  · rw [if_neg h1, if_pos h2] at h
    obtain rfl : i = 4 := by omega
    rw [attr_comm g hij, attr_earth hd hw h2, if_neg]
    rintro ⟨h3, h4⟩
    exact h ⟨h3, by simpa using h4⟩
  · omega

/-- the distances that are given are those between the letters of a set -/
structure Known (g : Distances) (b : Nat → Bool) : Prop where
  given : ∀ i j, i ≠ j → i < 5 → j < 5 → b i = true ∧ b j = true → ∃ d, distAttr g i j = some d ∧ 0 ≤ d
  missing : ∀ i j, i ≠ j → i < 5 → j < 5 → ¬(b i = true ∧ b j = true) → distAttr g i j = none

theorem known_of (hd : Describes g ws earth P) (hw : Wires ws P) : Known g (present ws earth) :=
  ⟨fun _ _ hij hi hj h => attr_some hd hw hij hi hj h, fun _ _ hij hi hj h => attr_none hd hw hij hi hj h⟩

theorem diag_known {b : Nat → Bool} (hk : Known g b) {i : Nat} (hi : i < 5) (h : b i = false) : table g i i = -1 := by
  unfold table
  have : (List.range 5).any (fun k => k != i && (distAttr g i k).isSome) = false := by
    rw [List.any_eq_false]
    intro k hk'
    by_cases hki : k = i
    · simp [hki]
    · rw [hk.missing i k (Ne.symm hki) hi (List.mem_range.mp hk') (fun h' => by rw [h] at h'; exact absurd h'.1 (by decide))]
      simp
  rw [if_pos rfl, this]
  rfl

theorem table_known {s : Nat → Bool} (hk : Known g s) {a b : Nat} (hab : a ≠ b) (ha : a < 5) (hb : b < 5)
    (hpa : s a = true) (hpb : s b = true) {i j : Nat} (hi : i < 5) (hj : j < 5) :
    (table g i j ≠ -1 ↔ s i = true ∧ s j = true) := by
  by_cases hij : i = j
  · subst hij
    rw [and_self]
    by_cases hp : s i = true
    · unfold table
      rw [if_pos rfl]
      have : (List.range 5).any (fun k => k != i && (distAttr g i k).isSome) = true := by
        rw [List.any_eq_true]
        by_cases hia : i = a
        · subst hia
          obtain ⟨d, hd', -⟩ := hk.given i b hab ha hb ⟨hpa, hpb⟩
          exact ⟨b, List.mem_range.mpr hb, by simp [hd', hab.symm]⟩
        · obtain ⟨d, hd', -⟩ := hk.given i a hia hi ha ⟨hp, hpa⟩
          exact ⟨a, List.mem_range.mpr ha, by simp [hd', Ne.symm hia]⟩
      rw [if_pos this]
      simp [hp]
    · rw [diag_known hk hi (by simpa using hp)]
      simp [hp]
  · unfold table
    rw [if_neg hij]
    by_cases h : s i = true ∧ s j = true
    · obtain ⟨d, hd', h0⟩ := hk.given i j hij hi hj h
      rw [hd']
      simp only [h, and_self, iff_true, ne_eq]
      intro h1
      linarith
    · rw [hk.missing i j hij hi hj h]
      simp only [ne_eq, not_true_eq_false, h]

/-- the number of entries of a square table -/
theorem square_count (f : Nat → Bool) :
    ((List.range 5).flatMap fun i => (List.range 5).filter fun j => f i && f j).length = (((List.range 5).filter f).length) ^ 2 := by
  have e : List.range 5 = [0, 1, 2, 3, 4] := rfl
  rw [e]
  simp only [List.flatMap_cons, List.flatMap_nil, List.append_nil, List.length_append, List.filter_cons, List.filter_nil]
  generalize f 0 = a
  generalize f 1 = b
  generalize f 2 = c
  generalize f 3 = d
  generalize f 4 = e
  revert a b c d e
  decide

theorem entries_eq {s : Nat → Bool} (hk : Known g s) {a b : Nat} (hab : a ≠ b) (ha : a < 5) (hb : b < 5)
    (hpa : s a = true) (hpb : s b = true) : entries g = (((List.range 5).filter s).length) ^ 2 := by
  rw [← square_count]
  unfold entries
  congr 1
  apply List.flatMap_congr
  intro i hi
  apply List.filter_congr
  intro j hj
  rw [Bool.eq_iff_iff, decide_eq_true_iff, Bool.and_eq_true]
  exact table_known hk hab ha hb hpa hpb (List.mem_range.mp hi) (List.mem_range.mp hj)

theorem hasEarth_known {s : Nat → Bool} (hk : Known g s) {a : Nat} (ha : a < 4) (hpa : s a = true) : hasEarth g = s 4 := by
  unfold hasEarth
  cases h4 : s 4 with
  | true =>
    rw [List.any_eq_true]
    refine ⟨a, List.mem_range.mpr (by omega), ?_⟩
    rw [decide_eq_true_iff]
    unfold table
    obtain ⟨d, hd', h0⟩ := hk.given 4 a (by omega) (by omega) (by omega) ⟨h4, hpa⟩
    rw [if_neg (by omega), hd']
    dsimp only
    linarith
  | false =>
    rw [List.any_eq_false]
    intro j hj
    rw [decide_eq_true_iff]
    by_cases hj4 : 4 = j
    · rw [← hj4, diag_known hk (by omega) h4]; simp
    · unfold table
      rw [if_neg hj4, hk.missing 4 j hj4 (by omega) (List.mem_range.mp hj) (fun h => by rw [h4] at h; exact absurd h.1 (by decide))]
      simp

theorem wireCount_known {s : Nat → Bool} (hk : Known g s) {a b : Nat} (hab : a ≠ b) (ha : a < 4) (hb : b < 5)
    (hpa : s a = true) (hpb : s b = true) : wireCount g = ((List.range 5).filter s).length - (if s 4 then 1 else 0) := by
  unfold wireCount
  rw [hasEarth_known hk ha hpa, entries_eq hk hab (by omega) hb hpa hpb, Nat.sqrt_eq']

theorem letter_of_phase {x : String} (h : x ∈ ["A", "B", "C", "N"]) : ∃ i < 4, letter i = x ∧ letterIndex x = .ok i := by
  simp only [List.mem_cons, List.not_mem_nil, or_false] at h
  rcases h with rfl | rfl | rfl | rfl
  · exact ⟨0, by omega, rfl, rfl⟩
  · exact ⟨1, by omega, rfl, rfl⟩
  · exact ⟨2, by omega, rfl, rfl⟩
  · exact ⟨3, by omega, rfl, rfl⟩

theorem present_count (hw : Wires ws P) (earth : Bool) :
    ((List.range 5).filter (present ws earth)).length = ws.length + (if earth then 1 else 0) := by
  have h4 : List.range 5 = List.range 4 ++ [4] := rfl
  rw [h4, List.filter_append, List.length_append]
  congr 1
  · have h1 : (List.range 4).filter (present ws earth) = (List.range 4).filter fun i => decide (letter i ∈ ws) := by
      apply List.filter_congr
      intro i hi
      unfold present
      rw [if_pos (List.mem_range.mp hi)]
    rw [h1]
    have hp : (((List.range 4).filter fun i => decide (letter i ∈ ws)).map letter).Perm ws := by
      rw [List.perm_ext_iff_of_nodup _ hw.nodup]
      · intro x
        simp only [List.mem_map, List.mem_filter, List.mem_range, decide_eq_true_eq]
        constructor
        · rintro ⟨i, ⟨-, h⟩, rfl⟩; exact h
        · intro hx
          obtain ⟨i, hi, rfl, -⟩ := letter_of_phase (hw.phases x hx)
          exact ⟨i, ⟨hi, hx⟩, rfl⟩
      · apply List.Nodup.map_on _ (List.nodup_range.filter _)
        intro i hi j hj h
        rw [List.mem_filter, List.mem_range] at hi hj
        exact letter_inj hi.1 hj.1 h
    rw [← hp.length_eq, List.length_map]
  · cases earth <;> rfl

theorem hasEarth_eq (hd : Describes g ws earth P) (hw : Wires ws P) (hne : ws ≠ []) : hasEarth g = earth := by
  obtain ⟨x, hx⟩ := List.exists_mem_of_ne_nil ws hne
  obtain ⟨i, hi, rfl, -⟩ := letter_of_phase (hw.phases x hx)
  have h := hasEarth_known (known_of hd hw) hi (by unfold present; rw [if_pos hi]; simpa using hx)
  rw [h]
  rfl

theorem wireCount_eq (hd : Describes g ws earth P) (hw : Wires ws P) (h : 2 ≤ ws.length ∨ ws.length = 1 ∧ earth = true) :
    wireCount g = ws.length := by
  have hne : ws ≠ [] := by rintro rfl; simp at h
  have hex : ∃ a b, a ≠ b ∧ a < 5 ∧ b < 5 ∧ present ws earth a = true ∧ present ws earth b = true := by
    rcases h with h | ⟨-, h⟩
    · match ws, h, hw with
      | x :: y :: l, _, hw =>
        obtain ⟨i, hi, hix, -⟩ := letter_of_phase (hw.phases x (by simp))
        obtain ⟨j, hj, hjy, -⟩ := letter_of_phase (hw.phases y (by simp))
        refine ⟨i, j, ?_, by omega, by omega, ?_, ?_⟩
        · rintro rfl
          have := hw.nodup
          rw [← hix, ← hjy] at this
          simp at this
        · unfold present; rw [if_pos hi, hix]; simp
        · unfold present; rw [if_pos hj, hjy]; simp
    · obtain ⟨x, hx⟩ := List.exists_mem_of_ne_nil ws hne
      obtain ⟨i, hi, rfl, -⟩ := letter_of_phase (hw.phases x hx)
      refine ⟨i, 4, by omega, by omega, by omega, ?_, ?_⟩
      · unfold present; rw [if_pos hi]; simpa using hx
      · unfold present; rw [if_neg (by omega)]; exact h
  obtain ⟨a, b, hab, ha, hb, hpa, hpb⟩ := hex
  unfold wireCount
  rw [hasEarth_eq hd hw hne, entries_eq (known_of hd hw) hab ha hb hpa hpb, Nat.sqrt_eq', present_count hw]
  omega

/-! The longest distance. -/

theorem longest_fold (g : Distances) (l : List (Nat × Nat)) (hpos : ∀ p ∈ l, ∀ d, distAttr g p.1 p.2 = some d → -100 < d) :
    match l.foldl (maxStep g) none with
    | none => ∀ p ∈ l, distAttr g p.1 p.2 = none
    | some (m, f, t) => (f, t) ∈ l ∧ distAttr g f t = some m ∧ ∀ p ∈ l, ∀ d, distAttr g p.1 p.2 = some d → d ≤ m := by
  induction l using List.reverseRecOn with
  | nil => simp
  | append_singleton l p ih =>
    have ih' := ih fun q hq => hpos q (List.mem_append_left _ hq)
    clear ih
    have hp := hpos p (by simp)
    rw [List.foldl_append, List.foldl_cons, List.foldl_nil]
    generalize l.foldl (maxStep g) none = st at ih'
    unfold maxStep
    cases ha : distAttr g p.1 p.2 with
    | none =>
      cases st with
      | none =>
        dsimp only at ih' ⊢
        intro q hq
        rcases List.mem_append.mp hq with hq | hq
        · exact ih' q hq
        · rw [List.mem_singleton] at hq; subst hq; exact ha
      | some s =>
        obtain ⟨m, f, t⟩ := s
        dsimp only at ih' ⊢
        refine ⟨List.mem_append_left _ ih'.1, ih'.2.1, ?_⟩
        intro q hq d hd
        rcases List.mem_append.mp hq with hq | hq
        · exact ih'.2.2 q hq d hd
        · rw [List.mem_singleton] at hq; subst hq; rw [ha] at hd; cases hd
    | some d =>
      cases st with
      | none =>
        dsimp only at ih' ⊢
        rw [if_pos (hp d ha)]
        dsimp only
        refine ⟨by simp, ha, ?_⟩
        intro q hq d' hd
        rcases List.mem_append.mp hq with hq | hq
        · rw [ih' q hq] at hd; cases hd
        · rw [List.mem_singleton] at hq; subst hq; rw [ha] at hd; cases hd; exact le_refl _
      | some s =>
        obtain ⟨m, f, t⟩ := s
        dsimp only at ih' ⊢
        by_cases hdm : d > m
        · rw [if_pos hdm]
          dsimp only
          refine ⟨by simp, ha, ?_⟩
          intro q hq d' hd
          rcases List.mem_append.mp hq with hq | hq
          · exact (ih'.2.2 q hq d' hd).trans hdm.le
          · rw [List.mem_singleton] at hq; subst hq; rw [ha] at hd; cases hd; exact le_refl _
        · rw [if_neg hdm]
          dsimp only
          refine ⟨List.mem_append_left _ ih'.1, ih'.2.1, ?_⟩
          intro q hq d' hd
          rcases List.mem_append.mp hq with hq | hq
          · exact ih'.2.2 q hq d' hd
          · rw [List.mem_singleton] at hq; subst hq; rw [ha] at hd; cases hd; exact not_lt.mp hdm

theorem mem_pairs {i j : Nat} : (i, j) ∈ pairs ↔ i < j ∧ j < 4 := by
  unfold pairs
  constructor
  · intro h
    simp only [List.mem_cons, Prod.mk.injEq, List.not_mem_nil, or_false] at h
    omega
  · rintro ⟨h1, h2⟩
    simp only [List.mem_cons, Prod.mk.injEq, List.not_mem_nil, or_false]
    omega

theorem longest_eq (hd : Describes g ws earth P) (hw : Wires ws P) (h : 2 ≤ ws.length) :
    ∃ f t, f < t ∧ t < 4 ∧ letter f ∈ ws ∧ letter t ∈ ws ∧ longest g = some (gap (P (letter f)) (P (letter t)), f, t) ∧
      ∀ x ∈ ws, ∀ y ∈ ws, gap (P x) (P y) ≤ gap (P (letter f)) (P (letter t)) := by
  have hpos : ∀ p ∈ pairs, ∀ d, distAttr g p.1 p.2 = some d → -100 < d := by
    rintro ⟨i, j⟩ hp d hd'
    rw [mem_pairs] at hp
    rw [attr_pair hd (by omega) (by omega) hp.2] at hd'
    split at hd'
    · cases hd'; have := gap_nonneg (P (letter i)) (P (letter j)); linarith
    · cases hd'
  have hl := longest_fold g pairs hpos
  unfold longest
  cases hc : pairs.foldl (maxStep g) none with
  | none =>
    exfalso
    rw [hc] at hl
    dsimp only at hl
    match ws, h, hw, hd with
    | x :: y :: l, _, hw, hd =>
      obtain ⟨i, hi, hix, -⟩ := letter_of_phase (hw.phases x (by simp))
      obtain ⟨j, hj, hjy, -⟩ := letter_of_phase (hw.phases y (by simp))
      have hij : i ≠ j := by
        rintro rfl
        have := hw.nodup
        rw [← hix, ← hjy] at this
        simp at this
      have hsome : distAttr g i j = some (gap (P (letter i)) (P (letter j))) := by
        rw [attr_pair hd hij hi hj, if_pos]
        rw [hix, hjy]; simp
      rcases lt_or_gt_of_ne hij with h' | h'
      · have := hl (i, j) (mem_pairs.mpr ⟨h', hj⟩)
        rw [hsome] at this; cases this
      · have := hl (j, i) (mem_pairs.mpr ⟨h', hi⟩)
        dsimp only at this
        rw [attr_comm g hij.symm, hsome] at this; cases this
  | some s =>
    obtain ⟨m, f, t⟩ := s
    rw [hc] at hl
    dsimp only at hl
    obtain ⟨hft, ha, hmax⟩ := hl
    obtain ⟨hft, ht⟩ := mem_pairs.mp hft
    rw [attr_pair hd (by omega) (by omega) ht] at ha
    split at ha
    · rename_i hm
      cases ha
      refine ⟨f, t, hft, ht, hm.1, hm.2, rfl, ?_⟩
      intro x hx y hy
      obtain ⟨i, hi, rfl, -⟩ := letter_of_phase (hw.phases x hx)
      obtain ⟨j, hj, rfl, -⟩ := letter_of_phase (hw.phases y hy)
      by_cases hij : i = j
      · subst hij; rw [gap_self]; exact gap_nonneg _ _
      · have hsome : distAttr g i j = some (gap (P (letter i)) (P (letter j))) := by
          rw [attr_pair hd hij hi hj, if_pos ⟨hx, hy⟩]
        rcases lt_or_gt_of_ne hij with h' | h'
        · exact hmax (i, j) (mem_pairs.mpr ⟨h', hj⟩) _ hsome
        · exact hmax (j, i) (mem_pairs.mpr ⟨h', hi⟩) _ (by rw [attr_comm g (Ne.symm hij)]; exact hsome)
    · cases ha

/-! Entries of the table. -/

theorem table_pair (hd : Describes g ws earth P) {i j : Nat} (hij : i ≠ j) (hi : i < 4) (hj : j < 4) (hx : letter i ∈ ws)
    (hy : letter j ∈ ws) : table g i j = gap (P (letter i)) (P (letter j)) := by
  unfold table
  rw [if_neg hij, attr_pair hd hij hi hj, if_pos ⟨hx, hy⟩]

theorem table_earth (hd : Describes g ws true P) (hw : Wires ws P) {i : Nat} (hi : i < 4) (hx : letter i ∈ ws) :
    table g i 4 = (P (letter i)).2 := by
  unfold table
  rw [if_neg (by omega), attr_earth hd hw hi, if_pos ⟨rfl, hx⟩]

theorem tilt_eq (hd : Describes g ws true P) (hw : Wires ws P) {f t : Nat} (hf : f < 4) (ht : t < 4) (hft : f ≠ t)
    (hx : letter f ∈ ws) (hy : letter t ∈ ws) :
    tilt g (gap (P (letter f)) (P (letter t))) f t =
      .ok (Real.arccos (((P (letter f)).2 - (P (letter t)).2) / gap (P (letter f)) (P (letter t)))) := by
  have hab : P (letter f) ≠ P (letter t) := hw.apart _ hx _ hy fun h => hft (letter_inj hf ht h)
  unfold tilt
  rw [if_neg (gap_pos hab).ne', table_earth hd hw hf hx, table_earth hd hw ht hy, if_pos (tilt_bound hab)]

end

end Ditto.Gld
