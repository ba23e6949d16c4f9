import Verif.Lemmas.CymePanels
import Mathlib.Tactic.NormNum.Prime

/-! C84: the panels of photovoltaic systems in CYME files. -/
namespace Ditto.Cyme
open Ditto Spec

/-- C84. The sides of the rectangle for a number of panels that is no prime number are at least 2, and no other rectangle one of whose sides has the larger
prime factors has a smaller perimeter; for a prime number there is only one rectangle. Missing, because it is false: other rectangles. -/
theorem C84_perimeter_partial {n : Nat} (hn : 2 ≤ n) :
    ∃ x y : Nat, smallestPerimeter n = ((x : ℚ), (y : ℚ)) ∧ x * y = n ∧ (n.Prime → x = 1) ∧
      (¬n.Prime → 2 ≤ x ∧ 2 ≤ y ∧ LargeBySmall x y ∧ ∀ a b, a * b = n → 2 ≤ a → 2 ≤ b → LargeBySmall a b → x + y ≤ a + b) := by
  by_cases hp : n.Prime
  · exact ⟨1, n, by rw [smallest_prime hp, Nat.cast_one], one_mul n, fun _ => rfl, fun h => absurd hp h⟩
  · obtain ⟨f0, t, f, hf⟩ := two_factors hn hp
    obtain ⟨x, y, h1, h2, h3⟩ := smallest_shape (by omega) hf
    exact ⟨x, y, h1, h2, fun h => absurd h hp, fun _ => h3⟩

/-- a rectangle against a row of panels -/
theorem row_longer {n x y a b : Nat} (hxy : x * y = n) (hx : 1 ≤ x) (hy : 1 ≤ y) (hab : a * b = n) (h : a = 1 ∨ b = 1) : x + y ≤ a + b := by
  obtain ⟨u, rfl⟩ : ∃ u, x = u + 1 := ⟨x - 1, by omega⟩
  obtain ⟨v, rfl⟩ : ∃ v, y = v + 1 := ⟨y - 1, by omega⟩
  have : (u + 1) * (v + 1) = u * v + u + v + 1 := by ring
  rcases h with rfl | rfl
  · rw [one_mul] at hab
    have := Nat.zero_le (u * v)
    omega
  · rw [mul_one] at hab
    have := Nat.zero_le (u * v)
    omega

theorem smallest_of_ordered {n : Nat} (hn : 2 ≤ n) (h : ∀ a b, a * b = n → 2 ≤ a → 2 ≤ b → LargeBySmall a b ∨ LargeBySmall b a) :
    ∃ x y : Nat, smallestPerimeter n = ((x : ℚ), (y : ℚ)) ∧ Smallest n x y := by
  obtain ⟨x, y, h1, h2, h3, h4⟩ := C84_perimeter_partial hn
  have hx : 1 ≤ x := Nat.one_le_iff_ne_zero.mpr fun h0 => by rw [h0, zero_mul] at h2; omega
  have hy : 1 ≤ y := Nat.one_le_iff_ne_zero.mpr fun h0 => by rw [h0, mul_zero] at h2; omega
  refine ⟨x, y, h1, h2, fun a b hab => ?_⟩
  have ha : a ≠ 0 := fun h0 => by rw [h0, zero_mul] at hab; omega
  have hb : b ≠ 0 := fun h0 => by rw [h0, mul_zero] at hab; omega
  by_cases hone : a = 1 ∨ b = 1
  · exact row_longer h2 hx hy hab hone
  · have ha2 : 2 ≤ a := by omega
    have hb2 : 2 ≤ b := by omega
    have hp : ¬n.Prime := by
      intro hp
      rw [← hab] at hp
      exact Nat.not_prime_mul (by omega) (by omega) hp
    obtain ⟨-, -, -, h5⟩ := h4 hp
    rcases h a b hab ha2 hb2 with hl | hl
    · exact h5 a b hab ha2 hb2 hl
    · have := h5 b a (by rw [mul_comm]; exact hab) hb2 ha2 hl
      omega

/-- The rectangle for a power of a prime number, or for the product of two prime numbers, has the smallest perimeter. -/
theorem C84_smallest_partial {p q : Nat} (hp : p.Prime) (hq : q.Prime) :
    (∀ k, 1 ≤ k → ∃ x y : Nat, smallestPerimeter ((p ^ k : Nat) : ℤ) = ((x : ℚ), (y : ℚ)) ∧ Smallest (p ^ k) x y) ∧
    ∃ x y : Nat, smallestPerimeter ((p * q : Nat) : ℤ) = ((x : ℚ), (y : ℚ)) ∧ Smallest (p * q) x y := by
  constructor
  · intro k hk
    refine smallest_of_ordered (hp.two_le.trans (Nat.le_self_pow (by omega) p)) fun a b hab _ _ => Or.inl fun u v hu hv hua hvb => ?_
    have e1 : u = p := (Nat.prime_dvd_prime_iff_eq hu hp).mp (hu.dvd_of_dvd_pow (hab ▸ hua.mul_right b))
    have e2 : v = p := (Nat.prime_dvd_prime_iff_eq hv hp).mp (hv.dvd_of_dvd_pow (hab ▸ hvb.mul_left a))
    rw [e1, e2]
  · refine smallest_of_ordered (hp.two_le.trans (Nat.le_mul_of_pos_right p hq.pos)) fun a b hab ha hb => ?_
    have sides : (a = p ∧ b = q) ∨ (a = q ∧ b = p) := by
      have hd : p ∣ a * b := hab ▸ Dvd.intro q rfl
      rcases hp.dvd_mul.mp hd with ⟨c, rfl⟩ | ⟨c, rfl⟩
      · have hc : c * b = q := Nat.eq_of_mul_eq_mul_left hp.pos (by rw [← mul_assoc]; exact hab)
        rcases (Nat.dvd_prime hq).mp (hc ▸ Dvd.intro b rfl : c ∣ q) with rfl | rfl
        · exact Or.inl ⟨mul_one p, by rw [← hc, one_mul]⟩
        · exact absurd (Nat.eq_of_mul_eq_mul_left hq.pos (hc.trans (mul_one c).symm)) (by omega)
      · have hc : a * c = q := Nat.eq_of_mul_eq_mul_left hp.pos (by rw [← hab]; ring)
        rcases (Nat.dvd_prime hq).mp (hc ▸ Dvd.intro c rfl : a ∣ q) with rfl | rfl
        · omega
        · have : c = 1 := Nat.eq_of_mul_eq_mul_left hq.pos (hc.trans (mul_one a).symm)
          exact Or.inr ⟨rfl, by rw [this, mul_one]⟩
    have large : ∀ {p q : Nat}, p.Prime → q.Prime → q ≤ p → LargeBySmall p q := by
      intro p q hp hq hle u v hu hv hup hvq
      rw [(Nat.prime_dvd_prime_iff_eq hu hp).mp hup, (Nat.prime_dvd_prime_iff_eq hv hq).mp hvq]
      exact hle
    rcases sides with ⟨rfl, rfl⟩ | ⟨rfl, rfl⟩
    · rcases Nat.le_total a b with h | h
      · exact Or.inr (large hq hp h)
      · exact Or.inl (large hp hq h)
    · rcases Nat.le_total a b with h | h
      · exact Or.inr (large hp hq h)
      · exact Or.inl (large hq hp h)

/-- For two prime numbers of which the larger one is at most the square of the smaller one, the rectangle for the square of their product is not that
square, although the square has a smaller perimeter. -/
theorem C84_perimeter_violated {p q : Nat} (hp : p.Prime) (hq : q.Prime) (hlt : p < q) (hle : q ≤ p * p) :
    smallestPerimeter ((p * q * (p * q) : Nat) : ℤ) = (((q * q : Nat) : ℚ), ((p * p : Nat) : ℚ)) ∧ p * q + p * q < q * q + p * p ∧
      ¬∃ x y : Nat, smallestPerimeter ((p * q * (p * q) : Nat) : ℤ) = ((x : ℚ), (y : ℚ)) ∧ Smallest (p * q * (p * q)) x y := by
  have hpp := hp.two_le
  have hsmall : p * q + p * q < q * q + p * p := by
    obtain ⟨d, rfl⟩ : ∃ d, q = p + d := ⟨q - p, by omega⟩
    have hd : 0 < d * d := Nat.mul_pos (by omega) (by omega)
    nlinarith
  have hval : smallestPerimeter ((p * q * (p * q) : Nat) : ℤ) = (((q * q : Nat) : ℚ), ((p * p : Nat) : ℚ)) := by
    have hpos : 0 < p * q * (p * q) := Nat.mul_pos (Nat.mul_pos hp.pos hq.pos) (Nat.mul_pos hp.pos hq.pos)
    have hfac : (p * q * (p * q)).primeFactorsList = [p, p, q, q] := by
      refine (List.Perm.eq_of_sortedLE (List.Pairwise.sortedLE ?_) (Nat.primeFactorsList_sorted _) (Nat.primeFactorsList_unique ?_ ?_)).symm
      · simp only [List.pairwise_cons, List.mem_cons, List.not_mem_nil, or_false, List.Pairwise.nil, and_true]
        exact ⟨by rintro a (rfl | rfl | rfl) <;> omega, by rintro a (rfl | rfl) <;> omega, by rintro a rfl; omega, fun _ h => h.elim⟩
      · simp only [List.prod_cons, List.prod_nil]
        ring
      · intro a ha
        simp only [List.mem_cons, List.not_mem_nil, or_false] at ha
        rcases ha with rfl | rfl | rfl | rfl <;> assumption
    have hp0 : (0 : ℚ) < p := by exact_mod_cast hp.pos
    have hq0 : (0 : ℚ) < q := by exact_mod_cast hq.pos
    have hp2 : (2 : ℚ) ≤ p := by exact_mod_cast hpp
    have hlt' : (p : ℚ) < q := by exact_mod_cast hlt
    have hle' : (q : ℚ) ≤ p * p := by exact_mod_cast hle
    have e1 : (p * q * (p * q) : ℚ) / q = p * p * q := by field_simp
    have e2 : (p * q * (p * q) : ℚ) / (q * q) = p * p := by field_simp
    have e3 : (p * q * (p * q) : ℚ) / (q * q * p) = p := by field_simp
    unfold smallestPerimeter
    dsimp only
    rw [Int.toNat_natCast, factorLoop_two hpos, hfac]
    show (greedySide _ [q, q, p] 1 none, _ / greedySide _ [q, q, p] 1 none) = _
    have hg : greedySide (((p * q * (p * q) : Nat) : ℤ) : ℚ) [q, q, p] 1 none = q * q := by
      push_cast
      rw [greedySide, if_neg (by rw [exceeds]; exact Bool.false_ne_true), one_mul, e1, greedySide, e2, greedySide, e3]
      rw [if_neg, if_pos]
      · rw [exceeds, decide_eq_true_iff]
        nlinarith [mul_pos (sub_pos.mpr (by linarith : (1 : ℚ) < p)) (by nlinarith : (0 : ℚ) < q * q - p)]
      · rw [exceeds, decide_eq_true_iff, not_lt]
        nlinarith [mul_nonneg (by linarith : (0 : ℚ) ≤ q - 1) (sub_nonneg.mpr hle')]
    rw [hg]
    push_cast
    rw [e2]
  refine ⟨hval, hsmall, ?_⟩
  rintro ⟨x, y, h1, h2, h3⟩
  rw [hval, Prod.mk.injEq] at h1
  have hx : q * q = x := by exact_mod_cast h1.1
  have hy : p * p = y := by exact_mod_cast h1.2
  have := h3 (p * q) (p * q) rfl
  omega

/-- the rectangle that is written for a number of panels -/
theorem sides_cover {n : Nat} (hn : 1 ≤ n) :
    ∃ x y : Nat, panelSides n = ((x : ℚ), (y : ℚ)) ∧ 1 ≤ x ∧ 1 ≤ y ∧ (x * y = n ∨ x * y = n + 1) ∧ (x = 1 ∨ y = 1 → x * y ≤ 3) := by
  have second : ∀ s : ℚ × ℚ, smallestPerimeter n = s → min s.1 s.2 = 1 → panelSides n = smallestPerimeter ((n + 1 : Nat) : ℤ) := by
    intro s hs hmin
    unfold panelSides
    dsimp only
    rw [hs, if_pos hmin, Nat.cast_add, Nat.cast_one]
  have next : n = 1 ∨ n.Prime → panelSides n = smallestPerimeter ((n + 1 : Nat) : ℤ) →
      ∃ x y : Nat, panelSides n = ((x : ℚ), (y : ℚ)) ∧ 1 ≤ x ∧ 1 ≤ y ∧ (x * y = n ∨ x * y = n + 1) ∧ (x = 1 ∨ y = 1 → x * y ≤ 3) := fun hcase he => by
    obtain ⟨x, y, h1, h2, h3, h4⟩ := C84_perimeter_partial (n := n + 1) (by omega)
    by_cases hp : (n + 1).Prime
    · have hx := h3 hp
      subst hx
      rw [one_mul] at h2
      have hle : n ≤ 2 := by
        rcases hcase with h | h
        · omega
        · by_contra hcon
          rcases h.eq_two_or_odd with h | h
          · omega
          · rcases hp.eq_two_or_odd with h' | h' <;> omega
      exact ⟨1, y, by rw [he, h1], Nat.le_refl 1, by omega, Or.inr (by rw [one_mul, h2]), fun _ => by rw [one_mul]; omega⟩
    · obtain ⟨h5, h6, -⟩ := h4 hp
      exact ⟨x, y, by rw [he, h1], by omega, by omega, Or.inr h2, fun h => by omega⟩
  by_cases h1 : n = 1
  · refine next (Or.inl h1) (second (1, 1) ?_ (min_self 1))
    unfold smallestPerimeter
    rw [h1, Nat.cast_one, show (1 : ℤ).toNat = 1 from rfl, factorLoop_two one_pos, Nat.primeFactorsList_one]
    show ((1 : ℚ), ((1 : ℤ) : ℚ) / 1) = _
    rw [div_one, Int.cast_one]
  · by_cases hp : n.Prime
    · refine next (Or.inr hp) (second _ (smallest_prime hp) (min_eq_left ?_))
      show (1 : ℚ) ≤ (n : ℚ)
      exact_mod_cast hn
    · obtain ⟨x, y, h1, h2, -, h4⟩ := C84_perimeter_partial (n := n) (by omega)
      obtain ⟨h5, h6, -⟩ := h4 hp
      refine ⟨x, y, ?_, by omega, by omega, Or.inl h2, fun h => by omega⟩
      unfold panelSides
      dsimp only
      rw [h1, if_neg]
      have a1 : (2 : ℚ) ≤ x := by exact_mod_cast h5
      have a2 : (2 : ℚ) ≤ y := by exact_mod_cast h6
      intro h
      have := le_min a1 a2
      linarith

theorem area_cover {p : ℚ} (hp : 0 < p) :
    ∃ x y : Nat, panelSides ⌈p / 1000 / (8 / 100)⌉ = ((x : ℚ), (y : ℚ)) ∧ 1 ≤ x ∧ 1 ≤ y ∧ p ≤ x * y * 80 ∧ x * y * 80 < p + 160 ∧
      (x = 1 ∨ y = 1 → x * y ≤ 3) := by
  have hq : (0 : ℚ) < p / 1000 / (8 / 100) := by positivity
  have h1 := Int.le_ceil (p / 1000 / (8 / 100))
  have h2 := Int.ceil_lt_add_one (p / 1000 / (8 / 100))
  have h3 : 0 < ⌈p / 1000 / (8 / 100)⌉ := Int.ceil_pos.mpr hq
  obtain ⟨n, hn⟩ := Int.eq_ofNat_of_zero_le h3.le
  rw [hn] at h1 h2 h3
  obtain ⟨x, y, g1, g2, g3, g4, g5⟩ := sides_cover (n := n) (by omega)
  refine ⟨x, y, by rw [hn]; exact g1, g2, g3, ?_, ?_, g5⟩
  · have : (n : ℚ) ≤ x * y := by
      rcases g4 with h | h
      · exact_mod_cast h.ge
      · exact_mod_cast (by omega : n ≤ x * y)
    have h1' : p / 1000 / (8 / 100) ≤ (n : ℚ) := by exact_mod_cast h1
    linarith
  · have : (x : ℚ) * y ≤ n + 1 := by
      rcases g4 with h | h
      · exact_mod_cast (by omega : x * y ≤ n + 1)
      · exact_mod_cast h.le
    have h2' : (n : ℚ) < p / 1000 / (8 / 100) + 1 := by exact_mod_cast h2
    linarith

/-- The rectangle of panels of 80 W that is written for a photovoltaic system has its rated power, or else 10/11 of its active rating, with less than two
panels more than needed, and is no row of panels unless it has at most three of them. Without both of them nothing is written. -/
theorem C84_panels (rated active : Option ℚ) :
    (∀ p, rated = some p ∨ (rated = none ∧ ∃ r, active = some r ∧ p = r * 10 / 11) → 0 < p →
      ∃ x y : Nat, pvPanels rated active = some ((x : ℚ), (y : ℚ)) ∧ 1 ≤ x ∧ 1 ≤ y ∧ p ≤ x * y * 80 ∧ x * y * 80 < p + 160 ∧
        (x = 1 ∨ y = 1 → x * y ≤ 3)) ∧
    (rated = none → active = none → pvPanels rated active = none) := by
  refine ⟨?_, fun h1 h2 => by rw [h1, h2]; rfl⟩
  rintro p (rfl | ⟨rfl, r, rfl, rfl⟩) hp
  · obtain ⟨x, y, h1, h2⟩ := area_cover hp
    exact ⟨x, y, congrArg some h1, h2⟩
  · obtain ⟨x, y, h1, h2⟩ := area_cover hp
    refine ⟨x, y, ?_, h2⟩
    rw [← h1, show r * 10 / 11 = r / (11 / 10) by ring]
    rfl

/-- 36 panels are written as 9 by 4, although 6 by 6 has a smaller perimeter -/
example : smallestPerimeter 36 = (9, 4) := by
  have := (C84_perimeter_violated (p := 2) (q := 3) (by norm_num) (by norm_num) (by omega) (by omega)).1
  norm_num at this
  exact this

/-- 8 panels have the smallest perimeter -/
example : ∃ x y : Nat, smallestPerimeter ((2 ^ 3 : Nat) : ℤ) = ((x : ℚ), (y : ℚ)) ∧ Smallest (2 ^ 3) x y :=
  (C84_smallest_partial (p := 2) (q := 3) (by norm_num) (by norm_num)).1 3 (by omega)

/-- 12 is no prime number -/
example : ∃ x y : Nat, smallestPerimeter (12 : Nat) = ((x : ℚ), (y : ℚ)) ∧ x * y = 12 ∧ 2 ≤ x ∧ 2 ≤ y := by
  obtain ⟨x, y, h1, h2, -, h4⟩ := C84_perimeter_partial (n := 12) (by omega)
  obtain ⟨h5, h6, -⟩ := h4 (by norm_num)
  exact ⟨x, y, h1, h2, h5, h6⟩

/-- a system of 1 kW -/
example : ∃ x y : Nat, pvPanels (some 1000) none = some ((x : ℚ), (y : ℚ)) ∧ (1000 : ℚ) ≤ x * y * 80 := by
  obtain ⟨x, y, h1, -, -, h2, -⟩ := (C84_panels (some 1000) none).1 1000 (Or.inl rfl) (by norm_num)
  exact ⟨x, y, h1, h2⟩

end Ditto.Cyme
