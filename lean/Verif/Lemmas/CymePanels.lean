import Verif.Model.CymePanels
import Verif.Spec.CymePanels
import Mathlib.Data.Nat.Factors
import Mathlib.Tactic.Linarith
import Mathlib.Tactic.FieldSimp
import Mathlib.Tactic.Ring
import Mathlib.Tactic.Positivity

/-! Lemmas on the panels of photovoltaic systems in CYME files. -/
namespace Ditto.Cyme
open Ditto Spec

/-! ### prime factors -/

theorem factorLoop_primes : ∀ (m n i : Nat), 2 * n - i ≤ m → 0 < n → 2 ≤ i → (∀ p, p.Prime → p ∣ n → i ≤ p) → factorLoop n i = n.primeFactorsList := by
  intro m
  induction m with
  | zero =>
    intro n i hm hn hi hp
    have h2 : 2 * n ≤ i := by omega
    have : n < i * i := by nlinarith
    rw [factorLoop, if_neg (by omega)]
    have : n = 1 := by
      by_contra hne
      have := hp _ (Nat.minFac_prime hne) (Nat.minFac_dvd n)
      have := Nat.minFac_le hn
      omega
    rw [this, Nat.primeFactorsList_one]
    rfl
  | succ m ih =>
    intro n i hm hn hi hp
    by_cases h1 : n = 1
    · subst h1
      rw [factorLoop, if_neg (by intro h; nlinarith [h.2]), Nat.primeFactorsList_one]
      rfl
    have hmin := hp _ (Nat.minFac_prime h1) (Nat.minFac_dvd n)
    obtain ⟨k, rfl⟩ : ∃ k, n = k + 2 := ⟨n - 2, by omega⟩
    by_cases h : i * i ≤ k + 2
    · have hin : i ≤ k + 2 := by nlinarith
      rw [factorLoop, if_pos ⟨hi, h⟩]
      by_cases hd : (k + 2) % i = 0
      · rw [if_pos hd]
        have hdvd : i ∣ k + 2 := Nat.dvd_of_mod_eq_zero hd
        have he : (k + 2).minFac = i := Nat.le_antisymm (Nat.minFac_le_of_dvd hi hdvd) hmin
        rw [Nat.primeFactorsList_add_two, he]
        have hlt : (k + 2) / i < k + 2 := Nat.div_lt_self (by omega) hi
        congr 1
        refine ih _ _ (by omega) (Nat.div_pos hin (by omega)) hi fun p hpp hpd => hp p hpp (hpd.trans (Nat.div_dvd_of_dvd hdvd))
      · rw [if_neg hd]
        refine ih _ _ (by omega) hn (by omega) fun p hpp hpd => ?_
        rcases Nat.lt_or_eq_of_le (hp p hpp hpd) with hlt | he
        · exact hlt
        · subst he
          exact absurd (Nat.mod_eq_zero_of_dvd hpd) hd
    · rw [factorLoop, if_neg (by omega), if_pos (by omega)]
      have hprime : (k + 2).Prime := by
        by_contra hnp
        have := Nat.minFac_sq_le_self hn hnp
        nlinarith
      rw [Nat.primeFactorsList_prime hprime]

theorem factorLoop_two {n : Nat} (hn : 0 < n) : factorLoop n 2 = n.primeFactorsList :=
  factorLoop_primes _ n 2 (Nat.le_refl _) hn (Nat.le_refl _) fun _ hp _ => hp.two_le

/-! ### the greedy choice -/

/-- half of the perimeter -/
def half (n x : ℚ) : ℚ := x + n / x

theorem half_le {n x y : ℚ} (hx : 0 < x) (hxy : x ≤ y) (h : n ≤ x * y) : half n x ≤ half n y := by
  have hy : 0 < y := hx.trans_le hxy
  have e : half n y - half n x = (y - x) * (x * y - n) / (x * y) := by
    unfold half
    field_simp
    ring
  have : 0 ≤ half n y - half n x := by
    rw [e]
    exact div_nonneg (mul_nonneg (by linarith) (by linarith)) (mul_pos hx hy).le
  linarith

theorem half_lt {n x y : ℚ} (hx : 0 < x) (hxy : x < y) (h : half n x < half n y) : n < x * y := by
  have hy : 0 < y := hx.trans hxy
  have e : half n y - half n x = (y - x) * (x * y - n) / (x * y) := by
    unfold half
    field_simp
    ring
  have h2 : 0 < (y - x) * (x * y - n) / (x * y) := by rw [← e]; linarith
  by_contra hcon
  have : (y - x) * (x * y - n) / (x * y) ≤ 0 := div_nonpos_of_nonpos_of_nonneg (mul_nonpos_of_nonneg_of_nonpos (by linarith) (by linarith)) (mul_pos hx hy).le
  linarith

theorem prod_pos {fs : List Nat} (h : ∀ f ∈ fs, 2 ≤ f) : 1 ≤ fs.prod := by
  induction fs with
  | nil => exact Nat.le_refl 1
  | cons f fs ih =>
    rw [List.prod_cons]
    exact Nat.one_le_iff_ne_zero.mpr (Nat.mul_ne_zero (by have := h f List.mem_cons_self; omega)
      (by have := ih fun g hg => h g (List.mem_cons_of_mem _ hg); omega))

theorem greedy_some (n : ℚ) : ∀ (fs : List Nat) (res : ℚ), 0 < res → (∀ f ∈ fs, 2 ≤ f) →
    (∃ j, greedySide n fs res (some (half n res)) = res * (fs.take j).prod) ∧
    ∀ j, half n (greedySide n fs res (some (half n res))) ≤ half n (res * (fs.take j).prod) := by
  intro fs
  induction fs with
  | nil =>
    intro res _ _
    have e : ∀ j, res * (([] : List Nat).take j).prod = res := fun j => by rw [List.take_nil, List.prod_nil, Nat.cast_one, mul_one]
    exact ⟨⟨0, (e 0).symm⟩, fun j => by rw [e j, greedySide]⟩
  | cons f fs ih =>
    intro res hres hfs
    have hf : (2 : ℚ) ≤ f := by exact_mod_cast hfs f List.mem_cons_self
    have hlt : res < res * f := by nlinarith
    have hfs' : ∀ g ∈ fs, 2 ≤ g := fun g hg => hfs g (List.mem_cons_of_mem _ hg)
    rw [greedySide]
    have ex : exceeds (res * f + n / (res * f)) (some (half n res)) = decide (half n res < half n (res * f)) := rfl
    by_cases hb : half n res < half n (res * f)
    · rw [ex, if_pos (decide_eq_true hb)]
      refine ⟨⟨0, by simp⟩, fun j => ?_⟩
      cases j with
      | zero => simp
      | succ j =>
        rw [List.take_succ_cons, List.prod_cons, Nat.cast_mul, ← mul_assoc]
        have h1 : (1 : ℚ) ≤ ((fs.take j).prod : Nat) := by
          exact_mod_cast prod_pos fun g hg => hfs' g (List.mem_of_mem_take hg)
        have h2 := half_lt hres hlt hb
        have h3 : res * f ≤ res * f * ((fs.take j).prod : Nat) := le_mul_of_one_le_right (by linarith) h1
        exact half_le hres (by linarith) (by nlinarith)
    · rw [ex, if_neg (by simpa using hb)]
      obtain ⟨⟨j0, h1⟩, h2⟩ := ih (res * f) (by linarith) hfs'
      rw [show (res * f + n / (res * f)) = half n (res * f) from rfl]
      have e : ∀ j, res * (((f :: fs).take (j + 1)).prod : Nat) = res * f * ((fs.take j).prod : Nat) := fun j => by
        rw [List.take_succ_cons, List.prod_cons, Nat.cast_mul, mul_assoc]
      refine ⟨⟨j0 + 1, by rw [h1, e]⟩, fun j => ?_⟩
      cases j with
      | zero =>
        have := h2 0
        rw [List.take_zero, List.prod_nil, Nat.cast_one, mul_one] at this ⊢
        linarith [not_lt.mp hb]
      | succ j => rw [e]; exact h2 j

theorem greedy_none (n : ℚ) {f : Nat} {fs : List Nat} (hfs : ∀ g ∈ f :: fs, 2 ≤ g) :
    (∃ j, greedySide n (f :: fs) 1 none = ((f :: fs).take (j + 1)).prod) ∧
    ∀ j, half n (greedySide n (f :: fs) 1 none) ≤ half n ((f :: fs).take (j + 1)).prod := by
  have hf : (2 : ℚ) ≤ f := by exact_mod_cast hfs f List.mem_cons_self
  rw [greedySide, if_neg (by rw [exceeds]; exact Bool.false_ne_true), one_mul]
  obtain ⟨⟨j0, h1⟩, h2⟩ := greedy_some n fs f (by linarith) fun g hg => hfs g (List.mem_cons_of_mem _ hg)
  have e : ∀ j, ((((f :: fs).take (j + 1)).prod : Nat) : ℚ) = f * ((fs.take j).prod : Nat) := fun j => by
    rw [List.take_succ_cons, List.prod_cons, Nat.cast_mul]
  exact ⟨⟨j0, by rw [e]; exact h1⟩, fun j => by rw [e]; exact h2 j⟩

/-! ### shapes -/

theorem primes_two {n f : Nat} (h : f ∈ n.primeFactorsList) : 2 ≤ f := (Nat.prime_of_mem_primeFactorsList h).two_le

theorem prime_mem_of_dvd {l : List Nat} (hl : ∀ f ∈ l, f.Prime) {p : Nat} (hp : p.Prime) (h : p ∣ l.prod) : p ∈ l := by
  obtain ⟨f, hf, hd⟩ := (hp.prime.dvd_prod_iff).mp h
  rwa [(Nat.prime_dvd_prime_iff_eq hp (hl f hf)).mp hd]

theorem smallest_prime {n : Nat} (h : n.Prime) : smallestPerimeter n = (1, (n : ℚ)) := by
  unfold smallestPerimeter
  rw [Int.toNat_natCast, factorLoop_two h.pos, Nat.primeFactorsList_prime h]
  show ((1 : ℚ), ((n : ℤ) : ℚ) / 1) = _
  rw [div_one, Int.cast_natCast]

/-- the sides for a number with at least two prime factors -/
theorem smallest_shape {n : Nat} (hn : 0 < n) {f0 f : Nat} {t : List Nat} (hfac : n.primeFactorsList = f0 :: (t ++ [f])) :
    ∃ x y : Nat, smallestPerimeter n = ((x : ℚ), (y : ℚ)) ∧ x * y = n ∧ 2 ≤ x ∧ 2 ≤ y ∧ LargeBySmall x y ∧
      ∀ a b, a * b = n → 2 ≤ a → 2 ≤ b → LargeBySmall a b → x + y ≤ a + b := by
  have hall : ∀ g ∈ f0 :: (t ++ [f]), g.Prime := fun g hg => Nat.prime_of_mem_primeFactorsList (hfac ▸ hg)
  have hsort : (f0 :: (t ++ [f])).Pairwise (· ≤ ·) := by rw [← hfac]; exact (Nat.primeFactorsList_sorted n).pairwise
  have hprod : (f0 :: (t ++ [f])).prod = n := by rw [← hfac]; exact Nat.prod_primeFactorsList hn.ne'
  have hrev : (t ++ [f]).reverse = f :: t.reverse := by rw [List.reverse_append]; rfl
  obtain ⟨⟨j, h1⟩, h2⟩ := greedy_none (n : ℚ) (f := f) (fs := t.reverse) fun g hg => (hall g (by
    rw [← hrev, List.mem_reverse] at hg
    exact List.mem_cons_of_mem _ hg)).two_le
  have hres : greedySide (((n : Nat) : ℤ) : ℚ) (factorLoop ((n : Nat) : ℤ).toNat 2).tail.reverse 1 none = greedySide (n : ℚ) (f :: t.reverse) 1 none := by
    rw [Int.toNat_natCast, factorLoop_two hn, hfac, List.tail_cons, hrev, Int.cast_natCast]
  -- the products of the largest factors
  have cut : ∀ j, ∃ x y : Nat, x = ((f :: t.reverse).take (j + 1)).prod ∧ x * y = n ∧ 2 ≤ x ∧ 2 ≤ y ∧ LargeBySmall x y := by
    intro j
    rw [← hrev, List.take_reverse, List.prod_reverse]
    have hsplit := List.take_append_drop ((t ++ [f]).length - (j + 1)) (t ++ [f])
    refine ⟨_, (f0 :: (t ++ [f]).take ((t ++ [f]).length - (j + 1))).prod, rfl, ?_, ?_, ?_, ?_⟩
    · rw [List.prod_cons, mul_comm, mul_assoc, ← List.prod_append, hsplit, ← List.prod_cons, hprod]
    · have hne : (t ++ [f]).drop ((t ++ [f]).length - (j + 1)) ≠ [] := by
        rw [Ne, List.drop_eq_nil_iff, List.length_append, List.length_singleton]
        omega
      obtain ⟨g, gs, hg⟩ := List.exists_cons_of_ne_nil hne
      have hmem : ∀ z ∈ g :: gs, z.Prime := fun z hz => hall z (List.mem_cons_of_mem _ (List.mem_of_mem_drop (hg ▸ hz)))
      rw [hg, List.prod_cons]
      have a1 := (hmem g List.mem_cons_self).two_le
      have a2 := prod_pos fun z hz => (hmem z (List.mem_cons_of_mem _ hz)).two_le
      nlinarith
    · rw [List.prod_cons]
      have a1 := (hall f0 List.mem_cons_self).two_le
      have a2 := prod_pos (fs := (t ++ [f]).take ((t ++ [f]).length - (j + 1))) fun z hz =>
        (hall z (List.mem_cons_of_mem _ (List.mem_of_mem_take hz))).two_le
      nlinarith
    · intro p q hp hq hpx hqy
      have m1 := prime_mem_of_dvd (fun z hz => hall z (List.mem_cons_of_mem _ (List.mem_of_mem_drop hz))) hp hpx
      have m2 := prime_mem_of_dvd (fun z hz => hall z (by
        rcases List.mem_cons.mp hz with rfl | hz
        · exact List.mem_cons_self
        · exact List.mem_cons_of_mem _ (List.mem_of_mem_take hz))) hq hqy
      have hs : ((f0 :: (t ++ [f]).take ((t ++ [f]).length - (j + 1))) ++ (t ++ [f]).drop ((t ++ [f]).length - (j + 1))).Pairwise (· ≤ ·) := by
        rw [List.cons_append, hsplit]
        exact hsort
      exact (List.pairwise_append.mp hs).2.2 q m2 p m1
  obtain ⟨x, y, hx, hxy, hx2, hy2, hls⟩ := cut j
  have hxq : (0 : ℚ) < x := by exact_mod_cast (by omega : 0 < x)
  have hquot : ∀ {x y : Nat}, x * y = n → 0 < x → (n : ℚ) / x = y := by
    intro x y h hx
    rw [← h, Nat.cast_mul, mul_comm, mul_div_assoc, div_self (by exact_mod_cast hx.ne'), mul_one]
  refine ⟨x, y, ?_, hxy, hx2, hy2, hls, ?_⟩
  · unfold smallestPerimeter
    dsimp only
    rw [hres, h1, ← hx, Int.cast_natCast, hquot hxy (by omega)]
  · intro a b hab ha hb hlab
    -- the factors of the sides, in order, are those of the number
    have hlist : n.primeFactorsList = b.primeFactorsList ++ a.primeFactorsList := by
      refine List.Perm.eq_of_sortedLE (Nat.primeFactorsList_sorted n) ?_ ?_
      · refine List.Pairwise.sortedLE ?_
        refine List.pairwise_append.mpr ⟨(Nat.primeFactorsList_sorted b).pairwise, (Nat.primeFactorsList_sorted a).pairwise, fun q hq p hp => ?_⟩
        exact hlab p q (Nat.prime_of_mem_primeFactorsList hp) (Nat.prime_of_mem_primeFactorsList hq) (Nat.dvd_of_mem_primeFactorsList hp)
          (Nat.dvd_of_mem_primeFactorsList hq)
      · rw [← hab]
        exact (Nat.perm_primeFactorsList_mul (by omega) (by omega)).trans List.perm_append_comm
    have hbne : b.primeFactorsList ≠ [] := (Nat.primeFactorsList_ne_nil b).mpr (by omega)
    have hane : a.primeFactorsList ≠ [] := (Nat.primeFactorsList_ne_nil a).mpr (by omega)
    obtain ⟨g, gs, hg⟩ := List.exists_cons_of_ne_nil hbne
    rw [hfac, hg, List.cons_append, List.cons.injEq] at hlist
    have hpre : (f :: t.reverse).take a.primeFactorsList.length = a.primeFactorsList.reverse := by
      rw [← hrev, hlist.2, List.reverse_append]
      rw [← List.length_reverse, List.take_left']
      rfl
    obtain ⟨k, hk⟩ : ∃ k, a.primeFactorsList.length = k + 1 := by
      refine ⟨a.primeFactorsList.length - 1, ?_⟩
      have := List.length_pos_of_ne_nil hane
      omega
    have h3 := h2 k
    rw [← hk, hpre, List.prod_reverse, Nat.prod_primeFactorsList (by omega), h1, ← hx] at h3
    unfold half at h3
    rw [hquot hxy (by omega), hquot hab (by omega)] at h3
    exact_mod_cast h3

theorem two_factors {n : Nat} (hn : 2 ≤ n) (h : ¬n.Prime) : ∃ f0 t f, n.primeFactorsList = f0 :: (t ++ [f]) := by
  obtain ⟨f0, l, hl⟩ := List.exists_cons_of_ne_nil ((Nat.primeFactorsList_ne_nil n).mpr (by omega))
  rcases List.eq_nil_or_concat' l with rfl | ⟨t, f, rfl⟩
  · refine absurd ?_ h
    have := Nat.prod_primeFactorsList (n := n) (by omega)
    rw [hl, List.prod_singleton] at this
    rw [← this]
    exact Nat.prime_of_mem_primeFactorsList (n := n) (by rw [hl]; exact List.mem_cons_self)
  · exact ⟨f0, t, f, hl⟩

end Ditto.Cyme
