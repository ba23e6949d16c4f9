import Verif.Lemmas.Kron
import Verif.Spec.Kron
import Mathlib.Algebra.BigOperators.Fin
import Mathlib.Data.Matrix.Mul
import Mathlib.Tactic.FinCases
import Mathlib.Tactic.NormNum

/-!
C05: Kron reduction. The code fills the four blocks transposed. So it raises `IndexError` unless there are as many
neutrals as phases, and if there are as many it is right when the blocks are symmetric (this covers the case of
one phase and one neutral).
-/
namespace Ditto.Mat
open Ditto

variable {K : Type} [Field K]

/-- neutral indices as in a call of the API: distinct, and indices of the matrix -/
def ValidNeutrals (n : Nat) (ns : List Nat) : Prop := ns.Nodup ∧ ∀ i ∈ ns, i < n

theorem cnt_neutral {n : Nat} {ns : List Nat} (h : ValidNeutrals n ns) :
    cnt (fun i => decide (i ∈ ns)) n = ns.length := by
  rw [← length_filter_range]
  apply List.Perm.length_eq
  rw [List.perm_ext_iff_of_nodup (List.nodup_range.filter _) h.1]
  intro a
  simp only [List.mem_filter, List.mem_range, decide_eq_true_eq]
  exact ⟨fun x => x.2, fun x => ⟨h.2 a x, x⟩⟩

theorem cnt_compl (C : Nat → Bool) (n : Nat) : cnt (fun i => !C i) n + cnt C n = n := by
  induction n with
  | zero => simp [cnt]
  | succ n ih =>
    rw [cnt_succ, cnt_succ]
    cases h : C n <;> simp <;> omega

theorem cnt_phase {n : Nat} {ns : List Nat} (h : ValidNeutrals n ns) :
    cnt (fun i => !decide (i ∈ ns)) n = n - ns.length := by
  have := cnt_compl (fun i => decide (i ∈ ns)) n
  rw [cnt_neutral h] at this
  omega

/-- C05 is violated: whenever the number of neutrals and the number of phases differ, there is no reduction:
`IndexError`. This covers the default (last conductor is the neutral) for all matrices of size 3 and more. -/
theorem C05_unequal_counts_violated (m : Nat → Nat → K) (n : Nat) (ns : List Nat) (hv : ValidNeutrals n ns)
    (h1 : 1 ≤ ns.length) (h2 : ns.length < n) (hne : ns.length ≠ n - ns.length) :
    kronReduction m n (some ns) = .error .indexError := by
  unfold kronReduction
  simp only [Option.getD_some]
  cases hl : kronLoop (fun i => decide (i ∈ ns)) m n ns.length with
  | error e => simp only [kronLoop_error _ _ _ _ _ hl]
  | ok s =>
    exfalso
    obtain ⟨-, hin, -, -⟩ := (kronRows_split _ m n _ _ s).1 hl
    have := zloop_room _ _ m n _ _ rfl rfl rfl (by rw [cnt_neutral hv]; omega) n hin
    obtain ⟨-, -, -, -, -, hr, hc⟩ := this
    rw [cnt_neutral hv] at hr
    rw [cnt_phase hv] at hr hc
    have := hr (by omega)
    simp only [Block.empty] at this hc
    omega

/-- C05: the default neutral (the last conductor) fails for every matrix with at least three conductors. -/
theorem C05_default_violated (m : Nat → Nat → K) (n : Nat) (hn : 3 ≤ n) :
    kronReduction m n none = .error .indexError := by
  have := C05_unequal_counts_violated m n [n - 1] ⟨by simp, by simp; omega⟩ (by simp) (by simp; omega)
    (by simp; omega)
  simpa [kronReduction] using this

private theorem loop_ok (m : Nat → Nat → K) (n : Nat) (ns : List Nat) (hv : ValidNeutrals n ns)
    (heq : ns.length = n - ns.length) :
    ∃ s, kronLoop (fun i => decide (i ∈ ns)) m n ns.length = .ok s ∧
      (∀ a b i j, (phaseList n ns)[b]? = some i → (phaseList n ns)[a]? = some j →
        s.zij.blk.get a b = some (m i j)) ∧
      (∀ a b i j, (phaseList n ns)[b]? = some i → (neutralList n ns)[a]? = some j →
        s.zin.blk.get a b = some (m i j)) ∧
      (∀ a b i j, (neutralList n ns)[b]? = some i → (phaseList n ns)[a]? = some j →
        s.znj.blk.get a b = some (m i j)) ∧
      (∀ a b i j, (neutralList n ns)[b]? = some i → (neutralList n ns)[a]? = some j →
        s.znn.blk.get a b = some (m i j)) := by
  have cN := cnt_neutral hv
  have cP := cnt_phase hv
  obtain ⟨z1, h1, -, -, -, -, -, g1⟩ := zloop_ok (fun i => !decide (i ∈ ns)) (fun i => !decide (i ∈ ns)) m n
    ⟨Block.empty (n - ns.length) (n - ns.length), 0, 0, false⟩ rfl rfl rfl n
    (by simp only [Block.empty]; omega) (by simp only [Block.empty]; omega)
  obtain ⟨z2, h2, -, -, -, -, -, g2⟩ := zloop_ok (fun i => !decide (i ∈ ns)) (fun i => decide (i ∈ ns)) m n
    ⟨Block.empty (n - ns.length) ns.length, 0, 0, false⟩ rfl rfl rfl n
    (by simp only [Block.empty]; omega) (by simp only [Block.empty]; omega)
  obtain ⟨z3, h3, -, -, -, -, -, g3⟩ := zloop_ok (fun i => decide (i ∈ ns)) (fun i => !decide (i ∈ ns)) m n
    ⟨Block.empty ns.length (n - ns.length), 0, 0, false⟩ rfl rfl rfl n
    (by simp only [Block.empty]; omega) (by simp only [Block.empty]; omega)
  obtain ⟨z4, h4, -, -, -, -, -, g4⟩ := zloop_ok (fun i => decide (i ∈ ns)) (fun i => decide (i ∈ ns)) m n
    ⟨Block.empty ns.length ns.length, 0, 0, false⟩ rfl rfl rfl n
    (by simp only [Block.empty]; omega) (by simp only [Block.empty]; omega)
  refine ⟨⟨z1, z2, z3, z4⟩, (kronRows_split _ m n _ _ _).2 ⟨h1, h2, h3, h4⟩, ?_, ?_, ?_, ?_⟩
  all_goals
    intro a b i j hi hj
    obtain ⟨ci, li, pi⟩ := cnt_getElem _ n b i hi
    obtain ⟨cj, lj, pj⟩ := cnt_getElem _ n a j hj
    rw [← ci, ← cj]
  · exact g1 i li pi j lj pj
  · exact g2 i li pi j lj pj
  · exact g3 i li pi j lj pj
  · exact g4 i li pi j lj pj

/-- C05: what the code computes if there are as many neutrals as phases. `ph` and `ne` enumerate the phase and the
neutral conductors. It is `Zppᵀ - Zpnᵀ (Znnᵀ)⁻¹ Znpᵀ`; a singular `Znn` raises `LinAlgError`. -/
theorem C05_formula (m : Nat → Nat → K) (n : Nat) (ns : List Nat) (hv : ValidNeutrals n ns)
    (hpos : 1 ≤ ns.length) (heq : ns.length = n - ns.length)
    (ph : Fin (n - ns.length) → Nat) (hph : ∀ r, (phaseList n ns)[r.val]? = some (ph r))
    (ne : Fin ns.length → Nat) (hne : ∀ r, (neutralList n ns)[r.val]? = some (ne r)) :
    ((Matrix.of fun r c => m (ne c) (ne r) : Matrix (Fin ns.length) (Fin ns.length) K).det = 0 →
      kronReduction m n (some ns) = .error .linAlgError) ∧
    ((Matrix.of fun r c => m (ne c) (ne r) : Matrix (Fin ns.length) (Fin ns.length) K).det ≠ 0 →
      kronReduction m n (some ns) = .ok ⟨n - ns.length,
        (Matrix.of fun r c => m (ph c) (ph r)) -
        (Matrix.of fun r c => m (ph c) (ne r) : Matrix (Fin ns.length) (Fin (n - ns.length)) K).submatrix
            (Fin.cast heq.symm) (Fin.cast heq) *
          ((Matrix.of fun r c => m (ne c) (ne r))⁻¹ *
          (Matrix.of fun r c => m (ne c) (ph r) : Matrix (Fin (n - ns.length)) (Fin ns.length) K).submatrix
            (Fin.cast heq) (Fin.cast heq.symm))⟩) := by
  obtain ⟨s, hs, g1, g2, g3, g4⟩ := loop_ok m n ns hv heq
  have e1 : ∀ r c : Fin (n - ns.length), s.zij.blk.get r c = some (m (ph c) (ph r)) :=
    fun r c => g1 r c _ _ (hph c) (hph r)
  have e2 : ∀ (r : Fin (n - ns.length)) (c : Fin ns.length),
      s.zin.blk.get r c = some (m (ph (Fin.cast heq c)) (ne (Fin.cast heq.symm r))) :=
    fun r c => g2 r c _ _ (hph (Fin.cast heq c)) (hne (Fin.cast heq.symm r))
  have e3 : ∀ (r : Fin ns.length) (c : Fin (n - ns.length)),
      s.znj.blk.get r c = some (m (ne (Fin.cast heq.symm c)) (ph (Fin.cast heq r))) :=
    fun r c => g3 r c _ _ (hne (Fin.cast heq.symm c)) (hph (Fin.cast heq r))
  have e4 : ∀ r c : Fin ns.length, s.znn.blk.get r c = some (m (ne c) (ne r)) :=
    fun r c => g4 r c _ _ (hne c) (hne r)
  have hh : (∀ r < n - ns.length, ∀ c < n - ns.length, (s.zij.blk.get r c).isSome) ∧
          (∀ r < n - ns.length, ∀ c < ns.length, (s.zin.blk.get r c).isSome) ∧
          (∀ r < ns.length, ∀ c < n - ns.length, (s.znj.blk.get r c).isSome) ∧
          (∀ r < ns.length, ∀ c < ns.length, (s.znn.blk.get r c).isSome) := by
    refine ⟨fun r hr c hc => ?_, fun r hr c hc => ?_, fun r hr c hc => ?_, fun r hr c hc => ?_⟩
    · rw [e1 ⟨r, hr⟩ ⟨c, hc⟩]; rfl
    · rw [e2 ⟨r, hr⟩ ⟨c, hc⟩]; rfl
    · rw [e3 ⟨r, hr⟩ ⟨c, hc⟩]; rfl
    · rw [e4 ⟨r, hr⟩ ⟨c, hc⟩]; rfl
  unfold kronReduction
  simp only [Option.getD_some, hs]
  rw [if_neg (by omega), dif_pos hh]
  have m1 : (Matrix.of fun (r c : Fin (n - ns.length)) => (s.zij.blk.get r c).get (hh.1 r r.2 c c.2)) =
      Matrix.of fun r c => m (ph c) (ph r) := by
    ext r c; simp only [Matrix.of_apply, e1, Option.get_some]
  have m2 : (Matrix.of fun (r : Fin (n - ns.length)) (c : Fin ns.length) =>
        (s.zin.blk.get r c).get (hh.2.1 r r.2 c c.2)) =
      (Matrix.of fun r c => m (ph c) (ne r) : Matrix (Fin ns.length) (Fin (n - ns.length)) K).submatrix
            (Fin.cast heq.symm) (Fin.cast heq) := by
    ext r c; simp only [Matrix.of_apply, Matrix.submatrix_apply, e2, Option.get_some]
  have m3 : (Matrix.of fun (r : Fin ns.length) (c : Fin (n - ns.length)) =>
        (s.znj.blk.get r c).get (hh.2.2.1 r r.2 c c.2)) =
      (Matrix.of fun r c => m (ne c) (ph r) : Matrix (Fin (n - ns.length)) (Fin ns.length) K).submatrix
            (Fin.cast heq) (Fin.cast heq.symm) := by
    ext r c; simp only [Matrix.of_apply, Matrix.submatrix_apply, e3, Option.get_some]
  have m4 : (Matrix.of fun (r c : Fin ns.length) => (s.znn.blk.get r c).get (hh.2.2.2 r r.2 c c.2)) =
      Matrix.of fun r c => m (ne c) (ne r) := by
    ext r c; simp only [Matrix.of_apply, e4, Option.get_some]
  rw [m1, m2, m3]
  constructor
  · intro h; rw [if_pos (by rw [m4]; exact h)]
  · intro h; rw [if_neg (by rw [m4]; exact h), if_neg (by omega), m4]

private theorem sum_filter_list (C : Nat → Bool) (f : Nat → K) (n : Nat) :
    (((List.range n).filter C).map f).sum = ∑ j ∈ Finset.range n, if C j = true then f j else 0 := by
  induction n with
  | zero => simp
  | succ n ih =>
    rw [List.range_succ, List.filter_append, List.map_append, List.sum_append, ih, Finset.sum_range_succ]
    by_cases h : C n = true <;> simp [h]

private theorem sum_enum (l : List Nat) (p : Nat) (ph : Fin p → Nat) (hl : l.length = p)
    (h : ∀ r : Fin p, l[r.val]? = some (ph r)) (f : Nat → K) : (l.map f).sum = ∑ r, f (ph r) := by
  subst hl
  have : ∀ r : Fin l.length, ph r = l[r.val] := by
    intro r
    have := h r
    rw [List.getElem?_eq_getElem r.2] at this
    exact (Option.some.inj this).symm
  simp only [this]
  rw [Fin.sum_univ_fun_getElem]

private theorem drop_split (m : Nat → Nat → K) (n : Nat) (ns : List Nat)
    (p k : Nat) (hp : (phaseList n ns).length = p) (hk : (neutralList n ns).length = k)
    (ph : Fin p → Nat) (hph : ∀ r, (phaseList n ns)[r.val]? = some (ph r))
    (ne : Fin k → Nat) (hne : ∀ r, (neutralList n ns)[r.val]? = some (ne r)) (cur : Nat → K) (i : Nat) :
    drop m n cur i = ∑ c, m i (ph c) * cur (ph c) + ∑ d, m i (ne d) * cur (ne d) := by
  rw [← sum_enum _ p ph hp hph (fun j => m i j * cur j), ← sum_enum _ k ne hk hne (fun j => m i j * cur j)]
  unfold phaseList neutralList
  rw [sum_filter_list, sum_filter_list, ← Finset.sum_add_distrib]
  unfold drop
  apply Finset.sum_congr rfl
  intro j _
  by_cases h : j ∈ ns <;> simp [h]

/-- C05, the part that holds: with as many neutrals as phases, if the four blocks of the matrix are symmetric and
the neutral block is invertible, the answer is the Kron reduction.
Missing: all numbers of neutrals and phases (`C05_unequal_counts_violated`), non-symmetric mutual blocks
(`C05_wrong_value_violated`). -/
theorem C05_symmetric_partial (m : Nat → Nat → K) (n : Nat) (ns : List Nat) (hv : ValidNeutrals n ns)
    (hpos : 1 ≤ ns.length) (heq : ns.length = n - ns.length)
    (ph : Fin (n - ns.length) → Nat) (hph : ∀ r, (phaseList n ns)[r.val]? = some (ph r))
    (ne : Fin ns.length → Nat) (hne : ∀ r, (neutralList n ns)[r.val]? = some (ne r))
    (hpp : ∀ a b, m (ph a) (ph b) = m (ph b) (ph a)) (hnn : ∀ a b, m (ne a) (ne b) = m (ne b) (ne a))
    (hpn : ∀ a b, m (ph a) (ne b) = m (ph (Fin.cast heq b)) (ne (Fin.cast heq.symm a)))
    (hnp : ∀ a b, m (ne a) (ph b) = m (ne (Fin.cast heq.symm b)) (ph (Fin.cast heq a)))
    (hdet : (Matrix.of fun r c => m (ne r) (ne c) : Matrix (Fin ns.length) (Fin ns.length) K).det ≠ 0) :
    ∃ M, kronReduction m n (some ns) = .ok ⟨n - ns.length, M⟩ ∧
      IsKronReduction m n ns (n - ns.length) M := by
  have hD : (Matrix.of fun r c => m (ne c) (ne r) : Matrix (Fin ns.length) (Fin ns.length) K) =
      Matrix.of fun r c => m (ne r) (ne c) := by ext r c; exact hnn _ _
  have hdet' := hdet
  rw [← hD] at hdet'
  refine ⟨_, (C05_formula m n ns hv hpos heq ph hph ne hne).2 hdet', ?_, ?_⟩
  · rw [← cnt_phase hv]; exact length_filter_range _ n
  · intro cur hcur r i hi
    have hi' : i = ph r := by rw [hph r] at hi; exact (Option.some.inj hi).symm
    subst hi'
    have hp : (phaseList n ns).length = n - ns.length := by rw [← cnt_phase hv]; exact length_filter_range _ n
    have hk : (neutralList n ns).length = ns.length := by
      rw [← cnt_neutral hv]; exact length_filter_range _ n
    have split := drop_split m n ns _ _ hp hk ph hph ne hne cur
    have hB : (Matrix.of fun r c => m (ph c) (ne r) : Matrix (Fin ns.length) (Fin (n - ns.length)) K).submatrix
            (Fin.cast heq.symm) (Fin.cast heq) = Matrix.of fun r c => m (ph r) (ne c) := by
      ext a b
      simp only [Matrix.submatrix_apply, Matrix.of_apply]
      rw [hpn]; rfl
    have hC : (Matrix.of fun r c => m (ne c) (ph r) : Matrix (Fin (n - ns.length)) (Fin ns.length) K).submatrix
            (Fin.cast heq) (Fin.cast heq.symm) = Matrix.of fun r c => m (ne r) (ph c) := by
      ext a b
      simp only [Matrix.submatrix_apply, Matrix.of_apply]
      rw [hnp]; rfl
    have hA : (Matrix.of fun r c => m (ph c) (ph r) : Matrix (Fin (n - ns.length)) (Fin (n - ns.length)) K) =
        Matrix.of fun r c => m (ph r) (ph c) := by ext a b; exact hpp _ _
    rw [hA, hB, hC, hD]
    set A : Matrix (Fin (n - ns.length)) (Fin (n - ns.length)) K := Matrix.of fun r c => m (ph r) (ph c) with hAdef
    set B : Matrix (Fin (n - ns.length)) (Fin ns.length) K := Matrix.of fun r c => m (ph r) (ne c) with hBdef
    set C : Matrix (Fin ns.length) (Fin (n - ns.length)) K := Matrix.of fun r c => m (ne r) (ph c) with hCdef
    set D : Matrix (Fin ns.length) (Fin ns.length) K := Matrix.of fun r c => m (ne r) (ne c) with hDdef
    set x : Fin (n - ns.length) → K := fun c => cur (ph c) with hx
    set y : Fin ns.length → K := fun c => cur (ne c) with hy
    have hz : Matrix.mulVec C x + Matrix.mulVec D y = 0 := by
      ext q
      have hq := hcur (ne q) (List.mem_of_getElem? (hne q))
      rw [split] at hq
      exact hq
    have hy' : y = - Matrix.mulVec D⁻¹ (Matrix.mulVec C x) := by
      have h1 : Matrix.mulVec D y = - Matrix.mulVec C x := eq_neg_of_add_eq_zero_right hz
      have h2 : Matrix.mulVec D⁻¹ (Matrix.mulVec D y) = y := by
        rw [Matrix.mulVec_mulVec, Matrix.nonsing_inv_mul _ (Ne.isUnit hdet), Matrix.one_mulVec]
      rw [← h2, h1, Matrix.mulVec_neg]
    have hxx : ∀ c : Fin (n - ns.length), ((phaseList n ns)[c.val]?).elim 0 cur = x c := by
      intro c; rw [hph c]; rfl
    simp only [hxx]
    rw [split]
    change (Matrix.mulVec A x + Matrix.mulVec B y) r = Matrix.mulVec (A - B * (D⁻¹ * C)) x r
    rw [hy', Matrix.sub_mulVec, Matrix.mulVec_neg, Matrix.mulVec_mulVec, Matrix.mulVec_mulVec]
    simp only [Pi.add_apply, Pi.sub_apply, Pi.neg_apply, sub_eq_add_neg, Matrix.mul_assoc]

/-- C05: one phase and one neutral: the answer is the Kron reduction for every invertible neutral impedance. -/
theorem C05_one_phase_partial (m : Nat → Nat → K) (h : m 1 1 ≠ 0) :
    ∃ M, kronReduction m 2 none = .ok ⟨1, M⟩ ∧ IsKronReduction m 2 [1] 1 M := by
  have := C05_symmetric_partial m 2 [1] ⟨by simp, by simp⟩ (by simp) rfl (fun _ => 0)
    (by decide) (fun _ => 1)
    (by decide)
    (fun _ _ => rfl) (fun _ _ => rfl) (fun _ _ => rfl) (fun _ _ => rfl)
    (by rw [show (Matrix.of fun r c => m 1 1 : Matrix (Fin [1].length) (Fin [1].length) K).det = m 1 1 from
          Matrix.det_fin_one _]; exact h)
  simpa [kronReduction] using this

/-- a symmetric, invertible 4x4 impedance matrix (conductors 2 and 3 are neutrals) -/
def badMatrix (i j : Nat) : ℚ :=
  if i = j then 5 else
  if (i, j) = (0, 2) ∨ (i, j) = (2, 0) ∨ (i, j) = (0, 3) ∨ (i, j) = (3, 0) ∨ (i, j) = (1, 3) ∨ (i, j) = (3, 1)
  then 1 else 0

/-- C05: even for a symmetric matrix with two phases and two neutrals the value is wrong if the mutual block is not
symmetric: the drop of the first phase under the current `(25, 0, -5, -5)` is not the one predicted. -/
theorem C05_wrong_value_violated :
    (∀ i j, badMatrix i j = badMatrix j i) ∧
    ∃ M, kronReduction badMatrix 4 (some [2, 3]) = .ok ⟨2, M⟩ ∧ ¬ IsKronReduction badMatrix 4 [2, 3] 2 M := by
  constructor
  · intro i j
    unfold badMatrix
    by_cases h : i = j
    · subst h; rfl
    · rw [if_neg h, if_neg (Ne.symm h)]
      congr 1
      simp only [Prod.mk.injEq, eq_iff_iff]
      omega
  · have hD : (Matrix.of fun r c => badMatrix (c.val + 2) (r.val + 2) : Matrix (Fin 2) (Fin 2) ℚ) =
        (5 : ℚ) • (1 : Matrix (Fin 2) (Fin 2) ℚ) := by
      ext r c; fin_cases r <;> fin_cases c <;> simp [badMatrix]
    have hdet : (Matrix.of fun r c => badMatrix (c.val + 2) (r.val + 2) : Matrix (Fin 2) (Fin 2) ℚ).det ≠ 0 := by
      rw [hD]; simp
    have hinv : (Matrix.of fun r c => badMatrix (c.val + 2) (r.val + 2) : Matrix (Fin 2) (Fin 2) ℚ)⁻¹ =
        (1/5 : ℚ) • (1 : Matrix (Fin 2) (Fin 2) ℚ) := by
      apply Matrix.inv_eq_right_inv
      rw [hD]
      simp
    have hf := (C05_formula badMatrix 4 [2, 3] ⟨by decide, by decide⟩ (by simp) rfl (fun r => r.val)
      (by decide) (fun r => r.val + 2)
      (by decide)).2 hdet
    refine ⟨_, hf, ?_⟩
    rintro ⟨-, h⟩
    have := h (fun j => if j = 0 then 25 else if j = 1 then 0 else -5)
      (by
        intro q hq
        have : q = 2 ∨ q = 3 := by
          have : neutralList 4 [2, 3] = [2, 3] := by decide
          rw [this] at hq; simpa using hq
        rcases this with rfl | rfl <;> simp [drop, Finset.sum_range_succ, badMatrix] <;> norm_num)
      0 0 (by decide)
    rw [show ((Matrix.of fun r c => badMatrix (c.val + 2) (r.val + 2) :
        Matrix (Fin [2,3].length) (Fin [2,3].length) ℚ)⁻¹) = (1/5 : ℚ) • (1 : Matrix (Fin 2) (Fin 2) ℚ) from hinv]
      at this
    have p0 : phaseList 4 [2, 3] = [0, 1] := by decide
    rw [p0] at this
    erw [Fin.sum_univ_two] at this
    simp [drop, Finset.sum_range_succ, badMatrix, Matrix.mul_apply, Fin.sum_univ_two] at this
    norm_num at this

example : ValidNeutrals 4 [3] ∧ 1 ≤ [3].length ∧ [3].length < 4 ∧ [3].length ≠ 4 - [3].length := by
  simp [ValidNeutrals]

end Ditto.Mat
