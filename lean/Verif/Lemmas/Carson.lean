import Verif.Spec.Carson
import Mathlib.Tactic.Positivity
import Mathlib.Tactic.Linarith

namespace Ditto.Carson
open Ditto Ditto.Mat Ditto.Spec

theorem mapM_ok {α β : Type} {f : α → Py β} {g : α → β} : ∀ {l : List α}, (∀ x ∈ l, f x = .ok (g x)) → l.mapM f = .ok (l.map g)
  | [], _ => rfl
  | a :: l, h => by
    rw [List.mapM_cons, h a List.mem_cons_self, mapM_ok fun x hx => h x (List.mem_cons_of_mem _ hx)]
    rfl

/-- the first error ends `mapM` -/
theorem mapM_error {α β : Type} {f : α → Py β} {e : PyErr} : ∀ {l : List α}, (∀ x ∈ l, f x = .error e ∨ ∃ y, f x = .ok y) →
    (∃ x ∈ l, f x = .error e) → l.mapM f = .error e
  | [], _, h => by obtain ⟨x, hx, -⟩ := h; cases hx
  | a :: l, h, hx => by
    rw [List.mapM_cons]
    rcases h a List.mem_cons_self with ha | ⟨y, ha⟩
    · rw [ha]; rfl
    · have : ∃ x ∈ l, f x = .error e := by
        obtain ⟨x, hx, he⟩ := hx
        rcases List.mem_cons.1 hx with rfl | hx
        · rw [ha] at he; cases he
        · exact ⟨x, hx, he⟩
      rw [ha, mapM_error (fun x hx => h x (List.mem_cons_of_mem _ hx)) this]
      rfl

theorem primMatrix_ok {dist : Nat → Nat → Option ℝ} {n : Nat} {gs rs : List (Option ℝ)} {V : Nat → Nat → ℂ}
    (h : ∀ i < n, ∀ j < n, primCell dist gs rs i j = .ok (V i j)) :
    ∃ m, primMatrix dist n gs rs = .ok m ∧ IsMatrix n m V := by
  refine ⟨_, mapM_ok (g := fun i => (List.range n).map fun j => V i j) fun i hi => mapM_ok fun j hj => ?_, rfl⟩
  exact h i (List.mem_range.1 hi) j (List.mem_range.1 hj)

theorem entry_isMatrix {K : Type} [Field K] {n : Nat} {m : List (List K)} {V : Nat → Nat → K} (h : IsMatrix n m V) {i j : Nat} (hi : i < n)
    (hj : j < n) : entry m i j = V i j := by
  unfold IsMatrix at h
  subst h
  simp [entry, hi, hj]

/-- the distances as the matrix of the primitive impedances uses them -/
theorem distancesFt_ok {n : Nat} {dm : List (List (Option ℝ))} {d : Nat → Nat → ℝ} (h : Distances n dm d) :
    ∃ dist, distancesFt dm n = .ok dist ∧ ∀ i < n, ∀ j < n, i ≠ j → at2 dist i j = some (feet (d i j)) := by
  have hrow : ∀ i < n, ∃ row, dm[i]? = some row ∧ row.length = n := by
    intro i hi
    have hi' : i < dm.length := by rw [h.size]; exact hi
    exact ⟨dm[i], List.getElem?_eq_getElem hi', h.rows _ (List.getElem_mem hi')⟩
  have hcell : ∀ i < n, ∀ j < n, ∃ x, cellOf dm i j = .ok x ∧ (i ≠ j → x = some (d i j)) := by
    intro i hi j hj
    obtain ⟨row, h1, h2⟩ := hrow i hi
    have hj' : j < row.length := by rw [h2]; exact hj
    refine ⟨row[j], ?_, fun hne => ?_⟩
    · unfold cellOf
      simp only [h1, List.getElem?_eq_getElem hj']
    · have := h.values i j row hne hj h1
      rw [List.getElem?_eq_getElem hj'] at this
      exact Option.some.inj this
  have hval : ∃ f : Nat → Nat → Option ℝ, ∀ i < n, ∀ j < n, cellOf dm i j = .ok (f i j) := by
    refine ⟨fun i j => match cellOf dm i j with | .ok x => x | .error _ => none, fun i hi j hj => ?_⟩
    obtain ⟨x, hx, -⟩ := hcell i hi j hj
    simp only [hx]
  obtain ⟨f, hf⟩ := hval
  refine ⟨(List.range n).map fun i => (List.range n).map fun j => (f i j).map toFt, ?_, ?_⟩
  · unfold distancesFt
    rw [if_neg (by rw [h.size]; simp)]
    refine mapM_ok fun i hi => mapM_ok fun j hj => ?_
    rw [hf i (List.mem_range.1 hi) j (List.mem_range.1 hj)]
    rfl
  · intro i hi j hj hne
    obtain ⟨x, hx, hx'⟩ := hcell i hi j hj
    have : f i j = some (d i j) := by
      have h1 := hf i hi j hj
      rw [hx] at h1
      rw [← Except.ok.inj h1]
      exact hx' hne
    simp [at2, hi, hj, this, toFt, feet]

end Ditto.Carson
