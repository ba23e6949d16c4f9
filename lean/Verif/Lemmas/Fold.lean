import Verif.Model.Py
/-! Folds in the exception monad. -/
namespace Ditto

variable {α β : Type}

theorem foldlM_nil_ok {f : β → α → Py β} {b b' : β} (h : ([] : List α).foldlM f b = .ok b') : b' = b := by
  simp [pure, Except.pure] at h; exact h.symm

theorem foldlM_cons_ok {f : β → α → Py β} {a : α} {l : List α} {b b' : β}
    (h : (a :: l).foldlM f b = .ok b') : ∃ b1, f b a = .ok b1 ∧ l.foldlM f b1 = .ok b' := by
  simp only [List.foldlM_cons, bind, Except.bind] at h
  cases hf : f b a with
  | error e => rw [hf] at h; simp at h
  | ok b1 => rw [hf] at h; exact ⟨b1, rfl, h⟩

theorem foldlM_cons_intro {f : β → α → Py β} {a : α} {l : List α} {b b1 b' : β}
    (h1 : f b a = .ok b1) (h2 : l.foldlM f b1 = .ok b') : (a :: l).foldlM f b = .ok b' := by
  simp only [List.foldlM_cons, bind, Except.bind, h1, h2]

theorem foldlM_append_ok {f : β → α → Py β} {l1 l2 : List α} {b b' : β}
    (h : (l1 ++ l2).foldlM f b = .ok b') : ∃ b1, l1.foldlM f b = .ok b1 ∧ l2.foldlM f b1 = .ok b' := by
  rw [List.foldlM_append] at h
  simp only [bind, Except.bind] at h
  cases hf : l1.foldlM f b with
  | error e => rw [hf] at h; simp at h
  | ok b1 => rw [hf] at h; exact ⟨b1, rfl, h⟩

/-- invariant rule -/
theorem foldlM_inv {f : β → α → Py β} (I : β → Prop) (l : List α)
    (hstep : ∀ b a b', a ∈ l → I b → f b a = .ok b' → I b') {b b' : β} (hI : I b)
    (h : l.foldlM f b = .ok b') : I b' := by
  induction l generalizing b with
  | nil => rw [foldlM_nil_ok h]; exact hI
  | cons a l ih =>
    obtain ⟨b1, h1, h2⟩ := foldlM_cons_ok h
    exact ih (fun b a b' ha => hstep b a b' (List.mem_cons_of_mem _ ha))
      (hstep b a b1 List.mem_cons_self hI h1) h2

/-- relation rule: a reflexive and transitive relation that holds for all steps holds for the fold -/
theorem foldlM_rel {f : β → α → Py β} (R : β → β → Prop) (hrefl : ∀ b, R b b)
    (htrans : ∀ a b c, R a b → R b c → R a c) (l : List α)
    (hstep : ∀ b a b', a ∈ l → f b a = .ok b' → R b b') {b b' : β} (h : l.foldlM f b = .ok b') : R b b' := by
  induction l generalizing b with
  | nil => rw [foldlM_nil_ok h]; exact hrefl _
  | cons a l ih =>
    obtain ⟨b1, h1, h2⟩ := foldlM_cons_ok h
    exact htrans _ _ _ (hstep b a b1 List.mem_cons_self h1)
      (ih (fun b a b' ha => hstep b a b' (List.mem_cons_of_mem _ ha)) h2)

end Ditto
