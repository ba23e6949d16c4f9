import Verif.Model.Named
import Mathlib.Data.List.Forall2

/-! Objects with distinct names. -/
namespace Ditto

variable {α : Type} {name : α → Option String}

theorem name_inj {objs : List α} (h : (objs.filterMap name).Nodup) {o o' : α} (ho : o ∈ objs) (ho' : o' ∈ objs)
    {x : String} (hn : name o = some x) (hn' : name o' = some x) : o = o' := by
  induction objs with
  | nil => simp at ho
  | cons a objs ih =>
    rw [List.filterMap_cons] at h
    rcases List.mem_cons.1 ho with h1 | h1 <;> rcases List.mem_cons.1 ho' with h2 | h2
    · rw [h1, h2]
    · subst h1
      rw [hn] at h
      simp only [List.nodup_cons] at h
      exact absurd (List.mem_filterMap.2 ⟨o', h2, hn'⟩) h.1
    · subst h2
      rw [hn'] at h
      simp only [List.nodup_cons] at h
      exact absurd (List.mem_filterMap.2 ⟨o, h1, hn⟩) h.1
    · refine ih ?_ h1 h2
      split at h
      · exact h
      · exact (List.nodup_cons.1 h).2

theorem named_mem {objs : List α} {nm : Option String} {o : α} (h : named name objs nm = .ok o) : o ∈ objs ∧ name o = nm := by
  unfold named at h
  split at h
  · simp at h
  · rename_i o' ho'
    simp only [Except.ok.injEq] at h
    subst h
    have := List.mem_of_getLast? ho'
    rw [List.mem_filter] at this
    exact ⟨this.1, by simpa using this.2⟩

theorem named_of_mem {objs : List α} {o : α} (ho : o ∈ objs) : ∃ o', named name objs (name o) = .ok o' := by
  unfold named
  have hne : objs.filter (fun o' => name o' = name o) ≠ [] :=
    List.ne_nil_of_mem (List.mem_filter.2 ⟨ho, by simp⟩)
  obtain ⟨y, hy⟩ := Option.isSome_iff_exists.1 (List.getLast?_isSome.2 hne)
  simp only [hy]
  exact ⟨y, rfl⟩

theorem named_eq {objs : List α} (h : (objs.filterMap name).Nodup) {o : α} (ho : o ∈ objs) {x : String} (hn : name o = some x) :
    named name objs (some x) = .ok o := by
  obtain ⟨o', ho'⟩ := named_of_mem (name := name) ho
  rw [hn] at ho'
  obtain ⟨h1, h2⟩ := named_mem ho'
  rw [ho', name_inj h h1 ho h2 hn]

theorem named_missing {objs : List α} {nm : Option String} (h : ∀ o ∈ objs, name o ≠ nm) :
    named name objs nm = .error .keyError := by
  unfold named
  have : objs.filter (fun o => name o = nm) = [] := by
    rw [List.filter_eq_nil_iff]
    intro o ho hx
    exact h o ho (by simpa using hx)
  simp [this]

/-- the result depends only on the names and commutes with maps that keep them -/
theorem named_map {objs : List α} {f : α → α} (hf : ∀ o, name (f o) = name o) (nm : Option String) :
    named name (objs.map f) nm = (named name objs nm).map f := by
  unfold named
  have : (objs.map f).filter (fun o => name o = nm) = (objs.filter fun o => name o = nm).map f := by
    rw [List.filter_map]
    congr 1
    apply List.filter_congr
    intro o _
    simp [hf]
  rw [this, List.getLast?_map]
  cases (objs.filter fun o => name o = nm).getLast? <;> rfl

theorem filterMap_name_map {objs : List α} {f : α → α} (hf : ∀ o, name (f o) = name o) :
    (objs.map f).filterMap name = objs.filterMap name := by
  rw [List.filterMap_map]
  congr 1
  funext o
  exact hf o

theorem updateNamed_eq {objs : List α} (h : (objs.filterMap name).Nodup) (x : String) (f : α → α) :
    updateNamed name (some x) f objs = objs.map fun o => if name o = some x then f o else o := by
  induction objs with
  | nil => rfl
  | cons a objs ih =>
    have h' : (objs.filterMap name).Nodup := by
      rw [List.filterMap_cons] at h
      split at h
      · exact h
      · exact (List.nodup_cons.1 h).2
    have hid : (∀ o ∈ objs, name o ≠ some x) → (objs.map fun o => if name o = some x then f o else o) = objs := by
      intro hno
      rw [List.map_congr_left (g := id), List.map_id]
      intro o ho; rw [if_neg (hno o ho)]; rfl
    unfold updateNamed
    by_cases hx : name a = some x
    · have hno : ∀ o ∈ objs, name o ≠ some x := by
        intro o ho hn
        have := name_inj h (o := a) (o' := o) (by simp) (by simp [ho]) hx hn
        subst this
        rw [List.filterMap_cons, hx] at h
        exact (List.nodup_cons.1 h).1 (List.mem_filterMap.2 ⟨a, ho, hn⟩)
      have : (objs.any fun o' => name o' = some x) = false := by
        rw [List.any_eq_false]
        intro o ho; simpa using hno o ho
      simp [this, hx, hid hno]
    · by_cases hany : (objs.any fun o' => name o' = some x) = true
      · rw [if_pos hany, ih h']; simp [hx]
      · rw [if_neg hany, if_neg hx]
        have hno : ∀ o ∈ objs, name o ≠ some x := by
          intro o ho hn
          exact hany (List.any_eq_true.2 ⟨o, ho, by simp [hn]⟩)
        simp [hx, hid hno]

end Ditto

namespace Ditto

variable {α : Type} {name : α → Option String}

/-- an update changes at most one object, and one of that name -/
theorem updateNamed_rel {R : α → α → Prop} {nm : Option String} {f : α → α} {objs : List α} (hrefl : ∀ o, R o o)
    (hf : ∀ o ∈ objs, name o = nm → named name objs nm = .ok o → R o (f o)) :
    List.Forall₂ R objs (updateNamed name nm f objs) := by
  have refl : ∀ l : List α, List.Forall₂ R l l := by
    intro l; induction l with
    | nil => exact .nil
    | cons a l ih => exact .cons (hrefl a) ih
  induction objs with
  | nil => exact .nil
  | cons a objs ih =>
    unfold updateNamed
    by_cases hany : (objs.any fun o' => name o' = nm) = true
    · rw [if_pos hany]
      refine .cons (hrefl a) (ih fun o ho hn hnd => hf o (by simp [ho]) hn ?_)
      have : ((a :: objs).filter fun o => name o = nm).getLast? = (objs.filter fun o => name o = nm).getLast? := by
        rw [List.filter_cons]
        by_cases hna : name a = nm
        · rw [if_pos (by simpa using hna), List.getLast?_cons]
          cases hl : (objs.filter fun o => name o = nm).getLast? with
          | none => unfold named at hnd; rw [hl] at hnd; simp at hnd
          | some o' => rfl
        · rw [if_neg (by simpa using hna)]
      unfold named at hnd ⊢
      rw [this]
      exact hnd
    · rw [if_neg hany]
      by_cases hn : name a = nm
      · rw [if_pos hn]
        refine .cons (hf a (by simp) hn ?_) (refl objs)
        have : objs.filter (fun o => name o = nm) = [] := by
          rw [List.filter_eq_nil_iff]
          intro o ho hx
          exact hany (List.any_eq_true.2 ⟨o, ho, hx⟩)
        unfold named
        rw [List.filter_cons, if_pos (by simpa using hn), this]
        rfl
      · rw [if_neg hn]; exact refl _

end Ditto
