import Verif.Spec.PathLines
import Mathlib.Data.List.Induction

/-! C130: lines on a path and their impedances. -/
namespace Ditto.PathLines
open Ditto Ditto.PathLines.Spec

theorem mapStep_apply (m : String × String → Option (Option String)) (l : MapLine) (k : String × String) :
    mapStep m l k = if l.fromEl = some k.1 ∧ l.toEl = some k.2 then some l.name else m k := by
  obtain ⟨k1, k2⟩ := k
  unfold mapStep
  cases l.fromEl <;> cases l.toEl <;> simp [eq_comm]

theorem map_some {lines : List MapLine} {k : String × String} {nm : Option String} (h : lineMapping lines k = some nm) :
    ∃ l ∈ lines, l.fromEl = some k.1 ∧ l.toEl = some k.2 ∧ l.name = nm := by
  unfold lineMapping at h
  induction lines using List.reverseRecOn with
  | nil => cases h
  | append_singleton ls l ih =>
    rw [List.foldl_append, List.foldl_cons, List.foldl_nil] at h
    have old : ∀ {x}, List.foldl mapStep (fun _ => none) ls k = some x → x = nm → ∃ l' ∈ ls ++ [l], l'.fromEl = some k.1 ∧ l'.toEl = some k.2 ∧ l'.name = nm := by
      rintro x hx rfl
      obtain ⟨l', hl', hh⟩ := ih hx
      exact ⟨l', by simp [hl'], hh⟩
    rw [mapStep_apply] at h
    split at h
    · rename_i hk
      exact ⟨l, by simp, hk.1, hk.2, Option.some.inj h⟩
    · exact old h rfl

theorem map_isSome {lines : List MapLine} {l : MapLine} (hl : l ∈ lines) {a b : String} (hf : l.fromEl = some a) (ht : l.toEl = some b) :
    ∃ nm, lineMapping lines (a, b) = some nm := by
  unfold lineMapping
  induction lines using List.reverseRecOn with
  | nil => cases hl
  | append_singleton ls l' ih =>
    rw [List.foldl_append, List.foldl_cons, List.foldl_nil]
    rcases List.mem_append.1 hl with hl | hl
    · obtain ⟨nm, h⟩ := ih hl
      rw [mapStep_apply]
      split
      · exact ⟨_, rfl⟩
      · exact ⟨nm, h⟩
    · simp only [List.mem_singleton] at hl
      subst hl
      exact ⟨l.name, by simp [mapStep_apply, hf, ht]⟩

/-- what is found for two nodes, in the direction of the path or else in the other one -/
theorem found {lines : List MapLine} (a b : String) :
    (∃ l ∈ lines, Between l a b ∧ (lineMapping lines (a, b)).or (lineMapping lines (b, a)) = some l.name) ∨
      ((∀ l ∈ lines, ¬ Between l a b) ∧ (lineMapping lines (a, b)).or (lineMapping lines (b, a)) = none) := by
  cases h1 : lineMapping lines (a, b) with
  | some nm =>
    obtain ⟨l, hl, hf, ht, hn⟩ := map_some h1
    exact .inl ⟨l, hl, .inl ⟨hf, ht⟩, by rw [hn]; rfl⟩
  | none =>
    cases h2 : lineMapping lines (b, a) with
    | some nm =>
      obtain ⟨l, hl, hf, ht, hn⟩ := map_some h2
      exact .inl ⟨l, hl, .inr ⟨hf, ht⟩, by rw [hn]; rfl⟩
    | none =>
      refine .inr ⟨?_, rfl⟩
      rintro l hl (⟨hf, ht⟩ | ⟨hf, ht⟩)
      · obtain ⟨nm, h⟩ := map_isSome hl hf ht
        rw [h1] at h; cases h
      · obtain ⟨nm, h⟩ := map_isSome hl hf ht
        rw [h2] at h; cases h

/-- C130: for every path, the list has the name of one line for every two consecutive nodes that have lines between them, in the order of the path, and nothing
for others. -/
theorem C130_lines (lines : List MapLine) (path : List String) : Along lines path (linesOn (lineMapping lines) path) := by
  induction path with
  | nil => exact .nil
  | cons a path ih =>
    cases path with
    | nil => exact .single a
    | cons b path =>
      have hs : linesOn (lineMapping lines) (a :: b :: path) =
          ((lineMapping lines (a, b)).or (lineMapping lines (b, a))).toList ++ linesOn (lineMapping lines) (b :: path) := by
        unfold linesOn edgesOf
        simp only [List.tail_cons, List.zip_cons_cons, List.filterMap_cons]
        cases (lineMapping lines (a, b)).or (lineMapping lines (b, a)) <;> rfl
      rw [hs]
      rcases found (lines := lines) a b with ⟨l, hl, hb, he⟩ | ⟨hn, he⟩
      · rw [he]; exact .line hl hb ih
      · rw [he]; exact .other hn ih

theorem between_symm {l : MapLine} {a b : String} (h : Between l a b) : Between l b a := h.symm

theorem found_symm {lines : List MapLine} (hp : NoParallel lines) (a b : String) :
    (lineMapping lines (a, b)).or (lineMapping lines (b, a)) = (lineMapping lines (b, a)).or (lineMapping lines (a, b)) := by
  rcases found (lines := lines) a b with ⟨l, hl, hb, he⟩ | ⟨hn, he⟩ <;> rcases found (lines := lines) b a with ⟨l', hl', hb', he'⟩ | ⟨hn', he'⟩
  · rw [he, he', hp l hl l' hl' a b hb (between_symm hb')]
  · exact absurd (between_symm hb) (hn' l hl)
  · exact absurd (between_symm hb') (hn l' hl')
  · rw [he, he']

theorem linesOn_snoc (m : String × String → Option (Option String)) (path : List String) (a b : String) :
    linesOn m (path ++ [a, b]) = linesOn m (path ++ [a]) ++ ((m (a, b)).or (m (b, a))).toList := by
  induction path with
  | nil =>
    unfold linesOn edgesOf
    simp only [List.nil_append, List.tail_cons, List.zip_cons_cons, List.zip_nil_right, List.filterMap_cons, List.filterMap_nil]
    cases (m (a, b)).or (m (b, a)) <;> rfl
  | cons x path ih =>
    cases path with
    | nil =>
      unfold linesOn edgesOf
      simp only [List.nil_append, List.cons_append, List.tail_cons, List.zip_cons_cons, List.zip_nil_right, List.filterMap_cons, List.filterMap_nil]
      cases (m (a, b)).or (m (b, a)) <;> cases (m (x, a)).or (m (a, x)) <;> rfl
    | cons y path =>
      unfold linesOn edgesOf at ih ⊢
      simp only [List.cons_append, List.tail_cons, List.zip_cons_cons, List.filterMap_cons] at ih ⊢
      cases (m (x, y)).or (m (y, x)) with
      | none => exact ih
      | some v => dsimp only; rw [ih]; rfl

/-- C130: without parallel lines, the lines from the second node back to the first one are the same ones in the opposite order. -/
theorem C130_reverse_partial (lines : List MapLine) (hp : NoParallel lines) (path : List String) :
    linesOn (lineMapping lines) path.reverse = (linesOn (lineMapping lines) path).reverse := by
  induction path with
  | nil => rfl
  | cons a path ih =>
    cases path with
    | nil => rfl
    | cons b path =>
      have h1 : linesOn (lineMapping lines) (a :: b :: path) =
          ((lineMapping lines (a, b)).or (lineMapping lines (b, a))).toList ++ linesOn (lineMapping lines) (b :: path) := by
        unfold linesOn edgesOf
        simp only [List.tail_cons, List.zip_cons_cons, List.filterMap_cons]
        cases (lineMapping lines (a, b)).or (lineMapping lines (b, a)) <;> rfl
      have h2 : (a :: b :: path).reverse = path.reverse ++ [b, a] := by simp
      rw [h2, linesOn_snoc, h1, List.reverse_append, ← ih, List.reverse_cons, found_symm hp b a]
      congr 1
      cases (lineMapping lines (a, b)).or (lineMapping lines (b, a)) <;> rfl

/-- C130: two lines between the same nodes, one in each direction -/
def exParallelLines : List MapLine := [⟨some "l1", some "a", some "b"⟩, ⟨some "l2", some "b", some "a"⟩]

/-- C130 is violated: with parallel lines, other lines are listed for the way back; of two lines in the same direction only the last one is known. -/
theorem C130_reverse_violated : linesOn (lineMapping exParallelLines) ["a", "b"] = [some "l1"] ∧ linesOn (lineMapping exParallelLines) ["b", "a"] = [some "l2"] ∧
    linesOn (lineMapping [⟨some "l1", some "a", some "b"⟩, ⟨some "l3", some "a", some "b"⟩]) ["a", "b"] = [some "l3"] := by decide +kernel

/-- C130: if all lines have matrices, there is the impedance of every line, in their order. -/
theorem C130_impedances_partial {N : Type} (matrix : Option String → Option (List (List N))) (positive : List (List N) → N) (ls : List (Option String))
    (h : ∀ l ∈ ls, ∃ z, matrix l = some z ∧ z ≠ []) :
    ∃ zs, impedances matrix positive ls = .ok zs ∧ List.Forall₂ (fun l x => ∃ z, matrix l = some z ∧ ImpedanceOf positive z x) ls zs := by
  induction ls with
  | nil => exact ⟨[], rfl, .nil⟩
  | cons l ls ih =>
    obtain ⟨zs, h1, h2⟩ := ih fun l' hl' => h l' (.tail _ hl')
    obtain ⟨z, hz, hne⟩ := h l (.head _)
    unfold impedances
    rw [hz, h1]
    dsimp only
    split
    · exact absurd rfl hne
    · rename_i x _
      exact ⟨_, rfl, .cons ⟨_, hz, .inl rfl⟩ h2⟩
    · rename_i h3
      exact ⟨_, rfl, .cons ⟨_, hz, .inr ⟨hne, fun y hy => h3 y hy, rfl⟩⟩ h2⟩

/-- C130 is violated: a line without matrix is left out, as if its impedance were zero. -/
theorem C130_missing_violated {N : Type} (matrix : Option String → Option (List (List N))) (positive : List (List N) → N) (l : Option String)
    (h : matrix l = some []) (ls : List (Option String)) : impedances matrix positive (l :: ls) = impedances matrix positive ls := by
  rw [impedances, h]
  dsimp only
  cases impedances matrix positive ls <;> rfl

/-- three lines on a path with a transformer between c and d; l2 is directed against it -/
def exLines : List MapLine := [⟨some "l1", some "a", some "b"⟩, ⟨some "l2", some "c", some "b"⟩, ⟨some "l3", some "d", some "e"⟩, ⟨some "l4", some "a", none⟩]

example : linesOn (lineMapping exLines) ["a", "b", "c", "d", "e"] = [some "l1", some "l2", some "l3"] ∧
    linesOn (lineMapping exLines) ["e", "d", "c", "b", "a"] = [some "l3", some "l2", some "l1"] := by decide +kernel

example : NoParallel exLines := by
  intro l hl l' hl' a b h h'
  simp only [exLines, List.mem_cons, List.not_mem_nil, or_false] at hl hl'
  rcases hl with rfl | rfl | rfl | rfl <;> rcases hl' with rfl | rfl | rfl | rfl <;> simp [Between] at h h' ⊢ <;> grind

/-- matrices of l1 and l2 -/
def exMatrix : Option String → Option (List (List Int)) := fun l => if l = some "l1" then some [[5]] else if l = some "l2" then some [[7, 1], [1, 7]] else some []

example : (impedances exMatrix (fun z => z.flatten.headD 0 - 1) [some "l2", some "l1"]).toOption = some [6, 5] ∧
    (∀ l ∈ [some "l2", some "l1"], ∃ z, exMatrix l = some z ∧ z ≠ []) ∧ exMatrix (some "l3") = some [] := by
  refine ⟨by decide +kernel, ?_, by decide +kernel⟩
  intro l hl
  simp only [List.mem_cons, List.not_mem_nil, or_false] at hl
  rcases hl with rfl | rfl
  · exact ⟨[[7, 1], [1, 7]], by decide +kernel, by simp⟩
  · exact ⟨[[5]], by decide +kernel, by simp⟩

end Ditto.PathLines
