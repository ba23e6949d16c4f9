import Verif.Lemmas.SetAttributes

/-! What `merge` does to the list of models and to the classes of the objects. -/
namespace Ditto.Heap
open Ditto

/-- the new objects are in the store, in order of creation, and no other change is made to the list of models; the old
objects keep their classes -/
structure Grow (st st' : St) : Prop where
  le : st.1.length ≤ st'.1.length
  models : st'.2 = st.2 ++ List.range' st.1.length (st'.1.length - st.1.length)
  cls : ∀ x : Ref, x < st.1.length → clsOf st'.1 x = clsOf st.1 x

theorem Grow.refl (st : St) : Grow st st := ⟨Nat.le_refl _, by simp, fun _ _ => rfl⟩

theorem Grow.trans {a b c : St} (h1 : Grow a b) (h2 : Grow b c) : Grow a c := by
  refine ⟨Nat.le_trans h1.le h2.le, ?_, fun x hx => ?_⟩
  · rw [h2.models, h1.models, List.append_assoc]
    congr 1
    have e1 := h1.le
    have e2 := h2.le
    have : c.1.length - a.1.length = (b.1.length - a.1.length) + (c.1.length - b.1.length) := by omega
    rw [this, ← List.range'_append_1]
    congr 2
    omega
  · rw [h2.cls x (Nat.lt_of_lt_of_le hx h1.le), h1.cls x hx]

theorem clsOf_hset (h : Heap) (r : Ref) (a : String) (v : AttrVal) (x : Ref) : clsOf (hset h r a v) x = clsOf h x := by
  by_cases hx : x = r
  · subst hx
    cases ho : h[x]? with
    | none => simp [hset, ho]
    | some o => simp only [clsOf, hset_self ho, ho]; rfl
  · simp only [clsOf, hset_ne hx]

theorem Grow.hset {st st' : St} (g : Grow st st') (r : Ref) (a : String) (v : AttrVal) :
    Grow st (hset st'.1 r a v, st'.2) :=
  ⟨by simpa only [hset_length] using g.le, by simpa only [hset_length] using g.models,
    fun x hx => by simp only [clsOf_hset, g.cls x hx]⟩

theorem copyAll_grow {recur : St → Ref → Py (St × Ref)} (hrec : ∀ st r st' r', recur st r = .ok (st', r') → Grow st st')
    (st : St) (es : List Elem) (st' : St) (es' : List Elem) (h : copyAll recur st es = .ok (st', es')) : Grow st st' := by
  unfold copyAll at h
  have := foldlM_inv (fun acc : St × List Elem => Grow st acc.1) es (fun acc e acc' _ hg hs => by
    unfold copyElem at hs
    split at hs
    · simp at hs
    · split at hs
      · simp at hs
      · rename_i hr
        simp only [Except.ok.injEq] at hs
        subst hs
        exact hg.trans (hrec _ _ _ _ hr)) (Grow.refl st) h
  exact this

theorem copy_grow (fuel : Nat) (st : St) (r : Ref) (st' : St) (r' : Ref) (h : copy fuel st r = .ok (st', r')) :
    Grow st st' := by
  induction fuel generalizing st r st' r' with
  | zero => simp [copy] at h
  | succ fuel ih =>
    unfold copy at h
    split at h
    · simp at h
    · rename_i o ho
      split at h
      · simp at h
      · rename_i st1 attrs hf
        simp only [Except.ok.injEq, Prod.mk.injEq] at h
        obtain ⟨rfl, rfl⟩ := h
        have g0 : Grow st (st.1 ++ [blank o], st.2 ++ [st.1.length]) :=
          ⟨by simp, by simp, fun x hx => by simp [clsOf, List.getElem?_append_left hx]⟩
        have g1 := foldlM_inv (fun acc : St × List (String × AttrVal) => Grow (st.1 ++ [blank o], st.2 ++ [st.1.length]) acc.1)
          _ (fun acc av acc' _ hg hs => by
            unfold copyAttr at hs
            split at hs
            · simp only [Except.ok.injEq] at hs; subst hs; exact hg
            · simp only [Except.ok.injEq] at hs; subst hs; exact hg
            · split at hs
              · simp only [Except.ok.injEq] at hs; subst hs; exact hg
              · split at hs
                · simp at hs
                · rename_i hc
                  simp only [Except.ok.injEq] at hs; subst hs
                  exact hg.trans (copyAll_grow ih _ _ _ _ hc)) (Grow.refl _) hf
        have g := g0.trans g1
        refine ⟨by simpa using g.le, by simpa using g.models, fun x hx => ?_⟩
        rw [← g.cls x hx]
        simp only [clsOf]
        rw [List.getElem?_set_ne (Ne.symm (Nat.ne_of_lt hx))]

theorem mergeList_grow {cpy : St → Ref → Py (St × Ref)} {recur : St → Ref → Ref → Py St}
    (hc : ∀ st r st' r', cpy st r = .ok (st', r') → Grow st st') (hr : ∀ st r1 r2 st', recur st r1 r2 = .ok st' → Grow st st')
    (st : St) (r1 r2 : Ref) (a : String) (list1 list2 : Option (List Elem)) (st' : St)
    (h : mergeList cpy recur st r1 r2 a list1 list2 = .ok st') : Grow st st' := by
  have hci : ∀ l2, copyInto cpy st r1 a l2 = .ok st' → Grow st st' := by
    intro l2 h
    unfold copyInto at h
    split at h
    · simp at h
    · rename_i hca
      simp only [Except.ok.injEq] at h; subst h
      exact (copyAll_grow hc _ _ _ _ hca).hset _ _ _
  have hre : ∀ s e1 e2 s', Grow st s → recurElem recur s e1 e2 = .ok s' → Grow st s' := by
    intro s e1 e2 s' g h
    unfold recurElem at h
    split at h
    · simp at h
    · exact g.trans (hr _ _ _ _ h)
    · simp at h
  unfold mergeList at h
  split at h
  · simp at h
  · simp at h
  · simp only [Except.ok.injEq] at h; subst h; exact Grow.refl _
  · simp only [Except.ok.injEq] at h; subst h; exact Grow.refl _
  · split at h
    · split at h
      · simp at h
      · split at h
        · simp at h
        · dsimp only at h
          split at h
          · simp at h
          · rename_i hl
            simp only [Except.ok.injEq] at h; subst h
            have := (phaseLoop_inv (fun s => Grow st s) (fun _ => True) (fun s e1 e2 s' g _ _ => hre s e1 e2 s' g) _ _ _ _ _ _ _
              (((Grow.refl st).hset _ _ _).hset _ _ _) (by simp) (by simp) hl).1
            exact this.hset _ _ _
    · split at h
      · simp at h
      · rename_i hl
        simp only [Except.ok.injEq] at h; subst h
        have := (zipLoop_inv (fun s => Grow st s) (fun _ => True) (fun s e1 e2 s' g _ _ => hre s e1 e2 s' g) _ _ _ _ _
          (Grow.refl st) (by simp) (by simp) hl).1
        exact this.hset _ _ _
  · exact hci _ h

theorem setAttributes_grow (ow : Bool) (fuel : Nat) (st : St) (r1 r2 : Ref) (st' : St)
    (h : setAttributes ow fuel st r1 r2 = .ok st') : Grow st st' := by
  induction fuel generalizing st r1 r2 st' with
  | zero => simp [setAttributes] at h
  | succ fuel ih =>
    unfold setAttributes at h
    split at h
    · simp at h
    · refine foldlM_inv (fun s : St => Grow st s) _ ?_ (Grow.refl st) h
      intro s a s' _ hg hs
      unfold setAttr at hs
      split at hs
      · simp at hs
      · exact hg.trans (mergeList_grow (copy_grow fuel) ih _ _ _ _ _ _ _ hs)
      · simp at hs
      · simp at hs
      · simp only [Except.ok.injEq] at hs; subst hs; exact hg
      · simp at hs
      · split at hs
        · simp only [Except.ok.injEq] at hs; subst hs; exact hg
        · simp only [Except.ok.injEq] at hs; subst hs; exact hg.hset _ _ _
      · split at hs
        · simp only [Except.ok.injEq] at hs; subst hs; exact hg
        · simp at hs

theorem mergeStep_grow (ow : Bool) (fuel : Nat) (names : Names) (st : St) (kr : Option Atom × Ref) (st' : St)
    (h : mergeStep fuel ow names st kr = .ok st') : Grow st st' := by
  unfold mergeStep at h
  split at h
  · simp only [Except.ok.injEq] at h; subst h; exact Grow.refl _
  · split at h
    · simp at h
    · exact setAttributes_grow _ _ _ _ _ _ h

end Ditto.Heap
