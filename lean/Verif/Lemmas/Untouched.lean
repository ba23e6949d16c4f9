import Verif.Lemmas.SetAttributes

/-! Which attributes of the objects with a name `set_attributes` leaves alone. -/
namespace Ditto.Heap
open Ditto

/-- Attributes of named objects outside `T` have the same value (scalar or list). -/
def Exact (T : Ref → String → Prop) (h h' : Heap) : Prop :=
  ∀ (x : Ref) (o : Obj), h[x]? = some o → nameOf h x ≠ none →
    ∃ o', h'[x]? = some o' ∧ ∀ b, ¬ T x b → o'.get b = o.get b

theorem Exact.refl (T : Ref → String → Prop) (h : Heap) : Exact T h h := fun _ o ho _ => ⟨o, ho, fun _ _ => rfl⟩

theorem Exact.trans {T : Ref → String → Prop} {a b c : Heap} (h1 : Exact T a b) (h2 : Exact T b c)
    (hn : ∀ x, nameOf b x = none → nameOf a x = none) : Exact T a c := by
  intro x o ho hnx
  obtain ⟨o1, ho1, he1⟩ := h1 x o ho hnx
  obtain ⟨o2, ho2, he2⟩ := h2 x o1 ho1 (fun h => hnx (hn x h))
  exact ⟨o2, ho2, fun b hb => (he2 b hb).trans (he1 b hb)⟩

theorem Exact.hset (T : Ref → String → Prop) {h : Heap} {r : Ref} {a : String} (v : AttrVal) (hT : T r a) :
    Exact T h (hset h r a v) := by
  intro x o ho _
  by_cases hx : x = r
  · subst hx
    refine ⟨_, hset_self ho _ _, fun b hb => ?_⟩
    have : b ≠ a := by rintro rfl; exact hb hT
    rw [get_set_ne this]
  · exact ⟨o, by rw [hset_ne hx]; exact ho, fun _ _ => rfl⟩

theorem Ext.exact {st st' : St} (h : Ext st st') (T : Ref → String → Prop) : Exact T st.1 st'.1 := by
  intro x o ho _
  exact ⟨o, by rw [h.same x (List.getElem?_eq_some_iff.1 ho).1]; exact ho, fun _ _ => rfl⟩

def RecExact (recur : St → Ref → Ref → Py St) : Prop :=
  ∀ (st : St) (r1 r2 : Ref) (st' : St), ElemsNameless st.1 → recur st r1 r2 = .ok st' →
    Exact (fun x _ => x = r1 ∨ x = r2) st.1 st'.1

theorem mergeList_exact {cpy : St → Ref → Py (St × Ref)} {recur : St → Ref → Ref → Py St} (hc : CpyOk cpy)
    (hrec : RecOk recur) (hex : RecExact recur) (st : St) (r1 r2 : Ref) (a : String)
    (list1 list2 : Option (List Elem)) (st' : St)
    (he : ElemsNameless st.1) (hg1 : (st.1[r1]?).bind (·.get a) = some (.list list1))
    (hg2 : (st.1[r2]?).bind (·.get a) = some (.list list2))
    (h : mergeList cpy recur st r1 r2 a list1 list2 = .ok st') :
    Exact (fun x b => (x = r1 ∨ x = r2) ∧ b = a) st.1 st'.1 := by
  have hcopy : ∀ l2, list2 = some l2 → copyInto cpy st r1 a l2 = .ok st' →
      Exact (fun x b => (x = r1 ∨ x = r2) ∧ b = a) st.1 st'.1 := by
    intro l2 hl2 hci
    clear h
    subst hl2
    unfold copyInto at hci
    split at hci
    · simp at hci
    · rename_i st1 l hca
      simp only [Except.ok.injEq] at hci
      subst hci
      obtain ⟨f, n, e⟩ := hc l2 st st1 l he (fun c hc => he r2 c (listElem_of_get hg2 hc)) hca
      exact (e.exact _).trans (Exact.hset _ _ ⟨.inl rfl, rfl⟩) (fun x hx => ((f r1).nameOf_iff x).1 hx)
  have hrecJ : ∀ (h0 : Heap) (s : St) (e1 e2 : Elem) (s' : St),
      (Frame r1 h0 s.1 ∧ Exact (fun x b => (x = r1 ∨ x = r2) ∧ b = a) h0 s.1) →
      (∀ c, e1 = .ref c → nameOf h0 c = none) → (∀ c, e2 = .ref c → nameOf h0 c = none) →
      recurElem recur s e1 e2 = .ok s' →
      Frame r1 h0 s'.1 ∧ Exact (fun x b => (x = r1 ∨ x = r2) ∧ b = a) h0 s'.1 := by
    intro h0 s e1 e2 s' hJ h1 h2 h
    refine ⟨recurElem_frame hrec h0 r1 s e1 e2 s' hJ.1 h1 h, ?_⟩
    unfold recurElem at h
    cases e2 with
    | raw k s => simp at h
    | ref c2 =>
      cases e1 with
      | raw k s => simp at h
      | ref c1 =>
        refine hJ.2.trans ?_ (fun x hx => (hJ.1.nameOf_iff x).1 hx)
        intro x o ho hn
        obtain ⟨o', ho', hb⟩ := hex s c1 c2 s' hJ.1.elems h x o ho hn
        refine ⟨o', ho', fun b _ => hb b ?_⟩
        rw [Ne, hJ.1.nameOf_iff] at hn
        rintro (rfl | rfl)
        · exact hn (h1 _ rfl)
        · exact hn (h2 _ rfl)
  unfold mergeList at h
  split at h
  · simp at h
  · simp at h
  · simp only [Except.ok.injEq] at h; subst h; exact Exact.refl _ _
  · simp only [Except.ok.injEq] at h; subst h; exact Exact.refl _ _
  · rename_i e1 l1 e2 l2
    have hn1 : ∀ c, .ref c ∈ e1 :: l1 → nameOf st.1 c = none := fun c hc => he r1 c (listElem_of_get hg1 hc)
    have hn2 : ∀ c, .ref c ∈ e2 :: l2 → nameOf st.1 c = none := fun c hc => he r2 c (listElem_of_get hg2 hc)
    split at h
    · split at h
      · simp at h
      · rename_i s1 hs1
        split at h
        · simp at h
        · rename_i s2 hs2
          have hp1 := sortByPhase_perm hs1
          have hp2 := sortByPhase_perm hs2
          have f1 : Frame r1 st.1 (hset st.1 r1 a (.list (some s1))) :=
            Frame.hset_list r1 he hg1 (fun c hc => hn1 c (hp1.mem_iff.1 hc))
          obtain ⟨w2, hw2⟩ := f1.get_list hg2
          have f2 := f1.trans (Frame.hset_list r1 f1.elems (l := s2) hw2
            (fun c hc => (f1.nameOf_iff c).2 (hn2 c (hp2.mem_iff.1 hc))))
          have k1 : Exact (fun x b => (x = r1 ∨ x = r2) ∧ b = a) st.1 (hset st.1 r1 a (.list (some s1))) :=
            Exact.hset _ _ ⟨.inl rfl, rfl⟩
          have k2 := k1.trans (Exact.hset (r := r2) (a := a) _ (.list (some s2)) ⟨.inr rfl, rfl⟩)
            (fun x hx => (f1.nameOf_iff x).1 hx)
          simp only at h
          split at h
          · simp at h
          · rename_i st1 l hl
            simp only [Except.ok.injEq] at h
            subst h
            obtain ⟨⟨fJ, kJ⟩, _⟩ := phaseLoop_inv
              (fun s => Frame r1 st.1 s.1 ∧ Exact (fun x b => (x = r1 ∨ x = r2) ∧ b = a) st.1 s.1)
              (fun e => ∀ c, e = .ref c → nameOf st.1 c = none)
              (fun s e1 e2 s' hJ h1 h2 h => hrecJ st.1 s e1 e2 s' hJ h1 h2 h)
              _ _ s1 0 s2 st1 l ⟨f2, k2⟩ (fun e he c hc => hn1 c (hp1.mem_iff.1 (hc ▸ he)))
              (fun e he c hc => hn2 c (hp2.mem_iff.1 (hc ▸ he))) hl
            exact kJ.trans (Exact.hset _ _ ⟨.inl rfl, rfl⟩) (fun x hx => (fJ.nameOf_iff x).1 hx)
    · split at h
      · simp at h
      · rename_i st1 l hl
        simp only [Except.ok.injEq] at h
        subst h
        obtain ⟨⟨fJ, kJ⟩, _⟩ := zipLoop_inv
          (fun s => Frame r1 st.1 s.1 ∧ Exact (fun x b => (x = r1 ∨ x = r2) ∧ b = a) st.1 s.1)
          (fun e => ∀ c, e = .ref c → nameOf st.1 c = none)
          (fun s e1 e2 s' hJ h1 h2 h => hrecJ st.1 s e1 e2 s' hJ h1 h2 h)
          _ (e1 :: l1) (e2 :: l2) st1 l ⟨Frame.refl r1 he, Exact.refl _ _⟩ (fun e he c hc => hn1 c (hc ▸ he))
          (fun e he c hc => hn2 c (hc ▸ he)) hl
        exact kJ.trans (Exact.hset _ _ ⟨.inl rfl, rfl⟩) (fun x hx => (fJ.nameOf_iff x).1 hx)
  · rename_i l2 h5 h6
    exact hcopy l2 rfl h

theorem setAttr_exact {cpy : St → Ref → Py (St × Ref)} {recur : St → Ref → Ref → Py St} (hc : CpyOk cpy)
    (hrec : RecOk recur) (hex : RecExact recur) (ow : Bool) (r1 r2 : Ref) (st : St) (a : String) (st' : St)
    (he : ElemsNameless st.1) (h : setAttr cpy recur ow r1 r2 st a = .ok st') :
    Exact (fun x b => (x = r1 ∨ x = r2) ∧ b = a) st.1 st'.1 := by
  unfold setAttr at h
  split at h
  · simp at h
  · rename_i list2 list1 hg2 hg1
    exact mergeList_exact hc hrec hex st r1 r2 a list1 list2 st' he hg1 hg2 h
  · simp at h
  · simp at h
  · simp only [Except.ok.injEq] at h; subst h; exact Exact.refl _ _
  · simp at h
  · split at h
    · simp only [Except.ok.injEq] at h; subst h; exact Exact.refl _ _
    · simp only [Except.ok.injEq] at h; subst h
      exact Exact.hset _ _ ⟨.inl rfl, rfl⟩
  · split at h
    · simp only [Except.ok.injEq] at h; subst h; exact Exact.refl _ _
    · simp at h

theorem setAttributes_exact (ow : Bool) (fuel : Nat) : RecExact (setAttributes ow fuel) := by
  induction fuel with
  | zero => intro st r1 r2 st' _ h; simp [setAttributes] at h
  | succ fuel ih =>
    intro st r1 r2 st' he h
    unfold setAttributes at h
    split at h
    · simp at h
    · refine (foldlM_inv (fun s : St => Frame r1 st.1 s.1 ∧ Exact (fun x _ => x = r1 ∨ x = r2) st.1 s.1) _ ?_
        ⟨Frame.refl r1 he, Exact.refl _ _⟩ h).2
      intro b a b' _ hf hs
      refine ⟨hf.1.trans (setAttr_frame (cpyOk_copy fuel) (setAttributes_frame ow fuel) ow r1 r2 b a b' hf.1.elems hs),
        hf.2.trans ?_ (fun x hx => (hf.1.nameOf_iff x).1 hx)⟩
      intro x o ho hn
      obtain ⟨o', ho', hb⟩ := setAttr_exact (cpyOk_copy fuel) (setAttributes_frame ow fuel) ih ow r1 r2 b a b'
        hf.1.elems hs x o ho hn
      exact ⟨o', ho', fun c hc => hb c (fun h => hc h.1)⟩

end Ditto.Heap
