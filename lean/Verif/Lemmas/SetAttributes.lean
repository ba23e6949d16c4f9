import Verif.Lemmas.Merge
import Mathlib.Data.List.Perm.Basic

namespace Ditto.Heap
open Ditto

/-! ### sorting -/

theorem insertByKey_perm (k : Nat) (e : Elem) (l : List (Nat × Elem)) : (insertByKey k e l).Perm ((k, e) :: l) := by
  induction l with
  | nil => exact .refl _
  | cons x l ih =>
    obtain ⟨k', e'⟩ := x
    unfold insertByKey
    split
    · exact .refl _
    · exact (ih.cons _).trans (.swap _ _ _)

theorem sortKeyed_perm (l : List (Nat × Elem)) : (sortKeyed l).Perm l := by
  unfold sortKeyed
  suffices ∀ acc, (l.foldl (fun acc x => insertByKey x.1 x.2 acc) acc).Perm (l ++ acc) by simpa using this []
  induction l with
  | nil => intro acc; exact .refl _
  | cons x l ih =>
    intro acc
    refine (ih _).trans ?_
    refine ((insertByKey_perm x.1 x.2 acc).append_left l).trans ?_
    exact List.perm_middle

theorem mapM_keys_cons {h : Heap} {e : Elem} {l : List Elem} {ks : List (Nat × Elem)}
    (hm : (e :: l).mapM (fun e => (phaseKey h e).map fun k => (k, e)) = .ok ks) :
    ∃ k ks', phaseKey h e = .ok k ∧ l.mapM (fun e => (phaseKey h e).map fun k => (k, e)) = .ok ks' ∧
      ks = (k, e) :: ks' := by
  rw [List.mapM_cons] at hm
  simp only [bind, Except.bind, Except.map, pure, Except.pure] at hm
  cases hk : phaseKey h e with
  | error e' => rw [hk] at hm; simp at hm
  | ok k =>
    rw [hk] at hm
    simp only at hm
    split at hm
    · simp at hm
    · rename_i ks' hks
      simp only [Except.ok.injEq] at hm
      exact ⟨k, ks', rfl, hks, hm.symm⟩

theorem mapM_keys {h : Heap} {l : List Elem} {ks : List (Nat × Elem)}
    (hm : l.mapM (fun e => (phaseKey h e).map fun k => (k, e)) = .ok ks) :
    ks.map (·.2) = l ∧ ∀ x ∈ ks, phaseKey h x.2 = .ok x.1 := by
  induction l generalizing ks with
  | nil => simp [pure, Except.pure] at hm; subst hm; simp
  | cons e l ih =>
    obtain ⟨k, ks', hk, hks, rfl⟩ := mapM_keys_cons hm
    obtain ⟨h1, h2⟩ := ih hks
    refine ⟨by simp [h1], ?_⟩
    intro x hx
    rcases List.mem_cons.1 hx with rfl | hx
    · exact hk
    · exact h2 x hx

theorem sortByPhase_perm {h : Heap} {l l' : List Elem} (hs : sortByPhase h l = .ok l') : l'.Perm l := by
  unfold sortByPhase at hs
  split at hs
  · simp at hs
  · rename_i ks hks
    simp only [Except.ok.injEq] at hs
    subst hs
    have := (sortKeyed_perm ks).map (fun x : Nat × Elem => x.2)
    rwa [(mapM_keys hks).1] at this

/-! ### the two loops -/

theorem phaseLoop_inv {recur : St → Elem → Elem → Py St} (J : St → Prop) (S : Elem → Prop)
    (hrec : ∀ st e1 e2 st', J st → S e1 → S e2 → recur st e1 e2 = .ok st' → J st')
    (n : Nat) (st : St) (l1 : List Elem) (i : Nat) (l2 : List Elem) (st' : St) (l : List Elem) (hJ : J st)
    (h1 : ∀ e ∈ l1, S e) (h2 : ∀ e ∈ l2, S e) (h : phaseLoop recur n st l1 i l2 = .ok (st', l)) :
    J st' ∧ ∃ extra, l = l1 ++ extra ∧ ∀ e ∈ extra, e ∈ l2 := by
  induction n generalizing st l1 i l2 with
  | zero =>
    simp only [phaseLoop, Except.ok.injEq, Prod.mk.injEq] at h
    obtain ⟨rfl, rfl⟩ := h
    exact ⟨hJ, [], by simp, by simp⟩
  | succ n ih =>
    unfold phaseLoop at h
    split at h
    · rename_i e1 e2 rest he1
      have hs2 : ∀ e ∈ rest, S e := fun e he => h2 e (by simp [he])
      split at h
      · simp at h
      · split at h
        · simp at h
        · split at h
          · split at h
            · simp at h
            · rename_i st1 hr
              obtain ⟨hJ', ex, hl, hex⟩ := ih st1 l1 (i+1) rest
                (hrec st e1 e2 st1 hJ (h1 e1 (List.mem_of_getElem? he1)) (h2 e2 (by simp)) hr) h1 hs2 h
              exact ⟨hJ', ex, hl, fun e he => by simp [hex e he]⟩
          · split at h
            · exact ih st l1 (i+1) (e2 :: rest) hJ h1 h2 h
            · obtain ⟨hJ', ex, hl, hex⟩ := ih st (l1 ++ [e2]) i rest hJ (fun e he => by
                rcases List.mem_append.1 he with he | he
                · exact h1 e he
                · simp at he; subst he; exact h2 e (by simp)) hs2 h
              refine ⟨hJ', e2 :: ex, by simp [hl], fun e he => ?_⟩
              rcases List.mem_cons.1 he with rfl | he
              · simp
              · simp [hex e he]
    · simp only [Except.ok.injEq, Prod.mk.injEq] at h
      obtain ⟨rfl, rfl⟩ := h
      exact ⟨hJ, [], by simp, by simp⟩

theorem zipLoop_inv {recur : St → Elem → Elem → Py St} (J : St → Prop) (S : Elem → Prop)
    (hrec : ∀ st e1 e2 st', J st → S e1 → S e2 → recur st e1 e2 = .ok st' → J st')
    (st : St) (l1 : List Elem) (l2 : List Elem) (st' : St) (l : List Elem) (hJ : J st)
    (h1 : ∀ e ∈ l1, S e) (h2 : ∀ e ∈ l2, S e) (h : zipLoop recur st l1 l2 = .ok (st', l)) :
    J st' ∧ ∃ extra, l = l1 ++ extra ∧ ∀ e ∈ extra, e ∈ l2 := by
  induction l1 generalizing st l2 l with
  | nil =>
    simp only [zipLoop, Except.ok.injEq, Prod.mk.injEq] at h
    obtain ⟨rfl, rfl⟩ := h
    exact ⟨hJ, l2, by simp, by simp⟩
  | cons e1 l1 ih =>
    cases l2 with
    | nil =>
      simp only [zipLoop, Except.ok.injEq, Prod.mk.injEq] at h
      obtain ⟨rfl, rfl⟩ := h
      exact ⟨hJ, [], by simp, by simp⟩
    | cons e2 l2 =>
      unfold zipLoop at h
      split at h
      · simp at h
      · rename_i st1 hr
        split at h
        · simp at h
        · rename_i st2 l' hz
          simp only [Except.ok.injEq, Prod.mk.injEq] at h
          obtain ⟨rfl, rfl⟩ := h
          obtain ⟨hJ', ex, hl, hex⟩ := ih st1 l2 l' (hrec st e1 e2 st1 hJ (h1 e1 (by simp)) (h2 e2 (by simp)) hr)
            (fun e he => h1 e (by simp [he])) (fun e he => h2 e (by simp [he])) hz
          exact ⟨hJ', ex, by simp [hl], fun e he => by simp [hex e he]⟩

/-! ### frame of `set_attributes` -/

theorem lookup_mem {a : String} {v : AttrVal} {l : List (String × AttrVal)} (h : l.lookup a = some v) :
    (a, v) ∈ l := by
  induction l with
  | nil => simp at h
  | cons x l ih =>
    obtain ⟨b, w⟩ := x
    rw [List.lookup_cons] at h
    split at h
    · rename_i hb; simp at hb h; subst hb; subst h; simp
    · simp [ih h]

theorem lookup_isSome_iff (a : String) (l : List (String × AttrVal)) :
    (l.lookup a).isSome ↔ a ∈ l.map (·.1) := by
  induction l with
  | nil => simp
  | cons x l ih =>
    obtain ⟨b, w⟩ := x
    rw [List.lookup_cons]
    split
    · rename_i hb; simp at hb; subst hb; simp
    · rename_i hb; simp at hb; rw [ih]; simp [hb]

theorem get_bind {h : Heap} {r : Ref} {a : String} {v : AttrVal} (hg : (h[r]?).bind (·.get a) = some v) :
    ∃ o, h[r]? = some o ∧ o.get a = some v := by
  cases ho : h[r]? with
  | none => rw [ho] at hg; simp at hg
  | some o => rw [ho] at hg; exact ⟨o, rfl, hg⟩

theorem listElem_of_get {h : Heap} {r c : Ref} {a : String} {es : List Elem}
    (hg : (h[r]?).bind (·.get a) = some (.list (some es))) (hc : .ref c ∈ es) : ListElem h r c := by
  obtain ⟨o, ho, hg⟩ := get_bind hg
  exact ⟨o, a, es, ho, lookup_mem hg, hc⟩

theorem Frame.get_list {r1 r : Ref} {h h' : Heap} (hf : Frame r1 h h') {a : String} {w : Option (List Elem)}
    (hg : (h[r]?).bind (·.get a) = some (.list w)) : ∃ w', (h'[r]?).bind (·.get a) = some (.list w') := by
  obtain ⟨o, ho, hg⟩ := get_bind hg
  obtain ⟨o', ho', _, hk, hs, _⟩ := hf.old r o ho
  rw [ho']
  simp only [Option.bind_some]
  have h1 : (o'.get a).isSome := by
    unfold Obj.get
    rw [lookup_isSome_iff, hk, ← lookup_isSome_iff]
    have : o.attrs.lookup a = some (.list w) := hg
    rw [this]; rfl
  have h2 : ¬ IsPlain o' a := by rw [← hs]; rintro ⟨v, hv⟩; rw [hg] at hv; simp at hv
  cases hg' : o'.get a with
  | none => rw [hg'] at h1; simp at h1
  | some v =>
    cases v with
    | plain v => exact absurd ⟨v, hg'⟩ h2
    | list w' => exact ⟨w', rfl⟩

theorem Frame.get_plain {r1 r : Ref} {h h' : Heap} (hf : Frame r1 h h') {a : String} {w : Option Atom}
    (hr : r ≠ r1) (hn : nameOf h r ≠ none)
    (hg : (h[r]?).bind (·.get a) = some (.plain w)) : (h'[r]?).bind (·.get a) = some (.plain w) := by
  obtain ⟨o, ho, hg⟩ := get_bind hg
  obtain ⟨o', ho', _, _, _, hp⟩ := hf.old r o ho
  rw [ho']
  exact hp hr hn a w hg

/-- the frame property assumed of the recursive calls -/
def CpyOk (cpy : St → Ref → Py (St × Ref)) : Prop :=
  ∀ (es : List Elem) (st st' : St) (es' : List Elem), ElemsNameless st.1 →
    (∀ c, .ref c ∈ es → nameOf st.1 c = none) → copyAll cpy st es = .ok (st', es') →
    (∀ r1, Frame r1 st.1 st'.1) ∧ (∀ c, .ref c ∈ es' → nameOf st'.1 c = none) ∧ Ext st st'

def RecOk (recur : St → Ref → Ref → Py St) : Prop :=
  ∀ (st : St) (r1 r2 : Ref) (st' : St), ElemsNameless st.1 → recur st r1 r2 = .ok st' → Frame r1 st.1 st'.1

theorem cpyOk_copy (fuel : Nat) : CpyOk (copy fuel) := fun es st st' es' he hes h =>
  copyAll_frame fuel (fun st r st' r' => copy_frame fuel st r st' r') es st st' es' he hes h

theorem recurElem_frame {recur : St → Ref → Ref → Py St} (hrec : RecOk recur) (h0 : Heap) (r0 : Ref)
    (st : St) (e1 e2 : Elem) (st' : St) (hf : Frame r0 h0 st.1)
    (h1 : ∀ c, e1 = .ref c → nameOf h0 c = none) (h : recurElem recur st e1 e2 = .ok st') : Frame r0 h0 st'.1 := by
  unfold recurElem at h
  cases e2 with
  | raw k s => simp at h
  | ref c2 =>
    cases e1 with
    | raw k s => simp at h
    | ref c1 =>
      simp only at h
      refine hf.trans ((hrec st c1 c2 st' hf.elems h).of_nameless ?_)
      rw [hf.nameOf_iff]; exact h1 c1 rfl

theorem mergeList_frame {cpy : St → Ref → Py (St × Ref)} {recur : St → Ref → Ref → Py St} (hc : CpyOk cpy)
    (hrec : RecOk recur) (r0 : Ref) (st : St) (r1 r2 : Ref) (a : String) (list1 list2 : Option (List Elem)) (st' : St)
    (he : ElemsNameless st.1) (hg1 : (st.1[r1]?).bind (·.get a) = some (.list list1))
    (hg2 : (st.1[r2]?).bind (·.get a) = some (.list list2))
    (h : mergeList cpy recur st r1 r2 a list1 list2 = .ok st') : Frame r0 st.1 st'.1 := by
  have copyCase : ∀ l2, list2 = some l2 → copyInto cpy st r1 a l2 = .ok st' → Frame r0 st.1 st'.1 := by
    intro l2 hl2 hci
    clear h
    subst hl2
    unfold copyInto at hci
    split at hci
    · simp at hci
    · rename_i st1 l hca
      simp only [Except.ok.injEq] at hci
      subst hci
      obtain ⟨f, n, _⟩ := hc l2 st st1 l he (fun c hc => he r2 c (listElem_of_get hg2 hc)) hca
      obtain ⟨w', hw'⟩ := (f r0).get_list hg1
      exact (f r0).trans (Frame.hset_list r0 (f r0).elems hw' n)
  unfold mergeList at h
  split at h
  · simp at h
  · simp at h
  · simp only [Except.ok.injEq] at h; subst h; exact Frame.refl _ he
  · simp only [Except.ok.injEq] at h; subst h; exact Frame.refl _ he
  · rename_i e1 l1 e2 l2
    have hn1 : ∀ c, .ref c ∈ e1 :: l1 → nameOf st.1 c = none := fun c hc => he r1 c (listElem_of_get hg1 hc)
    have hn2 : ∀ c, .ref c ∈ e2 :: l2 → nameOf st.1 c = none := fun c hc => he r2 c (listElem_of_get hg2 hc)
    split at h
    · split at h
      · simp at h
      · rename_i s1 hs1
        split at h
        · simp at h
        · rename_i s2 hs2
          have hp1 := sortByPhase_perm hs1
          have hp2 := sortByPhase_perm hs2
          have f1 : Frame r0 st.1 (hset st.1 r1 a (.list (some s1))) :=
            Frame.hset_list r0 he hg1 (fun c hc => hn1 c (hp1.mem_iff.1 hc))
          obtain ⟨w2, hw2⟩ := f1.get_list hg2
          have f2 := f1.trans (Frame.hset_list r0 f1.elems (l := s2) hw2
            (fun c hc => (f1.nameOf_iff c).2 (hn2 c (hp2.mem_iff.1 hc))))
          simp only at h
          split at h
          · simp at h
          · rename_i st1 l hl
            simp only [Except.ok.injEq] at h
            subst h
            obtain ⟨fJ, ex, hlx, hex⟩ := phaseLoop_inv (fun s => Frame r0 st.1 s.1)
              (fun e => ∀ c, e = .ref c → nameOf st.1 c = none)
              (fun s e1 e2 s' hJ h1 _ h => recurElem_frame hrec st.1 r0 s e1 e2 s' hJ h1 h)
              _ _ s1 0 s2 st1 l f2 (fun e he c hc => hn1 c (hp1.mem_iff.1 (hc ▸ he)))
              (fun e he c hc => hn2 c (hp2.mem_iff.1 (hc ▸ he))) hl
            obtain ⟨w', hw'⟩ := fJ.get_list hg1
            refine fJ.trans (Frame.hset_list r0 fJ.elems hw' (fun c hc => ?_))
            rw [fJ.nameOf_iff]
            rw [hlx] at hc
            rcases List.mem_append.1 hc with hc | hc
            · exact hn1 c (hp1.mem_iff.1 hc)
            · exact hn2 c (hp2.mem_iff.1 (hex _ hc))
    · split at h
      · simp at h
      · rename_i st1 l hl
        simp only [Except.ok.injEq] at h
        subst h
        obtain ⟨fJ, ex, hlx, hex⟩ := zipLoop_inv (fun s => Frame r0 st.1 s.1)
          (fun e => ∀ c, e = .ref c → nameOf st.1 c = none)
          (fun s e1 e2 s' hJ h1 _ h => recurElem_frame hrec st.1 r0 s e1 e2 s' hJ h1 h)
          _ (e1 :: l1) (e2 :: l2) st1 l (Frame.refl r0 he) (fun e he c hc => hn1 c (hc ▸ he))
          (fun e he c hc => hn2 c (hc ▸ he)) hl
        obtain ⟨w', hw'⟩ := fJ.get_list hg1
        refine fJ.trans (Frame.hset_list r0 fJ.elems hw' (fun c hc => ?_))
        rw [fJ.nameOf_iff]
        rw [hlx] at hc
        rcases List.mem_append.1 hc with hc | hc
        · exact hn1 c hc
        · exact hn2 c (hex _ hc)
  · rename_i l2 _ _
    exact copyCase l2 rfl h

theorem setAttr_frame {cpy : St → Ref → Py (St × Ref)} {recur : St → Ref → Ref → Py St} (hc : CpyOk cpy)
    (hrec : RecOk recur) (ow : Bool) (r1 r2 : Ref) (st : St) (a : String) (st' : St) (he : ElemsNameless st.1)
    (h : setAttr cpy recur ow r1 r2 st a = .ok st') : Frame r1 st.1 st'.1 := by
  unfold setAttr at h
  split at h
  · simp at h
  · rename_i list2 list1 hg2 hg1
    exact mergeList_frame hc hrec r1 st r1 r2 a list1 list2 st' he hg1 hg2 h
  · simp at h
  · simp at h
  · simp only [Except.ok.injEq] at h; subst h; exact Frame.refl _ he
  · simp at h
  · rename_i v2 v1 hg2 hg1
    split at h
    · simp only [Except.ok.injEq] at h; subst h; exact Frame.refl _ he
    · simp only [Except.ok.injEq] at h; subst h
      exact Frame.hset_plain he hg1 _
  · split at h
    · simp only [Except.ok.injEq] at h; subst h; exact Frame.refl _ he
    · simp at h

theorem setAttributes_frame (ow : Bool) (fuel : Nat) : RecOk (setAttributes ow fuel) := by
  induction fuel with
  | zero => intro st r1 r2 st' _ h; simp [setAttributes] at h
  | succ fuel ih =>
    intro st r1 r2 st' he h
    unfold setAttributes at h
    split at h
    · simp at h
    · refine foldlM_inv (fun s : St => Frame r1 st.1 s.1) _ ?_ (Frame.refl r1 he) h
      intro b a b' _ hf hs
      exact hf.trans (setAttr_frame (cpyOk_copy fuel) ih ow r1 r2 b a b' hf.elems hs)

/-! ### the scalar attributes of `obj_1` -/

/-- the value an attribute must have after a merge -/
def mergedVal (ow : Bool) (v1 v2 : Option Atom) : Option Atom := if ow then v2.or v1 else v1.or v2

theorem mergedVal_idem (ow : Bool) (v1 v2 : Option Atom) :
    mergedVal ow (mergedVal ow v1 v2) v2 = mergedVal ow v1 v2 := by
  cases ow <;> cases v1 <;> cases v2 <;> rfl

theorem setAttr_other {cpy : St → Ref → Py (St × Ref)} {recur : St → Ref → Ref → Py St} (hc : CpyOk cpy)
    (hrec : RecOk recur) (ow : Bool) (r1 r2 : Ref) (st : St) (b : String) (st' : St) (he : ElemsNameless st.1)
    (h : setAttr cpy recur ow r1 r2 st b = .ok st') (a : String) (ha : a ≠ b) (hn : nameOf st.1 r1 ≠ none)
    {w : Option Atom} (hw : (st.1[r1]?).bind (·.get a) = some (.plain w)) :
    (st'.1[r1]?).bind (·.get a) = some (.plain w) := by
  unfold setAttr at h
  split at h
  · simp at h
  · rename_i list2 list1 hg2 hg1
    exact (mergeList_frame hc hrec (r1 + 1) st r1 r2 b list1 list2 st' he hg1 hg2 h).get_plain
      (Nat.ne_of_lt (Nat.lt_succ_self _)) hn hw
  · simp at h
  · simp at h
  · simp only [Except.ok.injEq] at h; subst h; exact hw
  · simp at h
  · split at h
    · simp only [Except.ok.injEq] at h; subst h; exact hw
    · simp only [Except.ok.injEq] at h; subst h
      obtain ⟨o, ho, hg⟩ := get_bind hw
      simp only
      rw [hset_self ho, Option.bind_some, get_set_ne ha]
      exact hg
  · split at h
    · simp only [Except.ok.injEq] at h; subst h; exact hw
    · simp at h

theorem setAttr_same {cpy : St → Ref → Py (St × Ref)} {recur : St → Ref → Ref → Py St} (ow : Bool) (r1 r2 : Ref)
    (st : St) (a : String) (st' : St) (h : setAttr cpy recur ow r1 r2 st a = .ok st')
    {v1 v2 : Option Atom} (h1 : (st.1[r1]?).bind (·.get a) = some (.plain v1))
    (h2 : (st.1[r2]?).bind (·.get a) = some (.plain v2)) :
    (st'.1[r1]?).bind (·.get a) = some (.plain (mergedVal ow v1 v2)) := by
  unfold setAttr at h
  rw [h1, h2] at h
  cases v2 with
  | none =>
    simp only [Except.ok.injEq] at h; subst h
    rw [h1]; cases ow <;> cases v1 <;> rfl
  | some v2 =>
    simp only at h
    split at h
    · rename_i hcond
      simp only [Except.ok.injEq] at h; subst h
      rw [h1]
      cases ow <;> cases v1 <;> simp at hcond ⊢
      rfl
    · rename_i hcond
      simp only [Except.ok.injEq] at h; subst h
      obtain ⟨o, ho, hg⟩ := get_bind h1
      simp only
      rw [hset_self ho, Option.bind_some, get_set_self hg]
      cases ow <;> cases v1 <;> simp at hcond ⊢ <;> rfl

theorem setAttributes_value (ow : Bool) (fuel : Nat) (st : St) (r1 r2 : Ref) (st' : St) (he : ElemsNameless st.1)
    (hne : r1 ≠ r2) (hn1 : nameOf st.1 r1 ≠ none) (hn2 : nameOf st.1 r2 ≠ none)
    (h : setAttributes ow fuel st r1 r2 = .ok st') (a : String) {v1 v2 : Option Atom}
    (h1 : (st.1[r1]?).bind (·.get a) = some (.plain v1)) (h2 : (st.1[r2]?).bind (·.get a) = some (.plain v2)) :
    (st'.1[r1]?).bind (·.get a) = some (.plain (mergedVal ow v1 v2)) := by
  cases fuel with
  | zero => simp [setAttributes] at h
  | succ fuel =>
    unfold setAttributes at h
    obtain ⟨o2, ho2, hg2⟩ := get_bind h2
    rw [ho2] at h
    simp only at h
    have hmem : a ∈ o2.attrs.map (·.1) := by
      rw [← lookup_isSome_iff]
      have : o2.attrs.lookup a = some (.plain v2) := hg2
      rw [this]; rfl
    generalize o2.attrs.map (·.1) = l at h hmem
    have gen : ∀ (l : List String) (s : St) (w : Option Atom), Frame r1 st.1 s.1 →
        (w = v1 ∨ w = mergedVal ow v1 v2) → (s.1[r1]?).bind (·.get a) = some (.plain w) →
        l.foldlM (setAttr (copy fuel) (setAttributes ow fuel) ow r1 r2) s = .ok st' →
        (st'.1[r1]?).bind (·.get a) = some (.plain (if a ∈ l then mergedVal ow v1 v2 else w)) := by
      intro l
      induction l with
      | nil =>
        intro s w _ _ hw h
        have := foldlM_nil_ok h
        subst this
        simpa using hw
      | cons b l ih =>
        intro s w hf hw hv h
        obtain ⟨s1, hs1, hs2⟩ := foldlM_cons_ok h
        have f1 := hf.trans (setAttr_frame (cpyOk_copy fuel) (setAttributes_frame ow fuel) ow r1 r2 s b s1 hf.elems hs1)
        by_cases hb : a = b
        · subst hb
          have h2' := hf.get_plain (Ne.symm hne) hn2 h2
          have := setAttr_same ow r1 r2 s a s1 hs1 hv h2'
          have hw' : mergedVal ow w v2 = mergedVal ow v1 v2 := by
            rcases hw with rfl | rfl
            · rfl
            · exact mergedVal_idem _ _ _
          rw [hw'] at this
          have := ih s1 _ f1 (.inr rfl) this hs2
          simpa using this
        · have := setAttr_other (cpyOk_copy fuel) (setAttributes_frame ow fuel) ow r1 r2 s b s1 hf.elems hs1 a hb
            (fun h => hn1 ((hf.nameOf_iff r1).1 h)) hv
          have := ih s1 _ f1 hw this hs2
          simpa [hb] using this
    have := gen l st v1 (Frame.refl r1 he) (.inl rfl) h1 h
    rwa [if_pos hmem] at this

/-! ### nothing is lost with `overwrite=False` -/

/-- every scalar that is set keeps its value, every list keeps its elements -/
def Keep (h h' : Heap) : Prop := ∀ (x : Ref) (o : Obj), h[x]? = some o → ∃ o', h'[x]? = some o' ∧ o'.cls = o.cls ∧
  (∀ a v, o.get a = some (.plain (some v)) → o'.get a = some (.plain (some v))) ∧
  ∀ a es, o.get a = some (.list (some es)) → ∃ es', o'.get a = some (.list (some es')) ∧ ∀ e ∈ es, e ∈ es'

theorem Keep.refl (h : Heap) : Keep h h := fun _ o ho => ⟨o, ho, rfl, fun _ _ h => h, fun _ es h => ⟨es, h, fun _ h => h⟩⟩

theorem Keep.trans {a b c : Heap} (h1 : Keep a b) (h2 : Keep b c) : Keep a c := by
  intro x o ho
  obtain ⟨o1, ho1, hc1, hp1, hl1⟩ := h1 x o ho
  obtain ⟨o2, ho2, hc2, hp2, hl2⟩ := h2 x o1 ho1
  refine ⟨o2, ho2, hc2.trans hc1, fun a v h => hp2 a v (hp1 a v h), fun a es h => ?_⟩
  obtain ⟨es1, he1, hs1⟩ := hl1 a es h
  obtain ⟨es2, he2, hs2⟩ := hl2 a es1 he1
  exact ⟨es2, he2, fun e he => hs2 e (hs1 e he)⟩

theorem Keep.hset_list {h h' : Heap} (hk : Keep h h') {r : Ref} {a : String} {l : List Elem}
    {w : Option (List Elem)} (hg' : (h'[r]?).bind (·.get a) = some (.list w))
    (hl : ∀ es, (h[r]?).bind (·.get a) = some (.list (some es)) → ∀ e ∈ es, e ∈ l) :
    Keep h (hset h' r a (.list (some l))) := by
  obtain ⟨o', ho', hgo⟩ := get_bind hg'
  intro x o ho
  obtain ⟨o1, ho1, hc1, hp1, hl1⟩ := hk x o ho
  by_cases hx : x = r
  · subst hx
    rw [ho'] at ho1; cases ho1
    refine ⟨_, hset_self ho' _ _, hc1, fun b v hv => ?_, fun b es hes => ?_⟩
    · by_cases hb : b = a
      · subst hb
        have := hp1 b v hv
        rw [hgo] at this; simp at this
      · rw [get_set_ne hb]; exact hp1 b v hv
    · by_cases hb : b = a
      · subst hb
        exact ⟨l, get_set_self hgo _, hl es (by rw [ho]; exact hes)⟩
      · rw [get_set_ne hb]; exact hl1 b es hes
  · exact ⟨o1, by rw [hset_ne hx]; exact ho1, hc1, hp1, hl1⟩

theorem Ext.keep {st st' : St} (h : Ext st st') : Keep st.1 st'.1 := by
  intro x o ho
  exact ⟨o, by rw [h.same x (List.getElem?_eq_some_iff.1 ho).1]; exact ho, rfl, fun _ _ h => h,
    fun _ es h => ⟨es, h, fun _ h => h⟩⟩

def RecKeep (recur : St → Ref → Ref → Py St) : Prop :=
  ∀ (st : St) (r1 r2 : Ref) (st' : St), ElemsNameless st.1 → recur st r1 r2 = .ok st' → Keep st.1 st'.1

theorem mergeList_keep {cpy : St → Ref → Py (St × Ref)} {recur : St → Ref → Ref → Py St} (hc : CpyOk cpy)
    (hrec : RecOk recur) (hkeep : RecKeep recur) (st : St) (r1 r2 : Ref) (a : String)
    (list1 list2 : Option (List Elem)) (st' : St)
    (he : ElemsNameless st.1) (hg1 : (st.1[r1]?).bind (·.get a) = some (.list list1))
    (hg2 : (st.1[r2]?).bind (·.get a) = some (.list list2))
    (h : mergeList cpy recur st r1 r2 a list1 list2 = .ok st') : Keep st.1 st'.1 := by
  have hcopy : ∀ l2, list2 = some l2 → (∀ e l, list1 ≠ some (e :: l)) → copyInto cpy st r1 a l2 = .ok st' →
      Keep st.1 st'.1 := by
    intro l2 hl2 hno hci
    clear h
    subst hl2
    unfold copyInto at hci
    split at hci
    · simp at hci
    · rename_i st1 l hca
      simp only [Except.ok.injEq] at hci
      subst hci
      obtain ⟨f, n, e⟩ := hc l2 st st1 l he (fun c hc => he r2 c (listElem_of_get hg2 hc)) hca
      obtain ⟨w', hw'⟩ := (f r1).get_list hg1
      refine e.keep.hset_list hw' (fun es hes => ?_)
      rw [hg1] at hes
      simp only [Option.some.injEq, AttrVal.list.injEq] at hes
      cases es with
      | nil => simp
      | cons x xs => exact absurd hes (hno x xs)
  have hrecJ : ∀ (h0 : Heap) (s : St) (e1 e2 : Elem) (s' : St), (Frame r1 h0 s.1 ∧ Keep h0 s.1) →
      (∀ c, e1 = .ref c → nameOf h0 c = none) → recurElem recur s e1 e2 = .ok s' →
      Frame r1 h0 s'.1 ∧ Keep h0 s'.1 := by
    intro h0 s e1 e2 s' hJ h1 h
    refine ⟨recurElem_frame hrec h0 r1 s e1 e2 s' hJ.1 h1 h, ?_⟩
    unfold recurElem at h
    cases e2 with
    | raw k s => simp at h
    | ref c2 =>
      cases e1 with
      | raw k s => simp at h
      | ref c1 => exact hJ.2.trans (hkeep s c1 c2 s' hJ.1.elems h)
  unfold mergeList at h
  split at h
  · simp at h
  · simp at h
  · simp only [Except.ok.injEq] at h; subst h; exact Keep.refl _
  · simp only [Except.ok.injEq] at h; subst h; exact Keep.refl _
  · rename_i e1 l1 e2 l2
    have hn1 : ∀ c, .ref c ∈ e1 :: l1 → nameOf st.1 c = none := fun c hc => he r1 c (listElem_of_get hg1 hc)
    have hn2 : ∀ c, .ref c ∈ e2 :: l2 → nameOf st.1 c = none := fun c hc => he r2 c (listElem_of_get hg2 hc)
    split at h
    · split at h
      · simp at h
      · rename_i s1 hs1
        split at h
        · simp at h
        · rename_i s2 hs2
          have hp1 := sortByPhase_perm hs1
          have hp2 := sortByPhase_perm hs2
          have f1 : Frame r1 st.1 (hset st.1 r1 a (.list (some s1))) :=
            Frame.hset_list r1 he hg1 (fun c hc => hn1 c (hp1.mem_iff.1 hc))
          obtain ⟨w2, hw2⟩ := f1.get_list hg2
          have f2 := f1.trans (Frame.hset_list r1 f1.elems (l := s2) hw2
            (fun c hc => (f1.nameOf_iff c).2 (hn2 c (hp2.mem_iff.1 hc))))
          have k1 : Keep st.1 (hset st.1 r1 a (.list (some s1))) :=
            (Keep.refl _).hset_list hg1 (fun es hes e he => by
              rw [hg1] at hes
              simp only [Option.some.injEq, AttrVal.list.injEq] at hes
              subst hes
              exact hp1.mem_iff.2 he)
          have k2 := k1.hset_list (l := s2) hw2 (fun es hes e he => by
              rw [hg2] at hes
              simp only [Option.some.injEq, AttrVal.list.injEq] at hes
              subst hes
              exact hp2.mem_iff.2 he)
          simp only at h
          split at h
          · simp at h
          · rename_i st1 l hl
            simp only [Except.ok.injEq] at h
            subst h
            obtain ⟨⟨fJ, kJ⟩, ex, hlx, hex⟩ := phaseLoop_inv (fun s => Frame r1 st.1 s.1 ∧ Keep st.1 s.1)
              (fun e => ∀ c, e = .ref c → nameOf st.1 c = none)
              (fun s e1 e2 s' hJ h1 _ h => hrecJ st.1 s e1 e2 s' hJ h1 h)
              _ _ s1 0 s2 st1 l ⟨f2, k2⟩ (fun e he c hc => hn1 c (hp1.mem_iff.1 (hc ▸ he)))
              (fun e he c hc => hn2 c (hp2.mem_iff.1 (hc ▸ he))) hl
            obtain ⟨w', hw'⟩ := fJ.get_list hg1
            refine kJ.hset_list hw' (fun es hes e he => ?_)
            rw [hg1] at hes
            simp only [Option.some.injEq, AttrVal.list.injEq] at hes
            subst hes
            rw [hlx]
            exact List.mem_append_left _ (hp1.mem_iff.2 he)
    · split at h
      · simp at h
      · rename_i st1 l hl
        simp only [Except.ok.injEq] at h
        subst h
        obtain ⟨⟨fJ, kJ⟩, ex, hlx, hex⟩ := zipLoop_inv (fun s => Frame r1 st.1 s.1 ∧ Keep st.1 s.1)
          (fun e => ∀ c, e = .ref c → nameOf st.1 c = none)
          (fun s e1 e2 s' hJ h1 _ h => hrecJ st.1 s e1 e2 s' hJ h1 h)
          _ (e1 :: l1) (e2 :: l2) st1 l ⟨Frame.refl r1 he, Keep.refl _⟩ (fun e he c hc => hn1 c (hc ▸ he))
          (fun e he c hc => hn2 c (hc ▸ he)) hl
        obtain ⟨w', hw'⟩ := fJ.get_list hg1
        refine kJ.hset_list hw' (fun es hes e he => ?_)
        rw [hg1] at hes
        simp only [Option.some.injEq, AttrVal.list.injEq] at hes
        subst hes
        rw [hlx]
        exact List.mem_append_left _ he
  · rename_i l2 h5 h6
    exact hcopy l2 rfl (by
      intro e l hl
      cases l2 with
      | nil => exact h5 e l hl rfl
      | cons e2 l2 => exact h6 e l e2 l2 hl rfl) h

theorem setAttr_keep {cpy : St → Ref → Py (St × Ref)} {recur : St → Ref → Ref → Py St} (hc : CpyOk cpy)
    (hrec : RecOk recur) (hkeep : RecKeep recur) (r1 r2 : Ref) (st : St) (a : String) (st' : St)
    (he : ElemsNameless st.1) (h : setAttr cpy recur false r1 r2 st a = .ok st') : Keep st.1 st'.1 := by
  unfold setAttr at h
  split at h
  · simp at h
  · rename_i list2 list1 hg2 hg1
    exact mergeList_keep hc hrec hkeep st r1 r2 a list1 list2 st' he hg1 hg2 h
  · simp at h
  · simp at h
  · simp only [Except.ok.injEq] at h; subst h; exact Keep.refl _
  · simp at h
  · rename_i v2 v1 hg2 hg1
    split at h
    · simp only [Except.ok.injEq] at h; subst h; exact Keep.refl _
    · rename_i hcond
      simp only [Except.ok.injEq] at h; subst h
      cases v1 with
      | some v => simp at hcond
      | none =>
        obtain ⟨o1, ho1, hgo⟩ := get_bind hg1
        intro x o ho
        by_cases hx : x = r1
        · subst hx
          rw [ho1] at ho; cases ho
          refine ⟨_, hset_self ho1 _ _, rfl, fun b v hv => ?_, fun b es hes => ?_⟩
          · by_cases hb : b = a
            · subst hb; rw [hgo] at hv; simp at hv
            · rw [get_set_ne hb]; exact hv
          · by_cases hb : b = a
            · subst hb; rw [hgo] at hes; simp at hes
            · rw [get_set_ne hb]; exact ⟨es, hes, fun _ h => h⟩
        · exact ⟨o, by simp only; rw [hset_ne hx]; exact ho, rfl, fun _ _ h => h, fun _ es h => ⟨es, h, fun _ h => h⟩⟩
  · split at h
    · simp only [Except.ok.injEq] at h; subst h; exact Keep.refl _
    · simp at h

theorem setAttributes_keep (fuel : Nat) : RecKeep (setAttributes false fuel) := by
  induction fuel with
  | zero => intro st r1 r2 st' _ h; simp [setAttributes] at h
  | succ fuel ih =>
    intro st r1 r2 st' he h
    unfold setAttributes at h
    split at h
    · simp at h
    · refine (foldlM_inv (fun s : St => Frame r1 st.1 s.1 ∧ Keep st.1 s.1) _ ?_ ⟨Frame.refl r1 he, Keep.refl _⟩ h).2
      intro b a b' _ hf hs
      exact ⟨hf.1.trans (setAttr_frame (cpyOk_copy fuel) (setAttributes_frame false fuel) false r1 r2 b a b' hf.1.elems hs),
        hf.2.trans (setAttr_keep (cpyOk_copy fuel) (setAttributes_frame false fuel) ih r1 r2 b a b' hf.1.elems hs)⟩

end Ditto.Heap
