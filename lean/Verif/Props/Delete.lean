import Verif.Spec.Ownership
import Verif.Lemmas.Fold
import Verif.Props.Store

/-! C09, C10: deletion. -/
namespace Ditto.Heap
open Ditto

/-- `ms'` is `ms` without the elements of `S`, in the same order, and all of `S` was in `ms`. -/
def Del (ms ms' : List Ref) (S : Ref → Prop) : Prop :=
  ms'.Sublist ms ∧ (∀ x, x ∈ ms' ↔ x ∈ ms ∧ ¬ S x) ∧ ∀ x, S x → x ∈ ms

theorem Del.congr {ms ms' : List Ref} {S S' : Ref → Prop} (h : Del ms ms' S) (e : ∀ x, S x ↔ S' x) :
    Del ms ms' S' :=
  ⟨h.1, fun x => by rw [h.2.1, e], fun x hx => h.2.2 x ((e x).2 hx)⟩

theorem Del.refl (ms : List Ref) : Del ms ms (fun _ => False) := ⟨List.Sublist.refl _, by simp, by simp⟩

theorem Del.trans {a b c : List Ref} {S T : Ref → Prop} (h1 : Del a b S) (h2 : Del b c T) :
    Del a c (fun x => S x ∨ T x) := by
  refine ⟨h2.1.trans h1.1, fun x => ?_, fun x hx => ?_⟩
  · rw [h2.2.1, h1.2.1]; simp only [not_or]; exact and_assoc
  · rcases hx with hx | hx
    · exact h1.2.2 x hx
    · exact h1.1.subset (h2.2.2 x hx)

theorem fold_del {α : Type} (f : List Ref → α → Py (List Ref)) (P : α → Ref → Prop)
    (hf : ∀ ms a ms', ms.Nodup → f ms a = .ok ms' → Del ms ms' (P a)) (l : List α) (ms ms' : List Ref)
    (hn : ms.Nodup) (h : l.foldlM f ms = .ok ms') : Del ms ms' (fun x => ∃ a ∈ l, P a x) := by
  induction l generalizing ms with
  | nil => rw [foldlM_nil_ok h]; exact (Del.refl ms).congr (by simp)
  | cons a l ih =>
    obtain ⟨m1, h1, h2⟩ := foldlM_cons_ok h
    have d1 := hf ms a m1 hn h1
    have d2 := ih m1 (hn.sublist d1.1) h2
    exact (d1.trans d2).congr (by simp)

theorem owned_iff (h : Heap) (r x : Ref) : Owned h r x ↔ x = r ∨ ∃ c, Child h r c ∧ Owned h c x := by
  unfold Owned
  rw [Relation.ReflTransGen.cases_head_iff]
  constructor
  · rintro (rfl | h)
    · exact .inl rfl
    · exact .inr h
  · rintro (rfl | h)
    · exact .inl rfl
    · exact .inr h

theorem removeElement_del {ms ms' : List Ref} {r : Ref} (hn : ms.Nodup) (h : removeElement ms r = .ok ms') :
    Del ms ms' (fun x => x = r) := by
  unfold removeElement at h
  split at h
  · rename_i hr
    simp at h; subst h
    refine ⟨List.erase_sublist, fun x => ?_, fun x hx => by rw [hx]; exact hr⟩
    rw [hn.mem_erase_iff]; exact and_comm
  · simp at h

theorem deleteElement_del (h : Heap) (fuel : Nat) (ms ms' : List Ref) (r : Ref) (hn : ms.Nodup)
    (hd : deleteElement h fuel ms r = .ok ms') : Del ms ms' (Owned h r) := by
  induction fuel generalizing ms ms' r with
  | zero => simp [deleteElement] at hd
  | succ fuel ih =>
    unfold deleteElement at hd
    cases ho : h[r]? with
    | none => rw [ho] at hd; simp at hd
    | some o =>
      rw [ho] at hd
      simp only at hd
      cases hf : o.attrs.foldlM (deleteAttr (deleteElement h fuel)) ms with
      | error e => rw [hf] at hd; simp at hd
      | ok m1 =>
        rw [hf] at hd
        simp only at hd
        have d1 := fold_del _ (fun av x => ∃ es c, av.2 = .list (some es) ∧ special av.1 = false ∧ .ref c ∈ es ∧
            Owned h c x) (by
          intro ms av ms' hn hav
          unfold deleteAttr at hav
          split at hav
          · rename_i hp; simp at hav; subst hav
            exact (Del.refl ms).congr (by simp [hp])
          · rename_i hp; simp at hav; subst hav
            exact (Del.refl ms).congr (by simp [hp])
          · rename_i es hp
            split at hav
            · rename_i hs
              simp at hav; subst hav
              exact (Del.refl ms).congr (by simp [hs])
            · rename_i hs
              have := fold_del _ (fun e x => ∃ c, e = .ref c ∧ Owned h c x) (by
                intro ms e ms' hn he
                cases e with
                | raw k s => simp [deleteElem] at he
                | ref c => exact (ih ms ms' c hn he).congr (by simp)) es ms ms' hn hav
              refine this.congr fun x => ?_
              rw [hp]
              constructor
              · rintro ⟨e, he, c, rfl, hx⟩; exact ⟨es, c, rfl, by simpa using hs, he, hx⟩
              · rintro ⟨es', c, e, _, hc, hx⟩
                simp at e; subst e
                exact ⟨_, hc, c, rfl, hx⟩) _ _ _ hn hf
        have d2 := removeElement_del (hn.sublist d1.1) hd
        refine (d1.trans d2).congr fun x => ?_
        rw [owned_iff]
        constructor
        · rintro (⟨⟨a, v⟩, hav, es, c, hv, hs, hc, hx⟩ | rfl)
          · right
            simp only at hv; subst hv
            exact ⟨c, ⟨o, a, es, ho, hav, hs, hc⟩, hx⟩
          · left; rfl
        · rintro (rfl | ⟨c, ⟨o', a, es, ho', hav, hs, hc⟩, hx⟩)
          · right; rfl
          · left
            rw [ho] at ho'; cases ho'
            exact ⟨_, hav, es, c, rfl, hs, hc, hx⟩

/-- C09: if `delete_element` returns, exactly the object and the objects reachable through its object lists were
removed from the store, and the others kept their order. (No attribute of any object is changed: the heap is only
read.) -/
theorem C09_exact (h : Heap) (limit : Nat) (ms ms' : List Ref) (r : Ref) (hn : ms.Nodup)
    (hd : deleteElement h limit ms r = .ok ms') :
    ms'.Sublist ms ∧ ∀ x, x ∈ ms' ↔ x ∈ ms ∧ ¬ Owned h r x :=
  ⟨(deleteElement_del h limit ms ms' r hn hd).1, (deleteElement_del h limit ms ms' r hn hd).2.1⟩

/-- C09: if `delete_element` returns, all sub-objects were in the store. -/
theorem C09_needs_members (h : Heap) (limit : Nat) (ms ms' : List Ref) (r : Ref) (hn : ms.Nodup)
    (hd : deleteElement h limit ms r = .ok ms') : ∀ x, Owned h r x → x ∈ ms :=
  (deleteElement_del h limit ms ms' r hn hd).2.2

theorem child_iff_children (h : Heap) (r c : Ref) :
    Child h r c ↔ ∃ o, h[r]? = some o ∧ .ref c ∈ children o := by
  constructor
  · rintro ⟨o, a, es, ho, hav, hs, hc⟩
    exact ⟨o, ho, List.mem_flatMap.2 ⟨_, hav, by simp [hs, hc]⟩⟩
  · rintro ⟨o, ho, hc⟩
    obtain ⟨⟨a, v⟩, hav, hm⟩ := List.mem_flatMap.1 hc
    cases v with
    | plain v => simp at hm
    | list v =>
      cases v with
      | none => simp at hm
      | some es =>
        by_cases hs : special a = true
        · simp [hs] at hm
        · simp only [hs] at hm
          exact ⟨o, a, es, ho, hav, by simpa using hs, by simpa using hm⟩

/-- the loop over the attributes is a loop over the children -/
theorem fold_attrs_eq (recur : List Ref → Ref → Py (List Ref)) (o : Obj) (ms : List Ref) :
    o.attrs.foldlM (deleteAttr recur) ms = (children o).foldlM (deleteElem recur) ms := by
  obtain ⟨cls, attrs⟩ := o
  induction attrs generalizing ms with
  | nil => rfl
  | cons av attrs ih =>
    have hc : children ⟨cls, av :: attrs⟩ = (match av.2 with
        | .list (some es) => if special av.1 then [] else es
        | _ => []) ++ children ⟨cls, attrs⟩ := rfl
    rw [hc]
    simp only
    rw [List.foldlM_cons, List.foldlM_append]
    simp only at ih
    obtain ⟨a, v⟩ := av
    cases v with
    | plain v => simp [deleteAttr, bind, Except.bind, ih, pure, Except.pure]
    | list v =>
      cases v with
      | none => simp [deleteAttr, bind, Except.bind, ih, pure, Except.pure]
      | some es =>
        by_cases hs : special a = true
        · simp [deleteAttr, bind, Except.bind, ih, hs, pure, Except.pure]
        · simp only [deleteAttr, hs, bind]
          congr 1
          funext ms; exact ih ms

theorem owned_chain {h : Heap} (hu : ∀ r r' c, Child h r c → Child h r' c → r = r') {a b x : Ref}
    (ha : Owned h a x) (hb : Owned h b x) : Owned h a b ∨ Owned h b a := by
  unfold Owned at *
  induction ha with
  | refl => exact .inr hb
  | tail hay hyx ih =>
    rcases Relation.ReflTransGen.cases_tail hb with rfl | ⟨y', hby', hy'x⟩
    · exact .inl (hay.tail hyx)
    · have := hu _ _ _ hyx hy'x
      subst this
      exact ih hby'

private theorem rank_owned {h : Heap} {rank : Ref → Nat} (hr : ∀ r c, Child h r c → rank c < rank r) {a b : Ref}
    (ho : Owned h a b) : rank b ≤ rank a := by
  unfold Owned at ho
  induction ho with
  | refl => exact Nat.le_refl _
  | tail _ hc ih => exact Nat.le_trans (Nat.le_of_lt (hr _ _ hc)) ih

/-- Siblings own disjoint sets of objects. -/
private theorem siblings_disjoint {h : Heap} {limit : Nat} (F : Forest h limit) {r a b x : Ref}
    (ha : Child h r a) (hb : Child h r b) (hne : a ≠ b) (hax : Owned h a x) (hbx : Owned h b x) : False := by
  obtain ⟨rank, hr, -⟩ := F.rank
  have key : ∀ a b, Child h r a → Child h r b → a ≠ b → ¬ Owned h a b := by
    intro a b ha hb hne hab
    rcases Relation.ReflTransGen.cases_tail hab with rfl | ⟨y, hay, hyb⟩
    · exact hne rfl
    · have := F.unique _ _ _ hyb hb
      subst this
      have h1 := rank_owned hr hay
      have h2 := hr _ _ ha
      omega
  rcases owned_chain F.unique hax hbx with h1 | h1
  · exact key a b ha hb hne h1
  · exact key b a hb ha (Ne.symm hne) h1

/-- C09: on a store as the readers build it, `delete_element` never raises. -/
theorem C09_succeeds (h : Heap) (limit : Nat) (F : Forest h limit) (ms : List Ref) (r : Ref) (o : Obj)
    (ho : h[r]? = some o) (hn : ms.Nodup) (hin : ∀ x, Owned h r x → x ∈ ms) :
    ∃ ms', deleteElement h limit ms r = .ok ms' := by
  obtain ⟨rank, hr, hlim⟩ := F.rank
  have main : ∀ fuel ms (r : Ref) o, h[r]? = some o → ms.Nodup → rank r < fuel → (∀ x, Owned h r x → x ∈ ms) →
      ∃ ms', deleteElement h fuel ms r = .ok ms' := by
    intro fuel
    induction fuel with
    | zero => intro _ _ _ _ _ hk; omega
    | succ fuel ih =>
      intro ms r o ho hn hk hin
      have loop : ∀ (l : List Elem) (ms : List Ref), ms.Nodup → l.Nodup → (∀ e ∈ l, e ∈ children o) →
          (∀ c x, .ref c ∈ l → Owned h c x → x ∈ ms) →
          ∃ ms', l.foldlM (deleteElem (deleteElement h fuel)) ms = .ok ms' := by
        intro l
        induction l with
        | nil => intro ms _ _ _ _; exact ⟨ms, rfl⟩
        | cons e l ihl =>
          intro ms hn hnl hsub hown
          obtain ⟨c, oc, rfl, hoc⟩ := F.typed r o e ho (hsub e (by simp))
          have hchild : Child h r c := (child_iff_children h r c).2 ⟨o, ho, hsub _ (by simp)⟩
          obtain ⟨m1, h1⟩ := ih ms c oc hoc hn (by have := hr r c hchild; omega)
            (fun x hx => hown c x (by simp) hx)
          have d := deleteElement_del h fuel ms m1 c hn h1
          obtain ⟨m2, h2⟩ := ihl m1 (hn.sublist d.1) (List.nodup_cons.1 hnl).2
            (fun e he => hsub e (by simp [he])) (by
              intro c' x hc' hx
              rw [d.2.1]
              refine ⟨hown c' x (by simp [hc']) hx, fun hx' => ?_⟩
              have hchild' : Child h r c' := (child_iff_children h r c').2 ⟨o, ho, hsub _ (by simp [hc'])⟩
              refine siblings_disjoint F hchild hchild' ?_ hx' hx
              rintro rfl
              exact (List.nodup_cons.1 hnl).1 hc')
          exact ⟨m2, foldlM_cons_intro h1 h2⟩
      obtain ⟨m1, h1⟩ := loop (children o) ms hn (F.nodup r o ho) (fun _ h => h) (by
        intro c x hc hx
        apply hin
        rw [owned_iff]
        exact .inr ⟨c, (child_iff_children h r c).2 ⟨o, ho, hc⟩, hx⟩)
      have d := fold_del _ (fun e x => ∃ c, e = .ref c ∧ Owned h c x) (by
                intro ms e ms' hn he
                cases e with
                | raw k s => simp [deleteElem] at he
                | ref c => exact (deleteElement_del h fuel ms ms' c hn he).congr (by simp)) _ _ _ hn h1
      have hrm : r ∈ m1 := by
        rw [d.2.1]
        refine ⟨hin r Relation.ReflTransGen.refl, ?_⟩
        rintro ⟨e, he, c, rfl, hx⟩
        have h1 := hr r c ((child_iff_children h r c).2 ⟨o, ho, he⟩)
        have h2 := rank_owned hr hx
        omega
      refine ⟨m1.erase r, ?_⟩
      unfold deleteElement
      rw [ho]
      simp only
      rw [fold_attrs_eq]
      rw [h1]
      simp [removeElement, hrm]
  exact main limit ms r o ho hn (hlim r) hin

/-- A line with two wires and a matrix, and another line. -/
def exLine : Heap := [⟨"Line", [("name", .plain (some (.str "l1"))), ("wires", .list (some [.ref 1, .ref 2])),
    ("impedance_matrix", .list (some [.raw .row "[1j]"]))]⟩,
  ⟨"Wire", [("phase", .plain (some (.str "A")))]⟩, ⟨"Wire", [("phase", .plain (some (.str "B")))]⟩,
  ⟨"Line", [("name", .plain (some (.str "l2"))), ("wires", .list (some []))]⟩]

example : Forest exLine 1000 ∧ deleteElement exLine 1000 [0, 1, 2, 3] 0 = .ok [3] := by
  have hchild : ∀ r c, Child exLine r c → r = 0 ∧ (c = 1 ∨ c = 2) := by
    intro r c hc
    obtain ⟨o, ho, hm⟩ := (child_iff_children _ r c).1 hc
    rcases r with _ | _ | _ | _ | r <;> simp [exLine] at ho <;> subst ho <;> simp [children, special] at hm
    exact ⟨rfl, hm⟩
  refine ⟨⟨?_, ?_, ?_, ⟨fun r => if r = 0 then 1 else 0, ?_, ?_⟩⟩, by decide⟩
  · intro r o e ho he
    rcases r with _ | _ | _ | _ | r <;> simp [exLine] at ho <;> subst ho <;> simp [children, special] at he
    rcases he with rfl | rfl
    · exact ⟨1, _, rfl, rfl⟩
    · exact ⟨2, _, rfl, rfl⟩
  · intro r o ho
    rcases r with _ | _ | _ | _ | r <;> simp [exLine] at ho <;> subst ho <;> simp [children, special]
  · intro r r' c h1 h2; rw [(hchild _ _ h1).1, (hchild _ _ h2).1]
  · intro r c h1
    obtain ⟨rfl, rfl | rfl⟩ := hchild r c h1 <;> decide
  · intro r; simp only; split <;> omega

/-! ### C10 -/

theorem deleteStep_del {fuel : Nat} {h : Heap} {names : Names} {ms ms' : List Ref} {kr : Option Atom × Ref}
    (hn : ms.Nodup) (hd : deleteStep fuel h names ms kr = .ok ms') :
    Del ms ms' (fun x => ∃ r1, names.lookup kr.1 = some r1 ∧ Owned h r1 x) := by
  unfold deleteStep at hd
  cases hl : names.lookup kr.1 with
  | none => rw [hl] at hd; simp at hd; subst hd; exact (Del.refl ms).congr (by simp)
  | some r1 =>
    rw [hl] at hd
    simp only at hd
    split at hd
    · simp at hd
    · exact (deleteElement_del h fuel ms ms' r1 hn hd).congr (by simp)

theorem mem_names_iff (h : Heap) (s : Store) (k : Option Atom) :
    (∃ r, (k, r) ∈ (setNames h s).names) ↔ ∃ r ∈ s.models, nameOf h r = some k := by
  have h1 : ∀ (d : Names) (k : Option Atom), (∃ r, (k, r) ∈ d) ↔ d.lookup k ≠ none := by
    intro d k
    induction d with
    | nil => simp
    | cons x d ih =>
      obtain ⟨k', r'⟩ := x
      by_cases hk : k = k'
      · subst hk
        simp only [List.mem_cons, List.lookup, beq_self_eq_true, ne_eq, reduceCtorEq, not_false_eq_true, iff_true]
        exact ⟨r', .inl rfl⟩
      · have : (k == k') = false := by simpa using hk
        simp only [List.mem_cons, List.lookup, this, ← ih, Prod.mk.injEq, hk, false_and, false_or]
  rw [h1]
  have h2 := C07_keyError h s k
  unfold Store.getItem at h2
  cases hl : (setNames h s).names.lookup k with
  | none => rw [hl] at h2; simp only [true_iff] at h2; simpa using h2
  | some r =>
    rw [hl] at h2
    simp only [reduceCtorEq, false_iff, not_forall, not_not] at h2
    obtain ⟨r, hr, hk⟩ := h2
    simp only [ne_eq, reduceCtorEq, not_false_eq_true, true_iff]
    exact ⟨r, hr, hk⟩

/-- C10: what `delete` removes: the last object with each name occurring in `model_2`, with its sub-objects. All
others are kept, in order. -/
theorem C10_exact (fuel : Nat) (h : Heap) (s1 s2 s' : Store) (hn : s1.models.Nodup)
    (hd : delete fuel h s1 s2 = .ok s') :
    s'.models.Sublist s1.models ∧ ∀ x, x ∈ s'.models ↔ x ∈ s1.models ∧
      ¬ ∃ k r1, (∃ r2 ∈ s2.models, nameOf h r2 = some k) ∧ IsLastNamed h s1.models k r1 ∧ Owned h r1 x := by
  unfold delete at hd
  cases hf : (setNames h s2).names.foldlM (deleteStep fuel h (setNames h s1).names) s1.models with
  | error e => rw [hf] at hd; simp at hd
  | ok ms =>
    rw [hf] at hd; simp at hd; subst hd
    have d := fold_del _ _ (fun ms a ms' hn hd => deleteStep_del hn hd) _ _ _ hn hf
    simp only [setNames]
    refine ⟨d.1, fun x => ?_⟩
    rw [d.2.1]
    apply and_congr_right
    intro _
    apply not_congr
    constructor
    · rintro ⟨⟨k, r2⟩, hk, r1, hl, ho⟩
      refine ⟨k, r1, (mem_names_iff h s2 k).1 ⟨r2, hk⟩, ?_, ho⟩
      rw [← C07_lookup_last, Store.getItem, hl]
    · rintro ⟨k, r1, hk, hl, ho⟩
      obtain ⟨r2, hr2⟩ := (mem_names_iff h s2 k).2 hk
      refine ⟨(k, r2), hr2, r1, ?_, ho⟩
      rw [← C07_lookup_last, Store.getItem] at hl
      cases hl' : (setNames h s1).names.lookup k with
      | none => rw [hl'] at hl; simp at hl
      | some r => rw [hl'] at hl; simp at hl; simp [hl]

/-- C10, the part that holds: if the names in `model_1` are pairwise distinct, no object of the result has a name
occurring in `model_2`. (Missing: duplicate names, see `C10_duplicates_violated`.) -/
theorem C10_names_gone_partial (fuel : Nat) (h : Heap) (s1 s2 s' : Store) (hn : s1.models.Nodup)
    (hdist : ∀ r ∈ s1.models, ∀ r' ∈ s1.models, ∀ k, nameOf h r = some k → nameOf h r' = some k → r = r')
    (hd : delete fuel h s1 s2 = .ok s') :
    ∀ x ∈ s'.models, ∀ y ∈ s2.models, ∀ k, nameOf h x = some k → nameOf h y ≠ some k := by
  intro x hx y hy k hxk hyk
  have := (C10_exact fuel h s1 s2 s' hn hd).2 x
  rw [this] at hx
  apply hx.2
  refine ⟨k, x, ⟨y, hy, hyk⟩, ?_, Relation.ReflTransGen.refl⟩
  rw [← C07_lookup_last]
  exact (C07_all_retrievable_iff_distinct h s1).2 hdist x hx.1 k hxk

/-- C10 is violated for duplicate names: only the last of two lines named "l1" is deleted. -/
theorem C10_duplicates_violated :
    ∃ (h : Heap) (s1 s2 s' : Store), s1.models.Nodup ∧ delete 1000 h s1 s2 = .ok s' ∧
      ∃ x ∈ s'.models, ∃ y ∈ s2.models, ∃ k, nameOf h x = some (some k) ∧ nameOf h y = some (some k) :=
  let l : Obj := ⟨"Line", [("name", .plain (some (.str "l1")))]⟩
  ⟨[l, l, l], ⟨[0, 1], []⟩, ⟨[2], []⟩, ⟨[0], [(some (.str "l1"), 0)]⟩, by decide, by decide +kernel, 0, by decide, 2,
    by decide, .str "l1", by decide, by decide⟩

example : ∃ s', delete 1000 (exLine ++ [⟨"Line", [("name", .plain (some (.str "l1")))]⟩]) ⟨[0, 1, 2, 3], []⟩ ⟨[4], []⟩ =
    .ok s' ∧ s'.models = [3] := ⟨_, by rfl, by decide⟩

end Ditto.Heap
