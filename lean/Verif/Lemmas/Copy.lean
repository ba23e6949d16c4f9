import Verif.Spec.SameObj
import Verif.Lemmas.Fold
import Mathlib.Data.List.Forall2
import Mathlib.Data.List.Range
import Mathlib.Data.List.GetD

namespace Ditto.Heap
open Ditto

theorem AttrRel.imp {R S : Ref → Ref → Prop} (hRS : ∀ c c', R c c' → S c c') {av av' : String × AttrVal}
    (h : AttrRel R av av') : AttrRel S av av' := by
  obtain ⟨ha, hv⟩ := h
  refine ⟨ha, ?_⟩
  obtain ⟨a, v⟩ := av
  obtain ⟨a', v'⟩ := av'
  rcases v with v | _ | es <;> rcases v' with v' | _ | es' <;> simp only at hv ⊢ <;> try exact hv
  split at hv
  · rename_i hsp; rw [if_pos hsp]; exact hv
  · rename_i hsp
    rw [if_neg hsp]
    refine hv.imp ?_
    rintro e e' ⟨c, c', he, he', hs⟩
    exact ⟨c, c', he, he', hRS _ _ hs⟩

theorem SameObj.mono {h h' h'' : Heap} {lo lo' n : Nat} {r r' : Ref} (hs : SameObj h h' lo n r r')
    (hlo : lo' ≤ lo) (hag : ∀ i : Nat, lo ≤ i → i < h'.length → h''[i]? = h'[i]?) : SameObj h h'' lo' n r r' := by
  induction n generalizing r r' with
  | zero => exact hs
  | succ n ih =>
    obtain ⟨o, o', ho, ho', hlo', hc, hf⟩ := hs
    refine ⟨o, o', ho, by rw [hag r' hlo' (List.getElem?_eq_some_iff.1 ho').1]; exact ho',
      Nat.le_trans hlo hlo', hc, hf.imp fun _ _ => AttrRel.imp fun _ _ hs => ih hs⟩

theorem SameObj.succ {h h' : Heap} {lo n : Nat} {r r' : Ref} (hs : SameObj h h' lo n r r') :
    SameObj h h' lo (n+1) r r' := by
  induction n generalizing r r' with
  | zero => exact hs.elim
  | succ n ih =>
    obtain ⟨o, o', ho, ho', hlo', hc, hf⟩ := hs
    exact ⟨o, o', ho, ho', hlo', hc, hf.imp fun _ _ => AttrRel.imp fun _ _ hs => ih hs⟩

theorem SameObj.lo_le {h h' : Heap} {lo n : Nat} {r r' : Ref} (hs : SameObj h h' lo n r r') : lo ≤ r' := by
  cases n with
  | zero => exact hs.elim
  | succ n => obtain ⟨_, _, _, _, hlo, _⟩ := hs; exact hlo

theorem SameObj.child {h h' : Heap} {lo n : Nat} {r r' c' : Ref} (hs : SameObj h h' lo n r r')
    (hc : Child h' r' c') : ∃ m c, SameObj h h' lo m c c' := by
  cases n with
  | zero => exact hs.elim
  | succ n =>
    obtain ⟨o, o', ho, ho', hlo', hcl, hf⟩ := hs
    obtain ⟨o2, a, es', ho2, hav, hsp, hm⟩ := hc
    rw [ho'] at ho2; cases ho2
    obtain ⟨i, hi, hget⟩ := List.mem_iff_getElem.1 hav
    have hl := hf.length_eq
    have hrel := List.Forall₂.get hf (i := i) (by omega) hi
    simp only [List.get_eq_getElem, hget] at hrel
    obtain ⟨ha, hv⟩ := hrel
    generalize hav0 : o.attrs[i] = av0 at *
    obtain ⟨a0, v0⟩ := av0
    simp only at ha; subst ha
    cases v0 with
    | plain v => simp at hv
    | list v =>
      cases v with
      | none => simp at hv
      | some es =>
        simp only [hsp] at hv
        rw [if_neg (by simp)] at hv
        obtain ⟨j, hj, hgj⟩ := List.mem_iff_getElem.1 hm
        have hl2 := hv.length_eq
        have hrel := List.Forall₂.get hv (i := j) (by omega) hj
        simp only [List.get_eq_getElem, hgj] at hrel
        obtain ⟨c, c1, _, he', hs⟩ := hrel
        cases he'
        exact ⟨n, c, hs⟩

theorem SameObj.owned_lo {h h' : Heap} {lo n : Nat} {r r' x : Ref} (hs : SameObj h h' lo n r r')
    (ho : Owned h' r' x) : lo ≤ x := by
  have : ∃ m c, SameObj h h' lo m c x := by
    unfold Owned at ho
    induction ho with
    | refl => exact ⟨n, r, hs⟩
    | tail _ hc ih =>
      obtain ⟨m, c, hm⟩ := ih
      exact hm.child hc
  obtain ⟨m, c, hm⟩ := this
  exact hm.lo_le

/-- `st'` extends `st`: the old objects are unchanged, and the new objects are in the store in order of creation. -/
structure Ext (st st' : St) : Prop where
  le : st.1.length ≤ st'.1.length
  same : ∀ i : Nat, i < st.1.length → st'.1[i]? = st.1[i]?
  models : st'.2 = st.2 ++ List.range' st.1.length (st'.1.length - st.1.length)

theorem Ext.refl (st : St) : Ext st st := ⟨Nat.le_refl _, fun _ _ => rfl, by simp⟩

theorem Ext.trans {a b c : St} (h1 : Ext a b) (h2 : Ext b c) : Ext a c := by
  refine ⟨Nat.le_trans h1.le h2.le, fun i hi => ?_, ?_⟩
  · rw [h2.same i (Nat.lt_of_lt_of_le hi h1.le), h1.same i hi]
  · rw [h2.models, h1.models, List.append_assoc]
    congr 1
    have e1 := h1.le
    have e2 := h2.le
    have : b.1.length = a.1.length + 1 * (b.1.length - a.1.length) := by omega
    conv_lhs => rw [show List.range' b.1.length (c.1.length - b.1.length) =
      List.range' (a.1.length + 1 * (b.1.length - a.1.length)) (c.1.length - b.1.length) by rw [← this]]
    rw [List.range'_append]
    congr 1
    omega

/-- The old objects only refer to old objects. -/
def Closed (h : Heap) : Prop := ∀ r c, Child h r c → c < h.length

/-- all objects created between `lo` and the length of the heap are owned by `r'` -/
def AllOwned (h' : Heap) (lo : Nat) (roots : List Ref) : Prop :=
  ∀ x, lo ≤ x → x < h'.length → ∃ r ∈ roots, Owned h' r x

theorem child_agree {h h' : Heap} {r c : Ref} (hc : Child h r c) (hag : h'[r]? = h[r]?) : Child h' r c := by
  obtain ⟨o, a, es, ho, hav, hs, hm⟩ := hc
  exact ⟨o, a, es, by rw [hag, ho], hav, hs, hm⟩

theorem child_lt {h : Heap} {r c : Ref} (hc : Child h r c) : r < h.length := by
  obtain ⟨o, _, _, ho, _⟩ := hc
  exact (List.getElem?_eq_some_iff.1 ho).1

/-- what `copy` achieves, relative to an initial heap `h0` -/
structure CopySpec (h0 : Heap) (fuel : Nat) (st : St) (r : Ref) (st' : St) (r' : Ref) : Prop where
  ext : Ext st st'
  new : r' = st.1.length
  lt : st.1.length < st'.1.length
  same : SameObj h0 st'.1 st.1.length fuel r r'
  owned : ∀ x, st.1.length ≤ x → x < st'.1.length → Owned st'.1 r' x

/-- result of copying a list of elements -/
structure CopyAllSpec (h0 : Heap) (fuel : Nat) (st : St) (es : List Elem) (st' : St) (es' : List Elem) : Prop where
  ext : Ext st st'
  same : List.Forall₂ (fun e e' => ∃ c c', e = .ref c ∧ e' = .ref c' ∧ SameObj h0 st'.1 st.1.length fuel c c') es es'
  owned : ∀ x, st.1.length ≤ x → x < st'.1.length → ∃ c', .ref c' ∈ es' ∧ Owned st'.1 c' x

theorem owned_mono {h h' : Heap} {lo : Nat} {r x : Ref} (ho : Owned h r x)
    (hlo : ∀ y, Owned h r y → lo ≤ y) (hag : ∀ i : Nat, lo ≤ i → i < h.length → h'[i]? = h[i]?) : Owned h' r x := by
  unfold Owned at *
  induction ho with
  | refl => exact .refl
  | tail hy hc ih => exact ih.tail (child_agree hc (hag _ (hlo _ hy) (child_lt hc)))

theorem copyAll_spec (h0 : Heap) (fuel : Nat)
    (ih : ∀ st r st' r', (∀ i : Nat, i < h0.length → st.1[i]? = h0[i]?) → h0.length ≤ st.1.length → r < h0.length →
      copy fuel st r = .ok (st', r') → CopySpec h0 fuel st r st' r')
    (es : List Elem) (st st' : St) (es' : List Elem)
    (hag : ∀ i : Nat, i < h0.length → st.1[i]? = h0[i]?) (hle : h0.length ≤ st.1.length)
    (hcl : ∀ c, .ref c ∈ es → c < h0.length)
    (h : copyAll (copy fuel) st es = .ok (st', es')) : CopyAllSpec h0 fuel st es st' es' := by
  unfold copyAll at h
  have gen : ∀ (es : List Elem) (acc : List Elem) (done : List Elem) (st1 st' : St) (es' : List Elem),
      CopyAllSpec h0 fuel st done st1 acc → (∀ c, .ref c ∈ es → c < h0.length) →
      es.foldlM (copyElem (copy fuel)) (st1, acc) = .ok (st', es') →
      CopyAllSpec h0 fuel st (done ++ es) st' es' := by
    intro es
    induction es with
    | nil =>
      intro acc done st1 st' es' hs _ h
      have := foldlM_nil_ok h
      cases this
      simpa using hs
    | cons e es ihes =>
      intro acc done st1 st' es' hs hc h
      obtain ⟨b1, h1, h2⟩ := foldlM_cons_ok h
      unfold copyElem at h1
      cases e with
      | raw k s => simp at h1
      | ref c =>
        simp only at h1
        cases hcp : copy fuel st1 c with
        | error e => rw [hcp] at h1; simp at h1
        | ok x =>
          obtain ⟨st2, c'⟩ := x
          rw [hcp] at h1
          simp at h1
          subst h1
          have sp := ih st1 c st2 c' (fun i hi => by
              rw [hs.ext.same i (Nat.lt_of_lt_of_le hi hle), hag i hi]) (Nat.le_trans hle hs.ext.le)
              (hc c (by simp)) hcp
          have := ihes (acc ++ [.ref c']) (done ++ [.ref c]) st2 st' es' ?_ (fun c hc' => hc c (by simp [hc'])) h2
          · simpa using this
          · refine ⟨hs.ext.trans sp.ext, ?_, ?_⟩
            · refine List.rel_append ?_ ?_
              · refine hs.same.imp ?_
                rintro e e' ⟨c, c', he, he', hsame⟩
                exact ⟨c, c', he, he', hsame.mono (Nat.le_refl _) (fun i _ hi => sp.ext.same i hi)⟩
              · refine .cons ⟨c, c', rfl, rfl, ?_⟩ .nil
                exact sp.same.mono hs.ext.le (fun _ _ _ => rfl)
            · intro x hlo hx
              by_cases hx1 : x < st1.1.length
              · obtain ⟨c1, hc1, ho1⟩ := hs.owned x hlo hx1
                refine ⟨c1, by simp [hc1], ?_⟩
                refine owned_mono (lo := 0) ho1 (fun _ _ => Nat.zero_le _) (fun i _ hi => sp.ext.same i hi)
              · exact ⟨c', by simp, sp.owned x (Nat.le_of_not_lt hx1) hx⟩
  have := gen es [] [] st st' es' ⟨Ext.refl st, .nil, fun x h1 h2 => absurd h2 (Nat.not_lt.2 h1)⟩ hcl h
  simpa using this

theorem copy_spec (h0 : Heap) (hcl : Closed h0) (fuel : Nat) (st : St) (r : Ref) (st' : St) (r' : Ref)
    (hag : ∀ i : Nat, i < h0.length → st.1[i]? = h0[i]?) (hle : h0.length ≤ st.1.length) (hr : r < h0.length)
    (h : copy fuel st r = .ok (st', r')) : CopySpec h0 fuel st r st' r' := by
  induction fuel generalizing st r st' r' with
  | zero => simp [copy] at h
  | succ fuel ih =>
    unfold copy at h
    cases ho : st.1[r]? with
    | none => rw [ho] at h; simp at h
    | some o =>
      rw [ho] at h
      simp only at h
      have ho0 : h0[r]? = some o := by rw [← hag r hr]; exact ho
      cases hf : o.attrs.foldlM (copyAttr (copy fuel)) ((st.1 ++ [blank o], st.2 ++ [st.1.length]), []) with
      | error e => rw [hf] at h; simp at h
      | ok x =>
        obtain ⟨st2, attrs⟩ := x
        rw [hf] at h
        simp only [Except.ok.injEq, Prod.mk.injEq] at h
        obtain ⟨hst', hr'⟩ := h
        subst hst'
        have extInit : Ext st (st.1 ++ [blank o], st.2 ++ [st.1.length]) := by
          refine ⟨by simp, fun i hi => ?_, by simp⟩
          simp only; rw [List.getElem?_append_left hi]
        have gen : ∀ (l : List (String × AttrVal)) (done acc : List (String × AttrVal)) (st1 st2 : St) attrs,
            (∀ av ∈ l, av ∈ o.attrs) →
            Ext (st.1 ++ [blank o], st.2 ++ [st.1.length]) st1 →
            List.Forall₂ (AttrRel (SameObj h0 st1.1 (st.1.length + 1) fuel)) done acc →
            (∀ x, st.1.length + 1 ≤ x → x < st1.1.length → ∃ a es c', (a, .list (some es)) ∈ acc ∧
              special a = false ∧ .ref c' ∈ es ∧ Owned st1.1 c' x) →
            l.foldlM (copyAttr (copy fuel)) (st1, acc) = .ok (st2, attrs) →
            Ext (st.1 ++ [blank o], st.2 ++ [st.1.length]) st2 ∧
            List.Forall₂ (AttrRel (SameObj h0 st2.1 (st.1.length + 1) fuel)) (done ++ l) attrs ∧
            (∀ x, st.1.length + 1 ≤ x → x < st2.1.length → ∃ a es c', (a, .list (some es)) ∈ attrs ∧
              special a = false ∧ .ref c' ∈ es ∧ Owned st2.1 c' x) := by
          intro l
          induction l with
          | nil =>
            intro done acc st1 st2 attrs _ hext hfa hown h
            have := foldlM_nil_ok h
            cases this
            exact ⟨hext, by simpa using hfa, hown⟩
          | cons av l ihl =>
            intro done acc st1 st2 attrs hsub hext hfa hown h
            obtain ⟨b1, h1, h2⟩ := foldlM_cons_ok h
            have hsub' : ∀ av ∈ l, av ∈ o.attrs := fun av hav => hsub av (by simp [hav])
            obtain ⟨a, v⟩ := av
            -- cases where the value is taken over
            have simple : ∀ v', AttrRel (SameObj h0 st1.1 (st.1.length + 1) fuel) (a, v) (a, v') →
                b1 = (st1, acc ++ [(a, v')]) → _ := fun v' hsame hb => by
              subst hb
              have := ihl (done ++ [(a, v)]) (acc ++ [(a, v')]) st1 st2 attrs hsub' hext
                (List.rel_append hfa (.cons hsame .nil))
                (fun x h1 h2 => by
                  obtain ⟨a1, es, c', hm, hrest⟩ := hown x h1 h2
                  exact ⟨a1, es, c', by simp [hm], hrest⟩) h2
              rw [List.append_assoc] at this
              exact this
            cases v with
            | plain v =>
              simp [copyAttr] at h1
              exact simple (.plain v) ⟨rfl, rfl⟩ h1.symm
            | list v =>
              cases v with
              | none =>
                simp [copyAttr] at h1
                exact simple (.list none) ⟨rfl, trivial⟩ h1.symm
              | some es =>
                simp only [copyAttr] at h1
                split at h1
                · rename_i hsp
                  simp only [Except.ok.injEq] at h1
                  refine simple (.list (some es)) ⟨rfl, ?_⟩ h1.symm
                  by_cases hspec : special a = true
                  · simp only [hspec, if_true]
                  · simp [hspec] at hsp
                    subst hsp
                    simp [hspec]
                · rename_i hsp
                  cases hca : copyAll (copy fuel) st1 es with
                  | error e => rw [hca] at h1; simp at h1
                  | ok x =>
                    obtain ⟨st3, es'⟩ := x
                    rw [hca] at h1
                    simp only [Except.ok.injEq] at h1
                    subst h1
                    have hspa : special a = false := by
                      rw [Bool.or_eq_true, not_or] at hsp
                      simpa using hsp.1
                    have hlen1 : st.1.length + 1 ≤ st1.1.length := by
                      have := hext.le; simpa using this
                    have hagst1 : ∀ i : Nat, i < h0.length → st1.1[i]? = h0[i]? := by
                      intro i hi
                      rw [hext.same i (by simp; omega)]
                      simp only
                      rw [List.getElem?_append_left (by omega), hag i hi]
                    have sp := copyAll_spec h0 fuel ih es st1 st3 es' hagst1 (by omega)
                      (fun c hc => hcl r c ⟨o, a, es, ho0, hsub _ (by simp), hspa, hc⟩) hca
                    have hagree : ∀ i : Nat, st.1.length + 1 ≤ i → i < st1.1.length → st3.1[i]? = st1.1[i]? :=
                      fun i _ hi => sp.ext.same i hi
                    have := ihl (done ++ [(a, .list (some es))]) (acc ++ [(a, .list (some es'))]) st3 st2 attrs hsub'
                      (hext.trans sp.ext) (List.rel_append (hfa.imp fun _ _ => AttrRel.imp fun _ _ hs => hs.mono (Nat.le_refl _) hagree)
                        (.cons ⟨rfl, by
                          simp only [hspa]
                          exact sp.same.imp (by
                            rintro e e' ⟨c, c', he, he', hs⟩
                            exact ⟨c, c', he, he', hs.mono hlen1 (fun _ _ _ => rfl)⟩)⟩ .nil))
                      (fun x hx1 hx2 => by
                        by_cases hx : x < st1.1.length
                        · obtain ⟨a1, es1, c', hm, hs1, hc', hown'⟩ := hown x hx1 hx
                          refine ⟨a1, es1, c', by simp [hm], hs1, hc', ?_⟩
                          exact owned_mono (lo := 0) hown' (fun _ _ => Nat.zero_le _)
                            (fun i _ hi => sp.ext.same i hi)
                        · obtain ⟨c', hc', hown'⟩ := sp.owned x (Nat.le_of_not_lt hx) hx2
                          exact ⟨a, es', c', by simp, hspa, hc', hown'⟩) h2
                    rw [List.append_assoc] at this
                    exact this
        have res := gen o.attrs [] [] _ st2 attrs (fun _ h => h) (Ext.refl _) .nil (fun x h1 h2 => by
          simp at h2; omega) hf
        obtain ⟨hext, hfa, hown⟩ := res
        simp only [List.nil_append] at hfa
        have hlen2 : st.1.length + 1 ≤ st2.1.length := by
          have := hext.le; simpa using this
        have hset : ∀ i : Nat, st.1.length + 1 ≤ i → i < st2.1.length →
            (st2.1.set st.1.length ⟨o.cls, attrs⟩)[i]? = st2.1[i]? := by
          intro i hi _
          rw [List.getElem?_set_ne (by omega)]
        have extAll : Ext st (st2.1.set st.1.length ⟨o.cls, attrs⟩, st2.2) := by
          have e2 := extInit.trans hext
          refine ⟨by simp; omega, fun i hi => ?_, ?_⟩
          · simp only
            rw [List.getElem?_set_ne (by omega)]
            exact e2.same i hi
          · simp only [List.length_set]; exact e2.models
        have hnewget : (st2.1.set st.1.length ⟨o.cls, attrs⟩)[st.1.length]? = some ⟨o.cls, attrs⟩ := by
          rw [List.getElem?_set_self (by omega)]
        subst hr'
        refine ⟨extAll, rfl, by simp; omega, ?_, ?_⟩
        · refine ⟨o, ⟨o.cls, attrs⟩, ho0, hnewget, Nat.le_refl _, rfl, ?_⟩
          exact hfa.imp fun _ _ => AttrRel.imp fun _ _ hs => hs.mono (Nat.le_succ _) hset
        · intro x hx1 hx2
          simp only [List.length_set] at hx2
          by_cases hx : x = st.1.length
          · subst hx; exact .refl
          · obtain ⟨a, es, c', hm, hsp, hc', hown'⟩ := hown x (by omega) hx2
            have hchild : Child (st2.1.set st.1.length ⟨o.cls, attrs⟩) st.1.length c' :=
              ⟨_, a, es, hnewget, hm, hsp, hc'⟩
            refine Relation.ReflTransGen.head hchild ?_
            refine owned_mono (lo := st.1.length + 1) hown' ?_ hset
            -- everything owned by a copied element is new
            intro y hy
            obtain ⟨i, hi, hgi⟩ := List.mem_iff_getElem.1 hm
            have hl := hfa.length_eq
            have hrel := List.Forall₂.get hfa (i := i) (by omega) hi
            simp only [List.get_eq_getElem, hgi] at hrel
            obtain ⟨ha, hv⟩ := hrel
            generalize o.attrs[i] = av0 at *
            obtain ⟨a0, v0⟩ := av0
            simp only at ha; subst ha
            cases v0 with
            | plain v => simp at hv
            | list v =>
              cases v with
              | none => simp at hv
              | some es0 =>
                simp only [hsp] at hv
                rw [if_neg (by simp)] at hv
                obtain ⟨j, hj, hgj⟩ := List.mem_iff_getElem.1 hc'
                have hl2 := hv.length_eq
                have hrel := List.Forall₂.get hv (i := j) (by omega) hj
                simp only [List.get_eq_getElem, hgj] at hrel
                obtain ⟨c, c1, _, he', hs⟩ := hrel
                cases he'
                exact hs.owned_lo hy

end Ditto.Heap
