import Verif.Lemmas.PhaseLoop
import Verif.Lemmas.Untouched
import Verif.Props.Add

/-! C12, C13, C14: `Modifier.merge`. -/
namespace Ditto.Heap
open Ditto

theorem _root_.List.append_of_mem_first {α : Type} [DecidableEq α] {a : α} {l : List α} (h : a ∈ l) :
    ∃ l1 l2, l = l1 ++ a :: l2 ∧ a ∉ l1 := by
  induction l with
  | nil => simp at h
  | cons b l ih =>
    by_cases hb : a = b
    · subst hb; exact ⟨[], l, rfl, by simp⟩
    · obtain ⟨l1, l2, rfl, hn⟩ := ih (by simpa [hb] using h)
      exact ⟨b :: l1, l2, rfl, by simp [hb, hn]⟩

theorem nameOf_of_last {h : Heap} {ms : List Ref} {k : Option Atom} {r : Ref} (hl : IsLastNamed h ms k r) :
    nameOf h r = some k := by obtain ⟨_, _, _, h, _⟩ := hl; exact h

private theorem merge_value (ow : Bool) (fuel : Nat) (h : Heap) (s1 s2 : Store) (h' : Heap) (s' : Store)
    (he : ElemsNameless h) (hdisj : ∀ r ∈ s1.models, r ∉ s2.models)
    (hm : merge fuel ow h s1 s2 = .ok (h', s'))
    (k : Option Atom) (r1 r2 : Ref) (hr1 : IsLastNamed h s1.models k r1) (hr2 : IsLastNamed h s2.models k r2)
    (a : String) (v1 v2 : Option Atom) (h1 : (h[r1]?).bind (·.get a) = some (.plain v1))
    (h2 : (h[r2]?).bind (·.get a) = some (.plain v2)) :
    (h'[r1]?).bind (·.get a) = some (.plain (mergedVal ow v1 v2)) := by
  unfold merge at hm
  split at hm
  · simp at hm
  · rename_i h1' ms hf
    simp only [Except.ok.injEq, Prod.mk.injEq] at hm
    obtain ⟨rfl, _⟩ := hm
    have hne : r1 ≠ r2 := fun e => hdisj r1 (isLastNamed_mem hr1) (e ▸ isLastNamed_mem hr2)
    have hn1 : nameOf h r1 ≠ none := by rw [nameOf_of_last hr1]; simp
    have hn2 : nameOf h r2 ≠ none := by rw [nameOf_of_last hr2]; simp
    have gen : ∀ (l : List (Option Atom × Ref)) (s : St) (w : Option Atom) (s' : St),
        (∀ kr ∈ l, IsLastNamed h s2.models kr.1 kr.2) → ElemsNameless s.1 →
        (∀ x, nameOf s.1 x = none ↔ nameOf h x = none) →
        (w = v1 ∨ w = mergedVal ow v1 v2) → (s.1[r1]?).bind (·.get a) = some (.plain w) →
        (s.1[r2]?).bind (·.get a) = some (.plain v2) →
        l.foldlM (mergeStep fuel ow (setNames h s1).names) s = .ok s' →
        (s'.1[r1]?).bind (·.get a) = some (.plain (if k ∈ l.map (·.1) then mergedVal ow v1 v2 else w)) := by
      intro l
      induction l with
      | nil =>
        intro s w s' _ _ _ _ hw _ h
        have := foldlM_nil_ok h
        subst this
        simpa using hw
      | cons kr l ih =>
        intro s w s' hl he hnm hw hv1 hv2 hfold
        obtain ⟨s1', hs1, hs2⟩ := foldlM_cons_ok hfold
        have hl' : ∀ kr ∈ l, IsLastNamed h s2.models kr.1 kr.2 := fun kr h => hl kr (by simp [h])
        unfold mergeStep at hs1
        cases hlk : (setNames h s1).names.lookup kr.1 with
        | none =>
          rw [hlk] at hs1
          simp only [Except.ok.injEq] at hs1
          subst hs1
          have hk : kr.1 ≠ k := by
            intro e
            have := (names_lookup_iff h s1.models k r1).2 hr1
            rw [← e] at this
            have h' : (setNames h s1).names.lookup kr.1 = some r1 := this
            rw [hlk] at h'; simp at h'
          have := ih s w s' hl' he hnm hw hv1 hv2 hs2
          rw [this, List.map_cons]
          simp only [List.mem_cons, Ne.symm hk, false_or]
        | some q1 =>
          rw [hlk] at hs1
          simp only at hs1
          split at hs1
          · simp at hs1
          · have hq1 : IsLastNamed h s1.models kr.1 q1 := (names_lookup_iff h s1.models kr.1 q1).1 hlk
            have f := setAttributes_frame ow fuel s q1 kr.2 s1' he hs1
            have hnm' : ∀ x, nameOf s1'.1 x = none ↔ nameOf h x = none := fun x => (f.nameOf_iff x).trans (hnm x)
            have hq2 : r2 ≠ q1 := fun e => hdisj q1 (isLastNamed_mem hq1) (e ▸ isLastNamed_mem hr2)
            have hv2' := f.get_plain hq2 (fun h => hn2 ((hnm r2).1 h)) hv2
            by_cases hk : kr.1 = k
            · have e1 : q1 = r1 := lastNamed_unique (hk ▸ hq1) hr1
              have e2 : kr.2 = r2 := lastNamed_unique (hk ▸ hl kr (by simp)) hr2
              subst e1
              rw [e2] at hs1
              have := setAttributes_value ow fuel s q1 r2 s1' he hne (fun h => hn1 ((hnm q1).1 h))
                (fun h => hn2 ((hnm r2).1 h)) hs1 a hv1 hv2
              have hw' : mergedVal ow w v2 = mergedVal ow v1 v2 := by
                rcases hw with rfl | rfl
                · rfl
                · exact mergedVal_idem _ _ _
              rw [hw'] at this
              have := ih s1' _ s' hl' f.elems hnm' (.inr rfl) this hv2' hs2
              simpa [hk] using this
            · have e1 : r1 ≠ q1 := by
                intro e
                have h1 := nameOf_of_last hq1
                rw [← e, nameOf_of_last hr1] at h1
                exact hk (by simpa using h1.symm)
              have := f.get_plain e1 (fun h => hn1 ((hnm r1).1 h)) hv1
              have := ih s1' _ s' hl' f.elems hnm' hw this hv2' hs2
              rw [this, List.map_cons]
              simp only [List.mem_cons, Ne.symm hk, false_or]
    have := gen (setNames h s2).names (h, s1.models) v1 (h1', ms)
      (fun kr hkr => (mem_names_iff_last h s2 kr.1 kr.2).1 hkr) he (fun _ => Iff.rfl) (.inl rfl) h1 h2 hf
    rwa [if_pos (List.mem_map.2 ⟨(k, r2), (mem_names_iff_last h s2 k r2).2 hr2, rfl⟩)] at this

/-- C12: if `merge(model_1, model_2, overwrite=True)` returns, then for every name `k` in both models, each scalar
attribute of the object `model_1[k]` has the value of `model_2[k]` if that is not `None`, and its old value otherwise.
Hypotheses: list elements have no names (true of all DiTTo classes), the two models do not share objects. -/
theorem C12_overwrite (fuel : Nat) (h : Heap) (s1 s2 : Store) (h' : Heap) (s' : Store)
    (he : ElemsNameless h) (hdisj : ∀ r ∈ s1.models, r ∉ s2.models)
    (hm : merge fuel true h s1 s2 = .ok (h', s'))
    (k : Option Atom) (r1 r2 : Ref) (hr1 : IsLastNamed h s1.models k r1) (hr2 : IsLastNamed h s2.models k r2)
    (o1 o2 : Obj) (ho1 : h[r1]? = some o1) (ho2 : h[r2]? = some o2) :
    ∃ o1', h'[r1]? = some o1' ∧ ∀ a v1 v2, o1.get a = some (.plain v1) → o2.get a = some (.plain v2) →
      (∀ x, v2 = some x → o1'.get a = some (.plain (some x))) ∧ (v2 = none → o1'.get a = some (.plain v1)) := by
  have key : ∀ a v1 v2, o1.get a = some (.plain v1) → o2.get a = some (.plain v2) →
      (h'[r1]?).bind (·.get a) = some (.plain (v2.or v1)) := fun a v1 v2 h1 h2 =>
    merge_value true fuel h s1 s2 h' s' he hdisj hm k r1 r2 hr1 hr2 a v1 v2 (by rw [ho1]; exact h1) (by rw [ho2]; exact h2)
  -- both have a name
  have hname : ∀ {ms : List Ref} {r : Ref} {o : Obj}, IsLastNamed h ms k r → h[r]? = some o → ∃ v, o.get "name" = some (.plain v) := by
    intro ms r o hl ho
    have : nameOf h r ≠ none := by rw [nameOf_of_last hl]; simp
    rw [Ne, nameOf_eq_none_iff ho, not_not] at this
    exact this
  obtain ⟨n1, hn1⟩ := hname hr1 ho1
  obtain ⟨n2, hn2⟩ := hname hr2 ho2
  obtain ⟨o1', ho1', _⟩ := get_bind (key "name" n1 n2 hn1 hn2)
  refine ⟨o1', ho1', fun a v1 v2 h1 h2 => ?_⟩
  have := key a v1 v2 h1 h2
  rw [ho1'] at this
  simp only [Option.bind_some] at this
  rw [this]
  exact ⟨fun x hx => by subst hx; rfl, fun hx => by subst hx; rfl⟩

/-- C13, first part: if `merge(model_1, model_2, overwrite=False)` returns, no scalar attribute of any object (of
either model, at any depth) that was not `None` has changed, and no list has lost an element. -/
theorem C13_nothing_lost (fuel : Nat) (h : Heap) (s1 s2 : Store) (h' : Heap) (s' : Store)
    (he : ElemsNameless h) (hm : merge fuel false h s1 s2 = .ok (h', s')) :
    ∀ (x : Ref) (o : Obj), h[x]? = some o → ∃ o', h'[x]? = some o' ∧ o'.cls = o.cls ∧
      (∀ a v, o.get a = some (.plain (some v)) → o'.get a = some (.plain (some v))) ∧
      ∀ a es, o.get a = some (.list (some es)) → ∃ es', o'.get a = some (.list (some es')) ∧ ∀ e ∈ es, e ∈ es' := by
  unfold merge at hm
  split at hm
  · simp at hm
  · rename_i h1' ms hf
    simp only [Except.ok.injEq, Prod.mk.injEq] at hm
    obtain ⟨rfl, _⟩ := hm
    have := foldlM_inv (fun s : St => ElemsNameless s.1 ∧ Keep h s.1) _ (fun s kr s' _ hJ hs => by
      unfold mergeStep at hs
      split at hs
      · simp at hs; subst hs; exact hJ
      · rename_i q1 _
        split at hs
        · simp at hs
        · exact ⟨(setAttributes_frame false fuel s q1 kr.2 s' hJ.1 hs).elems,
            hJ.2.trans (setAttributes_keep fuel s q1 kr.2 s' hJ.1 hs)⟩) ⟨he, Keep.refl h⟩ hf
    exact this.2

/-- C13, second part: the `None` attributes of the matched objects are filled from `model_2`. -/
theorem C13_filled (fuel : Nat) (h : Heap) (s1 s2 : Store) (h' : Heap) (s' : Store)
    (he : ElemsNameless h) (hdisj : ∀ r ∈ s1.models, r ∉ s2.models)
    (hm : merge fuel false h s1 s2 = .ok (h', s'))
    (k : Option Atom) (r1 r2 : Ref) (hr1 : IsLastNamed h s1.models k r1) (hr2 : IsLastNamed h s2.models k r2)
    (o1 o2 : Obj) (ho1 : h[r1]? = some o1) (ho2 : h[r2]? = some o2) (a : String) (v2 : Option Atom)
    (h1 : o1.get a = some (.plain none)) (h2 : o2.get a = some (.plain v2)) :
    ∃ o1', h'[r1]? = some o1' ∧ o1'.get a = some (.plain v2) := by
  have := merge_value false fuel h s1 s2 h' s' he hdisj hm k r1 r2 hr1 hr2 a none v2 (by rw [ho1]; exact h1)
    (by rw [ho2]; exact h2)
  obtain ⟨o1', ho1', hg⟩ := get_bind this
  refine ⟨o1', ho1', ?_⟩
  rw [hg]; cases v2 <;> rfl

theorem raw_list_raises (ow : Bool) (fuel : Nat) (st : St) (r1 r2 : Ref) (a : String)
    (kind : RawKind) (content : String) (rest : List Elem) (he : ElemsNameless st.1)
    (hne : r1 ≠ r2) (hn2 : nameOf st.1 r2 ≠ none)
    (ha : (st.1[r2]?).bind (·.get a) = some (.list (some (.raw kind content :: rest)))) (st' : St) :
    setAttributes ow fuel st r1 r2 ≠ .ok st' := by
  intro hres
  cases fuel with
  | zero => simp [setAttributes] at hres
  | succ fuel =>
    obtain ⟨o2, ho2, hg⟩ := get_bind ha
    unfold setAttributes at hres
    rw [ho2] at hres
    simp only at hres
    have hmem : a ∈ o2.attrs.map (·.1) := by
      rw [← lookup_isSome_iff]
      have : o2.attrs.lookup a = _ := hg
      rw [this]; rfl
    obtain ⟨l1, l2, hl, hnot⟩ : ∃ l1 l2, o2.attrs.map (·.1) = l1 ++ a :: l2 ∧ a ∉ l1 := List.append_of_mem_first hmem
    rw [hl] at hres
    obtain ⟨s, hs, hs'⟩ := foldlM_append_ok hres
    obtain ⟨s1, hs1, _⟩ := foldlM_cons_ok hs'
    have hJ := foldlM_inv (fun t : St => Frame r1 st.1 t.1 ∧
        (t.1[r2]?).bind (·.get a) = some (.list (some (.raw kind content :: rest)))) l1 (fun t b t' hb hf ht => by
      refine ⟨hf.1.trans (setAttr_frame (cpyOk_copy fuel) (setAttributes_frame ow fuel) ow r1 r2 t b t' hf.1.elems ht), ?_⟩
      obtain ⟨o, ho, hgo⟩ := get_bind hf.2
      obtain ⟨o', ho', hx⟩ := setAttr_exact (cpyOk_copy fuel) (setAttributes_frame ow fuel)
        (setAttributes_exact ow fuel) ow r1 r2 t b t' hf.1.elems ht r2 o ho (fun h => hn2 ((hf.1.nameOf_iff r2).1 h))
      rw [ho', Option.bind_some, hx a (by rintro ⟨_, rfl⟩; exact hnot hb)]
      exact hgo) ⟨Frame.refl r1 he, ha⟩ hs
    have hg2 := hJ.2
    unfold setAttr at hs1
    rw [hg2] at hs1
    generalize (s.1[r1]?).bind (·.get a) = w1 at hs1
    rcases w1 with _ | v1 | _ | _ | ⟨e1, l1⟩
    · simp at hs1
    · simp at hs1
    · simp [mergeList, copyInto, copyAll, copyElem, bind, Except.bind, List.foldlM] at hs1
    · simp [mergeList, copyInto, copyAll, copyElem, bind, Except.bind, List.foldlM] at hs1
    · simp [mergeList, hasPhase, zipLoop, recurElem] at hs1

/-- C12/C13 presuppose that `merge` returns. It never does if some object of `model_2` with a partner in `model_1` has a
list of numbers, rows or phases (`impedance_matrix`, `capacitance_matrix`, `reactances`, `phases`) that is not empty:
`copy` and `delete_element` treat these lists specially, but `set_attributes` does not. -/
theorem C12_raw_list_violated (ow : Bool) (fuel : Nat) (h : Heap) (s1 s2 : Store) (he : ElemsNameless h)
    (hdisj : ∀ r ∈ s1.models, r ∉ s2.models) (k : Option Atom) (r1 r2 : Ref) (hr1 : IsLastNamed h s1.models k r1)
    (hr2 : IsLastNamed h s2.models k r2) (o2 : Obj) (ho2 : h[r2]? = some o2) (a : String) (kind : RawKind)
    (content : String) (rest : List Elem) (ha : o2.get a = some (.list (some (.raw kind content :: rest)))) :
    ∃ e, merge fuel ow h s1 s2 = .error e := by
  cases hres : merge fuel ow h s1 s2 with
  | error e => exact ⟨e, rfl⟩
  | ok x =>
    exfalso
    unfold merge at hres
    split at hres
    · simp at hres
    · rename_i h1' ms hf
      have hmem : (k, r2) ∈ (setNames h s2).names := (mem_names_iff_last h s2 k r2).2 hr2
      have hlast : ∀ kr ∈ (setNames h s2).names, IsLastNamed h s2.models kr.1 kr.2 :=
        fun kr hkr => (mem_names_iff_last h s2 kr.1 kr.2).1 hkr
      obtain ⟨l1, l2, hl, hnot⟩ := List.append_of_mem_first hmem
      rw [hl] at hf
      obtain ⟨s, hs, hs'⟩ := foldlM_append_ok hf
      obtain ⟨s1', hs1, _⟩ := foldlM_cons_ok hs'
      have hn2 : nameOf h r2 ≠ none := by rw [nameOf_of_last hr2]; simp
      have hJ := foldlM_inv (fun t : St => ElemsNameless t.1 ∧ (∀ x, nameOf t.1 x = none ↔ nameOf h x = none) ∧
          (t.1[r2]?).bind (·.get a) = some (.list (some (.raw kind content :: rest)))) l1 (fun t kr t' hb hf ht => by
        obtain ⟨hft, hnm, hg⟩ := hf
        unfold mergeStep at ht
        split at ht
        · simp at ht; subst ht; exact ⟨hft, hnm, hg⟩
        · rename_i q1 hlk
          split at ht
          · simp at ht
          · have hq1 : IsLastNamed h s1.models kr.1 q1 := (names_lookup_iff h s1.models kr.1 q1).1 hlk
            have f := setAttributes_frame ow fuel t q1 kr.2 t' hft ht
            refine ⟨f.elems, fun x => (f.nameOf_iff x).trans (hnm x), ?_⟩
            obtain ⟨o, ho, hgo⟩ := get_bind hg
            obtain ⟨o', ho', hx⟩ := setAttributes_exact ow fuel t q1 kr.2 t' hft ht r2 o ho
              (fun h => hn2 ((hnm r2).1 h))
            rw [ho', Option.bind_some, hx a ?_]
            · exact hgo
            · rintro (rfl | rfl)
              · exact hdisj _ (isLastNamed_mem hq1) (isLastNamed_mem hr2)
              · have hkr := nameOf_of_last (hlast kr (by rw [hl]; simp [hb]))
                rw [nameOf_of_last hr2] at hkr
                simp only [Option.some.injEq] at hkr
                subst hkr
                exact hnot hb) ⟨he, fun _ => Iff.rfl, by rw [ho2]; exact ha⟩ hs
      obtain ⟨hft, hnm, hg⟩ := hJ
      unfold mergeStep at hs1
      rw [show (setNames h s1).names.lookup k = some r1 from (names_lookup_iff h s1.models k r1).2 hr1] at hs1
      simp only at hs1
      split at hs1
      · simp at hs1
      · exact raw_list_raises ow fuel s r1 r2 a kind content rest hft
          (fun e => hdisj r1 (isLastNamed_mem hr1) (e ▸ isLastNamed_mem hr2)) (fun h => hn2 ((hnm r2).1 h)) hg s1' hs1

/-- C44: `merge` changes no attribute (scalar or list) of an object with a name that has no partner: neither in
`model_1`, nor in `model_2`, nor of other objects. -/
theorem C44_unmatched_untouched (ow : Bool) (fuel : Nat) (h : Heap) (s1 s2 : Store) (h' : Heap) (s' : Store)
    (he : ElemsNameless h) (hm : merge fuel ow h s1 s2 = .ok (h', s')) (x : Ref) (o : Obj) (ho : h[x]? = some o)
    (hn : nameOf h x ≠ none)
    (hx : ∀ k r1 r2, IsLastNamed h s1.models k r1 → IsLastNamed h s2.models k r2 → x ≠ r1 ∧ x ≠ r2) :
    ∃ o', h'[x]? = some o' ∧ o'.cls = o.cls ∧ ∀ a, o'.get a = o.get a := by
  unfold merge at hm
  split at hm
  · simp at hm
  · rename_i h1' ms hf
    simp only [Except.ok.injEq, Prod.mk.injEq] at hm
    obtain ⟨rfl, _⟩ := hm
    have := foldlM_inv (fun t : St => ElemsNameless t.1 ∧ (∀ x, nameOf t.1 x = none ↔ nameOf h x = none) ∧
        ∃ o', t.1[x]? = some o' ∧ o'.cls = o.cls ∧ ∀ a, o'.get a = o.get a) _ (fun t kr t' hb hJ ht => by
      obtain ⟨hft, hnm, o1, ho1, hc1, hg1⟩ := hJ
      unfold mergeStep at ht
      split at ht
      · simp at ht; subst ht; exact ⟨hft, hnm, o1, ho1, hc1, hg1⟩
      · rename_i q1 hlk
        split at ht
        · simp at ht
        · have hq1 : IsLastNamed h s1.models kr.1 q1 := (names_lookup_iff h s1.models kr.1 q1).1 hlk
          have hq2 := (mem_names_iff_last h s2 kr.1 kr.2).1 hb
          have f := setAttributes_frame ow fuel t q1 kr.2 t' hft ht
          refine ⟨f.elems, fun x => (f.nameOf_iff x).trans (hnm x), ?_⟩
          obtain ⟨o', ho', hx'⟩ := setAttributes_exact ow fuel t q1 kr.2 t' hft ht x o1 ho1
            (fun h => hn ((hnm x).1 h))
          obtain ⟨o'', ho'', hc, _⟩ := f.old x o1 ho1
          rw [ho'] at ho''; cases ho''
          have hne := hx kr.1 q1 kr.2 hq1 hq2
          exact ⟨o', ho', hc.trans hc1, fun a => (hx' a (by rintro (h | h); exacts [hne.1 h, hne.2 h])).trans (hg1 a)⟩)
      ⟨he, fun _ => Iff.rfl, o, ho, rfl, fun _ => rfl⟩ hf
    exact this.2.2

/-! ### the hypotheses are met -/

/-- test of `ElemsNameless` for the examples -/
def checkNameless (h : Heap) : Bool := h.all fun o => o.attrs.all fun av =>
  match av.2 with
  | .list (some es) => es.all fun e =>
    match e with
    | .ref c => (nameOf h c).isNone
    | .raw _ _ => true
  | _ => true

theorem checkNameless_sound {h : Heap} (hc : checkNameless h = true) : ElemsNameless h := by
  rintro r c ⟨o, a, es, ho, hm, hc'⟩
  unfold checkNameless at hc
  rw [List.all_eq_true] at hc
  have := hc o (List.mem_of_getElem? ho)
  rw [List.all_eq_true] at this
  have := this _ hm
  simp only [List.all_eq_true] at this
  have := this _ hc'
  simpa using this

/-- `model_1`: line l1 (length 5, wires A and B), line l2. `model_2`: line l1 (length 7, r0 = 1, wires B and A) -/
def exMerge : Heap := [
  ⟨"Line", [("length", .plain (some (.num 5))), ("name", .plain (some (.str "l1"))), ("r0", .plain none),
    ("wires", .list (some [.ref 1, .ref 2]))]⟩,
  ⟨"Wire", [("ampacity", .plain none), ("phase", .plain (some (.str "A")))]⟩,
  ⟨"Wire", [("ampacity", .plain (some (.num 3))), ("phase", .plain (some (.str "B")))]⟩,
  ⟨"Line", [("length", .plain (some (.num 6))), ("name", .plain (some (.str "l2"))), ("r0", .plain none),
    ("wires", .list (some []))]⟩,
  ⟨"Line", [("length", .plain (some (.num 7))), ("name", .plain (some (.str "l1"))), ("r0", .plain (some (.num 1))),
    ("wires", .list (some [.ref 5, .ref 6]))]⟩,
  ⟨"Wire", [("ampacity", .plain (some (.num 8))), ("phase", .plain (some (.str "B")))]⟩,
  ⟨"Wire", [("ampacity", .plain (some (.num 9))), ("phase", .plain (some (.str "A")))]⟩]

example : ElemsNameless exMerge ∧ (∀ r ∈ [0, 1, 2, 3], r ∉ [4, 5, 6]) ∧
    IsLastNamed exMerge [0, 1, 2, 3] (some (.str "l1")) 0 ∧ IsLastNamed exMerge [4, 5, 6] (some (.str "l1")) 4 ∧
    (∃ h' s', merge 1000 true exMerge ⟨[0, 1, 2, 3], []⟩ ⟨[4, 5, 6], []⟩ = .ok (h', s') ∧
      h'[0]? = some ⟨"Line", [("length", .plain (some (.num 7))), ("name", .plain (some (.str "l1"))),
        ("r0", .plain (some (.num 1))), ("wires", .list (some [.ref 1, .ref 2]))]⟩ ∧
      h'[2]? = some ⟨"Wire", [("ampacity", .plain (some (.num 8))), ("phase", .plain (some (.str "B")))]⟩) ∧
    ∃ h' s', merge 1000 false exMerge ⟨[0, 1, 2, 3], []⟩ ⟨[4, 5, 6], []⟩ = .ok (h', s') ∧
      h'[0]? = some ⟨"Line", [("length", .plain (some (.num 5))), ("name", .plain (some (.str "l1"))),
        ("r0", .plain (some (.num 1))), ("wires", .list (some [.ref 1, .ref 2]))]⟩ ∧
      h'[1]? = some ⟨"Wire", [("ampacity", .plain (some (.num 9))), ("phase", .plain (some (.str "A")))]⟩ :=
  ⟨checkNameless_sound (by decide +kernel), by decide, ⟨[], [1, 2, 3], rfl, by decide, by decide⟩,
    ⟨[], [5, 6], rfl, by decide, by decide⟩,
    ⟨_, _, by rfl, by decide +kernel, by decide +kernel⟩, ⟨_, _, by rfl, by decide +kernel, by decide +kernel⟩⟩

/-- The line l1 of `exLine` has an impedance matrix: merging the model with an equal one raises. -/
example : ∃ e, merge 1000 true (exLine ++ exLine) ⟨[0, 1, 2, 3], []⟩ ⟨[4, 5, 6, 7], []⟩ = .error e :=
  C12_raw_list_violated true 1000 _ _ _ (checkNameless_sound (by decide +kernel)) (by decide) (some (.str "l1")) 0 4
    ⟨[], [1, 2, 3], rfl, by decide, by decide⟩ ⟨[], [5, 6, 7], rfl, by decide, by decide⟩ _ rfl "impedance_matrix" _ _ _ rfl

/-! ### C14 -/

/-- the element has phase number `k` in the order A, B, C, N -/
def HasPhaseNo (h : Heap) (e : Elem) (k : Nat) : Prop :=
  ∃ (c : Ref) (o : Obj) (p : String), e = .ref c ∧ h[c]? = some o ∧ o.get "phase" = some (.plain (some (.str p))) ∧
    ["A", "B", "C", "N"][k]? = some p

theorem phaseOrder_iff (v : Option Atom) (k : Nat) :
    phaseOrder v = .ok k ↔ ∃ p, v = some (.str p) ∧ ["A", "B", "C", "N"][k]? = some p := by
  constructor
  · intro h
    unfold phaseOrder at h
    split at h <;> simp at h <;> subst h <;> exact ⟨_, rfl, rfl⟩
  · rintro ⟨p, rfl, hp⟩
    rcases k with _ | _ | _ | _ | k <;> simp at hp <;> subst hp <;> rfl

theorem phaseKey_iff (h : Heap) (e : Elem) (k : Nat) : phaseKey h e = .ok k ↔ HasPhaseNo h e k := by
  constructor
  · intro hk
    cases e with
    | raw _ _ => simp [phaseKey] at hk
    | ref c =>
      obtain ⟨o, v, ho, hv, hp⟩ := phaseKey_ref hk
      obtain ⟨p, rfl, hp'⟩ := (phaseOrder_iff v k).1 hp
      exact ⟨c, o, p, rfl, ho, hv, hp'⟩
  · rintro ⟨c, o, p, rfl, ho, hv, hp⟩
    have := (phaseOrder_iff (some (.str p)) k).2 ⟨p, rfl, hp⟩
    simp only [phaseKey, ho, hv, this]

/-- C14: exactly which phases a list of phase-tagged objects (wires, phase loads, ...: objects without lists, all with a
phase) of `model_1` has after it was merged with the one of `model_2`: its own phases, and of the phases of `model_2`
those that do not come after its last own phase in the order A, B, C, N. In particular every phase of `model_2` is
there if `model_1` has the last phase of `model_2`. Missing for C14: the other phases of `model_2` get lost, see
`C14_violated`. -/
theorem C14_phases_partial (ow : Bool) (fuel : Nat) (st : St) (r1 r2 : Ref) (a : String) (l1 l2 : List Elem) (st' : St)
    (hl1 : l1 ≠ []) (hl2 : l2 ≠ [])
    (hg1 : (st.1[r1]?).bind (·.get a) = some (.list (some l1)))
    (hg2 : (st.1[r2]?).bind (·.get a) = some (.list (some l2)))
    (hleaf : ∀ e ∈ l1 ++ l2, ∃ (c : Ref) (o : Obj), e = .ref c ∧ st.1[c]? = some o ∧ LeafObj o)
    (hphase : ∀ e ∈ l1 ++ l2, ∃ k, HasPhaseNo st.1 e k)
    (h : setAttr (copy fuel) (setAttributes ow fuel) ow r1 r2 st a = .ok st') :
    ∃ l, (st'.1[r1]?).bind (·.get a) = some (.list (some l)) ∧
      ∀ k, (∃ e ∈ l, HasPhaseNo st'.1 e k) ↔ (∃ e ∈ l1, HasPhaseNo st.1 e k) ∨
        ((∃ e ∈ l2, HasPhaseNo st.1 e k) ∧ ∃ e ∈ l1, ∃ k1, HasPhaseNo st.1 e k1 ∧ k ≤ k1) := by
  simp only [← phaseKey_iff] at hphase ⊢
  have hnl : ∀ (r : Ref) (c : Ref) (o : Obj) w, (st.1[r]?).bind (·.get a) = some (.list w) → st.1[c]? = some o →
      LeafObj o → c ≠ r := by
    rintro r c o w hg ho hl rfl
    rw [ho] at hg
    obtain ⟨v, hv⟩ := leaf_get hl hg
    simp at hv
  have hK : ∃ K : Elem → Nat, ∀ e ∈ l1 ++ l2, phaseKey st.1 e = .ok (K e) := by
    refine ⟨fun e => match phaseKey st.1 e with | .ok k => k | .error _ => 0, fun e he => ?_⟩
    obtain ⟨k, hk⟩ := hphase e he
    simp only [hk]
  obtain ⟨K, hK⟩ := hK
  unfold setAttr at h
  rw [hg1, hg2] at h
  simp only at h
  cases l1 with
  | nil => exact absurd rfl hl1
  | cons e1 l1 =>
  cases l2 with
  | nil => exact absurd rfl hl2
  | cons e2 l2 =>
  have hhas : ∀ e ∈ (e1 :: l1) ++ (e2 :: l2), hasPhase st.1 e = true := by
    intro e he
    have hk := hK e he
    cases e with
    | raw _ _ => simp [phaseKey] at hk
    | ref c =>
      obtain ⟨o, v, ho, hv, hp⟩ := phaseKey_ref hk
      obtain ⟨p, rfl, _⟩ := (phaseOrder_iff v _).1 hp
      simp [hasPhase, ho, hv]
  simp only [mergeList] at h
  rw [hhas e1 (by simp), hhas e2 (by simp)] at h
  simp only [Bool.and_self, if_true] at h
  split at h
  · simp at h
  · rename_i s1 hs1
    split at h
    · simp at h
    · rename_i s2 hs2
      have hp1 := sortByPhase_perm hs1
      have hp2 := sortByPhase_perm hs2
      split at h
      · simp at h
      · rename_i st1 l hl
        simp only [Except.ok.injEq] at h
        subst h
        let hs := hset (hset st.1 r1 a (.list (some s1))) r2 a (.list (some s2))
        -- leaves are neither of the two objects
        have hns : ∀ (c : Ref) (o : Obj), st.1[c]? = some o → LeafObj o → hs[c]? = some o := by
          intro c o ho hlf
          show (hset (hset st.1 r1 a (.list (some s1))) r2 a (.list (some s2)))[c]? = _
          rw [hset_ne (hnl r2 c o _ hg2 ho hlf), hset_ne (hnl r1 c o _ hg1 ho hlf)]
          exact ho
        let J : St → Prop := fun s =>
          (∀ x : Ref, (∀ o, st.1[x]? = some o → ¬ LeafObj o) → s.1[x]? = hs[x]?) ∧
          ∀ e ∈ (e1 :: l1) ++ (e2 :: l2), ∃ (c : Ref) (o : Obj) (v : Option Atom), e = .ref c ∧ s.1[c]? = some o ∧
            LeafObj o ∧ o.get "phase" = some (.plain v) ∧ phaseOrder v = .ok (K e)
        have hJ0 : J (hs, st.2) := by
          refine ⟨fun _ _ => rfl, fun e he => ?_⟩
          obtain ⟨c, o, rfl, ho, hlf⟩ := hleaf e he
          obtain ⟨o', v, ho', hv, hp⟩ := phaseKey_ref (hK _ he)
          rw [ho] at ho'; cases ho'
          exact ⟨c, o, v, rfl, hns c o ho hlf, hlf, hv, hp⟩
        have hJK : ∀ s, J s → ∀ e, e ∈ (e1 :: l1) ++ (e2 :: l2) → phaseKey s.1 e = .ok (K e) := by
          intro s hs e he
          obtain ⟨c, o, v, rfl, ho, _, hv, hp⟩ := hs.2 e he
          simp only [phaseKey, ho, hv, hp]
        have hrec : ∀ s f1 f2 s', J s → f1 ∈ (e1 :: l1) ++ (e2 :: l2) → f2 ∈ (e1 :: l1) ++ (e2 :: l2) →
            K f1 = K f2 → recurElem (setAttributes ow fuel) s f1 f2 = .ok s' → J s' := by
          intro s f1 f2 s' hJ hf1 hf2 hkk hr
          obtain ⟨c1, o1, v1, rfl, ho1, hlf1, hv1, hpo1⟩ := hJ.2 f1 hf1
          obtain ⟨c2, o2, v2, rfl, ho2, hlf2, hv2, hpo2⟩ := hJ.2 f2 hf2
          have hvv : v1 = v2 := phaseOrder_inj hpo1 (hkk ▸ hpo2)
          subst hvv
          obtain ⟨hoth, o, ho, hlf, hph⟩ := leaf_merge ow fuel s s' c1 c2 o1 o2 ho1 ho2 hlf1 hlf2 v1 hv1 hv2 hr
          refine ⟨fun x hx => ?_, fun e he => ?_⟩
          · have hxc : x ≠ c1 := by
              rintro rfl
              obtain ⟨c, oc, hc, hoc, hlc⟩ := hleaf _ hf1
              cases hc
              exact hx oc hoc hlc
            rw [hoth x hxc]; exact hJ.1 x hx
          · obtain ⟨c, o', v, rfl, ho', hlf', hv, hpo⟩ := hJ.2 e he
            by_cases hc : c = c1
            · subst hc
              rw [ho1] at ho'; cases ho'
              rw [hv1] at hv; cases hv
              exact ⟨c, o, v1, rfl, ho, hlf, hph, hpo⟩
            · exact ⟨c, o', v, rfl, by rw [hoth c hc]; exact ho', hlf', hv, hpo⟩
        have hsort := sortByPhase_sorted hs2 K (fun e he k hk => by
          have := hK e (List.mem_append_right _ he)
          rw [hk] at this; simpa using this.symm)
        obtain ⟨hJ1, ⟨ex, hlx⟩, hin, hout⟩ := phaseLoop_keys J (fun e => e ∈ (e1 :: l1) ++ (e2 :: l2)) K hJK hrec
          _ (hs, st.2) s1 0 s2 st1 l s1 hJ0 (fun e he => List.mem_append_left _ (hp1.mem_iff.1 he))
          (fun e he => List.mem_append_right _ (hp2.mem_iff.1 he)) (by omega) (List.prefix_refl _)
          (fun j e hj => absurd hj (Nat.not_lt_zero _)) hsort hl
        -- the first object is not a leaf
        have hr1nl : ∀ o, st.1[r1]? = some o → ¬ LeafObj o := fun o ho hlf => hnl r1 r1 o _ hg1 ho hlf rfl
        obtain ⟨o1, ho1, hgo1⟩ := get_bind hg1
        have hr1get : ∃ o w, st1.1[r1]? = some o ∧ o.get a = some w := by
          rw [hJ1.1 r1 hr1nl]
          show ∃ o w, (hset (hset st.1 r1 a (.list (some s1))) r2 a (.list (some s2)))[r1]? = some o ∧ o.get a = some w
          by_cases h12 : r1 = r2
          · subst h12
            exact ⟨_, _, hset_self (hset_self ho1 _ _) _ _, get_set_self (get_set_self hgo1 _) _⟩
          · rw [hset_ne h12]
            exact ⟨_, _, hset_self ho1 _ _, get_set_self hgo1 _⟩
        obtain ⟨o, w, ho, hw⟩ := hr1get
        have hlS : ∀ e ∈ l, e ∈ (e1 :: l1) ++ (e2 :: l2) := by
          intro e he
          rcases hout e he with h | ⟨h, _⟩
          · exact List.mem_append_left _ (hp1.mem_iff.1 h)
          · exact List.mem_append_right _ (hp2.mem_iff.1 h)
        have hfin : ∀ e ∈ l, phaseKey (hset st1.1 r1 a (.list (some l))) e = .ok (K e) := by
          intro e he
          obtain ⟨c, o', v, rfl, ho', hlf', hv, hpo⟩ := hJ1.2 e (hlS e he)
          have hc : c ≠ r1 := by
            rintro rfl
            obtain ⟨c', oc, hc, hoc, hlc⟩ := hleaf _ (hlS _ he)
            cases hc
            exact hr1nl oc hoc hlc
          simp only [phaseKey, hset_ne hc, ho', hv, hpo]
        refine ⟨l, ?_, fun k => ⟨?_, ?_⟩⟩
        · simp only
          rw [hset_self ho, Option.bind_some, get_set_self hw]
        · rintro ⟨e, he, hk⟩
          rw [hfin e he] at hk
          simp only [Except.ok.injEq] at hk
          subst hk
          rcases hout e he with h | ⟨h, e', he', hlt⟩
          · left
            have := hp1.mem_iff.1 h
            exact ⟨e, this, hK e (List.mem_append_left _ this)⟩
          · right
            have h2 := hp2.mem_iff.1 h
            have h1 := hp1.mem_iff.1 he'
            exact ⟨⟨e, h2, hK e (List.mem_append_right _ h2)⟩, e', h1, K e', hK e' (List.mem_append_left _ h1),
              Nat.le_of_lt hlt⟩
        · rintro (⟨e, he, hk⟩ | ⟨⟨e, he, hk⟩, e', he', k1, hk1, hle⟩)
          · have hel : e ∈ l := by rw [hlx]; exact List.mem_append_left _ (hp1.mem_iff.2 he)
            refine ⟨e, hel, ?_⟩
            rw [hfin e hel, ← hK e (List.mem_append_left _ he), hk]
          · rw [hK e (List.mem_append_right _ he)] at hk
            rw [hK e' (List.mem_append_left _ he')] at hk1
            simp only [Except.ok.injEq] at hk hk1
            subst hk; subst hk1
            obtain ⟨e'', he'', hk''⟩ := hin e (hp2.mem_iff.2 he) ⟨e', hp1.mem_iff.2 he', hle⟩
            exact ⟨e'', he'', by rw [hfin e'' he'', hk'']⟩

/-- C14 holds if the list of `model_1` has the last phase of the list of `model_2`: all phases of both are there. -/
theorem C14_last_phase_partial (ow : Bool) (fuel : Nat) (st : St) (r1 r2 : Ref) (a : String) (l1 l2 : List Elem) (st' : St)
    (hl1 : l1 ≠ []) (hl2 : l2 ≠ [])
    (hg1 : (st.1[r1]?).bind (·.get a) = some (.list (some l1)))
    (hg2 : (st.1[r2]?).bind (·.get a) = some (.list (some l2)))
    (hleaf : ∀ e ∈ l1 ++ l2, ∃ (c : Ref) (o : Obj), e = .ref c ∧ st.1[c]? = some o ∧ LeafObj o)
    (hphase : ∀ e ∈ l1 ++ l2, ∃ k, HasPhaseNo st.1 e k)
    (hlast : ∀ e ∈ l2, ∀ k, HasPhaseNo st.1 e k → ∃ e' ∈ l1, ∃ k1, HasPhaseNo st.1 e' k1 ∧ k ≤ k1)
    (h : setAttr (copy fuel) (setAttributes ow fuel) ow r1 r2 st a = .ok st') :
    ∃ l, (st'.1[r1]?).bind (·.get a) = some (.list (some l)) ∧
      ∀ k, (∃ e ∈ l, HasPhaseNo st'.1 e k) ↔ ∃ e ∈ l1 ++ l2, HasPhaseNo st.1 e k := by
  obtain ⟨l, hl, hk⟩ := C14_phases_partial ow fuel st r1 r2 a l1 l2 st' hl1 hl2 hg1 hg2 hleaf hphase h
  refine ⟨l, hl, fun k => (hk k).trans ⟨?_, ?_⟩⟩
  · rintro (⟨e, he, hk⟩ | ⟨⟨e, he, hk⟩, _⟩)
    · exact ⟨e, List.mem_append_left _ he, hk⟩
    · exact ⟨e, List.mem_append_right _ he, hk⟩
  · rintro ⟨e, he, hk⟩
    rcases List.mem_append.1 he with he | he
    · exact Or.inl ⟨e, he, hk⟩
    · exact Or.inr ⟨⟨e, he, hk⟩, hlast e he k hk⟩

/-- the wires of l1 in `exMerge` -/
example : ∃ st', setAttr (copy 1000) (setAttributes true 1000) true 0 4 (exMerge, [0, 1, 2, 3]) "wires" = .ok st' ∧
    (exMerge[0]?).bind (·.get "wires") = some (.list (some [.ref 1, .ref 2])) ∧
    (exMerge[4]?).bind (·.get "wires") = some (.list (some [.ref 5, .ref 6])) ∧
    ∀ e ∈ [Elem.ref 1, .ref 2] ++ [.ref 5, .ref 6],
      (∃ (c : Ref) (o : Obj), e = .ref c ∧ exMerge[c]? = some o ∧ LeafObj o) ∧ ∃ k, HasPhaseNo exMerge e k := by
  refine ⟨_, by rfl, by rfl, by rfl, fun e he => ?_⟩
  simp only [List.cons_append, List.nil_append, List.mem_cons, List.not_mem_nil, or_false] at he
  rcases he with rfl | rfl | rfl | rfl
  · exact ⟨⟨1, _, rfl, rfl, by simp [LeafObj]⟩, 0, 1, _, "A", rfl, rfl, rfl, rfl⟩
  · exact ⟨⟨2, _, rfl, rfl, by simp [LeafObj]⟩, 1, 2, _, "B", rfl, rfl, rfl, rfl⟩
  · exact ⟨⟨5, _, rfl, rfl, by simp [LeafObj]⟩, 1, 5, _, "B", rfl, rfl, rfl, rfl⟩
  · exact ⟨⟨6, _, rfl, rfl, by simp [LeafObj]⟩, 0, 6, _, "A", rfl, rfl, rfl, rfl⟩

/-- C14 is violated: line l1 has a wire of phase A in `model_1` and wires of phases A and B in `model_2`; after the merge
it has no wire of phase B. -/
theorem C14_violated : ∃ (h h' : Heap) (s1 s2 s' : Store), merge 1000 true h s1 s2 = .ok (h', s') ∧
    (h[3]?).bind (·.get "wires") = some (.list (some [.ref 4, .ref 5])) ∧ HasPhaseNo h (.ref 5) 1 ∧
    IsLastNamed h s1.models (some (.str "l1")) 0 ∧ IsLastNamed h s2.models (some (.str "l1")) 3 ∧
    ∃ l, (h'[0]?).bind (·.get "wires") = some (.list (some l)) ∧ ∀ e ∈ l, ¬ HasPhaseNo h' e 1 := by
  refine ⟨[⟨"Line", [("name", .plain (some (.str "l1"))), ("wires", .list (some [.ref 1]))]⟩,
    ⟨"Wire", [("phase", .plain (some (.str "A")))]⟩, ⟨"Wire", [("phase", .plain (some (.str "C")))]⟩,
    ⟨"Line", [("name", .plain (some (.str "l1"))), ("wires", .list (some [.ref 4, .ref 5]))]⟩,
    ⟨"Wire", [("phase", .plain (some (.str "A")))]⟩, ⟨"Wire", [("phase", .plain (some (.str "B")))]⟩],
    _, ⟨[0, 1], []⟩, ⟨[3, 4, 5], []⟩, _, by rfl, by rfl, ⟨5, _, "B", rfl, rfl, rfl, rfl⟩,
    ⟨[], [1], rfl, by decide, by decide⟩, ⟨[], [4, 5], rfl, by decide, by decide⟩, [.ref 1], by rfl, ?_⟩
  intro e he
  simp only [List.mem_singleton] at he
  subst he
  rw [← phaseKey_iff]
  decide +kernel

end Ditto.Heap
