import Verif.Lemmas.Copy

/-! Frame properties of `set_attributes`. -/
namespace Ditto.Heap
open Ditto

/-! ### attributes -/

theorem keys_setA (a : String) (v : AttrVal) (l : List (String × AttrVal)) :
    (setA a v l).map (·.1) = l.map (·.1) := by
  induction l with
  | nil => rfl
  | cons x l ih =>
    obtain ⟨b, w⟩ := x
    unfold setA
    split <;> simp [ih]

theorem lookup_setA_ne {a b : String} (hb : b ≠ a) (v : AttrVal) (l : List (String × AttrVal)) :
    (setA a v l).lookup b = l.lookup b := by
  induction l with
  | nil => rfl
  | cons x l ih =>
    obtain ⟨c, w⟩ := x
    unfold setA
    split
    · rename_i h; subst h
      have : (b == c) = false := by simpa using hb
      simp [List.lookup_cons, this]
    · simp only [List.lookup_cons, ih]

theorem lookup_setA_self {a : String} (v w : AttrVal) (l : List (String × AttrVal)) (h : l.lookup a = some w) :
    (setA a v l).lookup a = some v := by
  induction l with
  | nil => simp at h
  | cons x l ih =>
    obtain ⟨c, w'⟩ := x
    unfold setA
    split
    · rename_i hc; subst hc; simp
    · rename_i hc
      have : (a == c) = false := by simpa using fun h => hc h.symm
      simp only [List.lookup_cons, this] at h ⊢
      exact ih h

theorem mem_setA {a b : String} {v w : AttrVal} {l : List (String × AttrVal)} (h : (b, w) ∈ setA a v l) :
    (b, w) ∈ l ∨ (b = a ∧ w = v) := by
  induction l with
  | nil => simp [setA] at h
  | cons x l ih =>
    obtain ⟨c, w'⟩ := x
    unfold setA at h
    split at h
    · rename_i hc; subst hc
      rcases List.mem_cons.1 h with h | h
      · cases h; exact .inr ⟨rfl, rfl⟩
      · exact .inl (by simp [h])
    · rcases List.mem_cons.1 h with h | h
      · cases h; exact .inl (by simp)
      · rcases ih h with h | h
        · exact .inl (by simp [h])
        · exact .inr h

theorem get_set_ne {o : Obj} {a b : String} (hb : b ≠ a) (v : AttrVal) : (o.set a v).get b = o.get b :=
  lookup_setA_ne hb v _

theorem get_set_self {o : Obj} {a : String} {w : AttrVal} (h : o.get a = some w) (v : AttrVal) :
    (o.set a v).get a = some v := lookup_setA_self v w _ h

theorem hset_length (h : Heap) (r : Ref) (a : String) (v : AttrVal) : (hset h r a v).length = h.length := by
  unfold hset; split <;> simp

theorem hset_ne {h : Heap} {r x : Ref} (hx : x ≠ r) (a : String) (v : AttrVal) : (hset h r a v)[x]? = h[x]? := by
  unfold hset; split
  · rfl
  · rw [List.getElem?_set_ne (Ne.symm hx)]

theorem hset_self {h : Heap} {r : Ref} {o : Obj} (ho : h[r]? = some o) (a : String) (v : AttrVal) :
    (hset h r a v)[r]? = some (o.set a v) := by
  unfold hset; rw [ho]
  simp only
  rw [List.getElem?_set_self (List.getElem?_eq_some_iff.1 ho).1]

/-! ### list elements without names -/

/-- `c` is an element of some list attribute of `r` -/
def ListElem (h : Heap) (r c : Ref) : Prop :=
  ∃ o a es, h[r]? = some o ∧ (a, AttrVal.list (some es)) ∈ o.attrs ∧ Elem.ref c ∈ es

/-- Elements of lists have no `name` attribute. -/
def ElemsNameless (h : Heap) : Prop := ∀ r c, ListElem h r c → nameOf h c = none

/-- the attribute holds a scalar -/
def IsPlain (o : Obj) (a : String) : Prop := ∃ v, o.get a = some (.plain v)

theorem nameOf_eq_none_iff {h : Heap} {x : Ref} {o : Obj} (ho : h[x]? = some o) :
    nameOf h x = none ↔ ¬ IsPlain o "name" := by
  unfold nameOf IsPlain
  rw [ho]
  simp only
  cases hg : o.get "name" with
  | none => simp
  | some w => cases w <;> simp

/-- What `set_attributes(obj_1, ...)` leaves alone: class, attribute names and kinds of all objects; the scalar
attributes of all objects with a name except `obj_1`. New objects, and elements of lists, have no name. -/
structure Frame (r1 : Ref) (h h' : Heap) : Prop where
  le : h.length ≤ h'.length
  old : ∀ (x : Ref) (o : Obj), h[x]? = some o → ∃ o', h'[x]? = some o' ∧ o'.cls = o.cls ∧
    o'.attrs.map (·.1) = o.attrs.map (·.1) ∧ (∀ a, IsPlain o a ↔ IsPlain o' a) ∧
    (x ≠ r1 → nameOf h x ≠ none → ∀ a v, o.get a = some (.plain v) → o'.get a = some (.plain v))
  new : ∀ x, h.length ≤ x → nameOf h' x = none
  elems : ElemsNameless h'

theorem nameOf_ge {h : Heap} {x : Ref} (hx : h.length ≤ x) : nameOf h x = none := by
  unfold nameOf; rw [List.getElem?_eq_none hx]

theorem Frame.refl (r1 : Ref) {h : Heap} (he : ElemsNameless h) : Frame r1 h h :=
  ⟨Nat.le_refl _, fun _ o ho => ⟨o, ho, rfl, rfl, fun _ => Iff.rfl, fun _ _ _ _ h => h⟩, fun _ hx => nameOf_ge hx, he⟩

theorem Frame.nameOf_iff {r1 : Ref} {h h' : Heap} (hf : Frame r1 h h') (x : Ref) :
    nameOf h' x = none ↔ nameOf h x = none := by
  by_cases hx : x < h.length
  · have ho : h[x]? = some h[x] := List.getElem?_eq_getElem hx
    obtain ⟨o', ho', _, _, hs, _⟩ := hf.old x _ ho
    rw [nameOf_eq_none_iff ho, nameOf_eq_none_iff ho', hs]
  · simp [hf.new x (Nat.le_of_not_lt hx), nameOf_ge (Nat.le_of_not_lt hx)]

theorem Frame.trans {r1 : Ref} {a b c : Heap} (h1 : Frame r1 a b) (h2 : Frame r1 b c) : Frame r1 a c := by
  refine ⟨Nat.le_trans h1.le h2.le, fun x o ho => ?_, fun x hx => ?_, h2.elems⟩
  · obtain ⟨o1, ho1, hc1, hk1, hs1, hp1⟩ := h1.old x o ho
    obtain ⟨o2, ho2, hc2, hk2, hs2, hp2⟩ := h2.old x o1 ho1
    exact ⟨o2, ho2, hc2.trans hc1, hk2.trans hk1, fun a => (hs1 a).trans (hs2 a), fun hx hn a v hv =>
      hp2 hx (fun h => hn ((h1.nameOf_iff x).1 h)) a v (hp1 hx hn a v hv)⟩
  · rw [h2.nameOf_iff]; exact h1.new x hx

/-- touching an object without name is invisible -/
theorem Frame.of_nameless {c r1 : Ref} {h h' : Heap} (hf : Frame c h h') (hc : nameOf h c = none) :
    Frame r1 h h' := by
  refine ⟨hf.le, fun x o ho => ?_, hf.new, hf.elems⟩
  obtain ⟨o1, ho1, hc1, hk1, hs1, hp1⟩ := hf.old x o ho
  exact ⟨o1, ho1, hc1, hk1, hs1, fun _ hn => hp1 (fun h => hn (h ▸ hc)) hn⟩

theorem isPlain_set_list {o : Obj} {a : String} {v : Option (List Elem)} {w : Option (List Elem)}
    (hg : o.get a = some (.list w)) (b : String) : IsPlain o b ↔ IsPlain (o.set a (.list v)) b := by
  unfold IsPlain
  by_cases hb : b = a
  · subst hb; rw [hg, get_set_self hg]; simp
  · rw [get_set_ne hb]

theorem Frame.hset_list (r1 : Ref) {h : Heap} (he : ElemsNameless h) {r : Ref} {a : String}
    {w : Option (List Elem)} (hg : (h[r]?).bind (·.get a) = some (.list w)) {l : List Elem}
    (hl : ∀ c, .ref c ∈ l → nameOf h c = none) : Frame r1 h (hset h r a (.list (some l))) := by
  cases ho : h[r]? with
  | none => rw [ho] at hg; simp at hg
  | some o =>
    rw [ho] at hg
    simp only [Option.bind_some] at hg
    have hname : ∀ x, nameOf (hset h r a (.list (some l))) x = none ↔ nameOf h x = none := by
      intro x
      by_cases hx : x = r
      · subst hx
        rw [nameOf_eq_none_iff ho, nameOf_eq_none_iff (hset_self ho _ _), isPlain_set_list hg]
      · unfold nameOf; rw [hset_ne hx]
    refine ⟨by rw [hset_length], fun x o' ho' => ?_, fun x hx => ?_, ?_⟩
    · by_cases hx : x = r
      · subst hx
        rw [ho] at ho'; cases ho'
        refine ⟨_, hset_self ho _ _, rfl, keys_setA _ _ _, isPlain_set_list hg, fun _ _ b v hv => ?_⟩
        by_cases hb : b = a
        · subst hb; rw [hg] at hv; simp at hv
        · rw [get_set_ne hb]; exact hv
      · exact ⟨o', by rw [hset_ne hx]; exact ho', rfl, rfl, fun _ => Iff.rfl, fun _ _ _ _ h => h⟩
    · rw [hname]; exact nameOf_ge hx
    · rintro x c ⟨o', b, es, ho', hm, hc⟩
      rw [hname]
      by_cases hx : x = r
      · subst hx
        rw [hset_self ho] at ho'; cases ho'
        rcases mem_setA hm with hm | ⟨_, hm⟩
        · exact he x c ⟨o, b, es, ho, hm, hc⟩
        · cases hm; exact hl c hc
      · rw [hset_ne hx] at ho'
        exact he x c ⟨o', b, es, ho', hm, hc⟩

theorem Frame.hset_plain {r1 : Ref} {h : Heap} (he : ElemsNameless h) {a : String} {w : Option Atom}
    (hg : (h[r1]?).bind (·.get a) = some (.plain w)) (v : Option Atom) : Frame r1 h (hset h r1 a (.plain v)) := by
  cases ho : h[r1]? with
  | none => rw [ho] at hg; simp at hg
  | some o =>
    rw [ho] at hg
    simp only [Option.bind_some] at hg
    have hpl : ∀ b, IsPlain o b ↔ IsPlain (o.set a (.plain v)) b := by
      intro b
      unfold IsPlain
      by_cases hb : b = a
      · subst hb; rw [hg, get_set_self hg]; simp
      · rw [get_set_ne hb]
    have hname : ∀ x, nameOf (hset h r1 a (.plain v)) x = none ↔ nameOf h x = none := by
      intro x
      by_cases hx : x = r1
      · subst hx
        rw [nameOf_eq_none_iff ho, nameOf_eq_none_iff (hset_self ho _ _), hpl]
      · unfold nameOf; rw [hset_ne hx]
    refine ⟨by rw [hset_length], fun x o' ho' => ?_, fun x hx => ?_, ?_⟩
    · by_cases hx : x = r1
      · subst hx
        rw [ho] at ho'; cases ho'
        exact ⟨_, hset_self ho _ _, rfl, keys_setA _ _ _, hpl, fun h => absurd rfl h⟩
      · exact ⟨o', by rw [hset_ne hx]; exact ho', rfl, rfl, fun _ => Iff.rfl, fun _ _ _ _ h => h⟩
    · rw [hname]; exact nameOf_ge hx
    · rintro x c ⟨o', b, es, ho', hm, hc⟩
      rw [hname]
      by_cases hx : x = r1
      · subst hx
        rw [hset_self ho] at ho'; cases ho'
        rcases mem_setA hm with hm | ⟨_, hm⟩
        · exact he x c ⟨o, b, es, ho, hm, hc⟩
        · cases hm
      · rw [hset_ne hx] at ho'
        exact he x c ⟨o', b, es, ho', hm, hc⟩

/-! ### copy -/

/-- same key and same kind of value -/
def SameKind (av av' : String × AttrVal) : Prop := av'.1 = av.1 ∧ ((∃ v, av.2 = .plain v) ↔ ∃ v, av'.2 = .plain v)

theorem sameKind_isPlain {o o' : Obj} (h : List.Forall₂ SameKind o.attrs o'.attrs) (a : String) :
    IsPlain o a ↔ IsPlain o' a := by
  obtain ⟨c, l⟩ := o
  obtain ⟨c', l'⟩ := o'
  simp only [IsPlain, Obj.get] at *
  induction h with
  | nil => simp
  | cons hx _ ih =>
    rename_i x y l l' _
    obtain ⟨b, v⟩ := x
    obtain ⟨b', v'⟩ := y
    obtain ⟨hk, hs⟩ := hx
    simp only at hk hs
    subst hk
    simp only [List.lookup_cons]
    split
    · simpa using hs
    · exact ih

theorem sameKind_keys {l l' : List (String × AttrVal)} (h : List.Forall₂ SameKind l l') :
    l'.map (·.1) = l.map (·.1) := by
  induction h with
  | nil => rfl
  | cons hx _ ih => simp [hx.1, ih]

theorem blank_sameKind (o : Obj) : List.Forall₂ SameKind o.attrs (blank o).attrs := by
  unfold blank
  simp only
  induction o.attrs with
  | nil => exact .nil
  | cons x l ih =>
    refine .cons ⟨rfl, ?_⟩ ih
    obtain ⟨a, v⟩ := x
    cases v <;> simp

theorem copyAll_frame (fuel : Nat)
    (ih : ∀ (st : St) r st' r', ElemsNameless st.1 → nameOf st.1 r = none → copy fuel st r = .ok (st', r') →
      (∀ r1, Frame r1 st.1 st'.1) ∧ nameOf st'.1 r' = none ∧ Ext st st')
    (es : List Elem) (st st' : St) (es' : List Elem) (he : ElemsNameless st.1)
    (hes : ∀ c, .ref c ∈ es → nameOf st.1 c = none) (h : copyAll (copy fuel) st es = .ok (st', es')) :
    (∀ r1, Frame r1 st.1 st'.1) ∧ (∀ c, .ref c ∈ es' → nameOf st'.1 c = none) ∧ Ext st st' := by
  unfold copyAll at h
  have gen : ∀ (es : List Elem) (st1 st' : St) (acc es' : List Elem), (∀ r1, Frame r1 st.1 st1.1) → Ext st st1 →
      (∀ c, .ref c ∈ acc → nameOf st1.1 c = none) → (∀ c, .ref c ∈ es → nameOf st.1 c = none) →
      es.foldlM (copyElem (copy fuel)) (st1, acc) = .ok (st', es') →
      (∀ r1, Frame r1 st.1 st'.1) ∧ (∀ c, .ref c ∈ es' → nameOf st'.1 c = none) ∧ Ext st st' := by
    intro es
    induction es with
    | nil =>
      intro st1 st' acc es' hf hext hacc _ h
      have := foldlM_nil_ok h
      cases this
      exact ⟨hf, hacc, hext⟩
    | cons e es ihes =>
      intro st1 st' acc es' hf hext hacc hes h
      obtain ⟨b1, h1, h2⟩ := foldlM_cons_ok h
      unfold copyElem at h1
      cases e with
      | raw k s => simp at h1
      | ref c =>
        simp only at h1
        cases hcp : copy fuel st1 c with
        | error e => rw [hcp] at h1; simp at h1
        | ok x =>
          obtain ⟨st2, c'⟩ := x
          rw [hcp] at h1
          simp at h1
          subst h1
          obtain ⟨f2, n2, e2⟩ := ih st1 c st2 c' (hf 0).elems (((hf 0).nameOf_iff c).2 (hes c (by simp))) hcp
          refine ihes st2 st' _ es' (fun r1 => (hf r1).trans (f2 r1)) (hext.trans e2) ?_
            (fun c hc => hes c (by simp [hc])) h2
          intro d hd
          rcases List.mem_append.1 hd with hd | hd
          · exact ((f2 0).nameOf_iff d).2 (hacc d hd)
          · simp at hd; subst hd; exact n2
  exact gen es st st' [] es' (fun r1 => Frame.refl r1 he) (Ext.refl _) (by simp) hes h

theorem copy_frame (fuel : Nat) (st : St) (r : Ref) (st' : St) (r' : Ref) (he : ElemsNameless st.1)
    (hr : nameOf st.1 r = none) (h : copy fuel st r = .ok (st', r')) :
    (∀ r1, Frame r1 st.1 st'.1) ∧ nameOf st'.1 r' = none ∧ Ext st st' := by
  induction fuel generalizing st r st' r' with
  | zero => simp [copy] at h
  | succ fuel ih =>
    unfold copy at h
    cases ho : st.1[r]? with
    | none => rw [ho] at h; simp at h
    | some o =>
      rw [ho] at h
      simp only at h
      cases hf : o.attrs.foldlM (copyAttr (copy fuel)) ((st.1 ++ [blank o], st.2 ++ [st.1.length]), []) with
      | error e => rw [hf] at h; simp at h
      | ok x =>
        obtain ⟨st2, attrs⟩ := x
        rw [hf] at h
        simp only [Except.ok.injEq, Prod.mk.injEq] at h
        obtain ⟨hst', hr'⟩ := h
        subst hst'
        subst hr'
        -- the heap with the blank object
        have hnb : ¬ IsPlain (blank o) "name" := by
          rw [← sameKind_isPlain (blank_sameKind o)]; exact (nameOf_eq_none_iff ho).1 hr
        have hget0 : ∀ (x : Ref) o', x < st.1.length → ((st.1 ++ [blank o])[x]? = some o' ↔ st.1[x]? = some o') := by
          intro x o' hx; rw [List.getElem?_append_left hx]
        have hname0 : ∀ x, nameOf (st.1 ++ [blank o]) x = none ↔ nameOf st.1 x = none := by
          intro x
          rcases Nat.lt_trichotomy x st.1.length with hx | hx | hx
          · unfold nameOf; rw [List.getElem?_append_left hx]
          · subst hx
            rw [nameOf_ge (Nat.le_refl _), nameOf_eq_none_iff (o := blank o) (by simp)]
            simp [hnb]
          · rw [nameOf_ge (by simp; omega), nameOf_ge (by omega)]
        have f0 : ∀ r1, Frame r1 st.1 (st.1 ++ [blank o]) := by
          intro r1
          refine ⟨by simp, fun x o' ho' => ?_, fun x hx => ?_, ?_⟩
          · have hx := (List.getElem?_eq_some_iff.1 ho').1
            exact ⟨o', (hget0 x o' hx).2 ho', rfl, rfl, fun _ => Iff.rfl, fun _ _ _ _ h => h⟩
          · rw [hname0]; exact nameOf_ge hx
          · rintro x c ⟨o', a, es, ho', hm, hc⟩
            rw [hname0]
            by_cases hx : x < st.1.length
            · exact he x c ⟨o', a, es, (hget0 x o' hx).1 ho', hm, hc⟩
            · have hx' : x = st.1.length := by
                have := (List.getElem?_eq_some_iff.1 ho').1
                simp at this
                exact Nat.le_antisymm (Nat.lt_succ_iff.1 this) (Nat.not_lt.1 hx)
              subst hx'
              simp at ho'
              subst ho'
              unfold blank at hm
              simp only [List.mem_map, Prod.mk.injEq] at hm
              obtain ⟨⟨b, w⟩, _, hb, hw⟩ := hm
              cases w with
              | plain v => simp at hw
              | list v => simp at hw; subst hw; simp at hc
        have extInit : Ext st (st.1 ++ [blank o], st.2 ++ [st.1.length]) := by
          refine ⟨by simp, fun i hi => ?_, by simp⟩
          simp only; rw [List.getElem?_append_left hi]
        have gen : ∀ (l : List (String × AttrVal)) (done acc : List (String × AttrVal)) (st1 st2 : St) attrs,
            (∀ av ∈ l, av ∈ o.attrs) → (∀ r1, Frame r1 (st.1 ++ [blank o]) st1.1) →
            Ext (st.1 ++ [blank o], st.2 ++ [st.1.length]) st1 → List.Forall₂ SameKind done acc →
            (∀ a es c, (a, AttrVal.list (some es)) ∈ acc → .ref c ∈ es → nameOf st1.1 c = none) →
            l.foldlM (copyAttr (copy fuel)) (st1, acc) = .ok (st2, attrs) →
            (∀ r1, Frame r1 (st.1 ++ [blank o]) st2.1) ∧ Ext (st.1 ++ [blank o], st.2 ++ [st.1.length]) st2 ∧
            List.Forall₂ SameKind (done ++ l) attrs ∧
            (∀ a es c, (a, AttrVal.list (some es)) ∈ attrs → .ref c ∈ es → nameOf st2.1 c = none) := by
          intro l
          induction l with
          | nil =>
            intro done acc st1 st2 attrs _ hfr hext hfa hn h
            have := foldlM_nil_ok h
            cases this
            exact ⟨hfr, hext, by simpa using hfa, hn⟩
          | cons av l ihl =>
            intro done acc st1 st2 attrs hsub hfr hext hfa hn h
            obtain ⟨b1, h1, h2⟩ := foldlM_cons_ok h
            have hsub' : ∀ av ∈ l, av ∈ o.attrs := fun av hav => hsub av (by simp [hav])
            obtain ⟨a, v⟩ := av
            have simple : ∀ v', SameKind (a, v) (a, v') →
                (∀ es c, v' = .list (some es) → .ref c ∈ es → nameOf st1.1 c = none) →
                b1 = (st1, acc ++ [(a, v')]) →
                (∀ r1, Frame r1 (st.1 ++ [blank o]) st2.1) ∧ Ext (st.1 ++ [blank o], st.2 ++ [st.1.length]) st2 ∧
                List.Forall₂ SameKind (done ++ (a, v) :: l) attrs ∧
                (∀ a es c, (a, AttrVal.list (some es)) ∈ attrs → .ref c ∈ es → nameOf st2.1 c = none) :=
              fun v' hsame hv' hb => by
              subst hb
              have := ihl (done ++ [(a, v)]) (acc ++ [(a, v')]) st1 st2 attrs hsub' hfr hext
                (List.rel_append hfa (.cons hsame .nil))
                (fun b es c hm hc => by
                  rcases List.mem_append.1 hm with hm | hm
                  · exact hn b es c hm hc
                  · simp at hm; exact hv' es c hm.2.symm hc) h2
              rw [List.append_assoc] at this
              exact this
            cases v with
            | plain v =>
              simp [copyAttr] at h1
              exact simple (.plain v) ⟨rfl, by simp⟩ (by simp) h1.symm
            | list v =>
              cases v with
              | none =>
                simp [copyAttr] at h1
                exact simple (.list none) ⟨rfl, by simp⟩ (by simp) h1.symm
              | some es =>
                have hes : ∀ c, .ref c ∈ es → nameOf st1.1 c = none := by
                  intro c hc
                  rw [(hfr 0).nameOf_iff, hname0]
                  exact he r c ⟨o, a, es, ho, hsub _ (by simp), hc⟩
                simp only [copyAttr] at h1
                split at h1
                · simp only [Except.ok.injEq] at h1
                  refine simple (.list (some es)) ⟨rfl, by simp⟩ ?_ h1.symm
                  intro es' c he hc
                  cases he
                  exact hes c hc
                · cases hca : copyAll (copy fuel) st1 es with
                  | error e => rw [hca] at h1; simp at h1
                  | ok x =>
                    obtain ⟨st3, es'⟩ := x
                    rw [hca] at h1
                    simp only [Except.ok.injEq] at h1
                    subst h1
                    obtain ⟨f3, n3, e3⟩ := copyAll_frame fuel ih es st1 st3 es' (hfr 0).elems hes hca
                    have := ihl (done ++ [(a, .list (some es))]) (acc ++ [(a, .list (some es'))]) st3 st2 attrs hsub'
                      (fun r1 => (hfr r1).trans (f3 r1)) (hext.trans e3)
                      (List.rel_append hfa (.cons ⟨rfl, by simp⟩ .nil))
                      (fun b es c hm hc => by
                        rcases List.mem_append.1 hm with hm | hm
                        · exact ((f3 0).nameOf_iff c).2 (hn b es c hm hc)
                        · simp at hm; exact n3 c (hm.2 ▸ hc)) h2
                    rw [List.append_assoc] at this
                    exact this
        obtain ⟨hfr, hext, hfa, hn⟩ := gen o.attrs [] [] _ st2 attrs (fun _ h => h)
          (fun r1 => Frame.refl r1 (f0 0).elems) (Ext.refl _) .nil (by simp) hf
        simp only [List.nil_append] at hfa
        have hlen2 : st.1.length + 1 ≤ st2.1.length := by have := hext.le; simpa using this
        have hnp : ¬ IsPlain ⟨o.cls, attrs⟩ "name" := by
          rw [← sameKind_isPlain (o := o) (o' := ⟨o.cls, attrs⟩) hfa]; exact (nameOf_eq_none_iff ho).1 hr
        have hnewget : (st2.1.set st.1.length ⟨o.cls, attrs⟩)[st.1.length]? = some ⟨o.cls, attrs⟩ := by
          rw [List.getElem?_set_self (by omega)]
        have hnameN : nameOf (st2.1.set st.1.length ⟨o.cls, attrs⟩) st.1.length = none :=
          (nameOf_eq_none_iff hnewget).2 hnp
        have hname1 : ∀ x, nameOf (st2.1.set st.1.length ⟨o.cls, attrs⟩) x = none ↔ nameOf st2.1 x = none := by
          intro x
          by_cases hx : x = st.1.length
          · subst hx
            rw [hnameN, (hfr 0).nameOf_iff, hname0, nameOf_ge (Nat.le_refl _)]
          · unfold nameOf; rw [List.getElem?_set_ne (Ne.symm hx)]
        refine ⟨fun r1 => ⟨by simp; omega, fun x o' ho' => ?_, fun x hx => ?_, ?_⟩, hnameN, ?_⟩
        · have hx := (List.getElem?_eq_some_iff.1 ho').1
          refine ⟨o', ?_, rfl, rfl, fun _ => Iff.rfl, fun _ _ _ _ h => h⟩
          simp only
          rw [List.getElem?_set_ne (by omega), hext.same x (by simp; omega)]
          exact (hget0 x o' hx).2 ho'
        · simp only
          rw [hname1, (hfr 0).nameOf_iff, hname0]; exact nameOf_ge hx
        · rintro x c ⟨o', a, es, ho', hm, hc⟩
          simp only at ho' ⊢
          rw [hname1]
          by_cases hx : x = st.1.length
          · subst hx
            rw [hnewget] at ho'; cases ho'
            exact hn a es c hm hc
          · rw [List.getElem?_set_ne (Ne.symm hx)] at ho'
            exact (hfr 0).elems x c ⟨o', a, es, ho', hm, hc⟩
        · have e2 := extInit.trans hext
          refine ⟨by simp; omega, fun i hi => ?_, ?_⟩
          · simp only
            rw [List.getElem?_set_ne (by omega)]
            exact e2.same i hi
          · simp only [List.length_set]; exact e2.models

end Ditto.Heap
