import Verif.Lemmas.Copy
import Verif.Props.Delete

/-! C11: `Modifier.add` appends faithful and independent copies. -/
namespace Ditto.Heap
open Ditto

theorem SameObj.lt {h h' : Heap} {lo n : Nat} {r r' : Ref} (hs : SameObj h h' lo n r r') : r' < h'.length := by
  cases n with
  | zero => exact hs.elim
  | succ n => obtain ⟨_, _, _, ho, _⟩ := hs; exact (List.getElem?_eq_some_iff.1 ho).1

theorem SameObj.owned_back {h h1 h2 : Heap} {lo n : Nat} {r r' x : Ref} (hs : SameObj h h1 lo n r r')
    (hag : ∀ i : Nat, i < h1.length → h2[i]? = h1[i]?) (ho : Owned h2 r' x) : ∃ m c, SameObj h h1 lo m c x := by
  unfold Owned at ho
  induction ho with
  | refl => exact ⟨n, r, hs⟩
  | tail _ hc ih =>
    obtain ⟨m, c, hm⟩ := ih
    exact hm.child (child_agree hc (hag _ hm.lt).symm)

/-- Entry of the list of copies: name, original, copy. -/
abbrev Copied := Option Atom × Ref × Ref

theorem add_fold (h0 : Heap) (hcl : Closed h0) (fuel : Nat) (l : List (Option Atom × Ref)) (st st' : St)
    (hag : ∀ i : Nat, i < h0.length → st.1[i]? = h0[i]?) (hle : h0.length ≤ st.1.length)
    (hl : ∀ kr ∈ l, kr.2 < h0.length)
    (h : l.foldlM (addStep fuel) st = .ok st') :
    Ext st st' ∧ ∃ cs : List Copied, cs.map (fun c => (c.1, c.2.1)) = l ∧
      (∀ c ∈ cs, SameObj h0 st'.1 st.1.length fuel c.2.1 c.2.2) ∧
      cs.Pairwise (fun c c' => ∀ x, Owned st'.1 c.2.2 x → ¬ Owned st'.1 c'.2.2 x) ∧
      ∀ x, st.1.length ≤ x → x < st'.1.length → ∃ c ∈ cs, Owned st'.1 c.2.2 x := by
  induction l generalizing st with
  | nil =>
    have := foldlM_nil_ok h
    subst this
    exact ⟨Ext.refl _, [], rfl, by simp, .nil, fun x h1 h2 => absurd h2 (Nat.not_lt.2 h1)⟩
  | cons kr l ih =>
    obtain ⟨st1, h1, h2⟩ := foldlM_cons_ok h
    unfold addStep at h1
    cases hc : copy fuel st kr.2 with
    | error e => rw [hc] at h1; simp at h1
    | ok x =>
      obtain ⟨st1', r'⟩ := x
      rw [hc] at h1
      simp only [Except.ok.injEq] at h1
      subst h1
      have sp := copy_spec h0 hcl fuel st kr.2 st1' r' hag hle (hl kr (by simp)) hc
      obtain ⟨hext, cs, hmap, hsame, hpw, hall⟩ := ih st1' (fun i hi => by
        rw [sp.ext.same i (Nat.lt_of_lt_of_le hi hle), hag i hi]) (Nat.le_trans hle sp.ext.le)
        (fun kr h => hl kr (by simp [h])) h2
      refine ⟨sp.ext.trans hext, (kr.1, kr.2, r') :: cs, by simp [hmap], ?_, ?_, ?_⟩
      · intro c hc
        rcases List.mem_cons.1 hc with rfl | hc
        · exact sp.same.mono (Nat.le_refl _) (fun i _ hi => hext.same i hi)
        · exact (hsame c hc).mono sp.ext.le (fun _ _ _ => rfl)
      · refine List.Pairwise.cons ?_ hpw
        intro c hc x ho ho'
        obtain ⟨m, d, hm⟩ := sp.same.owned_back (fun i hi => hext.same i hi) ho
        have h1 := hm.lt
        have h2 := (hsame c hc).owned_lo ho'
        exact absurd h1 (Nat.not_lt.2 h2)
      · intro x hx1 hx2
        by_cases hx : x < st1'.1.length
        · refine ⟨(kr.1, kr.2, r'), by simp, ?_⟩
          exact owned_mono (lo := 0) (sp.owned x hx1 hx) (fun _ _ => Nat.zero_le _) (fun i _ hi => hext.same i hi)
        · obtain ⟨c, hc, ho⟩ := hall x (Nat.le_of_not_lt hx) hx2
          exact ⟨c, by simp [hc], ho⟩

theorem names_lookup_iff (h : Heap) (ms : List Ref) (k : Option Atom) (r : Ref) :
    (setNames h ⟨ms, []⟩).names.lookup k = some r ↔ IsLastNamed h ms k r := by
  rw [← C07_lookup_last h ⟨ms, []⟩, Store.getItem]
  cases (setNames h ⟨ms, []⟩).names.lookup k with
  | none => simp
  | some r' => simp

theorem keys_nodup_dictSet (k : Option Atom) (r : Ref) (d : Names) (hd : (d.map (·.1)).Nodup) :
    ((dictSet k r d).map (·.1)).Nodup ∧ ∀ k', k' ∈ (dictSet k r d).map (·.1) ↔ k' = k ∨ k' ∈ d.map (·.1) := by
  induction d with
  | nil => simp [dictSet]
  | cons x d ih =>
    obtain ⟨k1, r1⟩ := x
    simp only [List.map_cons, List.nodup_cons] at hd
    unfold dictSet
    split
    · rename_i heq
      subst heq
      simp only [List.map_cons, List.nodup_cons]
      exact ⟨hd, by intro k'; simp⟩
    · rename_i hne
      obtain ⟨h1, h2⟩ := ih hd.2
      simp only [List.map_cons, List.nodup_cons]
      refine ⟨⟨?_, h1⟩, fun k' => ?_⟩
      · rw [h2]; rintro (h | h)
        · exact hne h
        · exact hd.1 h
      · rw [List.mem_cons, h2, List.mem_cons]; tauto

theorem names_keys_nodup (h : Heap) (s : Store) : ((setNames h s).names.map (·.1)).Nodup := by
  unfold setNames
  simp only
  suffices ∀ (ms : List Ref) (d : Names), (d.map (·.1)).Nodup → ((ms.foldl (setName h) d).map (·.1)).Nodup from
    this _ _ (by simp)
  intro ms
  induction ms with
  | nil => intro d hd; exact hd
  | cons r ms ih =>
    intro d hd
    apply ih
    unfold setName
    split
    · exact hd
    · exact (keys_nodup_dictSet _ _ _ hd).1

theorem lookup_iff_mem {d : Names} (hd : (d.map (·.1)).Nodup) (k : Option Atom) (r : Ref) :
    d.lookup k = some r ↔ (k, r) ∈ d := by
  induction d with
  | nil => simp
  | cons x d ih =>
    obtain ⟨k1, r1⟩ := x
    simp only [List.map_cons, List.nodup_cons] at hd
    rw [List.lookup_cons]
    by_cases hk : k = k1
    · subst hk
      simp only [beq_self_eq_true, List.mem_cons, Prod.mk.injEq, true_and, Option.some.injEq]
      constructor
      · intro h; exact .inl h.symm
      · rintro (h | h)
        · exact h.symm
        · exact absurd (List.mem_map_of_mem (f := (·.1)) h) hd.1
    · have : (k == k1) = false := by simpa using hk
      rw [this]
      simp only [List.mem_cons, Prod.mk.injEq, hk, false_and, false_or]
      exact ih hd.2

theorem mem_names_iff_last (h : Heap) (s : Store) (k : Option Atom) (r : Ref) :
    (k, r) ∈ (setNames h s).names ↔ IsLastNamed h s.models k r := by
  rw [← lookup_iff_mem (names_keys_nodup h s)]
  exact names_lookup_iff h s.models k r

theorem isLastNamed_mem {h : Heap} {ms : List Ref} {k : Option Atom} {r : Ref} (hl : IsLastNamed h ms k r) :
    r ∈ ms := by
  obtain ⟨pre, post, hms, _⟩ := hl
  rw [hms]; simp

/-- C11: for all models whose objects refer to existing objects, if `add` succeeds then
1. no object that existed before (of `model_1`, of `model_2`, or else) is changed,
2. `model_1` keeps its objects and is extended by exactly the newly created ones,
3. there is exactly one copy for each name in `model_2`, of the last object with that name,
4. each copy is structurally equal to the original and consists of newly created objects only,
5. the copies do not share objects, and every new object belongs to one of them. -/
theorem C11_add (fuel : Nat) (h : Heap) (s1 s2 : Store) (h' : Heap) (s' : Store) (hcl : Closed h)
    (hs2 : ∀ r ∈ s2.models, r < h.length) (hadd : add fuel h s1 s2 = .ok (h', s')) :
    (∀ i : Nat, i < h.length → h'[i]? = h[i]?) ∧
    s'.models = s1.models ++ List.range' h.length (h'.length - h.length) ∧
    ∃ cs : List Copied, (cs.map (·.1)).Nodup ∧
      (∀ k r, (∃ r', (k, r, r') ∈ cs) ↔ IsLastNamed h s2.models k r) ∧
      (∀ c ∈ cs, SameObj h h' h.length fuel c.2.1 c.2.2 ∧ ∀ x, Owned h' c.2.2 x → h.length ≤ x) ∧
      cs.Pairwise (fun c c' => ∀ x, Owned h' c.2.2 x → ¬ Owned h' c'.2.2 x) ∧
      ∀ x, h.length ≤ x → x < h'.length → ∃ c ∈ cs, Owned h' c.2.2 x := by
  unfold add at hadd
  cases hf : (setNames h s2).names.foldlM (addStep fuel) (h, s1.models) with
  | error e => rw [hf] at hadd; simp at hadd
  | ok x =>
    obtain ⟨h1, ms⟩ := x
    rw [hf] at hadd
    simp only [Except.ok.injEq, Prod.mk.injEq] at hadd
    obtain ⟨rfl, rfl⟩ := hadd
    obtain ⟨hext, cs, hmap, hsame, hpw, hall⟩ := add_fold h hcl fuel _ (h, s1.models) (h1, ms) (fun _ _ => rfl)
      (Nat.le_refl _) (fun kr hkr => hs2 _ (isLastNamed_mem ((mem_names_iff_last h s2 kr.1 kr.2).1 hkr))) hf
    refine ⟨hext.same, hext.models, cs, ?_, ?_, fun c hc => ⟨hsame c hc, fun x => (hsame c hc).owned_lo⟩, hpw, hall⟩
    · have := names_keys_nodup h s2
      rw [← hmap, List.map_map] at this
      exact this
    · intro k r
      rw [← mem_names_iff_last, ← hmap]
      simp only [List.mem_map, Prod.mk.injEq]
      constructor
      · rintro ⟨r', hr'⟩; exact ⟨_, hr', rfl, rfl⟩
      · rintro ⟨⟨k1, r1, r'⟩, hm, rfl, rfl⟩; exact ⟨r', hm⟩

theorem copyAttr_ok (h0 : Heap) (hcl : Closed h0) (fuel : Nat) (r : Ref) (o : Obj) (ho : h0[r]? = some o)
    (htyped : ∀ e ∈ children o, ∃ c : Ref, e = .ref c)
    (ih : ∀ (st : St) (c : Ref), (∀ i : Nat, i < h0.length → st.1[i]? = h0[i]?) → h0.length ≤ st.1.length →
      Child h0 r c → ∃ x, copy fuel st c = .ok x)
    (l : List (String × AttrVal)) (hl : ∀ av ∈ l, av ∈ o.attrs) (st : St) (acc : List (String × AttrVal))
    (hag : ∀ i : Nat, i < h0.length → st.1[i]? = h0[i]?) (hle : h0.length ≤ st.1.length) :
    ∃ x, l.foldlM (copyAttr (copy fuel)) (st, acc) = .ok x := by
  induction l generalizing st acc with
  | nil => exact ⟨_, rfl⟩
  | cons av l ihl =>
    have hl' : ∀ av ∈ l, av ∈ o.attrs := fun av h => hl av (by simp [h])
    obtain ⟨a, v⟩ := av
    have easy : ∀ v', copyAttr (copy fuel) (st, acc) (a, v) = .ok (st, acc ++ [(a, v')]) →
        ∃ x, ((a, v) :: l).foldlM (copyAttr (copy fuel)) (st, acc) = .ok x := fun v' h1 => by
      obtain ⟨x, hx⟩ := ihl hl' st (acc ++ [(a, v')]) hag hle
      exact ⟨x, foldlM_cons_intro h1 hx⟩
    cases v with
    | plain v => exact easy (.plain v) rfl
    | list v =>
      cases v with
      | none => exact easy (.list none) rfl
      | some es =>
        by_cases hsp : (special a || es.isEmpty) = true
        · exact easy (.list (some es)) (by simp only [copyAttr, hsp, if_true])
        · have hspa : special a = false := by
            rw [Bool.or_eq_true, not_or] at hsp
            simpa using hsp.1
          have hch : ∀ e ∈ es, ∃ c : Ref, e = .ref c ∧ Child h0 r c := by
            intro e he
            obtain ⟨c, rfl⟩ := htyped e (by
              unfold children
              exact List.mem_flatMap.2 ⟨(a, .list (some es)), hl _ (by simp), by simp [hspa, he]⟩)
            exact ⟨c, rfl, o, a, es, ho, hl _ (by simp), hspa, he⟩
          have hall : ∀ (es : List Elem) (st : St) (acc : List Elem),
              (∀ e ∈ es, ∃ c : Ref, e = .ref c ∧ Child h0 r c) →
              (∀ i : Nat, i < h0.length → st.1[i]? = h0[i]?) → h0.length ≤ st.1.length →
              ∃ x, es.foldlM (copyElem (copy fuel)) (st, acc) = .ok x ∧
                (∀ i : Nat, i < h0.length → x.1.1[i]? = h0[i]?) ∧ h0.length ≤ x.1.1.length := by
            intro es
            induction es with
            | nil => intro st acc _ h1 h2; exact ⟨_, rfl, h1, h2⟩
            | cons e es ihes =>
              intro st acc hch h1 h2
              obtain ⟨c, rfl, hc⟩ := hch e (by simp)
              obtain ⟨⟨st', c'⟩, hcp⟩ := ih st c h1 h2 hc
              have sp := copy_spec h0 hcl fuel st c st' c' h1 h2 (hcl r c hc) hcp
              obtain ⟨x, hx, hx1, hx2⟩ := ihes st' (acc ++ [.ref c']) (fun e he => hch e (by simp [he]))
                (fun i hi => by rw [sp.ext.same i (Nat.lt_of_lt_of_le hi h2), h1 i hi]) (Nat.le_trans h2 sp.ext.le)
              exact ⟨x, foldlM_cons_intro (by simp only [copyElem, hcp]) hx, hx1, hx2⟩
          obtain ⟨⟨st', es'⟩, hx, hx1, hx2⟩ := hall es st [] hch hag hle
          obtain ⟨y, hy⟩ := ihl hl' st' (acc ++ [(a, .list (some es'))]) hx1 hx2
          refine ⟨y, foldlM_cons_intro ?_ hy⟩
          simp only [copyAttr, if_neg hsp, copyAll, hx]

theorem copy_ok (h0 : Heap) (hcl : Closed h0)
    (htyped : ∀ (r : Ref) o e, h0[r]? = some o → e ∈ children o → ∃ c : Ref, e = .ref c)
    (rank : Ref → Nat) (hrank : ∀ r c, Child h0 r c → rank c < rank r)
    (fuel : Nat) (st : St) (r : Ref) (hr : r < h0.length) (hf : rank r < fuel)
    (hag : ∀ i : Nat, i < h0.length → st.1[i]? = h0[i]?) (hle : h0.length ≤ st.1.length) :
    ∃ x, copy fuel st r = .ok x := by
  induction fuel generalizing st r with
  | zero => omega
  | succ fuel ih =>
    have ho0 : h0[r]? = some h0[r] := List.getElem?_eq_getElem hr
    have ho : st.1[r]? = some h0[r] := by rw [hag r hr, ho0]
    obtain ⟨⟨st', attrs⟩, hx⟩ := copyAttr_ok h0 hcl fuel r h0[r] ho0 (fun e he => htyped r _ e ho0 he)
      (fun st c h1 h2 hc => ih st c (hcl r c hc) (by have := hrank r c hc; omega) h1 h2)
      h0[r].attrs (fun _ h => h) (st.1 ++ [blank h0[r]], st.2 ++ [st.1.length]) []
      (fun i hi => by simp only; rw [List.getElem?_append_left (Nat.lt_of_lt_of_le hi hle), hag i hi])
      (by simp; omega)
    exact ⟨_, by simp only [copy, ho, hx]; rfl⟩

/-- C11: `add` does not raise on models as built by the readers, as long as the nesting is below the recursion
limit. -/
theorem C11_succeeds (fuel : Nat) (h : Heap) (s1 s2 : Store) (hF : Forest h fuel)
    (hs2 : ∀ r ∈ s2.models, r < h.length) : ∃ x, add fuel h s1 s2 = .ok x := by
  obtain ⟨rank, hrank, hlim⟩ := hF.rank
  have hcl : Closed h := by
    rintro r c ⟨o, a, es, ho, hav, hsp, hm⟩
    obtain ⟨c', o', he, ho'⟩ := hF.typed r o (.ref c) ho (by
      unfold children
      exact List.mem_flatMap.2 ⟨_, hav, by simp [hsp, hm]⟩)
    cases he
    exact (List.getElem?_eq_some_iff.1 ho').1
  have hfold : ∀ (l : List (Option Atom × Ref)) (st : St), (∀ kr ∈ l, kr.2 < h.length) →
      (∀ i : Nat, i < h.length → st.1[i]? = h[i]?) → h.length ≤ st.1.length →
      ∃ x, l.foldlM (addStep fuel) st = .ok x := by
    intro l
    induction l with
    | nil => intro st _ _ _; exact ⟨_, rfl⟩
    | cons kr l ih =>
      intro st hl h1 h2
      obtain ⟨⟨st', r'⟩, hc⟩ := copy_ok h hcl (fun r o e ho he => by
        obtain ⟨c, _, hc, _⟩ := hF.typed r o e ho he; exact ⟨c, hc⟩) rank hrank fuel st kr.2 (hl kr (by simp))
        (hlim _) h1 h2
      have sp := copy_spec h hcl fuel st kr.2 st' r' h1 h2 (hl kr (by simp)) hc
      obtain ⟨x, hx⟩ := ih st' (fun kr h => hl kr (by simp [h]))
        (fun i hi => by rw [sp.ext.same i (Nat.lt_of_lt_of_le hi h2), h1 i hi]) (Nat.le_trans h2 sp.ext.le)
      exact ⟨x, foldlM_cons_intro (by simp only [addStep, hc]) hx⟩
  obtain ⟨x, hx⟩ := hfold (setNames h s2).names (h, s1.models)
    (fun kr hkr => hs2 _ (isLastNamed_mem ((mem_names_iff_last h s2 kr.1 kr.2).1 hkr))) (fun _ _ => rfl)
    (Nat.le_refl _)
  exact ⟨_, by simp only [add, hx]; rfl⟩

/-- a line with two wires, an unrelated line in `model_1` -/
example : ∃ h' s', add 1000 exLine ⟨[3], []⟩ ⟨[0, 1, 2], []⟩ = .ok (h', s') ∧ s'.models = [3, 4, 5, 6] ∧
    h'[4]? = some { (exLine[0]'(by decide)) with
      attrs := (exLine[0]'(by decide)).attrs.map fun av => if av.1 = "wires" then
        (av.1, .list (some [.ref 5, .ref 6])) else av } :=
  ⟨_, _, by rfl, by decide, by decide⟩

end Ditto.Heap
