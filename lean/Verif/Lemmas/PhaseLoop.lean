import Verif.Lemmas.SetAttributes

namespace Ditto.Heap
open Ditto

/-- The bound on the number of iterations is never reached: more iterations do not change the result. -/
theorem phaseLoop_terminates (recur : St → Elem → Elem → Py St) (n : Nat) (st : St) (l1 : List Elem) (i : Nat)
    (l2 : List Elem) (hn : 2 * l2.length + (l1.length - i) ≤ n) :
    phaseLoop recur (n + 1) st l1 i l2 = phaseLoop recur n st l1 i l2 := by
  induction n generalizing st l1 i l2 with
  | zero =>
    have h2 : l2 = [] := by cases l2 with
      | nil => rfl
      | cons _ _ => simp at hn
    subst h2
    unfold phaseLoop
    cases l1[i]? <;> rfl
  | succ n ih =>
    cases l2 with
    | nil =>
      unfold phaseLoop
      cases l1[i]? <;> rfl
    | cons e2 rest =>
      have e1 : ∀ m, phaseLoop recur (m + 1) st l1 i (e2 :: rest) =
          match l1[i]? with
          | none => .ok (st, l1)
          | some e1 =>
            match phaseKey st.1 e1 with
            | .error e => .error e
            | .ok k1 =>
              match phaseKey st.1 e2 with
              | .error e => .error e
              | .ok k2 =>
                if k1 = k2 then
                  match recur st e1 e2 with
                  | .error e => .error e
                  | .ok st' => phaseLoop recur m st' l1 (i + 1) rest
                else if k1 < k2 then phaseLoop recur m st l1 (i + 1) (e2 :: rest)
                else phaseLoop recur m st (l1 ++ [e2]) i rest := by
        intro m
        conv_lhs => unfold phaseLoop
        cases l1[i]? <;> rfl
      rw [e1, e1]
      cases hl : l1[i]? with
      | none => rfl
      | some x =>
        have hi : i < l1.length := (List.getElem?_eq_some_iff.1 hl).1
        simp only [List.length_cons] at hn
        simp only
        cases phaseKey st.1 x with
        | error e => rfl
        | ok k1 =>
          cases phaseKey st.1 e2 with
          | error e => rfl
          | ok k2 =>
            simp only
            split
            · cases recur st x e2 with
              | error e => rfl
              | ok st' => exact ih st' l1 (i+1) rest (by omega)
            · split
              · exact ih st l1 (i+1) (e2 :: rest) (by simp only [List.length_cons]; omega)
              · exact ih st (l1 ++ [e2]) i rest (by simp only [List.length_append, List.length_singleton]; omega)

/-- Which phases the resulting list has, if the phases of the elements do not change during the loop. -/
theorem phaseLoop_keys {recur : St → Elem → Elem → Py St} (J : St → Prop) (S : Elem → Prop) (K : Elem → Nat)
    (hK : ∀ s, J s → ∀ e, S e → phaseKey s.1 e = .ok (K e))
    (hrec : ∀ st e1 e2 st', J st → S e1 → S e2 → K e1 = K e2 → recur st e1 e2 = .ok st' → J st')
    (n : Nat) (st : St) (l1 : List Elem) (i : Nat) (l2 : List Elem) (st' : St) (l orig : List Elem) (hJ : J st)
    (h1 : ∀ e ∈ l1, S e) (h2 : ∀ e ∈ l2, S e)
    (hn : 2 * l2.length + (l1.length - i) ≤ n) (horig : orig <+: l1)
    (hi : ∀ j e, j < i → orig[j]? = some e → ∀ e2 ∈ l2, K e ≤ K e2)
    (hs : l2.Pairwise (fun e e' => K e ≤ K e'))
    (h : phaseLoop recur n st l1 i l2 = .ok (st', l)) :
    J st' ∧ (∃ extra, l = l1 ++ extra) ∧
    (∀ e2 ∈ l2, (∃ e1 ∈ orig, K e2 ≤ K e1) → ∃ e ∈ l, K e = K e2) ∧
    ∀ e ∈ l, e ∈ l1 ∨ (e ∈ l2 ∧ ∃ e1 ∈ l1, K e < K e1) := by
  induction n generalizing st l1 i l2 with
  | zero =>
    simp only [phaseLoop, Except.ok.injEq, Prod.mk.injEq] at h
    obtain ⟨rfl, rfl⟩ := h
    have : l2 = [] := by cases l2 with
      | nil => rfl
      | cons _ _ => simp at hn
    subst this
    exact ⟨hJ, ⟨[], by simp⟩, by simp, fun e he => .inl he⟩
  | succ n ih =>
    unfold phaseLoop at h
    split at h
    · rename_i e1 e2 rest he1
      have hm1 : e1 ∈ l1 := List.mem_of_getElem? he1
      have hlt : i < l1.length := (List.getElem?_eq_some_iff.1 he1).1
      have hs2 : ∀ e ∈ rest, S e := fun e he => h2 e (by simp [he])
      have hK1 := hK st hJ e1 (h1 e1 hm1)
      have hK2 := hK st hJ e2 (h2 e2 (by simp))
      have hsr : rest.Pairwise (fun e e' => K e ≤ K e') := (List.pairwise_cons.1 hs).2
      have hsh : ∀ e ∈ rest, K e2 ≤ K e := (List.pairwise_cons.1 hs).1
      simp only [List.length_cons] at hn
      have horigi : ∀ e, orig[i]? = some e → e = e1 := by
        intro e he
        obtain ⟨t, rfl⟩ := horig
        rw [List.getElem?_append_left (List.getElem?_eq_some_iff.1 he).1, he] at he1
        simpa using he1
      rw [hK1, hK2] at h
      simp only at h
      split at h
      · rename_i hk
        split at h
        · simp at h
        · rename_i st1 hr
          obtain ⟨hJ', hex, hin, hout⟩ := ih st1 l1 (i+1) rest
            (hrec st e1 e2 st1 hJ (h1 e1 hm1) (h2 e2 (by simp)) hk hr) h1 hs2 (by omega) horig
            (fun j e hj hoj e' he' => by
              rcases Nat.lt_succ_iff_lt_or_eq.1 hj with hj | rfl
              · exact hi j e hj hoj e' (by simp [he'])
              · rw [horigi e hoj, hk]; exact hsh e' he') hsr h
          refine ⟨hJ', hex, fun e he hex1 => ?_, fun e he => ?_⟩
          · rcases List.mem_cons.1 he with rfl | he
            · obtain ⟨ex, rfl⟩ := hex
              exact ⟨e1, by simp [hm1], hk⟩
            · exact hin e he hex1
          · rcases hout e he with h | ⟨h, h'⟩
            · exact .inl h
            · exact .inr ⟨by simp [h], h'⟩
      · rename_i hk
        split at h
        · rename_i hlt'
          exact ih st l1 (i+1) (e2 :: rest) hJ h1 h2 (by simp only [List.length_cons]; omega) horig
            (fun j e hj hoj e' he' => by
              rcases Nat.lt_succ_iff_lt_or_eq.1 hj with hj | rfl
              · exact hi j e hj hoj e' he'
              · rw [horigi e hoj]
                rcases List.mem_cons.1 he' with rfl | he'
                · exact Nat.le_of_lt hlt'
                · exact Nat.le_trans (Nat.le_of_lt hlt') (hsh e' he')) hs h
        · rename_i hnlt
          have hgt : K e2 < K e1 := by omega
          obtain ⟨hJ', hex, hin, hout⟩ := ih st (l1 ++ [e2]) i rest hJ (fun e he => by
              rcases List.mem_append.1 he with he | he
              · exact h1 e he
              · simp at he; subst he; exact h2 e (by simp)) hs2
            (by simp only [List.length_append, List.length_singleton]; omega)
            (horig.trans (List.prefix_append _ _))
            (fun j e hj hoj e' he' => hi j e hj hoj e' (by simp [he'])) hsr h
          obtain ⟨ex, rfl⟩ := hex
          refine ⟨hJ', ⟨e2 :: ex, by simp⟩, fun e he hex1 => ?_, fun e he => ?_⟩
          · rcases List.mem_cons.1 he with rfl | he
            · exact ⟨e, by simp, rfl⟩
            · exact hin e he hex1
          · rcases hout e he with h | ⟨h, e', he', hlt'⟩
            · rcases List.mem_append.1 h with h | h
              · exact .inl h
              · simp at h; subst h
                exact .inr ⟨by simp, e1, hm1, hgt⟩
            · refine .inr ⟨by simp [h], ?_⟩
              rcases List.mem_append.1 he' with h | h
              · exact ⟨e', h, hlt'⟩
              · simp at h; subst h
                exact ⟨e1, hm1, Nat.lt_trans hlt' hgt⟩
    · rename_i l2 _ _ hno
      simp only [Except.ok.injEq, Prod.mk.injEq] at h
      obtain ⟨rfl, rfl⟩ := h
      refine ⟨hJ, ⟨[], by simp⟩, fun e2 he2 hex1 => ?_, fun e he => .inl he⟩
      cases l2 with
      | nil => simp at he2
      | cons x rest =>
        have hnone : l1[i]? = none := by
          cases hl : l1[i]? with
          | none => rfl
          | some e1 => exact absurd rfl (hno e1 x rest hl)
        have hle := List.getElem?_eq_none_iff.1 hnone
        obtain ⟨e1, he1, hle1⟩ := hex1
        obtain ⟨j, hj, hoj⟩ := List.mem_iff_getElem.1 he1
        have hjl : j < l1.length := Nat.lt_of_lt_of_le hj horig.length_le
        have := hi j e1 (by omega) (by rw [List.getElem?_eq_getElem hj, hoj]) e2 he2
        exact ⟨e1, horig.subset he1, by omega⟩

theorem insertByKey_sorted (k : Nat) (e : Elem) (l : List (Nat × Elem)) (hl : l.Pairwise (fun x y => x.1 ≤ y.1)) :
    (insertByKey k e l).Pairwise (fun x y => x.1 ≤ y.1) := by
  induction l with
  | nil => simp [insertByKey]
  | cons x l ih =>
    obtain ⟨k', e'⟩ := x
    obtain ⟨h1, h2⟩ := List.pairwise_cons.1 hl
    unfold insertByKey
    split
    · rename_i hk
      refine .cons ?_ hl
      intro y hy
      rcases List.mem_cons.1 hy with rfl | hy
      · exact Nat.le_of_lt hk
      · have h := h1 y hy
        simp only at h ⊢; omega
    · rename_i hk
      refine .cons ?_ (ih h2)
      intro y hy
      rcases List.mem_cons.1 ((insertByKey_perm k e l).mem_iff.1 hy) with rfl | hy
      · exact Nat.le_of_not_lt hk
      · exact h1 y hy

theorem sortKeyed_sorted (l : List (Nat × Elem)) : (sortKeyed l).Pairwise (fun x y => x.1 ≤ y.1) := by
  unfold sortKeyed
  suffices ∀ acc : List (Nat × Elem), acc.Pairwise (fun x y => x.1 ≤ y.1) →
    (l.foldl (fun acc x => insertByKey x.1 x.2 acc) acc).Pairwise (fun x y => x.1 ≤ y.1) from this [] .nil
  induction l with
  | nil => intro acc h; exact h
  | cons x l ih => intro acc h; exact ih _ (insertByKey_sorted _ _ _ h)

theorem sortByPhase_sorted {h : Heap} {l l' : List Elem} (hs : sortByPhase h l = .ok l') (K : Elem → Nat)
    (hK : ∀ e ∈ l, ∀ k, phaseKey h e = .ok k → K e = k) : l'.Pairwise (fun e e' => K e ≤ K e') := by
  unfold sortByPhase at hs
  split at hs
  · simp at hs
  · rename_i ks hks
    simp only [Except.ok.injEq] at hs
    subst hs
    obtain ⟨hm, hk⟩ := mapM_keys hks
    rw [List.pairwise_map]
    refine (sortKeyed_sorted ks).imp_of_mem ?_
    intro x y hx hy hxy
    have hx' := (sortKeyed_perm ks).mem_iff.1 hx
    have hy' := (sortKeyed_perm ks).mem_iff.1 hy
    rw [hK x.2 (hm ▸ List.mem_map_of_mem hx') x.1 (hk x hx'), hK y.2 (hm ▸ List.mem_map_of_mem hy') y.1 (hk y hy')]
    exact hxy

theorem sortByPhase_keys {h : Heap} {l l' : List Elem} (hs : sortByPhase h l = .ok l') :
    ∀ e ∈ l, ∃ k, phaseKey h e = .ok k := by
  unfold sortByPhase at hs
  split at hs
  · simp at hs
  · rename_i ks hks
    obtain ⟨hm, hk⟩ := mapM_keys hks
    intro e he
    rw [← hm] at he
    obtain ⟨x, hx, rfl⟩ := List.mem_map.1 he
    exact ⟨x.1, hk x hx⟩

/-- an object without lists (`Wire`, `PhaseLoad`, `PhaseWinding`, ...) -/
def LeafObj (o : Obj) : Prop := ∀ av ∈ o.attrs, ∃ v, av.2 = .plain v

theorem phaseOrder_inj {v v' : Option Atom} {k : Nat} (h : phaseOrder v = .ok k) (h' : phaseOrder v' = .ok k) :
    v = v' := by
  unfold phaseOrder at h h'
  split at h <;> split at h' <;> simp_all <;> omega

theorem phaseKey_ref {h : Heap} {r : Ref} {k : Nat} (hk : phaseKey h (.ref r) = .ok k) :
    ∃ o v, h[r]? = some o ∧ o.get "phase" = some (.plain v) ∧ phaseOrder v = .ok k := by
  unfold phaseKey at hk
  simp only at hk
  split at hk
  · simp at hk
  · rename_i o ho
    split at hk
    · rename_i v hv; exact ⟨o, v, ho, hv, hk⟩
    · simp at hk
    · simp at hk

theorem leaf_get {o : Obj} (hl : LeafObj o) {b : String} {w : AttrVal} (hg : o.get b = some w) : ∃ v, w = .plain v := by
  have := hl _ (lookup_mem hg)
  exact this

theorem leaf_set {o : Obj} (hl : LeafObj o) (b : String) (v : Option Atom) : LeafObj (o.set b (.plain v)) := by
  intro av hav
  obtain ⟨c, w⟩ := av
  rcases mem_setA hav with h | ⟨_, h⟩
  · exact hl _ h
  · exact ⟨v, h⟩

/-- merging two leaves with the same phase only changes scalars of the first, and not its phase -/
theorem leaf_merge (ow : Bool) (fuel : Nat) (s s' : St) (c1 c2 : Ref) (o1 o2 : Obj) (ho1 : s.1[c1]? = some o1)
    (ho2 : s.1[c2]? = some o2) (hl1 : LeafObj o1) (hl2 : LeafObj o2) (p : Option Atom)
    (hp1 : o1.get "phase" = some (.plain p)) (hp2 : o2.get "phase" = some (.plain p))
    (h : setAttributes ow fuel s c1 c2 = .ok s') :
    (∀ x, x ≠ c1 → s'.1[x]? = s.1[x]?) ∧ ∃ o, s'.1[c1]? = some o ∧ LeafObj o ∧ o.get "phase" = some (.plain p) := by
  cases fuel with
  | zero => simp [setAttributes] at h
  | succ fuel =>
    unfold setAttributes at h
    rw [ho2] at h
    simp only at h
    refine foldlM_inv (fun t : St => (∀ x, x ≠ c1 → t.1[x]? = s.1[x]?) ∧
      ∃ o, t.1[c1]? = some o ∧ LeafObj o ∧ o.get "phase" = some (.plain p)) _ ?_
      ⟨fun _ _ => rfl, o1, ho1, hl1, hp1⟩ h
    rintro t b t' _ ⟨ht, o, hto, hol, hop⟩ hst
    -- the second object, now
    obtain ⟨o2', hto2, hol2, hop2⟩ : ∃ o2', t.1[c2]? = some o2' ∧ LeafObj o2' ∧ o2'.get "phase" = some (.plain p) := by
      by_cases hc : c2 = c1
      · subst hc; exact ⟨o, hto, hol, hop⟩
      · exact ⟨o2, by rw [ht c2 hc]; exact ho2, hl2, hp2⟩
    unfold setAttr at hst
    rw [hto, hto2] at hst
    simp only [Option.bind_some] at hst
    cases hg2 : o2'.get b with
    | none => rw [hg2] at hst; simp at hst
    | some w2 =>
      obtain ⟨v2, rfl⟩ := leaf_get hol2 hg2
      rw [hg2] at hst
      cases hg1 : o.get b with
      | none =>
        rw [hg1] at hst
        cases v2 with
        | none => simp at hst; subst hst; exact ⟨ht, o, hto, hol, hop⟩
        | some v2 => simp at hst
      | some w1 =>
        obtain ⟨v1, rfl⟩ := leaf_get hol hg1
        rw [hg1] at hst
        cases v2 with
        | none => simp at hst; subst hst; exact ⟨ht, o, hto, hol, hop⟩
        | some v2 =>
          simp only at hst
          split at hst
          · simp at hst; subst hst; exact ⟨ht, o, hto, hol, hop⟩
          · simp at hst; subst hst
            refine ⟨fun x hx => ?_, _, hset_self hto _ _, leaf_set hol _ _, ?_⟩
            · simp only; rw [hset_ne hx]; exact ht x hx
            · by_cases hb : "phase" = b
              · subst hb
                rw [get_set_self hg1]
                rw [hg2] at hop2
                simpa using hop2
              · rw [get_set_ne hb]; exact hop

end Ditto.Heap
