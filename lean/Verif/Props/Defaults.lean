import Verif.Spec.Defaults
import Mathlib.Data.List.Forall2
import Mathlib.Tactic.Linarith

/-! C42: default values. -/
namespace Ditto.Defaults
open Ditto Ditto.Spec

/-! ### Helper lemmas -/

@[simp] theorem ok_bind {α β : Type} (x : α) (f : α → Py β) : (Except.ok x >>= f : Py β) = f x := rfl
@[simp] theorem error_bind {α β : Type} (e : PyErr) (f : α → Py β) : (Except.error e >>= f : Py β) = Except.error e := rfl

/-- the call is made for objects of this class -/
def Active (c : String) (e : Entry) : Prop := e.only = none ∨ e.only = some c

instance (c : String) (e : Entry) : Decidable (Active c e) := inferInstanceAs (Decidable (_ ∨ _))

/-- the value that a call assigns, given the two values of the file -/
def assignedVal (remove had : Bool) (attr : String) (v a : Val) : Py Val :=
  if remove = false then
    if had = true then
      if attr = "capacitance_matrix" then .ok (capacitance v)
      else if attr = "impedance_matrix" then impedance v a
      else .ok v
    else .ok v
  else .ok .none

/-- the value that a call assigns -/
def newVal (D : Dict) (remove had : Bool) (e : Entry) : Py Val := do
  let v ← lookup D e.sect e.key
  let a ← argOf D e
  assignedVal remove had e.attr v a

theorem setDefault_eq (remove : Bool) (o : Obj) (attr : String) (v a : Val) :
    setDefault remove o attr v a = (assignedVal remove (o.get attr).isSome attr v a).map fun w => o.set attr w := by
  unfold setDefault assignedVal
  split
  · split
    · split
      · rfl
      · split
        · cases impedance v a <;> rfl
        · rfl
    · rfl
  · rfl

theorem applyEntry_eq (D : Dict) (remove : Bool) (o : Obj) (e : Entry) (h : Active o.cls e) :
    applyEntry D remove o e = (newVal D remove (o.get e.attr).isSome e).map fun v => o.set e.attr v := by
  unfold Active at h
  unfold applyEntry newVal
  rw [if_pos h]
  cases lookup D e.sect e.key with
  | error err => rfl
  | ok v =>
    simp only [ok_bind]
    cases argOf D e with
    | error err => rfl
    | ok a => exact setDefault_eq remove o e.attr v a

theorem applyEntry_inactive (D : Dict) (remove : Bool) (o : Obj) (e : Entry) (h : ¬ Active o.cls e) : applyEntry D remove o e = .ok o := by
  unfold Active at h
  unfold applyEntry
  rw [if_neg h]

/-- the two values of the file -/
theorem newVal_ok {D : Dict} {remove had : Bool} {e : Entry} {v : Val} (h : newVal D remove had e = .ok v) :
    ∃ u a, lookup D e.sect e.key = .ok u ∧ argOf D e = .ok a ∧ assignedVal remove had e.attr u a = .ok v := by
  unfold newVal at h
  cases hl : lookup D e.sect e.key with
  | error err => rw [hl] at h; cases h
  | ok u =>
    rw [hl] at h
    simp only [ok_bind] at h
    cases ha : argOf D e with
    | error err => rw [ha] at h; cases h
    | ok a =>
      rw [ha] at h
      exact ⟨u, a, rfl, rfl, h⟩

/-- the effect of a list of calls for distinct attributes -/
theorem foldl_effect (D : Dict) (remove : Bool) : ∀ (L : List Entry) (o o' : Obj),
    (L.Pairwise fun e f => Active o.cls e → Active o.cls f → e.attr ≠ f.attr) → L.foldlM (applyEntry D remove) o = .ok o' →
    o'.cls = o.cls ∧ (∀ e ∈ L, Active o.cls e → ∃ v, newVal D remove (o.get e.attr).isSome e = .ok v ∧ o'.get e.attr = some v) ∧
      ∀ a, (∀ e ∈ L, Active o.cls e → e.attr ≠ a) → o'.get a = o.get a := by
  intro L
  induction L with
  | nil =>
    intro o o' _ h
    simp only [List.foldlM_nil] at h
    cases h
    exact ⟨rfl, fun e he => absurd he List.not_mem_nil, fun _ _ => rfl⟩
  | cons e es ih =>
    intro o o' hp h
    rw [List.foldlM_cons] at h
    rw [List.pairwise_cons] at hp
    by_cases ha : Active o.cls e
    · rw [applyEntry_eq D remove o e ha] at h
      cases hv : newVal D remove (o.get e.attr).isSome e with
      | error err => rw [hv] at h; cases h
      | ok v =>
        rw [hv] at h
        replace h : es.foldlM (applyEntry D remove) (o.set e.attr v) = .ok o' := h
        obtain ⟨h1, h2, h3⟩ := ih (o.set e.attr v) o' hp.2 h
        have hcls : (o.set e.attr v).cls = o.cls := rfl
        rw [hcls] at h1 h2 h3
        refine ⟨h1, fun f hf hfa => ?_, fun a hn => ?_⟩
        · rcases List.mem_cons.1 hf with rfl | hf
          · refine ⟨v, hv, ?_⟩
            rw [h3 _ fun g hg hga => (hp.1 g hg ha hga).symm]
            simp [Obj.set]
          · obtain ⟨u, hu, hu2⟩ := h2 f hf hfa
            refine ⟨u, ?_, hu2⟩
            have : (o.set e.attr v).get f.attr = o.get f.attr := by
              simp only [Obj.set]
              rw [if_neg (hp.1 f hf ha hfa).symm]
            rw [this] at hu
            exact hu
        · rw [h3 a fun g hg hga => hn g (List.mem_cons_of_mem _ hg) hga]
          simp only [Obj.set]
          rw [if_neg (hn e List.mem_cons_self ha).symm]
    · rw [applyEntry_inactive D remove o e ha] at h
      replace h : es.foldlM (applyEntry D remove) o = .ok o' := h
      obtain ⟨h1, h2, h3⟩ := ih o o' hp.2 h
      refine ⟨h1, fun f hf hfa => ?_, fun a hn => h3 a fun g hg hga => hn g (List.mem_cons_of_mem _ hg) hga⟩
      rcases List.mem_cons.1 hf with rfl | hf
      · exact absurd hfa ha
      · exact h2 f hf hfa

theorem foldl_succeeds (D : Dict) (remove : Bool) : ∀ (L : List Entry) (o : Obj),
    (L.Pairwise fun e f => Active o.cls e → Active o.cls f → e.attr ≠ f.attr) →
    (∀ e ∈ L, Active o.cls e → ∃ v, newVal D remove (o.get e.attr).isSome e = .ok v) →
    ∃ o', L.foldlM (applyEntry D remove) o = .ok o' := by
  intro L
  induction L with
  | nil => intro o _ _; exact ⟨o, rfl⟩
  | cons e es ih =>
    intro o hp hs
    rw [List.pairwise_cons] at hp
    rw [List.foldlM_cons]
    by_cases ha : Active o.cls e
    · obtain ⟨v, hv⟩ := hs e List.mem_cons_self ha
      rw [applyEntry_eq D remove o e ha, hv]
      refine ih (o.set e.attr v) hp.2 fun f hf hfa => ?_
      have : (o.set e.attr v).get f.attr = o.get f.attr := by
        simp only [Obj.set]
        rw [if_neg (hp.1 f hf ha hfa).symm]
      rw [this]
      exact hs f (List.mem_cons_of_mem _ hf) hfa
    · rw [applyEntry_inactive D remove o e ha]
      exact ih o hp.2 fun f hf hfa => hs f (List.mem_cons_of_mem _ hf) hfa

theorem entries_pairs : ∀ i j : Fin entries.length, i < j → entries[i].attr = entries[j].attr →
    ∃ c d, entries[i].only = some c ∧ entries[j].only = some d ∧ c ≠ d := by
  have : ∀ i j : Fin entries.length, i < j → entries[i].attr = entries[j].attr →
      entries[i].only.isSome = true ∧ entries[j].only.isSome = true ∧ entries[i].only ≠ entries[j].only := by decide +kernel
  intro i j hij h
  obtain ⟨h1, h2, h3⟩ := this i j hij h
  obtain ⟨c, hc⟩ := Option.isSome_iff_exists.1 h1
  obtain ⟨d, hd⟩ := Option.isSome_iff_exists.1 h2
  exact ⟨c, d, hc, hd, fun h => h3 (by rw [hc, hd, h])⟩

theorem entries_distinct (c : String) : entries.Pairwise fun e f => Active c e → Active c f → e.attr ≠ f.attr := by
  rw [List.pairwise_iff_getElem]
  intro i j hi hj hij ha hb h
  obtain ⟨d, e, hd, he, hne⟩ := entries_pairs ⟨i, hi⟩ ⟨j, hj⟩ hij h
  simp only [Fin.getElem_fin] at hd he
  unfold Active at ha hb
  rw [hd] at ha
  rw [he] at hb
  rcases ha with ha | ha
  · cases ha
  · rcases hb with hb | hb
    · cases hb
    · cases ha; cases hb; exact hne rfl

theorem lookup_value {D : Dict} {s k : String} {v : Val} (h : lookup D s k = .ok v) : v = defaultValue D s k := by
  unfold lookup at h
  unfold defaultValue
  cases hs : D s with
  | some f => rw [hs] at h; cases h; rfl
  | none =>
    rw [hs] at h
    simp only at h
    split at h
    · cases h
    · cases h; rfl

theorem newVal_plain {D : Dict} {remove had : Bool} {e : Entry} {v : Val} (h : newVal D remove had e = .ok v) (hm : e.attr ∉ matrixDefaults)
    : v = if remove = true then .none else defaultValue D e.sect e.key := by
  obtain ⟨u, a, hu, -, h⟩ := newVal_ok h
  have hm1 : e.attr ≠ "capacitance_matrix" := fun h => hm (by rw [h]; decide +kernel)
  have hm2 : e.attr ≠ "impedance_matrix" := fun h => hm (by rw [h]; decide +kernel)
  rw [← lookup_value hu]
  unfold assignedVal at h
  rw [if_neg hm1, if_neg hm2, ite_self] at h
  cases remove <;> simp at h ⊢ <;> exact h.symm

theorem mapM_forall {α β : Type} {f : α → Py β} : ∀ {l : List α} {r : List β}, l.mapM f = .ok r → List.Forall₂ (fun a b => f a = .ok b) l r := by
  intro l
  induction l with
  | nil => intro r h; cases h; exact .nil
  | cons a as ih =>
    intro r h
    rw [List.mapM_cons] at h
    cases ha : f a with
    | error e => rw [ha] at h; cases h
    | ok b =>
      rw [ha] at h
      cases hr : as.mapM f with
      | error e => rw [hr] at h; cases h
      | ok bs => rw [hr] at h; cases h; exact .cons ha (ih hr)

theorem mapM_of_forall {α β : Type} {f : α → Py β} {l : List α} {r : List β} (h : List.Forall₂ (fun a b => f a = .ok b) l r) : l.mapM f = .ok r := by
  induction h with
  | nil => rfl
  | cons h _ ih => rw [List.mapM_cons, h, ih]; rfl

theorem obj_ext {o p : Obj} (h1 : o.cls = p.cls) (h2 : ∀ a, o.get a = p.get a) : o = p := by
  obtain ⟨c, f⟩ := o
  obtain ⟨d, g⟩ := p
  cases h1
  congr 1
  exact funext h2

/-! ### Properties -/

/-- C42: without a file and without the flag nothing happens; likewise for the readers of other formats. -/
theorem C42_off (dss : Bool) (file : Option Dict) (remove : Bool) (m : List Obj) (h : dss = false ∨ (file = none ∧ remove = false)) :
    defaultsStep dss file remove m = .ok m := by
  unfold defaultsStep
  rw [if_neg]
  rintro ⟨h1, h2⟩
  rcases h with rfl | ⟨rfl, rfl⟩
  · cases h1
  · rcases h2 with h2 | h2 <;> cases h2

/-- the listed attributes of an object have the default values, or `None` with the flag to remove them -/
def Assigned (D : Dict) (remove : Bool) (o o' : Obj) : Prop :=
  ∀ s a, (o.cls, s, a) ∈ listedDefaults → (o.cls, a) ≠ ("PowerTransformer", "connection_type") →
    o'.get a = some (if remove = true then .none else defaultValue D s a)

/-- C42: each object keeps its class and has the listed attributes assigned. Missing: the connection type of transformers, which is never
assigned (`C42_transformer_violated`). -/
theorem C42_assigns_partial (file : Option Dict) (remove : Bool) (m m' : List Obj) (h : parseDefaults file remove m = .ok m') :
    List.Forall₂ (fun o o' => o'.cls = o.cls ∧ Assigned (dictOf file) remove o o') m m' := by
  refine (mapM_forall h).imp fun o o' ho => ?_
  obtain ⟨h1, h2, -⟩ := foldl_effect _ _ _ o o' (entries_distinct _) ho
  refine ⟨h1, fun s a hl hn => ?_⟩
  have key : ∀ t ∈ listedDefaults, (t.1, t.2.2) ≠ ("PowerTransformer", "connection_type") →
      ∃ e ∈ entries, (e.only = none ∨ e.only = some t.1) ∧ e.attr = t.2.2 ∧ e.sect = t.2.1 ∧ e.key = t.2.2 ∧ e.attr ∉ matrixDefaults := by
    decide +kernel
  obtain ⟨e, he, hact, ha, hs, hk, hm⟩ := key _ hl hn
  obtain ⟨v, hv, hv2⟩ := h2 e he hact
  simp only at ha hs hk
  rw [← ha, hv2, newVal_plain hv hm, hs, hk, ha]

/-- C42: the attributes that are not listed for any class are untouched. Missing: listed attributes are also assigned on the objects of other
classes (`C42_classes_violated`). -/
theorem C42_untouched_partial (file : Option Dict) (remove : Bool) (m m' : List Obj) (h : parseDefaults file remove m = .ok m') :
    List.Forall₂ (fun o o' => o'.cls = o.cls ∧ ∀ a, ¬ DefaultAttr a → o'.get a = o.get a) m m' := by
  refine (mapM_forall h).imp fun o o' ho => ?_
  obtain ⟨h1, -, h3⟩ := foldl_effect _ _ _ o o' (entries_distinct _) ho
  refine ⟨h1, fun a hn => h3 a fun e he _ hea => hn ?_⟩
  have key : ∀ e ∈ entries, e.attr ∈ matrixDefaults ∨ ∃ t ∈ listedDefaults, t.2.2 = e.attr := by decide +kernel
  rcases key e he with hm | ⟨t, ht, hta⟩
  · exact .inl (hea ▸ hm)
  · exact .inr ⟨t.1, t.2.1, by rw [← hea, ← hta]; exact ht⟩

/-- C42: a class whose own attributes are not listed keeps the ones restricted to other classes -/
theorem C42_restricted (file : Option Dict) (remove : Bool) (m m' : List Obj) (h : parseDefaults file remove m = .ok m') :
    List.Forall₂ (fun o o' => ∀ a ∈ ["connection_type", "delay", "pt_ratio"], (∀ s, (o.cls, s, a) ∉ listedDefaults) → o.cls ≠ "Transformer" →
      o'.get a = o.get a) m m' := by
  refine (mapM_forall h).imp fun o o' ho a ha hn ht => ?_
  obtain ⟨-, -, h3⟩ := foldl_effect _ _ _ o o' (entries_distinct _) ho
  refine h3 a fun e he hact hea => ?_
  have key : ∀ e ∈ entries, e.attr ∈ ["connection_type", "delay", "pt_ratio"] →
      ∃ c ∈ e.only, c = "Transformer" ∨ (c, e.sect, e.attr) ∈ listedDefaults := by decide +kernel
  obtain ⟨c, hc, hor⟩ := key e he (hea ▸ ha)
  have hcc : c = o.cls := by
    unfold Active at hact
    rw [Option.mem_def] at hc
    rw [hc] at hact
    rcases hact with hact | hact
    · cases hact
    · exact Option.some.inj hact
  rcases hor with hor | hor
  · exact ht (hcc ▸ hor)
  · rw [hcc, hea] at hor
    exact hn _ hor

/-- C42: the flag clears the matrices too -/
theorem C42_remove_matrices (file : Option Dict) (m m' : List Obj) (h : parseDefaults file true m = .ok m') :
    List.Forall₂ (fun _ o' => ∀ a ∈ matrixDefaults, o'.get a = some .none) m m' := by
  refine (mapM_forall h).imp fun o o' ho a ha => ?_
  obtain ⟨-, h2, -⟩ := foldl_effect _ _ _ o o' (entries_distinct _) ho
  have key : ∀ a ∈ matrixDefaults, ∃ e ∈ entries, e.only = none ∧ e.attr = a := by decide +kernel
  obtain ⟨e, he, hon, hea⟩ := key a ha
  obtain ⟨v, hv, hv2⟩ := h2 e he (.inl hon)
  rw [← hea, hv2]
  obtain ⟨u, w, -, -, h⟩ := newVal_ok hv
  cases h
  rfl

theorem broadcast_same {α β γ : Type} (f : α → β → Py γ) (g : α → β → γ) {a : List α} {b : List β} (hl : a.length = b.length)
    (hf : ∀ p ∈ a.zip b, f p.1 p.2 = .ok (g p.1 p.2)) : broadcast f a b = .ok (List.zipWith g a b) := by
  unfold broadcast
  rw [if_pos hl]
  clear hl
  induction a generalizing b with
  | nil => rfl
  | cons x xs ih =>
    cases b with
    | nil => rfl
    | cons y ys =>
      rw [List.zip_cons_cons, List.mapM_cons, hf (x, y) (by simp)]
      simp only [ok_bind]
      rw [ih fun p hp => hf p (by rw [List.zip_cons_cons]; exact List.mem_cons_of_mem _ hp)]
      rfl

/-- two matrices of the same shape -/
structure SameShape (r x : List (List ℚ)) (n : Nat) : Prop where
  rows : r ≠ []
  length : r.length = x.length
  left : ∀ l ∈ r, l.length = n
  right : ∀ l ∈ x, l.length = n

theorem impedance_mat {r x : List (List ℚ)} {n : Nat} (h : SameShape r x n) :
    impedance (.mat r) (.mat x) = .ok (.cmat (List.zipWith List.zip r x)) := by
  obtain ⟨h1, h2, h3, h4⟩ := h
  cases r with
  | nil => exact absurd rfl h1
  | cons a as =>
    cases x with
    | nil => simp at h2
    | cons b bs =>
      have ha : ∀ s ∈ as, s.length = a.length := fun s hs => by rw [h3 s (List.mem_cons_of_mem _ hs), h3 a List.mem_cons_self]
      have hb : ∀ s ∈ bs, s.length = b.length := fun s hs => by rw [h4 s (List.mem_cons_of_mem _ hs), h4 b List.mem_cons_self]
      have hz : broadcast (broadcast fun u v => (.ok (u, v) : Py (ℚ × ℚ))) (a :: as) (b :: bs) = .ok (List.zipWith List.zip (a :: as) (b :: bs)) := by
        refine broadcast_same _ _ h2 fun p hp => ?_
        have hp1 := List.of_mem_zip (a := p.1) (b := p.2) hp
        rw [broadcast_same _ Prod.mk (by rw [h3 _ hp1.1, h4 _ hp1.2]) fun q _ => rfl]
        rfl
      unfold impedance
      simp only [rowsOf]
      rw [if_pos ha, if_pos hb]
      simp only [ok_bind, hz]
      rfl

theorem zipWith_zip_spec {r x : List (List ℚ)} {n : Nat} (h : SameShape r x n) : IsImpedance r x (List.zipWith List.zip r x) := by
  obtain ⟨-, h2, h3, h4⟩ := h
  induction r generalizing x with
  | nil =>
    cases x with
    | nil => exact ⟨rfl, rfl⟩
    | cons b bs => simp at h2
  | cons a as ih =>
    cases x with
    | nil => simp at h2
    | cons b bs =>
      obtain ⟨i1, i2⟩ := ih (x := bs) (by simpa using h2) (fun l hl => h3 l (List.mem_cons_of_mem _ hl)) (fun l hl => h4 l (List.mem_cons_of_mem _ hl))
      have hab : a.length = b.length := by rw [h3 a List.mem_cons_self, h4 b List.mem_cons_self]
      refine ⟨?_, ?_⟩
      · rw [List.zipWith_cons_cons, List.map_cons, i1, List.map_fst_zip hab.le]
      · rw [List.zipWith_cons_cons, List.map_cons, i2, List.map_snd_zip hab.ge]

/-- C42: the matrices of the objects that have them: with matrices of the same shape in the file, every line gets `r + jx` and the
capacitances. -/
theorem C42_matrices (D : Dict) (L : String → Val) (hD : D "Line" = some L) (r x c : List (List ℚ)) (n : Nat) (hr : L "rmatrix" = .mat r)
    (hx : L "xmatrix" = .mat x) (hc : L "cmatrix" = .mat c) (hs : SameShape r x n) (hcs : SameShape c c n) (m m' : List Obj)
    (h : parseDefaults (some D) false m = .ok m') :
    List.Forall₂ (fun o o' => ((o.get "impedance_matrix").isSome → ∃ z, o'.get "impedance_matrix" = some (.cmat z) ∧ IsImpedance r x z) ∧
      ((o.get "capacitance_matrix").isSome → o'.get "capacitance_matrix" = some (.mat c))) m m' := by
  refine (mapM_forall h).imp fun o o' ho => ?_
  obtain ⟨-, h2, -⟩ := foldl_effect _ _ _ o o' (entries_distinct _) ho
  refine ⟨fun hi => ?_, fun hi => ?_⟩
  · obtain ⟨v, hv, hv2⟩ := h2 ⟨"impedance_matrix", "Line", "rmatrix", some "xmatrix", none⟩ (by decide +kernel) (.inl rfl)
    have : newVal (dictOf (some D)) false (o.get "impedance_matrix").isSome ⟨"impedance_matrix", "Line", "rmatrix", some "xmatrix", none⟩ =
        .ok (.cmat (List.zipWith List.zip r x)) := by
      simp only [newVal, argOf, assignedVal, lookup, dictOf, hD, hr, hx, ok_bind, if_true, hi]
      rw [if_neg (by decide), impedance_mat hs]
    rw [this] at hv
    cases hv
    exact ⟨_, hv2, zipWith_zip_spec hs⟩
  · obtain ⟨v, hv, hv2⟩ := h2 ⟨"capacitance_matrix", "Line", "cmatrix", none, none⟩ (by decide +kernel) (.inl rfl)
    have hcap : capacitance (.mat c) = .mat c := by
      cases c with
      | nil => exact absurd rfl hcs.rows
      | cons a as =>
        simp only [capacitance]
        rw [if_pos fun s hs => by rw [hcs.left s (List.mem_cons_of_mem _ hs), hcs.left a List.mem_cons_self]]
    have : newVal (dictOf (some D)) false (o.get "capacitance_matrix").isSome ⟨"capacitance_matrix", "Line", "cmatrix", none, none⟩ =
        .ok (.mat c) := by
      simp only [newVal, argOf, assignedVal, lookup, dictOf, hD, hc, ok_bind, if_true, hi, hcap]
    rw [this] at hv
    cases hv
    exact hv2

/-- C42: the calls succeed: always with the flag; without it, if the file has the matrices -/
theorem C42_succeeds (file : Option Dict) (remove : Bool) (m : List Obj) (hL : dictOf file "Line" ≠ none)
    (hs : remove = true ∨ ∃ r x n, SameShape r x n ∧ defaultValue (dictOf file) "Line" "rmatrix" = .mat r ∧
      defaultValue (dictOf file) "Line" "xmatrix" = .mat x) : ∃ m', parseDefaults file remove m = .ok m' := by
  have one : ∀ o : Obj, ∃ o', applyAll (dictOf file) remove o = .ok o' := by
    intro o
    refine foldl_succeeds _ _ _ o (entries_distinct _) fun e he _ => ?_
    have hlook : ∀ s k, lookup (dictOf file) s k = .ok (defaultValue (dictOf file) s k) := by
      intro s k
      unfold lookup defaultValue
      cases hd : dictOf file s with
      | some f => rfl
      | none =>
        simp only
        rw [if_neg]
        rintro rfl
        exact hL hd
    unfold newVal
    simp only [hlook, ok_bind]
    have harg : ∃ a, argOf (dictOf file) e = .ok a ∧ (e.attr = "impedance_matrix" → e.sect = "Line" ∧ e.key = "rmatrix" ∧
          a = defaultValue (dictOf file) "Line" "xmatrix") := by
      have key : ∀ e ∈ entries, e.attr = "impedance_matrix" → e.sect = "Line" ∧ e.key = "rmatrix" ∧ e.arg = some "xmatrix" := by decide +kernel
      unfold argOf
      simp only [hlook]
      cases ha : e.arg with
      | none => exact ⟨_, rfl, fun h => by have := (key e he h).2.2; rw [ha] at this; cases this⟩
      | some k =>
        refine ⟨_, rfl, fun h => ?_⟩
        obtain ⟨k1, k2, k3⟩ := key e he h
        rw [ha] at k3
        cases k3
        exact ⟨k1, k2, by rw [k1]⟩
    obtain ⟨a, ha, himp⟩ := harg
    rw [ha]
    simp only [ok_bind, assignedVal]
    split
    · rename_i hrem
      split
      · split
        · exact ⟨_, rfl⟩
        · split
          · rename_i hattr
            obtain ⟨k1, k2, k3⟩ := himp hattr
            rcases hs with hs | ⟨r, x, n, hsh, hr, hx⟩
            · rw [hrem] at hs; cases hs
            · rw [k1, k2, k3, hr, hx, impedance_mat hsh]
              exact ⟨_, rfl⟩
          · exact ⟨_, rfl⟩
      · exact ⟨_, rfl⟩
    · exact ⟨_, rfl⟩
  unfold parseDefaults
  induction m with
  | nil => exact ⟨[], rfl⟩
  | cons o os ih =>
    obtain ⟨o', ho⟩ := one o
    obtain ⟨os', hos⟩ := ih
    exact ⟨o' :: os', by rw [List.mapM_cons, ho, hos]; rfl⟩

/-- C42: applying twice is the same as applying once, for objects that have the two matrices, or with the flag. Missing: other objects
(`C42_twice_violated`). -/
theorem C42_twice_partial (file : Option Dict) (remove : Bool) (m m' : List Obj)
    (hm : remove = true ∨ ∀ o ∈ m, ∀ a ∈ matrixDefaults, (o.get a).isSome = true) (h : parseDefaults file remove m = .ok m') :
    parseDefaults file remove m' = .ok m' := by
  refine mapM_of_forall ?_
  have hf := mapM_forall h
  clear h
  induction hf with
  | nil => exact .nil
  | @cons o o' os os' ho _ ih =>
    refine .cons ?_ (ih (hm.imp id fun hm p hp => hm p (List.mem_cons_of_mem _ hp)))
    obtain ⟨h1, h2, h3⟩ := foldl_effect _ _ _ o o' (entries_distinct _) ho
    -- the value assigned does not change
    have hsame : ∀ e ∈ entries, Active o.cls e → newVal (dictOf file) remove (o'.get e.attr).isSome e = newVal (dictOf file) remove (o.get e.attr).isSome e := by
      intro e he ha
      obtain ⟨v, hv, hv2⟩ := h2 e he ha
      by_cases hmat : e.attr ∈ matrixDefaults
      · rcases hm with hm | hm
        · unfold newVal
          rw [hm]
          rfl
        · have := hm o List.mem_cons_self e.attr hmat
          rw [this, hv2]
          rfl
      · have hm1 : e.attr ≠ "capacitance_matrix" := fun h => hmat (by rw [h]; decide +kernel)
        have hm2 : e.attr ≠ "impedance_matrix" := fun h => hmat (by rw [h]; decide +kernel)
        unfold newVal assignedVal
        simp only [if_neg hm1, if_neg hm2, ite_self]
    have hex : ∃ o'', entries.foldlM (applyEntry (dictOf file) remove) o' = .ok o'' := by
      refine foldl_succeeds _ _ _ o' (entries_distinct _) fun e he ha => ?_
      rw [h1] at ha
      obtain ⟨v, hv, -⟩ := h2 e he ha
      exact ⟨v, by rw [hsame e he ha, hv]⟩
    obtain ⟨o'', ho''⟩ := hex
    obtain ⟨g1, g2, g3⟩ := foldl_effect _ _ _ o' o'' (entries_distinct _) ho''
    have : o'' = o' := by
      refine obj_ext g1 fun a => ?_
      by_cases hex : ∃ e ∈ entries, Active o.cls e ∧ e.attr = a
      · obtain ⟨e, he, ha, rfl⟩ := hex
        obtain ⟨v, hv, hv2⟩ := h2 e he ha
        obtain ⟨u, hu, hu2⟩ := g2 e he (by rw [h1]; exact ha)
        rw [hsame e he ha, hv] at hu
        cases hu
        rw [hu2, hv2]
      · exact g3 a fun e he ha hea => hex ⟨e, he, by rw [h1] at ha; exact ha, hea⟩
    rw [this] at ho''
    exact ho''

/-! ### Examples and violations -/

/-- a file with some of the values -/
def exDict : Dict := fun s =>
  if s = "Line" then
    some fun k =>
      if k = "faultrate" then .num (1/10)
      else if k = "rmatrix" then .mat [[1, 2], [2, 1]]
      else if k = "xmatrix" then .mat [[3, 4], [4, 3]]
      else if k = "cmatrix" then .mat [[5, 6], [6, 5]]
      else .none
  else if s = "Load" then some fun k => if k = "vmin" then .num (19/20) else .none
  else none

def exLine : Obj := ⟨"Line", fun a => if a ∈ ["name", "faultrate", "impedance_matrix", "capacitance_matrix"] then some (.str "x") else none⟩
def exLoad : Obj := ⟨"Load", fun a => if a ∈ ["name", "vmin", "vmax", "connection_type"] then some (.num 1) else none⟩

example : SameShape [[1, 2], [2, 1]] [[3, 4], [4, 3]] 2 := ⟨by decide, by decide, by decide, by decide⟩
example : dictOf (some exDict) "Line" ≠ none ∧ defaultValue (dictOf (some exDict)) "Line" "rmatrix" = .mat [[1, 2], [2, 1]] ∧
    ∀ a ∈ matrixDefaults, (exLine.get a).isSome = true := by
  refine ⟨by simp [dictOf, exDict], by decide +kernel, by decide +kernel⟩

theorem exDefaults_run : (parseDefaults (some exDict) false [exLine, exLoad]).map (List.map fun o =>
      ["name", "faultrate", "impedance_matrix", "capacitance_matrix", "vmin", "vmax"].map o.get) =
    .ok [[some (.str "x"), some (.num (1/10)), some (.cmat [[(1, 3), (2, 4)], [(2, 4), (1, 3)]]), some (.mat [[5, 6], [6, 5]]), some (.num (19/20)), some .none],
      [some (.num 1), some (.num (1/10)), some (.mat [[1, 2], [2, 1]]), some (.mat [[5, 6], [6, 5]]), some (.num (19/20)), some .none]] := by decide +kernel

/-- C42: attributes of lines, wires, capacitors, … are also assigned on all other objects: a load gets a fault rate. -/
theorem C42_classes_violated : ("Load", "Line", "faultrate") ∉ listedDefaults ∧ exLoad.get "faultrate" = none ∧
    (parseDefaults (some exDict) false [exLoad]).map (List.map fun o => o.get "faultrate") = .ok [some (.num (1/10))] := by
  refine ⟨by decide +kernel, by decide +kernel, by decide +kernel⟩

/-- C42: values that the file does not have replace the ones of the model: the maximal voltage of a load is lost. -/
theorem C42_missing_violated : exLoad.get "vmax" = some (.num 1) ∧ defaultValue exDict "Load" "vmax" = .none ∧
    (parseDefaults (some exDict) false [exLoad]).map (List.map fun o => o.get "vmax") = .ok [some .none] := by
  refine ⟨by decide +kernel, by decide +kernel, by decide +kernel⟩

/-- C42: the connection type of transformers is compared with a class name that does not exist: it is never assigned. -/
theorem C42_transformer_violated (file : Option Dict) (remove : Bool) (m m' : List Obj) (h : parseDefaults file remove m = .ok m') :
    ("PowerTransformer", "Transformer", "connection_type") ∈ listedDefaults ∧
    List.Forall₂ (fun o o' => o.cls = "PowerTransformer" → o'.get "connection_type" = o.get "connection_type") m m' := by
  refine ⟨by decide +kernel, (mapM_forall h).imp fun o o' ho hc => ?_⟩
  obtain ⟨-, -, h3⟩ := foldl_effect _ _ _ o o' (entries_distinct _) ho
  refine h3 _ fun e he ha hea => ?_
  rw [hc] at ha
  have key : ∀ e ∈ entries, (e.only = none ∨ e.only = some "PowerTransformer") → e.attr ≠ "connection_type" := by decide +kernel
  exact key e he ha hea

/-- C42: for an object without the matrices the first application sets the resistances and the second one the impedances. -/
theorem C42_twice_violated : (parseDefaults (some exDict) false [exLoad]).map (List.map fun o => o.get "impedance_matrix") = .ok [some (.mat [[1, 2], [2, 1]])] ∧
    (parseDefaults (some exDict) false [exLoad] >>= parseDefaults (some exDict) false).map (List.map fun o => o.get "impedance_matrix") =
      .ok [some (.cmat [[(1, 3), (2, 4)], [(2, 4), (1, 3)]])] := by
  refine ⟨by decide +kernel, by decide +kernel⟩

/-- C42: without a section for lines, or without their matrices, nothing can be applied. -/
theorem C42_line_violated : (parseDefaults (some fun s => if s = "Load" then exDict "Load" else none) false [exLoad]).map List.length = .error .attributeError ∧
    (parseDefaults (some fun s => if s = "Line" then some fun _ => .none else none) false [exLine]).map List.length = .error .typeError := by
  refine ⟨by decide +kernel, by decide +kernel⟩

end Ditto.Defaults
