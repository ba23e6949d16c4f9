import Verif.Model.Heap
import Mathlib.Data.List.Nodup
import Mathlib.Data.List.Pairwise
import Mathlib.Data.List.Range

/-! C07, C08: the store and its name index. -/
namespace Ditto.Heap
open Ditto

/-! ### C07 -/

theorem lookup_dictSet (k k' : Option Atom) (r : Ref) (d : Names) :
    (dictSet k r d).lookup k' = if k' = k then some r else d.lookup k' := by
  induction d with
  | nil =>
    by_cases h : k' = k
    · simp [dictSet, List.lookup, h]
    · have : (k' == k) = false := by simpa using h
      simp [dictSet, List.lookup, h, this]
  | cons x d ih =>
    obtain ⟨k1, r1⟩ := x
    by_cases h1 : k1 = k
    · subst h1
      by_cases h : k' = k1
      · subst h; simp [dictSet, List.lookup]
      · have : (k' == k1) = false := by simpa using h
        simp [dictSet, List.lookup, h, this]
    · simp only [dictSet, h1, if_false, List.lookup]
      by_cases h : k' = k1
      · subst h; simp [h1]
      · have : (k' == k1) = false := by simpa using h
        simp only [this, ih]

/-- `r` is the last element of the list with name `k`. -/
def IsLastNamed (h : Heap) (ms : List Ref) (k : Option Atom) (r : Ref) : Prop :=
  ∃ pre post, ms = pre ++ r :: post ∧ nameOf h r = some k ∧ ∀ x ∈ post, nameOf h x ≠ some k

private theorem lookup_foldl (h : Heap) (k : Option Atom) (ms : List Ref) (d : Names) :
    (∃ r, (ms.foldl (setName h) d).lookup k = some r ∧ IsLastNamed h ms k r) ∨
    ((ms.foldl (setName h) d).lookup k = d.lookup k ∧ ∀ x ∈ ms, nameOf h x ≠ some k) := by
  induction ms generalizing d with
  | nil => right; simp
  | cons x ms ih =>
    simp only [List.foldl_cons]
    rcases ih (setName h d x) with ⟨r, hr, pre, post, hms, hn, hp⟩ | ⟨hr, hno⟩
    · left; exact ⟨r, hr, x :: pre, post, by simp [hms], hn, hp⟩
    · by_cases hx : nameOf h x = some k
      · left
        refine ⟨x, ?_, [], ms, rfl, hx, hno⟩
        rw [hr]; simp [setName, hx, lookup_dictSet]
      · right
        refine ⟨?_, ?_⟩
        · rw [hr]
          unfold setName
          cases hn : nameOf h x with
          | none => rfl
          | some k1 =>
            simp only [lookup_dictSet]
            rw [if_neg]; rintro rfl; exact hx hn
        · intro y hy
          rcases List.mem_cons.1 hy with rfl | hy
          · exact hx
          · exact hno y hy

theorem lastNamed_unique {h : Heap} {ms : List Ref} {k : Option Atom} {r r' : Ref}
    (h1 : IsLastNamed h ms k r) (h2 : IsLastNamed h ms k r') : r = r' := by
  obtain ⟨p, q, e, hn, hq⟩ := h1
  obtain ⟨p', q', e', hn', hq'⟩ := h2
  rw [e] at e'
  rw [List.append_eq_append_iff] at e'
  rcases e' with ⟨a, ha, hb⟩ | ⟨a, ha, hb⟩
  · rcases a with _ | ⟨b, a⟩
    · simp at hb; exact hb.1
    · simp only [List.cons_append, List.cons.injEq] at hb
      exact absurd hn' (hq r' (by rw [hb.2]; simp))
  · rcases a with _ | ⟨b, a⟩
    · simp at hb; exact hb.1.symm
    · simp only [List.cons_append, List.cons.injEq] at hb
      exact absurd hn (hq' r (by rw [hb.2]; simp))

/-- C07: in every state, after `set_names` a lookup of `k` gives `r` exactly if `r` is the last object with name `k`. -/
theorem C07_lookup_last (h : Heap) (s : Store) (k : Option Atom) (r : Ref) :
    (setNames h s).getItem k = .ok r ↔ IsLastNamed h s.models k r := by
  have := lookup_foldl h k s.models []
  unfold Store.getItem setNames
  simp only
  rcases this with ⟨r', hr', hl⟩ | ⟨hr, hno⟩
  · rw [hr']
    constructor
    · intro e; simp at e; subst e; exact hl
    · intro hl'; rw [lastNamed_unique hl hl']
  · rw [hr]
    simp only [List.lookup_nil, reduceCtorEq, false_iff]
    rintro ⟨pre, post, hms, hn, _⟩
    exact hno r (by simp [hms]) hn

/-- C07: a lookup fails, and then with `KeyError`, exactly if no object has the name. -/
theorem C07_keyError (h : Heap) (s : Store) (k : Option Atom) :
    (setNames h s).getItem k = .error .keyError ↔ ∀ r ∈ s.models, nameOf h r ≠ some k := by
  have := lookup_foldl h k s.models []
  unfold Store.getItem setNames
  simp only
  rcases this with ⟨r', hr', pre, post, hms, hn, _⟩ | ⟨hr, hno⟩
  · rw [hr']
    simp only [reduceCtorEq, false_iff, not_forall]
    exact ⟨r', by simp [hms], not_not.2 hn⟩
  · rw [hr]; simp only [List.lookup_nil, true_iff]; exact hno

/-- C07: all named objects can be found by their names exactly if the names are pairwise distinct. -/
theorem C07_all_retrievable_iff_distinct (h : Heap) (s : Store) :
    (∀ r ∈ s.models, ∀ k, nameOf h r = some k → (setNames h s).getItem k = .ok r) ↔
    (∀ r ∈ s.models, ∀ r' ∈ s.models, ∀ k, nameOf h r = some k → nameOf h r' = some k → r = r') := by
  constructor
  · intro H r hr r' hr' k hk hk'
    have := H r hr k hk
    rw [H r' hr' k hk'] at this
    simpa using this.symm
  · intro H r hr k hk
    rcases lookup_foldl h k s.models [] with ⟨r', hr', hl⟩ | ⟨_, hno⟩
    · have hm : r' ∈ s.models := by obtain ⟨pre, post, e, _, _⟩ := hl; simp [e]
      have hn : nameOf h r' = some k := hl.choose_spec.choose_spec.2.1
      have := H r hr r' hm k hk hn
      subst this
      exact (C07_lookup_last h s k r).2 hl
    · exact absurd hk (hno r hr)

/-- two lines named "l1" and a wire; the lookup gives the second line -/
def exHeap : Heap := [⟨"Line", [("name", .plain (some (.str "l1")))]⟩, ⟨"Wire", [("phase", .plain (some (.str "A")))]⟩,
  ⟨"Line", [("name", .plain (some (.str "l1")))]⟩]

example : (setNames exHeap ⟨[0, 1, 2], []⟩).getItem (some (.str "l1")) = .ok 2 ∧
    IsLastNamed exHeap [0, 1, 2] (some (.str "l1")) 2 :=
  ⟨by decide, [0, 1], [], by decide, by decide, by simp⟩

/-! ### C08 -/

/-- One call on a store by a client: creating an object (ditto/models/base.py:21-24; `raises`: the constructor
raises after the object was appended, because a keyword argument is not valid), or `remove_element`. -/
inductive Op where
  | create (o : Obj) (raises : Bool)
  | remove (r : Ref)

/-- Effect of a call. Exceptions are caught by the client. `DiTToHasTraits.__init__`, ditto/models/base.py:21-24:
the object is appended first. -/
def step : St → Op → St
  | (h, ms), .create o _ => (h ++ [o], ms ++ [h.length])
  | (h, ms), .remove r =>
    match removeElement ms r with
    | .ok ms' => (h, ms')
    | .error _ => (h, ms)

def run (ops : List Op) : St := ops.foldl step ([], [])

/-- number of creations in a history; the `n`-th created object is `n` -/
def created : List Op → Nat
  | [] => 0
  | .create _ _ :: l => created l + 1
  | .remove _ :: l => created l

/-- Specification: object `x` was created in the history `ops`, and not removed after that. -/
def Alive (ops : List Op) (x : Ref) : Prop :=
  ∃ before o b after, ops = before ++ .create o b :: after ∧ created before = x ∧ ∀ op ∈ after, op ≠ .remove x

private theorem created_append (a b : List Op) : created (a ++ b) = created a + created b := by
  induction a with
  | nil => simp [created]
  | cons x a ih => cases x <;> simp [created, ih] <;> omega

private theorem run_snoc (ops : List Op) (op : Op) : run (ops ++ [op]) = step (run ops) op := by
  simp [run, List.foldl_append]

private theorem run_heap_length (ops : List Op) : (run ops).1.length = created ops := by
  induction ops using List.reverseRecOn with
  | nil => rfl
  | append_singleton ops op ih =>
    rw [run_snoc, created_append]
    cases op with
    | create o b => simp [step, created, ih]
    | remove r =>
      simp only [step, created, Nat.add_zero]
      split <;> exact ih

private theorem alive_snoc_create (ops : List Op) (o : Obj) (b : Bool) (x : Ref) :
    Alive (ops ++ [.create o b]) x ↔ Alive ops x ∨ x = created ops := by
  constructor
  · rintro ⟨be, o', b', af, e, hc, hno⟩
    rcases List.eq_nil_or_concat af with rfl | ⟨af', op, rfl⟩
    · right
      have : ops = be := by
        have := congrArg List.dropLast e; simpa using this
      rw [← hc, this]
    · left
      simp only [List.concat_eq_append] at e hno
      rw [← List.cons_append, ← List.append_assoc] at e
      obtain ⟨e1, e2⟩ := List.append_inj' e rfl
      exact ⟨be, o', b', af', e1, hc, fun op' h' => hno op' (by simp [h'])⟩
  · rintro (⟨be, o', b', af, e, hc, hno⟩ | rfl)
    · refine ⟨be, o', b', af ++ [.create o b], by simp [e], hc, ?_⟩
      intro op hop
      rcases List.mem_append.1 hop with h | h
      · exact hno op h
      · simp at h; subst h; simp
    · exact ⟨ops, o, b, [], rfl, rfl, by simp⟩

private theorem alive_snoc_remove (ops : List Op) (r x : Ref) :
    Alive (ops ++ [.remove r]) x ↔ Alive ops x ∧ x ≠ r := by
  constructor
  · rintro ⟨be, o', b', af, e, hc, hno⟩
    rcases List.eq_nil_or_concat af with rfl | ⟨af', op, rfl⟩
    · have := congrArg List.getLast? e; simp at this
    · simp only [List.concat_eq_append] at e hno
      rw [← List.cons_append, ← List.append_assoc] at e
      obtain ⟨e1, e2⟩ := List.append_inj' e rfl
      simp at e2; subst e2
      refine ⟨⟨be, o', b', af', e1, hc, fun op' h' => hno op' (by simp [h'])⟩, ?_⟩
      rintro rfl
      exact hno (.remove x) (by simp) rfl
  · rintro ⟨⟨be, o', b', af, e, hc, hno⟩, hx⟩
    refine ⟨be, o', b', af ++ [.remove r], by simp [e], hc, ?_⟩
    intro op hop
    rcases List.mem_append.1 hop with h | h
    · exact hno op h
    · simp at h; subst h; simpa using fun h => hx h.symm

/-- C08: after every history the store lists exactly the objects created and not removed since, in the order of
creation and without duplicates. -/
theorem C08_history (ops : List Op) :
    (∀ x, x ∈ (run ops).2 ↔ Alive ops x) ∧ (run ops).2.Pairwise (· < ·) := by
  have key : (∀ x, x ∈ (run ops).2 ↔ Alive ops x) ∧ (run ops).2.Pairwise (· < ·) ∧
      ∀ x ∈ (run ops).2, x < created ops := by
    induction ops using List.reverseRecOn with
    | nil =>
      refine ⟨fun x => ?_, by simp [run], by simp [run]⟩
      simp only [run, List.foldl_nil, List.not_mem_nil, false_iff]
      rintro ⟨be, o, b, af, e, _⟩; simp at e
    | append_singleton ops op ih =>
      obtain ⟨ihm, ihp, ihl⟩ := ih
      have hl := run_heap_length ops
      rw [run_snoc]
      cases op with
      | create o b =>
        simp only [step]
        refine ⟨fun x => ?_, ?_, ?_⟩
        · rw [alive_snoc_create, ← ihm]; simp [hl]
        · rw [List.pairwise_append]
          refine ⟨ihp, by simp, ?_⟩
          intro a ha b hb; simp at hb; subst hb; rw [hl]; exact ihl a ha
        · intro x hx
          rw [created_append]
          simp only [created]
          rcases List.mem_append.1 hx with h | h
          · exact Nat.lt_succ_of_lt (ihl x h)
          · simp only [List.mem_singleton] at h; rw [h, hl]; exact Nat.lt_succ_self _
      | remove r =>
        have hnd : (run ops).2.Nodup := ihp.imp (fun h => Nat.ne_of_lt h)
        have hstep : step (run ops) (.remove r) = ((run ops).1, (run ops).2.erase r) := by
          simp only [step, removeElement]
          by_cases hr : r ∈ (run ops).2
          · simp [hr]
          · simp [hr, List.erase_of_not_mem hr]
        rw [hstep]
        refine ⟨fun x => ?_, ?_, ?_⟩
        · rw [alive_snoc_remove, ← ihm]
          simp only [hnd.mem_erase_iff]
          exact and_comm
        · exact ihp.sublist (List.erase_sublist)
        · intro x hx
          rw [created_append]; simp only [created]
          exact ihl x (List.mem_of_mem_erase hx)
  exact ⟨key.1, key.2.1⟩

/-- C08: removing an object that is not in the store raises `ValueError`; otherwise it does not raise. (The state is
then unchanged, see `step`: nothing is assigned when `list.remove` raises.) -/
theorem C08_remove_error (ms : List Ref) (r : Ref) :
    (removeElement ms r = .error .valueError ↔ r ∉ ms) ∧ (∀ h, r ∉ ms → step (h, ms) (.remove r) = (h, ms)) ∧
    (r ∈ ms → ∃ ms', removeElement ms r = .ok ms') := by
  refine ⟨?_, ?_, ?_⟩
  · by_cases h : r ∈ ms <;> simp [removeElement, h]
  · intro h hr; simp [step, removeElement, hr]
  · intro h; exact ⟨_, by simp [removeElement, h]; rfl⟩

/-- C08: `iter_models(T)` is the subsequence of the instances of `T`. -/
theorem C08_iter_models (h : Heap) (ms : List Ref) (isA : String → Bool) :
    (iterModels h ms isA).Sublist ms ∧
    ∀ r o, h[r]? = some o → (r ∈ iterModels h ms isA ↔ r ∈ ms ∧ isA o.cls = true) := by
  refine ⟨List.filter_sublist, ?_⟩
  intro r o ho
  simp [iterModels, ho]

/-- C08 is violated for constructors that raise: the object whose construction failed is in the store. -/
theorem C08_failed_constructor_violated (ops : List Op) (o : Obj) :
    created ops ∈ (run (ops ++ [.create o true])).2 := by
  rw [run_snoc]; simp [step, run_heap_length]

example : (run [.create ⟨"Node", []⟩ false, .create ⟨"Line", []⟩ false, .remove 0, .remove 7,
    .create ⟨"Node", []⟩ false]).2 = [1, 2] := by decide

end Ditto.Heap
