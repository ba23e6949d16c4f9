import Verif.Spec.Json
import Mathlib.Data.List.Forall2
import Mathlib.Data.List.Nodup

namespace Ditto.Json
open Ditto

theorem lookup_none {α : Type} {k : String} {d : List (String × α)} (h : k ∉ d.map (·.1)) : d.lookup k = none := by
  induction d with
  | nil => rfl
  | cons e es ih =>
    simp only [List.map_cons, List.mem_cons, not_or] at h
    rw [List.lookup_cons, beq_false_of_ne h.1]
    exact ih h.2

theorem lookup_mem {α : Type} {k : String} {v : α} {d : List (String × α)} (hn : (d.map (·.1)).Nodup) (h : (k, v) ∈ d) :
    d.lookup k = some v := by
  induction d with
  | nil => cases h
  | cons e es ih =>
    rw [List.map_cons, List.nodup_cons] at hn
    rw [List.lookup_cons]
    rcases List.mem_cons.1 h with rfl | h
    · simp
    · have : k ≠ e.1 := fun he => hn.1 (he ▸ List.mem_map_of_mem (f := (·.1)) h)
      rw [beq_false_of_ne this]
      exact ih hn.2 h

theorem lookup_setKey {α : Type} (k k' : String) (v : α) (d : List (String × α)) :
    (setKey k v d).lookup k' = if k' = k then some v else d.lookup k' := by
  induction d with
  | nil =>
    rw [setKey, List.lookup_cons]
    by_cases h : k' = k
    · simp [h]
    · rw [beq_false_of_ne h, if_neg h]
  | cons e es ih =>
    obtain ⟨a, b⟩ := e
    rw [setKey]
    by_cases h1 : a = k
    · subst h1
      rw [if_pos rfl, List.lookup_cons, List.lookup_cons]
      by_cases h : k' = a
      · simp [h]
      · rw [beq_false_of_ne h, if_neg h]
    · rw [if_neg h1, List.lookup_cons, List.lookup_cons]
      by_cases h : k' = a
      · subst h; simp [h1]
      · rw [beq_false_of_ne h]
        exact ih

theorem mapPy_ok {α β : Type} {f : α → Py β} {R : α → β → Prop} {l : List α} (h : ∀ a ∈ l, ∃ b, f a = .ok b ∧ R a b) :
    ∃ bs, mapPy f l = .ok bs ∧ List.Forall₂ R l bs := by
  induction l with
  | nil => exact ⟨[], rfl, .nil⟩
  | cons a as ih =>
    obtain ⟨b, h1, h2⟩ := h a List.mem_cons_self
    obtain ⟨bs, h3, h4⟩ := ih fun x hx => h x (List.mem_cons_of_mem _ hx)
    exact ⟨b :: bs, by simp only [mapPy, h1, h3], .cons h2 h4⟩

theorem mapPy_error {α β : Type} {f : α → Py β} {l : List α} (h : ∃ a ∈ l, ∃ e, f a = .error e) : ∃ e, mapPy f l = .error e := by
  induction l with
  | nil => obtain ⟨a, ha, -⟩ := h; cases ha
  | cons a as ih =>
    simp only [mapPy]
    cases hfa : f a with
    | error e => exact ⟨e, rfl⟩
    | ok b =>
      obtain ⟨x, hx, e, he⟩ := h
      rcases List.mem_cons.1 hx with rfl | hx
      · rw [hfa] at he; cases he
      · obtain ⟨e', he'⟩ := ih ⟨x, hx, e, he⟩
        exact ⟨e', by simp only [he']⟩

/-! ### Values -/

theorem read_scalarJ (env : Env) {s : Scalar} (h : Basic false s) : readJV env (scalarJ s) = .ok (some s) := by
  cases s <;> first | exact h.elim | (cases h; done) | rfl | simp [readJV, scalarJ, Scalar.type, cast, dump, valueClasses]

theorem read_valueJ (env : Env) {s : Scalar} (h : Basic true s) : readJV env (valueJ s) = .ok (some s) := by
  cases s <;> first | exact h.elim | rfl | simp [readJV, valueJ, scalarJ, Scalar.type, cast, dump, valueClasses]

theorem read_noneJ (env : Env) : readJV env (scalarJ .none) = .ok none := rfl

/-- the attributes of a nested object -/
theorem read_fields (env : Env) (d : List (String × Scalar)) : ∀ (attrs cur : List (String × Scalar)), (attrs.map (·.1)).Nodup →
    (∀ e ∈ attrs, Basic false e.2 ∨ e.2 = .none ∧ cur.lookup e.1 = some .none) →
    ∃ res, readFields env cur (leafFields attrs) = .ok res ∧ ∀ k, res.lookup k = (attrs.lookup k).or (cur.lookup k) := by
  intro attrs
  induction attrs with
  | nil => intro cur _ _; exact ⟨cur, rfl, fun k => rfl⟩
  | cons e es ih =>
    intro cur hn hb
    obtain ⟨k, s⟩ := e
    rw [List.map_cons, List.nodup_cons] at hn
    have hlk : es.lookup k = none := lookup_none hn.1
    rcases hb (k, s) List.mem_cons_self with h | ⟨h1, h2⟩
    · obtain ⟨res, hr1, hr2⟩ := ih (setKey k s cur) hn.2 (fun e he => by
        rcases hb e (List.mem_cons_of_mem _ he) with h | h
        · exact .inl h
        · refine .inr ⟨h.1, ?_⟩
          have hne : e.1 ≠ k := fun hk => hn.1 (hk ▸ List.mem_map_of_mem (f := (·.1)) he)
          rw [lookup_setKey, if_neg hne]
          exact h.2)
      refine ⟨res, ?_, fun k' => ?_⟩
      · simp only [leafFields, List.map_cons, readFields, read_scalarJ env h]
        exact hr1
      · rw [hr2, lookup_setKey, List.lookup_cons]
        by_cases hk : k' = k
        · subst hk; simp [hlk]
        · rw [beq_false_of_ne hk, if_neg hk]
    · simp only at h1 h2
      subst h1
      obtain ⟨res, hr1, hr2⟩ := ih cur hn.2 (fun e he => hb e (List.mem_cons_of_mem _ he))
      refine ⟨res, ?_, fun k' => ?_⟩
      · simp only [leafFields, List.map_cons, readFields, read_noneJ]
        exact hr1
      · rw [hr2, List.lookup_cons]
        by_cases hk : k' = k
        · subst hk; simp [hlk, h2]
        · rw [beq_false_of_ne hk]

theorem read_attrs (env : Env) {c : String} {attrs : List (String × Scalar)} (h : StorableAttrs (env.dflt c) attrs) :
    ∃ res, readFields env (env.dflt c) (leafFields attrs) = .ok res ∧ SameAttrs attrs res := by
  obtain ⟨h1, h2, h3⟩ := h
  obtain ⟨res, hr1, hr2⟩ := read_fields env (env.dflt c) attrs (env.dflt c) h1 h3
  refine ⟨res, hr1, fun k => ?_⟩
  rw [hr2]
  by_cases hk : k ∈ (env.dflt c).map (·.1)
  · obtain ⟨e, he, rfl⟩ := List.mem_map.1 (h2 k hk)
    rw [lookup_mem h1 (show (e.1, e.2) ∈ attrs from he)]
    rfl
  · rw [lookup_none hk, Option.or_none]

theorem read_leaf (env : Env) {l : Leaf} (hc : l.cls ∈ dittoClasses) (h : StorableAttrs (env.dflt l.cls) l.attrs) :
    ∃ res, readLeaf env ⟨l.cls, leafFields l.attrs⟩ = .ok res ∧ SameLeaf l res := by
  obtain ⟨res, h1, h2⟩ := read_attrs env h
  exact ⟨⟨l.cls, res⟩, by simp only [readLeaf, if_pos hc, h1], rfl, h2⟩

/-- an element is written, and read again -/
theorem item_ok (env : Env) {i : Item} (h : StorableItem env i) :
    ∃ j, listItem i = .ok (some j) ∧ ∃ r, readItem env j = .ok (some r) ∧ SameItem i r := by
  cases i with
  | scalar s =>
    obtain ⟨re, im, rfl⟩ := h
    refine ⟨_, rfl, .scalar (.complex re im), ?_, .refl _⟩
    simp only [readItem, if_neg (show "complex" ∉ dittoClasses by decide +kernel), if_neg (show "complex" ≠ "Unicode" by decide +kernel),
      if_neg (show ¬ "ditto.".toList <:+: "complex".toList by decide +kernel)]
    rfl
  | unicode s =>
    obtain ⟨x, rfl⟩ := h
    exact ⟨_, rfl, .unicode (.str x), by simp [readItem, dittoClasses, dump], .refl _⟩
  | row r => exact h.elim
  | sub x =>
    cases x with
    | leaf l =>
      obtain ⟨hc, ha⟩ := h
      obtain ⟨res, h1, h2⟩ := read_attrs env ha
      have hm : l.cls ∈ leafClasses := hc
      have hd : l.cls ∈ dittoClasses := by
        simp only [List.mem_cons, List.not_mem_nil, or_false] at hc
        rcases hc with h | h | h | h <;> rw [h] <;> decide
      have hw : l.cls ≠ "Winding" := by
        simp only [List.mem_cons, List.not_mem_nil, or_false] at hc
        rcases hc with h | h | h | h <;> rw [h] <;> decide
      refine ⟨.sub ⟨l.cls, leafFields l.attrs, none⟩, by simp only [listItem, if_pos hm], .sub (.leaf ⟨l.cls, res⟩), ?_, .sub (.leaf ⟨rfl, h2⟩)⟩
      simp only [readItem, readSub, if_pos hd, h1, if_neg hw]
    | winding attrs phases =>
      obtain ⟨ha, ps, rfl, hp⟩ := h
      obtain ⟨res, h1, h2⟩ := read_attrs env ha
      obtain ⟨ls, h3, h4⟩ := mapPy_ok (f := fun p : Leaf => readLeaf env ⟨"PhaseWinding", leafFields p.attrs⟩) (R := SameLeaf) (l := ps) (fun p hpm => by
        obtain ⟨hc, hs⟩ := hp p hpm
        have := read_leaf env (l := p) (by rw [hc]; decide) (by rw [hc]; exact hs)
        rw [hc] at this
        exact this)
      refine ⟨_, rfl, .sub (.winding res (some ls)), ?_, .sub (.winding h2 h4)⟩
      have h5 : ∀ l : List Leaf, mapPy (readLeaf env) (l.map fun p => ⟨"PhaseWinding", leafFields p.attrs⟩) =
          mapPy (fun p : Leaf => readLeaf env ⟨"PhaseWinding", leafFields p.attrs⟩) l := by
        intro l
        induction l with
        | nil => rfl
        | cons a as ih => simp only [List.map_cons, mapPy, ih]
      simp only [readItem, readSub, if_pos (show "Winding" ∈ dittoClasses by decide), h1, h5, h3]

theorem row_ok (env : Env) {r : List Scalar} (h : ∀ s ∈ r, Basic true s) : readRow env (r.map valueJ) = .ok r := by
  induction r with
  | nil => rfl
  | cons s r ih =>
    simp only [List.map_cons, readRow, read_valueJ env (h s List.mem_cons_self), ih fun x hx => h x (List.mem_cons_of_mem _ hx)]
    rfl

theorem number_ok (env : Env) {i : Item} (h : StorableNumber i) : readItem env (matrixItem i) = .ok (some i) := by
  cases i with
  | row r => simp only [matrixItem, readItem, row_ok env h]
  | unicode s => exact h.elim
  | sub x => exact h.elim
  | scalar s =>
    have h1 := read_valueJ env h
    have h2 : (valueJ s).cls ∉ dittoClasses ∧ (valueJ s).cls ≠ "Unicode" ∧ ¬ "ditto.".toList <:+: (valueJ s).cls.toList := by
      cases s <;> first | exact h.elim | (simp only [valueJ, scalarJ, Scalar.type]; decide +kernel)
    simp only [matrixItem, readItem, if_neg h2.1, if_neg h2.2.1, if_neg h2.2.2, h1]

/-- a value is written, and read again -/
theorem val_list (env : Env) {c k : String} {l : List Item} (h : StorableVal env c k (.list l)) :
    ∃ js, writeVal k (.list l) = .ok (.list js) ∧ ∃ is, mapPy (readItem env) js = .ok is ∧ List.Forall₂ SameItem l (is.filterMap id) := by
  replace h : if k ∈ matrixKeys then ∀ i ∈ l, StorableNumber i else ∀ i ∈ l, StorableItem env i := h
  unfold writeVal
  by_cases hk : k ∈ matrixKeys
  · rw [if_pos hk] at h
    rw [if_pos hk]
    refine ⟨_, rfl, l.map some, ?_, ?_⟩
    · clear hk
      induction l with
      | nil => rfl
      | cons i l ih =>
        simp only [List.map_cons, mapPy, number_ok env (h i List.mem_cons_self), ih fun x hx => h x (List.mem_cons_of_mem _ hx)]
    · have : (l.map some).filterMap id = l := by simp
      rw [this]
      exact List.forall₂_same.2 fun i _ => .refl i
  · rw [if_neg hk] at h
    rw [if_neg hk]
    clear hk
    have : ∃ js, mapPy listItem l = .ok js ∧ ∃ is, mapPy (readItem env) (js.filterMap id) = .ok is ∧
        List.Forall₂ SameItem l (is.filterMap id) := by
      induction l with
      | nil => exact ⟨[], rfl, [], rfl, .nil⟩
      | cons i l ih =>
        obtain ⟨js, h1, is, h2, h3⟩ := ih fun x hx => h x (List.mem_cons_of_mem _ hx)
        obtain ⟨j, h4, r, h5, h6⟩ := item_ok env (h i List.mem_cons_self)
        refine ⟨some j :: js, by simp only [mapPy, h4, h1], some r :: is, ?_, ?_⟩
        · rw [List.filterMap_cons_some (f := id) (b := j) rfl]
          simp only [mapPy, h5, h2]
        · rw [List.filterMap_cons_some (f := id) (b := r) rfl]
          exact .cons h6 h3
    obtain ⟨js, h1, is, h2, h3⟩ := this
    exact ⟨js.filterMap id, by simp only [h1], is, h2, h3⟩

/-! ### Objects -/

theorem writeAttrs_ok {P : String → Val → JVal → Prop} : ∀ (attrs : List (String × Val)) (fs : List (String × JVal)), (attrs.map (·.1)).Nodup →
    (∀ e ∈ attrs, ∃ j, writeVal e.1 e.2 = .ok j ∧ P e.1 e.2 j) →
    ∃ res, writeAttrs fs attrs = .ok res ∧ ∀ k, (attrs.lookup k = none ∧ res.lookup k = fs.lookup k) ∨
      ∃ v j, attrs.lookup k = some v ∧ res.lookup k = some j ∧ P k v j := by
  intro attrs
  induction attrs with
  | nil => intro fs _ _; exact ⟨fs, rfl, fun k => .inl ⟨rfl, rfl⟩⟩
  | cons e es ih =>
    intro fs hn h
    obtain ⟨k, v⟩ := e
    rw [List.map_cons, List.nodup_cons] at hn
    obtain ⟨j, hj, hP⟩ := h (k, v) List.mem_cons_self
    obtain ⟨res, h1, h2⟩ := ih (setKey k j fs) hn.2 fun e he => h e (List.mem_cons_of_mem _ he)
    refine ⟨res, by simp only [writeAttrs, hj]; exact h1, fun k' => ?_⟩
    rw [List.lookup_cons]
    by_cases hk : k' = k
    · subst hk
      right
      have hl : es.lookup k' = none := lookup_none hn.1
      rcases h2 k' with ⟨-, h3⟩ | ⟨v', j', h3, -⟩
      · exact ⟨v, j, by simp, by rw [h3, lookup_setKey, if_pos rfl], hP⟩
      · rw [hl] at h3; cases h3
    · rw [beq_false_of_ne hk]
      rcases h2 k' with ⟨h3, h4⟩ | h3
      · exact .inl ⟨h3, by rw [h4, lookup_setKey, if_neg hk]⟩
      · exact .inr h3

theorem setKey_keys {α : Type} (k : String) (v : α) (d : List (String × α)) :
    (setKey k v d).map (·.1) = if k ∈ d.map (·.1) then d.map (·.1) else d.map (·.1) ++ [k] := by
  induction d with
  | nil => simp [setKey]
  | cons e es ih =>
    simp only [setKey]
    by_cases h : e.1 = k
    · simp [h]
    · rw [if_neg h, List.map_cons, ih, List.map_cons]
      have h' : ¬ k = e.1 := fun hh => h hh.symm
      by_cases hm : k ∈ es.map (·.1)
      · rw [if_pos hm, if_pos (List.mem_cons_of_mem _ hm)]
      · rw [if_neg hm, if_neg (by simp only [List.mem_cons, not_or]; exact ⟨h', hm⟩), List.cons_append]

theorem setKey_nodup {α : Type} (k : String) (v : α) {d : List (String × α)} (h : (d.map (·.1)).Nodup) : ((setKey k v d).map (·.1)).Nodup := by
  rw [setKey_keys]
  split
  · exact h
  · rename_i hm
    rw [List.nodup_append]
    refine ⟨h, by simp, fun a ha b hb => ?_⟩
    rw [List.mem_singleton] at hb
    subst hb
    exact fun hab => hm (hab ▸ ha)

theorem writeAttrs_nodup : ∀ (attrs : List (String × Val)) (fs res : List (String × JVal)), (fs.map (·.1)).Nodup →
    writeAttrs fs attrs = .ok res → (res.map (·.1)).Nodup := by
  intro attrs
  induction attrs with
  | nil => intro fs res h hr; simp only [writeAttrs, Except.ok.injEq] at hr; exact hr ▸ h
  | cons e es ih =>
    intro fs res h hr
    obtain ⟨k, v⟩ := e
    simp only [writeAttrs] at hr
    split at hr
    · cases hr
    · exact ih _ _ (setKey_nodup _ _ h) hr

/-- what a value of a file gives: nothing for `None`, a value otherwise -/
def Reads (env : Env) (j : JVal) (r : Option Val) : Prop :=
  match j with
  | .list l => ∃ is, mapPy (readItem env) l = .ok is ∧ r = some (.list (is.filterMap id))
  | .v j => ∃ s, readJV env j = .ok s ∧ r = s.map .scalar

theorem readAttrs_ok (env : Env) : ∀ (fs : List (String × JVal)) (cur : List (String × Val)), (fs.map (·.1)).Nodup →
    (∀ e ∈ fs, ∃ r, Reads env e.2 r) → ∃ res, readAttrs env cur fs = .ok res ∧ ∀ k, (fs.lookup k = none ∧ res.lookup k = cur.lookup k) ∨
      ∃ j r, fs.lookup k = some j ∧ Reads env j r ∧ res.lookup k = r.or (cur.lookup k) := by
  intro fs
  induction fs with
  | nil => intro cur _ _; exact ⟨cur, rfl, fun k => .inl ⟨rfl, rfl⟩⟩
  | cons e es ih =>
    intro cur hn h
    obtain ⟨k, j⟩ := e
    rw [List.map_cons, List.nodup_cons] at hn
    have hl : es.lookup k = none := lookup_none hn.1
    obtain ⟨r, hr⟩ := h (k, j) List.mem_cons_self
    have step : ∃ cur', readAttrs env cur ((k, j) :: es) = readAttrs env cur' es ∧
        ∀ k', cur'.lookup k' = if k' = k then r.or (cur.lookup k') else cur.lookup k' := by
      cases j with
      | list l =>
        obtain ⟨is, h1, rfl⟩ := hr
        refine ⟨setKey k (.list (is.filterMap id)) cur, by simp only [readAttrs, h1], fun k' => ?_⟩
        rw [lookup_setKey]
        rfl
      | v j =>
        obtain ⟨s, h1, rfl⟩ := hr
        cases s with
        | none =>
          refine ⟨cur, by simp only [readAttrs, h1], fun k' => ?_⟩
          simp
        | some s =>
          refine ⟨setKey k (.scalar s) cur, by simp only [readAttrs, h1], fun k' => ?_⟩
          rw [lookup_setKey]
          rfl
    obtain ⟨cur', s1, s2⟩ := step
    obtain ⟨res, h1, h2⟩ := ih cur' hn.2 fun e he => h e (List.mem_cons_of_mem _ he)
    refine ⟨res, by rw [s1]; exact h1, fun k' => ?_⟩
    rw [List.lookup_cons]
    by_cases hk : k' = k
    · subst hk
      right
      rcases h2 k' with ⟨-, h3⟩ | ⟨j', r', h3, -⟩
      · exact ⟨j, r, by simp, hr, by rw [h3, s2, if_pos rfl]⟩
      · rw [hl] at h3; cases h3
    · rw [beq_false_of_ne hk]
      have s3 := s2 k'
      rw [if_neg hk] at s3
      rw [← s3]
      exact h2 k'

/-- how an attribute comes back: `none` if it is not written to the new object -/
theorem val_ok (env : Env) {c k : String} {v : Val} (h : StorableVal env c k v) :
    ∃ j, writeVal k v = .ok j ∧ ∃ r, Reads env j r ∧
      ((∃ w, r = some w ∧ SameVal v w) ∨ r = none ∧ v = .scalar .none ∧ (env.dflt c).lookup k = some .none) := by
  cases v with
  | list l =>
    obtain ⟨js, h1, is, h2, h3⟩ := val_list env h
    exact ⟨.list js, h1, some (.list (is.filterMap id)), ⟨is, h2, rfl⟩, .inl ⟨_, rfl, .list h3⟩⟩
  | scalar s =>
    obtain ⟨hk, hs⟩ := h
    have hw : writeVal k (.scalar s) = .ok (.v (valueJ s)) := by
      unfold writeVal
      rw [if_neg (show k ∉ matrixKeys from hk)]
    rcases hs with hs | ⟨rfl, hd⟩
    · exact ⟨_, hw, some (.scalar s), ⟨some s, read_valueJ env hs, rfl⟩, .inl ⟨_, rfl, .scalar s⟩⟩
    · exact ⟨_, hw, none, ⟨none, rfl, rfl⟩, .inr ⟨rfl, rfl, hd⟩⟩

theorem Reads.unique {env : Env} {j : JVal} {r r' : Option Val} (h : Reads env j r) (h' : Reads env j r') : r = r' := by
  cases j with
  | list l =>
    obtain ⟨a, h1, rfl⟩ := h
    obtain ⟨b, h2, rfl⟩ := h'
    rw [h1] at h2
    cases h2
    rfl
  | v j =>
    obtain ⟨a, h1, rfl⟩ := h
    obtain ⟨b, h2, rfl⟩ := h'
    rw [h1] at h2
    cases h2
    rfl

theorem lookup_some_mem {α : Type} {k : String} {v : α} {d : List (String × α)} (h : d.lookup k = some v) : (k, v) ∈ d := by
  induction d with
  | nil => cases h
  | cons e es ih =>
    rw [List.lookup_cons] at h
    by_cases hk : k = e.1
    · subst hk
      simp only [BEq.rfl, Option.some.injEq] at h
      subst h
      exact List.mem_cons_self
    · rw [beq_false_of_ne hk] at h
      exact List.mem_cons_of_mem _ (ih h)

theorem lookup_map_scalar (k : String) (d : List (String × Scalar)) :
    (d.map fun e => (e.1, Val.scalar e.2)).lookup k = (d.lookup k).map Val.scalar := by
  induction d with
  | nil => rfl
  | cons e es ih =>
    rw [List.map_cons, List.lookup_cons, List.lookup_cons, ih]
    by_cases hk : k = e.1
    · subst hk; simp
    · rw [beq_false_of_ne hk]

/-- an object is written, and read again -/
theorem obj_ok (env : Env) {o : Obj} (h : Storable env o) :
    ∃ j, writeObj o = .ok j ∧ ∃ r, readObj env j = .ok (some r) ∧ SameObj o r := by
  obtain ⟨fs, hw, hf⟩ := writeAttrs_ok (P := fun k v j => ∃ r, Reads env j r ∧
      ((∃ w, r = some w ∧ SameVal v w) ∨ r = none ∧ v = .scalar .none ∧ (env.dflt o.cls).lookup k = some .none)) o.attrs
    [("name", .v ⟨"str", .scalar (nameOf o)⟩)] h.nodup (fun e he => val_ok env (h.attrs e he))
  have hn := writeAttrs_nodup _ _ _ (by simp) hw
  have hname : ∃ v, o.attrs.lookup "name" = some v := by
    obtain ⟨e, he, h1⟩ := List.mem_map.1 h.name
    exact ⟨e.2, h1 ▸ lookup_mem h.nodup (show (e.1, e.2) ∈ o.attrs from he)⟩
  obtain ⟨res, hr1, hr2⟩ := readAttrs_ok env fs ((env.dflt o.cls).map fun e => (e.1, .scalar e.2)) hn (fun e he => by
    rcases hf e.1 with ⟨h1, h2⟩ | ⟨v, j, h1, h2, r, h3, -⟩
    · exfalso
      rw [lookup_mem hn (show (e.1, e.2) ∈ fs from he), List.lookup_cons] at h2
      by_cases hk : e.1 = "name"
      · rw [hk] at h1
        obtain ⟨v, hv⟩ := hname
        rw [hv] at h1
        cases h1
      · rw [beq_false_of_ne hk] at h2
        cases h2
    · rw [lookup_mem hn (show (e.1, e.2) ∈ fs from he)] at h2
      cases h2
      exact ⟨r, h3⟩)
  have hc : o.cls ∉ ignoredClasses ∧ o.cls ∈ objectClasses := by
    have := h.cls
    simp only [List.mem_cons, List.not_mem_nil, or_false] at this
    rcases this with h | h | h | h | h | h | h | h | h | h <;> rw [h] <;> decide +kernel
  refine ⟨⟨o.cls, fs⟩, by simp only [writeObj, hw], ⟨o.cls, res⟩, by simp only [readObj, if_neg hc.1, if_pos hc.2, hr1], rfl, fun k => ?_⟩
  rcases hf k with ⟨h1, h2⟩ | ⟨v, j, h1, h2, r, h3, h4⟩
  · left
    refine ⟨h1, ?_⟩
    have hk : k ≠ "name" := by
      rintro rfl
      obtain ⟨v, hv⟩ := hname
      rw [hv] at h1
      cases h1
    rw [List.lookup_cons, beq_false_of_ne hk] at h2
    rcases hr2 k with ⟨-, h5⟩ | ⟨j, r, h5, -⟩
    · rw [h5, lookup_map_scalar]
      by_cases hd : k ∈ (env.dflt o.cls).map (·.1)
      · obtain ⟨e, he, rfl⟩ := List.mem_map.1 (h.dflt k hd)
        rw [lookup_mem h.nodup (show (e.1, e.2) ∈ o.attrs from he)] at h1
        cases h1
      · rw [lookup_none hd]; rfl
    · rw [h2] at h5; cases h5
  · right
    rcases hr2 k with ⟨h5, -⟩ | ⟨j', r', h5, h6, h7⟩
    · rw [h2] at h5; cases h5
    · rw [h2] at h5
      cases h5
      obtain rfl := h3.unique h6
      rcases h4 with ⟨w, rfl, h8⟩ | ⟨rfl, rfl, h8⟩
      · exact ⟨v, w, h1, h7, h8⟩
      · refine ⟨.scalar .none, .scalar .none, h1, ?_, .scalar _⟩
        rw [h7, lookup_map_scalar, h8]
        rfl

theorem writeVal_nested {k : String} {v : Val} (hk : k ∉ matrixKeys) (hv : ∀ l, v = .list l → ∀ i ∈ l, ∃ x, i = .sub (.leaf x)) :
    ∃ j, writeVal k v = .ok j := by
  unfold writeVal
  rw [if_neg hk]
  cases v with
  | scalar s => exact ⟨_, rfl⟩
  | list l =>
    obtain ⟨bs, h1, -⟩ := mapPy_ok (f := listItem) (R := fun _ _ => True) (l := l) (fun i hi => by
      obtain ⟨x, rfl⟩ := hv l rfl i hi
      exact ⟨_, rfl, trivial⟩)
    exact ⟨.list (bs.filterMap id), by simp only [h1]⟩

theorem obj_nested {o : Obj} (h : StorableNested o) : ∃ j, writeObj o = .ok j ∧ j.cls = o.cls := by
  have : ∀ (attrs : List (String × Val)) fs, (∀ e ∈ attrs, ∃ j, writeVal e.1 e.2 = .ok j) → ∃ res, writeAttrs fs attrs = .ok res := by
    intro attrs
    induction attrs with
    | nil => intro fs _; exact ⟨fs, rfl⟩
    | cons e es ih =>
      intro fs h
      obtain ⟨j, hj⟩ := h e List.mem_cons_self
      obtain ⟨res, hr⟩ := ih (setKey e.1 j fs) fun x hx => h x (List.mem_cons_of_mem _ hx)
      exact ⟨res, by simp only [writeAttrs, hj, hr]⟩
  obtain ⟨res, hr⟩ := this o.attrs [("name", .v ⟨"str", .scalar (nameOf o)⟩)] fun e he => writeVal_nested (h e he).1 (h e he).2
  exact ⟨⟨o.cls, res⟩, by simp only [writeObj, hr], rfl⟩

theorem writeObj_cls {o : Obj} {j : JObj} (h : writeObj o = .ok j) : j.cls = o.cls := by
  simp only [writeObj] at h
  split at h
  · cases h
  · cases h; rfl

end Ditto.Json
