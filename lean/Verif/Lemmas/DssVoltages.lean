import Verif.Spec.DssVoltages
import Mathlib.Data.List.Induction

namespace Ditto.Dss
open Ditto Ditto.Spec

theorem range_last {p : Nat → Bool} {i : Nat} : ∀ {n : Nat}, ((List.range n).filter p).getLast? = some i ↔ i < n ∧ p i = true ∧ ∀ j, i < j → j < n → p j = false := by
  intro n
  induction n with
  | zero => simp
  | succ n ih =>
    rw [List.range_succ, List.filter_append]
    cases hp : p n with
    | false =>
      rw [List.filter_cons_of_neg (by simp [hp]), List.filter_nil, List.append_nil, ih]
      constructor
      · rintro ⟨h1, h2, h3⟩
        refine ⟨by omega, h2, fun j hj hn => ?_⟩
        rcases Nat.lt_or_ge j n with h | h
        · exact h3 j hj h
        · rw [show j = n by omega]; exact hp
      · rintro ⟨h1, h2, h3⟩
        refine ⟨?_, h2, fun j hj hn => h3 j hj (by omega)⟩
        rcases Nat.lt_or_ge i n with h | h
        · exact h
        · rw [show i = n by omega, hp] at h2; exact absurd h2 (by simp)
    | true =>
      rw [List.filter_cons_of_pos (by simp [hp]), List.filter_nil, List.getLast?_append]
      simp only [List.getLast?_singleton, Option.some_or, Option.some.injEq]
      constructor
      · rintro rfl
        exact ⟨by omega, hp, fun j h1 h2 => by omega⟩
      · rintro ⟨h1, h2, h3⟩
        rcases Nat.lt_or_ge i n with h | h
        · have := h3 n h (by omega); rw [hp] at this; exact absurd this (by simp)
        · omega

theorem lastNamed_iff {K : Type} {objs : List (VObj K)} {n : Option String} {i : Nat} : lastNamed objs n = some i ↔ Holds objs n i := by
  unfold lastNamed Holds
  rw [range_last]
  simp only [decide_eq_true_eq, decide_eq_false_iff_not]
  constructor
  · rintro ⟨h1, h2, h3⟩
    obtain ⟨o, ho, hn⟩ := Option.bind_eq_some_iff.1 h2
    refine ⟨⟨o, ho, hn⟩, fun j o' hj ho' hno => h3 j hj ?_ ?_⟩
    · exact (List.getElem?_eq_some_iff.1 ho').1
    · rw [ho']; exact hno
  · rintro ⟨⟨o, ho, hn⟩, h2⟩
    refine ⟨(List.getElem?_eq_some_iff.1 ho).1, by rw [ho]; exact hn, fun j hj _ hb => ?_⟩
    obtain ⟨o', ho', hn'⟩ := Option.bind_eq_some_iff.1 hb
    exact h2 j o' hj ho' hn'

theorem unset_iff {K : Type} {x : Option (Option K)} : unset x = true ↔ x = some none := by
  unfold unset
  split
  · simp
  · rename_i h
    exact ⟨fun h' => absurd h' (by simp), fun h' => absurd h' h⟩

theorem setVolt_self {K : Type} (i : Nat) (x : Option K) (v : Volts K) : setVolt i x v i = some x := by simp [setVolt]

theorem setVolt_ne {K : Type} {i j : Nat} (h : j ≠ i) (x : Option K) (v : Volts K) : setVolt i x v j = v j := by simp [setVolt, h]

/-- the last bus with the name of the object counts -/
theorem setBuses_eq {K : Type} [Field K] (s3 : K) (objs : List (VObj K)) (bs : List (String × K)) (v : Volts K) (i : Nat) :
    setBuses s3 objs bs v i = match (bs.filter fun b => decide (lastNamed objs (some (pyLower b.1)) = some i)).getLast? with
      | none => v i
      | some b => some (some (b.2 * s3 * 1000)) := by
  induction bs using List.reverseRecOn with
  | nil => rfl
  | append_singleton bs b ih =>
    unfold setBuses at ih ⊢
    rw [List.foldl_append, List.foldl_cons, List.foldl_nil, List.filter_append]
    cases hl : lastNamed objs (some (pyLower b.1)) with
    | none => simpa [hl] using ih
    | some k =>
      by_cases hk : k = i
      · subst hk
        simp [hl, setVolt_self]
      · have : i ≠ k := Ne.symm hk
        simp only [setVolt_ne this]
        rw [ih, List.filter_cons_of_neg (by simp [hl, hk]), List.filter_nil, List.append_nil]

theorem setBuses_bus {K : Type} [Field K] (s3 : K) {objs : List (VObj K)} {bs : List (String × K)} {n : String} {kv : K} {i : Nat}
    (hi : Holds objs (some n) i) (hb : BusBase bs n kv) (v : Volts K) : setBuses s3 objs bs v i = some (some (kv * s3 * 1000)) := by
  obtain ⟨b, hb, rfl⟩ := hb
  rw [setBuses_eq]
  have : (bs.filter fun b => decide (lastNamed objs (some (pyLower b.1)) = some i)) = bs.filter fun b => decide (pyLower b.1 = n) := by
    refine List.filter_congr fun b _ => ?_
    rw [decide_eq_decide]
    constructor
    · intro h
      have h := (lastNamed_iff.1 h).1
      obtain ⟨o, ho, hn⟩ := h
      obtain ⟨o', ho', hn'⟩ := hi.1
      rw [ho] at ho'
      obtain rfl := Option.some.inj ho'
      rw [hn] at hn'
      exact Option.some.inj (Option.some.inj hn')
    · rintro h
      rw [h]
      exact lastNamed_iff.2 hi
  rw [this, hb]

theorem setBuses_other {K : Type} [Field K] (s3 : K) {objs : List (VObj K)} {bs : List (String × K)} {i : Nat}
    (hi : ∀ b ∈ bs, ¬ Holds objs (some (pyLower b.1)) i) (v : Volts K) : setBuses s3 objs bs v i = v i := by
  rw [setBuses_eq]
  have : (bs.filter fun b => decide (lastNamed objs (some (pyLower b.1)) = some i)) = [] := by
    rw [List.filter_eq_nil_iff]
    intro b hb h
    exact hi b hb (lastNamed_iff.1 (of_decide_eq_true h))
  rw [this]
  rfl

theorem takeVolt_ne {K : Type} {objs : List (VObj K)} {i j : Nat} (h : j ≠ i) (n : Option String) (v : Volts K) : takeVolt objs i n v j = v j := by
  have : takeVolt objs i n v = v ∨ ∃ x, takeVolt objs i n v = setVolt i x v := by
    unfold takeVolt
    split
    · exact Or.inl rfl
    · exact Or.inr ⟨_, rfl⟩
  rcases this with h' | ⟨x, h'⟩ <;> rw [h']
  exact setVolt_ne h _ _

theorem setWinding_cases {K : Type} (objs : List (VObj K)) (o : VObj K) (x : Nat) (v : Volts K) : setWinding objs o x v = v ∨
    ∃ w, o.windings[x]? = some w ∧ v w = some none ∧ setWinding objs o x v = takeVolt objs w (mapp o x) v := by
  unfold setWinding
  split
  · exact Or.inl rfl
  · rename_i w hw
    split
    · rename_i hu
      exact Or.inr ⟨w, hw, unset_iff.1 hu, rfl⟩
    · exact Or.inl rfl

theorem setWinding_ne {K : Type} {objs : List (VObj K)} {o : VObj K} {x j : Nat} (h : o.windings[x]? ≠ some j) (v : Volts K) : setWinding objs o x v j = v j := by
  rcases setWinding_cases objs o x v with h' | ⟨w, hw, -, h'⟩ <;> rw [h']
  exact takeVolt_ne (fun e => h (by rw [hw, e])) _ _

theorem setWinding_given {K : Type} {objs : List (VObj K)} {o : VObj K} {x j : Nat} {v : Volts K} (h : v j ≠ some none) : setWinding objs o x v j = v j := by
  rcases setWinding_cases objs o x v with h' | ⟨w, hw, hv, h'⟩ <;> rw [h']
  exact takeVolt_ne (fun e => h (by rw [e]; exact hv)) _ _

theorem takeOwn_ne {K : Type} {objs : List (VObj K)} {o : VObj K} {i j : Nat} (h : j ≠ i) (v : Volts K) : takeOwn objs o i v j = v j := by
  have : takeOwn objs o i v = v ∨ ∃ n, takeOwn objs o i v = takeVolt objs i n v := by
    unfold takeOwn
    split
    · exact Or.inr ⟨_, rfl⟩
    · split
      · exact Or.inr ⟨_, rfl⟩
      · exact Or.inl rfl
  rcases this with h' | ⟨x, h'⟩ <;> rw [h']
  exact takeVolt_ne h _ _

theorem objStep_cases {K : Type} (objs : List (VObj K)) (v : Volts K) (i : Nat) : (objs[i]? = none ∧ objStep objs v i = v) ∨ ∃ o, objs[i]? = some o ∧
    ((v i = some none ∧ objStep objs v i = takeOwn objs o i v) ∨
     (v i ≠ some none ∧ o.isTrafo = true ∧ objStep objs v i = setWinding objs o 2 (setWinding objs o 1 (setWinding objs o 0 v))) ∨
     (v i ≠ some none ∧ o.isTrafo = false ∧ objStep objs v i = v)) := by
  unfold objStep
  split
  · rename_i h; exact Or.inl ⟨h, rfl⟩
  · rename_i o ho
    refine Or.inr ⟨o, ho, ?_⟩
    split
    · rename_i h; exact Or.inl ⟨unset_iff.1 h, rfl⟩
    · rename_i h
      have h : v i ≠ some none := fun e => h (unset_iff.2 e)
      split
      · rename_i ht; exact Or.inr (Or.inl ⟨h, ht, rfl⟩)
      · rename_i ht; exact Or.inr (Or.inr ⟨h, by simpa using ht, rfl⟩)

theorem objStep_given {K : Type} {objs : List (VObj K)} {v : Volts K} {j : Nat} (h : v j ≠ some none) (i : Nat) : objStep objs v i j = v j := by
  rcases objStep_cases objs v i with ⟨-, h'⟩ | ⟨o, ho, ⟨hv, h'⟩ | ⟨-, -, h'⟩ | ⟨-, -, h'⟩⟩ <;> rw [h']
  · exact takeOwn_ne (fun e => h (by rw [e]; exact hv)) _
  · have h0 := setWinding_given (objs := objs) (o := o) (x := 0) h
    have h1 := setWinding_given (objs := objs) (o := o) (x := 1) (v := setWinding objs o 0 v) (by rw [h0]; exact h)
    rw [setWinding_given (by rw [h1, h0]; exact h), h1, h0]

/-- a step leaves an object alone that is not its own and no winding of it in the first three places -/
theorem objStep_other {K : Type} {objs : List (VObj K)} {i j : Nat} (hne : j ≠ i) (hw : ∀ o, objs[i]? = some o → ∀ x, x ≤ 2 → o.windings[x]? ≠ some j)
    (v : Volts K) : objStep objs v i j = v j := by
  rcases objStep_cases objs v i with ⟨-, h'⟩ | ⟨o, ho, ⟨hv, h'⟩ | ⟨-, -, h'⟩ | ⟨-, -, h'⟩⟩ <;> rw [h']
  · exact takeOwn_ne hne _
  · rw [setWinding_ne (hw o ho 2 (by omega)), setWinding_ne (hw o ho 1 (by omega)), setWinding_ne (hw o ho 0 (by omega))]

/-- a step leaves its own object alone if that is connected to nothing and no transformer -/
theorem objStep_self {K : Type} {objs : List (VObj K)} {i : Nat} (ho : ∀ o, objs[i]? = some o → o.conn = none ∧ o.hasFrom = false ∧ o.isTrafo = false)
    (v : Volts K) : objStep objs v i i = v i := by
  rcases objStep_cases objs v i with ⟨-, h'⟩ | ⟨o, ho', ⟨hv, h'⟩ | ⟨-, ht, h'⟩ | ⟨-, -, h'⟩⟩ <;> rw [h']
  · obtain ⟨h1, h2, -⟩ := ho o ho'
    unfold takeOwn
    rw [h1, h2]
    rfl
  · rw [(ho o ho').2.2] at ht
    exact absurd ht (by simp)

theorem fold_same {K : Type} {objs : List (VObj K)} {j : Nat} : ∀ (l : List Nat), (∀ i ∈ l, ∀ v : Volts K, objStep objs v i j = v j) →
    ∀ v : Volts K, l.foldl (objStep objs) v j = v j := by
  intro l
  induction l with
  | nil => intro _ v; rfl
  | cons i l ih =>
    intro h v
    rw [List.foldl_cons, ih (fun i' hi' => h i' (List.mem_cons_of_mem _ hi')), h i List.mem_cons_self]

theorem fold_given {K : Type} {objs : List (VObj K)} {j : Nat} : ∀ (l : List Nat) (v : Volts K), v j ≠ some none → l.foldl (objStep objs) v j = v j := by
  intro l
  induction l with
  | nil => intro v _; rfl
  | cons i l ih =>
    intro v h
    have := objStep_given (objs := objs) h i
    rw [List.foldl_cons, ih _ (by rw [this]; exact h), this]

theorem nodeLike_step {K : Type} {objs : List (VObj K)} {j : Nat} (h : NodeLike objs j) (i : Nat) (v : Volts K) : objStep objs v i j = v j := by
  by_cases hne : j = i
  · subst hne
    refine objStep_self (fun o ho => ?_) v
    obtain ⟨o', ho', h1, h2, h3, -⟩ := h.1
    rw [ho] at ho'
    obtain rfl := Option.some.inj ho'
    exact ⟨h1, h2, h3⟩
  · exact objStep_other hne (fun o ho x _ hw => h.2 o (List.mem_of_getElem? ho) (List.mem_of_getElem? hw)) v

theorem range_split {n i : Nat} (h : i < n) : ∃ l, List.range n = List.range i ++ i :: l ∧ ∀ k ∈ l, i < k := by
  refine ⟨(List.range (n - i - 1)).map (· + (i + 1)), ?_, fun k hk => ?_⟩
  · have : n = i + 1 + (n - i - 1) := by omega
    conv_lhs => rw [this, List.range_add, List.range_succ]
    rw [List.append_assoc]
    simp [Nat.add_comm]
  · obtain ⟨a, -, rfl⟩ := List.mem_map.1 hk
    omega

/-- the voltage at the end of an object that no step but that of position `i` changes -/
theorem fold_once {K : Type} {objs : List (VObj K)} {i j : Nat} (hi : i < objs.length) (h : ∀ k, k ≠ i → ∀ v : Volts K, objStep objs v k j = v j) (v : Volts K) :
    (List.range objs.length).foldl (objStep objs) v j = objStep objs ((List.range i).foldl (objStep objs) v) i j ∧
    (List.range i).foldl (objStep objs) v j = v j := by
  obtain ⟨l, hl, hk⟩ := range_split hi
  rw [hl, List.foldl_append, List.foldl_cons]
  refine ⟨fold_same l (fun k hk' => h k (by have := hk k hk'; omega)) _, fold_same _ (fun k hk' => h k ?_) _⟩
  have := List.mem_range.1 hk'
  omega

end Ditto.Dss
