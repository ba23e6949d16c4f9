import Verif.Spec.GlmTrafoWrite
import Verif.Lemmas.GlmLines
import Verif.Lemmas.GlmLoads

/-! Lemmas about the GridLAB-D writer for transformers. -/
namespace Ditto.Glm
open Ditto Glm.Spec

section numbers
variable {K : Type} [Field K] {shown : K → Text}

/-! ### dictionaries -/

theorem get_setSome (k : Text) (v : Option Text) (n : Text) (d : List (Text × Text)) :
    getEntry n (setSome k v d) = if n = k then v.or (getEntry n d) else getEntry n d := by
  cases v with
  | none => show getEntry n d = _; split <;> rfl
  | some t => show getEntry n (setEntry k t d) = _; rw [getEntry_setEntry]; split <;> rfl

theorem setSome_nodup (k : Text) (v : Option Text) {d : List (Text × Text)} (h : (d.map (·.1)).Nodup) : ((setSome k v d).map (·.1)).Nodup := by
  cases v with
  | none => exact h
  | some t => exact setEntry_nodup k t h

/-- in a dictionary without repeated keys -/
theorem get_iff {d : List (Text × Text)} (h : (d.map (·.1)).Nodup) {k v : Text} : getEntry k d = some v ↔ (k, v) ∈ d := by
  induction d with
  | nil => exact ⟨fun e => (by cases e), fun e => (by cases e)⟩
  | cons p d ih =>
    obtain ⟨k', v'⟩ := p
    rw [List.map_cons, List.nodup_cons] at h
    unfold getEntry
    by_cases e : k' = k
    · subst e
      rw [if_pos rfl]
      constructor
      · intro e; cases e; exact List.mem_cons_self
      · intro hm
        rcases List.mem_cons.mp hm with e | hm
        · cases e; rfl
        · exact absurd (List.mem_map.mpr ⟨_, hm, rfl⟩) h.1
    · rw [if_neg e, ih h.2]
      constructor
      · exact fun hm => List.mem_cons_of_mem _ hm
      · intro hm
        rcases List.mem_cons.mp hm with e' | hm
        · cases e'; exact absurd rfl e
        · exact hm

theorem get_same {d d' : List (Text × Text)} (h : (d.map (·.1)).Nodup) (h' : (d'.map (·.1)).Nodup) (hs : ∀ p, p ∈ d ↔ p ∈ d') (k : Text) :
    getEntry k d = getEntry k d' := by
  cases e : getEntry k d with
  | some v => exact ((get_iff h').mpr ((hs _).mp ((get_iff h).mp e))).symm
  | none =>
    cases e' : getEntry k d' with
    | none => rfl
    | some v => rw [(get_iff h).mpr ((hs _).mpr ((get_iff h').mp e'))] at e; cases e

/-- the dictionary before the impedance -/
def baseDict (shown : K → Text) (t : WGTrafo K) : List (Text × Text) :=
  match t.windings with
  | w1 :: w2 :: ws =>
    windingDict shown (ws.length + 2) w1 w2 (setSome "no_load_loss".toList (t.loss.map shown) (setSome "install_type".toList t.install []))
  | _ => setSome "no_load_loss".toList (t.loss.map shown) (setSome "install_type".toList t.install [])

theorem trafoDict_base (t : WGTrafo K) : trafoDict shown t = impedanceDict shown t (baseDict shown t) := by
  unfold trafoDict baseDict
  cases h : t.windings with
  | nil => rfl
  | cons w1 l => cases l <;> rfl

theorem base_nodup (t : WGTrafo K) : ((baseDict shown t).map (·.1)).Nodup := by
  have h0 : ((setSome "no_load_loss".toList (t.loss.map shown) (setSome "install_type".toList t.install [])).map (·.1)).Nodup :=
    setSome_nodup _ _ (setSome_nodup _ _ List.nodup_nil)
  unfold baseDict
  split
  · unfold windingDict
    exact setSome_nodup _ _ (setSome_nodup _ _ (setSome_nodup _ _ (setSome_nodup _ _ h0)))
  · exact h0

/-- the three outcomes for the impedance -/
theorem impedance_cases (t : WGTrafo K) (d : List (Text × Text)) :
    (∃ w1 w2 x r1 r2, t.windings = [w1, w2] ∧ t.reactances = [x] ∧ w1.resistance = some r1 ∧ w2.resistance = some r2 ∧
      impedanceDict shown t d = .ok (setEntry "resistance".toList (shown (r1 + r2)) (setEntry "reactance".toList (shown x) d))) ∨
    (¬(t.windings.length = 2 ∧ t.reactances.length = 1) ∧ ¬(t.windings.length = 3 ∧ t.reactances.length = 3) ∧ impedanceDict shown t d = .ok d) ∨
    (∃ w1 w2 x, t.windings = [w1, w2] ∧ t.reactances = [x] ∧ (w1.resistance = none ∨ w2.resistance = none) ∧ impedanceDict shown t d = .error .typeError) ∨
    (∃ w1 w2 w3, t.windings = [w1, w2, w3] ∧ t.reactances.length = 3 ∧
      impedanceDict shown t d = .error (if w1.resistance = none then .typeError else .attributeError)) := by
  unfold impedanceDict
  split
  · rename_i x w1 w2 hx hw
    cases h1 : w1.resistance with
    | none => exact Or.inr (Or.inr (Or.inl ⟨w1, w2, x, hw, hx, Or.inl h1, rfl⟩))
    | some r1 =>
      cases h2 : w2.resistance with
      | none => exact Or.inr (Or.inr (Or.inl ⟨w1, w2, x, hw, hx, Or.inr h2, rfl⟩))
      | some r2 => exact Or.inl ⟨w1, w2, x, r1, r2, hw, hx, h1, h2, rfl⟩
  · rename_i x y z w1 w2 w3 hx hw
    refine Or.inr (Or.inr (Or.inr ⟨w1, w2, w3, hw, by rw [hx]; rfl, ?_⟩))
    cases h1 : w1.resistance with
    | none => rw [if_pos rfl]
    | some r1 => rw [if_neg (by intro e; cases e)]
  · rename_i h1 h2
    refine Or.inr (Or.inl ⟨?_, ?_, rfl⟩)
    · rintro ⟨ha, hb⟩
      obtain ⟨w1, w2, hw⟩ := List.length_eq_two.mp ha
      obtain ⟨x, hx⟩ := List.length_eq_one_iff.mp hb
      exact h1 x w1 w2 hx hw
    · rintro ⟨ha, hb⟩
      obtain ⟨w1, w2, w3, hw⟩ := List.length_eq_three.mp ha
      obtain ⟨x, y, z, hx⟩ := List.length_eq_three.mp hb
      exact h2 x y z w1 w2 w3 hx hw

theorem trafoDict_ok {t : WGTrafo K} (h : WritableImpedance t) : ∃ d, trafoDict shown t = .ok d := by
  rw [trafoDict_base]
  rcases impedance_cases (shown := shown) t (baseDict shown t) with ⟨w1, w2, x, r1, r2, -, -, -, -, e⟩ | ⟨-, -, e⟩ | ⟨w1, w2, x, hw, hx, hr, -⟩ | ⟨w1, w2, w3, hw, hx, -⟩
  · exact ⟨_, e⟩
  · exact ⟨_, e⟩
  · obtain ⟨h1, h2⟩ := h.two w1 w2 x hw hx
    rcases hr with hr | hr
    · rw [hr] at h1; cases h1
    · rw [hr] at h2; cases h2
  · exact absurd ⟨by rw [hw]; rfl, hx⟩ h.three

theorem trafoDict_nodup {t : WGTrafo K} {d : List (Text × Text)} (h : trafoDict shown t = .ok d) : (d.map (·.1)).Nodup := by
  rw [trafoDict_base] at h
  rcases impedance_cases (shown := shown) t (baseDict shown t) with ⟨w1, w2, x, r1, r2, -, -, -, -, e⟩ | ⟨-, -, e⟩ | ⟨w1, w2, x, hw, hx, hr, e⟩ | ⟨w1, w2, w3, hw, hx, e⟩ <;>
    rw [e] at h <;> cases h
  · exact setEntry_nodup _ _ (setEntry_nodup _ _ (base_nodup t))
  · exact base_nodup t

/-- the entries apart from the impedance -/
theorem get_base {t : WGTrafo K} {d : List (Text × Text)} (h : trafoDict shown t = .ok d) {k : Text} (h1 : k ≠ "resistance".toList) (h2 : k ≠ "reactance".toList) :
    getEntry k d = getEntry k (baseDict shown t) := by
  rw [trafoDict_base] at h
  rcases impedance_cases (shown := shown) t (baseDict shown t) with ⟨w1, w2, x, r1, r2, -, -, -, -, e⟩ | ⟨-, -, e⟩ | ⟨w1, w2, x, hw, hx, hr, e⟩ | ⟨w1, w2, w3, hw, hx, e⟩ <;>
    rw [e] at h <;> cases h
  · rw [getEntry_setEntry, if_neg h1, getEntry_setEntry, if_neg h2]
  · rfl

/-- the names of all attributes of a configuration -/
def configKeys : List Text :=
  ["install_type".toList, "no_load_loss".toList, "connect_type".toList, "primary_voltage".toList, "secondary_voltage".toList, "power_rating".toList,
    "reactance".toList, "resistance".toList]

theorem start_get (t : WGTrafo K) (k : Text) :
    getEntry k (setSome "no_load_loss".toList (t.loss.map shown) (setSome "install_type".toList t.install [])) =
      if k = "no_load_loss".toList then t.loss.map shown else if k = "install_type".toList then t.install else none := by
  rw [get_setSome, get_setSome]
  by_cases h1 : k = "no_load_loss".toList
  · rw [if_pos h1, if_neg (by rw [h1]; decide), if_pos h1]
    show (t.loss.map shown).or none = _
    cases t.loss <;> rfl
  · rw [if_neg h1, if_neg h1]
    by_cases h2 : k = "install_type".toList
    · rw [if_pos h2, if_pos h2]
      show t.install.or none = _
      cases t.install <;> rfl
    · rw [if_neg h2, if_neg h2]; rfl

theorem base_two {t : WGTrafo K} {w1 w2 : WGWinding K} {ws : List (WGWinding K)} (hw : t.windings = w1 :: w2 :: ws) : baseDict shown t =
    windingDict shown (ws.length + 2) w1 w2 (setSome "no_load_loss".toList (t.loss.map shown) (setSome "install_type".toList t.install [])) := by
  unfold baseDict
  rw [hw]

theorem base_few {t : WGTrafo K} (hw : t.windings.length < 2) :
    baseDict shown t = setSome "no_load_loss".toList (t.loss.map shown) (setSome "install_type".toList t.install []) := by
  unfold baseDict
  split
  · rename_i h
    rw [h] at hw
    simp only [List.length_cons] at hw
    omega
  · rfl

theorem windings_cases (t : WGTrafo K) : t.windings.length < 2 ∨ ∃ w1 w2 ws, t.windings = w1 :: w2 :: ws := by
  cases h : t.windings with
  | nil => exact Or.inl (by show 0 < 2; decide)
  | cons w1 l =>
    cases l with
    | nil => exact Or.inl (by show 1 < 2; decide)
    | cons w2 ws => exact Or.inr ⟨w1, w2, ws, rfl⟩

/-- the entries of the two first windings -/
theorem winding_get (n : Nat) (w1 w2 : WGWinding K) (d : List (Text × Text)) (k : Text) :
    getEntry k (windingDict shown n w1 w2 d) =
      if k = "power_rating".toList then (w1.power.map fun p => shown (p / 1000)).or (getEntry k d)
      else if k = (if w2.voltageType = some 0 then "primary_voltage".toList else "secondary_voltage".toList) then
        (w2.voltage.map shown).or (if k = (if w1.voltageType = some 2 then "secondary_voltage".toList else "primary_voltage".toList) then
          (w1.voltage.map shown).or (getEntry k d) else getEntry k d)
      else if k = (if w1.voltageType = some 2 then "secondary_voltage".toList else "primary_voltage".toList) then (w1.voltage.map shown).or (getEntry k d)
      else if k = "connect_type".toList then (connectType n w1 w2).or (getEntry k d)
      else getEntry k d := by
  have hs : ∀ k : Text, k = "primary_voltage".toList ∨ k = "secondary_voltage".toList → k ≠ "power_rating".toList ∧ k ≠ "connect_type".toList := by
    rintro k (rfl | rfl) <;> decide
  have ha : (if w1.voltageType = some 2 then "secondary_voltage".toList else "primary_voltage".toList) ≠ "power_rating".toList ∧
      (if w1.voltageType = some 2 then "secondary_voltage".toList else "primary_voltage".toList) ≠ "connect_type".toList :=
    hs _ (by split <;> simp)
  have hb : (if w2.voltageType = some 0 then "primary_voltage".toList else "secondary_voltage".toList) ≠ "power_rating".toList ∧
      (if w2.voltageType = some 0 then "primary_voltage".toList else "secondary_voltage".toList) ≠ "connect_type".toList :=
    hs _ (by split <;> simp)
  unfold windingDict
  rw [get_setSome, get_setSome, get_setSome, get_setSome]
  generalize (if w1.voltageType = some 2 then "secondary_voltage".toList else "primary_voltage".toList) = a at ha ⊢
  generalize (if w2.voltageType = some 0 then "primary_voltage".toList else "secondary_voltage".toList) = b at hb ⊢
  by_cases h1 : k = "power_rating".toList
  · have h2 : k ≠ b := fun e => hb.1 (e.symm.trans h1)
    have h3 : k ≠ a := fun e => ha.1 (e.symm.trans h1)
    have h4 : k ≠ "connect_type".toList := by rw [h1]; decide
    simp only [if_pos h1, if_neg h2, if_neg h3, if_neg h4]
  · simp only [if_neg h1]
    by_cases h2 : k = b
    · have h4 : k ≠ "connect_type".toList := fun e => hb.2 (h2.symm.trans e)
      simp only [if_pos h2, if_neg h4]
    · simp only [if_neg h2]
      by_cases h3 : k = a
      · have h4 : k ≠ "connect_type".toList := fun e => ha.2 (h3.symm.trans e)
        simp only [if_pos h3, if_neg h4]
      · simp only [if_neg h3]

/-! ### the loop over the transformers -/

/-- what is known after the loop -/
structure TrafoLoop (shown : K → Text) (ts : List (WGTrafo K)) (st : LineConfigs) (count : Nat) (new : List (List (Text × Text) × Text))
    (names : List (Option Text × Text)) : Prop where
  run : writeTrafoConfigs shown st count ts = .ok (⟨st.configs ++ new, names⟩, new.flatMap fun p => trafoConfigRows p.1 p.2)
  numbered : new.map (·.2) = (List.range new.length).map fun i => trafoConfigName (count + i)
  origin : ∀ p ∈ new, ∃ t ∈ ts, trafoDict shown t = .ok p.1
  found : ∀ t ∈ ts, ∀ d, trafoDict shown t = .ok d → ∃ n, findConfig (st.configs ++ new) d = some n
  kept : ∀ name, (∀ t ∈ ts, t.name ≠ some name) → configOf names name = configOf st.names name
  set : ∀ t ∈ ts, ∀ name, t.name = some name → ∀ d, trafoDict shown t = .ok d →
    (∀ t' ∈ ts, t'.name = some name → trafoDict shown t' = .ok d) → configOf names name = findConfig (st.configs ++ new) d
  known : ∀ p ∈ names, p ∈ st.names ∨ p.2 ∈ (st.configs ++ new).map (·.2)

theorem trafo_loop {ts : List (WGTrafo K)} {st : LineConfigs} {count : Nat} (h : ∀ t ∈ ts, ∃ d, trafoDict shown t = .ok d) :
    ∃ new names, TrafoLoop shown ts st count new names := by
  induction ts generalizing st count with
  | nil =>
    refine ⟨[], st.names, ?_, rfl, (fun p hp => by cases hp), (fun l hl => by cases hl), (fun _ _ => rfl), (fun l hl => by cases hl),
      (fun p hp => Or.inl hp)⟩
    rw [writeTrafoConfigs, List.append_nil]
    rfl
  | cons t ts ih =>
    have htail : ∀ t ∈ ts, ∃ d, trafoDict shown t = .ok d := fun t' ht' => h t' (List.mem_cons_of_mem _ ht')
    obtain ⟨d, hd⟩ := h t List.mem_cons_self
    -- the part that does not depend on whether the configuration is new
    have key : ∀ (st₁ : LineConfigs) (n : Text) (count₁ : Nat), st₁.names = (t.name, n) :: st.names → findConfig st₁.configs d = some n →
        ∀ new names, TrafoLoop shown ts st₁ count₁ new names →
        (∀ t' ∈ t :: ts, ∀ d', trafoDict shown t' = .ok d' → ∃ n, findConfig (st₁.configs ++ new) d' = some n) ∧
        (∀ name, (∀ t' ∈ t :: ts, t'.name ≠ some name) → configOf names name = configOf st.names name) ∧
        (∀ t' ∈ t :: ts, ∀ name, t'.name = some name → ∀ d', trafoDict shown t' = .ok d' →
          (∀ x ∈ t :: ts, x.name = some name → trafoDict shown x = .ok d') → configOf names name = findConfig (st₁.configs ++ new) d') ∧
        (∀ p ∈ names, p ∈ st.names ∨ p.2 ∈ (st₁.configs ++ new).map (·.2)) := by
      intro st₁ n count₁ hnames hfind new names D
      refine ⟨?_, ?_, ?_, ?_⟩
      · intro t' ht' d' hd'
        rcases List.mem_cons.mp ht' with rfl | ht'
        · rw [hd] at hd'
          cases hd'
          exact ⟨n, find_append hfind⟩
        · exact D.found t' ht' d' hd'
      · intro name hn
        rw [D.kept name fun t' ht' => hn t' (List.mem_cons_of_mem _ ht'), hnames, configOf_cons, if_neg (hn t List.mem_cons_self)]
      · intro t' ht' name hn d' hd' hall
        by_cases hex : ∃ x ∈ ts, x.name = some name
        · obtain ⟨x, hx, hxn⟩ := hex
          exact D.set x hx name hxn d' (hall x (List.mem_cons_of_mem _ hx) hxn) fun y hy => hall y (List.mem_cons_of_mem _ hy)
        · rcases List.mem_cons.mp ht' with rfl | ht'
          · rw [hd] at hd'
            cases hd'
            rw [D.kept name fun x hx hxn => hex ⟨x, hx, hxn⟩, hnames, configOf_cons, if_pos hn, find_append hfind]
          · exact absurd ⟨t', ht', hn⟩ hex
      · intro p hp
        rcases D.known p hp with hp | hp
        · rw [hnames] at hp
          rcases List.mem_cons.mp hp with rfl | hp
          · refine Or.inr ?_
            obtain ⟨q, hq, e⟩ := found_mem hfind
            exact List.mem_map.mpr ⟨q, List.mem_append_left _ hq, e⟩
          · exact Or.inl hp
        · exact Or.inr hp
    cases hf : findConfig st.configs d with
    | some n =>
      obtain ⟨new, names, D⟩ := ih (st := { st with names := (t.name, n) :: st.names }) (count := count) htail
      obtain ⟨k1, k2, k3, k4⟩ := key { st with names := (t.name, n) :: st.names } n _ rfl hf new names D
      refine ⟨new, names, ?_, D.numbered, ?_, k1, k2, k3, k4⟩
      · rw [writeTrafoConfigs, hd]
        dsimp only
        rw [hf]
        exact D.run
      · intro p hp
        obtain ⟨t', a, b⟩ := D.origin p hp
        exact ⟨t', List.mem_cons_of_mem _ a, b⟩
    | none =>
      obtain ⟨new, names, D⟩ := ih (st := ⟨st.configs ++ [(d, trafoConfigName count)], (t.name, trafoConfigName count) :: st.names⟩) (count := count + 1) htail
      obtain ⟨k1, k2, k3, k4⟩ := key _ (trafoConfigName count) _ rfl (find_self hf) new names D
      have hcat : st.configs ++ [(d, trafoConfigName count)] ++ new = st.configs ++ ((d, trafoConfigName count) :: new) := by
        rw [List.append_assoc]; rfl
      refine ⟨(d, trafoConfigName count) :: new, names, ?_, ?_, ?_, ?_, k2, ?_, by rw [← hcat]; exact k4⟩
      · rw [writeTrafoConfigs, hd]
        dsimp only
        rw [hf]
        dsimp only
        rw [D.run]
        dsimp only
        rw [hcat]
        rfl
      · rw [List.map_cons, D.numbered, List.length_cons, List.range_succ_eq_map, List.map_cons, List.map_map]
        congr 1
        refine List.map_congr_left fun i _ => ?_
        show trafoConfigName (count + 1 + i) = trafoConfigName (count + (i + 1))
        congr 1
        omega
      · intro p hp
        rcases List.mem_cons.mp hp with rfl | hp
        · exact ⟨t, List.mem_cons_self, hd⟩
        · obtain ⟨t', a, b⟩ := D.origin p hp
          exact ⟨t', List.mem_cons_of_mem _ a, b⟩
      · intro t' ht' d' hd'
        rw [← hcat]
        exact k1 t' ht' d' hd'
      · intro t' ht' name hn d' hd' hall
        rw [← hcat]
        exact k3 t' ht' name hn d' hd' hall

/-- nothing is written if all configurations are known -/
theorem trafo_known {ts : List (WGTrafo K)} {st : LineConfigs} {count : Nat}
    (h : ∀ t ∈ ts, ∃ d n, trafoDict shown t = .ok d ∧ findConfig st.configs d = some n) :
    ∃ names, writeTrafoConfigs shown st count ts = .ok (⟨st.configs, names⟩, []) ∧
      (∀ t ∈ ts, ∀ name, t.name = some name → ∃ n, configOf names name = some n) ∧
      ∀ name, (configOf st.names name).isSome → (configOf names name).isSome := by
  induction ts generalizing st with
  | nil => exact ⟨st.names, rfl, (fun l hl => by cases hl), fun _ h => h⟩
  | cons t ts ih =>
    obtain ⟨d, n, hd, hf⟩ := h t List.mem_cons_self
    obtain ⟨names, h1, h2, h3⟩ := ih (st := { st with names := (t.name, n) :: st.names }) fun t' ht' => h t' (List.mem_cons_of_mem _ ht')
    refine ⟨names, ?_, ?_, ?_⟩
    · rw [writeTrafoConfigs, hd]
      dsimp only
      rw [hf]
      exact h1
    · intro t' ht' name hn
      rcases List.mem_cons.mp ht' with rfl | ht'
      · refine Option.isSome_iff_exists.mp (h3 name ?_)
        show (configOf ((t'.name, n) :: st.names) name).isSome
        rw [configOf_cons, if_pos hn]
        rfl
      · exact h2 t' ht' name hn
    · intro name hn
      refine h3 name ?_
      show (configOf ((t.name, n) :: st.names) name).isSome
      rw [configOf_cons]
      split
      · rfl
      · exact hn

/-- the writing ends at the first transformer without dictionary -/
theorem trafo_error {pre post : List (WGTrafo K)} {t : WGTrafo K} {st : LineConfigs} {count : Nat} {e : PyErr}
    (h : ∀ t ∈ pre, ∃ d, trafoDict shown t = .ok d) (he : trafoDict shown t = .error e) :
    writeTrafoConfigs shown st count (pre ++ t :: post) = .error e := by
  induction pre generalizing st count with
  | nil => rw [List.nil_append, writeTrafoConfigs, he]
  | cons x pre ih =>
    have ih' : ∀ st count, writeTrafoConfigs shown st count (pre ++ t :: post) = .error e :=
      fun st count => ih (st := st) (count := count) fun l' hl' => h l' (List.mem_cons_of_mem _ hl')
    obtain ⟨d, hd⟩ := h x List.mem_cons_self
    rw [List.cons_append, writeTrafoConfigs, hd]
    dsimp only
    cases hf : findConfig st.configs d with
    | some n => dsimp only; exact ih' _ _
    | none => dsimp only; rw [ih']

/-! ### names of configurations -/

theorem trafoName_inj {m n : Nat} (h : trafoConfigName m = trafoConfigName n) : m = n := by
  refine configName_inj ?_
  unfold trafoConfigName at h
  unfold configName
  rw [List.append_cancel_left h]

theorem trafoName_token (n : Nat) : Token (trafoConfigName n) := by
  have h := configName_token n
  have hne : (Nat.repr n).toList ≠ [] := by rw [Nat.toList_repr]; exact Nat.toDigits_ne_nil
  unfold configName at h
  unfold trafoConfigName
  refine ⟨?_, ?_⟩
  · intro c hc
    rcases List.mem_append.mp hc with hc | hc
    · exact (show ∀ c ∈ "transformer_config_".toList, c.isWhitespace = false by decide) c hc
    · exact h.1 c (List.mem_append_right _ hc)
  · have := h.2
    rw [List.getLast?_append_of_ne_nil _ hne] at this ⊢
    exact this

/-! ### phases -/

omit [Field K] in
theorem phases_letters {t : WGTrafo K} (h : ∀ w ∈ t.windings, ∀ p ∈ w.phases, p = none ∨ ∃ c : Char, p = some [c] ∧ c.isWhitespace = false ∧ c ≠ '}') :
    ∃ cs : List Char, (t.windings.flatMap fun w => w.phases.filterMap id) = cs.map (fun c => [c]) ∧ (∀ c, c ∈ cs ↔ HasPhase t c) ∧
      ∀ c ∈ cs, c.isWhitespace = false ∧ c ≠ '}' := by
  have hall : ∀ p ∈ (t.windings.flatMap fun w => w.phases.filterMap id), ∃ c : Char, p = [c] ∧ c.isWhitespace = false ∧ c ≠ '}' := by
    intro p hp
    obtain ⟨w, hw, hp⟩ := List.mem_flatMap.mp hp
    obtain ⟨q, hq, e⟩ := List.mem_filterMap.mp hp
    rcases h w hw q hq with rfl | ⟨c, rfl, hc⟩
    · cases e
    · cases e; exact ⟨c, rfl, hc⟩
  have hlist : ∀ l : List Text, (∀ p ∈ l, ∃ c : Char, p = [c] ∧ c.isWhitespace = false ∧ c ≠ '}') →
      ∃ cs : List Char, l = cs.map (fun c => [c]) ∧ ∀ c ∈ cs, c.isWhitespace = false ∧ c ≠ '}' := by
    intro l
    induction l with
    | nil => exact fun _ => ⟨[], rfl, (fun c hc => by cases hc)⟩
    | cons p l ih =>
      intro hl
      obtain ⟨c, rfl, hc⟩ := hl p List.mem_cons_self
      obtain ⟨cs, rfl, hcs⟩ := ih fun q hq => hl q (List.mem_cons_of_mem _ hq)
      refine ⟨c :: cs, rfl, ?_⟩
      intro x hx
      rcases List.mem_cons.mp hx with rfl | hx
      · exact hc
      · exact hcs x hx
  obtain ⟨cs, h1, h2⟩ := hlist _ hall
  refine ⟨cs, h1, ?_, h2⟩
  intro c
  constructor
  · intro hc
    have : [c] ∈ (t.windings.flatMap fun w => w.phases.filterMap id) := by rw [h1]; exact List.mem_map.mpr ⟨c, hc, rfl⟩
    obtain ⟨w, hw, hp⟩ := List.mem_flatMap.mp this
    obtain ⟨q, hq, e⟩ := List.mem_filterMap.mp hp
    have e : q = some [c] := e
    exact ⟨w, hw, e ▸ hq⟩
  · rintro ⟨w, hw, hq⟩
    have : [c] ∈ (t.windings.flatMap fun w => w.phases.filterMap id) := List.mem_flatMap.mpr ⟨w, hw, List.mem_filterMap.mpr ⟨_, hq, rfl⟩⟩
    rw [h1] at this
    obtain ⟨c', hc', e⟩ := List.mem_map.mp this
    cases e
    exact hc'

theorem single_le (a b : Char) : textLe [a] [b] = true ↔ a.toNat ≤ b.toNat := by
  show (decide (a.toNat < b.toNat) || (a == b && true)) = true ↔ _
  rw [Bool.and_true, Bool.or_eq_true, decide_eq_true_eq, beq_iff_eq]
  constructor
  · rintro (h | rfl)
    · exact h.le
    · exact le_rfl
  · intro h
    rcases h.lt_or_eq with h | h
    · exact Or.inl h
    · exact Or.inr (Char.ext (UInt32.toNat_inj.mp h))

omit [Field K] in
theorem phases_sorted {t : WGTrafo K} (h : ∀ w ∈ t.windings, ∀ p ∈ w.phases, p = none ∨ ∃ c : Char, p = some [c] ∧ c.isWhitespace = false ∧ c ≠ '}') :
    (∀ c, c ∈ trafoPhaseText t ↔ HasPhase t c) ∧ (trafoPhaseText t).Pairwise (fun a b => a.toNat < b.toNat) ∧ Token (trafoPhaseText t) := by
  obtain ⟨cs, h1, h2, h3⟩ := phases_letters h
  have he : trafoPhaseText t = cs.dedup.insertionSort fun a b => a.toNat ≤ b.toNat := by
    unfold trafoPhaseText
    rw [h1, List.dedup_map_of_injective (fun a b e => by injection e), ← List.map_insertionSort (fun a b : Char => a.toNat ≤ b.toNat) _ _ _ fun a _ b _ => (single_le a b).symm]
    induction (cs.dedup.insertionSort fun a b => a.toNat ≤ b.toNat) with
    | nil => rfl
    | cons a l ih => rw [List.map_cons, List.flatten_cons, ih]; rfl
  rw [he]
  have hmem : ∀ c, c ∈ (cs.dedup.insertionSort fun a b => a.toNat ≤ b.toNat) ↔ c ∈ cs := by
    intro c
    rw [List.mem_insertionSort, List.mem_dedup]
  refine ⟨fun c => (hmem c).trans (h2 c), ?_, ?_, ?_⟩
  · haveI : Std.Total (fun a b : Char => a.toNat ≤ b.toNat) := ⟨fun a b => le_total _ _⟩
    haveI : IsTrans Char (fun a b : Char => a.toNat ≤ b.toNat) := ⟨fun a b c => le_trans⟩
    have hp := List.pairwise_insertionSort (fun a b : Char => a.toNat ≤ b.toNat) cs.dedup
    have hn : (cs.dedup.insertionSort fun a b => a.toNat ≤ b.toNat).Nodup := (List.perm_insertionSort _ _).nodup_iff.2 (List.nodup_dedup cs)
    refine (hp.and hn).imp ?_
    rintro a b ⟨h, hne⟩
    exact lt_of_le_of_ne h fun e => hne (Char.ext (UInt32.toNat_inj.mp e))
  · intro c hc
    exact (h3 c ((hmem c).mp hc)).1
  · intro hl
    exact (h3 _ ((hmem _).mp (List.mem_of_getLast? hl))).2 rfl

end numbers
end Ditto.Glm
