import Verif.Props.GlmParse
import Verif.Spec.GlmLoads
import Mathlib.Algebra.Order.Field.Basic
import Mathlib.Data.List.Nodup
import Mathlib.Tactic.FieldSimp
import Mathlib.Tactic.Ring
import Mathlib.Tactic.Linarith

/-! Loads in GridLAB-D files: lemmas. -/
namespace Ditto.Glm
open Ditto Glm.Spec

/-! ### the dictionary has every name once -/

theorem setEntry_keys {V : Type} (k : Text) (v : V) (l : List (Text × V)) :
    (setEntry k v l).map (·.1) = if k ∈ l.map (·.1) then l.map (·.1) else l.map (·.1) ++ [k] := by
  induction l with
  | nil => rfl
  | cons p l ih =>
    obtain ⟨k', v'⟩ := p
    rw [setEntry]
    by_cases h : k' = k
    · rw [if_pos h, if_pos (by simp [h])]; simp [h]
    · rw [if_neg h, List.map_cons, ih]
      by_cases hm : k ∈ l.map (·.1)
      · have hm' : k ∈ ((k', v') :: l).map (·.1) := List.mem_cons_of_mem _ hm
        rw [if_pos hm, if_pos hm']; rfl
      · have hm' : k ∉ ((k', v') :: l).map (·.1) := by
          rw [List.map_cons, List.mem_cons]
          rintro (he | he)
          · exact h he.symm
          · exact hm he
        rw [if_neg hm, if_neg hm']; rfl

theorem setEntry_nodup {V : Type} (k : Text) (v : V) {l : List (Text × V)} (h : (l.map (·.1)).Nodup) : ((setEntry k v l).map (·.1)).Nodup := by
  rw [setEntry_keys]
  split
  · exact h
  · rename_i hk
    refine List.nodup_append.mpr ⟨h, List.nodup_singleton k, ?_⟩
    intro x hx y hy e
    rw [e, List.mem_singleton.mp hy] at hx
    exact hk hx

/-- every name once -/
def Once (s : GState) : Prop := (s.objects.map (·.1)).Nodup

theorem close_once {schema : Schema} {s s' : GState} {o : GldObj} (h : Once s) (hc : closeObject schema s o = .ok s') : Once s' := by
  unfold closeObject at hc
  split at hc
  · cases hc; exact h
  · split at hc
    · cases hc
    · cases hc; exact setEntry_nodup _ _ h

theorem inside_once {schema : Schema} {s s' : GState} {o : GldObj} {row : Text} (h : Once s) (hc : insideObject schema s o row = .ok s') : Once s' := by
  unfold insideObject at hc
  split at hc
  · cases hc
  · split at hc
    · exact close_once h hc
    · cases hc; exact h

theorem schedule_once {due : List Text → Py Bool} {s s' : GState} {n row : Text} (h : Once s) (hc : insideSchedule due s n row = .ok s') : Once s' := by
  unfold insideSchedule at hc
  split at hc
  · cases hc
  · rename_i s₁ h₁
    have h₁ : Once s₁ := by
      unfold scheduleEntry at h₁
      split at h₁
      · split at h₁ <;> first | cases h₁; exact h | cases h₁
      · cases h₁; exact h
    injection hc with hc
    subst hc
    unfold scheduleEnd
    split
    · exact h₁
    · split <;> exact h₁

theorem other_once {schema : Schema} {due : List Text → Py Bool} {s s' : GState} {row : Text} (h : Once s)
    (hc : otherRow schema due s row = .ok s') : Once s' := by
  unfold otherRow at hc
  split at hc
  · cases hc
  · rename_i s₁ h₁
    have h₁ : Once s₁ := by
      unfold objectPart at h₁
      split at h₁
      · cases h₁; exact h
      · exact inside_once h h₁
    unfold schedulePart at hc
    split at hc
    · cases hc; exact h₁
    · exact schedule_once h₁ hc

theorem row_once {schema : Schema} {due : List Text → Py Bool} {s s' : GState} {row : Text} (h : Once s)
    (hc : rowStep schema due s row = .ok s') : Once s' := by
  unfold rowStep at hc
  split at hc
  · cases hc; exact h
  · unfold byWord at hc
    split at hc
    · exact other_once h hc
    · split at hc
      · unfold objectRow at hc
        split at hc
        · cases hc; exact h
        · split at hc
          · cases hc
          · split at hc
            · cases hc
            · cases hc; exact h
      · split at hc
        · unfold scheduleRow at hc
          split at hc
          · cases hc; exact h
          · split at hc
            · cases hc
            · cases hc; exact h
        · exact other_once h hc

theorem rows_once {schema : Schema} {due : List Text → Py Bool} {rows : List Text} : ∀ {s s' : GState}, Once s →
    readRows schema due s rows = .ok s' → Once s' := by
  induction rows with
  | nil => intro s s' h hc; cases hc; exact h
  | cons row rows ih =>
    intro s s' h hc
    rw [readRows_cons] at hc
    cases hr : rowStep schema due s row with
    | error e => rw [hr] at hc; cases hc
    | ok s₁ => rw [hr] at hc; exact ih (row_once h hr) hc

theorem glm_once {schema : Schema} {due : List Text → Py Bool} {files : Text → Option (List Text)} {rows : List Text} {s : GState}
    (h : readGlm schema due files [] rows = .ok s) : Once s := by
  unfold readGlm at h
  split at h
  · cases h
  · exact rows_once (show Once { objects := [] } from List.nodup_nil) h

theorem find_mem {V : Type} {l : List (Text × V)} (h : (l.map (·.1)).Nodup) {n : Text} {o : V} : (n, o) ∈ l ↔ (l.find? fun p => p.1 = n).map (·.2) = some o := by
  induction l with
  | nil => simp
  | cons p l ih =>
    obtain ⟨k, v⟩ := p
    rw [List.map_cons, List.nodup_cons] at h
    by_cases hk : k = n
    · rw [List.find?_cons_of_pos (by simpa using hk)]
      subst hk
      simp only [List.mem_cons, Prod.mk.injEq, true_and, Option.map_some, Option.some.injEq]
      constructor
      · rintro (e | e)
        · exact e.symm
        · exact absurd (List.mem_map_of_mem e) h.1
      · intro e; exact Or.inl e.symm
    · rw [List.find?_cons_of_neg (by simpa using hk), List.mem_cons, ← ih h.2]
      constructor
      · rintro (e | e)
        · exact absurd (congrArg Prod.fst e).symm hk
        · exact e
      · exact Or.inr

/-! ### attributes -/

theorem stored_get {o : GldObj} {d : Decl} (ho : Stored o d) (k : Text) : getEntry k o.attrs = attrOf d k := by
  rw [getEntry_find]; exact ho.2 k

theorem readAs_ok {V : Type} {conv : Text → Option V} {o : GldObj} {d : Decl} (ho : Stored o d) {k : Text} {v : V} :
    readAs conv o k = .ok v ↔ Value conv d k v := by
  unfold readAs Value
  rw [stored_get ho]
  cases attrOf d k with
  | none => simp
  | some t =>
    dsimp only
    cases hc : conv t with
    | none => simp [hc]
    | some w => simp [hc]

theorem readAs_missing {V : Type} {conv : Text → Option V} {o : GldObj} {d : Decl} (ho : Stored o d) {k : Text} :
    readAs conv o k = .error .attributeError ↔ attrOf d k = none := by
  unfold readAs
  rw [stored_get ho]
  cases attrOf d k with
  | none => simp
  | some t =>
    dsimp only
    cases hc : conv t <;> simp

theorem readAs_kinds {V : Type} {conv : Text → Option V} {o : GldObj} {k : Text} {e : PyErr} (h : readAs conv o k = .error e) :
    e = .attributeError ∨ e = .valueError := by
  unfold readAs at h
  split at h
  · cases h; exact Or.inl rfl
  · split at h
    · cases h
    · cases h; exact Or.inr rfl

theorem readAs_clean {V : Type} {conv : Text → Option V} {o : GldObj} {d : Decl} (ho : Stored o d) {k : Text} (h : Clean conv d k) :
    (∃ v, readAs conv o k = .ok v) ∨ readAs conv o k = .error .attributeError := by
  unfold readAs
  rw [stored_get ho]
  cases hk : attrOf d k with
  | none => exact Or.inr rfl
  | some t =>
    obtain ⟨v, hv⟩ := Option.isSome_iff_exists.mp (h t hk)
    dsimp only
    rw [hv]
    exact Or.inl ⟨v, rfl⟩

theorem pass_ok {V : Type} {x : Py (Option V)} {y : Option V} (h : passMissing x = .ok y) : x = .ok y ∨ (x = .error .attributeError ∧ y = none) := by
  unfold passMissing at h
  split at h
  · exact Or.inl h
  · cases h; exact Or.inr ⟨rfl, rfl⟩
  · cases h

theorem pass_kinds {V : Type} {x : Py (Option V)} {e : PyErr} (h : passMissing x = .error e) : x = .error e ∧ e ≠ .attributeError := by
  unfold passMissing at h
  split at h
  · cases h
  · cases h
  · rename_i hne
    exact ⟨h, by injection h with h; rw [← h]; exact hne⟩

section numbers
variable {K : Type} [Field K] [DecidableEq K] {flt : Text → Option K} {cpx : Text → Option (Cx K)} {schedules : List (Text × Text)} {o : GldObj}
  {d : Decl} {c : Char}

/-! ### the load of a phase -/

theorem power_some (ho : Stored o d) {l : GPhaseLoad K} (h : passMissing (powerOf cpx o c) = .ok (some l)) : PhaseSays flt cpx schedules d c l := by
  rcases pass_ok h with h | ⟨-, h⟩
  · unfold powerOf at h
    split at h
    · cases h
    · rename_i s hs
      split at h
      · rename_i hne
        cases h
        exact PhaseSays.power ((readAs_ok ho).mp hs) hne
      · cases h
  · cases h

theorem power_none (ho : Stored o d) (h : passMissing (powerOf cpx o c) = .ok none) : NoPower cpx d c := by
  rcases pass_ok h with h | ⟨h, -⟩
  · unfold powerOf at h
    split at h
    · cases h
    · rename_i s hs
      split at h
      · cases h
      · rename_i hne
        exact Or.inr ⟨s, (readAs_ok ho).mp hs, not_not.mp hne⟩
  · unfold powerOf at h
    split at h
    · rename_i e he
      cases h
      exact Or.inl ((readAs_missing ho).mp he)
    · split at h <;> cases h

theorem impedance_none (ho : Stored o d) (h : passMissing (impedanceOf cpx o c) = .ok none) : NoConstant cpx d c "constant_impedance".toList := by
  rcases pass_ok h with h | ⟨h, -⟩
  · unfold impedanceOf at h
    split at h
    · cases h
    · rename_i s hs
      split at h
      · cases h
      · split at h
        · cases h
        · rename_i hne
          exact Or.inr ⟨s, (readAs_ok ho).mp hs, Or.inr (not_not.mp hne)⟩
  · unfold impedanceOf at h
    split at h
    · rename_i e he
      cases h
      exact Or.inl ((readAs_missing ho).mp he)
    · rename_i s hs
      split at h
      · rename_i e he
        cases h
        exact Or.inr ⟨s, (readAs_ok ho).mp hs, Or.inl ((readAs_missing ho).mp he)⟩
      · split at h <;> cases h

theorem current_none (ho : Stored o d) (h : passMissing (currentOf cpx o c) = .ok none) : NoConstant cpx d c "constant_current".toList := by
  rcases pass_ok h with h | ⟨h, -⟩
  · unfold currentOf at h
    split at h
    · cases h
    · rename_i s hs
      split at h
      · cases h
      · split at h
        · cases h
        · rename_i hne
          exact Or.inr ⟨s, (readAs_ok ho).mp hs, Or.inr (not_not.mp hne)⟩
  · unfold currentOf at h
    split at h
    · rename_i e he
      cases h
      exact Or.inl ((readAs_missing ho).mp he)
    · rename_i s hs
      split at h
      · rename_i e he
        cases h
        exact Or.inr ⟨s, (readAs_ok ho).mp hs, Or.inl ((readAs_missing ho).mp he)⟩
      · split at h <;> cases h

theorem current_some (ho : Stored o d) (h1 : NoPower cpx d c) (h2 : NoConstant cpx d c "constant_impedance".toList) {l : GPhaseLoad K}
    (h : passMissing (currentOf cpx o c) = .ok (some l)) : PhaseSays flt cpx schedules d c l := by
  rcases pass_ok h with h | ⟨-, h⟩
  · unfold currentOf at h
    split at h
    · cases h
    · rename_i i hi
      split at h
      · cases h
      · rename_i v hv
        split at h
        · rename_i hne
          cases h
          refine PhaseSays.current h1 h2 ((readAs_ok ho).mp hi) ((readAs_ok ho).mp hv) hne ⟨?_, ?_⟩
          · show v.re * i.re - v.im * -i.im = _; ring
          · show v.re * -i.im + v.im * i.re = _; ring
        · cases h
  · cases h

theorem impedance_some [LinearOrder K] [IsStrictOrderedRing K] (ho : Stored o d) (h1 : NoPower cpx d c) {l : GPhaseLoad K}
    (h : passMissing (impedanceOf cpx o c) = .ok (some l)) : PhaseSays flt cpx schedules d c l := by
  rcases pass_ok h with h | ⟨-, h⟩
  · unfold impedanceOf at h
    split at h
    · cases h
    · rename_i z hz
      split at h
      · cases h
      · rename_i v hv
        split at h
        · rename_i hne
          cases h
          have hpos : z.re * z.re + z.im * z.im ≠ 0 :=
            (add_pos_of_pos_of_nonneg (mul_self_pos.mpr hne) (mul_self_nonneg _)).ne'
          refine PhaseSays.impedance (i := ⟨(v.re * z.re + v.im * z.im) / (z.re * z.re + z.im * z.im),
            (v.im * z.re - v.re * z.im) / (z.re * z.re + z.im * z.im)⟩) h1 ((readAs_ok ho).mp hz) ((readAs_ok ho).mp hv) hne ⟨?_, ?_⟩ ⟨?_, ?_⟩
          · dsimp only; field_simp; ring
          · dsimp only; field_simp; ring
          · show (v.re * v.re + v.im * v.im) * z.re / (z.re * z.re + -z.im * -z.im) = _
            rw [neg_mul_neg]
            dsimp only; field_simp; ring
          · show -((v.re * v.re + v.im * v.im) * -z.im) / (z.re * z.re + -z.im * -z.im) = _
            rw [neg_mul_neg]
            dsimp only; field_simp; ring
        · cases h
  · cases h

/-! ### base power and shares -/

omit [Field K] [DecidableEq K] in
theorem split_star (t : Text) : ('*' ∉ t ∧ Net.splitCh '*' t = [t]) ∨ ∃ a b more, Net.splitCh '*' t = a :: b :: more ∧ Factors t a b := by
  by_cases h : '*' ∈ t
  · obtain ⟨a, r, rfl, ha⟩ := List.eq_append_cons_of_mem h
    rw [Net.splitCh_append ha]
    by_cases hr : '*' ∈ r
    · obtain ⟨b, r', rfl, hb⟩ := List.eq_append_cons_of_mem hr
      rw [Net.splitCh_append hb]
      exact Or.inr ⟨a, b, _, rfl, '*' :: r', rfl, ha, hb, Or.inr rfl⟩
    · rw [Net.splitCh_not_mem hr]
      exact Or.inr ⟨a, r, [], rfl, [], by rw [List.append_nil], ha, hr, Or.inl rfl⟩
  · exact Or.inl ⟨h, Net.splitCh_not_mem h⟩

theorem split_factors {t a b : Text} (h : Factors t a b) : ∃ more, Net.splitCh '*' t = a :: b :: more := by
  obtain ⟨rest, rfl, ha, hb, hr⟩ := h
  rw [Net.splitCh_append ha]
  cases rest with
  | nil => rw [List.append_nil, Net.splitCh_not_mem hb]; exact ⟨[], rfl⟩
  | cons x rest =>
    rcases hr with hr | hr
    · cases hr
    · have hx : x = '*' := by injection hr
      subst hx
      rw [Net.splitCh_append hb]; exact ⟨_, rfl⟩

theorem schedule_get (n : Text) : getEntry n schedules = scheduleValue schedules n := getEntry_find n schedules

theorem scheduled_ok {v : Text} {f : Option Text} {p : K} (h : scheduled flt v f = .ok p) :
    ∃ t x y, f = some t ∧ flt v = some x ∧ flt t = some y ∧ p = x * y := by
  unfold scheduled at h
  dsimp only at h
  split at h
  · cases h
  · rename_i x hx
    split at h
    · cases h
    · rename_i t
      split at h
      · cases h
      · rename_i y hy
        cases h
        exact ⟨t, x, y, rfl, hx, hy, rfl⟩

theorem base_ok (ho : Stored o d) {p : K} (h : basePower flt schedules o c = .ok p) : BasePower flt schedules d c p := by
  unfold basePower at h
  rw [stored_get ho] at h
  cases hk : attrOf d (phaseKey "base_power".toList c) with
  | none => rw [hk] at h; cases h; exact BasePower.missing hk
  | some t =>
    rw [hk] at h
    dsimp only at h
    cases hf : flt t with
    | some x => rw [hf] at h; cases h; exact BasePower.number ⟨t, hk, hf⟩
    | none =>
      rw [hf] at h
      dsimp only at h
      rcases split_star t with ⟨-, hs⟩ | ⟨a, b, more, hs, hfac⟩
      · rw [hs] at h
        unfold productPower at h
        dsimp only at h
        split at h <;> cases h
      · rw [hs] at h
        unfold productPower at h
        dsimp only at h
        split at h
        · cases h
        · rename_i p₁ hp₁
          rw [schedule_get] at h
          cases hb : scheduleValue schedules b with
          | some v =>
            rw [hb] at h
            dsimp only at h
            obtain ⟨t', x, y, h1, h2, h3, rfl⟩ := scheduled_ok h
            cases h1
            exact BasePower.second hk hf hfac hb h2 h3
          | none =>
            rw [hb] at h
            cases h
            unfold firstScheduled at hp₁
            rw [schedule_get] at hp₁
            cases ha : scheduleValue schedules a with
            | none => rw [ha] at hp₁; cases hp₁; exact BasePower.unknown hk hf hfac hb ha
            | some v =>
              rw [ha] at hp₁
              obtain ⟨t', x, y, h1, h2, h3, rfl⟩ := scheduled_ok hp₁
              cases h1
              exact BasePower.first hk hf hfac hb ha h2 h3

theorem readAll_ok (ho : Stored o d) {ks : List Text} {xs : List K} (h : readAll flt o c ks = .ok xs) :
    List.Forall₂ (fun k x => Value flt d (ofPhase k c) x) ks xs := by
  induction ks generalizing xs with
  | nil => cases h; exact .nil
  | cons k ks ih =>
    unfold readAll at h
    split at h
    · cases h
    · rename_i x hx
      split at h
      · cases h
      · rename_i ys hys
        cases h
        exact .cons ((readAs_ok ho).mp hx) (ih hys)

theorem readAll_missing (ho : Stored o d) {ks : List Text} (h : readAll flt o c ks = .error .attributeError) :
    ∃ k ∈ ks, attrOf d (ofPhase k c) = none := by
  induction ks with
  | nil => cases h
  | cons k ks ih =>
    unfold readAll at h
    split at h
    · rename_i e he
      cases h
      exact ⟨k, List.mem_cons_self, (readAs_missing ho).mp he⟩
    · split at h
      · rename_i e he
        cases h
        obtain ⟨k', h1, h2⟩ := ih he
        exact ⟨k', List.mem_cons_of_mem _ h1, h2⟩
      · cases h

theorem shares_some (ho : Stored o d) {s : ZipShares K} (h : readShares flt o c = .ok (some s)) :
    ∃ cf cpf pf ppf zf zpf, ZipValues flt d c cf cpf pf ppf zf zpf ∧
      s = ⟨cf * cpf, cf * (1 - cpf), pf * ppf, pf * (1 - ppf), zf * zpf, zf * (1 - zpf)⟩ := by
  unfold readShares at h
  split at h
  · cases h
  · rename_i xs hxs
    have hall := readAll_ok ho hxs
    unfold shareNames at hall
    obtain _ | ⟨h1, _ | ⟨h2, _ | ⟨h3, _ | ⟨h4, _ | ⟨h5, _ | ⟨h6, _ | _⟩⟩⟩⟩⟩⟩ := hall
    injection h with h
    injection h with h
    exact ⟨_, _, _, _, _, _, ⟨h1, h2, h3, h4, h5, h6⟩, h.symm⟩

theorem shares_not_none (ho : Stored o d) : readShares flt o c ≠ .ok none := by
  intro h
  unfold readShares at h
  split at h
  · cases h
  · rename_i xs hxs
    have hall := readAll_ok ho hxs
    unfold shareNames at hall
    obtain _ | ⟨h1, _ | ⟨h2, _ | ⟨h3, _ | ⟨h4, _ | ⟨h5, _ | ⟨h6, _ | _⟩⟩⟩⟩⟩⟩ := hall
    injection h with h
    cases h

theorem zip_ok (ho : Stored o d) (h1 : NoPower cpx d c) (h2 : NoConstant cpx d c "constant_impedance".toList)
    (h3 : NoConstant cpx d c "constant_current".toList) {l : GPhaseLoad K} (h : zipLoad flt schedules o c = .ok l) :
    PhaseSays flt cpx schedules d c l := by
  unfold zipLoad at h
  split at h
  · cases h
  · rename_i p hp
    split at h
    · cases h
    · rename_i s hs
      cases h
      rcases pass_ok hs with hq | ⟨hq, hnone⟩
      · cases s with
        | none => exact absurd hq (shares_not_none ho)
        | some s =>
          obtain ⟨cf, cpf, pf, ppf, zf, zpf, hz, rfl⟩ := shares_some ho hq
          exact PhaseSays.zip h1 h2 h3 (base_ok ho hp) hz
      · rw [hnone]
        unfold readShares at hq
        split at hq
        · rename_i e he
          cases hq
          obtain ⟨k, hk, hm⟩ := readAll_missing ho he
          exact PhaseSays.other h1 h2 h3 (base_ok ho hp) hk hm
        · cases hq

theorem next_ok {V : Type} {a : Py (Option V)} {b : Py V} {v : V} (h : orNext a b = .ok v) :
    passMissing a = .ok (some v) ∨ (passMissing a = .ok none ∧ b = .ok v) := by
  unfold orNext at h
  split at h
  · cases h
  · rename_i w hw; cases h; exact Or.inl hw
  · rename_i hw; exact Or.inr ⟨hw, h⟩

theorem phase_ok [LinearOrder K] [IsStrictOrderedRing K] (ho : Stored o d) {l : GPhaseLoad K}
    (h : readPhaseLoad flt cpx schedules o c = .ok l) : PhaseSays flt cpx schedules d c l := by
  unfold readPhaseLoad at h
  rcases next_ok h with h | ⟨h1, h⟩
  · exact power_some ho h
  have h1 := power_none ho h1
  rcases next_ok h with h | ⟨h2, h⟩
  · exact impedance_some ho h1 h
  have h2 := impedance_none ho h2
  rcases next_ok h with h | ⟨h3, h⟩
  · exact current_some ho h1 h2 h
  exact zip_ok ho h1 h2 (current_none ho h3) h

theorem phases_ok [LinearOrder K] [IsStrictOrderedRing K] (ho : Stored o d) {cs : List Char} {ls : List (GPhaseLoad K)}
    (h : readPhaseLoads flt cpx schedules o cs = .ok ls) : List.Forall₂ (PhaseSays flt cpx schedules d) cs ls := by
  induction cs generalizing ls with
  | nil => cases h; exact .nil
  | cons c cs ih =>
    unfold readPhaseLoads at h
    split at h
    · cases h
    · rename_i l hl
      split at h
      · cases h
      · rename_i ls' hls
        cases h
        exact .cons (phase_ok ho hl) (ih hls)

/-! ### whole loads -/

theorem filter_quotes (t : Text) : (stripQuotes t).filter (fun c => c = 'A' ∨ c = 'B' ∨ c = 'C') = t.filter fun c => c ∈ ['A', 'B', 'C'] := by
  have hdrop : ∀ l : Text, (l.dropWhile (· = '"')).filter (fun c => decide (c = 'A' ∨ c = 'B' ∨ c = 'C')) = l.filter fun c => decide (c = 'A' ∨ c = 'B' ∨ c = 'C') := by
    intro l
    induction l with
    | nil => rfl
    | cons x l ih =>
      by_cases hx : x = '"'
      · rw [List.dropWhile_cons_of_pos (by simpa using hx), ih, hx, List.filter_cons_of_neg (by decide)]
      · rw [List.dropWhile_cons_of_neg (by simpa using hx)]
  unfold stripQuotes
  rw [List.filter_reverse, hdrop, ← List.filter_reverse, List.reverse_reverse, hdrop]
  congr 1
  funext c
  simp

theorem loadPhases_eq (ho : Stored o d) : loadPhases o = lettersOf d := by
  unfold loadPhases lettersOf
  rw [stored_get ho]
  cases attrOf d "phases".toList with
  | none => rfl
  | some t => exact filter_quotes t

theorem attr_name : attrOf d "name".toList = nameOf d := by unfold attrOf; rw [if_pos rfl]

theorem load_ok [LinearOrder K] [IsStrictOrderedRing K] (ho : Stored o d) (hn : (nameOf d).isSome) {r : GReadLoad K × Option (GReadNode K)}
    (h : readLoad flt cpx schedules o = .ok r) : LoadSays flt cpx schedules d r := by
  obtain ⟨n, hn⟩ := Option.isSome_iff_exists.mp hn
  have hname : getEntry "name".toList o.attrs = some n := by rw [stored_get ho, attr_name, hn]
  unfold readLoad at h
  split at h
  · cases h
  · rename_i v hv
    split at h
    · cases h
    · rename_i ls hls
      cases h
      refine ⟨⟨n, hn, ?_⟩, ?_, ?_⟩
      · have hp := stored_get ho "parent".toList
        cases hpar : attrOf d "parent".toList with
        | some p =>
          rw [hpar] at hp
          refine ⟨?_, ?_, ?_⟩
          · show loadNameOf o = n
            unfold loadNameOf; rw [hname, hp]; rfl
          · show loadElementOf o = some p
            unfold loadElementOf; rw [hp]
          · show loadNode o v = none
            unfold loadNode; rw [hp]
        | none =>
          rw [hpar] at hp
          refine ⟨?_, ?_, ?_⟩
          · show loadNameOf o = "load_".toList ++ n
            unfold loadNameOf; rw [hname, hp]; rfl
          · show loadElementOf o = some n
            unfold loadElementOf; rw [hp, hname]
          · show loadNode o v = some _
            unfold loadNode readName; rw [hp, hname, loadPhases_eq ho]
      · unfold readVoltage at hv
        rw [stored_get ho] at hv
        cases hk : attrOf d "nominal_voltage".toList with
        | none => rw [hk] at hv; cases hv; exact Or.inl ⟨rfl, rfl⟩
        | some t =>
          rw [hk] at hv
          dsimp only at hv
          cases hf : flt t with
          | none => rw [hf] at hv; cases hv
          | some x => rw [hf] at hv; cases hv; exact Or.inr ⟨x, ⟨t, hk, hf⟩, rfl⟩
      · rw [← loadPhases_eq ho]; exact phases_ok ho hls

/-! ### numbers that can be read -/

theorem power_clean (ho : Stored o d) (h : Clean cpx d (ofPhase "constant_power".toList c)) : ∃ x, passMissing (powerOf cpx o c) = .ok x := by
  unfold powerOf
  rcases readAs_clean ho h with ⟨s, hs⟩ | hs
  · rw [show readAs cpx o (phaseKey "constant_power".toList c) = .ok s from hs]
    dsimp only
    split <;> exact ⟨_, rfl⟩
  · rw [show readAs cpx o (phaseKey "constant_power".toList c) = _ from hs]
    exact ⟨_, rfl⟩

theorem impedance_clean (ho : Stored o d) (h : Clean cpx d (ofPhase "constant_impedance".toList c))
    (hv : Clean cpx d (ofPhase "voltage".toList c)) : ∃ x, passMissing (impedanceOf cpx o c) = .ok x := by
  unfold impedanceOf
  rcases readAs_clean ho h with ⟨s, hs⟩ | hs
  · rw [show readAs cpx o (phaseKey "constant_impedance".toList c) = .ok s from hs]
    dsimp only
    rcases readAs_clean ho hv with ⟨v, hs⟩ | hs
    · rw [show readAs cpx o (phaseKey "voltage".toList c) = .ok v from hs]
      dsimp only
      split <;> exact ⟨_, rfl⟩
    · rw [show readAs cpx o (phaseKey "voltage".toList c) = _ from hs]
      exact ⟨_, rfl⟩
  · rw [show readAs cpx o (phaseKey "constant_impedance".toList c) = _ from hs]
    exact ⟨_, rfl⟩

theorem current_clean (ho : Stored o d) (h : Clean cpx d (ofPhase "constant_current".toList c))
    (hv : Clean cpx d (ofPhase "voltage".toList c)) : ∃ x, passMissing (currentOf cpx o c) = .ok x := by
  unfold currentOf
  rcases readAs_clean ho h with ⟨s, hs⟩ | hs
  · rw [show readAs cpx o (phaseKey "constant_current".toList c) = .ok s from hs]
    dsimp only
    rcases readAs_clean ho hv with ⟨v, hs⟩ | hs
    · rw [show readAs cpx o (phaseKey "voltage".toList c) = .ok v from hs]
      dsimp only
      split <;> exact ⟨_, rfl⟩
    · rw [show readAs cpx o (phaseKey "voltage".toList c) = _ from hs]
      exact ⟨_, rfl⟩
  · rw [show readAs cpx o (phaseKey "constant_current".toList c) = _ from hs]
    exact ⟨_, rfl⟩

theorem scheduled_some {v t : Text} (h1 : (flt v).isSome) (h2 : (flt t).isSome) : ∃ p, scheduled flt v (some t) = .ok p := by
  obtain ⟨x, hx⟩ := Option.isSome_iff_exists.mp h1
  obtain ⟨y, hy⟩ := Option.isSome_iff_exists.mp h2
  unfold scheduled
  dsimp only
  rw [hx]
  dsimp only
  rw [hy]
  exact ⟨_, rfl⟩

theorem base_clean (ho : Stored o d) (h : BaseClean flt schedules d c) : ∃ p, basePower flt schedules o c = .ok p := by
  unfold basePower
  rw [stored_get ho]
  cases hk : attrOf d (phaseKey "base_power".toList c) with
  | none => exact ⟨_, rfl⟩
  | some t =>
    dsimp only
    cases hf : flt t with
    | some p => exact ⟨_, rfl⟩
    | none =>
      dsimp only
      rcases h t hk with h | ⟨a, b, hfac, ha, hb⟩
      · rw [hf] at h; cases h
      · obtain ⟨more, hs⟩ := split_factors hfac
        rw [hs]
        unfold productPower firstScheduled
        dsimp only
        rw [schedule_get, schedule_get]
        have first : ∃ p, (match scheduleValue schedules a with | none => (.ok 0 : Py K) | some v => scheduled flt v (b :: more).head?) = .ok p := by
          cases hsa : scheduleValue schedules a with
          | none => exact ⟨_, rfl⟩
          | some v => exact scheduled_some (ha v hsa).1 (ha v hsa).2
        obtain ⟨p, hp⟩ := first
        have hp' : firstScheduled flt schedules a (b :: more) = .ok p := by
          unfold firstScheduled
          rw [schedule_get]
          cases hsa : scheduleValue schedules a <;> rw [hsa] at hp <;> exact hp
        unfold firstScheduled at hp'
        rw [schedule_get] at hp'
        rw [hp']
        dsimp only
        cases hsb : scheduleValue schedules b with
        | none => exact ⟨_, rfl⟩
        | some v => exact scheduled_some (hb v hsb).1 (hb v hsb).2

theorem readAll_clean (ho : Stored o d) {ks : List Text} (h : ∀ k ∈ ks, Clean flt d (ofPhase k c)) :
    (∃ xs, readAll flt o c ks = .ok xs) ∨ readAll flt o c ks = .error .attributeError := by
  induction ks with
  | nil => exact Or.inl ⟨_, rfl⟩
  | cons k ks ih =>
    unfold readAll
    rcases readAs_clean ho (h k List.mem_cons_self) with ⟨x, hx⟩ | hx
    · rw [show readAs flt o (phaseKey k c) = .ok x from hx]
      dsimp only
      rcases ih fun k' hk' => h k' (List.mem_cons_of_mem _ hk') with ⟨xs, hxs⟩ | hxs
      · rw [hxs]; exact Or.inl ⟨_, rfl⟩
      · rw [hxs]; exact Or.inr rfl
    · rw [show readAs flt o (phaseKey k c) = _ from hx]; exact Or.inr rfl

theorem zip_clean (ho : Stored o d) (h : BaseClean flt schedules d c) (hs : ∀ k ∈ zipAttrs, Clean flt d (ofPhase k c)) :
    ∃ l, zipLoad flt schedules o c = .ok l := by
  obtain ⟨p, hp⟩ := base_clean ho h
  unfold zipLoad readShares
  rw [hp]
  dsimp only
  rcases readAll_clean ho (ks := shareNames) hs with ⟨xs, hxs⟩ | hxs
  · rw [hxs]; exact ⟨_, rfl⟩
  · rw [hxs]; exact ⟨_, rfl⟩

theorem next_clean {V : Type} {a : Py (Option V)} {b : Py V} (ha : ∃ x, passMissing a = .ok x) (hb : ∃ v, b = .ok v) : ∃ v, orNext a b = .ok v := by
  obtain ⟨x, hx⟩ := ha
  unfold orNext
  rw [hx]
  cases x with
  | none => exact hb
  | some v => exact ⟨v, rfl⟩

theorem phases_clean (ho : Stored o d) {cs : List Char} (hc : ∀ c ∈ cs,
    (∀ k ∈ ["constant_power".toList, "constant_impedance".toList, "constant_current".toList, "voltage".toList], Clean cpx d (ofPhase k c)) ∧
    (∀ k ∈ zipAttrs, Clean flt d (ofPhase k c)) ∧ BaseClean flt schedules d c) : ∃ ls, readPhaseLoads flt cpx schedules o cs = .ok ls := by
  induction cs with
  | nil => exact ⟨_, rfl⟩
  | cons c cs ih =>
    obtain ⟨h1, h2, h3⟩ := hc c List.mem_cons_self
    have hl : ∃ l, readPhaseLoad flt cpx schedules o c = .ok l :=
      next_clean (power_clean ho (h1 _ (by simp)))
        (next_clean (impedance_clean ho (h1 _ (by simp)) (h1 _ (by simp)))
          (next_clean (current_clean ho (h1 _ (by simp)) (h1 _ (by simp))) (zip_clean ho h3 h2)))
    obtain ⟨l, hl⟩ := hl
    obtain ⟨ls, hls⟩ := ih fun c' hc' => hc c' (List.mem_cons_of_mem _ hc')
    unfold readPhaseLoads
    rw [hl]
    dsimp only
    rw [hls]
    exact ⟨_, rfl⟩

theorem load_clean (ho : Stored o d) (h : CleanLoad flt cpx schedules d) : ∃ r, readLoad flt cpx schedules o = .ok r := by
  have hv : ∃ v, readVoltage flt o = .ok v := by
    unfold readVoltage
    rw [stored_get ho]
    cases hk : attrOf d "nominal_voltage".toList with
    | none => exact ⟨_, rfl⟩
    | some t =>
      obtain ⟨v, hv⟩ := Option.isSome_iff_exists.mp (h.voltage t hk)
      dsimp only
      rw [hv]
      exact ⟨_, rfl⟩
  obtain ⟨v, hv⟩ := hv
  obtain ⟨ls, hls⟩ := phases_clean ho (cs := loadPhases o) (flt := flt) (cpx := cpx) (schedules := schedules) (by
    intro c hc
    rw [loadPhases_eq ho] at hc
    exact ⟨h.complex c hc, h.shares c hc, h.base c hc⟩)
  unfold readLoad
  rw [hv]
  dsimp only
  rw [hls]
  exact ⟨_, rfl⟩

/-! ### kinds of errors -/

/-- a number that cannot be read, or a product that lacks a factor -/
def NumberError (e : PyErr) : Prop := e = .valueError ∨ e = .indexError

theorem power_kinds {e : PyErr} (h : passMissing (powerOf cpx o c) = .error e) : NumberError e := by
  obtain ⟨h, hne⟩ := pass_kinds h
  unfold powerOf at h
  split at h
  · rename_i e' he
    cases h
    rcases readAs_kinds he with rfl | rfl
    · exact absurd rfl hne
    · exact Or.inl rfl
  · split at h <;> cases h

theorem impedance_kinds {e : PyErr} (h : passMissing (impedanceOf cpx o c) = .error e) : NumberError e := by
  obtain ⟨h, hne⟩ := pass_kinds h
  unfold impedanceOf at h
  split at h
  · rename_i e' he
    cases h
    rcases readAs_kinds he with rfl | rfl
    · exact absurd rfl hne
    · exact Or.inl rfl
  · split at h
    · rename_i e' he
      cases h
      rcases readAs_kinds he with rfl | rfl
      · exact absurd rfl hne
      · exact Or.inl rfl
    · split at h <;> cases h

theorem current_kinds {e : PyErr} (h : passMissing (currentOf cpx o c) = .error e) : NumberError e := by
  obtain ⟨h, hne⟩ := pass_kinds h
  unfold currentOf at h
  split at h
  · rename_i e' he
    cases h
    rcases readAs_kinds he with rfl | rfl
    · exact absurd rfl hne
    · exact Or.inl rfl
  · split at h
    · rename_i e' he
      cases h
      rcases readAs_kinds he with rfl | rfl
      · exact absurd rfl hne
      · exact Or.inl rfl
    · split at h <;> cases h

theorem scheduled_kinds {v : Text} {f : Option Text} {e : PyErr} (h : scheduled flt v f = .error e) : NumberError e := by
  unfold scheduled at h
  dsimp only at h
  split at h
  · cases h; exact Or.inl rfl
  · split at h
    · cases h; exact Or.inr rfl
    · split at h
      · cases h; exact Or.inl rfl
      · cases h

theorem base_kinds {e : PyErr} (h : basePower flt schedules o c = .error e) : NumberError e := by
  unfold basePower at h
  split at h
  · cases h
  · split at h
    · cases h
    · unfold productPower at h
      split at h
      · cases h; exact Or.inr rfl
      · split at h
        · rename_i e' he
          cases h
          unfold firstScheduled at he
          split at he
          · cases he
          · exact scheduled_kinds he
        · split at h
          · cases h; exact Or.inr rfl
          · split at h
            · cases h
            · exact scheduled_kinds h

theorem readAll_kinds {ks : List Text} {e : PyErr} (h : readAll flt o c ks = .error e) : e = .attributeError ∨ e = .valueError := by
  induction ks with
  | nil => cases h
  | cons k ks ih =>
    unfold readAll at h
    split at h
    · rename_i e' he; cases h; exact readAs_kinds he
    · split at h
      · rename_i e' he; cases h; exact ih he
      · cases h

theorem zip_kinds {e : PyErr} (h : zipLoad flt schedules o c = .error e) : NumberError e := by
  unfold zipLoad at h
  split at h
  · rename_i e' he; cases h; exact base_kinds he
  · split at h
    · rename_i e' he
      cases h
      obtain ⟨he, hne⟩ := pass_kinds he
      unfold readShares at he
      split at he
      · rename_i e'' he'
        cases he
        rcases readAll_kinds he' with rfl | rfl
        · exact absurd rfl hne
        · exact Or.inl rfl
      · cases he
    · cases h

theorem next_kinds {V : Type} {a : Py (Option V)} {b : Py V} {e : PyErr} (h : orNext a b = .error e) :
    passMissing a = .error e ∨ b = .error e := by
  unfold orNext at h
  split at h
  · rename_i e' he; cases h; exact Or.inl he
  · cases h
  · exact Or.inr h

theorem phase_kinds {e : PyErr} (h : readPhaseLoad flt cpx schedules o c = .error e) : NumberError e := by
  unfold readPhaseLoad at h
  rcases next_kinds h with h | h
  · exact power_kinds h
  rcases next_kinds h with h | h
  · exact impedance_kinds h
  rcases next_kinds h with h | h
  · exact current_kinds h
  exact zip_kinds h

theorem load_kinds {e : PyErr} (h : readLoad flt cpx schedules o = .error e) : NumberError e := by
  unfold readLoad at h
  split at h
  · rename_i e' he
    cases h
    unfold readVoltage at he
    split at he
    · cases he
    · split at he
      · cases he
      · cases he; exact Or.inl rfl
  · split at h
    · rename_i e' he
      cases h
      have : ∀ {cs : List Char} {e : PyErr}, readPhaseLoads flt cpx schedules o cs = .error e → NumberError e := by
        intro cs
        induction cs with
        | nil => intro e h; cases h
        | cons c cs ih =>
          intro e h
          unfold readPhaseLoads at h
          split at h
          · rename_i e' he; cases h; exact phase_kinds he
          · split at h
            · rename_i e' he; cases h; exact ih he
            · cases h
      exact this he
    · cases h

theorem loads_kinds {l : List (Text × GldObj)} {e : PyErr} (h : readGldLoads flt cpx schedules l = .error e) : NumberError e := by
  induction l with
  | nil => cases h
  | cons p l ih =>
    obtain ⟨k, o⟩ := p
    unfold readGldLoads at h
    split at h
    · split at h
      · rename_i e' he; cases h; exact load_kinds he
      · split at h
        · rename_i e' he; cases h; exact ih he
        · cases h
    · exact ih h

/-! ### all loads -/

theorem loads_ok {l : List (Text × GldObj)} {ls : List (GReadLoad K × Option (GReadNode K))} (h : readGldLoads flt cpx schedules l = .ok ls) :
    List.Forall₂ (fun p r => readLoad flt cpx schedules p.2 = .ok r) (l.filter fun p => p.2.cls = "load".toList) ls := by
  induction l generalizing ls with
  | nil => cases h; exact .nil
  | cons p l ih =>
    obtain ⟨k, o⟩ := p
    unfold readGldLoads at h
    split at h
    · rename_i hc
      rw [List.filter_cons_of_pos (by simpa using hc)]
      split at h
      · cases h
      · rename_i r hr
        split at h
        · cases h
        · rename_i ls' hls
          cases h
          exact .cons hr (ih hls)
    · rename_i hc
      rw [List.filter_cons_of_neg (by simpa using hc)]
      exact ih h

theorem loads_clean {l : List (Text × GldObj)} (h : ∀ p ∈ l, p.2.cls = "load".toList → ∃ r, readLoad flt cpx schedules p.2 = .ok r) :
    ∃ ls, readGldLoads flt cpx schedules l = .ok ls := by
  induction l with
  | nil => exact ⟨_, rfl⟩
  | cons p l ih =>
    obtain ⟨k, o⟩ := p
    obtain ⟨ls, hls⟩ := ih fun q hq => h q (List.mem_cons_of_mem _ hq)
    unfold readGldLoads
    split
    · rename_i hc
      obtain ⟨r, hr⟩ := h (k, o) List.mem_cons_self hc
      rw [show readLoad flt cpx schedules o = .ok r from hr]
      dsimp only
      rw [hls]
      exact ⟨_, rfl⟩
    · exact ⟨ls, hls⟩

end numbers

theorem lastNamed_name {ds : List Decl} {n : Text} {d : Decl} (h : lastNamed ds n = some d) : nameOf d = some n := by
  have := List.find?_some h
  simp only [Bool.and_eq_true, beq_iff_eq] at this
  exact this.2

/-- the stored objects are those of the file -/
theorem holds_mem {objects : List (Text × GldObj)} {ds : List Decl} (hh : Holds objects [] ds) (hnd : (objects.map (·.1)).Nodup) {n : Text} {o : GldObj}
    (h : (n, o) ∈ objects) : ∃ d, lastNamed ds n = some d ∧ Stored o d := by
  have hf := (find_mem hnd).mp h
  have := hh n
  cases hl : lastNamed ds n with
  | none => rw [hl] at this; dsimp only at this; rw [this] at hf; cases hf
  | some d =>
    rw [hl] at this
    obtain ⟨o', ho', hs⟩ := this
    rw [ho'] at hf
    cases hf
    exact ⟨d, rfl, hs⟩

theorem holds_find {objects : List (Text × GldObj)} {ds : List Decl} (hh : Holds objects [] ds) (hnd : (objects.map (·.1)).Nodup) {n : Text} {d : Decl}
    (h : lastNamed ds n = some d) : ∃ o, (n, o) ∈ objects ∧ Stored o d := by
  have := hh n
  rw [h] at this
  obtain ⟨o, ho, hs⟩ := this
  exact ⟨o, (find_mem hnd).mpr ho, hs⟩

end Ditto.Glm
