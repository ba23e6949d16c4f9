import Verif.Spec.GlmRegWrite
import Verif.Lemmas.GlmTrafoWrite
import Verif.Props.GlmTrafoWrite

/-! Lemmas about the GridLAB-D writer for regulators. -/
namespace Ditto.Glm
open Ditto Glm.Spec

section numbers
variable {K : Type} {shown : K → Text} {showInt : Int → Text} {trafos : List (Option Text × List (WGRegPhase K))}

/-! ### the items of a configuration -/

/-- the items with their values -/
def regPairs (shown : K → Text) (showInt : Int → Text) (r : WGReg K) : List (Text × Option Text) :=
  [("time_delay".toList, r.delay.map shown), ("raise_taps".toList, r.highstep.map showInt), ("lower_taps".toList, (r.lowstep.or r.highstep).map showInt),
    ("power_transducer_ratio".toList, r.ptRatio.map shown), ("current_transducer_ratio".toList, r.ctRatio.map shown),
    ("band_width".toList, r.bandwidth.map shown), ("band_center".toList, r.bandcenter.map shown), ("pt_phase".toList, r.ptPhase),
    ("connect_type".toList, some "WYE_WYE".toList)]

/-- the names of the items -/
def regKeys : List Text :=
  ["time_delay".toList, "raise_taps".toList, "lower_taps".toList, "power_transducer_ratio".toList, "current_transducer_ratio".toList, "band_width".toList,
    "band_center".toList, "pt_phase".toList, "connect_type".toList]

theorem reg_flat (r : WGReg K) : regItems shown showInt r = flatEntries (regPairs shown showInt r) := by
  unfold regItems regPairs flatEntries
  simp only [List.flatMap_cons, List.flatMap_nil, List.append_nil, List.append_assoc]
  rfl

theorem regPairs_nodup (r : WGReg K) : ((regPairs shown showInt r).map (·.1)).Nodup := by
  show regKeys.Nodup
  decide

theorem flat_keys (l : List (Text × Option Text)) : ((flatEntries l).map (·.1)).Sublist (l.map (·.1)) := by
  induction l with
  | nil => exact .slnil
  | cons p l ih =>
    obtain ⟨k, o⟩ := p
    cases o with
    | none => exact ih.cons _
    | some v => exact ih.cons_cons _

theorem regItems_nodup (r : WGReg K) : ((regItems shown showInt r).map (·.1)).Nodup := by
  rw [reg_flat]
  exact (regPairs_nodup r).sublist (flat_keys _)

theorem regItems_keys {r : WGReg K} {k v : Text} (h : (k, v) ∈ regItems shown showInt r) : k ∈ regKeys := by
  rw [reg_flat] at h
  have : k ∈ (regPairs shown showInt r).map (·.1) := List.mem_map.mpr ⟨_, mem_flat.mp h, rfl⟩
  exact this

theorem regItems_get {r : WGReg K} {k : Text} {o : Option Text} (h : (k, o) ∈ regPairs shown showInt r) : getEntry k (regItems shown showInt r) = o := by
  rw [getEntry_find, ← lastValue_nodup (regItems_nodup r), reg_flat]
  exact flat_value (regPairs_nodup r) h

theorem map_inj' {V : Type} {f : V → Text} (hf : ∀ x y, f x = f y → x = y) {a b : Option V} (h : a.map f = b.map f) : a = b := by
  cases a with
  | none => cases b with
    | none => rfl
    | some y => cases h
  | some x => cases b with
    | none => cases h
    | some y => rw [hf x y (Option.some.inj h)]

theorem same_of_get (hs : ∀ x y, shown x = shown y → x = y) (hi : ∀ x y, showInt x = showInt y → x = y) {r r' : WGReg K}
    (h : ∀ k, getEntry k (regItems shown showInt r) = getEntry k (regItems shown showInt r')) : SameSettings r r' := by
  have key : ∀ {k : Text} {o o' : Option Text}, (k, o) ∈ regPairs shown showInt r → (k, o') ∈ regPairs shown showInt r' → o = o' := by
    intro k o o' h1 h2
    rw [← regItems_get h1, ← regItems_get h2, h]
  exact {
    delay := map_inj' hs (key (.head _) (.head _))
    highstep := map_inj' hi (key (.tail _ (.head _)) (.tail _ (.head _)))
    lowstep := map_inj' hi (key (.tail _ (.tail _ (.head _))) (.tail _ (.tail _ (.head _))))
    ptRatio := map_inj' hs (key (.tail _ (.tail _ (.tail _ (.head _)))) (.tail _ (.tail _ (.tail _ (.head _)))))
    ctRatio := map_inj' hs (key (.tail _ (.tail _ (.tail _ (.tail _ (.head _))))) (.tail _ (.tail _ (.tail _ (.tail _ (.head _))))))
    bandwidth := map_inj' hs (key (.tail _ (.tail _ (.tail _ (.tail _ (.tail _ (.head _)))))) (.tail _ (.tail _ (.tail _ (.tail _ (.tail _ (.head _)))))))
    bandcenter := map_inj' hs (key (.tail _ (.tail _ (.tail _ (.tail _ (.tail _ (.tail _ (.head _)))))))
      (.tail _ (.tail _ (.tail _ (.tail _ (.tail _ (.tail _ (.head _))))))))
    ptPhase := key (.tail _ (.tail _ (.tail _ (.tail _ (.tail _ (.tail _ (.tail _ (.head _))))))))
      (.tail _ (.tail _ (.tail _ (.tail _ (.tail _ (.tail _ (.tail _ (.head _)))))))) }

theorem items_of_same {r r' : WGReg K} (h : SameSettings r r') : regItems shown showInt r = regItems shown showInt r' := by
  unfold regItems
  rw [h.delay, h.lowstep, h.highstep, h.ptRatio, h.ctRatio, h.bandwidth, h.bandcenter, h.ptPhase]

/-- equal as sets is the same as equal as lists -/
theorem regItems_same (hs : ∀ x y, shown x = shown y → x = y) (hi : ∀ x y, showInt x = showInt y → x = y) {r r' : WGReg K}
    (h : ∀ q, q ∈ regItems shown showInt r ↔ q ∈ regItems shown showInt r') : regItems shown showInt r = regItems shown showInt r' :=
  items_of_same (same_of_get hs hi (get_same (regItems_nodup r) (regItems_nodup r') h))

/-! ### the settings of the phases -/

theorem settings_of {r : WGReg K} {l : List (WGRegPhase K)} : SettingsOf trafos r l ↔ l = regSettings trafos r := by
  unfold regSettings
  cases h : r.transformer with
  | none =>
    constructor
    · intro hl
      cases hl with
      | own => rfl
      | transformer e => rw [h] at e; cases e
    · rintro rfl
      exact .own h
  | some n =>
    constructor
    · intro hl
      cases hl with
      | own e => rw [h] at e; cases e
      | transformer e =>
        rw [h] at e
        cases e
        exact List.flatMap_def.symm
    · rintro rfl
      show SettingsOf trafos r ((trafos.filter fun t => t.1 = some n).flatMap (·.2))
      rw [List.flatMap_def]
      exact .transformer h

theorem setting_inj {k p p' : Text} (h : settingKey k p = settingKey k p') : p = p' := by
  unfold settingKey at h
  have := List.append_cancel_left h
  injection this

theorem setting_ne (p p' : Text) : settingKey "tap_pos".toList p ≠ settingKey "compensator_r_setting".toList p' := by
  intro h
  have : 't' = 'c' := congrArg (fun l : Text => l.head?) h |> Option.some.inj
  exact absurd this (by decide)

/-- the keys of the settings -/
inductive SettingKey : Text → Prop
  | tap (p : Text) : SettingKey (settingKey "tap_pos".toList p)
  | resistance (p : Text) : SettingKey (settingKey "compensator_r_setting".toList p)

theorem setting_foreign {k : Text} (h : SettingKey k) : k ∉ "name".toList :: regKeys := by
  have h1 : ∀ k ∈ "name".toList :: regKeys, ¬"tap_pos_".toList <+: k ∧ ¬"compensator_r_setting_".toList <+: k := by decide
  intro hk
  cases h with
  | tap p => exact (h1 _ hk).1 ⟨p, rfl⟩
  | resistance p => exact (h1 _ hk).2 ⟨p, rfl⟩

theorem setPhase_none {d : List (Text × Text)} {w : WGRegPhase K} (h : w.phase = none) : setPhase shown d w = d := by
  unfold setPhase
  rw [h]

theorem setPhase_tap {d : List (Text × Text)} {w : WGRegPhase K} {p : Text} (h : w.phase = some p) (q : Text) :
    getEntry (settingKey "tap_pos".toList q) (setPhase shown d w) =
      if q = p then some (formatOpt shown w.tap) else getEntry (settingKey "tap_pos".toList q) d := by
  unfold setPhase
  rw [h]
  dsimp only
  have h1 : ∀ (b : Bool) (v : Text) (d : List (Text × Text)), getEntry (settingKey "tap_pos".toList q)
      (if b then setEntry (settingKey "compensator_r_setting".toList p) v d else d) = getEntry (settingKey "tap_pos".toList q) d := by
    intro b v d
    cases b with
    | false => rfl
    | true =>
      show getEntry _ (setEntry _ v d) = _
      rw [getEntry_setEntry, if_neg (setting_ne q p)]
  rw [h1, h1, getEntry_setEntry]
  by_cases e : q = p
  · rw [if_pos e, if_pos (by rw [e])]
  · rw [if_neg e, if_neg fun e' => e (setting_inj e')]

theorem setPhase_r {d : List (Text × Text)} {w : WGRegPhase K} {p : Text} (h : w.phase = some p) (q : Text) :
    getEntry (settingKey "compensator_r_setting".toList q) (setPhase shown d w) =
      if q = p ∧ (w.r.isSome ∨ w.x.isSome) then some (formatOpt shown w.r) else getEntry (settingKey "compensator_r_setting".toList q) d := by
  unfold setPhase
  rw [h]
  dsimp only
  have h0 : getEntry (settingKey "compensator_r_setting".toList q) (setEntry (settingKey "tap_pos".toList p) (formatOpt shown w.tap) d) =
      getEntry (settingKey "compensator_r_setting".toList q) d := by
    rw [getEntry_setEntry, if_neg (setting_ne p q).symm]
  generalize setEntry (settingKey "tap_pos".toList p) (formatOpt shown w.tap) d = d1 at h0 ⊢
  generalize getEntry (settingKey "compensator_r_setting".toList q) d = g at h0 ⊢
  by_cases e : q = p
  · subst e
    generalize settingKey "compensator_r_setting".toList q = k at h0 ⊢
    cases hr : w.r.isSome <;> cases hx : w.x.isSome <;> simp [getEntry_setEntry, h0]
  · have e' : settingKey "compensator_r_setting".toList q ≠ settingKey "compensator_r_setting".toList p := fun e' => e (setting_inj e')
    generalize settingKey "compensator_r_setting".toList q = k at h0 e' ⊢
    generalize settingKey "compensator_r_setting".toList p = k' at e' ⊢
    cases hr : w.r.isSome <;> cases hx : w.x.isSome <;> simp [getEntry_setEntry, h0, e, e']

theorem setPhase_keys {d : List (Text × Text)} (w : WGRegPhase K) (hd : ∀ q ∈ d, SettingKey q.1) : ∀ q ∈ setPhase shown d w, SettingKey q.1 := by
  have hset : ∀ (k v : Text) (l : List (Text × Text)), SettingKey k → (∀ q ∈ l, SettingKey q.1) → ∀ q ∈ setEntry k v l, SettingKey q.1 := by
    intro k v l hk hl
    induction l with
    | nil => intro q hq; rw [setEntry] at hq; rw [List.mem_singleton.mp hq]; exact hk
    | cons p l ih =>
      obtain ⟨k', v'⟩ := p
      intro q hq
      rw [setEntry] at hq
      split at hq
      · rcases List.mem_cons.mp hq with rfl | hq
        · exact hk
        · exact hl q (List.mem_cons_of_mem _ hq)
      · rcases List.mem_cons.mp hq with rfl | hq
        · exact hl _ List.mem_cons_self
        · exact ih (fun q hq => hl q (List.mem_cons_of_mem _ hq)) q hq
  unfold setPhase
  cases h : w.phase with
  | none => exact hd
  | some p =>
    dsimp only
    have h1 := hset _ (formatOpt shown w.tap) d (.tap p) hd
    split <;> split <;> first | exact h1 | exact hset _ _ _ (.resistance p) h1 | exact hset _ _ _ (.resistance p) (hset _ _ _ (.resistance p) h1)

theorem setPhase_nodup {d : List (Text × Text)} (w : WGRegPhase K) (hd : (d.map (·.1)).Nodup) : ((setPhase shown d w).map (·.1)).Nodup := by
  unfold setPhase
  cases h : w.phase with
  | none => exact hd
  | some p =>
    dsimp only
    split <;> split <;> first
      | exact setEntry_nodup _ _ hd
      | exact setEntry_nodup _ _ (setEntry_nodup _ _ hd)
      | exact setEntry_nodup _ _ (setEntry_nodup _ _ (setEntry_nodup _ _ hd))

/-- the words of the settings -/
theorem setPhase_words {d : List (Text × Text)} {w : WGRegPhase K} (hs : ∀ x, Token (shown x)) (hw : ∀ p, w.phase = some p → ∀ c ∈ p, c.isWhitespace = false)
    (hd : ∀ q ∈ d, Word q.1 ∧ Plain q.1 ∧ Token q.2) : ∀ q ∈ setPhase shown d w, Word q.1 ∧ Plain q.1 ∧ Token q.2 := by
  have hset : ∀ (k v : Text) (l : List (Text × Text)), Word k → Plain k → Token v → (∀ q ∈ l, Word q.1 ∧ Plain q.1 ∧ Token q.2) →
      ∀ q ∈ setEntry k v l, Word q.1 ∧ Plain q.1 ∧ Token q.2 := by
    intro k v l h1 h2 h3 hl
    induction l with
    | nil => intro q hq; rw [setEntry] at hq; rw [List.mem_singleton.mp hq]; exact ⟨h1, h2, h3⟩
    | cons p l ih =>
      obtain ⟨k', v'⟩ := p
      intro q hq
      rw [setEntry] at hq
      split at hq
      · rcases List.mem_cons.mp hq with rfl | hq
        · exact ⟨h1, h2, h3⟩
        · exact hl q (List.mem_cons_of_mem _ hq)
      · rcases List.mem_cons.mp hq with rfl | hq
        · exact hl _ List.mem_cons_self
        · exact ih (fun q hq => hl q (List.mem_cons_of_mem _ hq)) q hq
  have hfmt : ∀ o : Option K, Token (formatOpt shown o) := by
    intro o
    cases o with
    | none => exact (by unfold Token; decide : Token "None".toList)
    | some x => exact hs x
  unfold setPhase
  cases h : w.phase with
  | none => exact hd
  | some p =>
    dsimp only
    have hword : ∀ k : Text, k ≠ [] → (∀ c ∈ k, c.isWhitespace = false) → Word (settingKey k p) := by
      intro k h1 h2
      refine ⟨by unfold settingKey; simp, ?_⟩
      intro c hc
      unfold settingKey at hc
      rcases List.mem_append.mp hc with hc | hc
      · exact h2 c hc
      · rcases List.mem_cons.mp hc with rfl | hc
        · decide
        · exact hw p h c hc
    have hplain : ∀ (c : Char) (k : Text), c ≠ 'o' → c ≠ 's' → c ≠ '/' → Plain (settingKey (c :: k) p) := by
      intro c k h1 h2 h3
      refine ⟨?_, ?_, ?_⟩
      · intro e; exact h1 (Option.some.inj (congrArg (fun l : Text => l.head?) e))
      · intro e; exact h2 (Option.some.inj (congrArg (fun l : Text => l.head?) e))
      · rintro ⟨t, e⟩; exact h3 (Option.some.inj (congrArg (fun l : Text => l.head?) e)).symm
    have t1 : Word (settingKey "tap_pos".toList p) := hword _ (by decide) (by decide)
    have t2 : Plain (settingKey "tap_pos".toList p) := hplain 't' _ (by decide) (by decide) (by decide)
    have c1 : Word (settingKey "compensator_r_setting".toList p) := hword _ (by decide) (by decide)
    have c2 : Plain (settingKey "compensator_r_setting".toList p) := hplain 'c' _ (by decide) (by decide) (by decide)
    have h1 := hset _ (formatOpt shown w.tap) d t1 t2 (hfmt _) hd
    have h2 := hset _ (formatOpt shown w.r) _ c1 c2 (hfmt _) h1
    split <;> split <;> first | exact h1 | exact h2 | exact hset _ _ _ c1 c2 (hfmt _) h2

/-- windings of other phases change nothing -/
theorem fold_other {l : List (WGRegPhase K)} {p : Text} (h : ∀ w ∈ l, w.phase ≠ some p) (d : List (Text × Text)) :
    getEntry (settingKey "tap_pos".toList p) (l.foldl (setPhase shown) d) = getEntry (settingKey "tap_pos".toList p) d ∧
      getEntry (settingKey "compensator_r_setting".toList p) (l.foldl (setPhase shown) d) = getEntry (settingKey "compensator_r_setting".toList p) d := by
  induction l generalizing d with
  | nil => exact ⟨rfl, rfl⟩
  | cons w l ih =>
    obtain ⟨h1, h2⟩ := ih (fun w' hw' => h w' (List.mem_cons_of_mem _ hw')) (setPhase shown d w)
    rw [List.foldl_cons, h1, h2]
    cases hp : w.phase with
    | none => rw [setPhase_none hp]; exact ⟨rfl, rfl⟩
    | some q =>
      have hne : p ≠ q := by
        rintro rfl
        exact h w List.mem_cons_self hp
      rw [setPhase_tap hp, setPhase_r hp, if_neg hne, if_neg fun e => hne e.1]
      exact ⟨rfl, rfl⟩

/-- the last winding of a phase counts -/
theorem fold_last {a b : List (WGRegPhase K)} {w : WGRegPhase K} {p : Text} (hw : w.phase = some p) (h : ∀ w' ∈ b, w'.phase ≠ some p) (d : List (Text × Text)) :
    getEntry (settingKey "tap_pos".toList p) ((a ++ w :: b).foldl (setPhase shown) d) = some (formatOpt shown w.tap) ∧
      (w.r.isSome ∨ w.x.isSome →
        getEntry (settingKey "compensator_r_setting".toList p) ((a ++ w :: b).foldl (setPhase shown) d) = some (formatOpt shown w.r)) := by
  rw [List.foldl_append, List.foldl_cons, (fold_other h _).1, (fold_other h _).2, setPhase_tap hw, setPhase_r hw, if_pos rfl]
  exact ⟨rfl, fun hk => by rw [if_pos ⟨rfl, hk⟩]⟩

theorem fold_keep {P : List (Text × Text) → Prop} {l : List (WGRegPhase K)} (h : ∀ w ∈ l, ∀ d, P d → P (setPhase shown d w)) {d : List (Text × Text)} (hd : P d) :
    P (l.foldl (setPhase shown) d) := by
  induction l generalizing d with
  | nil => exact hd
  | cons w l ih => exact ih (fun w' hw' => h w' (List.mem_cons_of_mem _ hw')) (h w List.mem_cons_self d hd)

/-! ### the loop over the regulators -/

/-- what is known after some regulators -/
structure RegLoop (shown : K → Text) (showInt : Int → Text) (trafos : List (Option Text × List (WGRegPhase K))) (rs : List (WGReg K))
    (s : RegState × Nat) : Prop where
  count : s.2 = s.1.configs.length + 1
  numbered : s.1.configs.map (·.name) = (List.range s.1.configs.length).map fun i => regConfigName (i + 1)
  once : (s.1.configs.map (·.items)).Nodup
  origin : ∀ e ∈ s.1.configs, ∃ r ∈ rs, e.items = regItems shown showInt r
  phases : ∀ e ∈ s.1.configs, e.phases =
    ((rs.filter fun r => regItems shown showInt r = e.items).flatMap (regSettings trafos)).foldl (setPhase shown) []
  found : ∀ r ∈ rs, ∃ e ∈ s.1.configs, e.items = regItems shown showInt r
  set : ∀ r ∈ rs, ∀ n, r.name = some n → (∀ r' ∈ rs, r'.name = some n → regItems shown showInt r' = regItems shown showInt r) →
    ∃ e ∈ s.1.configs, e.items = regItems shown showInt r ∧ configOf s.1.names n = some e.name
  unset : ∀ n, (∀ r ∈ rs, r.name ≠ some n) → configOf s.1.names n = none
  known : ∀ p ∈ s.1.names, p.2 ∈ s.1.configs.map (·.name)

theorem reg_start : RegLoop shown showInt trafos [] ({}, 1) where
  count := rfl
  numbered := rfl
  once := List.nodup_nil
  origin := fun _ h => by cases h
  phases := fun _ h => by cases h
  found := fun _ h => by cases h
  set := fun _ h => by cases h
  unset := fun _ _ => rfl
  known := fun _ h => by cases h

/-- the part about names, which does not depend on whether the configuration is new -/
theorem names_step {rs : List (WGReg K)} {r : WGReg K} {s s' : RegState × Nat} (h : RegLoop shown showInt trafos rs s) {e' : RegConf} (he : e' ∈ s'.1.configs)
    (hi : e'.items = regItems shown showInt r) (hn : s'.1.names = (r.name, e'.name) :: s.1.names)
    (hup : ∀ e ∈ s.1.configs, ∃ f ∈ s'.1.configs, f.items = e.items ∧ f.name = e.name) :
    (∀ x ∈ rs ++ [r], ∃ e ∈ s'.1.configs, e.items = regItems shown showInt x) ∧
    (∀ x ∈ rs ++ [r], ∀ n, x.name = some n → (∀ r' ∈ rs ++ [r], r'.name = some n → regItems shown showInt r' = regItems shown showInt x) →
      ∃ e ∈ s'.1.configs, e.items = regItems shown showInt x ∧ configOf s'.1.names n = some e.name) ∧
    (∀ n, (∀ x ∈ rs ++ [r], x.name ≠ some n) → configOf s'.1.names n = none) ∧
    ∀ p ∈ s'.1.names, p.2 ∈ s'.1.configs.map (·.name) := by
  refine ⟨?_, ?_, ?_, ?_⟩
  · intro x hx
    rcases List.mem_append.mp hx with hx | hx
    · obtain ⟨e, h1, h2⟩ := h.found x hx
      obtain ⟨f, h3, h4, -⟩ := hup e h1
      exact ⟨f, h3, h4.trans h2⟩
    · rw [List.mem_singleton.mp hx]
      exact ⟨e', he, hi⟩
  · intro x hx n hxn hall
    rw [hn, configOf_cons]
    by_cases hr : r.name = some n
    · refine ⟨e', he, ?_, by rw [if_pos hr]⟩
      rw [hi]
      exact hall r (List.mem_append_right _ List.mem_cons_self) hr
    · rw [if_neg hr]
      rcases List.mem_append.mp hx with hx | hx
      · obtain ⟨e, h1, h2, h3⟩ := h.set x hx n hxn fun r' hr' => hall r' (List.mem_append_left _ hr')
        obtain ⟨f, h4, h5, h6⟩ := hup e h1
        exact ⟨f, h4, h5.trans h2, by rw [h3, h6]⟩
      · rw [List.mem_singleton.mp hx] at hxn
        exact absurd hxn hr
  · intro n hall
    rw [hn, configOf_cons, if_neg (hall r (List.mem_append_right _ List.mem_cons_self))]
    exact h.unset n fun x hx => hall x (List.mem_append_left _ hx)
  · intro p hp
    rw [hn] at hp
    rcases List.mem_cons.mp hp with rfl | hp
    · exact List.mem_map.mpr ⟨e', he, rfl⟩
    · obtain ⟨e, h1, h2⟩ := List.mem_map.mp (h.known p hp)
      obtain ⟨f, h3, -, h4⟩ := hup e h1
      exact List.mem_map.mpr ⟨f, h3, h4.trans h2⟩

theorem filter_snoc {α : Type} (p : α → Bool) (l : List α) (x : α) : (l ++ [x]).filter p = if p x then l.filter p ++ [x] else l.filter p := by
  rw [List.filter_append, List.filter_cons]
  split
  · rfl
  · rw [List.filter_nil, List.append_nil]

theorem reg_step {rs : List (WGReg K)} {r : WGReg K} {s : RegState × Nat} (h : RegLoop shown showInt trafos rs s) :
    RegLoop shown showInt trafos (rs ++ [r]) (regStep shown showInt trafos s r) := by
  unfold regStep
  cases hf : s.1.configs.find? fun e => e.items = regItems shown showInt r with
  | some e =>
    dsimp only
    have hem := List.mem_of_find?_eq_some hf
    have hei : e.items = regItems shown showInt r := by
      have e0 := List.find?_some hf
      exact of_decide_eq_true e0
    let g : RegConf → RegConf := fun f => if f.items = regItems shown showInt r then { f with phases := (regSettings trafos r).foldl (setPhase shown) f.phases } else f
    have hgi : ∀ f, (g f).items = f.items := by intro f; show (if _ then _ else _ : RegConf).items = _; split <;> rfl
    have hgn : ∀ f, (g f).name = f.name := by intro f; show (if _ then _ else _ : RegConf).name = _; split <;> rfl
    obtain ⟨k1, k2, k3, k4⟩ := names_step (s' := (⟨s.1.configs.map g, (r.name, e.name) :: s.1.names⟩, s.2)) h (e' := g e) (List.mem_map.mpr ⟨e, hem, rfl⟩)
      ((hgi e).trans hei) (by rw [hgn]) (fun e he => ⟨g e, List.mem_map.mpr ⟨e, he, rfl⟩, hgi e, hgn e⟩)
    refine ⟨?_, ?_, ?_, ?_, ?_, k1, k2, k3, k4⟩
    · show s.2 = (s.1.configs.map g).length + 1
      rw [List.length_map]
      exact h.count
    · show (s.1.configs.map g).map (·.name) = (List.range (s.1.configs.map g).length).map _
      rw [List.length_map, ← h.numbered, List.map_map]
      exact List.map_congr_left fun f _ => hgn f
    · show ((s.1.configs.map g).map (·.items)).Nodup
      rw [List.map_map, show s.1.configs.map ((fun x : RegConf => x.items) ∘ g) = s.1.configs.map (·.items) from List.map_congr_left fun f _ => hgi f]
      exact h.once
    · intro f hf
      obtain ⟨f, hfm, rfl⟩ := List.mem_map.mp hf
      obtain ⟨x, h1, h2⟩ := h.origin f hfm
      exact ⟨x, List.mem_append_left _ h1, (hgi f).trans h2⟩
    · intro f hf
      obtain ⟨f, hfm, rfl⟩ := List.mem_map.mp hf
      rw [hgi f, filter_snoc]
      show (if f.items = regItems shown showInt r then { f with phases := (regSettings trafos r).foldl (setPhase shown) f.phases } else f : RegConf).phases = _
      by_cases hk : f.items = regItems shown showInt r
      · rw [if_pos hk, if_pos (by rw [hk]; exact decide_eq_true rfl), List.flatMap_append, List.foldl_append]
        dsimp only
        rw [h.phases f hfm]
        simp only [List.flatMap_cons, List.flatMap_nil, List.append_nil]
      · rw [if_neg hk, if_neg (by rw [decide_eq_true_eq]; exact fun e => hk e.symm), h.phases f hfm]
  | none =>
    dsimp only
    have hnew : ∀ e ∈ s.1.configs, e.items ≠ regItems shown showInt r := by
      intro e he hi
      have := List.find?_eq_none.mp hf e he
      rw [decide_eq_true_eq] at this
      exact this hi
    obtain ⟨k1, k2, k3, k4⟩ := names_step
      (s' := (⟨s.1.configs ++ [⟨regItems shown showInt r, regConfigName s.2, (regSettings trafos r).foldl (setPhase shown) []⟩],
        (r.name, regConfigName s.2) :: s.1.names⟩, s.2 + 1)) h
      (e' := ⟨regItems shown showInt r, regConfigName s.2, (regSettings trafos r).foldl (setPhase shown) []⟩) (List.mem_append_right _ List.mem_cons_self)
      rfl rfl (fun e he => ⟨e, List.mem_append_left _ he, rfl, rfl⟩)
    refine ⟨?_, ?_, ?_, ?_, ?_, k1, k2, k3, k4⟩
    · dsimp only
      rw [List.length_append, h.count]
      rfl
    · dsimp only
      rw [List.map_append, h.numbered, List.length_append]
      show _ = (List.range (s.1.configs.length + 1)).map _
      rw [List.range_succ, List.map_append, h.count]
      rfl
    · dsimp only
      rw [List.map_append]
      refine List.nodup_append.mpr ⟨h.once, List.nodup_singleton _, ?_⟩
      intro x hx y hy e
      rw [List.mem_singleton.mp hy] at e
      obtain ⟨f, hf, rfl⟩ := List.mem_map.mp hx
      exact hnew f hf e
    · intro f hf
      rcases List.mem_append.mp hf with hf | hf
      · obtain ⟨x, h1, h2⟩ := h.origin f hf
        exact ⟨x, List.mem_append_left _ h1, h2⟩
      · rw [List.mem_singleton.mp hf]
        exact ⟨r, List.mem_append_right _ List.mem_cons_self, rfl⟩
    · intro f hf
      rw [filter_snoc]
      rcases List.mem_append.mp hf with hf | hf
      · rw [if_neg (by rw [decide_eq_true_eq]; exact fun e => hnew f hf e.symm), h.phases f hf]
      · rw [List.mem_singleton.mp hf]
        dsimp only
        have : (rs.filter fun x => regItems shown showInt x = regItems shown showInt r) = [] := by
          rw [List.filter_eq_nil_iff]
          intro x hx e
          rw [decide_eq_true_eq] at e
          obtain ⟨f, h1, h2⟩ := h.found x hx
          exact hnew f h1 (h2.trans e)
        rw [if_pos (decide_eq_true rfl), this]
        simp only [List.nil_append, List.flatMap_cons, List.flatMap_nil, List.append_nil]

theorem reg_loop (rs : List (WGReg K)) : RegLoop shown showInt trafos rs (rs.foldl (regStep shown showInt trafos) ({}, 1)) := by
  have key : ∀ (rest done : List (WGReg K)) s, RegLoop shown showInt trafos done s →
      RegLoop shown showInt trafos (done ++ rest) (rest.foldl (regStep shown showInt trafos) s) := by
    intro rest
    induction rest with
    | nil => intro done s h; rw [List.append_nil]; exact h
    | cons r rest ih =>
      intro done s h
      have := ih (done ++ [r]) _ (reg_step (r := r) h)
      rw [List.append_assoc] at this
      exact this
  exact key rs [] _ reg_start

/-! ### names of configurations -/

theorem regName_inj {m n : Nat} (h : regConfigName m = regConfigName n) : m = n := by
  refine configName_inj ?_
  unfold regConfigName at h
  unfold configName
  rw [List.append_cancel_left h]

theorem regName_token (n : Nat) : Token (regConfigName n) := by
  have h := configName_token n
  have hne : (Nat.repr n).toList ≠ [] := by rw [Nat.toList_repr]; exact Nat.toDigits_ne_nil
  unfold configName at h
  unfold regConfigName
  refine ⟨?_, ?_⟩
  · intro c hc
    rcases List.mem_append.mp hc with hc | hc
    · exact (show ∀ c ∈ "regulator_config_".toList, c.isWhitespace = false by decide) c hc
    · exact h.1 c (List.mem_append_right _ hc)
  · have := h.2
    rw [List.getLast?_append_of_ne_nil _ hne] at this ⊢
    exact this

theorem loop_name {rs : List (WGReg K)} {s : RegState × Nat} (h : RegLoop shown showInt trafos rs s) {e : RegConf} (he : e ∈ s.1.configs) :
    ∃ i, e.name = regConfigName i := by
  have : e.name ∈ s.1.configs.map (·.name) := List.mem_map.mpr ⟨e, he, rfl⟩
  rw [h.numbered] at this
  obtain ⟨i, -, e⟩ := List.mem_map.mp this
  exact ⟨_, e.symm⟩

theorem loop_names_nodup {rs : List (WGReg K)} {s : RegState × Nat} (h : RegLoop shown showInt trafos rs s) : (s.1.configs.map (·.name)).Nodup := by
  rw [h.numbered]
  refine List.Nodup.map (fun i j e => ?_) List.nodup_range
  have := regName_inj e
  omega

/-! ### further files -/

/-- configurations keep their items and names -/
theorem step_keeps {s : RegState × Nat} {r : WGReg K} {e : RegConf} (he : e ∈ s.1.configs) :
    ∃ f ∈ (regStep shown showInt trafos s r).1.configs, f.items = e.items ∧ f.name = e.name := by
  unfold regStep
  split
  · refine ⟨_, List.mem_map.mpr ⟨e, he, rfl⟩, ?_, ?_⟩ <;> split <;> rfl
  · exact ⟨e, List.mem_append_left _ he, rfl, rfl⟩

theorem fold_keeps {rs : List (WGReg K)} {s : RegState × Nat} {e : RegConf} (he : e ∈ s.1.configs) :
    ∃ f ∈ (rs.foldl (regStep shown showInt trafos) s).1.configs, f.items = e.items ∧ f.name = e.name := by
  induction rs generalizing s e with
  | nil => exact ⟨e, he, rfl, rfl⟩
  | cons r rs ih =>
    obtain ⟨f, h1, h2, h3⟩ := step_keeps (shown := shown) (showInt := showInt) (trafos := trafos) (r := r) he
    obtain ⟨f', h4, h5, h6⟩ := ih h1
    exact ⟨f', h4, h5.trans h2, h6.trans h3⟩

/-- the first new configuration gets the next number -/
theorem fold_new {rs : List (WGReg K)} {s : RegState × Nat} {r : WGReg K} (hr : r ∈ rs) (hn : ∀ e ∈ s.1.configs, e.items ≠ regItems shown showInt r) :
    ∃ f ∈ (rs.foldl (regStep shown showInt trafos) s).1.configs, f.name = regConfigName s.2 ∧ (∀ e ∈ s.1.configs, e.items ≠ f.items) ∧
      ∃ r' ∈ rs, f.items = regItems shown showInt r' := by
  induction rs generalizing s with
  | nil => cases hr
  | cons x rs ih =>
    rw [List.foldl_cons]
    cases hf : s.1.configs.find? fun e => e.items = regItems shown showInt x with
    | none =>
      have hin : ⟨regItems shown showInt x, regConfigName s.2, (regSettings trafos x).foldl (setPhase shown) []⟩ ∈
          (regStep shown showInt trafos s x).1.configs := by
        unfold regStep
        rw [hf]
        exact List.mem_append_right _ List.mem_cons_self
      obtain ⟨f, h1, h2, h3⟩ := fold_keeps (shown := shown) (showInt := showInt) (trafos := trafos) (rs := rs) hin
      refine ⟨f, h1, h3, ?_, x, List.mem_cons_self, h2⟩
      intro e he hi
      have := List.find?_eq_none.mp hf e he
      rw [decide_eq_true_eq] at this
      exact this (hi.trans h2)
    | some e =>
      have hei : e.items = regItems shown showInt x := by
        have e0 := List.find?_some hf
        exact of_decide_eq_true e0
      have hr' : r ∈ rs := by
        rcases List.mem_cons.mp hr with rfl | hr
        · exact absurd hei (hn e (List.mem_of_find?_eq_some hf))
        · exact hr
      have hsame : ∀ f ∈ (regStep shown showInt trafos s x).1.configs, ∃ e ∈ s.1.configs, f.items = e.items := by
        unfold regStep
        rw [hf]
        intro f hf
        obtain ⟨e, he, rfl⟩ := List.mem_map.mp hf
        refine ⟨e, he, ?_⟩
        split <;> rfl
      have hc : (regStep shown showInt trafos s x).2 = s.2 := by unfold regStep; rw [hf]
      obtain ⟨f, h1, h2, h3, r', h4, h5⟩ := ih (s := regStep shown showInt trafos s x) hr' (by
        intro f hf e
        obtain ⟨e', he', h⟩ := hsame f hf
        exact hn e' he' (h.symm.trans e))
      refine ⟨f, h1, by rw [h2, hc], ?_, r', List.mem_cons_of_mem _ h4, h5⟩
      intro e he hi
      obtain ⟨e', h6, h7, -⟩ := step_keeps (shown := shown) (showInt := showInt) (trafos := trafos) (r := x) he
      exact h3 e' h6 (h7.trans hi)

/-! ### the rows of the regulators -/

theorem regRows_append (names : List (Option Text × Text)) (seen : List Text) (a b : List (WGReg K)) : writeRegRows names seen (a ++ b) =
    ((writeRegRows names (writeRegRows names seen a).1 b).1, (writeRegRows names seen a).2 ++ (writeRegRows names (writeRegRows names seen a).1 b).2) := by
  induction a generalizing seen with
  | nil => rfl
  | cons r a ih =>
    rw [List.cons_append, writeRegRows, writeRegRows]
    cases regEnds r with
    | none => dsimp only; rw [ih, List.append_assoc]
    | some e =>
      dsimp only
      by_cases h : e ∈ seen
      · rw [if_pos h, if_pos h, ih]
      · rw [if_neg h, if_neg h, ih]
        dsimp only
        rw [List.append_assoc]

theorem seen_iff (names : List (Option Text × Text)) (seen : List Text) (rs : List (WGReg K)) (e : Text) :
    e ∈ (writeRegRows names seen rs).1 ↔ e ∈ seen ∨ ∃ r ∈ rs, regEnds r = some e := by
  induction rs generalizing seen with
  | nil => simp [writeRegRows]
  | cons r rs ih =>
    rw [writeRegRows]
    cases h : regEnds r with
    | none => dsimp only; rw [ih]; simp [h]
    | some e' =>
      dsimp only
      by_cases hm : e' ∈ seen
      · rw [if_pos hm, ih]
        simp only [List.mem_cons, exists_eq_or_imp, h, Option.some.injEq]
        constructor
        · rintro (h | h)
          · exact Or.inl h
          · exact Or.inr (Or.inr h)
        · rintro (h | rfl | h)
          · exact Or.inl h
          · exact Or.inl hm
          · exact Or.inr h
      · rw [if_neg hm, ih]
        simp only [List.mem_cons, exists_eq_or_imp, h, Option.some.injEq]
        constructor
        · rintro ((rfl | h) | h)
          · exact Or.inr (Or.inl rfl)
          · exact Or.inl h
          · exact Or.inr (Or.inr h)
        · rintro (h | rfl | h)
          · exact Or.inl (Or.inr h)
          · exact Or.inl (Or.inl rfl)
          · exact Or.inr h

theorem joined_iff {r : WGReg K} {e : Text} : JoinedEnds r e ↔ regEnds r = some e := by
  unfold JoinedEnds regEnds
  constructor
  · rintro ⟨a, b, h1, h2, rfl⟩
    rw [h1, h2]
    show some (a ++ '_' :: b) = some (a ++ ['_'] ++ b)
    rw [List.append_assoc]
    rfl
  · intro h
    cases h1 : r.source with
    | none => rw [h1] at h; cases h
    | some a =>
      cases h2 : r.sink with
      | none => rw [h1, h2] at h; cases h
      | some b =>
        rw [h1, h2] at h
        cases h
        refine ⟨a, b, rfl, rfl, ?_⟩
        show a ++ '_' :: b = a ++ ['_'] ++ b
        rw [List.append_assoc]
        rfl

/-- with different ends all regulators are written -/
theorem regRows_all (names : List (Option Text × Text)) {seen : List Text} {rs : List (WGReg K)} (h : (rs.filterMap regEnds).Nodup)
    (hseen : ∀ r ∈ rs, ∀ e, regEnds r = some e → e ∉ seen) : (writeRegRows names seen rs).2 = rs.flatMap (regRows names) := by
  induction rs generalizing seen with
  | nil => rfl
  | cons r rs ih =>
    rw [writeRegRows, List.flatMap_cons]
    have htail := fun r' hr' => hseen r' (List.mem_cons_of_mem _ hr')
    cases he : regEnds r with
    | none =>
      rw [List.filterMap_cons_none he] at h
      dsimp only
      rw [ih h htail]
    | some e =>
      rw [List.filterMap_cons_some he, List.nodup_cons] at h
      dsimp only
      rw [if_neg (hseen r List.mem_cons_self e he), ih h.2]
      intro r' hr' e' he' hm
      rcases List.mem_cons.mp hm with rfl | hm
      · exact h.1 (List.mem_filterMap.mpr ⟨r', hr', he'⟩)
      · exact htail r' hr' e' he' hm

end numbers
end Ditto.Glm
