import Verif.Lemmas.GlmRegWrite
import Verif.Props.GlmLoadWrite
import Verif.Props.GlmCapWrite
import Verif.Props.GlmRegs
import Mathlib.Logic.Encodable.Basic

/-! C106: regulators written to GridLAB-D files. -/
namespace Ditto.Glm
open Ditto Glm.Spec

section numbers
variable {K : Type} {shown : K → Text} {showInt : Int → Text} {flt : Text → Option K} {int : Text → Option Int}
  {trafos : List (Option Text × List (WGRegPhase K))} {order : List (Text × Text) → List (Text × Text)}

/-- the object of a configuration -/
def regConfigDecl (order : List (Text × Text) → List (Text × Text)) (e : RegConf) : Decl := ⟨"regulator_configuration".toList, none, regConfigEntries order e⟩

/-- the configuration has the items of a regulator and settings of phases -/
structure RegConfOk (shown : K → Text) (showInt : Int → Text) (e : RegConf) : Prop where
  items : ∃ r, e.items = regItems shown showInt r
  nodup : (e.phases.map (·.1)).Nodup
  keys : ∀ q ∈ e.phases, SettingKey q.1

theorem loop_ok {rs : List (WGReg K)} {s : RegState × Nat} (h : RegLoop shown showInt trafos rs s) {e : RegConf} (he : e ∈ s.1.configs) :
    RegConfOk shown showInt e := by
  obtain ⟨r, -, hr⟩ := h.origin e he
  refine ⟨⟨r, hr⟩, ?_, ?_⟩
  · rw [h.phases e he]
    exact fold_keep (P := fun d => (d.map fun q : Text × Text => q.1).Nodup) (fun w _ d hd => setPhase_nodup w hd) (d := []) List.nodup_nil
  · rw [h.phases e he]
    exact fold_keep (P := fun d => ∀ q ∈ d, SettingKey q.1) (fun w _ d hd => setPhase_keys w hd) (fun q hq => by cases hq)

theorem reg_entries_nodup (ho : ∀ l, (order l).Perm l) {e : RegConf} (h : RegConfOk shown showInt e) : ((regConfigEntries order e).map (·.1)).Nodup := by
  obtain ⟨r, hr⟩ := h.items
  have hk : ∀ k ∈ (order e.items).map (·.1), k ∈ regKeys := by
    intro k hk
    obtain ⟨⟨k', v⟩, hq, rfl⟩ := List.mem_map.mp hk
    have := (ho e.items).mem_iff.mp hq
    rw [hr] at this
    exact regItems_keys this
  unfold regConfigEntries
  rw [List.map_cons, List.map_append, List.nodup_cons, List.nodup_append]
  refine ⟨?_, ?_, h.nodup, ?_⟩
  · intro hm
    rcases List.mem_append.mp hm with hm | hm
    · exact absurd (hk _ hm) (show "name".toList ∉ regKeys by decide)
    · obtain ⟨q, hq, e⟩ := List.mem_map.mp hm
      have := setting_foreign (h.keys q hq)
      rw [e] at this
      exact this List.mem_cons_self
  · rw [((ho e.items).map (·.1)).nodup_iff, hr]
    exact regItems_nodup r
  · intro a ha b hb e
    subst e
    obtain ⟨q, hq, e⟩ := List.mem_map.mp hb
    have := setting_foreign (h.keys q hq)
    rw [e] at this
    exact this (List.mem_cons_of_mem _ (hk _ ha))

theorem entry_get (ho : ∀ l, (order l).Perm l) {e : RegConf} (h : RegConfOk shown showInt e) {k : Text} (hk : k ≠ "name".toList) :
    (k ∈ regKeys → attrOf (regConfigDecl order e) k = getEntry k e.items) ∧ (k ∉ regKeys → attrOf (regConfigDecl order e) k = getEntry k e.phases) := by
  have hn := reg_entries_nodup ho h
  obtain ⟨r, hr⟩ := h.items
  have hattr : ∀ v, attrOf (regConfigDecl order e) k = some v ↔ (k, v) ∈ e.items ∨ (k, v) ∈ e.phases := by
    intro v
    unfold attrOf
    rw [if_neg hk]
    show lastValue (regConfigEntries order e) k = some v ↔ _
    rw [lastValue_nodup hn, ← getEntry_find, get_iff hn]
    unfold regConfigEntries
    rw [List.mem_cons, List.mem_append, (ho e.items).mem_iff]
    constructor
    · rintro (e | h)
      · cases e; exact absurd rfl hk
      · exact h
    · exact Or.inr
  have hnodup : (e.items.map (·.1)).Nodup := by rw [hr]; exact regItems_nodup r
  constructor
  · intro hm
    have : ∀ v, attrOf (regConfigDecl order e) k = some v ↔ getEntry k e.items = some v := by
      intro v
      rw [hattr, get_iff hnodup]
      constructor
      · rintro (h1 | h1)
        · exact h1
        · exact absurd (List.mem_cons_of_mem _ hm) (setting_foreign (h.keys _ h1))
      · exact Or.inl
    exact Option.ext this
  · intro hm
    have : ∀ v, attrOf (regConfigDecl order e) k = some v ↔ getEntry k e.phases = some v := by
      intro v
      rw [hattr, get_iff h.nodup]
      constructor
      · rintro (h1 | h1)
        · rw [hr] at h1
          exact absurd (regItems_keys h1) hm
        · exact h1
      · exact Or.inr
    exact Option.ext this

theorem reg_config_name (ho : ∀ l, (order l).Perm l) {e : RegConf} (h : RegConfOk shown showInt e) : nameOf (regConfigDecl order e) = some e.name := by
  unfold nameOf
  have : lastValue (regConfigDecl order e).statements "name".toList = some e.name := by
    show lastValue (regConfigEntries order e) "name".toList = some e.name
    rw [lastValue_nodup (reg_entries_nodup ho h), ← getEntry_find]
    rfl
  rw [this]

/-- the configuration says what it should -/
theorem reg_config_says (ho : ∀ l, (order l).Perm l) (hs : Numbers shown flt) (hi : Numbers showInt int) {e : RegConf} (h : RegConfOk shown showInt e) {r : WGReg K}
    (hr : e.items = regItems shown showInt r) : RegConfigWritten flt int r (regConfigDecl order e) := by
  have key : ∀ {k : Text} {o : Option Text}, (k, o) ∈ regPairs shown showInt r → k ≠ "name".toList → attrOf (regConfigDecl order e) k = o := by
    intro k o hk hn
    have hm : k ∈ regKeys := by
      have : k ∈ (regPairs shown showInt r).map (·.1) := List.mem_map.mpr ⟨_, hk, rfl⟩
      exact this
    rw [(entry_get ho h hn).1 hm, hr, regItems_get hk]
  have opt : ∀ {V : Type} {sh : V → Text} {conv : Text → Option V}, (∀ x, conv (sh x) = some x) → ∀ {k : Text} {o : Option V},
      (k, o.map sh) ∈ regPairs shown showInt r → k ≠ "name".toList → Optional conv (regConfigDecl order e) k o := by
    intro V sh conv hc k o hk hn
    have := key hk hn
    cases o with
    | none => exact this
    | some x => exact ⟨_, this, hc x⟩
  exact {
    cls := rfl
    delay := opt hs.inverse (.head _) (by decide)
    highstep := opt hi.inverse (.tail _ (.head _)) (by decide)
    lowstep := opt hi.inverse (.tail _ (.tail _ (.head _))) (by decide)
    ptRatio := opt hs.inverse (.tail _ (.tail _ (.tail _ (.head _)))) (by decide)
    ctRatio := opt hs.inverse (.tail _ (.tail _ (.tail _ (.tail _ (.head _))))) (by decide)
    bandwidth := opt hs.inverse (.tail _ (.tail _ (.tail _ (.tail _ (.tail _ (.head _)))))) (by decide)
    bandcenter := opt hs.inverse (.tail _ (.tail _ (.tail _ (.tail _ (.tail _ (.tail _ (.head _))))))) (by decide)
    ptPhase := key (.tail _ (.tail _ (.tail _ (.tail _ (.tail _ (.tail _ (.tail _ (.head _)))))))) (by decide)
    connection := key (.tail _ (.tail _ (.tail _ (.tail _ (.tail _ (.tail _ (.tail _ (.tail _ (.head _))))))))) (by decide) }

/-- regulators with the same configuration have the same settings -/
theorem says_same {r r' : WGReg K} {c : Decl} (h : RegConfigWritten flt int r c) (h' : RegConfigWritten flt int r' c) : SameSettings r r' where
  delay := optional_same h.delay h'.delay
  highstep := optional_same h.highstep h'.highstep
  lowstep := optional_same h.lowstep h'.lowstep
  ptRatio := optional_same h.ptRatio h'.ptRatio
  ctRatio := optional_same h.ctRatio h'.ctRatio
  bandwidth := optional_same h.bandwidth h'.bandwidth
  bandcenter := optional_same h.bandcenter h'.bandcenter
  ptPhase := h.ptPhase.symm.trans h'.ptPhase

/-- the settings of a phase -/
theorem reg_setting_says (ho : ∀ l, (order l).Perm l) (hs : Numbers shown flt) {rs : List (WGReg K)} {s : RegState × Nat}
    (h : RegLoop shown showInt trafos rs s) {e : RegConf} (he : e ∈ s.1.configs) {p : Text} {w : WGRegPhase K}
    (hw : LastSetting trafos (fun r => regItems shown showInt r = e.items) rs p w) : SettingSays flt p w (regConfigDecl order e) := by
  obtain ⟨hrs, hr, hset, hp, hb, hpost⟩ := hw
  rename_i pre post r a b
  have hok := loop_ok h he
  have hlist : (rs.filter fun r => regItems shown showInt r = e.items).flatMap (regSettings trafos) =
      ((pre.filter fun r => regItems shown showInt r = e.items).flatMap (regSettings trafos) ++ a) ++ w ::
        (b ++ (post.filter fun r => regItems shown showInt r = e.items).flatMap (regSettings trafos)) := by
    rw [hrs, List.filter_append, List.filter_cons_of_pos (by exact decide_eq_true hr), List.flatMap_append, List.flatMap_cons, ← settings_of.mp hset]
    simp only [List.append_assoc, List.cons_append]
  have hlast := fold_last (shown := shown) (a := (pre.filter fun r => regItems shown showInt r = e.items).flatMap (regSettings trafos) ++ a) hp
    (b := b ++ (post.filter fun r => regItems shown showInt r = e.items).flatMap (regSettings trafos)) (by
      intro w' hw'
      rcases List.mem_append.mp hw' with hw' | hw'
      · exact hb w' hw'
      · obtain ⟨r', hr', hm⟩ := List.mem_flatMap.mp hw'
        obtain ⟨h1, h2⟩ := List.mem_filter.mp hr'
        exact hpost r' h1 (of_decide_eq_true h2) _ (settings_of.mpr rfl) w' hm) []
  rw [← hlist, ← h.phases e he] at hlast
  have hf1 := setting_foreign (SettingKey.tap p)
  have hf2 := setting_foreign (SettingKey.resistance p)
  have g1 : attrOf (regConfigDecl order e) ("tap_pos_".toList ++ p) = some (formatOpt shown w.tap) := by
    show attrOf (regConfigDecl order e) (settingKey "tap_pos".toList p) = _
    rw [(entry_get ho hok fun e => hf1 (by rw [e]; exact .head _)).2 fun e => hf1 (.tail _ e), hlast.1]
  have g2 : w.r.isSome ∨ w.x.isSome → attrOf (regConfigDecl order e) ("compensator_r_setting_".toList ++ p) = some (formatOpt shown w.r) := by
    intro hk
    show attrOf (regConfigDecl order e) (settingKey "compensator_r_setting".toList p) = _
    rw [(entry_get ho hok fun e => hf2 (by rw [e]; exact .head _)).2 fun e => hf2 (.tail _ e), hlast.2 hk]
  refine ⟨?_, ?_, ?_, ?_⟩
  · intro x hx
    exact ⟨_, g1, by rw [hx]; exact hs.inverse x⟩
  · intro hx
    rw [g1, hx]
    rfl
  · intro x hx
    exact ⟨_, g2 (Or.inl (by rw [hx]; rfl)), by rw [hx]; exact hs.inverse x⟩
  · intro hx hxx
    rw [g2 (Or.inr hxx), hx]
    rfl

/-- all entries are words -/
theorem reg_config_words (ho : ∀ l, (order l).Perm l) (hs : ∀ x, Token (shown x)) (hi : ∀ x, Token (showInt x)) {rs : List (WGReg K)} {s : RegState × Nat}
    (h : RegLoop shown showInt trafos rs s) (hw : ∀ r ∈ rs, ∃ name, WritableReg trafos r name) :
    ∀ e ∈ s.1.configs, ∀ q ∈ regConfigEntries order e, Word q.1 ∧ Plain q.1 ∧ Token q.2 := by
  intro e he q hq
  unfold regConfigEntries at hq
  rcases List.mem_cons.mp hq with rfl | hq
  · obtain ⟨i, hi⟩ := loop_name h he
    refine ⟨word_lit (k := "name".toList) (by decide), plain_lit (k := "name".toList) (by decide), ?_⟩
    show Token e.name
    rw [hi]
    exact regName_token i
  rcases List.mem_append.mp hq with hq | hq
  · obtain ⟨r, hr, heq⟩ := h.origin e he
    obtain ⟨name, hwr⟩ := hw r hr
    have hq := (ho e.items).mem_iff.mp hq
    rw [heq] at hq
    obtain ⟨k, v⟩ := q
    have hk := regItems_keys hq
    refine ⟨?_, ?_, ?_⟩
    · exact (show ∀ k ∈ regKeys, k ≠ [] ∧ ∀ c ∈ k, c.isWhitespace = false by decide) k hk
    · exact (show ∀ k ∈ regKeys, k ≠ "object".toList ∧ k ≠ "schedule".toList ∧ ¬['/', '/'] <+: k by decide) k hk
    · rw [reg_flat] at hq
      have hq := mem_flat.mp hq
      have hmap : ∀ {V : Type} {f : V → Text} (_ : ∀ x, Token (f x)) {o : Option V}, some v = o.map f → Token v := by
        intro V f hf o e
        obtain ⟨x, -, rfl⟩ := Option.map_eq_some_iff.mp e.symm
        exact hf x
      unfold regPairs at hq
      simp only [List.mem_cons, List.not_mem_nil, or_false, Prod.mk.injEq] at hq
      rcases hq with ⟨-, e⟩ | ⟨-, e⟩ | ⟨-, e⟩ | ⟨-, e⟩ | ⟨-, e⟩ | ⟨-, e⟩ | ⟨-, e⟩ | ⟨-, e⟩ | ⟨-, e⟩
      · exact hmap hs e
      · exact hmap hi e
      · exact hmap hi e
      · exact hmap hs e
      · exact hmap hs e
      · exact hmap hs e
      · exact hmap hs e
      · exact hwr.ptPhase v e.symm
      · cases e
        exact (by unfold Token; decide : Token "WYE_WYE".toList)
  · rw [h.phases e he] at hq
    refine fold_keep (P := fun d => ∀ q ∈ d, Word q.1 ∧ Plain q.1 ∧ Token q.2) ?_ (fun q hq => by cases hq) q hq
    intro w hwm d hd
    obtain ⟨r, hr, hm⟩ := List.mem_flatMap.mp hwm
    obtain ⟨name, hwr⟩ := hw r (List.mem_filter.mp hr).1
    exact setPhase_words hs (hwr.phases _ (settings_of.mpr rfl) w hm) hd

/-- C106, partial: in the first file of a process, the configurations of regulators are objects `regulator_configuration` with different names. Each regulator is
assigned the name of one, which has the settings of the regulator. Each configuration is that of a regulator. The settings of a phase are those of the last winding
with this phase of the regulators with this configuration. The items can come in any order. Missing: that the settings of the phases are those of the regulator
(`C106_taps_violated`), the reactances (`C106_reactance_violated`), taps that are not known (`C106_none_violated`), further files (`C106_again_violated`). -/
theorem C106_configurations_partial (ho : ∀ l, (order l).Perm l) (hs : Numbers shown flt) (hi : Numbers showInt int) {rs : List (WGReg K)}
    (hw : ∀ r ∈ rs, ∃ name, WritableReg trafos r name) (hone : ∀ r ∈ rs, ∀ r' ∈ rs, ∀ n, r.name = some n → r'.name = some n → r = r') :
    ∃ cs, Lays (regConfigRows order (regConfigs shown showInt trafos {} rs)) cs ∧ NoInclude (regConfigRows order (regConfigs shown showInt trafos {} rs)) ∧
      (cs.map nameOf).Nodup ∧
      (∀ r ∈ rs, ∀ name, r.name = some name → ∃ c ∈ cs, ∃ n, nameOf c = some n ∧ configOf (regConfigs shown showInt trafos {} rs).names name = some n ∧
        RegConfigWritten flt int r c) ∧
      (∀ c ∈ cs, ∃ r ∈ rs, RegConfigWritten flt int r c) ∧
      (∀ c ∈ cs, ∀ p w, LastSetting trafos (fun r => RegConfigWritten flt int r c) rs p w → SettingSays flt p w c) ∧
      ∀ name, (∀ r ∈ rs, r.name ≠ some name) → configOf (regConfigs shown showInt trafos {} rs).names name = none := by
  have h := reg_loop (shown := shown) (showInt := showInt) (trafos := trafos) rs
  have hlay := entries_lay (cls := "regulator_configuration".toList) (by decide) (by decide) (reg_config_words ho hs.token hi.token h hw)
  refine ⟨_, hlay.1, hlay.2, ?_, ?_, ?_, ?_, h.unset⟩
  · rw [List.map_map]
    have : (regConfigs shown showInt trafos {} rs).configs.map (nameOf ∘ regConfigDecl order) =
        ((regConfigs shown showInt trafos {} rs).configs.map (·.name)).map some := by
      rw [List.map_map]
      exact List.map_congr_left fun p hp => reg_config_name ho (loop_ok h hp)
    exact this ▸ (loop_names_nodup h).map fun a b e => Option.some.inj e
  · intro r hr name hn
    obtain ⟨e, h1, h2, h3⟩ := h.set r hr name hn fun r' hr' hn' => by rw [hone r hr r' hr' name hn hn']
    exact ⟨regConfigDecl order e, List.mem_map.mpr ⟨e, h1, rfl⟩, e.name, reg_config_name ho (loop_ok h h1), h3, reg_config_says ho hs hi (loop_ok h h1) h2⟩
  · intro c hc
    obtain ⟨e, he, rfl⟩ := List.mem_map.mp hc
    obtain ⟨r, h1, h2⟩ := h.origin e he
    exact ⟨r, h1, reg_config_says ho hs hi (loop_ok h he) h2⟩
  · intro c hc p w hl
    obtain ⟨e, he, rfl⟩ := List.mem_map.mp hc
    refine reg_setting_says ho hs h he ?_
    obtain ⟨r0, -, h0⟩ := h.origin e he
    have hs0 := reg_config_says ho hs hi (loop_ok h he) h0
    obtain ⟨e1, hr, e3, e4, e5, e6⟩ := hl
    refine .intro e1 ?_ e3 e4 e5 ?_
    · rw [h0]
      exact items_of_same (says_same hr hs0)
    · intro r' hr' hi' l hl w' hw'
      exact e6 r' hr' (reg_config_says ho hs hi (loop_ok h he) hi'.symm) l hl w' hw'

/-- C106: regulators with the same settings share a configuration -/
theorem C106_shared {rs : List (WGReg K)} (hone : ∀ r ∈ rs, ∀ r' ∈ rs, ∀ n, r.name = some n → r'.name = some n → r = r') {r r' : WGReg K} (hr : r ∈ rs) (hr' : r' ∈ rs)
    {n n' : Text} (hn : r.name = some n) (hn' : r'.name = some n') (hsame : SameSettings r r') :
    configOf (regConfigs shown showInt trafos {} rs).names n = configOf (regConfigs shown showInt trafos {} rs).names n' ∧
      (configOf (regConfigs shown showInt trafos {} rs).names n).isSome := by
  have h := reg_loop (shown := shown) (showInt := showInt) (trafos := trafos) rs
  obtain ⟨e, h1, h2, h3⟩ := h.set r hr n hn fun x hx hxn => by rw [hone r hr x hx n hn hxn]
  obtain ⟨e', h1', h2', h3'⟩ := h.set r' hr' n' hn' fun x hx hxn => by rw [hone r' hr' x hx n' hn' hxn]
  have : e = e' := List.inj_on_of_nodup_map h.once h1 h1' (by rw [h2, h2', items_of_same hsame])
  subst this
  have h3 : configOf (regConfigs shown showInt trafos {} rs).names n = some e.name := h3
  have h3' : configOf (regConfigs shown showInt trafos {} rs).names n' = some e.name := h3'
  rw [h3, h3']
  exact ⟨rfl, rfl⟩

/-- C106: settings are only shared by regulators with the same settings -/
theorem C106_distinct (hs : Numbers shown flt) (hi : Numbers showInt int) {rs : List (WGReg K)}
    (hone : ∀ r ∈ rs, ∀ r' ∈ rs, ∀ n, r.name = some n → r'.name = some n → r = r') {r r' : WGReg K} (hr : r ∈ rs) (hr' : r' ∈ rs)
    {n n' : Text} (hn : r.name = some n) (hn' : r'.name = some n')
    (hc : configOf (regConfigs shown showInt trafos {} rs).names n = configOf (regConfigs shown showInt trafos {} rs).names n') : SameSettings r r' := by
  have h := reg_loop (shown := shown) (showInt := showInt) (trafos := trafos) rs
  obtain ⟨e, h1, h2, h3⟩ := h.set r hr n hn fun x hx hxn => by rw [hone r hr x hx n hn hxn]
  obtain ⟨e', h1', h2', h3'⟩ := h.set r' hr' n' hn' fun x hx hxn => by rw [hone r' hr' x hx n' hn' hxn]
  have : some e.name = some e'.name := h3.symm.trans (hc.trans h3')
  have : e = e' := List.inj_on_of_nodup_map (loop_names_nodup h) h1 h1' (Option.some.inj this)
  subst this
  refine same_of_get ?_ ?_ fun k => by rw [← h2, ← h2']
  · intro x y e
    have := hs.inverse x
    rw [e, hs.inverse] at this
    exact (Option.some.inj this).symm
  · intro x y e
    have := hi.inverse x
    rw [e, hi.inverse] at this
    exact (Option.some.inj this).symm

/-- C106 violated: of regulators with the same settings, the configuration has the taps of the last one. Here the tap of this phase is that of the last regulator, also
for the regulator before it, whatever its own tap is. -/
theorem C106_taps_violated (ho : ∀ l, (order l).Perm l) (hs : Numbers shown flt) (hi : Numbers showInt int) {pre : List (WGReg K)} {r r' : WGReg K} (hr : r ∈ pre)
    (hw : ∀ x ∈ pre ++ [r'], ∃ name, WritableReg trafos x name)
    (hone : ∀ x ∈ pre ++ [r'], ∀ y ∈ pre ++ [r'], ∀ n, x.name = some n → y.name = some n → x = y) {n : Text} (hn : r.name = some n) (hsame : SameSettings r r')
    {a b : List (WGRegPhase K)} {w : WGRegPhase K} {p : Text} {x : K} (hset : SettingsOf trafos r' (a ++ w :: b)) (hp : w.phase = some p)
    (hb : ∀ w' ∈ b, w'.phase ≠ some p) (hx : w.tap = some x) :
    ∃ cs, Lays (regConfigRows order (regConfigs shown showInt trafos {} (pre ++ [r']))) cs ∧ ∃ c ∈ cs,
      configOf (regConfigs shown showInt trafos {} (pre ++ [r'])).names n = nameOf c ∧ RegConfigWritten flt int r c ∧ Value flt c ("tap_pos_".toList ++ p) x := by
  obtain ⟨cs, h1, -, -, h4, -, h6, -⟩ := C106_configurations_partial ho hs hi hw hone
  obtain ⟨c, hc, m, k1, k2, k3⟩ := h4 r (List.mem_append_left _ hr) n hn
  refine ⟨cs, h1, c, hc, by rw [k1, k2], k3, ?_⟩
  refine (h6 c hc p w (.intro (post := []) rfl ?_ hset hp hb (fun _ h => by cases h))).tap x hx
  obtain ⟨s1, s2, s3, s4, s5, s6, s7, s8⟩ := hsame
  exact ⟨k3.cls, s1 ▸ k3.delay, s2 ▸ k3.highstep, s3 ▸ k3.lowstep, s4 ▸ k3.ptRatio, s5 ▸ k3.ctRatio, s6 ▸ k3.bandwidth, s7 ▸ k3.bandcenter, s8 ▸ k3.ptPhase,
    k3.connection⟩

/-- C106 violated: the reactance of a compensator is never written -/
theorem C106_reactance_violated (ho : ∀ l, (order l).Perm l) (hs : ∀ x, Token (shown x)) (hi : ∀ x, Token (showInt x)) {rs : List (WGReg K)}
    (hw : ∀ r ∈ rs, ∃ name, WritableReg trafos r name) :
    ∃ cs, Lays (regConfigRows order (regConfigs shown showInt trafos {} rs)) cs ∧ ∀ c ∈ cs, ∀ p, attrOf c ("compensator_x_setting_".toList ++ p) = none := by
  have h := reg_loop (shown := shown) (showInt := showInt) (trafos := trafos) rs
  have hlay := entries_lay (cls := "regulator_configuration".toList) (by decide) (by decide) (reg_config_words ho hs hi h hw)
  refine ⟨_, hlay.1, ?_⟩
  intro c hc p
  obtain ⟨e, he, rfl⟩ := List.mem_map.mp hc
  have hok := loop_ok h he
  have hpre : ∀ k ∈ "name".toList :: regKeys, ¬"compensator_x_setting_".toList <+: k := by decide
  have hfor : "compensator_x_setting_".toList ++ p ∉ "name".toList :: regKeys := fun hm => hpre _ hm ⟨p, rfl⟩
  show attrOf (regConfigDecl order e) _ = none
  rw [(entry_get ho hok fun e => hfor (by rw [e]; exact .head _)).2 fun e => hfor (.tail _ e)]
  cases hg : getEntry ("compensator_x_setting_".toList ++ p) e.phases with
  | none => rfl
  | some v =>
    have hk := hok.keys _ ((get_iff hok.nodup).mp hg)
    dsimp only at hk
    generalize hkk : "compensator_x_setting_".toList ++ p = k at hk
    cases hk with
    | tap q =>
      have : 'c' = 't' := Option.some.inj (congrArg (fun l : Text => l.head?) hkk)
      exact absurd this (by decide)
    | resistance q =>
      have : 'x' = 'r' := Option.some.inj (congrArg (fun l : Text => l[12]?) hkk)
      exact absurd this (by decide)

/-- C106: the settings that are written are what the reader takes from a configuration (C105) -/
theorem C106_meaning {r : WGReg K} {c d : Decl} {r' : GReadReg K} (h : RegConfigWritten flt int r c) (h' : RegConfigSays flt int d c r') :
    r'.delay = r.delay ∧ r'.highstep = r.highstep ∧ r'.lowstep = r.lowstep.or r.highstep ∧ r'.ptRatio = r.ptRatio ∧ r'.ctRatio = r.ctRatio ∧
      r'.bandwidth = r.bandwidth ∧ r'.bandcenter = r.bandcenter ∧ r'.connection = some 'Y' :=
  ⟨optional_same h'.delay h.delay, optional_same h'.highstep h.highstep, optional_same h'.lowstep h.lowstep, optional_same h'.ptRatio h.ptRatio,
    optional_same h'.ctRatio h.ctRatio, optional_same h'.bandwidth h.bandwidth, optional_same h'.bandcenter h.bandcenter,
    by rw [h'.connection, if_pos h.connection]⟩

/-- C106 violated: the phase whose voltage is measured is written as `pt_phase`, while the reader looks for `PT_phase`: from a written configuration it takes no such
phase -/
theorem C106_pt_violated (ho : ∀ l, (order l).Perm l) (hs : ∀ x, Token (shown x)) (hi : ∀ x, Token (showInt x)) {rs : List (WGReg K)}
    (hw : ∀ r ∈ rs, ∃ name, WritableReg trafos r name) :
    ∃ cs, Lays (regConfigRows order (regConfigs shown showInt trafos {} rs)) cs ∧ ∀ c ∈ cs, ∀ d r', RegConfigSays flt int d c r' → r'.ptPhase = none := by
  have h := reg_loop (shown := shown) (showInt := showInt) (trafos := trafos) rs
  have hlay := entries_lay (cls := "regulator_configuration".toList) (by decide) (by decide) (reg_config_words ho hs hi h hw)
  refine ⟨_, hlay.1, ?_⟩
  intro c hc d r' hsay
  obtain ⟨e, he, rfl⟩ := List.mem_map.mp hc
  have hok := loop_ok h he
  have hnone : attrOf (regConfigDecl order e) "PT_phase".toList = none := by
    rw [(entry_get ho hok (by decide)).2 (by decide)]
    cases hg : getEntry "PT_phase".toList e.phases with
    | none => rfl
    | some v =>
      have hk := hok.keys _ ((get_iff hok.nodup).mp hg)
      dsimp only at hk
      generalize hkk : "PT_phase".toList = k at hk
      cases hk with
      | tap q =>
        have : 'P' = 't' := Option.some.inj (congrArg (fun l : Text => l.head?) hkk)
        exact absurd this (by decide)
      | resistance q =>
        have : 'P' = 'c' := Option.some.inj (congrArg (fun l : Text => l.head?) hkk)
        exact absurd this (by decide)
  have hpt := hsay.ptPhase
  cases hp : r'.ptPhase with
  | none => rfl
  | some p =>
    rw [hp] at hpt
    obtain ⟨t, rest, ht, -⟩ := hpt
    have ht : attrOf (regConfigDecl order e) "PT_phase".toList = some t := ht
    rw [hnone] at ht
    cases ht

/-- C106 violated: a tap that is not known is written as the text `None`, which is no number -/
theorem C106_none_violated (ho : ∀ l, (order l).Perm l) (hs : Numbers shown flt) (hi : Numbers showInt int) (hnone : flt "None".toList = none) {pre : List (WGReg K)}
    {r : WGReg K} (hw : ∀ x ∈ pre ++ [r], ∃ name, WritableReg trafos x name)
    (hone : ∀ x ∈ pre ++ [r], ∀ y ∈ pre ++ [r], ∀ n, x.name = some n → y.name = some n → x = y) {n : Text} (hn : r.name = some n)
    {a b : List (WGRegPhase K)} {w : WGRegPhase K} {p : Text} (hset : SettingsOf trafos r (a ++ w :: b))
    (hp : w.phase = some p) (hb : ∀ w' ∈ b, w'.phase ≠ some p) (hx : w.tap = none) :
    ∃ cs, Lays (regConfigRows order (regConfigs shown showInt trafos {} (pre ++ [r]))) cs ∧ ∃ c ∈ cs,
      configOf (regConfigs shown showInt trafos {} (pre ++ [r])).names n = nameOf c ∧ RegConfigWritten flt int r c ∧
      ∃ t, attrOf c ("tap_pos_".toList ++ p) = some t ∧ flt t = none := by
  obtain ⟨cs, h1, -, -, h4, -, h6, -⟩ := C106_configurations_partial ho hs hi hw hone
  obtain ⟨c, hc, m, k1, k2, k3⟩ := h4 r (List.mem_append_right _ List.mem_cons_self) n hn
  refine ⟨cs, h1, c, hc, by rw [k1, k2], k3, _, ?_, hnone⟩
  exact (h6 c hc p w (.intro (post := []) rfl k3 hset hp hb (fun _ h => by cases h))).untapped hx

/-- C106 violated: the dictionaries of configurations are kept for the next file, where the numbers start again. The next file has all configurations of the first one.
If it has a regulator with other settings, then two configurations with different settings have the same name. -/
theorem C106_again_violated (hs : Numbers shown flt) (hi : Numbers showInt int) {rs rs' : List (WGReg K)} (hne : rs ≠ []) {r' : WGReg K} (hr' : r' ∈ rs')
    (hnew : ∀ r ∈ rs, ¬SameSettings r r') :
    (∀ e ∈ (regConfigs shown showInt trafos {} rs).configs, ∃ f ∈ (regConfigs shown showInt trafos (regConfigs shown showInt trafos {} rs) rs').configs,
      f.items = e.items ∧ f.name = e.name) ∧
    ∃ e ∈ (regConfigs shown showInt trafos (regConfigs shown showInt trafos {} rs) rs').configs,
      ∃ f ∈ (regConfigs shown showInt trafos (regConfigs shown showInt trafos {} rs) rs').configs, e.name = f.name ∧ e.items ≠ f.items := by
  have h := reg_loop (shown := shown) (showInt := showInt) (trafos := trafos) rs
  have hinj : ∀ {V : Type} {sh : V → Text} {conv : Text → Option V}, Numbers sh conv → ∀ x y, sh x = sh y → x = y := by
    intro V sh conv hn x y e
    have := hn.inverse x
    rw [e, hn.inverse] at this
    exact (Option.some.inj this).symm
  refine ⟨fun e he => fold_keeps he, ?_⟩
  obtain ⟨f, h1, h2, h3, -⟩ := fold_new (shown := shown) (showInt := showInt) (trafos := trafos) (rs := rs') (s := (regConfigs shown showInt trafos {} rs, 1)) hr' (by
    intro e he hi'
    obtain ⟨r, hr, hri⟩ := h.origin e he
    exact hnew r hr (same_of_get (hinj hs) (hinj hi) fun k => by rw [← hri, ← hi']))
  obtain ⟨r, hr⟩ := List.exists_mem_of_ne_nil rs hne
  obtain ⟨e0, he0, -⟩ := h.found r hr
  have hfirst : ∃ e ∈ (regConfigs shown showInt trafos {} rs).configs, e.name = regConfigName 1 := by
    have hpos : 0 < (rs.foldl (regStep shown showInt trafos) ({}, 1)).1.configs.length := List.length_pos_of_mem he0
    have hmem : regConfigName (0 + 1) ∈ (rs.foldl (regStep shown showInt trafos) ({}, 1)).1.configs.map (·.name) := by
      rw [h.numbered]
      exact List.mem_map.mpr ⟨0, List.mem_range.mpr hpos, rfl⟩
    obtain ⟨e, he, hn⟩ := List.mem_map.mp hmem
    exact ⟨e, he, hn⟩
  obtain ⟨e, he, hen⟩ := hfirst
  obtain ⟨e', k1, k2, k3⟩ := fold_keeps (shown := shown) (showInt := showInt) (trafos := trafos) (rs := rs') (s := (regConfigs shown showInt trafos {} rs, 1)) he
  exact ⟨e', k1, f, h1, by rw [k3, hen, h2], by rw [k2]; exact h3 e he⟩

/-! ### the regulators -/

/-- the attributes of a regulator with their values -/
def regAttrs (names : List (Option Text × Text)) (r : WGReg K) : List (Text × Option Text) :=
  [("name".toList, r.name.map ('n' :: ·)), ("from".toList, r.source.map ('n' :: ·)), ("to".toList, r.sink.map ('n' :: ·)),
    ("configuration".toList, r.name.bind (configOf names))]

theorem regAttrs_flat (names : List (Option Text × Text)) (r : WGReg K) : regEntries names r = flatEntries (regAttrs names r) := by
  unfold regEntries regAttrs flatEntries
  simp only [List.flatMap_cons, List.flatMap_nil, List.append_nil, List.append_assoc]

/-- the object of a regulator -/
def regDecl (names : List (Option Text × Text)) (r : WGReg K) : Decl := ⟨"regulator".toList, none, regEntries names r⟩

theorem regDecl_value {names : List (Option Text × Text)} {r : WGReg K} {k : Text} {o : Option Text} (h : (k, o) ∈ regAttrs names r) :
    lastValue (regDecl names r).statements k = o := by
  show lastValue (regEntries names r) k = o
  rw [regAttrs_flat]
  refine flat_value ?_ h
  show ["name".toList, "from".toList, "to".toList, "configuration".toList].Nodup
  decide

theorem reg_written {names : List (Option Text × Text)} {r : WGReg K} {name : Text} (h : WritableReg trafos r name) :
    RegWritten (configOf names) r name (regDecl names r) := by
  refine ⟨rfl, ?_, ?_, ?_, ?_, ?_⟩
  · unfold nameOf
    rw [regDecl_value (o := some ('n' :: name)) (by unfold regAttrs; rw [h.named]; exact .head _)]
  · unfold attrOf
    rw [if_neg (by decide)]
    exact regDecl_value (.tail _ (.head _))
  · unfold attrOf
    rw [if_neg (by decide)]
    exact regDecl_value (.tail _ (.tail _ (.head _)))
  · unfold attrOf
    rw [if_neg (by decide)]
    refine regDecl_value ?_
    unfold regAttrs
    rw [h.named]
    exact .tail _ (.tail _ (.tail _ (.head _)))
  · unfold attrOf
    rw [if_neg (by decide)]
    refine lastValue_none ?_
    rintro ⟨k, v⟩ hp e
    have hp : (k, v) ∈ regEntries names r := hp
    rw [regAttrs_flat] at hp
    have hk : k ∈ (regAttrs names r).map (·.1) := List.mem_map.mpr ⟨_, mem_flat.mp hp, rfl⟩
    have hk : k ∈ ["name".toList, "from".toList, "to".toList, "configuration".toList] := hk
    have e : k = "phases".toList := e
    rw [e] at hk
    exact absurd hk (by decide)

theorem reg_tokens {names : List (Option Text × Text)} (hn : ∀ n t, configOf names n = some t → Token t) {r : WGReg K} {name : Text}
    (h : WritableReg trafos r name) : ∀ p ∈ regEntries names r, Word p.1 ∧ Plain p.1 ∧ Token p.2 := by
  rintro ⟨k, v⟩ hp
  rw [regAttrs_flat] at hp
  have hp := mem_flat.mp hp
  have hk : k ∈ ["name".toList, "from".toList, "to".toList, "configuration".toList] := by
    have : k ∈ (regAttrs names r).map (·.1) := List.mem_map.mpr ⟨_, hp, rfl⟩
    exact this
  refine ⟨?_, ?_, ?_⟩
  · exact (show ∀ k ∈ ["name".toList, "from".toList, "to".toList, "configuration".toList], k ≠ [] ∧ ∀ c ∈ k, c.isWhitespace = false by decide) k hk
  · exact (show ∀ k ∈ ["name".toList, "from".toList, "to".toList, "configuration".toList],
      k ≠ "object".toList ∧ k ≠ "schedule".toList ∧ ¬['/', '/'] <+: k by decide) k hk
  · unfold regAttrs at hp
    simp only [List.mem_cons, List.not_mem_nil, or_false, Prod.mk.injEq] at hp
    rcases hp with ⟨-, e⟩ | ⟨-, e⟩ | ⟨-, e⟩ | ⟨-, e⟩
    · rw [h.named] at e
      cases e
      exact h.token
    · obtain ⟨x, hx, rfl⟩ := Option.map_eq_some_iff.mp e.symm
      exact h.source x hx
    · obtain ⟨x, hx, rfl⟩ := Option.map_eq_some_iff.mp e.symm
      exact h.sink x hx
    · rw [h.named] at e
      exact hn name v e.symm

theorem reg_lays {names : List (Option Text × Text)} (hn : ∀ n t, configOf names n = some t → Token t) {rs : List (WGReg K)}
    (h : ∀ r ∈ rs, ∃ name, WritableReg trafos r name) :
    BraceLays (rs.flatMap (regRows names)) (rs.map (regDecl names)) ∧ NoInclude (rs.flatMap (regRows names)) := by
  induction rs with
  | nil => exact ⟨.nil, (fun _ h => by cases h)⟩
  | cons r rs ih =>
    obtain ⟨a, b⟩ := ih fun x hx => h x (List.mem_cons_of_mem _ hx)
    obtain ⟨name, hw⟩ := h r List.mem_cons_self
    have hb := entries_body (reg_tokens hn hw)
    have hblock : BraceBlock ("object regulator{".toList :: (((regEntries names r).map fun p => entryRow four p.1 p.2) ++ ["};".toList]))
        (regDecl names r) := ⟨_, _, _, rfl, ⟨(show ':' ∉ "regulator".toList by decide), rfl,
          splits_of (show words "object regulator{".toList = ["object".toList, "regulator".toList ++ ['{']] by decide +kernel)⟩, hb.1, Or.inr (splits_of rfl)⟩
    rw [List.flatMap_cons, List.map_cons]
    refine ⟨?_, noInclude_append ?_ b⟩
    · have : regRows names r = ("object regulator{".toList :: (((regEntries names r).map fun p => entryRow four p.1 p.2) ++ ["};".toList])) ++ [[]] := by
        unfold regRows
        simp only [List.cons_append, List.append_assoc]
        rfl
      rw [this, List.append_assoc]
      exact .block hblock (.blank (Or.inl (splits_of rfl)) a)
    · unfold regRows
      have h3 : NoInclude ["object regulator{".toList] := by unfold NoInclude; decide
      have h4 : NoInclude ["};".toList, []] := by unfold NoInclude; decide
      exact noInclude_append (noInclude_append h3 (indented_plain hb.2)) h4

theorem loop_tokens {rs : List (WGReg K)} : ∀ n t, configOf (regConfigs shown showInt trafos {} rs).names n = some t → Token t := by
  have h := reg_loop (shown := shown) (showInt := showInt) (trafos := trafos) rs
  intro n t ht
  unfold configOf at ht
  obtain ⟨q, h1, h2⟩ := Option.map_eq_some_iff.mp ht
  obtain ⟨e, he, hn⟩ := List.mem_map.mp (h.known q (List.mem_of_find?_eq_some h1))
  obtain ⟨i, hi⟩ := loop_name h he
  rw [← h2, ← hn, hi]
  exact regName_token i

/-- C106, partial: in the first file of a process, if no two regulators have ends that give the same text when joined by an underscore, then each regulator is written as
an object with its name, its ends, and the name of a configuration of the file that has its settings. The phases are not written, and the brace follows the class
directly. Missing: that ditto can read this (`C106_unreadable_violated`), regulators in parallel (`C106_parallel_violated`), and what is missing in
`C106_configurations_partial`. -/
theorem C106_written_partial (ho : ∀ l, (order l).Perm l) (hs : Numbers shown flt) (hi : Numbers showInt int) {rs : List (WGReg K)}
    (hw : ∀ r ∈ rs, ∃ name, WritableReg trafos r name) (hone : ∀ r ∈ rs, ∀ r' ∈ rs, ∀ n, r.name = some n → r'.name = some n → r = r')
    (hends : rs.Pairwise fun r r' => ∀ e, JoinedEnds r e → ¬JoinedEnds r' e) :
    ∃ cs ds, Lays (regConfigRows order (regConfigs shown showInt trafos {} rs)) cs ∧
      BraceLays (writeRegRows (regConfigs shown showInt trafos {} rs).names [] rs).2 ds ∧
      NoInclude (writeRegRows (regConfigs shown showInt trafos {} rs).names [] rs).2 ∧
      List.Forall₂ (fun r d => ∀ n, r.name = some n → RegWritten (configOf (regConfigs shown showInt trafos {} rs).names) r n d ∧
        ∃ c ∈ cs, nameOf c = attrOf d "configuration".toList ∧ (nameOf c).isSome ∧ RegConfigWritten flt int r c) rs ds := by
  obtain ⟨cs, h1, -, -, h4, -⟩ := C106_configurations_partial (order := order) ho hs hi hw hone
  have hnd : (rs.filterMap regEnds).Nodup := by
    refine List.pairwise_filterMap.mpr (hends.imp ?_)
    intro r r' h e he e' he' heq
    subst heq
    exact h e (joined_iff.mpr he) (joined_iff.mpr he')
  rw [regRows_all _ hnd (fun _ _ _ _ h => by cases h)]
  obtain ⟨k1, k2⟩ := reg_lays (loop_tokens (shown := shown) (showInt := showInt) (trafos := trafos) (rs := rs)) hw
  refine ⟨cs, _, h1, k1, k2, ?_⟩
  rw [List.forall₂_map_right_iff, List.forall₂_same]
  intro r hr n hn
  obtain ⟨name, hwr⟩ := hw r hr
  have e := hwr.named
  rw [hn] at e
  cases e
  have hwritten := reg_written (names := (regConfigs shown showInt trafos {} rs).names) hwr
  obtain ⟨c, hc, m, e1, e2, e3⟩ := h4 r hr n hn
  exact ⟨hwritten, c, hc, by rw [e1, hwritten.configuration, e2], by rw [e1]; rfl, e3⟩

/-- C106 violated: a regulator is left out if the ends of a regulator before it, joined by an underscore, give the same text. This holds for regulators in parallel, and
for different ends with underscores in their names. -/
theorem C106_parallel_violated (names : List (Option Text × Text)) (seen : List Text) {pre post : List (WGReg K)} {r r' : WGReg K} {e : Text} (hr : r ∈ pre)
    (he : JoinedEnds r e) (he' : JoinedEnds r' e) : writeRegRows names seen (pre ++ r' :: post) = writeRegRows names seen (pre ++ post) := by
  rw [regRows_append, regRows_append]
  have hm : e ∈ (writeRegRows names seen pre).1 := (seen_iff names seen pre e).mpr (Or.inr ⟨r, hr, joined_iff.mp he⟩)
  have : writeRegRows names (writeRegRows names seen pre).1 (r' :: post) = writeRegRows names (writeRegRows names seen pre).1 post := by
    rw [writeRegRows, joined_iff.mp he']
    dsimp only
    rw [if_pos hm]
  rw [this]

/-- C106 violated: the ends are kept for the next file. If the same regulators, or some of them, are written again, the next file has no regulators. -/
theorem C106_second_violated (names names' : List (Option Text × Text)) {rs rs' : List (WGReg K)} (hsub : ∀ r ∈ rs', r ∈ rs) (hends : ∀ r ∈ rs', ∃ e, JoinedEnds r e) :
    (writeRegRows names' (writeRegRows names [] rs).1 rs').2 = [] := by
  have key : ∀ (seen : List Text) (l : List (WGReg K)), (∀ r ∈ l, ∃ e ∈ seen, regEnds r = some e) → (writeRegRows names' seen l).2 = [] := by
    intro seen l h
    induction l with
    | nil => rfl
    | cons r l ih =>
      obtain ⟨e, h1, h2⟩ := h r List.mem_cons_self
      rw [writeRegRows, h2]
      dsimp only
      rw [if_pos h1]
      exact ih fun x hx => h x (List.mem_cons_of_mem _ hx)
  refine key _ rs' ?_
  intro r hr
  obtain ⟨e, he⟩ := hends r hr
  exact ⟨e, (seen_iff names [] rs e).mpr (Or.inr ⟨r, hsub r hr, joined_iff.mp he⟩), joined_iff.mp he⟩

/-- C106 violated: a file with a regulator cannot be read by ditto, since the class of the object is taken with the brace -/
theorem C106_unreadable_violated {schema : Schema} {names : List (Option Text × Text)} (hn : ∀ n t, configOf names n = some t → Token t) {rs : List (WGReg K)}
    (h : ∀ r ∈ rs, ∃ name, WritableReg trafos r name) (hne : rs ≠ []) (hschema : schema "regulator{".toList = none) {pre post : List Text} {before : List Decl}
    (hpre : Lays pre before) (hg : ∀ d ∈ before, Good schema d) (hi : NoInclude pre) (hi' : NoInclude post) (due : List Text → Py Bool)
    (files : Text → Option (List Text)) : readGlm schema due files [] (pre ++ (writeRegRows names [] rs).2 ++ post) = .error .attributeError := by
  have hplain : ∀ (l : List (WGReg K)) (seen : List Text), (∀ r ∈ l, ∃ name, WritableReg trafos r name) → NoInclude (writeRegRows names seen l).2 := by
    intro l
    induction l with
    | nil => intro seen _ row hrow; cases hrow
    | cons r l ih =>
      intro seen hl
      have ht := fun seen => ih seen fun x hx => hl x (List.mem_cons_of_mem _ hx)
      have hr := (reg_lays hn (trafos := trafos) (rs := [r]) fun x hx => by rw [List.mem_singleton.mp hx]; exact hl r List.mem_cons_self).2
      rw [List.flatMap_cons, List.flatMap_nil, List.append_nil] at hr
      rw [writeRegRows]
      cases regEnds r with
      | none => exact noInclude_append hr (ht _)
      | some e =>
        dsimp only
        split
        · exact ht _
        · exact noInclude_append hr (ht _)
  cases rs with
  | nil => exact absurd rfl hne
  | cons r l =>
    have hp := hplain (r :: l) [] h
    have hrows : ∃ rest, (writeRegRows names [] (r :: l)).2 = regRows names r ++ rest := by
      rw [writeRegRows]
      cases regEnds r with
      | none => exact ⟨_, rfl⟩
      | some e =>
        dsimp only
        rw [if_neg (by intro h; cases h)]
        exact ⟨_, rfl⟩
    obtain ⟨rest, hrest⟩ := hrows
    rw [hrest] at hp ⊢
    have hcat : pre ++ (regRows names r ++ rest) ++ post = pre ++ ["object regulator{".toList] ++
        (((regEntries names r).map fun p => entryRow four p.1 p.2) ++ ["};".toList, []] ++ rest ++ post) := by
      unfold regRows
      simp only [List.cons_append, List.append_assoc, List.nil_append]
    have hni := noInclude_append (noInclude_append hi hp) hi'
    rw [hcat] at hni ⊢
    exact C71_class_violated due files hpre hg [] hni
      (splits_of (show words "object regulator{".toList = ["object".toList, "regulator{".toList] by decide +kernel)) (by decide) (by decide) hschema

end numbers
/-! ### examples -/

/-- whole numbers as strokes -/
def exIntStrokes (n : Int) : Text := List.replicate (Encodable.encode n) '1'

/-- reading strokes as whole numbers -/
def exIntUnstroke (t : Text) : Option Int := Encodable.decode t.length

theorem ex_int_strokes : Numbers exIntStrokes exIntUnstroke := by
  refine ⟨fun x => ?_, fun x => ⟨?_, ?_⟩⟩
  · unfold exIntStrokes exIntUnstroke
    rw [List.length_replicate]
    exact Encodable.encodek x
  · intro c hc
    rw [(List.mem_replicate.mp hc).2]
    decide
  · intro h
    have := List.mem_of_getLast? h
    have := (List.mem_replicate.mp this).2
    exact absurd this (by decide)

/-- two regulators with the same settings and different taps, the second one with the windings of its transformers, and one with other settings -/
def exWRFirst : WGReg ℚ :=
  ⟨some "1".toList, some "a".toList, some "b".toList, some 30, some 16, none, some 20, none, some 2, some 120, some "A".toList, none,
    [⟨some "A".toList, some 3, some 1, some 2⟩, ⟨none, some 9, none, none⟩, ⟨some "B".toList, none, none, some 5⟩]⟩
def exWRSame : WGReg ℚ :=
  ⟨some "2".toList, some "b".toList, some "c".toList, some 30, some 16, some 16, some 20, none, some 2, some 120, some "A".toList, some "t".toList, []⟩
def exWROther : WGReg ℚ := ⟨some "3".toList, none, some "d".toList, none, none, some 8, none, some 7, none, none, none, none, []⟩

/-- the transformers, two of which have the same name -/
def exWRTrafos : List (Option Text × List (WGRegPhase ℚ)) :=
  [(some "t".toList, [⟨some "A".toList, some 4, none, none⟩]), (some "u".toList, [⟨some "A".toList, some 5, none, none⟩]),
    (some "t".toList, [⟨some "A".toList, some 6, none, none⟩, ⟨some "C".toList, none, none, none⟩])]

theorem exWR_writable : ∀ r ∈ [exWRFirst, exWRSame, exWROther], ∃ name, WritableReg exWRTrafos r name := by
  have htok : ∀ x ∈ ["1".toList, "2".toList, "3".toList, "a".toList, "b".toList, "c".toList, "d".toList], Token ('n' :: x) := by
    unfold Token
    decide
  have hA : Token "A".toList := by unfold Token; decide
  have hset : ∀ r ∈ [exWRFirst, exWRSame, exWROther], ∀ w ∈ regSettings exWRTrafos r, ∀ c ∈ w.phase.getD [], c.isWhitespace = false := by decide +kernel
  have hset' : ∀ r ∈ [exWRFirst, exWRSame, exWROther], ∀ l, SettingsOf exWRTrafos r l → ∀ w ∈ l, ∀ p, w.phase = some p → ∀ c ∈ p, c.isWhitespace = false := by
    intro r hr l hl w hw p hp c hc
    rw [settings_of.mp hl] at hw
    exact hset r hr w hw c (by rw [hp]; exact hc)
  intro r hr
  have hp := hset' r hr
  simp only [List.mem_cons, List.not_mem_nil, or_false] at hr
  rcases hr with rfl | rfl | rfl
  · exact ⟨_, rfl, htok _ (by decide), (fun x hx => by cases hx; exact htok _ (by decide)), (fun x hx => by cases hx; exact htok _ (by decide)),
      (fun x hx => by cases hx; exact hA), hp⟩
  · exact ⟨_, rfl, htok _ (by decide), (fun x hx => by cases hx; exact htok _ (by decide)), (fun x hx => by cases hx; exact htok _ (by decide)),
      (fun x hx => by cases hx; exact hA), hp⟩
  · exact ⟨_, rfl, htok _ (by decide), (fun x hx => by cases hx), (fun x hx => by cases hx; exact htok _ (by decide)), (fun x hx => by cases hx), hp⟩

theorem exWR_once : ∀ t ∈ [exWRFirst, exWRSame, exWROther], ∀ t' ∈ [exWRFirst, exWRSame, exWROther], ∀ n, t.name = some n → t'.name = some n → t = t' := by
  have key : ∀ t ∈ [exWRFirst, exWRSame, exWROther], ∀ t' ∈ [exWRFirst, exWRSame, exWROther], t.name = t'.name → t = t' := by decide +kernel
  intro t ht t' ht' n h h'
  exact key t ht t' ht' (h.trans h'.symm)

theorem exWR_same : SameSettings exWRFirst exWRSame := ⟨rfl, rfl, rfl, rfl, rfl, rfl, rfl, rfl⟩

/-- with the items from the last to the first -/
example : ∃ cs ds, Lays (regConfigRows List.reverse (regConfigs exStrokes exIntStrokes exWRTrafos {} [exWRFirst, exWRSame, exWROther])) cs ∧
    BraceLays (writeRegRows (regConfigs exStrokes exIntStrokes exWRTrafos {} [exWRFirst, exWRSame, exWROther]).names [] [exWRFirst, exWRSame, exWROther]).2 ds ∧
    NoInclude (writeRegRows (regConfigs exStrokes exIntStrokes exWRTrafos {} [exWRFirst, exWRSame, exWROther]).names [] [exWRFirst, exWRSame, exWROther]).2 ∧
    List.Forall₂ (fun r d => ∀ n, r.name = some n →
      RegWritten (configOf (regConfigs exStrokes exIntStrokes exWRTrafos {} [exWRFirst, exWRSame, exWROther]).names) r n d ∧
      ∃ c ∈ cs, nameOf c = attrOf d "configuration".toList ∧ (nameOf c).isSome ∧ RegConfigWritten exUnstroke exIntUnstroke r c)
      [exWRFirst, exWRSame, exWROther] ds := by
  refine C106_written_partial List.reverse_perm ex_strokes ex_int_strokes exWR_writable exWR_once ?_
  have key : [exWRFirst, exWRSame, exWROther].Pairwise fun r r' => regEnds r = none ∨ regEnds r ≠ regEnds r' := by decide +kernel
  refine key.imp ?_
  intro r r' h e he he'
  rw [joined_iff] at he he'
  rcases h with h | h
  · rw [h] at he; cases he
  · exact h (he.trans he'.symm)

/-- the first and the second one share a configuration -/
example : configOf (regConfigs exStrokes exIntStrokes exWRTrafos {} [exWRFirst, exWRSame, exWROther]).names "1".toList =
      configOf (regConfigs exStrokes exIntStrokes exWRTrafos {} [exWRFirst, exWRSame, exWROther]).names "2".toList ∧
    (configOf (regConfigs exStrokes exIntStrokes exWRTrafos {} [exWRFirst, exWRSame, exWROther]).names "1".toList).isSome :=
  C106_shared exWR_once (.head _) (.tail _ (.head _)) rfl rfl exWR_same

example (h : configOf (regConfigs exStrokes exIntStrokes exWRTrafos {} [exWRFirst, exWRSame, exWROther]).names "1".toList =
    configOf (regConfigs exStrokes exIntStrokes exWRTrafos {} [exWRFirst, exWRSame, exWROther]).names "3".toList) : False := by
  cases (C106_distinct ex_strokes ex_int_strokes exWR_once (r := exWRFirst) (r' := exWROther) (.head _) (.tail _ (.tail _ (.head _))) rfl rfl h).delay

/-- the tap 6 of the second one, not the tap 3 of the first one -/
example : ∃ cs, Lays (regConfigRows id (regConfigs exStrokes exIntStrokes exWRTrafos {} ([exWRFirst] ++ [exWRSame]))) cs ∧ ∃ c ∈ cs,
    configOf (regConfigs exStrokes exIntStrokes exWRTrafos {} ([exWRFirst] ++ [exWRSame])).names "1".toList = nameOf c ∧
    RegConfigWritten exUnstroke exIntUnstroke exWRFirst c ∧ Value exUnstroke c "tap_pos_A".toList 6 :=
  C106_taps_violated (fun _ => .refl _) ex_strokes ex_int_strokes (pre := [exWRFirst]) (r' := exWRSame) (.head _)
    (fun x hx => exWR_writable x (by
      rcases List.mem_cons.mp hx with rfl | hx
      · exact .head _
      · rw [List.mem_singleton.mp hx]; exact .tail _ (.head _)))
    (fun x hx y hy => exWR_once x (by
      rcases List.mem_cons.mp hx with rfl | hx
      · exact .head _
      · rw [List.mem_singleton.mp hx]; exact .tail _ (.head _)) y (by
      rcases List.mem_cons.mp hy with rfl | hy
      · exact .head _
      · rw [List.mem_singleton.mp hy]; exact .tail _ (.head _)))
    rfl exWR_same (SettingsOf.transformer (n := "t".toList) rfl) (a := [⟨some "A".toList, some 4, none, none⟩]) (w := ⟨some "A".toList, some 6, none, none⟩)
    (b := [⟨some "C".toList, none, none, none⟩]) rfl (by decide) rfl

/-- the second file has two configurations with the name `regulator_config_1` -/
example : ∃ e ∈ (regConfigs exStrokes exIntStrokes exWRTrafos (regConfigs exStrokes exIntStrokes exWRTrafos {} [exWRFirst]) [exWRSame, exWROther]).configs,
    ∃ f ∈ (regConfigs exStrokes exIntStrokes exWRTrafos (regConfigs exStrokes exIntStrokes exWRTrafos {} [exWRFirst]) [exWRSame, exWROther]).configs,
      e.name = f.name ∧ e.items ≠ f.items :=
  (C106_again_violated ex_strokes ex_int_strokes (by simp) (r' := exWROther) (.tail _ (.head _)) (by
    intro r hr h
    rw [List.mem_singleton.mp hr] at h
    cases h.delay)).2

/-- the tap of the phase `C` is not known -/
example : ∃ cs, Lays (regConfigRows id (regConfigs exStrokes exIntStrokes exWRTrafos {} ([] ++ [exWRSame]))) cs ∧ ∃ c ∈ cs,
    configOf (regConfigs exStrokes exIntStrokes exWRTrafos {} ([] ++ [exWRSame])).names "2".toList = nameOf c ∧
    RegConfigWritten exUnstrokes exIntUnstroke exWRSame c ∧ ∃ t, attrOf c "tap_pos_C".toList = some t ∧ exUnstrokes t = none :=
  C106_none_violated (fun _ => .refl _) ex_unstrokes ex_int_strokes rfl (pre := []) (r := exWRSame)
    (fun x hx => exWR_writable x (by rw [List.mem_singleton.mp hx]; exact .tail _ (.head _)))
    (fun x hx y hy _ _ _ => by rw [List.mem_singleton.mp hx, List.mem_singleton.mp hy])
    rfl (SettingsOf.transformer (n := "t".toList) rfl) (a := [⟨some "A".toList, some 4, none, none⟩, ⟨some "A".toList, some 6, none, none⟩])
    (w := ⟨some "C".toList, none, none, none⟩) (b := []) rfl (by decide) rfl

/-- the ends `a_b` and `c` are taken for the ends `a` and `b_c` -/
example : writeRegRows [] [] [{ exWRFirst with source := some "a_b".toList, sink := some "c".toList }, { exWRSame with source := some "a".toList, sink := some "b_c".toList }] =
    writeRegRows [] [] [{ exWRFirst with source := some "a_b".toList, sink := some "c".toList }] :=
  C106_parallel_violated [] [] (pre := [{ exWRFirst with source := some "a_b".toList, sink := some "c".toList }]) (post := []) (.head _)
    (e := "a_b_c".toList) ⟨_, _, rfl, rfl, rfl⟩ ⟨_, _, rfl, rfl, rfl⟩

/-- the first one has such a phase -/
example : exWRFirst.ptPhase = some "A".toList ∧
    ∃ cs, Lays (regConfigRows id (regConfigs exStrokes exIntStrokes exWRTrafos {} [exWRFirst, exWRSame, exWROther])) cs ∧
      ∀ c ∈ cs, ∀ d r', RegConfigSays exUnstroke exIntUnstroke d c r' → r'.ptPhase = none :=
  ⟨rfl, C106_pt_violated (fun _ => .refl _) ex_strokes.token ex_int_strokes.token exWR_writable⟩

/-- what the reader says about the first one -/
example (c d : Decl) (r' : GReadReg ℚ) (h : RegConfigWritten exUnstroke exIntUnstroke exWRFirst c) (h' : RegConfigSays exUnstroke exIntUnstroke d c r') :
    r'.delay = some 30 ∧ r'.highstep = some 16 ∧ r'.lowstep = some 16 ∧ r'.connection = some 'Y' := by
  obtain ⟨h1, h2, h3, -, -, -, -, h8⟩ := C106_meaning h h'
  exact ⟨h1, h2, h3, h8⟩

example : ∃ cs, Lays (regConfigRows id (regConfigs exStrokes exIntStrokes exWRTrafos {} [exWRFirst, exWRSame, exWROther])) cs ∧
    ∀ c ∈ cs, ∀ p, attrOf c ("compensator_x_setting_".toList ++ p) = none :=
  C106_reactance_violated (fun _ => .refl _) ex_strokes.token ex_int_strokes.token exWR_writable

example (names names' : List (Option Text × Text)) : (writeRegRows names' (writeRegRows names [] [exWRFirst, exWRSame, exWROther]).1 [exWRSame, exWRFirst]).2 = [] :=
  C106_second_violated names names' (by decide +kernel) (by
    intro r hr
    rcases List.mem_cons.mp hr with rfl | hr
    · exact ⟨_, _, _, rfl, rfl, rfl⟩
    · rw [List.mem_singleton.mp hr]; exact ⟨_, _, _, rfl, rfl, rfl⟩)

example (due : List Text → Py Bool) (files : Text → Option (List Text)) :
    readGlm (fun _ => none) due files [] ([] ++ (writeRegRows [] [] [exWRFirst, exWRSame, exWROther]).2 ++ []) = .error .attributeError :=
  C106_unreadable_violated (fun n t h => by cases h) exWR_writable (by simp) rfl .nil (fun d h => by cases h) (fun d h => by cases h) (fun d h => by cases h) due files

end Ditto.Glm
