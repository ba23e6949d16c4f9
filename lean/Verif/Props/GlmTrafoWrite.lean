import Verif.Lemmas.GlmTrafoWrite
import Verif.Props.GlmLines
import Verif.Props.GlmTrafos

/-! C104: transformers in the GridLAB-D writer. -/
namespace Ditto.Glm
open Ditto Glm.Spec

section numbers
variable {K : Type} [Field K] {shown : K → Text} {flt : Text → Option K}

/-! ### the configurations -/

/-- the object of a configuration -/
def trafoConfigDecl (p : List (Text × Text) × Text) : Decl := ⟨"transformer_configuration".toList, none, setEntry "name".toList p.2 p.1⟩

theorem base_mem {t : WGTrafo K} {d : List (Text × Text)} (h : trafoDict shown t = .ok d) {k v : Text} (hm : getEntry k d = some v) : k ∈ configKeys := by
  by_contra hk
  unfold configKeys at hk
  simp only [List.mem_cons, List.not_mem_nil, or_false, not_or] at hk
  obtain ⟨k1, k2, k3, k4, k5, k6, k7, k8⟩ := hk
  rw [get_base h k8 k7] at hm
  have h0 := start_get (shown := shown) t k
  rw [if_neg k2, if_neg k1] at h0
  rcases windings_cases t with hw | ⟨w1, w2, ws, hw⟩
  · rw [base_few hw, h0] at hm
    cases hm
  · rw [base_two hw, winding_get, if_neg k6, if_neg (by split <;> assumption), if_neg (by split <;> assumption), if_neg k3, h0] at hm
    cases hm

theorem config_attr {p : List (Text × Text) × Text} (hn : (p.1.map (·.1)).Nodup) {k : Text} (hk : k ≠ "name".toList) :
    attrOf (trafoConfigDecl p) k = getEntry k p.1 := by
  unfold attrOf
  rw [if_neg hk]
  show lastValue (setEntry "name".toList p.2 p.1) k = _
  rw [lastValue_nodup (setEntry_nodup _ _ hn), ← getEntry_find, getEntry_setEntry, if_neg hk]

theorem trafo_config_name {p : List (Text × Text) × Text} (hn : (p.1.map (·.1)).Nodup) : nameOf (trafoConfigDecl p) = some p.2 := by
  unfold nameOf trafoConfigDecl
  dsimp only
  rw [lastValue_nodup (setEntry_nodup _ _ hn), ← getEntry_find, getEntry_setEntry, if_pos rfl]

theorem optional_of {d : Decl} {k : Text} (hs : ∀ x, flt (shown x) = some x) {o : Option K} (h : attrOf d k = o.map shown) : Optional flt d k o := by
  cases o with
  | none => exact h
  | some x => exact ⟨_, h, hs x⟩

theorem or_none' (o : Option Text) : o.or none = o := by cases o <;> rfl

theorem connect_none {n : Nat} {w1 w2 : WGWinding K} (h3 : n ≠ 3) (h : w1.connection = none ∨ w2.connection = none) : connectType n w1 w2 = none := by
  unfold connectType
  rw [if_neg h3]
  split
  · rename_i a b ha hb
    rcases h with h | h
    · rw [h] at ha; cases ha
    · rw [h] at hb; cases hb
  · rfl

theorem connect_known {n : Nat} {w1 w2 : WGWinding K} (h3 : n ≠ 3) {a b : Text} (ha : w1.connection = some a) (hb : w2.connection = some b) :
    connectType n w1 w2 = connectWord a b := by
  unfold connectType
  rw [if_neg h3, ha, hb]

theorem connect_tapped {n : Nat} {w1 w2 : WGWinding K} : connectType n w1 w2 = some "SINGLE_PHASE_CENTER_TAPPED".toList ↔ n = 3 := by
  constructor
  · intro h
    by_contra h3
    unfold connectType at h
    rw [if_neg h3] at h
    split at h
    · unfold connectWord at h
      split at h
      · split at h
        · exact absurd h (by decide)
        split at h
        · exact absurd h (by decide)
        · cases h
      split at h
      · split at h
        · exact absurd h (by decide)
        split at h
        · exact absurd h (by decide)
        · cases h
      · cases h
    · cases h
  · intro h
    unfold connectType
    rw [if_pos h]

/-- the configuration says what it should -/
theorem trafo_config_says (hs : Numbers shown flt) (h1000 : (1000 : K) ≠ 0) {p : List (Text × Text) × Text} {t : WGTrafo K} {d : List (Text × Text)}
    (h : trafoDict shown t = .ok d) (hn : (p.1.map (·.1)).Nodup) (hp : ∀ k, getEntry k p.1 = getEntry k d) : TrafoConfigSays flt t (trafoConfigDecl p) := by
  have hattr : ∀ k : Text, k ≠ "name".toList → attrOf (trafoConfigDecl p) k = getEntry k d := fun k hk => by rw [config_attr hn hk, hp]
  have hbase : ∀ k : Text, k ≠ "name".toList → k ≠ "resistance".toList → k ≠ "reactance".toList →
      attrOf (trafoConfigDecl p) k = getEntry k (baseDict shown t) := fun k a b c => by rw [hattr k a, get_base h b c]
  have hstart : ∀ k : Text, k = "install_type".toList ∨ k = "no_load_loss".toList → getEntry k (baseDict shown t) =
      if k = "no_load_loss".toList then t.loss.map shown else if k = "install_type".toList then t.install else none := by
    intro k hk
    rw [← start_get]
    rcases windings_cases t with hw | ⟨w1, w2, ws, hw⟩
    · rw [base_few hw]
    · rw [base_two hw, winding_get, if_neg (by rcases hk with rfl | rfl <;> decide),
        if_neg (by rcases hk with rfl | rfl <;> split <;> decide), if_neg (by rcases hk with rfl | rfl <;> split <;> decide),
        if_neg (by rcases hk with rfl | rfl <;> decide)]
  refine ⟨rfl, ?_, ?_, ?_, ?_, ?_, ?_, ?_⟩
  · rw [hbase _ (by decide) (by decide) (by decide), hstart _ (Or.inl rfl), if_neg (by decide), if_pos rfl]
  · refine optional_of hs.inverse ?_
    rw [hbase _ (by decide) (by decide) (by decide), hstart _ (Or.inr rfl), if_pos rfl]
  · intro w1 w2 ws hw
    have hget : ∀ k ∈ ["connect_type".toList, "primary_voltage".toList, "secondary_voltage".toList, "power_rating".toList],
        attrOf (trafoConfigDecl p) k = getEntry k (windingDict shown (ws.length + 2) w1 w2
          (setSome "no_load_loss".toList (t.loss.map shown) (setSome "install_type".toList t.install []))) ∧
        getEntry k (setSome "no_load_loss".toList (t.loss.map shown) (setSome "install_type".toList t.install [])) = none := by
      intro k hk
      obtain ⟨k1, k2, k3, k4, k5⟩ := (show ∀ k ∈ ["connect_type".toList, "primary_voltage".toList, "secondary_voltage".toList, "power_rating".toList],
        k ≠ "name".toList ∧ k ≠ "resistance".toList ∧ k ≠ "reactance".toList ∧ k ≠ "no_load_loss".toList ∧ k ≠ "install_type".toList by decide) k hk
      refine ⟨by rw [hbase k k1 k2 k3, base_two hw], ?_⟩
      rw [start_get, if_neg k4, if_neg k5]
    have hconn : attrOf (trafoConfigDecl p) "connect_type".toList = connectType (ws.length + 2) w1 w2 := by
      obtain ⟨h1, h2⟩ := hget "connect_type".toList (.head _)
      rw [h1, winding_get, h2, if_neg (by decide), if_neg (by split <;> decide), if_neg (by split <;> decide), if_pos rfl, or_none']
    have hpow : attrOf (trafoConfigDecl p) "power_rating".toList = w1.power.map fun p => shown (p / 1000) := by
      obtain ⟨h1, h2⟩ := hget "power_rating".toList (.tail _ (.tail _ (.tail _ (.head _))))
      rw [h1, winding_get, h2, if_pos rfl, or_none']
    obtain ⟨p1, p2⟩ := hget "primary_voltage".toList (.tail _ (.head _))
    obtain ⟨s1, s2⟩ := hget "secondary_voltage".toList (.tail _ (.tail _ (.head _)))
    rw [winding_get, p2, if_neg (by decide)] at p1
    rw [winding_get, s2, if_neg (by decide)] at s1
    refine ⟨?_, ?_, ?_, ?_, ?_, ?_⟩
    · unfold Tapped
      rw [hconn, connect_tapped]
      omega
    · intro hne a b ha hb hm
      rw [hconn, connect_known (by omega) ha hb]
      simp only [List.mem_cons, List.not_mem_nil, or_false, Prod.mk.injEq] at hm
      rcases hm with ⟨rfl, rfl⟩ | ⟨rfl, rfl⟩ | ⟨rfl, rfl⟩
      · exact .wye
      · exact .delta
      · exact .mixed
    · intro hne hnone
      rw [hconn, connect_none (by omega) hnone]
    · intro h1 h2
      rw [if_neg h1, if_neg h2, if_neg (by decide), if_pos rfl, or_none'] at p1
      rw [if_neg h1, if_neg h2, if_pos rfl, if_neg (by decide), or_none'] at s1
      exact ⟨optional_of hs.inverse p1, optional_of hs.inverse s1⟩
    · intro h1 h2
      rw [if_pos h1, if_pos h2, if_pos rfl, if_neg (by decide), or_none'] at p1
      rw [if_pos h1, if_pos h2, if_neg (by decide), if_pos rfl, or_none'] at s1
      exact ⟨optional_of hs.inverse p1, optional_of hs.inverse s1⟩
    · cases hq : w1.power with
      | none => exact Or.inl ⟨rfl, by rw [hpow, hq]; rfl⟩
      | some q =>
        refine Or.inr ⟨q, q / 1000, rfl, ⟨_, by rw [hpow, hq]; rfl, hs.inverse _⟩, ?_⟩
        field_simp
  · intro hw k hk
    obtain ⟨k1, k2, k3, k4, k5⟩ := (show ∀ k ∈ ["connect_type".toList, "primary_voltage".toList, "secondary_voltage".toList, "power_rating".toList],
      k ≠ "name".toList ∧ k ≠ "resistance".toList ∧ k ≠ "reactance".toList ∧ k ≠ "no_load_loss".toList ∧ k ≠ "install_type".toList by decide) k hk
    rw [hbase k k1 k2 k3, base_few hw, start_get, if_neg k4, if_neg k5]
  · intro w1 w2 x r1 r2 hw hx hr1 hr2
    rw [trafoDict_base] at h
    rcases impedance_cases (shown := shown) t (baseDict shown t) with ⟨v1, v2, y, q1, q2, hv, hy, hq1, hq2, e⟩ | ⟨hno, -, -⟩ | ⟨v1, v2, y, hv, -, hq, -⟩ |
      ⟨v1, v2, v3, hv, -, -⟩
    · rw [hw] at hv
      rw [hx] at hy
      cases hv
      cases hy
      rw [hr1] at hq1
      rw [hr2] at hq2
      cases hq1
      cases hq2
      rw [e] at h
      cases h
      refine ⟨⟨_, ?_, hs.inverse x⟩, ⟨_, ?_, hs.inverse _⟩⟩
      · rw [hattr _ (by decide), getEntry_setEntry, if_neg (by decide), getEntry_setEntry, if_pos rfl]
      · rw [hattr _ (by decide), getEntry_setEntry, if_pos rfl]
    · exact absurd ⟨by rw [hw]; rfl, by rw [hx]; rfl⟩ hno
    · rw [hw] at hv
      cases hv
      rcases hq with hq | hq
      · rw [hr1] at hq; cases hq
      · rw [hr2] at hq; cases hq
    · rw [hw] at hv
      cases hv
  · intro hno
    have hnone : ∀ k : Text, k = "reactance".toList ∨ k = "resistance".toList → getEntry k (baseDict shown t) = none := by
      intro k hk
      have h0 := start_get (shown := shown) t k
      rw [if_neg (by rcases hk with rfl | rfl <;> decide), if_neg (by rcases hk with rfl | rfl <;> decide)] at h0
      rcases windings_cases t with hw | ⟨w1, w2, ws, hw⟩
      · rw [base_few hw, h0]
      · rw [base_two hw, winding_get, if_neg (by rcases hk with rfl | rfl <;> decide),
          if_neg (by rcases hk with rfl | rfl <;> split <;> decide), if_neg (by rcases hk with rfl | rfl <;> split <;> decide),
          if_neg (by rcases hk with rfl | rfl <;> decide), h0]
    rw [trafoDict_base] at h
    rcases impedance_cases (shown := shown) t (baseDict shown t) with ⟨v1, v2, y, q1, q2, hv, hy, hq1, hq2, e⟩ | ⟨-, -, e⟩ | ⟨v1, v2, y, hv, hy, hq, e⟩ |
      ⟨v1, v2, v3, hv, -, e⟩
    · exact absurd ⟨by rw [hv]; rfl, by rw [hy]; rfl⟩ hno
    · rw [e] at h
      cases h
      exact ⟨by rw [hattr _ (by decide), hnone _ (Or.inl rfl)], by rw [hattr _ (by decide), hnone _ (Or.inr rfl)]⟩
    · rw [e] at h; cases h
    · rw [e] at h; cases h
  · intro k hk
    obtain ⟨k1, k2⟩ := (show ∀ k ∈ ["impedance".toList, "impedance1".toList, "impedance2".toList, "powerA_rating".toList, "powerB_rating".toList,
      "powerC_rating".toList], k ≠ "name".toList ∧ k ∉ configKeys by decide) k hk
    rw [hattr k k1]
    cases e : getEntry k d with
    | none => rfl
    | some v => exact absurd (base_mem h e) k2

/-- what is known after writing the configurations to the first file -/
structure TrafoConfigs (shown : K → Text) (ts : List (WGTrafo K)) (st : LineConfigs) (rows : List Text) : Prop where
  run : writeTrafoConfigs shown {} 1 ts = .ok (st, rows)
  lays : Lays rows (st.configs.map trafoConfigDecl)
  plain : NoInclude rows
  nodup : ∀ p ∈ st.configs, (p.1.map (·.1)).Nodup
  once : (st.configs.map (·.2)).Nodup
  origin : ∀ p ∈ st.configs, ∃ t ∈ ts, trafoDict shown t = .ok p.1
  found : ∀ t ∈ ts, ∀ d, trafoDict shown t = .ok d → ∃ n, findConfig st.configs d = some n
  unset : ∀ name, (∀ t ∈ ts, t.name ≠ some name) → configOf st.names name = none
  set : ∀ t ∈ ts, ∀ name, t.name = some name → ∀ d, trafoDict shown t = .ok d →
    (∀ t' ∈ ts, t'.name = some name → trafoDict shown t' = .ok d) → configOf st.names name = findConfig st.configs d
  tokens : ∀ name t, configOf st.names name = some t → Token t

/-- all values are words -/
theorem dict_tokens (hs : ∀ x, Token (shown x)) {t : WGTrafo K} (h : WritableImpedance t) {d : List (Text × Text)} (hd : trafoDict shown t = .ok d) :
    ∀ q ∈ d, Word q.1 ∧ Plain q.1 ∧ Token q.2 := by
  rintro ⟨k, v⟩ hq
  have hg := (get_iff (trafoDict_nodup hd)).mpr hq
  have hk := base_mem hd hg
  refine ⟨?_, ?_, ?_⟩
  · exact (show ∀ k ∈ configKeys, k ≠ [] ∧ ∀ c ∈ k, c.isWhitespace = false by decide) k hk
  · exact (show ∀ k ∈ configKeys, k ≠ "object".toList ∧ k ≠ "schedule".toList ∧ ¬['/', '/'] <+: k by decide) k hk
  · have hsome : ∀ (k : Text) (o : Option Text) (l : List (Text × Text)), (∀ v, o = some v → Token v) → (∀ q ∈ l, Token q.2) → ∀ q ∈ setSome k o l, Token q.2 := by
      intro k o l ho hl
      cases o with
      | none => exact hl
      | some v =>
        show ∀ q ∈ setEntry k v l, Token q.2
        induction l with
        | nil => intro q hq; rw [setEntry] at hq; rw [List.mem_singleton.mp hq]; exact ho v rfl
        | cons p l ih =>
          obtain ⟨k', v'⟩ := p
          intro q hq
          rw [setEntry] at hq
          split at hq
          · rcases List.mem_cons.mp hq with rfl | hq
            · exact ho v rfl
            · exact hl q (List.mem_cons_of_mem _ hq)
          · rcases List.mem_cons.mp hq with rfl | hq
            · exact hl _ List.mem_cons_self
            · exact ih (fun q hq => hl q (List.mem_cons_of_mem _ hq)) q hq
    have hshown : ∀ (o : Option K) (f : K → K) (v : Text), (o.map fun x => shown (f x)) = some v → Token v := by
      intro o f v e
      obtain ⟨x, -, rfl⟩ := Option.map_eq_some_iff.mp e
      exact hs _
    have h0 : ∀ q ∈ setSome "no_load_loss".toList (t.loss.map shown) (setSome "install_type".toList t.install []), Token q.2 :=
      hsome _ _ _ (fun v e => hshown t.loss id v e) (hsome _ _ _ h.install (fun q hq => by cases hq))
    have hword : ∀ a b v, connectWord a b = some v → Token v := by
      intro a b v e
      have hall : ∀ v ∈ ["WYE_WYE".toList, "WYE_DELTA".toList, "DELTA_GWYE".toList, "DELTA_DELTA".toList], Token v := by
        unfold Token; decide
      unfold connectWord at e
      refine hall v ?_
      split at e
      · split at e
        · cases e; exact .head _
        split at e
        · cases e; exact .tail _ (.head _)
        · cases e
      split at e
      · split at e
        · cases e; exact .tail _ (.tail _ (.head _))
        split at e
        · cases e; exact .tail _ (.tail _ (.tail _ (.head _)))
        · cases e
      · cases e
    have hconn : ∀ n (w1 w2 : WGWinding K) v, connectType n w1 w2 = some v → Token v := by
      intro n w1 w2 v e
      unfold connectType at e
      split at e
      · cases e; unfold Token; decide
      split at e
      · exact hword _ _ v e
      · cases e
    have hb : ∀ q ∈ baseDict shown t, Token q.2 := by
      rcases windings_cases t with hw | ⟨w1, w2, ws, hw⟩
      · rw [base_few hw]; exact h0
      · rw [base_two hw]
        unfold windingDict
        exact hsome _ _ _ (fun v e => hshown w1.power (· / 1000) v e) (hsome _ _ _ (fun v e => hshown w2.voltage id v e)
          (hsome _ _ _ (fun v e => hshown w1.voltage id v e) (hsome _ _ _ (hconn _ w1 w2) h0)))
    have hd' := hd
    rw [trafoDict_base] at hd'
    rcases impedance_cases (shown := shown) t (baseDict shown t) with ⟨v1, v2, y, q1, q2, hv, hy, hq1, hq2, e⟩ | ⟨-, -, e⟩ | ⟨v1, v2, y, hv, hy, hq', e⟩ |
      ⟨v1, v2, v3, hv, -, e⟩ <;> rw [e] at hd' <;> cases hd'
    · exact hsome "resistance".toList (some (shown (q1 + q2))) _ (fun v e => by cases e; exact hs _)
        (hsome "reactance".toList (some (shown y)) _ (fun v e => by cases e; exact hs _) hb) _ hq
    · exact hb _ hq

theorem trafo_configs {ts : List (WGTrafo K)} (hs : ∀ x, Token (shown x)) (h : ∀ t ∈ ts, WritableImpedance t) : ∃ st rows, TrafoConfigs shown ts st rows := by
  obtain ⟨new, names, D⟩ := trafo_loop (shown := shown) (ts := ts) (st := {}) (count := 1) fun t ht => trafoDict_ok (h t ht)
  have hname : ∀ p ∈ new, ∃ i, p.2 = trafoConfigName i := by
    intro p hp
    have : p.2 ∈ new.map (·.2) := List.mem_map.mpr ⟨p, hp, rfl⟩
    rw [D.numbered] at this
    obtain ⟨i, -, e⟩ := List.mem_map.mp this
    exact ⟨_, e.symm⟩
  have hnodup : ∀ p ∈ new, (p.1.map (·.1)).Nodup := by
    intro p hp
    obtain ⟨t, -, hd⟩ := D.origin p hp
    exact trafoDict_nodup hd
  have hlay := entries_lay (cls := "transformer_configuration".toList) (by decide) (by decide)
    (entries := fun p : List (Text × Text) × Text => setEntry "name".toList p.2 p.1) (ws := new) (by
      intro p hp q hq
      obtain ⟨t, ht, hd⟩ := D.origin p hp
      rw [setEntry_fresh] at hq
      · rcases List.mem_append.mp hq with hq | hq
        · exact dict_tokens hs (h t ht) hd q hq
        · rw [List.mem_singleton.mp hq]
          obtain ⟨i, hi⟩ := hname p hp
          refine ⟨word_lit (k := "name".toList) (by decide), plain_lit (k := "name".toList) (by decide), ?_⟩
          show Token p.2
          rw [hi]
          exact trafoName_token i
      · intro hm
        obtain ⟨q', hq', e⟩ := List.mem_map.mp hm
        have := base_mem hd ((get_iff (hnodup p hp)).mpr (show (q'.1, q'.2) ∈ p.1 from hq'))
        rw [e] at this
        exact absurd this (by decide))
  refine ⟨⟨new, names⟩, _, D.run, hlay.1, hlay.2, hnodup, ?_, D.origin, D.found, ?_, D.set, ?_⟩
  · show (new.map (·.2)).Nodup
    rw [D.numbered]
    refine List.Nodup.map (fun i j e => ?_) List.nodup_range
    have := trafoName_inj e
    omega
  · intro name hn
    rw [D.kept name hn]
    rfl
  · intro name t ht
    unfold configOf at ht
    obtain ⟨q, h1, h2⟩ := Option.map_eq_some_iff.mp ht
    rcases D.known q (List.mem_of_find?_eq_some h1) with h3 | h3
    · cases h3
    · obtain ⟨p, hp, e⟩ := List.mem_map.mp h3
      obtain ⟨i, hi⟩ := hname p hp
      rw [← h2, ← e, hi]
      exact trafoName_token i

/-- the configuration of a transformer -/
theorem assigned_config {ts : List (WGTrafo K)} {st : LineConfigs} {rows : List Text} (C : TrafoConfigs shown ts st rows)
    (hone : ∀ t ∈ ts, ∀ t' ∈ ts, ∀ n, t.name = some n → t'.name = some n → t = t') {t : WGTrafo K} (ht : t ∈ ts) {name : Text}
    (hn : t.name = some name) {d : List (Text × Text)} (hd : trafoDict shown t = .ok d) :
    ∃ p ∈ st.configs, configOf st.names name = some p.2 ∧ ∀ k, getEntry k p.1 = getEntry k d := by
  have h1 := C.set t ht name hn d hd fun t' ht' hn' => by rw [← hone t ht t' ht' name hn hn']; exact hd
  obtain ⟨n, hf⟩ := C.found t ht d hd
  obtain ⟨p, hp, e, hsame⟩ := found_same hf
  exact ⟨p, hp, by rw [h1, hf, e], get_same (C.nodup p hp) (trafoDict_nodup hd) hsame⟩

/-- C104, partial: in the first file of a process, the configurations of transformers are objects `transformer_configuration` with different names. Each
transformer is assigned the name of one, which has the data of the transformer: for two windings the reactance and the sum of the resistances, the connections,
the voltages by the sides of the windings, the power in kVA. Each configuration is that of a transformer. Missing: three windings with three reactances
(`C104_center_violated`), windings without resistance (`C104_resistance_violated`), windings connected as Y and D (`C104_wye_delta_violated`), windings on the
same side (`C104_sides_violated`), further files (`C104_again_violated`). -/
theorem C104_configurations_partial (hs : Numbers shown flt) (h1000 : (1000 : K) ≠ 0) {ts : List (WGTrafo K)} (h : ∀ t ∈ ts, WritableImpedance t)
    (hone : ∀ t ∈ ts, ∀ t' ∈ ts, ∀ n, t.name = some n → t'.name = some n → t = t') :
    ∃ st rows cs, writeTrafoConfigs shown {} 1 ts = .ok (st, rows) ∧ Lays rows cs ∧ NoInclude rows ∧ (cs.map nameOf).Nodup ∧
      (∀ t ∈ ts, ∀ name, t.name = some name → ∃ c ∈ cs, ∃ n, nameOf c = some n ∧ configOf st.names name = some n ∧ TrafoConfigSays flt t c) ∧
      (∀ c ∈ cs, ∃ t ∈ ts, TrafoConfigSays flt t c) ∧
      ∀ name, (∀ t ∈ ts, t.name ≠ some name) → configOf st.names name = none := by
  obtain ⟨st, rows, C⟩ := trafo_configs hs.token h
  refine ⟨st, rows, _, C.run, C.lays, C.plain, ?_, ?_, ?_, C.unset⟩
  · rw [List.map_map]
    have : st.configs.map (nameOf ∘ trafoConfigDecl) = (st.configs.map (·.2)).map some := by
      rw [List.map_map]
      exact List.map_congr_left fun p hp => trafo_config_name (C.nodup p hp)
    rw [this]
    exact C.once.map fun a b e => by injection e
  · intro t ht name hn
    obtain ⟨d, hd⟩ := trafoDict_ok (shown := shown) (h t ht)
    obtain ⟨p, hp, h1, h2⟩ := assigned_config C hone ht hn hd
    exact ⟨_, List.mem_map.mpr ⟨p, hp, rfl⟩, p.2, trafo_config_name (C.nodup p hp), h1, trafo_config_says hs h1000 hd (C.nodup p hp) h2⟩
  · intro c hc
    obtain ⟨p, hp, rfl⟩ := List.mem_map.mp hc
    obtain ⟨t, ht, hd⟩ := C.origin p hp
    exact ⟨t, ht, trafo_config_says hs h1000 hd (C.nodup p hp) fun _ => rfl⟩

theorem winding_congr {n : Nat} {w1 w2 v1 v2 : WGWinding K} {d : List (Text × Text)}
    (h1 : w1.connection = v1.connection ∧ w1.voltageType = v1.voltageType ∧ w1.voltage = v1.voltage ∧ w1.resistance = v1.resistance ∧ w1.power = v1.power)
    (h2 : w2.connection = v2.connection ∧ w2.voltageType = v2.voltageType ∧ w2.voltage = v2.voltage ∧ w2.resistance = v2.resistance ∧ w2.power = v2.power) :
    windingDict shown n w1 w2 d = windingDict shown n v1 v2 d := by
  unfold windingDict connectType
  rw [h1.1, h1.2.1, h1.2.2.1, h1.2.2.2.2, h2.1, h2.2.1, h2.2.2.1]

theorem impedance_congr {t t' : WGTrafo K} (h : SameData t t') (d : List (Text × Text)) : impedanceDict shown t d = impedanceDict shown t' d := by
  obtain ⟨name, source, sink, install, loss, xs, ws⟩ := t
  obtain ⟨name', source', sink', install', loss', xs', ws'⟩ := t'
  obtain ⟨-, -, h3, h4⟩ := h
  dsimp only at h3 h4
  subst h3
  unfold impedanceDict
  dsimp only
  cases h4 with
  | nil => rcases xs with _ | ⟨x, _ | ⟨y, _ | ⟨z, _ | _⟩⟩⟩ <;> rfl
  | cons a l =>
    cases l with
    | nil => rcases xs with _ | ⟨x, _ | ⟨y, _ | ⟨z, _ | _⟩⟩⟩ <;> rfl
    | cons b l =>
      cases l with
      | nil =>
        rcases xs with _ | ⟨x, _ | ⟨y, _ | ⟨z, _ | _⟩⟩⟩
        · rfl
        · dsimp only
          rw [a.2.2.2.1, b.2.2.2.1]
        all_goals rfl
      | cons c l =>
        cases l with
        | nil =>
          rcases xs with _ | ⟨x, _ | ⟨y, _ | ⟨z, _ | _⟩⟩⟩
          · rfl
          · rfl
          · rfl
          · dsimp only
            rw [a.2.2.2.1]
          · rfl
        | cons e l => rcases xs with _ | ⟨x, _ | ⟨y, _ | ⟨z, _ | _⟩⟩⟩ <;> rfl

theorem dict_congr {t t' : WGTrafo K} (h : SameData t t') : trafoDict shown t = trafoDict shown t' := by
  rw [trafoDict_base, trafoDict_base, impedance_congr h]
  have hb : baseDict shown t = baseDict shown t' := by
    rcases windings_cases t with hw | ⟨w1, w2, ws, hw⟩
    · rw [base_few hw, base_few (by rw [← h.windings.length_eq]; exact hw), h.install, h.loss]
    · have h4 := h.windings
      rw [hw] at h4
      generalize hw' : t'.windings = l at h4
      cases h4 with
      | cons a h4 =>
        cases h4 with
        | cons b h4 => rw [base_two hw, base_two hw', h.install, h.loss, h4.length_eq, winding_congr a b]
  rw [hb]

/-- C104: transformers with the same data share a configuration -/
theorem C104_shared (hs : ∀ x, Token (shown x)) {ts : List (WGTrafo K)} (h : ∀ t ∈ ts, WritableImpedance t)
    (hone : ∀ t ∈ ts, ∀ t' ∈ ts, ∀ n, t.name = some n → t'.name = some n → t = t') :
    ∃ st rows, writeTrafoConfigs shown {} 1 ts = .ok (st, rows) ∧
      ∀ t ∈ ts, ∀ name, t.name = some name → ∀ t' ∈ ts, ∀ name', t'.name = some name' → SameData t t' →
        configOf st.names name = configOf st.names name' ∧ (configOf st.names name).isSome := by
  obtain ⟨st, rows, C⟩ := trafo_configs hs h
  refine ⟨st, rows, C.run, ?_⟩
  intro t ht name hn t' ht' name' hn' hsame
  obtain ⟨d, hd⟩ := trafoDict_ok (shown := shown) (h t ht)
  have hd' : trafoDict shown t' = .ok d := by rw [← dict_congr hsame]; exact hd
  have h1 := C.set t ht name hn d hd fun x hx hxn => by rw [← hone t ht x hx name hn hxn]; exact hd
  have h2 := C.set t' ht' name' hn' d hd' fun x hx hxn => by rw [← hone t' ht' x hx name' hn' hxn]; exact hd'
  obtain ⟨n, hf⟩ := C.found t ht d hd
  exact ⟨by rw [h1, h2], by rw [h1, hf]; rfl⟩

/-! ### what the reader makes of a configuration -/

theorem optional_same {V : Type} {conv : Text → Option V} {d : Decl} {k : Text} {a b : Option V} (h : Optional conv d k a) (h' : Optional conv d k b) : a = b := by
  cases a with
  | none =>
    cases b with
    | none => rfl
    | some y => obtain ⟨s, hs, -⟩ := h'; rw [show attrOf d k = none from h] at hs; cases hs
  | some x =>
    cases b with
    | none => obtain ⟨s, hs, -⟩ := h; rw [show attrOf d k = none from h'] at hs; cases hs
    | some y => rw [value_unique h h']

/-- C104: what is written about a transformer with two windings is what the reader takes from a configuration (C103): connections, voltages, power, reactance, and
the sum of the resistances. The windings have to be those of the high and the low voltage. -/
theorem C104_meaning {cpx : Text → Option (Cx K)} (h2 : (2 : K) ≠ 0) {t : WGTrafo K} {c d : Decl} (hc : TrafoConfigSays flt t c) {w1 w2 : WGWinding K} {x r1 r2 : K}
    (hw : t.windings = [w1, w2]) (hx : t.reactances = [x]) (hr1 : w1.resistance = some r1) (hr2 : w2.resistance = some r2)
    (ht1 : w1.voltageType ≠ some 2) (ht2 : w2.voltageType ≠ some 0) {a b : Char} (ha : w1.connection = some [a]) (hb : w2.connection = some [b])
    (hab : (a, b) ∈ [('Y', 'Y'), ('D', 'D'), ('D', 'Y')]) {ws : List (GWinding K)} {xs : List K} {v1 v2 : GWinding K} (h : TwoSay flt cpx d c ws xs v1 v2) :
    v1.connection = some a ∧ v2.connection = some b ∧ v1.voltage = w1.voltage ∧ v2.voltage = w2.voltage ∧ v1.power = w1.power ∧ xs = [x] ∧
      ∃ q1 q2, v1.resistance = some q1 ∧ v2.resistance = some q2 ∧ q1 + q2 = r1 + r2 := by
  have W := hc.windings w1 w2 [] hw
  obtain ⟨hp, hsv⟩ := W.straight ht1 ht2
  obtain ⟨hX, hR⟩ := hc.two w1 w2 x r1 r2 hw hx hr1 hr2
  have hconn : ∀ {o : Option Text} {a b a' b' : Option Char}, ConnectionsSay o a b → ConnectionsSay o a' b' → a = a' ∧ b = b' := by
    intro o a b a' b' h h'
    cases h with
    | wye => cases h' with
      | wye => exact ⟨rfl, rfl⟩
      | other n _ _ => exact absurd rfl n
    | delta => cases h' with
      | delta => exact ⟨rfl, rfl⟩
      | other _ n _ => exact absurd rfl n
    | mixed => cases h' with
      | mixed => exact ⟨rfl, rfl⟩
      | other _ _ n => exact absurd rfl n
    | other n1 n2 n3 => cases h' with
      | wye => exact absurd rfl n1
      | delta => exact absurd rfl n2
      | mixed => exact absurd rfl n3
      | other _ _ _ => exact ⟨rfl, rfl⟩
  obtain ⟨e1, e2⟩ := hconn h.connections (W.connections (by show (0 : Nat) ≠ 1; decide) a b ha hb hab)
  have hpow : v1.power = w1.power := by
    have ho : OneRating c := ⟨hc.others _ (.tail _ (.tail _ (.tail _ (.head _)))), hc.others _ (.tail _ (.tail _ (.tail _ (.tail _ (.head _))))),
      hc.others _ (.tail _ (.tail _ (.tail _ (.tail _ (.tail _ (.head _))))))⟩
    rcases h.power ho with ⟨k1, k2⟩ | ⟨v, k1, k2⟩ <;> rcases W.power with ⟨m1, m2⟩ | ⟨p, v', m1, m2, m3⟩
    · rw [k2, m1]
    · obtain ⟨s, hs, -⟩ := m2
      rw [k1] at hs
      cases hs
    · obtain ⟨s, hs, -⟩ := k1
      rw [m2] at hs
      cases hs
    · rw [k2, m1, ← m3, value_unique k1 m2]
  have hxs : xs = [x] := by
    cases h.reactances with
    | missing n _ => obtain ⟨s, hs, -⟩ := hX; rw [n] at hs; cases hs
    | own hv => rw [value_unique hv hX]
    | impedance n _ => obtain ⟨s, hs, -⟩ := hX; rw [n] at hs; cases hs
  have hres : ∃ q1 q2, v1.resistance = some q1 ∧ v2.resistance = some q2 ∧ q1 + q2 = r1 + r2 := by
    obtain ⟨r, hr, g1, g2⟩ := h.resistance
    have hr' : r = some (r1 + r2) := by
      cases hr with
      | own _ ho => exact optional_same (b := some (r1 + r2)) ho hR
      | impedance n _ => obtain ⟨s, hs, -⟩ := hX; rw [n] at hs; cases hs
    rcases g1 with ⟨-, n⟩ | ⟨q1, s1, k1, k2, k3⟩
    · rw [hr'] at n; cases n
    rcases g2 with ⟨-, n⟩ | ⟨q2, s2, m1, m2, m3⟩
    · rw [hr'] at n; cases n
    rw [hr'] at k2 m2
    cases k2
    cases m2
    refine ⟨q1, q2, k1, m1, mul_left_cancel₀ h2 ?_⟩
    rw [mul_add, k3, m3, two_mul]
  exact ⟨e1, e2, optional_same h.high hp, optional_same h.low hsv, hpow, hxs, hres⟩

/-! ### violations -/

/-- C104 violated: three windings with three reactances end the writing, since the code uses an attribute `reactance` that does not exist -/
theorem C104_center_violated {pre post : List (WGTrafo K)} {t : WGTrafo K} (st : LineConfigs) (count : Nat) (h : ∀ t ∈ pre, WritableImpedance t)
    (hw : t.windings.length = 3) (hx : t.reactances.length = 3) (hr : ∀ w ∈ t.windings, w.resistance.isSome) :
    writeTrafoConfigs shown st count (pre ++ t :: post) = .error .attributeError := by
  refine trafo_error (fun x hx => trafoDict_ok (h x hx)) ?_
  rw [trafoDict_base]
  rcases impedance_cases (shown := shown) t (baseDict shown t) with ⟨v1, v2, y, q1, q2, hv, hy, hq1, hq2, e⟩ | ⟨-, hno, e⟩ | ⟨v1, v2, y, hv, hy, hq, e⟩ |
    ⟨v1, v2, v3, hv, -, e⟩
  · rw [hv] at hw; cases hw
  · exact absurd ⟨hw, hx⟩ hno
  · rw [hv] at hw; cases hw
  · rw [e, if_neg]
    intro n
    have := hr v1 (by rw [hv]; exact .head _)
    rw [n] at this
    cases this

/-- C104 violated: a winding without resistance ends the writing if the reactance is known -/
theorem C104_resistance_violated {pre post : List (WGTrafo K)} {t : WGTrafo K} (st : LineConfigs) (count : Nat) (h : ∀ t ∈ pre, WritableImpedance t)
    {w1 w2 : WGWinding K} {x : K} (hw : t.windings = [w1, w2]) (hx : t.reactances = [x]) (hr : w1.resistance = none ∨ w2.resistance = none) :
    writeTrafoConfigs shown st count (pre ++ t :: post) = .error .typeError := by
  refine trafo_error (fun x hx => trafoDict_ok (h x hx)) ?_
  rw [trafoDict_base]
  rcases impedance_cases (shown := shown) t (baseDict shown t) with ⟨v1, v2, y, q1, q2, hv, hy, hq1, hq2, e⟩ | ⟨hno, -, e⟩ | ⟨v1, v2, y, hv, hy, hq, e⟩ |
    ⟨v1, v2, v3, hv, -, e⟩
  · rw [hw] at hv
    cases hv
    rcases hr with hr | hr
    · rw [hr] at hq1; cases hq1
    · rw [hr] at hq2; cases hq2
  · exact absurd ⟨by rw [hw]; rfl, by rw [hx]; rfl⟩ hno
  · exact e
  · rw [hw] at hv; cases hv

/-- the entries of the configuration of one transformer alone -/
theorem single_config (hs : ∀ x, Token (shown x)) {t : WGTrafo K} (h : WritableImpedance t) {name : Text} (hn : t.name = some name) :
    ∃ st rows c d, writeTrafoConfigs shown {} 1 [t] = .ok (st, rows) ∧ Lays rows [c] ∧ configOf st.names name = nameOf c ∧ (nameOf c).isSome ∧
      trafoDict shown t = .ok d ∧ ∀ k, k ≠ "name".toList → attrOf c k = getEntry k d := by
  obtain ⟨st, rows, C⟩ := trafo_configs (ts := [t]) hs fun x hx => by rw [List.mem_singleton.mp hx]; exact h
  obtain ⟨d, hd⟩ := trafoDict_ok (shown := shown) h
  have hone : ∀ a ∈ [t], ∀ b ∈ [t], ∀ n, a.name = some n → b.name = some n → a = b := by
    intro a ha b hb _ _ _
    rw [List.mem_singleton.mp ha, List.mem_singleton.mp hb]
  obtain ⟨p, hp, h1, h2⟩ := assigned_config C hone (List.mem_singleton.mpr rfl) hn hd
  have hrun := C.run
  unfold writeTrafoConfigs at hrun
  rw [hd] at hrun
  have hf : findConfig ({} : LineConfigs).configs d = none := rfl
  dsimp only at hrun
  rw [show findConfig [] d = none from rfl] at hrun
  dsimp only at hrun
  rw [writeTrafoConfigs] at hrun
  dsimp only at hrun
  injection hrun with hrun
  have hst := congrArg Prod.fst hrun
  dsimp only at hst
  have hlist : st.configs = [(d, trafoConfigName 1)] := by rw [← hst]; rfl
  have hl := C.lays
  rw [hlist] at hl hp
  obtain rfl := List.mem_singleton.mp hp
  exact ⟨st, rows, _, d, C.run, hl, by rw [h1, trafo_config_name (trafoDict_nodup hd)], by rw [trafo_config_name (trafoDict_nodup hd)]; rfl, hd,
    fun k hk => config_attr (trafoDict_nodup hd) hk⟩

/-- C104 violated: windings connected as Y and D are written as `WYE_DELTA`, from which the reader takes no connection -/
theorem C104_wye_delta_violated (hs : ∀ x, Token (shown x)) {t : WGTrafo K} (h : WritableImpedance t) {name : Text} (hn : t.name = some name)
    {w1 w2 : WGWinding K} (hw : t.windings = [w1, w2]) (h1 : w1.connection = some ['Y']) (h2 : w2.connection = some ['D']) :
    ∃ st rows c, writeTrafoConfigs shown {} 1 [t] = .ok (st, rows) ∧ Lays rows [c] ∧ configOf st.names name = nameOf c ∧ (nameOf c).isSome ∧
      ConnectionsSay (attrOf c "connect_type".toList) none none := by
  obtain ⟨st, rows, c, d, a1, a2, a3, a4, hd, hk⟩ := single_config hs h hn
  refine ⟨st, rows, c, a1, a2, a3, a4, ?_⟩
  have : attrOf c "connect_type".toList = some "WYE_DELTA".toList := by
    rw [hk _ (by decide), get_base hd (by decide) (by decide), base_two hw, winding_get, if_neg (by decide), if_neg (by split <;> decide),
      if_neg (by split <;> decide), if_pos rfl, connect_known (by show (2 : Nat) ≠ 3; decide) h1 h2]
    rfl
  rw [this]
  exact .other (by decide) (by decide) (by decide)

/-- C104 violated: if both windings are of the high side, there is no secondary voltage, and the voltage of the first one is lost -/
theorem C104_sides_violated (hs : Numbers shown flt) {t : WGTrafo K} (h : WritableImpedance t) {name : Text} (hn : t.name = some name)
    {w1 w2 : WGWinding K} (hw : t.windings = [w1, w2]) (h1 : w1.voltageType = some 0) (h2 : w2.voltageType = some 0) {v1 v2 : K} (hv1 : w1.voltage = some v1)
    (hv2 : w2.voltage = some v2) :
    ∃ st rows c, writeTrafoConfigs shown {} 1 [t] = .ok (st, rows) ∧ Lays rows [c] ∧ configOf st.names name = nameOf c ∧ (nameOf c).isSome ∧
      Value flt c "primary_voltage".toList v2 ∧ attrOf c "secondary_voltage".toList = none := by
  obtain ⟨st, rows, c, d, a1, a2, a3, a4, hd, hk⟩ := single_config hs.token h hn
  have h1' : w1.voltageType ≠ some 2 := by rw [h1]; decide
  refine ⟨st, rows, c, a1, a2, a3, a4, ⟨shown v2, ?_, hs.inverse _⟩, ?_⟩
  · rw [hk _ (by decide), get_base hd (by decide) (by decide), base_two hw, winding_get, if_neg (by decide), if_pos h2, if_pos rfl, hv2]
    rfl
  · rw [hk _ (by decide), get_base hd (by decide) (by decide), base_two hw, winding_get, if_neg (by decide), if_pos h2, if_neg (by decide), if_neg h1',
      if_neg (by decide), if_neg (by decide), start_get, if_neg (by decide), if_neg (by decide)]

/-- C104 violated: the dictionaries of configurations are kept for the next file. If the same transformers, or some of them, are written again, then no configuration
is written, while the transformers still get the names of configurations. -/
theorem C104_again_violated {ts ts' : List (WGTrafo K)} (hs : ∀ x, Token (shown x)) (h : ∀ t ∈ ts, WritableImpedance t) (hsub : ∀ t ∈ ts', t ∈ ts) :
    ∃ st rows st', writeTrafoConfigs shown {} 1 ts = .ok (st, rows) ∧ writeTrafoConfigs shown st 1 ts' = .ok (st', []) ∧
      ∀ t ∈ ts', ∀ name, t.name = some name → ∃ n, configOf st'.names name = some n := by
  obtain ⟨st, rows, C⟩ := trafo_configs hs h
  obtain ⟨names, h1, h2, -⟩ := trafo_known (shown := shown) (ts := ts') (st := st) (count := 1) fun t ht => by
    obtain ⟨d, hd⟩ := trafoDict_ok (shown := shown) (h t (hsub t ht))
    obtain ⟨n, hn⟩ := C.found t (hsub t ht) d hd
    exact ⟨d, n, hd, hn⟩
  exact ⟨st, rows, _, C.run, h1, h2⟩

/-! ### the transformers -/

/-- the attributes of a transformer with their values -/
def trafoPairs (names : List (Option Text × Text)) (t : WGTrafo K) : List (Text × Option Text) :=
  [("name".toList, t.name.map ('n' :: ·)), ("from".toList, t.source.map ('n' :: ·)), ("to".toList, t.sink.map ('n' :: ·)),
    ("phases".toList, if trafoPhaseText t = [] then none else some (trafoPhaseText t)), ("configuration".toList, t.name.bind (configOf names))]

omit [Field K] in
theorem trafo_flat (names : List (Option Text × Text)) (t : WGTrafo K) : trafoEntries names t = flatEntries (trafoPairs names t) := by
  have h1 : capPhaseEntry (trafoPhaseText t) = optEntry "phases".toList (if trafoPhaseText t = [] then none else some (trafoPhaseText t)) := by
    unfold capPhaseEntry
    split <;> rfl
  unfold trafoEntries trafoPairs flatEntries
  rw [h1]
  simp only [List.flatMap_cons, List.flatMap_nil, List.append_nil, List.append_assoc]

/-- the object of a transformer -/
def trafoDecl (names : List (Option Text × Text)) (t : WGTrafo K) : Decl := ⟨"transformer".toList, none, trafoEntries names t⟩

omit [Field K] in
theorem trafo_value {names : List (Option Text × Text)} {t : WGTrafo K} {k : Text} {o : Option Text} (h : (k, o) ∈ trafoPairs names t) :
    lastValue (trafoDecl names t).statements k = o := by
  show lastValue (trafoEntries names t) k = o
  rw [trafo_flat]
  refine flat_value ?_ h
  show ["name".toList, "from".toList, "to".toList, "phases".toList, "configuration".toList].Nodup
  decide

omit [Field K] in
theorem trafo_written {names : List (Option Text × Text)} {t : WGTrafo K} {name : Text} (h : WritableTrafo t name) :
    TrafoWritten (configOf names) t name (trafoDecl names t) := by
  obtain ⟨h1, h2, -⟩ := phases_sorted h.phases
  refine ⟨rfl, ?_, ?_, ?_, ⟨trafoPhaseText t, h1, h2, ?_⟩, ?_⟩
  · unfold nameOf
    rw [trafo_value (o := some ('n' :: name)) (by unfold trafoPairs; rw [h.named]; exact .head _)]
  · unfold attrOf
    rw [if_neg (by decide)]
    exact trafo_value (.tail _ (.head _))
  · unfold attrOf
    rw [if_neg (by decide)]
    exact trafo_value (.tail _ (.tail _ (.head _)))
  · unfold attrOf
    rw [if_neg (by decide)]
    exact trafo_value (.tail _ (.tail _ (.tail _ (.head _))))
  · unfold attrOf
    rw [if_neg (by decide)]
    refine trafo_value ?_
    unfold trafoPairs
    rw [h.named]
    exact .tail _ (.tail _ (.tail _ (.tail _ (.head _))))

omit [Field K] in
theorem trafo_tokens {names : List (Option Text × Text)} (hn : ∀ n t, configOf names n = some t → Token t) {t : WGTrafo K} {name : Text}
    (h : WritableTrafo t name) : ∀ p ∈ trafoEntries names t, Word p.1 ∧ Plain p.1 ∧ Token p.2 := by
  rintro ⟨k, v⟩ hp
  rw [trafo_flat] at hp
  have hp := mem_flat.mp hp
  have hk : k ∈ ["name".toList, "from".toList, "to".toList, "phases".toList, "configuration".toList] := by
    have : k ∈ (trafoPairs names t).map (·.1) := List.mem_map.mpr ⟨_, hp, rfl⟩
    exact this
  refine ⟨?_, ?_, ?_⟩
  · exact (show ∀ k ∈ ["name".toList, "from".toList, "to".toList, "phases".toList, "configuration".toList],
      k ≠ [] ∧ ∀ c ∈ k, c.isWhitespace = false by decide) k hk
  · exact (show ∀ k ∈ ["name".toList, "from".toList, "to".toList, "phases".toList, "configuration".toList],
      k ≠ "object".toList ∧ k ≠ "schedule".toList ∧ ¬['/', '/'] <+: k by decide) k hk
  · unfold trafoPairs at hp
    simp only [List.mem_cons, List.not_mem_nil, or_false, Prod.mk.injEq] at hp
    rcases hp with ⟨-, e⟩ | ⟨-, e⟩ | ⟨-, e⟩ | ⟨-, e⟩ | ⟨-, e⟩
    · rw [h.named] at e
      cases e
      exact h.token
    · obtain ⟨x, hx, rfl⟩ := Option.map_eq_some_iff.mp e.symm
      exact h.source x hx
    · obtain ⟨x, hx, rfl⟩ := Option.map_eq_some_iff.mp e.symm
      exact h.sink x hx
    · split at e
      · cases e
      · cases e
        exact (phases_sorted h.phases).2.2
    · rw [h.named] at e
      exact hn name v e.symm

omit [Field K] in
theorem trafo_lays {names : List (Option Text × Text)} (hn : ∀ n t, configOf names n = some t → Token t) {ts : List (WGTrafo K)}
    (h : ∀ t ∈ ts, ∃ name, WritableTrafo t name) :
    BraceLays (ts.flatMap (trafoRows names)) (ts.map (trafoDecl names)) ∧ NoInclude (ts.flatMap (trafoRows names)) := by
  induction ts with
  | nil => exact ⟨.nil, (fun _ h => by cases h)⟩
  | cons t ts ih =>
    obtain ⟨a, b⟩ := ih fun x hx => h x (List.mem_cons_of_mem _ hx)
    obtain ⟨name, hw⟩ := h t List.mem_cons_self
    have hb := entries_body (trafo_tokens hn hw)
    have hblock : BraceBlock ("object transformer{".toList :: (((trafoEntries names t).map fun p => entryRow four p.1 p.2) ++ ["};".toList]))
        (trafoDecl names t) := ⟨_, _, _, rfl, ⟨(show ':' ∉ "transformer".toList by decide), rfl,
          splits_of (show words "object transformer{".toList = ["object".toList, "transformer".toList ++ ['{']] by decide +kernel)⟩, hb.1, Or.inr (splits_of rfl)⟩
    rw [List.flatMap_cons, List.map_cons]
    refine ⟨?_, noInclude_append ?_ b⟩
    · have : trafoRows names t = ("object transformer{".toList :: (((trafoEntries names t).map fun p => entryRow four p.1 p.2) ++ ["};".toList])) ++ [[]] := by
        unfold trafoRows
        simp only [List.cons_append, List.append_assoc]
        rfl
      rw [this, List.append_assoc]
      exact .block hblock (.blank (Or.inl (splits_of rfl)) a)
    · unfold trafoRows
      have h3 : NoInclude ["object transformer{".toList] := by unfold NoInclude; decide
      have h4 : NoInclude ["};".toList, []] := by unfold NoInclude; decide
      exact noInclude_append (noInclude_append h3 (indented_plain hb.2)) h4

/-- C104, partial: in the first file of a process, each transformer that has not the name of a regulator is written as an object with its name, its ends, the phases
of its windings in order, and the name of a configuration of the file that has its data. The brace follows the class directly. Missing: that ditto can read this
(`C104_unreadable_violated`), and what is missing in `C104_configurations_partial`. -/
theorem C104_written_partial (hs : Numbers shown flt) (h1000 : (1000 : K) ≠ 0) {ts : List (WGTrafo K)} (h : ∀ t ∈ ts, WritableImpedance t)
    (hw : ∀ t ∈ ts, ∃ name, WritableTrafo t name) (hone : ∀ t ∈ ts, ∀ t' ∈ ts, ∀ n, t.name = some n → t'.name = some n → t = t') (regs : List (Option Text)) :
    ∃ st rows cs ds, writeTrafoConfigs shown {} 1 ts = .ok (st, rows) ∧ Lays rows cs ∧ NoInclude rows ∧ BraceLays (writeTrafoRows st.names regs ts) ds ∧
      NoInclude (writeTrafoRows st.names regs ts) ∧
      List.Forall₂ (fun t d => ∀ n, t.name = some n → TrafoWritten (configOf st.names) t n d ∧
        ∃ c ∈ cs, nameOf c = attrOf d "configuration".toList ∧ (nameOf c).isSome ∧ TrafoConfigSays flt t c) (ts.filter fun t => t.name ∉ regs) ds := by
  obtain ⟨st, rows, C⟩ := trafo_configs hs.token h
  obtain ⟨h1, h2⟩ := trafo_lays C.tokens (ts := ts.filter fun t => t.name ∉ regs) fun t ht => hw t (List.mem_filter.mp ht).1
  refine ⟨st, rows, _, _, C.run, C.lays, C.plain, h1, h2, ?_⟩
  rw [List.forall₂_map_right_iff, List.forall₂_same]
  intro t ht n hn
  have ht := (List.mem_filter.mp ht).1
  obtain ⟨name, hwt⟩ := hw t ht
  have e := hwt.named
  rw [hn] at e
  cases e
  have hwr := trafo_written (names := st.names) hwt
  obtain ⟨d, hd⟩ := trafoDict_ok (shown := shown) (h t ht)
  obtain ⟨p, hp, k1, k2⟩ := assigned_config C hone ht hn hd
  exact ⟨hwr, trafoConfigDecl p, List.mem_map.mpr ⟨p, hp, rfl⟩, by rw [trafo_config_name (C.nodup p hp), hwr.configuration, k1],
    by rw [trafo_config_name (C.nodup p hp)]; rfl, trafo_config_says hs h1000 hd (C.nodup p hp) k2⟩

omit [Field K] in
/-- C104 violated: a file with a transformer cannot be read by ditto, since the class of the object is taken with the brace -/
theorem C104_unreadable_violated {schema : Schema} {names : List (Option Text × Text)} (hn : ∀ n t, configOf names n = some t → Token t) {ts : List (WGTrafo K)}
    {regs : List (Option Text)} (h : ∀ t ∈ ts, ∃ name, WritableTrafo t name) (hne : ∃ t ∈ ts, t.name ∉ regs)
    (hschema : schema "transformer{".toList = none) {pre post : List Text} {before : List Decl} (hpre : Lays pre before)
    (hg : ∀ d ∈ before, Good schema d) (hi : NoInclude pre) (hi' : NoInclude post) (due : List Text → Py Bool) (files : Text → Option (List Text)) :
    readGlm schema due files [] (pre ++ writeTrafoRows names regs ts ++ post) = .error .attributeError := by
  unfold writeTrafoRows
  obtain ⟨-, hp⟩ := trafo_lays hn (ts := ts.filter fun t => t.name ∉ regs) fun t ht => h t (List.mem_filter.mp ht).1
  have hne : (ts.filter fun t => t.name ∉ regs) ≠ [] := by
    obtain ⟨t, ht, hr⟩ := hne
    exact List.ne_nil_of_mem (List.mem_filter.mpr ⟨ht, by simpa using hr⟩)
  cases hf : (ts.filter fun t => t.name ∉ regs) with
  | nil => exact absurd hf hne
  | cons t l =>
    rw [hf] at hp
    have hcat : pre ++ (t :: l).flatMap (trafoRows names) ++ post = pre ++ ["object transformer{".toList] ++
        (((trafoEntries names t).map fun p => entryRow four p.1 p.2) ++ ["};".toList, []] ++ l.flatMap (trafoRows names) ++ post) := by
      unfold trafoRows
      simp only [List.flatMap_cons, List.cons_append, List.append_assoc, List.nil_append]
    have hni := noInclude_append (noInclude_append hi hp) hi'
    rw [hcat] at hni ⊢
    exact C71_class_violated due files hpre hg [] hni 
      (splits_of (show words "object transformer{".toList = ["object".toList, "transformer{".toList] by decide +kernel)) (by decide) (by decide) hschema

end numbers
/-! ### examples -/

/-- the windings of the examples -/
def exWGHigh : WGWinding ℚ := ⟨some ['D'], some 0, some 7200, some 1, some 50000, [some ['B'], some ['A']]⟩
def exWGLow : WGWinding ℚ := ⟨some ['Y'], some 2, some 240, some 2, some 50000, [some ['A'], none]⟩

/-- two transformers with the same data and one without reactance -/
def exWGFirst : WGTrafo ℚ := ⟨some "1".toList, some "a".toList, some "b".toList, none, some 3, [5], [exWGHigh, exWGLow]⟩
def exWGSame : WGTrafo ℚ := ⟨some "2".toList, some "b".toList, some "c".toList, none, some 3, [5], [{ exWGHigh with phases := [some ['C']] }, exWGLow]⟩
def exWGOther : WGTrafo ℚ := ⟨some "3".toList, none, some "d".toList, some "PADMOUNT".toList, none, [], [exWGHigh]⟩

theorem exWG_impedance : ∀ t ∈ [exWGFirst, exWGSame, exWGOther], WritableImpedance t := by
  intro t ht
  simp only [List.mem_cons, List.not_mem_nil, or_false] at ht
  rcases ht with rfl | rfl | rfl
  · refine ⟨?_, by decide, (fun i hi => by cases hi)⟩
    intro w1 w2 x hw hx
    cases hw
    exact ⟨rfl, rfl⟩
  · refine ⟨?_, by decide, (fun i hi => by cases hi)⟩
    intro w1 w2 x hw hx
    cases hw
    exact ⟨rfl, rfl⟩
  · refine ⟨?_, by decide, ?_⟩
    · intro w1 w2 x hw hx
      cases hw
    · intro i hi
      cases hi
      unfold Token
      decide

theorem exWG_letters : (∀ p ∈ exWGHigh.phases ++ exWGLow.phases ++ [some ['C']], p = none ∨ ∃ c : Char, p = some [c] ∧ c.isWhitespace = false ∧ c ≠ '}') := by
  intro p hp
  have hp : p ∈ [some ['B'], some ['A'], some ['A'], none, some ['C']] := hp
  simp only [List.mem_cons, List.not_mem_nil, or_false] at hp
  rcases hp with rfl | rfl | rfl | rfl | rfl
  · exact Or.inr ⟨'B', rfl, by decide, by decide⟩
  · exact Or.inr ⟨'A', rfl, by decide, by decide⟩
  · exact Or.inr ⟨'A', rfl, by decide, by decide⟩
  · exact Or.inl rfl
  · exact Or.inr ⟨'C', rfl, by decide, by decide⟩

theorem exWG_writable : ∀ t ∈ [exWGFirst, exWGSame, exWGOther], ∃ name, WritableTrafo t name := by
  have htok : ∀ x ∈ ["1".toList, "2".toList, "3".toList, "a".toList, "b".toList, "c".toList, "d".toList], Token ('n' :: x) := by
    unfold Token
    decide
  intro t ht
  simp only [List.mem_cons, List.not_mem_nil, or_false] at ht
  rcases ht with rfl | rfl | rfl
  · refine ⟨_, rfl, htok _ (by decide), (fun x hx => by cases hx; exact htok _ (by decide)), (fun x hx => by cases hx; exact htok _ (by decide)), ?_⟩
    intro w hw p hp
    refine exWG_letters p ?_
    rcases List.mem_cons.mp hw with rfl | hw
    · exact List.mem_append_left _ (List.mem_append_left _ hp)
    · rw [List.mem_singleton.mp hw] at hp
      exact List.mem_append_left _ (List.mem_append_right _ hp)
  · refine ⟨_, rfl, htok _ (by decide), (fun x hx => by cases hx; exact htok _ (by decide)), (fun x hx => by cases hx; exact htok _ (by decide)), ?_⟩
    intro w hw p hp
    refine exWG_letters p ?_
    rcases List.mem_cons.mp hw with rfl | hw
    · exact List.mem_append_right _ hp
    · rw [List.mem_singleton.mp hw] at hp
      exact List.mem_append_left _ (List.mem_append_right _ hp)
  · refine ⟨_, rfl, htok _ (by decide), (fun x hx => by cases hx), (fun x hx => by cases hx; exact htok _ (by decide)), ?_⟩
    intro w hw p hp
    refine exWG_letters p ?_
    rw [List.mem_singleton.mp hw] at hp
    exact List.mem_append_left _ (List.mem_append_left _ hp)

theorem exWG_once : ∀ t ∈ [exWGFirst, exWGSame, exWGOther], ∀ t' ∈ [exWGFirst, exWGSame, exWGOther], ∀ n, t.name = some n → t'.name = some n → t = t' := by
  have key : ∀ t ∈ [exWGFirst, exWGSame, exWGOther], ∀ t' ∈ [exWGFirst, exWGSame, exWGOther], t.name = t'.name → t = t' := by decide +kernel
  intro t ht t' ht' n h h'
  exact key t ht t' ht' (h.trans h'.symm)

example : ∃ st rows cs, writeTrafoConfigs exStrokes {} 1 [exWGFirst, exWGSame, exWGOther] = .ok (st, rows) ∧ Lays rows cs ∧ NoInclude rows ∧ (cs.map nameOf).Nodup ∧
    (∀ t ∈ [exWGFirst, exWGSame, exWGOther], ∀ name, t.name = some name →
      ∃ c ∈ cs, ∃ n, nameOf c = some n ∧ configOf st.names name = some n ∧ TrafoConfigSays exUnstroke t c) ∧
    (∀ c ∈ cs, ∃ t ∈ [exWGFirst, exWGSame, exWGOther], TrafoConfigSays exUnstroke t c) ∧
    ∀ name, (∀ t ∈ [exWGFirst, exWGSame, exWGOther], t.name ≠ some name) → configOf st.names name = none :=
  C104_configurations_partial ex_strokes (by decide) exWG_impedance exWG_once

/-- the third one is a regulator -/
example : ∃ st rows cs ds, writeTrafoConfigs exStrokes {} 1 [exWGFirst, exWGSame, exWGOther] = .ok (st, rows) ∧ Lays rows cs ∧ NoInclude rows ∧
    BraceLays (writeTrafoRows st.names [some "3".toList] [exWGFirst, exWGSame, exWGOther]) ds ∧
    NoInclude (writeTrafoRows st.names [some "3".toList] [exWGFirst, exWGSame, exWGOther]) ∧
    List.Forall₂ (fun t d => ∀ n, t.name = some n → TrafoWritten (configOf st.names) t n d ∧
      ∃ c ∈ cs, nameOf c = attrOf d "configuration".toList ∧ (nameOf c).isSome ∧ TrafoConfigSays exUnstroke t c)
      ([exWGFirst, exWGSame, exWGOther].filter fun t => t.name ∉ [some "3".toList]) ds :=
  C104_written_partial ex_strokes (by decide) exWG_impedance exWG_writable exWG_once _

/-- the first and the second one share a configuration -/
example : ∃ st rows, writeTrafoConfigs exStrokes {} 1 [exWGFirst, exWGSame, exWGOther] = .ok (st, rows) ∧
    configOf st.names "1".toList = configOf st.names "2".toList ∧ (configOf st.names "1".toList).isSome := by
  obtain ⟨st, rows, h1, h2⟩ := C104_shared ex_strokes.token exWG_impedance exWG_once
  exact ⟨st, rows, h1, h2 exWGFirst (.head _) _ rfl exWGSame (.tail _ (.head _)) _ rfl
    ⟨rfl, rfl, rfl, .cons ⟨rfl, rfl, rfl, rfl, rfl⟩ (.cons ⟨rfl, rfl, rfl, rfl, rfl⟩ .nil)⟩⟩

/-- the reader says the same about the first one -/
example (cpx : Text → Option (Cx ℚ)) (d : Decl) (ws : List (GWinding ℚ)) (xs : List ℚ) (v1 v2 : GWinding ℚ) (c : Decl) (hc : TrafoConfigSays exUnstroke exWGFirst c)
    (h : TwoSay exUnstroke cpx d c ws xs v1 v2) : v1.connection = some 'D' ∧ v2.connection = some 'Y' ∧ v1.voltage = some 7200 ∧ v2.voltage = some 240 ∧
      v1.power = some 50000 ∧ xs = [5] ∧ ∃ q1 q2, v1.resistance = some q1 ∧ v2.resistance = some q2 ∧ q1 + q2 = 1 + 2 :=
  C104_meaning (by decide) hc rfl rfl rfl rfl (by decide) (by decide) rfl rfl (by decide) h

/-- a center-tapped transformer -/
example : writeTrafoConfigs exStrokes {} 1 ([exWGFirst] ++ { exWGFirst with windings := [exWGHigh, exWGLow, exWGLow], reactances := [1, 2, 3] } :: [exWGOther]) =
    .error .attributeError := by
  refine C104_center_violated {} 1 (fun t ht => ?_) rfl rfl ?_
  · rw [List.mem_singleton.mp ht]
    exact exWG_impedance _ (.head _)
  · show ∀ w ∈ [exWGHigh, exWGLow, exWGLow], w.resistance.isSome = true
    decide

/-- a winding without resistance -/
example : writeTrafoConfigs exStrokes {} 1 ([exWGFirst] ++ { exWGFirst with windings := [exWGHigh, { exWGLow with resistance := none }] } :: [exWGOther]) =
    .error .typeError := by
  refine C104_resistance_violated {} 1 (fun t ht => ?_) rfl rfl (Or.inr rfl)
  rw [List.mem_singleton.mp ht]
  exact exWG_impedance _ (.head _)

/-- a transformer connected as Y and D -/
def exWGTurned : WGTrafo ℚ := { exWGFirst with windings := [exWGLow, exWGHigh] }

/-- two windings of the high side -/
def exWGSides : WGTrafo ℚ := { exWGFirst with windings := [exWGHigh, { exWGLow with voltageType := some 0 }] }

theorem exWG_turned : WritableImpedance exWGTurned :=
  ⟨(fun _ _ _ h _ => by cases h; exact ⟨rfl, rfl⟩), by decide, (fun _ h => by cases h)⟩

theorem exWG_sides : WritableImpedance exWGSides :=
  ⟨(fun _ _ _ h _ => by cases h; exact ⟨rfl, rfl⟩), by decide, (fun _ h => by cases h)⟩

example : ∃ st rows c, writeTrafoConfigs exStrokes {} 1 [exWGTurned] = .ok (st, rows) ∧ Lays rows [c] ∧ configOf st.names "1".toList = nameOf c ∧ (nameOf c).isSome ∧
    ConnectionsSay (attrOf c "connect_type".toList) none none :=
  C104_wye_delta_violated ex_strokes.token exWG_turned rfl rfl rfl rfl

example : ∃ st rows c, writeTrafoConfigs exStrokes {} 1 [exWGSides] = .ok (st, rows) ∧ Lays rows [c] ∧ configOf st.names "1".toList = nameOf c ∧ (nameOf c).isSome ∧
    Value exUnstroke c "primary_voltage".toList 240 ∧ attrOf c "secondary_voltage".toList = none :=
  C104_sides_violated ex_strokes exWG_sides rfl rfl rfl rfl rfl rfl

example : ∃ st rows st', writeTrafoConfigs exStrokes {} 1 [exWGFirst, exWGSame, exWGOther] = .ok (st, rows) ∧
    writeTrafoConfigs exStrokes st 1 [exWGOther] = .ok (st', []) ∧
    ∀ t ∈ [exWGOther], ∀ name, t.name = some name → ∃ n, configOf st'.names name = some n :=
  C104_again_violated ex_strokes.token exWG_impedance fun t ht => by rw [List.mem_singleton.mp ht]; exact .tail _ (.tail _ (.head _))

example : readGlm exSchema (fun _ => .ok false) (fun _ => none) [] (exFile ++ writeTrafoRows [] [] [exWGFirst, exWGSame, exWGOther] ++ []) =
    .error .attributeError :=
  C104_unreadable_violated (fun n t h => by cases h) exWG_writable ⟨exWGFirst, .head _, (fun h => by cases h)⟩ (by decide) ex_lays ex_good
    (by unfold NoInclude; decide +kernel) (fun _ h => by cases h) _ _

end Ditto.Glm
