import Verif.Spec.GlmTrafos
import Verif.Lemmas.GlmCaps
import Verif.Props.GlmSwitches
import Mathlib.Tactic.FieldSimp
import Mathlib.Tactic.Ring

namespace Ditto.Glm
open Ditto Glm.Spec

theorem entry_find {V : Type} (k : Text) : ∀ l : List (Text × V), getEntry k l = (l.find? fun p => p.1 = k).map (·.2) := by
  intro l
  induction l with
  | nil => rfl
  | cons p l ih =>
    obtain ⟨a, v⟩ := p
    unfold getEntry
    by_cases h : a = k
    · rw [if_pos h, List.find?_cons_of_pos (by simpa using h)]
      rfl
    · rw [if_neg h, List.find?_cons_of_neg (by simpa using h)]
      exact ih

theorem entry_attr {o : GldObj} {d : Decl} (ho : Stored o d) (k : Text) : getEntry k o.attrs = attrOf d k := by
  rw [entry_find]
  exact ho.2 k

theorem configObject_ok {objects : List (Text × GldObj)} {ds : List Decl} (hh : Holds objects [] ds) {o : GldObj} {d : Decl} (ho : Stored o d) :
    (∀ oc, configObject objects o = some oc → ∃ c, ConfigIs ds d c ∧ Stored oc c) ∧ (configObject objects o = none → ∀ c, ¬ConfigIs ds d c) := by
  unfold configObject ConfigIs
  rw [entry_attr ho]
  cases hc : attrOf d "configuration".toList with
  | none =>
    refine ⟨fun oc h => (by cases h), fun _ c => ?_⟩
    rintro ⟨n, hn, -⟩
    cases hn
  | some n =>
    dsimp only
    have := hh n
    rw [entry_find]
    cases hl : lastNamed ds n with
    | none =>
      rw [hl] at this
      dsimp only at this
      rw [this]
      refine ⟨fun oc h => (by cases h), fun _ c => ?_⟩
      rintro ⟨n', hn, hc'⟩
      cases hn
      rw [hl] at hc'
      cases hc'
    | some c =>
      rw [hl] at this
      obtain ⟨oc, h1, h2⟩ := this
      rw [h1]
      refine ⟨fun oc' h => ?_, fun h => (by cases h)⟩
      cases h
      exact ⟨c, ⟨n, rfl, hl⟩, h2⟩

theorem config_unique {ds : List Decl} {d c c' : Decl} (h : ConfigIs ds d c) (h' : ConfigIs ds d c') : c = c' := by
  obtain ⟨n, h1, h2⟩ := h
  obtain ⟨n', h1', h2'⟩ := h'
  rw [h1] at h1'
  cases h1'
  rw [h2] at h2'
  cases h2'
  rfl

theorem trafoPhases_ok {o : GldObj} {d : Decl} (ho : Stored o d) : TrafoPhases d (trafoPhases o) := by
  unfold trafoPhases TrafoPhases
  rw [entry_attr ho]
  cases attrOf d "phases".toList with
  | none => exact .inl ⟨rfl, rfl⟩
  | some t =>
    obtain ⟨u, hu⟩ := unquoted_strip t
    refine .inr ⟨t, u, rfl, hu, ?_⟩
    dsimp only
    rw [strip_unquoted hu]
    congr 1
    funext c
    by_cases h1 : c = 'N' <;> by_cases h2 : c = 'S' <;> simp [h1, h2]

theorem connections_ok (t : Option Text) : ConnectionsSay t (trafoConnections t).1 (trafoConnections t).2 := by
  unfold trafoConnections
  split
  · rename_i h; rw [h]; exact .wye
  · split
    · rename_i h; rw [h]; exact .delta
    · split
      · rename_i h; rw [h]; exact .mixed
      · rename_i h1 h2 h3
        exact .other h1 h2 h3

section numbers
variable {K : Type} [Field K] {flt : Text → Option K} {cpx : Text → Option (Cx K)} {o oc : GldObj} {d c : Decl}

theorem tapped_ok (ho : Stored oc c) {x : K} {xs : List K} (h : tappedReactances cpx oc x = .ok xs) :
    (attrOf c "impedance1".toList = none ∧ xs = guessed x) ∨
    (∃ z1, Value cpx c "impedance1".toList z1 ∧ ((attrOf c "impedance2".toList = none ∧ xs = [4 / 5 * x, z1.im, 2 / 5 * x, 2 / 5 * x]) ∨
      ∃ z2, Value cpx c "impedance2".toList z2 ∧ xs = [x, z1.im, z2.im])) := by
  unfold tappedReactances at h
  split at h
  · rename_i h1
    cases h
    exact .inl ⟨(readAs_missing ho).mp h1, rfl⟩
  · cases h
  · rename_i z1 h1
    refine .inr ⟨z1, (readAs_ok ho).mp h1, ?_⟩
    split at h
    · rename_i h2
      cases h
      exact .inl ⟨(readAs_missing ho).mp h2, rfl⟩
    · cases h
    · rename_i z2 h2
      cases h
      exact .inr ⟨z2, (readAs_ok ho).mp h2, rfl⟩

theorem reactances_ok (ho : Stored oc c) {three : Bool} {xs : List K} {zr : Option K} (h : trafoReactances flt cpx three oc = .ok (xs, zr)) :
    (∃ x, Value flt c "reactance".toList x ∧ zr = none ∧ ((three = false ∧ xs = [x]) ∨ (three = true ∧ tappedReactances cpx oc x = .ok xs))) ∨
    (attrOf c "reactance".toList = none ∧ ((attrOf c "impedance".toList = none ∧ xs = [] ∧ zr = none) ∨
      ∃ z, Value cpx c "impedance".toList z ∧ xs = (if three then guessed z.im else [z.im]) ∧ zr = some z.re)) := by
  unfold trafoReactances at h
  split at h
  · rename_i x hx
    refine .inl ⟨x, (readAs_ok ho).mp hx, ?_⟩
    split at h
    · rename_i ht
      split at h
      · cases h
      · rename_i xs' hxs
        cases h
        exact ⟨rfl, .inr ⟨ht, hxs⟩⟩
    · rename_i ht
      cases h
      exact ⟨rfl, .inl ⟨by simpa using ht, rfl⟩⟩
  · rename_i hx
    refine .inr ⟨(readAs_missing ho).mp hx, ?_⟩
    split at h
    · rename_i hz
      cases h
      exact .inl ⟨(readAs_missing ho).mp hz, rfl, rfl⟩
    · cases h
    · rename_i z hz
      cases h
      exact .inr ⟨z, (readAs_ok ho).mp hz, rfl, rfl⟩
  · cases h

/-- the last rating counts -/
theorem ratings_ok (ho : Stored oc c) : ∀ {ks : List Text} {old p : Option K}, trafoPower flt oc ks old = .ok p →
    ((∀ k ∈ ks, attrOf c k = none) ∧ p = old) ∨
      ∃ a k b v, ks = a ++ k :: b ∧ (∀ k' ∈ b, attrOf c k' = none) ∧ Value flt c k v ∧ p = some (v * 1000)
  | [], old, p, h => by
    cases h
    exact .inl ⟨by simp, rfl⟩
  | k :: ks, old, p, h => by
    unfold trafoPower at h
    split at h
    · cases h
    · rename_i v hv
      have hv' := optional_ok ho hv
      rcases ratings_ok ho h with ⟨h1, h2⟩ | ⟨a, k', b, x, h1, h2, h3⟩
      · cases v with
        | none => exact .inl ⟨fun k' hk' => (by
            rcases List.mem_cons.mp hk' with rfl | hk'
            · exact hv'
            · exact h1 k' hk'), h2⟩
        | some x => exact .inr ⟨[], k, ks, x, rfl, h1, hv', h2⟩
      · exact .inr ⟨k :: a, k', b, x, by rw [h1]; rfl, h2, h3⟩

theorem rating_ok (ho : Stored oc c) {p : Option K} (h : trafoPower flt oc ratingNames none = .ok p) (hone : OneRating c) : RatingSays flt c p := by
  obtain ⟨hA, hB, hC⟩ := hone
  have hnot : ∀ {k v}, Value flt c k v → attrOf c k ≠ none := by
    rintro k v ⟨t, ht, -⟩ hn
    rw [ht] at hn
    cases hn
  rcases ratings_ok ho h with ⟨h1, h2⟩ | ⟨a, k, b, v, h1, h2, h3, h4⟩
  · exact .inl ⟨h1 _ (.head _), h2⟩
  · refine .inr ⟨v, ?_, h4⟩
    have hk : k ∈ ratingNames := by rw [h1]; simp
    rcases List.mem_cons.mp hk with rfl | hk
    · exact h3
    · rcases List.mem_cons.mp hk with rfl | hk
      · exact absurd hA (hnot h3)
      · rcases List.mem_cons.mp hk with rfl | hk
        · exact absurd hB (hnot h3)
        · rw [List.mem_singleton] at hk
          subst hk
          exact absurd hC (hnot h3)

theorem halfOf_ok (h2 : (2 : K) ≠ 0) (r : Option K) : HalfOf (r.map (· / 2)) r := by
  cases r with
  | none => exact .inl ⟨rfl, rfl⟩
  | some x => exact .inr ⟨x / 2, x, rfl, rfl, by field_simp⟩

theorem usual_ok (h5 : (5 : K) ≠ 0) (x : K) : Usual x (guessed x) := ⟨4 / 5 * x, 2 / 5 * x, rfl, by field_simp, by field_simp⟩

theorem resistance_ok (ho : Stored oc c) {three : Bool} {xs : List K} {zr r : Option K} (hr : readOptional flt oc "resistance".toList = .ok r)
    (h : trafoReactances flt cpx three oc = .ok (xs, zr)) : ResistanceSays flt cpx c (zr.or r) := by
  rcases reactances_ok ho h with ⟨x, ⟨t, ht, -⟩, rfl, -⟩ | ⟨hn, ⟨hz, -, rfl⟩ | ⟨z, hz, -, rfl⟩⟩
  · exact .own (.inl (by rw [ht]; rfl)) (optional_ok ho hr)
  · exact .own (.inr hz) (optional_ok ho hr)
  · exact .impedance hn hz

theorem tapped_iff (ho : Stored oc c) : centerTapped (getEntry "connect_type".toList oc.attrs) = true ↔ Tapped c := by
  unfold centerTapped Tapped
  rw [entry_attr ho, decide_eq_true_eq]

/-- the parts of a transformer with a configuration -/
theorem configured_ok {r : GReadTrafo K} (h : configured flt cpx o oc = .ok r) : ∃ ps2 loss hv lv rr xs zr p,
    secondPhases (centerTapped (getEntry "connect_type".toList oc.attrs)) (trafoPhases o) = .ok ps2 ∧
    readOptional flt oc "no_load_loss".toList = .ok loss ∧ readOptional flt oc "primary_voltage".toList = .ok hv ∧
    readOptional flt oc "secondary_voltage".toList = .ok lv ∧ readOptional flt oc "resistance".toList = .ok rr ∧
    trafoReactances flt cpx (centerTapped (getEntry "connect_type".toList oc.attrs)) oc = .ok (xs, zr) ∧ trafoPower flt oc ratingNames none = .ok p ∧
    r = { name := readName o, source := getEntry "from".toList o.attrs, sink := getEntry "to".toList o.attrs,
          install := getEntry "install_type".toList oc.attrs, loss := loss, reactances := xs,
          windings :=
            if centerTapped (getEntry "connect_type".toList oc.attrs) then
              threeWindings (trafoConnections (getEntry "connect_type".toList oc.attrs)) (trafoPhases o) ps2 hv lv (zr.or rr) p
            else twoWindings (trafoConnections (getEntry "connect_type".toList oc.attrs)) (trafoPhases o) hv lv (zr.or rr) p } := by
  unfold configured at h
  split at h
  · cases h
  · rename_i ps2 h1
    split at h
    · cases h
    · rename_i loss h2
      split at h
      · cases h
      · rename_i hv h3
        split at h
        · cases h
        · rename_i lv h4
          split at h
          · cases h
          · rename_i rr h5
            split at h
            · cases h
            · rename_i xs zr h6
              split at h
              · cases h
              · rename_i p h7
                injection h with h
                exact ⟨ps2, loss, hv, lv, rr, xs, zr, p, h1, h2, h3, h4, h5, h6, h7, h.symm⟩

theorem twoWindings_ok (h2 : (2 : K) ≠ 0) (ho : Stored o d) (hoc : Stored oc c) {r : GReadTrafo K} (h : configured flt cpx o oc = .ok r) (ht : ¬Tapped c) :
    ∃ w1 w2, TwoSay flt cpx d c r.windings r.reactances w1 w2 := by
  obtain ⟨ps2, loss, hv, lv, rr, xs, zr, p, -, -, h3, h4, h5, h6, h7, rfl⟩ := configured_ok h
  have hf : centerTapped (getEntry "connect_type".toList oc.attrs) = false := by
    rw [← Bool.not_eq_true, tapped_iff hoc]
    exact ht
  rw [hf] at h6
  refine ⟨⟨0, (trafoConnections (getEntry "connect_type".toList oc.attrs)).1, hv, (zr.or rr).map (· / 2), p, trafoPhases o⟩,
    ⟨2, (trafoConnections (getEntry "connect_type".toList oc.attrs)).2, lv, (zr.or rr).map (· / 2), p, trafoPhases o⟩, ?_⟩
  constructor
  · dsimp only
    rw [hf]
    rfl
  · exact ⟨rfl, rfl⟩
  · rw [← entry_attr hoc]
    exact connections_ok _
  · exact optional_ok hoc h3
  · exact optional_ok hoc h4
  · exact ⟨_, resistance_ok hoc h5 h6, halfOf_ok h2 _, halfOf_ok h2 _⟩
  · exact rating_ok hoc h7
  · rfl
  · exact ⟨trafoPhases_ok ho, rfl⟩
  · rcases reactances_ok hoc h6 with ⟨x, hx, -, ⟨-, hxs⟩ | ⟨ht, -⟩⟩ | ⟨hn, ⟨hz, hxs, -⟩ | ⟨z, hz, hxs, -⟩⟩
    · dsimp only
      rw [hxs]
      exact .own hx
    · cases ht
    · dsimp only
      rw [hxs]
      exact .missing hn hz
    · dsimp only
      rw [hxs]
      exact .impedance hn hz

theorem secondPhases_ok {ps ps2 : List Char} (h : secondPhases true ps = .ok ps2) : ∃ a rest, ps = a :: rest ∧ ps2 = 'A' :: rest := by
  unfold secondPhases at h
  rw [if_pos rfl] at h
  split at h
  · cases h
  · rename_i a rest
    injection h with h
    exact ⟨a, rest, rfl, h.symm⟩

theorem threeWindings_ok (h2 : (2 : K) ≠ 0) (h5 : (5 : K) ≠ 0) (ho : Stored o d) (hoc : Stored oc c) {r : GReadTrafo K} (h : configured flt cpx o oc = .ok r)
    (ht : Tapped c) : ∃ w1 w2 w3, ThreeSay flt cpx d c r.windings r.reactances w1 w2 w3 := by
  obtain ⟨ps2, loss, hv, lv, rr, xs, zr, p, h1, -, h3, h4, h5', h6, h7, rfl⟩ := configured_ok h
  have hf := (tapped_iff hoc).mpr ht
  rw [hf] at h6 h1
  obtain ⟨a, rest, e1, e2⟩ := secondPhases_ok h1
  have hcon : trafoConnections (getEntry "connect_type".toList oc.attrs) = (none, none) := by
    rw [entry_attr hoc, show attrOf c "connect_type".toList = _ from ht]
    decide +kernel
  refine ⟨⟨0, none, hv, (zr.or rr).map (· / 2), p, trafoPhases o⟩, ⟨2, none, lv, zr.or rr, p.map (· / 2), ps2⟩, ⟨2, none, lv, zr.or rr, p.map (· / 2), ['B']⟩, ?_⟩
  constructor
  · dsimp only
    rw [hf, hcon]
    rfl
  · exact ⟨rfl, rfl, rfl⟩
  · exact ⟨rfl, rfl, rfl⟩
  · exact optional_ok hoc h3
  · exact ⟨optional_ok hoc h4, rfl⟩
  · exact ⟨resistance_ok hoc h5' h6, halfOf_ok h2 _, rfl⟩
  · exact rating_ok hoc h7
  · exact ⟨halfOf_ok h2 _, rfl⟩
  · exact ⟨trafoPhases_ok ho, by rw [e1, e2]; rfl, rfl⟩
  · intro himp
    dsimp only
    rcases reactances_ok hoc h6 with ⟨x, hx, -, ⟨ht', -⟩ | ⟨-, hxs⟩⟩ | ⟨hn, ⟨hz, hxs, -⟩ | ⟨z, hz, hxs, -⟩⟩
    · cases ht'
    · rcases tapped_ok hoc hxs with ⟨h8, h9⟩ | ⟨z1, hz1, ⟨h8, -⟩ | ⟨z2, hz2, h9⟩⟩
      · exact .usual hx h8 (by rw [h9]; exact usual_ok h5 x)
      · obtain ⟨t, ht1, -⟩ := hz1
        rw [ht1, h8] at himp
        cases himp
      · rw [h9]
        exact .own hx hz1 hz2
    · rw [hxs]
      exact .missing hn hz
    · exact .impedance hn hz (by rw [hxs]; exact usual_ok h5 _)

theorem readName_ok (ho : Stored o d) (hn : (nameOf d).isSome) : nameOf d = some (readName o) := by
  unfold readName
  rw [entry_attr ho]
  show nameOf d = some (match attrOf d "name".toList with | some n => n | none => [])
  unfold attrOf
  rw [if_pos rfl]
  obtain ⟨n, h⟩ := Option.isSome_iff_exists.mp hn
  rw [h]

theorem trafo_ok (h2 : (2 : K) ≠ 0) (h5 : (5 : K) ≠ 0) {objects : List (Text × GldObj)} {ds : List Decl} (hh : Holds objects [] ds) (ho : Stored o d)
    (hn : (nameOf d).isSome) {r : GReadTrafo K} (h : readTrafo flt cpx objects o = .ok r) : TrafoSays flt cpx ds d r := by
  obtain ⟨hc1, hc2⟩ := configObject_ok hh ho
  unfold readTrafo at h
  split at h
  · rename_i oc hoc
    obtain ⟨c, hc, hs⟩ := hc1 oc hoc
    have hu : ∀ c', ConfigIs ds d c' → c' = c := fun c' h' => config_unique h' hc
    have hpre := configured_ok h
    obtain ⟨ps2, loss, hv, lv, rr, xs, zr, p, -, h3, -, -, -, -, -, hr⟩ := hpre
    refine ⟨?_, ?_, ?_, ?_, ?_, ?_, ?_, fun hno => absurd hc (hno c)⟩
    · rw [hr]
      exact readName_ok ho hn
    · rw [hr]
      exact entry_attr ho _
    · rw [hr]
      exact entry_attr ho _
    · intro c' h' ht
      rw [hu c' h'] at ht ⊢
      exact twoWindings_ok h2 ho hs h ht
    · intro c' h' ht
      rw [hu c' h'] at ht ⊢
      exact threeWindings_ok h2 h5 ho hs h ht
    · intro c' h'
      rw [hu c' h', hr]
      exact entry_attr hs _
    · intro c' h'
      rw [hu c' h', hr]
      exact optional_ok hs h3
  · rename_i hoc
    have hno := hc2 hoc
    injection h with hr
    refine ⟨?_, ?_, ?_, fun c' h' => absurd h' (hno c'), fun c' h' => absurd h' (hno c'), fun c' h' => absurd h' (hno c'), fun c' h' => absurd h' (hno c'), fun _ => ?_⟩
    · rw [← hr]
      exact readName_ok ho hn
    · rw [← hr]
      exact entry_attr ho _
    · rw [← hr]
      exact entry_attr ho _
    · rw [← hr]
      exact ⟨rfl, rfl, rfl, _, trafoPhases_ok ho, rfl⟩

/-! ### Reading succeeds -/

theorem ratings_clean (ho : Stored oc c) : ∀ {ks : List Text} {old : Option K}, (∀ k ∈ ks, Clean flt c k) → ∃ p, trafoPower flt oc ks old = .ok p
  | [], old, _ => ⟨old, rfl⟩
  | k :: ks, old, h => by
    obtain ⟨v, hv⟩ := optional_clean ho (h k List.mem_cons_self)
    unfold trafoPower
    rw [hv]
    exact ratings_clean ho fun k' hk' => h k' (List.mem_cons_of_mem _ hk')

theorem reactances_clean (ho : Stored oc c) (three : Bool) (h : CleanConfig flt cpx c) : ∃ x, trafoReactances flt cpx three oc = .ok x := by
  unfold trafoReactances
  rcases readAs_clean ho (h.numbers "reactance".toList (.tail _ (.tail _ (.tail _ (.tail _ (.head _)))))) with ⟨x, hx⟩ | hx
  · rw [hx]
    dsimp only
    split
    · unfold tappedReactances
      rcases readAs_clean ho (h.impedances "impedance1".toList (.tail _ (.head _))) with ⟨z1, h1⟩ | h1
      · rw [h1]
        dsimp only
        rcases readAs_clean ho (h.impedances "impedance2".toList (.tail _ (.tail _ (.head _)))) with ⟨z2, h2⟩ | h2
        · rw [h2]; exact ⟨_, rfl⟩
        · rw [h2]; exact ⟨_, rfl⟩
      · rw [h1]; exact ⟨_, rfl⟩
    · exact ⟨_, rfl⟩
  · rw [hx]
    dsimp only
    rcases readAs_clean ho (h.impedances "impedance".toList (.head _)) with ⟨z, hz⟩ | hz
    · rw [hz]; exact ⟨_, rfl⟩
    · rw [hz]; exact ⟨_, rfl⟩

theorem configured_clean (ho : Stored oc c) (h : CleanConfig flt cpx c) (hp : Tapped c → trafoPhases o ≠ []) : ∃ r, configured flt cpx o oc = .ok r := by
  unfold configured
  have h1 : ∃ ps2, secondPhases (centerTapped (getEntry "connect_type".toList oc.attrs)) (trafoPhases o) = .ok ps2 := by
    unfold secondPhases
    split
    · rename_i ht
      have := hp ((tapped_iff ho).mp ht)
      cases hps : trafoPhases o with
      | nil => exact absurd hps this
      | cons a rest => exact ⟨_, rfl⟩
    · exact ⟨_, rfl⟩
  obtain ⟨ps2, h1⟩ := h1
  obtain ⟨v1, e1⟩ := optional_clean ho (h.numbers "no_load_loss".toList (.head _))
  obtain ⟨v2, e2⟩ := optional_clean ho (h.numbers "primary_voltage".toList (.tail _ (.head _)))
  obtain ⟨v3, e3⟩ := optional_clean ho (h.numbers "secondary_voltage".toList (.tail _ (.tail _ (.head _))))
  obtain ⟨v4, e4⟩ := optional_clean ho (h.numbers "resistance".toList (.tail _ (.tail _ (.tail _ (.head _)))))
  obtain ⟨v5, e5⟩ := reactances_clean ho (centerTapped (getEntry "connect_type".toList oc.attrs)) h
  obtain ⟨v6, e6⟩ := ratings_clean ho (ks := ratingNames) (old := none) (flt := flt) fun k hk =>
    h.numbers k (.tail _ (.tail _ (.tail _ (.tail _ (.tail _ hk)))))
  rw [h1]
  dsimp only
  rw [e1]
  dsimp only
  rw [e2]
  dsimp only
  rw [e3]
  dsimp only
  rw [e4]
  dsimp only
  rw [e5]
  dsimp only
  rw [e6]
  exact ⟨_, rfl⟩

theorem trafoPhases_unique {cs cs' : List Char} (h : TrafoPhases d cs) (h' : TrafoPhases d cs') : cs = cs' := by
  rcases h with ⟨h1, rfl⟩ | ⟨t, u, h1, hu, rfl⟩ <;> rcases h' with ⟨h1', rfl⟩ | ⟨t', u', h1', hu', rfl⟩
  · rfl
  · rw [h1] at h1'; cases h1'
  · rw [h1] at h1'; cases h1'
  · rw [h1] at h1'
    cases h1'
    rw [← strip_unquoted hu, ← strip_unquoted hu']

end numbers
end Ditto.Glm
