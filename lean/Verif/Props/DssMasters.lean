import Verif.Lemmas.DssMasters
import Mathlib.Algebra.Order.Field.Rat

/-! C112: the voltage bases of OpenDSS files, and the master files of feeders. -/
namespace Ditto.Dss
open Ditto Ditto.Spec Ditto.Json

variable {K : Type} [Field K] [LinearOrder K]

/-! ### Voltage bases -/

/-- Without windings, PV systems and capacitors below 300 V: the voltage bases of the master file are exactly the voltages between phases of the objects that are
written and of the sources, each once and in increasing order. Missing: those windings, PV systems and capacitors (see the violations below). -/
theorem C112_voltages_partial (root3 : K) (uses : List (VoltUse K)) (sources : List K)
    (h : ∀ u ∈ uses, u.source = .winding ∨ u.source = .pv ∨ u.source = .capacitor → 300 ≤ u.volt) :
    Voltages (masterVoltages root3 uses sources) fun x => (∃ u ∈ uses, x = lineBase root3 u.volt) ∨ ∃ v ∈ sources, x = v / 1000 := by
  obtain ⟨h1, h2, -⟩ := baseSets_spec root3 uses
  obtain ⟨h3, h4⟩ := addAll_spec (sources.map (· / 1000)) _ h1
  have hs := voltages_sort h3
  refine ⟨hs.sorted, hs.nodup, fun x => ?_⟩
  have key : ∀ u ∈ uses, (x ∈ masterBases root3 u ↔ x = lineBase root3 u.volt) := by
    intro u hu
    have hu' := h u hu
    unfold masterBases lineBase
    cases hk : u.source with
    | winding =>
      have hv : ¬ u.volt < 300 := not_lt.2 (hu' (.inl hk))
      simp only [if_neg hv]
      split <;> simp
    | pv =>
      have hv : ¬ u.volt < 300 := not_lt.2 (hu' (.inr (.inl hk)))
      simp [if_neg hv]
    | capacitor =>
      have hv : ¬ u.volt < 300 := not_lt.2 (hu' (.inr (.inr hk)))
      simp [if_neg hv]
    | threeWinding => simp
    | regulator => simp
    | load => simp
    | storage => simp
  refine (hs.mem x).trans ((h4 x).trans ?_)
  rw [h2, or_comm]
  refine or_congr ⟨?_, ?_⟩ ?_
  · rintro ⟨u, hu, hx⟩
    exact ⟨u, hu, (key u hu).1 hx⟩
  · rintro ⟨u, hu, hx⟩
    exact ⟨u, hu, (key u hu).2 hx⟩
  · rw [List.mem_map]
    exact ⟨fun ⟨v, hv, e⟩ => ⟨v, hv, e.symm⟩, fun ⟨v, hv, e⟩ => ⟨v, hv, e.symm⟩⟩

/-- Without PV systems below 300 V: the voltage bases of a feeder are exactly the voltages between phases of the objects with its names, each once and in
increasing order. Missing: those PV systems. -/
theorem C112_feeder_voltages_partial (root3 : K) (uses : List (VoltUse K)) (m : MasterState K) (hm : m.bases = (baseSets root3 uses).2) (s f : String)
    (h : ∀ u ∈ uses, u.source = .pv → 300 ≤ u.volt) :
    Voltages (feederVoltages m s f) fun x => ∃ u ∈ uses, u.group.1 ++ "_" ++ u.group.2 = s ++ "_" ++ f ∧ x = lineBase root3 u.volt := by
  obtain ⟨-, -, h3⟩ := baseSets_spec root3 uses
  have hs := voltages_sort (h3 (groupKey (s, f))).1
  unfold feederVoltages
  rw [hm]
  refine ⟨hs.sorted, hs.nodup, fun x => (hs.mem x).trans (((h3 (groupKey (s, f))).2 x).trans ?_)⟩
  have key : ∀ u ∈ uses, feederBase root3 u = lineBase root3 u.volt := by
    intro u hu
    have hu' := h u hu
    unfold feederBase lineBase
    by_cases hv : u.volt < 300
    · rw [if_pos hv, if_pos hv]
      cases hk : u.source with
      | pv => exact absurd hv (not_lt.2 (hu' hk))
      | _ => rfl
    · rw [if_neg hv, if_neg hv]
  constructor
  · rintro ⟨u, hu, hk, rfl⟩
    exact ⟨u, hu, hk, key u hu⟩
  · rintro ⟨u, hu, hk, rfl⟩
    exact ⟨u, hu, hk, (key u hu).symm⟩

/-- A winding below 300 V adds its voltage to a neutral to the bases of the master file, too, and PV systems and capacitors add nothing else; in the master file of
the feeder a PV system has twice its voltage. -/
theorem C112_low_violated (root3 v : K) (h0 : 0 < v) (hv : v < 300) (g : String × String) :
    (∀ x, x ∈ masterVoltages root3 [⟨.winding, g, v⟩] [] ↔ x = v / 1000 ∨ x = v * root3 / 1000) ∧
    masterVoltages root3 [⟨.capacitor, g, v⟩] [] = [v / 1000] ∧ masterVoltages root3 [⟨.pv, g, v⟩] [] = [v / 1000] ∧
    (baseSets root3 [⟨.capacitor, g, v⟩]).2.lookup (groupKey g) = some [v * root3 / 1000] ∧
    (baseSets root3 [⟨.pv, g, v⟩]).2.lookup (groupKey g) = some [v * 2 / 1000] := by
  refine ⟨fun x => ?_, by simp [masterVoltages, baseSets, baseStep, masterBases, addBase], by simp [masterVoltages, baseSets, baseStep, masterBases, addBase],
    by simp [baseSets, baseStep, feederBase, hv, addBase, lookup_setKey], by simp [baseSets, baseStep, feederBase, hv, addBase, lookup_setKey]⟩
  obtain ⟨h1, h2, -⟩ := baseSets_spec root3 [⟨.winding, g, v⟩]
  refine ((voltages_sort h1).mem x).trans ((h2 x).trans ?_)
  simp [masterBases, h0, hv]

/-! ### Master files of feeders -/

theorem masterStep_start {m : MasterState K} {nodes : List (ConnNode K)} (h : Startable m nodes) {n : ConnNode K} (hn : n ∈ nodes) {name s f : String}
    (hs : Start n name s f) (files : List (List String × List (FeederMaster K))) :
    masterStep m files n = .ok (putFile [cleanLower s, cleanLower f] [masterFor m n name s f] files) := by
  obtain ⟨name', s', f', hs', h1, h2, h3, h4⟩ := h.starts n hn hs.connection
  have e1 : name' = name := Option.some.inj (hs'.name.symm.trans hs.name)
  have e2 : s' = s := Option.some.inj (hs'.substation.symm.trans hs.substation)
  have e3 : f' = f := Option.some.inj (hs'.feeder.symm.trans hs.feeder)
  subst e1 e2 e3
  obtain ⟨hi, hr⟩ := isFeeder_files h.feeders h.substations h.groups h1 h4
  unfold masterStep
  rw [if_pos hs.connection, hs.feeder, hs.substation, hs.name]
  simp only
  rw [if_neg h2, if_pos h3]
  unfold feederMaster masterFor
  simp only [hi, if_true, hr]

/-- Every connection of a feeder gets a master file in the folder of the feeder, with a circuit at its node, the files of the feeder in the order in which they are
written, and the voltages of the feeder; and no other master files of feeders are written. Missing: models that are not startable (see the violations below). -/
theorem C112_masters_partial (m : MasterState K) (nodes : List (ConnNode K)) (h : Startable m nodes) : ∃ files, feederMasters m nodes = .ok files ∧
    (∀ n ∈ nodes, ∀ name s f, Start n name s f → files.lookup [cleanLower s, cleanLower f] = some [masterFor m n name s f]) ∧
    ∀ p t, files.lookup p = some t → ∃ n ∈ nodes, ∃ name s f, Start n name s f ∧ p = [cleanLower s, cleanLower f] := by
  have main : ∀ l : List (ConnNode K), (∀ n ∈ l, n ∈ nodes) → l.Pairwise (fun a b => ∀ na sa fa nb sb fb, Start a na sa fa → Start b nb sb fb →
        (cleanLower sa, cleanLower fa) ≠ (cleanLower sb, cleanLower fb)) → ∃ files, feederMasters m l = .ok files ∧
      (∀ n ∈ l, ∀ name s f, Start n name s f → files.lookup [cleanLower s, cleanLower f] = some [masterFor m n name s f]) ∧
      ∀ p t, files.lookup p = some t → ∃ n ∈ l, ∃ name s f, Start n name s f ∧ p = [cleanLower s, cleanLower f] := by
    intro l
    induction l using List.reverseRecOn with
    | nil => exact fun _ _ => ⟨[], rfl, fun n hn => absurd hn List.not_mem_nil, fun p t ht => by cases ht⟩
    | append_singleton l n ih =>
      intro hsub hpair
      rw [List.pairwise_append] at hpair
      obtain ⟨files, hf, hown, honly⟩ := ih (fun a ha => hsub a (List.mem_append_left _ ha)) hpair.1
      have hrun : ∀ x, masterStep m files n = .ok x → feederMasters m (l ++ [n]) = .ok x := by
        intro x hx
        unfold feederMasters at hf ⊢
        rw [List.foldlM_append, hf]
        change (masterStep m files n >>= pure) = _
        rw [hx]
        rfl
      by_cases hc : n.connection = true
      · obtain ⟨name, s, f, hs, -⟩ := h.starts n (hsub n (by simp)) hc
        refine ⟨_, hrun _ (masterStep_start h (hsub n (by simp)) hs files), fun a ha na sa fa hsa => ?_, fun p t hp => ?_⟩
        · rw [lookup_putFile]
          rcases List.mem_append.1 ha with ha | ha
          · have hne := hpair.2.2 a ha n (by simp) na sa fa name s f hsa hs
            rw [if_neg, hown a ha na sa fa hsa]
            intro he
            apply hne
            simpa using he
          · have ha' := List.mem_singleton.1 ha
            subst ha'
            have e1 : na = name := Option.some.inj (hsa.name.symm.trans hs.name)
            have e2 : sa = s := Option.some.inj (hsa.substation.symm.trans hs.substation)
            have e3 : fa = f := Option.some.inj (hsa.feeder.symm.trans hs.feeder)
            subst e1 e2 e3
            rw [if_pos rfl]
        · rw [lookup_putFile] at hp
          split at hp
          · exact ⟨n, by simp, name, s, f, hs, ‹_›⟩
          · obtain ⟨a, ha, rest⟩ := honly p t hp
            exact ⟨a, List.mem_append_left _ ha, rest⟩
      · refine ⟨files, hrun _ (by unfold masterStep; rw [if_neg hc]), fun a ha na sa fa hsa => ?_, fun p t hp => ?_⟩
        · rcases List.mem_append.1 ha with ha | ha
          · exact hown a ha na sa fa hsa
          · rw [List.mem_singleton.1 ha] at hsa
            exact absurd hsa.connection hc
        · obtain ⟨a, ha, rest⟩ := honly p t hp
          exact ⟨a, List.mem_append_left _ ha, rest⟩
  exact main nodes (fun _ hn => hn) h.different

/-- two feeders of a substation -/
def exMasters : MasterState ℚ :=
  { sf := true, ss := true, phases := [⟨"Transformers.dss", [("s1", "f1")]⟩, ⟨"Loads.dss", [("s1", "f2"), ("s1", "f1")]⟩, ⟨"WireData.dss", []⟩, ⟨"Lines.dss", [("s1", "f1")]⟩]
    bases := [("S1_f1", [4, 2]), ("S1_f2", [4])], coords := true, folders := fun p => p = ["s1", "f1"] || p = ["s1", "f2"] }

def exNodes : List (ConnNode ℚ) :=
  [⟨some "n.1", true, some "f1", some "S1", some 1, some 4000⟩, ⟨some "n.2", false, none, none, none, none⟩, ⟨some "n.3", true, some "f2", some "S1", none, none⟩]

theorem exMasters_startable : Startable exMasters exNodes where
  feeders := rfl
  substations := rfl
  groups := by
    intro p hp
    refine ⟨by revert p hp; decide +kernel, fun g hg => ?_⟩
    have key : ∀ p ∈ exMasters.phases, ∀ g ∈ p.groups, g = (cleanLower g.1, cleanLower g.2) ∧ cleanLower g.1 ≠ "" := by decide +kernel
    exact ⟨_, _, key p hp g hg⟩
  starts := by
    intro n hn hc
    simp only [exNodes, List.mem_cons, List.not_mem_nil, or_false] at hn
    rcases hn with rfl | rfl | rfl
    · exact ⟨"n.1", "S1", "f1", ⟨rfl, rfl, rfl, rfl⟩, by decide +kernel, by decide +kernel, by decide +kernel, ⟨_, .head _, by decide +kernel⟩⟩
    · cases hc
    · exact ⟨"n.3", "S1", "f2", ⟨rfl, rfl, rfl, rfl⟩, by decide +kernel, by decide +kernel, by decide +kernel, ⟨_, .tail _ (.head _), by decide +kernel⟩⟩
  different := by
    have key : exNodes.Pairwise fun a b => (a.connection = true ∧ b.connection = true) → a.feeder.map cleanLower ≠ b.feeder.map cleanLower := by decide +kernel
    refine key.imp fun {a b} hab na sa fa nb sb fb ha hb he => ?_
    refine hab ⟨ha.connection, hb.connection⟩ ?_
    rw [ha.feeder, hb.feeder, Option.map_some, Option.map_some, (Prod.mk.inj he).2]

theorem exMasters_run : feederMasters exMasters exNodes = .ok
    [(["s1", "f1"], [⟨some "feeder_n.1", "n_1", some 1, some 4, ["Transformers.dss", "Loads.dss", "Lines.dss"], [2, 4], true⟩]),
      (["s1", "f2"], [⟨some "feeder_n.3", "n_3", none, none, ["Loads.dss"], [4], true⟩])] := by decide +kernel

example : (∀ u ∈ ([⟨.load, ("s", "f"), 120⟩, ⟨.winding, ("s", "f"), 7200⟩] : List (VoltUse ℚ)), u.source = .winding ∨ u.source = .pv ∨ u.source = .capacitor → 300 ≤ u.volt) ∧
    masterVoltages (2 : ℚ) [⟨.load, ("s", "f"), 120⟩, ⟨.winding, ("s", "f"), 7200⟩] [7200] = [24 / 100, 72 / 10] := by decide +kernel

/-! ### Where the property does not hold -/

theorem masters_error {m : MasterState K} {pre : List (ConnNode K)} (hpre : ∀ a ∈ pre, a.connection = false) {n : ConnNode K} {e : PyErr}
    (h : masterStep m [] n = .error e) (rest : List (ConnNode K)) : feederMasters m (pre ++ n :: rest) = .error e := by
  have hp : feederMasters m pre = .ok [] := by
    unfold feederMasters
    induction pre with
    | nil => rfl
    | cons a pre ih =>
      rw [List.foldlM_cons]
      have : masterStep m [] a = .ok [] := by unfold masterStep; rw [hpre a List.mem_cons_self]; rfl
      rw [this]
      exact ih fun b hb => hpre b (List.mem_cons_of_mem _ hb)
  unfold feederMasters at hp ⊢
  rw [List.foldlM_append, hp]
  change (masterStep m [] n >>= fun x => rest.foldlM (masterStep m) x) = _
  rw [h]
  rfl

/-- If files are not separated, and so no folders of feeders are made, the writing of a model with a connection of a feeder ends with `FileNotFoundError`. -/
theorem C112_together_violated (m : MasterState K) (hf : ∀ p, m.folders p = true → p = []) (pre rest : List (ConnNode K)) (hpre : ∀ a ∈ pre, a.connection = false)
    (n : ConnNode K) (name s f : String) (hn : Start n name s f) (hne : cleanLower f ≠ "") :
    feederMasters m (pre ++ n :: rest) = .error .fileNotFoundError := by
  refine masters_error hpre ?_ rest
  unfold masterStep
  rw [if_pos hn.connection, hn.feeder, hn.substation]
  simp only
  have : ¬ m.folders [cleanLower s, cleanLower f] = true := by
    intro h
    have := hf _ h
    cases this
  rw [if_neg hne, if_neg this]

/-- A connection without the name of a feeder ends the writing with `AttributeError`. -/
theorem C112_none_violated (m : MasterState K) (pre rest : List (ConnNode K)) (hpre : ∀ a ∈ pre, a.connection = false) (n : ConnNode K)
    (hc : n.connection = true) (hn : n.feeder = none) : feederMasters m (pre ++ n :: rest) = .error .attributeError := by
  refine masters_error hpre ?_ rest
  unfold masterStep
  rw [if_pos hc, hn]

theorem redirects_files {sf : Bool} {ps : List Phase} {k x : String} (hx : x ∈ ((feedersRedirect sf ps).lookup k).getD []) : ∃ p ∈ ps, p.file = x ∧ p.groups ≠ [] := by
  cases sf with
  | false =>
    have hnil : feedersRedirect false ps = [] := by
      clear hx
      unfold feedersRedirect
      generalize ([] : List (String × List String)) = d
      induction ps generalizing d with
      | nil => rfl
      | cons p ps ih =>
        rw [List.foldl_cons]
        have : p.groups.foldl (fun d g => if false = true then appendAt (joinPath g.1 g.2) p.file d else d) d = d := by
          generalize p.groups = gs
          induction gs with
          | nil => rfl
          | cons g gs ihg => rw [List.foldl_cons]; exact ihg
        rw [this]
        exact ih d
    rw [hnil] at hx
    cases hx
  | true =>
    rw [feedersRedirect_eq, lookup_appendAll] at hx
    split at hx
    · cases hx
    · rw [Option.getD_some] at hx
      obtain ⟨e, he, rfl⟩ := List.mem_map.1 hx
      obtain ⟨p, hp, he⟩ := List.mem_flatMap.1 (List.mem_filter.1 he).1
      obtain ⟨g, hg, rfl⟩ := List.mem_map.1 he
      exact ⟨p, hp, rfl, List.ne_nil_of_mem hg⟩

theorem masters_files {m : MasterState K} : ∀ {nodes : List (ConnNode K)} {files : List (List String × List (FeederMaster K))}, feederMasters m nodes = .ok files →
    ∀ p t, files.lookup p = some t → ∃ s f name n, cleanLower f ≠ "" ∧ p = [cleanLower s, cleanLower f] ∧ t = [feederMaster m s f name n] := by
  intro nodes
  induction nodes using List.reverseRecOn with
  | nil =>
    intro files h p t ht
    cases h
    cases ht
  | append_singleton l n ih =>
    intro files h p t ht
    unfold feederMasters at h
    rw [List.foldlM_append] at h
    cases hl : feederMasters m l with
    | error e =>
      unfold feederMasters at hl
      rw [hl] at h
      cases h
    | ok fs =>
      have hl' := hl
      unfold feederMasters at hl'
      rw [hl'] at h
      have h : masterStep m fs n = .ok files := by
        change (masterStep m fs n >>= pure) = _ at h
        cases hm : masterStep m fs n with
        | error e => rw [hm] at h; cases h
        | ok x => rw [hm] at h; exact h
      unfold masterStep at h
      split at h
      · split at h
        · cases h
        · cases h
        · rename_i f s _ _
          split at h
          · cases h; exact ih hl p t ht
          · split at h
            · split at h
              · cases h
              · rename_i hne _ _ name _
                cases h
                rw [lookup_putFile] at ht
                split at ht
                · cases ht
                  exact ⟨s, f, name, n, hne, ‹_›, rfl⟩
                · exact ih hl p t ht
            · cases h
      · cases h; exact ih hl p t ht

/-- No master file of a feeder redirects to the files of wires, cables and geometries, which are in the base folder, though lines of the feeder use them. -/
theorem C112_wires_violated (m : MasterState K) (nodes : List (ConnNode K)) (files : List (List String × List (FeederMaster K))) (h : feederMasters m nodes = .ok files)
    (file : String) (hbase : ∀ p ∈ m.phases, p.file = file → p.groups = []) : ∀ p t, files.lookup p = some t → ∀ x ∈ t, file ∉ x.redirects := by
  intro p t ht x hx hmem
  obtain ⟨s, f, name, n, -, -, rfl⟩ := masters_files h p t ht
  rw [List.mem_singleton.1 hx] at hmem
  unfold feederMaster at hmem
  simp only at hmem
  split at hmem
  · obtain ⟨q, hq, hqf, hqg⟩ := redirects_files hmem
    exact hqg (hbase q hq hqf)
  · cases hmem

example : ∀ p ∈ exMasters.phases, p.file = "WireData.dss" → p.groups = [] := by decide +kernel

/-- No master file of a substation is written. -/
theorem C112_substations_violated (m : MasterState K) (nodes : List (ConnNode K)) (files : List (List String × List (FeederMaster K)))
    (h : feederMasters m nodes = .ok files) : ∀ p t, files.lookup p = some t → ∃ s f, f ≠ "" ∧ p = [s, f] := by
  intro p t ht
  obtain ⟨s, f, name, n, hf, hp, -⟩ := masters_files h p t ht
  exact ⟨_, _, hf, hp⟩

/-- A feeder with nothing but nodes gets a master file without a circuit. -/
theorem C112_empty_violated : ∃ m : MasterState ℚ, m.sf = true ∧ m.ss = true ∧ feederMasters m [⟨some "n", true, some "f1", some "s1", some 1, some 4000⟩] =
    .ok [(["s1", "f1"], [⟨none, "n", some 1, some 4, [], [], true⟩])] :=
  ⟨⟨true, true, [], [], true, fun p => p = ["s1", "f1"]⟩, rfl, rfl, by decide +kernel⟩

/-- Of two connections of a feeder the second has the master file. -/
theorem C112_overwritten_violated : feederMasters exMasters [⟨some "a", true, some "f1", some "S1", some 1, none⟩, ⟨some "b", true, some "f1", some "S1", some 2, none⟩] =
    .ok [(["s1", "f1"], [⟨some "feeder_b", "b", some 2, none, ["Transformers.dss", "Loads.dss", "Lines.dss"], [2, 4], true⟩])] := by decide +kernel

/-- A feeder of no substation with the name of a substation gets a master file without a circuit. -/
theorem C112_name_violated : ∃ m : MasterState ℚ, m.sf = true ∧ m.ss = true ∧ feederMasters m [⟨some "n", true, some "x", some "", some 1, none⟩] =
    .ok [(["", "x"], [⟨none, "n", some 1, none, [], [], true⟩])] ∧ ("", "x") ∈ (m.phases.flatMap (·.groups)) :=
  ⟨⟨true, true, [⟨"Loads.dss", [("", "x"), ("x", "f")]⟩], [], true, fun p => p = ["", "x"]⟩, rfl, rfl, by decide +kernel, by decide +kernel⟩

end Ditto.Dss
