import Verif.Lemmas.GlmTrafos
import Verif.Props.GlmCaps
import Verif.Props.GlmLoadWrite
import Mathlib.Tactic.NormNum
import Mathlib.Tactic.LinearCombination

/-! C103: the transformers of GridLAB-D files. -/
namespace Ditto.Glm
open Ditto Glm.Spec

section numbers
variable {K : Type} [Field K] {flt : Text → Option K} {cpx : Text → Option (Cx K)} {schema : Schema} {due : List Text → Py Bool}
  {files : Text → Option (List Text)} {rows : List Text} {s : GState} {ds : List Decl} {rs : List (GReadTrafo K)}

theorem trafo_file (hr : readGlm schema due files [] rows = .ok s) :
    readTrafoFile flt cpx schema due files [] rows = readClass "transformer".toList (readTrafo flt cpx s.objects) s.objects := by
  unfold readTrafoFile
  rw [hr]

/-- C103 (partial): reading a file gives exactly one transformer for each name of a transformer in the file, with the ends, windings, phases, connections,
voltages, resistances, reactances and the rated power that the file says -/
theorem C103_transformers_partial (h2 : (2 : K) ≠ 0) (h5 : (5 : K) ≠ 0) (hr : readGlm schema due files [] rows = .ok s) (hh : Holds s.objects [] ds)
    (h : readTrafoFile flt cpx schema due files [] rows = .ok rs) :
    ∃ names : List Text, names.Nodup ∧ (∀ n, n ∈ names ↔ ∃ d, lastNamed ds n = some d ∧ d.cls = "transformer".toList) ∧
      List.Forall₂ (fun n r => ∃ d, lastNamed ds n = some d ∧ TrafoSays flt cpx ds d r) names rs := by
  rw [trafo_file hr] at h
  exact class_names (fun ho hn h => trafo_ok h2 h5 hh ho hn h) hr hh h

/-- a file with clean numbers is read, if center-tapped transformers have phases -/
theorem C103_succeeds (hr : readGlm schema due files [] rows = .ok s) (hh : Holds s.objects [] ds)
    (hc : ∀ n d, lastNamed ds n = some d → d.cls = "transformer".toList → ∀ c, ConfigIs ds d c → CleanConfig flt cpx c ∧ (Tapped c → ∃ cs, TrafoPhases d cs ∧ cs ≠ [])) :
    ∃ rs, readTrafoFile flt cpx schema due files [] rows = .ok rs := by
  rw [trafo_file hr]
  refine class_clean fun p hp hcls => ?_
  obtain ⟨d, hd, hs⟩ := holds_mem hh (glm_once hr) hp
  unfold readTrafo
  cases hco : configObject s.objects p.2 with
  | none => exact ⟨_, rfl⟩
  | some oc =>
    obtain ⟨c, hc', hsc⟩ := (configObject_ok hh hs).1 oc hco
    obtain ⟨h1, h2⟩ := hc p.1 d hd (by rw [← hs.1]; exact hcls) c hc'
    refine configured_clean hsc h1 fun ht => ?_
    obtain ⟨cs, hcs, hne⟩ := h2 ht
    rw [trafoPhases_unique (trafoPhases_ok hs) hcs]
    exact hne

/-- the transformer for a name, with its objects -/
theorem trafo_found (hr : readGlm schema due files [] rows = .ok s) (hh : Holds s.objects [] ds) (h : readTrafoFile flt cpx schema due files [] rows = .ok rs)
    {n : Text} {d c : Decl} (hd : lastNamed ds n = some d) (hc : d.cls = "transformer".toList) (hcon : ConfigIs ds d c) :
    ∃ r ∈ rs, ∃ o oc, Stored o d ∧ Stored oc c ∧ readName o = n ∧ configured flt cpx o oc = .ok r := by
  rw [trafo_file hr] at h
  obtain ⟨o, ho, hs⟩ := holds_find hh (glm_once hr) hd
  have hall := class_ok h
  obtain ⟨r, hr', hread⟩ := found_right hall (List.mem_filter.mpr ⟨ho, by simp [hs.1, hc]⟩)
  refine ⟨r, hr', o, ?_⟩
  have hname : readName o = n := by
    have h1 := readName_ok hs (by rw [lastNamed_name hd]; rfl)
    rw [lastNamed_name hd] at h1
    injection h1 with h1
    exact h1.symm
  unfold readTrafo at hread
  split at hread
  · rename_i oc hco
    obtain ⟨c', hc', hsc⟩ := (configObject_ok hh hs).1 oc hco
    rw [config_unique hc' hcon] at hsc
    exact ⟨oc, hs, hsc, hname, hread⟩
  · rename_i hco
    exact absurd hcon ((configObject_ok hh hs).2 hco c)

/-- C103 violated: if ratings are given for the phases, the rated power is the one of phase C only -/
theorem C103_ratings_violated (hr : readGlm schema due files [] rows = .ok s) (hh : Holds s.objects [] ds)
    (h : readTrafoFile flt cpx schema due files [] rows = .ok rs) {n : Text} {d c : Decl} (hd : lastNamed ds n = some d) (hc : d.cls = "transformer".toList)
    (hcon : ConfigIs ds d c) {v : K} (hv : Value flt c "powerC_rating".toList v) :
    ∃ r ∈ rs, r.name = n ∧ ∃ w ws, r.windings = w :: ws ∧ w.power = some (v * 1000) := by
  obtain ⟨r, hm, o, oc, -, hsc, hname, hread⟩ := trafo_found hr hh h hd hc hcon
  obtain ⟨ps2, loss, hv', lv, rr, xs, zr, p, -, -, -, -, -, -, h7, rfl⟩ := configured_ok hread
  refine ⟨_, hm, hname, ?_⟩
  have hp : p = some (v * 1000) := by
    obtain ⟨t, ht, hvt⟩ := hv
    rcases ratings_ok hsc h7 with ⟨h1, -⟩ | ⟨a, k, b, x, h1, h2, h3, h4⟩
    · have := h1 "powerC_rating".toList (.tail _ (.tail _ (.tail _ (.head _))))
      rw [ht] at this
      cases this
    · have hk : k = "powerC_rating".toList := by
        rcases List.eq_nil_or_concat b with rfl | ⟨b', l, rfl⟩
        · have := congrArg List.getLast? h1
          rw [List.getLast?_append] at this
          simp [ratingNames] at this
          exact this.symm
        · exfalso
          have hl : l = "powerC_rating".toList := by
            have := congrArg List.getLast? h1
            rw [List.concat_eq_append, ← List.cons_append, ← List.append_assoc, List.getLast?_append] at this
            simp [ratingNames] at this
            exact this.symm
          have := h2 l (by simp)
          rw [hl, ht] at this
          cases this
      rw [hk] at h3
      obtain ⟨t', ht', hvt'⟩ := h3
      rw [ht] at ht'
      cases ht'
      rw [hvt] at hvt'
      cases hvt'
      exact h4
  subst hp
  dsimp only
  split
  · exact ⟨_, _, rfl, rfl⟩
  · exact ⟨_, _, rfl, rfl⟩

/-- C103 violated: the numbers that GridLAB-D allows for connections are not understood; a center-tapped transformer gets two windings -/
theorem C103_numbers_violated (hr : readGlm schema due files [] rows = .ok s) (hh : Holds s.objects [] ds)
    (h : readTrafoFile flt cpx schema due files [] rows = .ok rs) {n : Text} {d c : Decl} (hd : lastNamed ds n = some d) (hc : d.cls = "transformer".toList)
    (hcon : ConfigIs ds d c) {k : Char} (hk : k ∈ ['1', '2', '3', '4', '5']) (ht : attrOf c "connect_type".toList = some [k]) :
    ∃ r ∈ rs, r.name = n ∧ ∃ w1 w2, r.windings = [w1, w2] ∧ w1.connection = none ∧ w2.connection = none := by
  obtain ⟨r, hm, o, oc, -, hsc, hname, hread⟩ := trafo_found hr hh h hd hc hcon
  obtain ⟨ps2, loss, hv', lv, rr, xs, zr, p, -, -, -, -, -, -, -, rfl⟩ := configured_ok hread
  refine ⟨_, hm, hname, ?_⟩
  have key : ∀ k ∈ ['1', '2', '3', '4', '5'], centerTapped (some [k]) = false ∧ trafoConnections (some [k]) = (none, none) := by decide +kernel
  obtain ⟨h1, h2⟩ := key k hk
  dsimp only
  rw [entry_attr hsc, ht, h1, h2]
  exact ⟨_, _, rfl, rfl, rfl⟩

/-- C103 violated: the secondary windings of a center-tapped transformer have the phases A and B, whatever its phase -/
theorem C103_phase_violated (hr : readGlm schema due files [] rows = .ok s) (hh : Holds s.objects [] ds)
    (h : readTrafoFile flt cpx schema due files [] rows = .ok rs) {n : Text} {d c : Decl} (hd : lastNamed ds n = some d) (hc : d.cls = "transformer".toList)
    (hcon : ConfigIs ds d c) (ht : Tapped c) {p : Char} (hp : TrafoPhases d [p]) :
    ∃ r ∈ rs, r.name = n ∧ r.windings.map (·.phases) = [[p], ['A'], ['B']] := by
  obtain ⟨r, hm, o, oc, hs, hsc, hname, hread⟩ := trafo_found hr hh h hd hc hcon
  obtain ⟨ps2, loss, hv', lv, rr, xs, zr, p', h1, -, -, -, -, -, -, rfl⟩ := configured_ok hread
  refine ⟨_, hm, hname, ?_⟩
  have hf := (tapped_iff hsc).mpr ht
  rw [hf, trafoPhases_unique (trafoPhases_ok hs) hp] at h1
  obtain ⟨a, rest, e1, e2⟩ := secondPhases_ok h1
  cases e1
  dsimp only
  rw [hf, trafoPhases_unique (trafoPhases_ok hs) hp, e2]
  rfl

/-- C103 violated: a center-tapped transformer with the impedance of one secondary winding only gets four reactances -/
theorem C103_reactances_violated (hr : readGlm schema due files [] rows = .ok s) (hh : Holds s.objects [] ds)
    (h : readTrafoFile flt cpx schema due files [] rows = .ok rs) {n : Text} {d c : Decl} (hd : lastNamed ds n = some d) (hc : d.cls = "transformer".toList)
    (hcon : ConfigIs ds d c) (ht : Tapped c) (hx : (attrOf c "reactance".toList).isSome) (h1 : (attrOf c "impedance1".toList).isSome)
    (h2 : attrOf c "impedance2".toList = none) : ∃ r ∈ rs, r.name = n ∧ r.reactances.length = 4 := by
  obtain ⟨r, hm, o, oc, -, hsc, hname, hread⟩ := trafo_found hr hh h hd hc hcon
  obtain ⟨ps2, loss, hv', lv, rr, xs, zr, p, -, -, -, -, -, h6, -, rfl⟩ := configured_ok hread
  refine ⟨_, hm, hname, ?_⟩
  have hf := (tapped_iff hsc).mpr ht
  rw [hf] at h6
  dsimp only
  rcases reactances_ok hsc h6 with ⟨x, -, -, ⟨ht', -⟩ | ⟨-, hxs⟩⟩ | ⟨hn, -⟩
  · cases ht'
  · rcases tapped_ok hsc hxs with ⟨h8, -⟩ | ⟨z1, -, ⟨-, h9⟩ | ⟨z2, ⟨t, ht2, -⟩, -⟩⟩
    · rw [h8] at h1; cases h1
    · rw [h9]; rfl
    · rw [h2] at ht2; cases ht2
  · rw [hn] at hx; cases hx

/-- C103 violated: a file with a center-tapped transformer without phases cannot be read -/
theorem C103_no_phases_violated (hr : readGlm schema due files [] rows = .ok s) (hh : Holds s.objects [] ds) {n : Text} {d c : Decl}
    (hd : lastNamed ds n = some d) (hc : d.cls = "transformer".toList) (hcon : ConfigIs ds d c) (ht : Tapped c) (hp : TrafoPhases d []) :
    ∀ rs, readTrafoFile flt cpx schema due files [] rows ≠ .ok rs := by
  intro rs h
  obtain ⟨r, hm, o, oc, hs, hsc, -, hread⟩ := trafo_found hr hh h hd hc hcon
  obtain ⟨ps2, loss, hv', lv, rr, xs, zr, p, h1, -⟩ := configured_ok hread
  rw [(tapped_iff hsc).mpr ht, trafoPhases_unique (trafoPhases_ok hs) hp] at h1
  cases h1

/-- the resistance of two windings in series is the one of the configuration -/
theorem C103_series {d c : Decl} {ws : List (GWinding K)} {xs : List K} {w1 w2 : GWinding K} (h : TwoSay flt cpx d c ws xs w1 w2)
    {r1 r2 : K} (e1 : w1.resistance = some r1) (e2 : w2.resistance = some r2) (h2 : (2 : K) ≠ 0) : ResistanceSays flt cpx c (some (r1 + r2)) ∧ r1 = r2 := by
  obtain ⟨r, h1, hr1, hr2⟩ := h.resistance
  rcases hr1 with ⟨hn, -⟩ | ⟨x, y, hx, rfl, h3⟩
  · rw [e1] at hn; cases hn
  · rcases hr2 with ⟨hn, -⟩ | ⟨x', y', hx', hy, h4⟩
    · rw [e2] at hn; cases hn
    · rw [e1] at hx
      rw [e2] at hx'
      injection hx with hx
      injection hx' with hx'
      injection hy with hy
      subst hx hx' hy
      have e : r1 = r2 := mul_left_cancel₀ h2 (h3.trans h4.symm)
      refine ⟨?_, e⟩
      rw [← e, ← two_mul, h3]
      exact h1

/-- the resistance of three windings, the last two of them parallel, is the one of the configuration -/
theorem C103_parallel {d c : Decl} {ws : List (GWinding K)} {xs : List K} {w1 w2 w3 : GWinding K} (h : ThreeSay flt cpx d c ws xs w1 w2 w3)
    {r1 r2 r3 : K} (e1 : w1.resistance = some r1) (e2 : w2.resistance = some r2) (e3 : w3.resistance = some r3) (h20 : (2 : K) ≠ 0) :
    ResistanceSays flt cpx c (some (r1 + r2 * r3 / (r2 + r3))) := by
  obtain ⟨h1, h2, h3⟩ := h.resistance
  rw [e2] at h1 h2 h3
  rw [e3] at h3
  injection h3 with h3
  rcases h2 with ⟨h2, -⟩ | ⟨x, y, hx, hy, h2⟩
  · rw [e1] at h2; cases h2
  · rw [e1] at hx
    injection hx with hx
    injection hy with hy
    subst hx hy h3
    have : r1 + r3 * r3 / (r3 + r3) = r3 := by
      by_cases h0 : r3 = 0
      · subst h0
        have h0 : r1 = 0 := by
          rcases mul_eq_zero.mp h2 with h | h
          · exact absurd h h20
          · exact h
        simp [h0]
      · have hne : r3 + r3 ≠ 0 := by rw [← two_mul]; exact mul_ne_zero h20 h0
        rw [eq_comm, ← sub_eq_iff_eq_add', eq_div_iff hne]
        linear_combination (-r3) * h2
    rw [this]
    exact h1

end numbers

/-! ### an example -/

/-- a file in which each object has another name -/
theorem holds_all : ∀ {l : List (Text × GldObj)}, (l.map (·.1)).Nodup →
    (∀ p ∈ l, p.2.cls ∉ leftOut ∧ (p.2.attrs.map (·.1)).Nodup ∧ lastValue p.2.attrs "name".toList = some p.1) →
    Holds l [] (l.map fun p => ⟨p.2.cls, none, p.2.attrs⟩)
  | [], _, _ => fun n => rfl
  | p :: l, hn, h => by
    rw [List.map_cons, List.nodup_cons] at hn
    have ih := holds_all hn.2 fun q hq => h q (List.mem_cons_of_mem _ hq)
    obtain ⟨hc, ha, hl⟩ := h p List.mem_cons_self
    have hname : nameOf ⟨p.2.cls, none, p.2.attrs⟩ = some p.1 := by
      unfold nameOf
      rw [hl]
    intro m
    have ihm := ih m
    rw [List.map_cons, lastNamed_cons]
    by_cases hm : p.1 = m
    · have hno : lastNamed (l.map fun p => (⟨p.2.cls, none, p.2.attrs⟩ : Decl)) m = none := by
        refine lastNamed_none fun d hd => ?_
        obtain ⟨q, hq, rfl⟩ := List.mem_map.mp hd
        have hq' : nameOf ⟨q.2.cls, none, q.2.attrs⟩ = some q.1 := by
          unfold nameOf
          rw [(h q (List.mem_cons_of_mem _ hq)).2.2]
        rw [hq']
        intro e
        injection e with e
        exact hn.1 (List.mem_map.mpr ⟨q, hq, e.trans hm.symm⟩)
      rw [hno, hname, Option.none_or]
      have e0 : p.2.cls ∉ leftOut ∧ some p.1 = some m := ⟨hc, by rw [hm]⟩
      rw [if_pos e0]
      refine ⟨p.2, by rw [List.find?_cons_of_pos (by simpa using hm)]; rfl, rfl, fun k => ?_⟩
      rw [← lastValue_nodup ha]
      unfold attrOf
      by_cases hk : k = "name".toList
      · rw [if_pos hk, hk, hname, hl]
      · rw [if_neg hk]
    · have e0 : ¬(p.2.cls ∉ leftOut ∧ nameOf ⟨p.2.cls, none, p.2.attrs⟩ = some m) := by
        rw [hname]
        rintro ⟨-, e⟩
        injection e with e
        exact hm e
      rw [if_neg e0, Option.or_none]
      rw [List.find?_cons_of_neg (by simpa using hm)]
      exact ihm

/-- the attributes of transformers -/
def exTrafoSchema : Schema := fun c =>
  if c = "transformer".toList then some ["name".toList, "from".toList, "to".toList, "phases".toList, "configuration".toList]
  else if c = "transformer_configuration".toList then
    some ["name".toList, "connect_type".toList, "install_type".toList, "primary_voltage".toList, "secondary_voltage".toList, "power_rating".toList,
      "powerA_rating".toList, "powerC_rating".toList, "resistance".toList, "reactance".toList, "impedance".toList, "impedance1".toList, "impedance2".toList]
  else none

/-- a center-tapped transformer -/
def exTapped : List (Text × Text) :=
  [("name".toList, "t1".toList), ("from".toList, "n1".toList), ("to".toList, "n2".toList), ("phases".toList, "\"BS\"".toList), ("configuration".toList, "k1".toList)]

/-- its configuration, with one impedance only -/
def exTappedConfig : List (Text × Text) :=
  [("name".toList, "k1".toList), ("connect_type".toList, "SINGLE_PHASE_CENTER_TAPPED".toList), ("primary_voltage".toList, "7200".toList),
    ("power_rating".toList, "6".toList), ("resistance".toList, "3".toList), ("reactance".toList, "6".toList), ("impedance1".toList, "3+4j".toList)]

/-- a transformer with two windings -/
def exTwo : List (Text × Text) :=
  [("name".toList, "t2".toList), ("from".toList, "n2".toList), ("to".toList, "n3".toList), ("phases".toList, "ABCN".toList), ("configuration".toList, "k2".toList)]

/-- its configuration, with ratings for the phases -/
def exTwoConfig : List (Text × Text) :=
  [("name".toList, "k2".toList), ("connect_type".toList, "DELTA_GWYE".toList), ("install_type".toList, "PADMOUNT".toList), ("primary_voltage".toList, "7200".toList),
    ("secondary_voltage".toList, "6".toList), ("powerA_rating".toList, "6".toList), ("powerC_rating".toList, "3".toList), ("impedance".toList, "10+5j".toList)]

/-- the objects -/
def exTrafoObjects : List (Text × GldObj) :=
  [("k1".toList, ⟨"transformer_configuration".toList, exTappedConfig⟩), ("t1".toList, ⟨"transformer".toList, exTapped⟩), ("t2".toList, ⟨"transformer".toList, exTwo⟩),
    ("k2".toList, ⟨"transformer_configuration".toList, exTwoConfig⟩)]

/-- the rows of a file -/
def exObjectRows (l : List (Text × GldObj)) : List Text :=
  l.flatMap fun p => ("object ".toList ++ p.2.cls ++ " {".toList) :: (p.2.attrs.map fun a => "  ".toList ++ a.1 ++ ' ' :: a.2 ++ [';']) ++ ["}".toList]

theorem ex_trafo_read : readGlm exTrafoSchema (fun _ => .ok true) (fun _ => none) [] (exObjectRows exTrafoObjects) =
    .ok { objects := exTrafoObjects, schedules := [] } := rfl

/-- the declarations -/
def exTrafoDecls : List Decl := exTrafoObjects.map fun p => ⟨p.2.cls, none, p.2.attrs⟩

theorem ex_trafo_holds : Holds exTrafoObjects [] exTrafoDecls := holds_all (by decide +kernel) (by decide +kernel)

/-- the transformers that are read -/
def exTrafos : List (GReadTrafo ℚ) :=
  [⟨"t1".toList, some "n1".toList, some "n2".toList, none, none, [24 / 5, 4, 12 / 5, 12 / 5],
      [⟨0, none, some 7200, some (3 / 2), some 6000, ['B']⟩, ⟨2, none, none, some 3, some 3000, ['A']⟩, ⟨2, none, none, some 3, some 3000, ['B']⟩]⟩,
    ⟨"t2".toList, some "n2".toList, some "n3".toList, some "PADMOUNT".toList, none, [5],
      [⟨0, some 'D', some 7200, some 5, some 3000, ['A', 'B', 'C']⟩, ⟨2, some 'Y', some 6, some 5, some 3000, ['A', 'B', 'C']⟩]⟩]

theorem ex_trafo_ok : readTrafoFile exReal exComplex exTrafoSchema (fun _ => .ok true) (fun _ => none) [] (exObjectRows exTrafoObjects) = .ok exTrafos := by
  rw [trafo_file ex_trafo_read]
  decide +kernel

example : ∃ names : List Text, names.Nodup ∧ (∀ n, n ∈ names ↔ ∃ d, lastNamed exTrafoDecls n = some d ∧ d.cls = "transformer".toList) ∧
    List.Forall₂ (fun n r => ∃ d, lastNamed exTrafoDecls n = some d ∧ TrafoSays exReal exComplex exTrafoDecls d r) names exTrafos :=
  C103_transformers_partial (by norm_num) (by norm_num) ex_trafo_read ex_trafo_holds ex_trafo_ok

theorem ex_tapped_config : ConfigIs exTrafoDecls ⟨"transformer".toList, none, exTapped⟩ ⟨"transformer_configuration".toList, none, exTappedConfig⟩ := ⟨"k1".toList, rfl, rfl⟩

theorem ex_two_config : ConfigIs exTrafoDecls ⟨"transformer".toList, none, exTwo⟩ ⟨"transformer_configuration".toList, none, exTwoConfig⟩ := ⟨"k2".toList, rfl, rfl⟩

example : ∃ r ∈ exTrafos, r.name = "t1".toList ∧ r.windings.map (·.phases) = [['B'], ['A'], ['B']] :=
  C103_phase_violated ex_trafo_read ex_trafo_holds ex_trafo_ok (n := "t1".toList) rfl rfl ex_tapped_config rfl
    (.inr ⟨"\"BS\"".toList, "BS".toList, rfl, ⟨1, 1, by decide, by decide, by decide⟩, by decide⟩)

example : ∃ r ∈ exTrafos, r.name = "t1".toList ∧ r.reactances.length = 4 :=
  C103_reactances_violated ex_trafo_read ex_trafo_holds ex_trafo_ok (n := "t1".toList) rfl rfl ex_tapped_config rfl rfl rfl rfl

example : ∃ r ∈ exTrafos, r.name = "t2".toList ∧ ∃ w ws, r.windings = w :: ws ∧ w.power = some (3 * 1000) :=
  C103_ratings_violated ex_trafo_read ex_trafo_holds ex_trafo_ok (n := "t2".toList) rfl rfl ex_two_config ⟨"3".toList, rfl, by decide +kernel⟩

end Ditto.Glm
