import Verif.Lemmas.SynPvs
import Mathlib.Algebra.Field.Rat
import Mathlib.Tactic.NormNum

/-! C101: photovoltaics of Synergi databases. -/
namespace Ditto.Syn
open Ditto Glm Syn.Spec

section
variable {K : Type} [Field K] [DecidableEq K] {rnd : K → K} {num : Text → Option K} {db : PvDb K} {vs : List (SynPv K)}

/-- the sections that become lines, after `ToLowerCase` -/
def pvLines (db : PvDb K) : List SecRow := db.secs.filter fun s => decide (lower s.id ∉ db.skipped.map lower)

theorem pvLines_eq : (((lowerPvDb db).secs).filter fun s => decide (s.id ∉ (lowerPvDb db).skipped)) = (pvLines db).map lowerSec :=
  lines_eq (db := (⟨db.feederTable, db.skipped, db.secs, [], []⟩ : LoadDb K))

theorem mem_pvLines {s : SecRow} : s ∈ pvLines db ↔ IsLine db.skipped db.secs s :=
  mem_lines (db := (⟨db.feederTable, db.skipped, db.secs, [], []⟩ : LoadDb K))

/-- the steps of a successful reading -/
theorem readPvs_ok (h : readPvs rnd num db = .ok vs) : ∃ feeders volts a b, sectionFeeders (db.secs.map lowerSec) = .ok feeders ∧
    nodeVoltages num [] ((pvLines db).map lowerSec) = .ok volts ∧
    List.Forall₂ (fun c v => readPvCust rnd feeders (feederSubstations (db.feederTable.map fun f => (lower f.1, lower f.2))) volts
      (db.secs.map lowerSec) (lowerPvCust c) = .ok v) (db.cust.filter fun c => Solar c.genType) a ∧
    List.Forall₂ (fun g l => readGens rnd feeders (feederSubstations (db.feederTable.map fun f => (lower f.1, lower f.2))) volts
      (db.secs.map lowerSec) (db.devs.map lowerGenDev) (lowerGen g) = .ok l) db.gens b ∧
    vs = a ++ b.flatten ++ db.dgens.flatMap fun g => readDGen feeders (db.secs.map lowerSec) (db.devs.map lowerGenDev) (lowerDGen g) := by
  unfold readPvs pvsOfTables at h
  cases hf : sectionFeeders (lowerPvDb db).secs with
  | error e => rw [hf] at h; cases h
  | ok feeders =>
    rw [hf] at h
    dsimp only at h
    rw [pvLines_eq] at h
    cases hv : nodeVoltages num [] ((pvLines db).map lowerSec) with
    | error e => rw [hv] at h; cases h
    | ok volts =>
      rw [hv] at h
      dsimp only at h
      split at h
      · cases h
      · rename_i a ha
        split at h
        · cases h
        · rename_i b hb
          injection h with h
          refine ⟨feeders, volts, a, b, hf, rfl, ?_, ?_, ?_⟩
          · have e : ((lowerPvDb db).cust.filter fun c => isSolar c.genType) = (db.cust.filter fun c => decide (Solar c.genType)).map lowerPvCust := by
              show (db.cust.map lowerPvCust).filter _ = _
              rw [List.filter_map]
              congr 1
              apply List.filter_congr
              intro c _
              rw [Bool.eq_iff_iff, decide_eq_true_eq]
              exact isSolar_lower c.genType
            rw [e] at ha
            exact List.forall₂_map_left_iff.mp (Net.mapM_forall₂ ha)
          · exact List.forall₂_map_left_iff.mp (Net.mapM_forall₂ hb)
          · rw [← h]
            congr 1
            show (db.dgens.map lowerDGen).flatMap _ = _
            rw [List.flatMap_map]
            rfl

theorem volt_facts {volts : List (Text × K × List Char)} (hv : nodeVoltages num [] ((pvLines db).map lowerSec) = .ok volts) {n : Text} {k : Nat} {v : K}
    (h : pvVoltage rnd volts k (some n) = .ok v) (x : K) (ph : List Char)
    (hline : ∀ t, IsLine db.skipped db.secs t → Touches t n → Kv num t x ∧ phasesOf t = ph) : v = loadVoltage rnd k x ph := by
  obtain ⟨y, hy, rfl⟩ := pvVoltage_ok h
  have hex : ∃ t ∈ pvLines db, Touches t n := by
    by_contra hno
    have := (nodeVoltages_none hv).mpr ⟨rfl, fun t ht hh => hno ⟨t, ht, hh⟩⟩
    rw [this] at hy
    cases hy
  have := nodeVoltages_keep (x := (x, ph)) hv (fun t ht hh => ?_) (.inl hex)
  · rw [this] at hy
    injection hy with hy
    rw [← hy]
    rfl
  · obtain ⟨h1, h2⟩ := hline t (mem_pvLines.mp ht) hh
    exact ⟨lineVoltage_kv h1, h2⟩

theorem lower_dashed {t : Text} (h : ' ' ∉ t) : dashed (lower t) = shown t := by
  unfold dashed shown
  rw [lower_idem]
  unfold lower
  rw [List.map_map]
  apply List.map_congr_left
  intro c hc
  have hne : c ≠ ' ' := fun e => h (e ▸ hc)
  show (if c.toLower = ' ' then '-' else c.toLower) = _
  rw [if_neg fun e => hne ((lower_blank_iff c).mp e), if_neg hne]

theorem subs_facts (f : Text) :
    ((∀ p ∈ db.feederTable, ∀ q ∈ db.feederTable, shown p.1 = shown q.1 → shown p.2 = shown q.2) → ∀ p ∈ db.feederTable, shown p.1 = f →
      substationOf (feederSubstations (db.feederTable.map fun f => (lower f.1, lower f.2))) (some f) = some (shown p.2)) ∧
    ((∀ p ∈ db.feederTable, shown p.1 ≠ f) → substationOf (feederSubstations (db.feederTable.map fun f => (lower f.1, lower f.2))) (some f) = none) :=
  ⟨fun hu _ hp e => substation_of hu hp e, fun h => substation_none h⟩

theorem upper_strip {g : GenRow K} (h : ∀ c ∈ g.phases, c.isWhitespace = false) : upper (Net.pyStrip (lowerGen g).phases) = letters g.phases := by
  have e : Net.pyStrip (lowerGen g).phases = lower g.phases := by
    refine strip_id fun c hc => ?_
    obtain ⟨d, hd, rfl⟩ := List.mem_map.mp (show c ∈ g.phases.map Char.toLower from hc)
    rw [white_lower]
    exact h d hd
  rw [e]
  exact upper_lower g.phases

theorem readDGen_eq (feeders : List (Text × Text)) (secs : List SecRow) {devs : List (GenDevRow K)} (hn : devs.Pairwise fun c d => ¬Same c.name d.name)
    (g : DGenRow K) : readDGen feeders secs (devs.map lowerGenDev) (lowerDGen g) =
      if (solarDevice devs g.genType).isSome = true then [dgenPv feeders secs (lowerDGen g)] else [] := by
  have e1 : (List.find? (fun d => decide ((lowerDGen g).genType = d.name)) (devs.map lowerGenDev).reverse) =
    (devs.find? fun d => decide (Same d.name g.genType)).map lowerGenDev := device_find hn g.genType
  unfold readDGen solarDevice
  rw [e1]
  cases devs.find? fun d => decide (Same d.name g.genType) with
  | none => rfl
  | some d =>
    have ek : (lowerGenDev d).kind = "pv".toList ↔ Same d.kind "pv".toList := Iff.rfl
    by_cases hk : Same d.kind "pv".toList
    · simp only [Option.map_some, ek, hk, if_true, Option.isSome_some]
    · simp only [Option.map_some, ek, hk, if_false, Option.isSome_none, Bool.false_eq_true]

/-- Each large customer and each generator that is a photovoltaic becomes one photovoltaic, in the order of the tables, and there are no others. It
has the name, powers and phases of its row, and the connecting node, feeder, substation and voltage of its section. Missing: names with blanks of
generators (`C101_dash_violated`), phases with reactive power only of large customers (`C101_reactive_violated`), blanks in the phases of generators
(`C101_blank_violated`), substations of distributed generators (`C101_substation_violated`). -/
theorem C101_photovoltaics_partial (hn : db.devs.Pairwise fun c d => ¬Same c.name d.name) (h : readPvs rnd num db = .ok vs) :
    List.Forall₂ (fun p v => NameIs p v ∧ Rated p v ∧ ∀ s ∈ db.secs, Same s.id p.sec → PvAt rnd num db p s v) (panels db) vs := by
  obtain ⟨feeders, volts, a, b, hf, hv, ha, hb, rfl⟩ := readPvs_ok h
  have hnd := (sectionFeeders_ok hf).1
  unfold panels
  refine forall_append (forall_append ?_ ?_) ?_
  · rw [List.forall₂_map_left_iff]
    refine ha.imp fun c v hc => ?_
    unfold readPvCust at hc
    dsimp only at hc
    split at hc
    · cases hc
    · rename_i x hx
      injection hc with hc
      subst hc
      refine ⟨clean_lower_eq _, ⟨fun ho => phases_cust ho, ?_, ?_⟩, fun s hs e => ?_⟩
      · show sumOf c.kw * 1000 = _
        rw [sumOf_eq, mul_comm]
      · show some (sumOf c.kvar * 1000) = _
        rw [sumOf_eq, mul_comm]
      · have h1 : firstSection (db.secs.map lowerSec) (lowerPvCust c).sec = some (lowerSec s) := firstSec_of hnd hs e
        have h2 : find feeders (lowerPvCust c).sec = some (shown s.feeder) := feeder_of hf hs e
        have h3 : unblank (lowerSec s).toNode = shown s.toNode := unblank_lower _
        rw [h1, Option.map_some, h3] at hx
        refine ⟨?_, h2, ?_, fun y ph hl => volt_facts hv hx y ph hl⟩
        · show Option.map _ (firstSection _ _) = _
          rw [h1, Option.map_some, h3]
        · show _ ∧ _
          dsimp only
          rw [h2]
          exact subs_facts _
  · apply forall_filterMap
    refine hb.imp fun g l hg => ?_
    unfold readGens at hg
    by_cases hs : Solar g.genType
    · right
      have e0 : isSolar (lowerGen g).genType = true := (isSolar_lower g.genType).mpr hs
      rw [if_pos e0] at hg
      unfold readGen at hg
      dsimp only at hg
      split at hg
      · cases hg
      · rename_i v0 hg0
        injection hg with hg
        subst hg
        refine ⟨.generator g, _, by unfold generatorPanel; rw [if_pos hs], rfl, ?_⟩
        split at hg0
        · cases hg0
        · rename_i x hx
          injection hg0 with hg0
          subst hg0
          refine ⟨fun hbl => lower_dashed hbl, ⟨phases_gen g.kw g.kvar, ?_, ?_⟩, fun s hs e => ?_⟩
          · show sumOf g.kw * 1000 = _
            rw [sumOf_eq, mul_comm]
          · show some (sumOf g.kvar * 1000) = _
            rw [sumOf_eq, mul_comm]
          · have h1 : lastSection (db.secs.map lowerSec) (lowerGen g).sec = some (lowerSec s) := lastSection_of hnd hs e
            have h2 : find feeders (lowerGen g).sec = some (shown s.feeder) := feeder_of hf hs e
            have h3 : clean (lowerSec s).toNode = shown s.toNode := clean_lower_eq _
            rw [h1, Option.map_some, h3] at hx
            refine ⟨?_, h2, ?_, fun y ph hl => volt_facts hv hx y ph hl⟩
            · show Option.map _ (lastSection _ _) = _
              rw [h1, Option.map_some, h3]
            · show _ ∧ _
              dsimp only
              rw [h2]
              exact subs_facts _
    · have e0 : ¬isSolar (lowerGen g).genType = true := fun hh => hs ((isSolar_lower g.genType).mp hh)
      rw [if_neg e0] at hg
      have e1 := device_filter hn g.genType
      have e2 : (lowerGen g).genType = lower g.genType := rfl
      rw [e2, e1] at hg
      injection hg with hg
      have e3 : generatorPanel db.devs g = (solarDevice db.devs g.genType).map (.device g) := by
        unfold generatorPanel; rw [if_neg hs]
      cases hd : solarDevice db.devs g.genType with
      | none =>
        left
        rw [hd] at hg e3
        exact ⟨e3, hg.symm⟩
      | some d =>
        right
        rw [hd] at hg e3
        refine ⟨.device g d, _, e3, hg.symm, clean_lower_eq _, ⟨fun hw => upper_strip hw, mul_comm _ _, rfl⟩, fun s hs e => ?_⟩
        have h1 : lastSection (db.secs.map lowerSec) (lowerGen g).sec = some (lowerSec s) := lastSection_of hnd hs e
        have h2 : find feeders (lowerGen g).sec = some (shown s.feeder) := feeder_of hf hs e
        have h3 : clean (lowerSec s).toNode = shown s.toNode := clean_lower_eq _
        refine ⟨?_, h2, ?_, ?_⟩
        · show Option.map _ (lastSection _ _) = _
          rw [h1, Option.map_some, h3]
        · show _ ∧ _
          have e5 : (devicePv rnd feeders (feederSubstations (db.feederTable.map fun f => (lower f.1, lower f.2))) (db.secs.map lowerSec) (lowerGen g)
              (lowerGenDev d)).substation = substationOf (feederSubstations (db.feederTable.map fun f => (lower f.1, lower f.2)))
                (find feeders (lowerGen g).sec) := rfl
          rw [e5, h2]
          exact subs_facts _
        · intro hw
          show (if (upper (Net.pyStrip (lowerGen g).phases)).length = 1 then _ else _) = _
          rw [upper_strip hw]
          have e6 : (letters g.phases).length = g.phases.length := by unfold letters; exact List.length_map _
          rw [e6]
          show (if _ then rnd (d.kv * 1000 / _) else d.kv * 1000) = _
          rw [mul_comm d.kv]
  · rw [List.forall₂_map_left_iff]
    clear h
    generalize db.dgens = gs
    induction gs with
    | nil => exact .nil
    | cons g gs ih =>
      rw [List.flatMap_cons]
      rw [readDGen_eq feeders (db.secs.map lowerSec) hn g]
      by_cases hk : (solarDevice db.devs g.genType).isSome = true
      · rw [if_pos hk, List.filter_cons_of_pos (p := fun g : DGenRow K => (solarDevice db.devs g.genType).isSome) hk]
        refine .cons ⟨clean_lower_eq _, ⟨phases_gen g.kw g.kvar, ?_, ?_, ?_, rfl, ?_⟩, fun s hs e => ?_⟩ ih
        · show sumOf g.kw * 1000 = _
          rw [sumOf_eq, mul_comm]
        · show some (sumOf g.kw * 1000) = _
          rw [sumOf_eq, mul_comm]
        · show some (sumOf g.kvar * 1000) = _
          rw [sumOf_eq, mul_comm]
        · show some (g.pf * (1 / 100)) = _
          rw [mul_one_div]
        · have h1 : lastSection (db.secs.map lowerSec) (lowerDGen g).sec = some (lowerSec s) := lastSection_of hnd hs e
          have h2 : find feeders (lowerDGen g).sec = some (shown s.feeder) := feeder_of hf hs e
          have h3 : clean (lowerSec s).toNode = shown s.toNode := clean_lower_eq _
          refine ⟨?_, h2, rfl, mul_comm _ _⟩
          show Option.map _ (lastSection _ _) = _
          rw [h1, Option.map_some, h3]
      · rw [if_neg hk, List.filter_cons_of_neg (p := fun g : DGenRow K => (solarDevice db.devs g.genType).isSome) hk]
        exact ih

/-- The property is false: in the name of a generator whose type says that it is a photovoltaic, blanks become dashes, not underscores as everywhere
else. -/
theorem C101_dash_violated (h : readPvs rnd num db = .ok vs) {g : GenRow K} (hg : g ∈ db.gens) (ht : Solar g.genType) (hb : ' ' ∈ g.id) :
    ∃ v ∈ vs, v.name = (g.id.map fun c => if c = ' ' then '-' else c.toLower) ∧ v.name ≠ shown g.id := by
  obtain ⟨feeders, volts, a, b, hf, hv, ha, hb', rfl⟩ := readPvs_ok h
  obtain ⟨l, hl, hr⟩ := Glm.found_right hb' hg
  have e0 : isSolar (lowerGen g).genType = true := (isSolar_lower g.genType).mpr ht
  unfold readGens at hr
  rw [if_pos e0] at hr
  split at hr
  · cases hr
  · rename_i v hv0
    injection hr with hr
    subst hr
    refine ⟨v, List.mem_append_left _ (List.mem_append_right _ (List.mem_flatten.mpr ⟨_, hl, List.mem_cons_self⟩)), ?_⟩
    have e : v.name = g.id.map fun c => if c = ' ' then '-' else c.toLower := by
      unfold readGen at hv0
      dsimp only at hv0
      split at hv0
      · cases hv0
      · injection hv0 with hv0
        subst hv0
        show dashed (lower g.id) = _
        unfold dashed
        rw [lower_idem]
        unfold lower
        rw [List.map_map]
        apply List.map_congr_left
        intro c _
        show (if c.toLower = ' ' then '-' else c.toLower) = _
        by_cases hc : c = ' '
        · rw [if_pos ((lower_blank_iff c).mpr hc), if_pos hc]
        · rw [if_neg fun e => hc ((lower_blank_iff c).mp e), if_neg hc]
    refine ⟨e, ?_⟩
    rw [e]
    unfold shown
    intro e2
    obtain ⟨i, hi, hi2⟩ := List.getElem_of_mem hb
    have := congrArg (fun l : Text => l[i]?) e2
    simp only [List.getElem?_map, List.getElem?_eq_getElem hi, hi2, Option.map_some, if_true] at this
    exact absurd this (by decide)

/-- The property is false: a phase of a large customer that only has reactive power is not a phase of the photovoltaic, although its power counts. -/
theorem C101_reactive_violated (h : readPvs rnd num db = .ok vs) {c : PvCustRow K} (hc : c ∈ db.cust) (ht : Solar c.genType) (hq : ¬ActiveOnly c.kw c.kvar) :
    ∃ v ∈ vs, v.name = shown c.device ∧ v.reactiveRating = some (1000 * three c.kvar) ∧ ¬PhasesAre c.kw c.kvar v.phases := by
  obtain ⟨feeders, volts, a, b, hf, hv, ha, hb', rfl⟩ := readPvs_ok h
  obtain ⟨v, hl, hr⟩ := Glm.found_right ha (List.mem_filter.mpr ⟨hc, decide_eq_true ht⟩)
  refine ⟨v, List.mem_append_left _ (List.mem_append_left _ hl), ?_⟩
  unfold readPvCust at hr
  dsimp only at hr
  split at hr
  · cases hr
  · injection hr with hr
    subst hr
    refine ⟨clean_lower_eq _, ?_, ?_⟩
    · show some (sumOf c.kvar * 1000) = _
      rw [sumOf_eq, mul_comm]
    · rintro ⟨-, hp⟩
      apply hq
      have hp : ∀ x, x ∈ kwLetters c.kw ↔ _ := fun x => (hp x).trans (power_iff c.kw c.kvar x)
      have h1 := hp 'A'
      have h2 := hp 'B'
      have h3 := hp 'C'
      rw [kw_mem] at h1 h2 h3
      have ab : ('A' : Char) ≠ 'B' := by decide
      have ac : ('A' : Char) ≠ 'C' := by decide
      have bc : ('B' : Char) ≠ 'C' := by decide
      simp only [true_and, ab, ac, bc, ab.symm, ac.symm, bc.symm, false_and, or_false, false_or] at h1 h2 h3
      unfold ActiveOnly
      tauto

theorem strip_between {x y : Char} {m : Text} (hx : x.isWhitespace = false) (hy : y.isWhitespace = false) :
    Net.pyStrip (x :: (m ++ [y])) = x :: (m ++ [y]) := by
  unfold Net.pyStrip
  rw [List.dropWhile_cons_of_neg (by simp [hx])]
  have e : (x :: (m ++ [y])).reverse = y :: (x :: m).reverse := by simp
  rw [e, List.dropWhile_cons_of_neg (by simp [hy]), ← e, List.reverse_reverse]

/-- The property is false: a blank between the phases of a generator with a device becomes a phase of its own. -/
theorem C101_blank_violated (hn : db.devs.Pairwise fun c d => ¬Same c.name d.name) (h : readPvs rnd num db = .ok vs) {g : GenRow K} (hg : g ∈ db.gens)
    {d : GenDevRow K} (hp : generatorPanel db.devs g = some (.device g d)) {x y : Char} {m : Text} (hphases : g.phases = x :: (m ++ [y]))
    (hx : x.isWhitespace = false) (hy : y.isWhitespace = false) (hm : ' ' ∈ m) :
    ∃ v ∈ vs, v.name = shown g.id ∧ v.phases = g.phases.map Char.toUpper ∧ ' ' ∈ v.phases := by
  obtain ⟨feeders, volts, a, b, hf, hv, ha, hb', rfl⟩ := readPvs_ok h
  obtain ⟨l, hl, hr⟩ := Glm.found_right hb' hg
  unfold generatorPanel at hp
  split at hp
  · cases hp
  · rename_i ht
    have e0 : ¬isSolar (lowerGen g).genType = true := fun hh => ht ((isSolar_lower g.genType).mp hh)
    unfold readGens at hr
    rw [if_neg e0] at hr
    have e1 := device_filter hn g.genType
    have e2 : (lowerGen g).genType = lower g.genType := rfl
    rw [e2, e1] at hr
    injection hr with hr
    cases hd : solarDevice db.devs g.genType with
    | none => rw [hd] at hp; cases hp
    | some d' =>
      rw [hd] at hr
      subst hr
      refine ⟨_, List.mem_append_left _ (List.mem_append_right _ (List.mem_flatten.mpr ⟨_, hl, List.mem_cons_self⟩)), clean_lower_eq _, ?_⟩
      have key : (devicePv rnd feeders (feederSubstations (db.feederTable.map fun f => (lower f.1, lower f.2))) (db.secs.map lowerSec) (lowerGen g)
          (lowerGenDev d')).phases = g.phases.map Char.toUpper := ?_
      · rw [key]
        refine ⟨rfl, List.mem_map.mpr ⟨' ', ?_, by decide⟩⟩
        rw [hphases]
        exact List.mem_cons_of_mem _ (List.mem_append_left _ hm)
      show upper (Net.pyStrip (lower g.phases)) = _
      have e3 : lower g.phases = x.toLower :: (lower m ++ [y.toLower]) := by
        rw [hphases]
        simp [lower]
      rw [e3, strip_between (by rw [white_lower]; exact hx) (by rw [white_lower]; exact hy), ← e3]
      exact upper_lower g.phases

theorem dgen_mem (hn : db.devs.Pairwise fun c d => ¬Same c.name d.name) {feeders : List (Text × Text)} {g : DGenRow K} (hg : g ∈ db.dgens)
    (hd : (solarDevice db.devs g.genType).isSome = true) : dgenPv feeders (db.secs.map lowerSec) (lowerDGen g) ∈
      db.dgens.flatMap fun g => readDGen feeders (db.secs.map lowerSec) (db.devs.map lowerGenDev) (lowerDGen g) := by
  refine List.mem_flatMap.mpr ⟨g, hg, ?_⟩
  rw [readDGen_eq _ _ hn, if_pos hd]
  exact List.mem_cons_self

/-- The property is false: a distributed generator has no substation, even if its feeder has one. -/
theorem C101_substation_violated (hn : db.devs.Pairwise fun c d => ¬Same c.name d.name) (h : readPvs rnd num db = .ok vs) {g : DGenRow K}
    (hg : g ∈ db.dgens) (hd : (solarDevice db.devs g.genType).isSome = true) {s : SecRow} (hs : s ∈ db.secs) (e : Same s.id g.sec) :
    ∃ v ∈ vs, v.name = shown g.sec ∧ v.feeder = some (shown s.feeder) ∧ v.substation = none := by
  obtain ⟨feeders, volts, a, b, hf, hv, ha, hb', rfl⟩ := readPvs_ok h
  exact ⟨_, List.mem_append_right _ (dgen_mem hn hg hd), clean_lower_eq _, feeder_of hf hs e, rfl⟩

/-- The property is false: two distributed generators in a section have the same name. -/
theorem C101_names_violated (hn : db.devs.Pairwise fun c d => ¬Same c.name d.name) (h : readPvs rnd num db = .ok vs) {a b c : List (DGenRow K)}
    {g g' : DGenRow K} (hl : db.dgens = a ++ g :: (b ++ g' :: c)) (e : Same g.sec g'.sec) (hd : (solarDevice db.devs g.genType).isSome = true)
    (hd' : (solarDevice db.devs g'.genType).isSome = true) : ¬(vs.map (·.name)).Nodup := by
  obtain ⟨feeders, volts, a', b', hf, hv, ha, hb', rfl⟩ := readPvs_ok h
  rw [hl]
  simp only [List.flatMap_append, List.flatMap_cons, readDGen_eq _ _ hn, hd, hd', if_true, List.map_append, List.map_cons, List.map_nil]
  intro hnd
  have h2 := (List.nodup_append.mp (List.nodup_append.mp hnd).2.1).2.1
  have e1 : (dgenPv feeders (db.secs.map lowerSec) (lowerDGen g)).name = (dgenPv feeders (db.secs.map lowerSec) (lowerDGen g')).name := by
    show clean (lower g.sec) = clean (lower g'.sec)
    rw [show lower g.sec = lower g'.sec from e]
  rw [List.singleton_append] at h2
  refine (List.nodup_cons.mp h2).1 ?_
  rw [e1]
  exact List.mem_append_right _ (List.mem_append_left _ List.mem_cons_self)

/-- names of sections are different and each line has a voltage -/
structure PvReadable (num : Text → Option K) (db : PvDb K) : Prop where
  ids : db.secs.Pairwise fun s t => ¬Same s.id t.id
  volts : ∀ s, IsLine db.skipped db.secs s → ∃ v, Kv num s v

theorem readPvCust_cases (feeders subs : List (Text × Text)) (volts : List (Text × K × List Char)) (secs : List SecRow) (c : PvCustRow K) :
    readPvCust rnd feeders subs volts secs c = .error .typeError ∨ ∃ v, readPvCust rnd feeders subs volts secs c = .ok v := by
  unfold readPvCust pvVoltage
  cases firstSection secs c.sec with
  | none => exact .inl rfl
  | some s =>
    dsimp only [Option.map_some]
    cases find volts (unblank s.toNode) with
    | none => exact .inl rfl
    | some x => exact .inr ⟨_, rfl⟩

theorem readGens_cases (feeders subs : List (Text × Text)) (volts : List (Text × K × List Char)) (secs : List SecRow) (devs : List (GenDevRow K))
    (g : GenRow K) : readGens rnd feeders subs volts secs devs g = .error .typeError ∨ ∃ l, readGens rnd feeders subs volts secs devs g = .ok l := by
  unfold readGens
  split
  · unfold readGen pvVoltage
    cases lastSection secs g.sec with
    | none => exact .inl rfl
    | some s =>
      dsimp only [Option.map_some]
      cases find volts (clean s.toNode) with
      | none => exact .inl rfl
      | some x => exact .inr ⟨_, rfl⟩
  · exact .inr ⟨_, rfl⟩

/-- either everything is read, or a large customer or a generator cannot be read -/
theorem readPvs_eq (hr : PvReadable num db) : ∃ feeders volts, sectionFeeders (db.secs.map lowerSec) = .ok feeders ∧
    nodeVoltages num [] ((pvLines db).map lowerSec) = .ok volts ∧
    readPvs rnd num db = (match ((db.cust.map lowerPvCust).filter fun c => isSolar c.genType).mapM
        (readPvCust rnd feeders (feederSubstations (db.feederTable.map fun f => (lower f.1, lower f.2))) volts (db.secs.map lowerSec)) with
      | .error e => .error e
      | .ok a =>
        match (db.gens.map lowerGen).mapM (readGens rnd feeders (feederSubstations (db.feederTable.map fun f => (lower f.1, lower f.2))) volts
            (db.secs.map lowerSec) (db.devs.map lowerGenDev)) with
        | .error e => .error e
        | .ok b => .ok (a ++ b.flatten ++ (db.dgens.map lowerDGen).flatMap (readDGen feeders (db.secs.map lowerSec) (db.devs.map lowerGenDev)))) := by
  obtain ⟨feeders, hf⟩ := sectionFeeders_of (ids_nodup hr.ids)
  obtain ⟨volts, hv⟩ := nodeVoltages_of (num := num) (d := []) (secs := pvLines db) fun t ht => hr.volts t (mem_pvLines.mp ht)
  refine ⟨feeders, volts, hf, hv, ?_⟩
  unfold readPvs pvsOfTables
  rw [show sectionFeeders (lowerPvDb db).secs = .ok feeders from hf]
  dsimp only
  rw [pvLines_eq, hv]
  rfl

/-- The photovoltaics can be read if each large customer and each generator whose type says that it is one is in a known section, at the end of which
there is a line. -/
theorem C101_reads (hr : PvReadable num db)
    (hc : ∀ c ∈ db.cust, Solar c.genType → ∃ s ∈ db.secs, Same s.id c.sec ∧ ∃ t, IsLine db.skipped db.secs t ∧ Touches t (shown s.toNode))
    (hg : ∀ g ∈ db.gens, Solar g.genType → ∃ s ∈ db.secs, Same s.id g.sec ∧ ∃ t, IsLine db.skipped db.secs t ∧ Touches t (shown s.toNode)) :
    ∃ vs, readPvs rnd num db = .ok vs := by
  obtain ⟨feeders, volts, hf, hv, e⟩ := readPvs_eq (rnd := rnd) hr
  rw [e]
  have hnd := (sectionFeeders_ok hf).1
  have all : ∀ {α β : Type} {f : α → Py β} (l : List α), (∀ x ∈ l, ∃ y, f x = .ok y) → ∃ ys, l.mapM f = .ok ys := by
    intro α β f l
    induction l with
    | nil => exact fun _ => ⟨[], rfl⟩
    | cons x l ih =>
      intro hx
      obtain ⟨y, hy⟩ := hx x List.mem_cons_self
      obtain ⟨ys, hys⟩ := ih fun z hz => hx z (List.mem_cons_of_mem _ hz)
      refine ⟨y :: ys, ?_⟩
      rw [List.mapM_cons, hy, hys]
      rfl
  have hfind : ∀ s t, IsLine db.skipped db.secs t → Touches t (shown s) → ∃ x, find volts (shown s) = some x := by
    intro s t ht hto
    cases hx : find volts (shown s) with
    | none => exact absurd hto (((nodeVoltages_none hv).mp hx).2 t (mem_pvLines.mpr ht))
    | some x => exact ⟨x, rfl⟩
  obtain ⟨a, ha⟩ := all (f := readPvCust rnd feeders (feederSubstations (db.feederTable.map fun f => (lower f.1, lower f.2))) volts (db.secs.map lowerSec))
    ((db.cust.map lowerPvCust).filter fun c => isSolar c.genType) (by
      intro c' hc'
      obtain ⟨hm, hsol⟩ := List.mem_filter.mp hc'
      obtain ⟨c, hcm, rfl⟩ := List.mem_map.mp hm
      obtain ⟨s, hs, es, t, ht, hto⟩ := hc c hcm ((isSolar_lower c.genType).mp hsol)
      obtain ⟨x, hx⟩ := hfind _ t ht hto
      unfold readPvCust pvVoltage
      have h1 : firstSection (db.secs.map lowerSec) (lowerPvCust c).sec = some (lowerSec s) := firstSec_of hnd hs es
      have h3 : unblank (lowerSec s).toNode = shown s.toNode := unblank_lower _
      rw [h1]
      dsimp only [Option.map_some]
      rw [h3, hx]
      exact ⟨_, rfl⟩)
  obtain ⟨b, hb⟩ := all (f := readGens rnd feeders (feederSubstations (db.feederTable.map fun f => (lower f.1, lower f.2))) volts (db.secs.map lowerSec)
      (db.devs.map lowerGenDev)) (db.gens.map lowerGen) (by
      intro g' hg'
      obtain ⟨g, hgm, rfl⟩ := List.mem_map.mp hg'
      unfold readGens
      by_cases hsol : isSolar (lowerGen g).genType = true
      · rw [if_pos hsol]
        obtain ⟨s, hs, es, t, ht, hto⟩ := hg g hgm ((isSolar_lower g.genType).mp hsol)
        obtain ⟨x, hx⟩ := hfind _ t ht hto
        unfold readGen pvVoltage
        have h1 : lastSection (db.secs.map lowerSec) (lowerGen g).sec = some (lowerSec s) := lastSection_of hnd hs es
        have h3 : clean (lowerSec s).toNode = shown s.toNode := clean_lower_eq _
        rw [h1]
        dsimp only [Option.map_some]
        rw [h3, hx]
        exact ⟨_, rfl⟩
      · rw [if_neg hsol]
        exact ⟨_, rfl⟩)
  rw [ha]
  dsimp only
  rw [hb]
  exact ⟨_, rfl⟩

/-- The property is false: a large customer that is a photovoltaic in an unknown section, or at a node without line, makes the database unreadable. -/
theorem C101_unknown_violated (hr : PvReadable num db) {c : PvCustRow K} (hc : c ∈ db.cust) (ht : Solar c.genType)
    (hno : ∀ s ∈ db.secs, Same s.id c.sec → ∀ t, IsLine db.skipped db.secs t → ¬Touches t (shown s.toNode)) :
    readPvs rnd num db = .error .typeError := by
  obtain ⟨feeders, volts, hf, hv, e⟩ := readPvs_eq (rnd := rnd) hr
  rw [e, Carson.mapM_error (fun r _ => readPvCust_cases feeders _ volts _ r) ⟨lowerPvCust c, List.mem_filter.mpr ⟨List.mem_map_of_mem hc,
    (isSolar_lower c.genType).mpr ht⟩, ?_⟩]
  unfold readPvCust pvVoltage
  cases h1 : firstSection (db.secs.map lowerSec) (lowerPvCust c).sec with
  | none => rfl
  | some s' =>
    obtain ⟨hm, e1⟩ := firstSection_some h1
    obtain ⟨s, hs, rfl⟩ := List.mem_map.mp hm
    dsimp only [Option.map_some]
    have h3 : unblank (lowerSec s).toNode = shown s.toNode := unblank_lower _
    rw [h3, (nodeVoltages_none hv).mpr ⟨rfl, fun t ht => hno s hs e1 t (mem_pvLines.mp ht)⟩]

/-- The property is false: the same holds for generators whose type says that they are photovoltaics. -/
theorem C101_generator_violated (hr : PvReadable num db) {g : GenRow K} (hg : g ∈ db.gens) (ht : Solar g.genType)
    (hno : ∀ s ∈ db.secs, Same s.id g.sec → ∀ t, IsLine db.skipped db.secs t → ¬Touches t (shown s.toNode)) :
    readPvs rnd num db = .error .typeError := by
  obtain ⟨feeders, volts, hf, hv, e⟩ := readPvs_eq (rnd := rnd) hr
  rw [e]
  have hgen : (db.gens.map lowerGen).mapM (readGens rnd feeders (feederSubstations (db.feederTable.map fun f => (lower f.1, lower f.2))) volts
      (db.secs.map lowerSec) (db.devs.map lowerGenDev)) = .error .typeError := by
    refine Carson.mapM_error (fun r _ => readGens_cases feeders _ volts _ _ r) ⟨lowerGen g, List.mem_map_of_mem hg, ?_⟩
    unfold readGens
    have e0 : isSolar (lowerGen g).genType = true := (isSolar_lower g.genType).mpr ht
    rw [if_pos e0]
    unfold readGen pvVoltage
    cases h1 : lastSection (db.secs.map lowerSec) (lowerGen g).sec with
    | none => rfl
    | some s' =>
      unfold lastSection at h1
      have e1 := List.find?_some h1
      have e1 : s'.id = lower g.sec := of_decide_eq_true e1
      obtain ⟨s, hs, rfl⟩ := List.mem_map.mp (List.mem_reverse.mp (List.mem_of_find?_eq_some h1))
      dsimp only [Option.map_some]
      have h3 : clean (lowerSec s).toNode = shown s.toNode := clean_lower_eq _
      rw [h3, (nodeVoltages_none hv).mpr ⟨rfl, fun t ht => hno s hs e1 t (mem_pvLines.mp ht)⟩]
  rw [hgen]
  by_cases hok : ∃ c ∈ (db.cust.map lowerPvCust).filter fun c => isSolar c.genType, readPvCust rnd feeders
      (feederSubstations (db.feederTable.map fun f => (lower f.1, lower f.2))) volts (db.secs.map lowerSec) c = .error .typeError
  · rw [Carson.mapM_error (fun r _ => readPvCust_cases feeders _ volts _ r) hok]
  · split
    · rename_i err herr
      exfalso
      revert herr
      generalize (db.cust.map lowerPvCust).filter (fun c => isSolar c.genType) = l at hok
      intro herr
      have : ∀ l : List (PvCustRow K), (∀ c ∈ l, ∃ v, readPvCust rnd feeders (feederSubstations (db.feederTable.map fun f => (lower f.1, lower f.2))) volts
          (db.secs.map lowerSec) c = .ok v) → ∃ ys, l.mapM (readPvCust rnd feeders (feederSubstations (db.feederTable.map fun f => (lower f.1, lower f.2)))
          volts (db.secs.map lowerSec)) = .ok ys := by
        intro l
        induction l with
        | nil => exact fun _ => ⟨[], rfl⟩
        | cons x l ih =>
          intro hx
          obtain ⟨y, hy⟩ := hx x List.mem_cons_self
          obtain ⟨ys, hys⟩ := ih fun z hz => hx z (List.mem_cons_of_mem _ hz)
          refine ⟨y :: ys, ?_⟩
          rw [List.mapM_cons, hy, hys]
          rfl
      obtain ⟨ys, hys⟩ := this l fun c hc => (readPvCust_cases feeders _ volts _ c).resolve_left fun h => hok ⟨c, hc, h⟩
      rw [hys] at herr
      cases herr
    · rfl

end

/-! ### Examples -/

def exPvSecs : List SecRow :=
  [⟨"S 1".toList, "Feeder A".toList, "A B C N".toList, "Sub".toList, "Node 1".toList, "OH-12.47".toList⟩,
   ⟨"s2".toList, "Feeder A".toList, "A N".toList, "Node 1".toList, "N2".toList, "UG-1-7.2".toList⟩,
   ⟨"t3".toList, "Feeder A".toList, "A N".toList, "N2".toList, "N3".toList, "".toList⟩]

/-- readable numbers of the example -/
def exPvKv (t : Text) : Option ℚ := if t = "12.47".toList then some (1247 / 100) else if t = "7.2".toList then some (72 / 10) else none

def exPvRnd (x : ℚ) : ℚ := x

def exPvDb : PvDb ℚ where
  feederTable := [("Feeder A".toList, "Main St".toList)]
  skipped := ["T3".toList]
  secs := exPvSecs
  cust := [⟨"Mill".toList, "s 1".toList, "Photovoltaic".toList, (10, 20, 30), (0, 2, 0)⟩, ⟨"Dam".toList, "s 1".toList, "Hydro".toList, (7, 7, 7), (0, 0, 0)⟩]
  gens := [⟨"PV1".toList, "S2".toList, "A".toList, "photovoltaic 3P".toList, 95, (3, 0, 0), (0, 1, 0)⟩,
    ⟨"Roof 2".toList, "s2".toList, "ab".toList, "Sunny".toList, 95, (0, 0, 0), (0, 0, 0)⟩,
    ⟨"Diesel".toList, "s2".toList, "ab".toList, "Dirty".toList, 95, (0, 0, 0), (0, 0, 0)⟩]
  dgens := [⟨"S 1".toList, "sunny".toList, 4, 98, (1, 0, 1), (0, 0, 0)⟩, ⟨"S 1".toList, "dirty".toList, 4, 98, (1, 0, 1), (0, 0, 0)⟩]
  devs := [⟨"SUNNY".toList, "PV".toList, 12, 50⟩, ⟨"dirty".toList, "Diesel".toList, 12, 50⟩]

def exPvs : List (SynPv ℚ) :=
  [⟨"mill".toList, some "feeder_a".toList, some "main_st".toList, ['A', 'B', 'C'], 60000, none, some 2000, some "node_1".toList, 7200, none, none⟩,
   ⟨"pv1".toList, some "feeder_a".toList, some "main_st".toList, ['A', 'B'], 3000, none, some 1000, some "n2".toList, 7200, none, none⟩,
   ⟨"roof_2".toList, some "feeder_a".toList, some "main_st".toList, ['A', 'B'], 50000, none, none, some "n2".toList, 12000, none, some (95 / 100)⟩,
   ⟨"s_1".toList, some "feeder_a".toList, none, ['A', 'C'], 2000, some 2000, some 0, some "node_1".toList, 4000, some "powerfactor".toList,
     some (98 / 100)⟩]

theorem exPvRead : readPvs exPvRnd exPvKv exPvDb = .ok exPvs := by decide +kernel

theorem exPvDevs : exPvDb.devs.Pairwise fun c d => ¬Same c.name d.name := by decide +kernel

example : (panels exPvDb).length = 4 := (C101_photovoltaics_partial exPvDevs exPvRead).length_eq

theorem exPvLine {s : SecRow} (h : IsLine exPvDb.skipped exPvDb.secs s) : s ∈ exPvSecs.take 2 := by
  obtain ⟨h1, h2⟩ := h
  have : ∀ s ∈ exPvSecs, (∀ k ∈ exPvDb.skipped, ¬Same k s.id) → s ∈ exPvSecs.take 2 := by decide +kernel
  exact this s h1 h2

theorem exPvReadable : PvReadable exPvKv exPvDb := by
  refine ⟨by decide, fun s h => ?_⟩
  have h := exPvLine h
  rcases List.mem_cons.mp h with rfl | h
  · exact ⟨12470, "oh".toList, "12.47".toList, 1247 / 100, by decide, by decide, by decide +kernel, by norm_num⟩
  · rcases List.mem_cons.mp h with rfl | h
    · exact ⟨7200, "ug-1".toList, "7.2".toList, 72 / 10, by decide, by decide, by decide +kernel, by norm_num⟩
    · cases h

example : ∃ vs, readPvs exPvRnd exPvKv exPvDb = .ok vs := by
  have hc : ∀ c ∈ exPvDb.cust, ∃ s ∈ exPvDb.secs, Same s.id c.sec ∧
      ∃ t ∈ exPvDb.secs, (∀ k ∈ exPvDb.skipped, ¬Same k t.id) ∧ (shown t.fromNode = shown s.toNode ∨ shown t.toNode = shown s.toNode) := by
    decide +kernel
  have hg : ∀ c ∈ exPvDb.gens, ∃ s ∈ exPvDb.secs, Same s.id c.sec ∧
      ∃ t ∈ exPvDb.secs, (∀ k ∈ exPvDb.skipped, ¬Same k t.id) ∧ (shown t.fromNode = shown s.toNode ∨ shown t.toNode = shown s.toNode) := by
    decide +kernel
  refine C101_reads exPvReadable (fun c hcm _ => ?_) fun g hgm _ => ?_
  · obtain ⟨s, h1, h2, t, h3, h4, h5⟩ := hc c hcm
    exact ⟨s, h1, h2, t, ⟨h3, h4⟩, h5⟩
  · obtain ⟨s, h1, h2, t, h3, h4, h5⟩ := hg g hgm
    exact ⟨s, h1, h2, t, ⟨h3, h4⟩, h5⟩

/-- wrong names, phases and substations -/
def exPvBadDb : PvDb ℚ where
  feederTable := [("Feeder A".toList, "Main St".toList)]
  skipped := ["T3".toList]
  secs := exPvSecs
  cust := [⟨"Mill".toList, "s 1".toList, "Photovoltaic".toList, (10, 0, 0), (0, 2, 0)⟩]
  gens := [⟨"PV 1".toList, "S2".toList, "A".toList, "photovoltaic 3P".toList, 95, (3, 0, 0), (0, 1, 0)⟩,
    ⟨"Roof 2".toList, "s2".toList, "a b".toList, "Sunny".toList, 95, (0, 0, 0), (0, 0, 0)⟩]
  dgens := [⟨"S 1".toList, "sunny".toList, 4, 98, (1, 0, 1), (0, 0, 0)⟩, ⟨"s 1".toList, "sunny".toList, 4, 98, (0, 2, 0), (0, 0, 0)⟩]
  devs := [⟨"SUNNY".toList, "PV".toList, 12, 50⟩]

def exPvBad : List (SynPv ℚ) :=
  [⟨"mill".toList, some "feeder_a".toList, some "main_st".toList, ['A'], 10000, none, some 2000, some "node_1".toList, 7200, none, none⟩,
   ⟨"pv-1".toList, some "feeder_a".toList, some "main_st".toList, ['A', 'B'], 3000, none, some 1000, some "n2".toList, 7200, none, none⟩,
   ⟨"roof_2".toList, some "feeder_a".toList, some "main_st".toList, ['A', ' ', 'B'], 50000, none, none, some "n2".toList, 12000, none, some (95 / 100)⟩,
   ⟨"s_1".toList, some "feeder_a".toList, none, ['A', 'C'], 2000, some 2000, some 0, some "node_1".toList, 4000, some "powerfactor".toList,
     some (98 / 100)⟩,
   ⟨"s_1".toList, some "feeder_a".toList, none, ['B'], 2000, some 2000, some 0, some "node_1".toList, 4000, some "powerfactor".toList,
     some (98 / 100)⟩]

theorem exPvBadRead : readPvs exPvRnd exPvKv exPvBadDb = .ok exPvBad := by decide +kernel

theorem exPvBadDevs : exPvBadDb.devs.Pairwise fun c d => ¬Same c.name d.name := by decide +kernel

example : ∃ v ∈ exPvBad, v.name = "pv-1".toList ∧ v.name ≠ "pv_1".toList :=
  C101_dash_violated exPvBadRead (g := ⟨"PV 1".toList, "S2".toList, "A".toList, "photovoltaic 3P".toList, 95, (3, 0, 0), (0, 1, 0)⟩) List.mem_cons_self
    (by decide) (by decide)

example : ∃ v ∈ exPvBad, v.name = "mill".toList ∧ ¬PhasesAre ((10, 0, 0) : ℚ × ℚ × ℚ) (0, 2, 0) v.phases := by
  obtain ⟨v, hv, h1, -, h2⟩ := C101_reactive_violated exPvBadRead (c := ⟨"Mill".toList, "s 1".toList, "Photovoltaic".toList, (10, 0, 0), (0, 2, 0)⟩)
    List.mem_cons_self (by decide) (by unfold ActiveOnly; norm_num)
  exact ⟨v, hv, h1, h2⟩

example : ∃ v ∈ exPvBad, v.name = "roof_2".toList ∧ v.phases = ['A', ' ', 'B'] ∧ ' ' ∈ v.phases :=
  C101_blank_violated exPvBadDevs exPvBadRead (g := ⟨"Roof 2".toList, "s2".toList, "a b".toList, "Sunny".toList, 95, (0, 0, 0), (0, 0, 0)⟩)
    (List.mem_cons_of_mem _ List.mem_cons_self) (d := ⟨"SUNNY".toList, "PV".toList, 12, 50⟩) rfl (x := 'a') (y := 'b') (m := [' ']) rfl (by decide) (by decide) (by decide)

example : ∃ v ∈ exPvBad, v.name = "s_1".toList ∧ v.feeder = some "feeder_a".toList ∧ v.substation = none :=
  C101_substation_violated exPvBadDevs exPvBadRead (g := ⟨"S 1".toList, "sunny".toList, 4, 98, (1, 0, 1), (0, 0, 0)⟩) List.mem_cons_self
    (by decide +kernel) (s := exPvSecs[0]) (by decide) (by decide)

example : ¬(exPvBad.map (·.name)).Nodup :=
  C101_names_violated exPvBadDevs exPvBadRead (a := []) (b := []) (c := []) rfl (by decide) (by decide +kernel) (by decide +kernel)

/-- photovoltaics in an unknown section and behind a transformer -/
def exPvLostDb : PvDb ℚ := ⟨exPvDb.feederTable, exPvDb.skipped, exPvSecs, [⟨"Mill".toList, "s 9".toList, "Photovoltaic".toList, (10, 0, 0), (0, 2, 0)⟩],
  [⟨"PV 1".toList, "T3".toList, "A".toList, "photovoltaic 3P".toList, 95, (3, 0, 0), (0, 1, 0)⟩], [], []⟩

example : readPvs exPvRnd exPvKv exPvLostDb = .error .typeError :=
  C101_unknown_violated (db := exPvLostDb) ⟨exPvReadable.ids, exPvReadable.volts⟩
    (c := ⟨"Mill".toList, "s 9".toList, "Photovoltaic".toList, (10, 0, 0), (0, 2, 0)⟩) List.mem_cons_self (by decide)
    (fun s hs e => absurd e ((by decide : ∀ s ∈ exPvSecs, ¬Same s.id "s 9".toList) s hs))

example : readPvs exPvRnd exPvKv exPvLostDb = .error .typeError := by
  refine C101_generator_violated (db := exPvLostDb) ⟨exPvReadable.ids, exPvReadable.volts⟩
    (g := ⟨"PV 1".toList, "T3".toList, "A".toList, "photovoltaic 3P".toList, 95, (3, 0, 0), (0, 1, 0)⟩) List.mem_cons_self (by decide) ?_
  intro s hs e t ht
  have h := exPvLine ht
  have e2 : ∀ s ∈ exPvSecs, Same s.id "T3".toList → shown s.toNode = "n3".toList := by decide +kernel
  rw [e2 s hs e]
  have : ∀ t ∈ exPvSecs.take 2, ¬(shown t.fromNode = "n3".toList ∨ shown t.toNode = "n3".toList) := by decide +kernel
  exact this t h

end Ditto.Syn
