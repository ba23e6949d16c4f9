import Verif.Lemmas.SynLoads
import Verif.Lemmas.GlmCaps
import Mathlib.Algebra.Field.Rat

/-! C93: loads of Synergi databases. -/
namespace Ditto.Syn
open Ditto Glm Syn.Spec

section
variable {K : Type} [Field K] [DecidableEq K] {rnd : K → K} {num : Text → Option K} {db : LoadDb K} {ls : List (SynLoad K)}

/-- the steps of a successful reading -/
theorem readLoads_ok (h : readLoads rnd num db = .ok ls) : ∃ feeders volts, sectionFeeders (db.secs.map lowerSec) = .ok feeders ∧
    nodeVoltages num [] ((db.secs.filter fun s => decide (lower s.id ∉ db.skipped.map lower)).map lowerSec) = .ok volts ∧
    List.Forall₂ (fun d l => readLoad rnd feeders (feederSubstations (db.feederTable.map fun f => (lower f.1, lower f.2))) volts
      (db.secs.map lowerSec) (db.cust.map lowerCust) (rowOf d) = .ok l) ((demands db).filter active) ls := by
  unfold readLoads loadsOfTables at h
  cases hf : sectionFeeders (db.secs.map lowerSec) with
  | error e => rw [hf] at h; cases h
  | ok feeders =>
    rw [hf] at h
    dsimp only at h
    rw [lines_eq] at h
    cases hv : nodeVoltages num [] ((db.secs.filter fun s => decide (lower s.id ∉ db.skipped.map lower)).map lowerSec) with
    | error e => rw [hv] at h; cases h
    | ok volts =>
      rw [hv] at h
      dsimp only at h
      rw [keptRows_eq] at h
      refine ⟨feeders, volts, rfl, rfl, ?_⟩
      have := Net.mapM_forall₂ h
      exact List.forall₂_map_left_iff.mp this

theorem readLoad_at {feeders : List (Text × Text)} {volts : List (Text × K × List Char)} {d : Demand K} {s : SecRow} {l : SynLoad K}
    {subs : List (Text × Text)}
    (hsite : loadSite feeders (db.secs.map lowerSec) (db.cust.map lowerCust) (lower d.name) = .ok (some (shown s.feeder), some (lowerSec s)))
    (h : readLoad rnd feeders subs volts (db.secs.map lowerSec) (db.cust.map lowerCust) (rowOf d) = .ok l) :
    ∃ x, find volts (shown s.toNode) = some x ∧
      l = ⟨"Load_".toList ++ shown d.name, some (shown s.feeder), find subs (shown s.feeder), some (shown s.toNode), phaseLoadsOf (rowOf d),
        some (voltageAt rnd (phaseLoadsOf (rowOf d)).length x.1 x.2), some (65 / 100), some (11 / 10)⟩ := by
  unfold readLoad at h
  have e : (rowOf d).name = lower d.name := rfl
  rw [e, hsite] at h
  dsimp only at h
  have e2 : clean (lowerSec s).toNode = shown s.toNode := clean_lower_eq _
  rw [e2, clean_lower_eq] at h
  cases hx : find volts (shown s.toNode) with
  | none => rw [hx] at h; cases h
  | some x =>
    rw [hx] at h
    injection h with h
    exact ⟨x, rfl, h.symm⟩

/-- Each load of the table and each large customer that is a load, as far as it has active power, becomes one load at the end of its section, with
its powers. Missing: the reactive power of loads without active power (`C93_reactive_violated`), loads in unknown sections (`C93_lost_violated`),
large customers that share their name with a section (`C93_customer_violated`), the voltage where different lines meet (`C93_order_violated`). -/
theorem C93_loads_partial (hsep : Separate db) (h : readLoads rnd num db = .ok ls) :
    List.Forall₂ (fun d l => ∀ s, Site db d s → LoadAt rnd num db d s l) ((demands db).filter active) ls := by
  obtain ⟨feeders, volts, hf, hv, hall⟩ := readLoads_ok h
  have hmem : ∀ d ∈ (demands db).filter active, d ∈ demands db := fun d hd => (List.mem_filter.mp hd).1
  revert hmem
  clear h
  generalize (demands db).filter active = ds at hall
  intro hmem
  induction hall with
  | nil => exact .nil
  | @cons d l ds ls hdl _ ih =>
    refine .cons ?_ (ih fun x hx => hmem x (List.mem_cons_of_mem _ hx))
    intro s hs
    obtain ⟨x, hx, rfl⟩ := readLoad_at (loadSite_at hf hsep (hmem d List.mem_cons_self) hs) hdl
    refine ⟨rfl, rfl, rfl, ?_, ?_, ?_, ?_, ?_, rfl, rfl⟩
    · intro hu p hp e
      exact substation_of hu hp e
    · intro hp
      exact substation_none hp
    · exact phaseLoads_letters d
    · intro y hy
      exact phaseLoads_powers hy
    · intro v ph hline
      have hex : ∃ t ∈ db.secs.filter fun s => decide (lower s.id ∉ db.skipped.map lower), Touches t (shown s.toNode) := by
        by_contra hno
        have := (nodeVoltages_none hv).mpr ⟨rfl, fun t ht hh => hno ⟨t, ht, hh⟩⟩
        rw [this] at hx
        cases hx
      have := nodeVoltages_keep (x := (v, ph)) hv (fun t ht hh => ?_) (.inl hex)
      · rw [this] at hx
        injection hx with hx
        rw [← hx]
        rfl
      · obtain ⟨h1, h2⟩ := hline t (mem_lines.mp ht) hh
        exact ⟨lineVoltage_kv h1, h2⟩

/-- the reading succeeds: names of sections are different, each line has a voltage, each load is at the end of a section that meets a line -/
structure Readable (num : Text → Option K) (db : LoadDb K) : Prop where
  ids : db.secs.Pairwise fun s t => ¬Same s.id t.id
  volts : ∀ s, IsLine db.skipped db.secs s → ∃ v, Kv num s v

theorem loadSite_cases {feeders : List (Text × Text)} (hf : sectionFeeders (db.secs.map lowerSec) = .ok feeders) (n : Text) :
    ∃ f, loadSite feeders (db.secs.map lowerSec) (db.cust.map lowerCust) n = .ok (f, none) ∨
      ∃ s ∈ db.secs, loadSite feeders (db.secs.map lowerSec) (db.cust.map lowerCust) n = .ok (f, some (lowerSec s)) := by
  unfold loadSite
  cases h : firstSection (db.secs.map lowerSec) n with
  | some t =>
    obtain ⟨s, hs, rfl⟩ := List.mem_map.mp (firstSection_some h).1
    exact ⟨_, .inr ⟨s, hs, rfl⟩⟩
  | none =>
    dsimp only
    cases h2 : custSection (db.secs.map lowerSec) (db.cust.map lowerCust) n with
    | none => exact ⟨_, .inl rfl⟩
    | some t =>
      have hm := List.mem_of_getLast? h2
      obtain ⟨c, hc, hc2⟩ := List.mem_filterMap.mp hm
      obtain ⟨s, hs, rfl⟩ := List.mem_map.mp (firstSection_some hc2).1
      dsimp only
      rw [(sectionFeeders_ok hf).2 _ (List.mem_map_of_mem hs)]
      exact ⟨_, .inr ⟨s, hs, rfl⟩⟩

/-- a load is read, or there is no line at its node -/
theorem readLoad_cases {feeders subs : List (Text × Text)} {volts : List (Text × K × List Char)} (hf : sectionFeeders (db.secs.map lowerSec) = .ok feeders)
    (r : LoadRow K) : readLoad rnd feeders subs volts (db.secs.map lowerSec) (db.cust.map lowerCust) r = .error .typeError ∨
      ∃ l, readLoad rnd feeders subs volts (db.secs.map lowerSec) (db.cust.map lowerCust) r = .ok l := by
  unfold readLoad
  obtain ⟨f, h | ⟨s, -, h⟩⟩ := loadSite_cases (db := db) hf r.name
  · rw [h]; exact .inr ⟨_, rfl⟩
  · rw [h]
    dsimp only
    cases find volts (clean (lowerSec s).toNode) with
    | none => exact .inl rfl
    | some x => exact .inr ⟨_, rfl⟩

/-- the reading of a database with readable lines comes to the loads -/
theorem readLoads_eq (hr : Readable num db) : ∃ feeders volts, sectionFeeders (db.secs.map lowerSec) = .ok feeders ∧
    nodeVoltages num [] ((db.secs.filter fun s => decide (lower s.id ∉ db.skipped.map lower)).map lowerSec) = .ok volts ∧
    readLoads rnd num db = (((demands db).filter active).map rowOf).mapM (readLoad rnd feeders
      (feederSubstations (db.feederTable.map fun f => (lower f.1, lower f.2))) volts (db.secs.map lowerSec) (db.cust.map lowerCust)) := by
  obtain ⟨feeders, hf⟩ := sectionFeeders_of (ids_nodup hr.ids)
  obtain ⟨volts, hv⟩ := nodeVoltages_of (num := num) (d := []) (secs := db.secs.filter fun s => decide (lower s.id ∉ db.skipped.map lower))
    fun t ht => hr.volts t (mem_lines.mp ht)
  refine ⟨feeders, volts, hf, hv, ?_⟩
  unfold readLoads loadsOfTables
  rw [hf]
  dsimp only
  rw [lines_eq, hv]
  dsimp only
  rw [keptRows_eq]

/-- The loads can be read if each one with active power is in a known section, at the end of which there is a line. -/
theorem C93_reads (hsep : Separate db) (hr : Readable num db)
    (hs : ∀ d ∈ demands db, active d = true → ∃ s, Site db d s ∧ ∃ t, IsLine db.skipped db.secs t ∧ Touches t (shown s.toNode)) :
    ∃ ls, readLoads rnd num db = .ok ls := by
  obtain ⟨feeders, volts, hf, hv, e⟩ := readLoads_eq (rnd := rnd) hr
  rw [e]
  have key : ∀ d ∈ (demands db).filter active, ∃ l, readLoad rnd feeders (feederSubstations (db.feederTable.map fun f => (lower f.1, lower f.2)))
      volts (db.secs.map lowerSec) (db.cust.map lowerCust) (rowOf d) = .ok l := by
    intro d hd
    obtain ⟨hd1, hd2⟩ := List.mem_filter.mp hd
    obtain ⟨s, hsite, t, ht, hto⟩ := hs d hd1 hd2
    unfold readLoad
    have e : (rowOf d).name = lower d.name := rfl
    rw [e, loadSite_at hf hsep hd1 hsite]
    dsimp only
    have e2 : clean (lowerSec s).toNode = shown s.toNode := clean_lower_eq _
    rw [e2]
    cases hx : find volts (shown s.toNode) with
    | none => exact absurd hto (((nodeVoltages_none hv).mp hx).2 t (mem_lines.mpr ht))
    | some x => exact ⟨_, rfl⟩
  generalize (demands db).filter active = ds at key
  clear e hs
  induction ds with
  | nil => exact ⟨[], rfl⟩
  | cons d ds ih =>
    obtain ⟨l, hl⟩ := key d List.mem_cons_self
    obtain ⟨ls, hls⟩ := ih fun x hx => key x (List.mem_cons_of_mem _ hx)
    refine ⟨l :: ls, ?_⟩
    rw [List.map_cons, List.mapM_cons, hl, hls]
    rfl

/-- No active power is lost or added, if each load with active power is in a known section. -/
theorem C93_total_active (hsep : Separate db) (h : readLoads rnd num db = .ok ls)
    (hs : ∀ d ∈ demands db, active d = true → ∃ s, Site db d s) : totalP ls = 1000 * totalKw db := by
  obtain ⟨feeders, volts, hf, hv, hall⟩ := readLoads_ok h
  have h1 : totalP ls = (((demands db).filter active).map fun d => 1000 * three d.kw).sum := by
    have hmem : ∀ d ∈ (demands db).filter active, d ∈ demands db ∧ active d = true := fun d hd => List.mem_filter.mp hd
    revert hmem
    clear h
    generalize (demands db).filter active = ds at hall
    intro hmem
    induction hall with
    | nil => rfl
    | @cons d l ds ls hdl _ ih =>
      obtain ⟨hd1, hd2⟩ := hmem d List.mem_cons_self
      obtain ⟨s, hs1⟩ := hs d hd1 hd2
      obtain ⟨x, hx, rfl⟩ := readLoad_at (loadSite_at hf hsep hd1 hs1) hdl
      have := ih fun x hx => hmem x (List.mem_cons_of_mem _ hx)
      unfold totalP at this ⊢
      rw [List.map_cons, List.sum_cons, this, List.map_cons, List.sum_cons]
      congr 1
      exact phaseLoads_sum d
  rw [h1]
  unfold totalKw
  generalize demands db = ds
  induction ds with
  | nil => simp
  | cons d ds ih =>
    rw [List.filter_cons]
    split
    · rw [List.map_cons, List.sum_cons, List.map_cons, List.sum_cons, ih]; ring
    · rename_i hd
      have hz : d.kw.1 = 0 ∧ d.kw.2.1 = 0 ∧ d.kw.2.2 = 0 := by
        unfold active at hd
        simpa using hd
      rw [ih, List.map_cons, List.sum_cons]
      unfold three
      rw [hz.1, hz.2.1, hz.2.2]
      ring

/-- The property is false: a load without active power is left out, whatever its reactive power. -/
theorem C93_reactive_violated {a b : List (LoadRow K)} {n : Text} {q : K × K × K} (h : db.loads = a ++ ⟨n, (0, 0, 0), q⟩ :: b) :
    readLoads rnd num db = readLoads rnd num { db with loads := a ++ b } := by
  have e : keptRows (allLoadRows (db.loads.map lowerLoad) (db.cust.map lowerCust)) =
      keptRows (allLoadRows ((a ++ b).map lowerLoad) (db.cust.map lowerCust)) := by
    have := keptRows_eq db
    rw [this]
    have := keptRows_eq { db with loads := a ++ b }
    rw [this]
    congr 1
    unfold demands
    rw [h]
    simp only [List.map_append, List.map_cons, List.filter_append, List.filter_cons]
    rw [if_neg]
    unfold active
    simp
  unfold readLoads loadsOfTables
  rw [e]

/-- The property is false: a load in an unknown section has neither bus nor power. -/
theorem C93_lost_violated (h : readLoads rnd num db = .ok ls) {r : LoadRow K} (hr : r ∈ db.loads) (hk : ¬(r.kw.1 = 0 ∧ r.kw.2.1 = 0 ∧ r.kw.2.2 = 0))
    (hs : ∀ s ∈ db.secs, ¬Same s.id r.name) (hc : ∀ c ∈ db.cust, ¬Same c.device r.name) :
    ∃ l ∈ ls, l.name = "Load_".toList ++ shown r.name ∧ l.connecting = none ∧ l.phaseLoads = [] := by
  obtain ⟨feeders, volts, hf, hv, hall⟩ := readLoads_ok h
  have hd : (⟨r.name, r.name, r.kw, r.kvar⟩ : Demand K) ∈ (demands db).filter active := by
    refine List.mem_filter.mpr ⟨List.mem_append_left _ (List.mem_map.mpr ⟨r, hr, rfl⟩), ?_⟩
    exact decide_eq_true hk
  obtain ⟨l, hl, e⟩ := Glm.found_right hall hd
  refine ⟨l, hl, ?_⟩
  have h0 : firstSection (db.secs.map lowerSec) (lower r.name) = none := by
    rw [firstSection_none]
    intro t ht
    obtain ⟨t', ht', rfl⟩ := List.mem_map.mp ht
    exact hs t' ht'
  have h1 : custSection (db.secs.map lowerSec) (db.cust.map lowerCust) (lower r.name) = none := by
    unfold custSection
    have : (db.cust.map lowerCust).filter (fun c => decide (c.device = lower r.name)) = [] := by
      rw [List.filter_eq_nil_iff]
      intro c hc'
      obtain ⟨c', hc'', rfl⟩ := List.mem_map.mp hc'
      rw [decide_eq_true_eq]
      exact hc c' hc''
    rw [this]
    rfl
  unfold readLoad loadSite at e
  have e1 : (rowOf (⟨r.name, r.name, r.kw, r.kvar⟩ : Demand K)).name = lower r.name := rfl
  rw [e1, h0] at e
  dsimp only at e
  rw [h1] at e
  injection e with e
  subst e
  exact ⟨by rw [clean_lower_eq], rfl, rfl⟩

/-- The property is false: a large customer with the name of a section becomes a load of that section, not of its own one. -/
theorem C93_customer_violated (h : readLoads rnd num db = .ok ls) {c : CustRow K} (hc : c ∈ db.cust) (hcat : Same c.category ['L'] ∨ Same c.category ['C'])
    (hk : ¬(c.kw.1 = 0 ∧ c.kw.2.1 = 0 ∧ c.kw.2.2 = 0)) {s : SecRow} (hs : s ∈ db.secs) (hn : Same s.id c.device) :
    ∃ l ∈ ls, l.name = "Load_".toList ++ shown c.device ∧ l.connecting = some (shown s.toNode) := by
  obtain ⟨feeders, volts, hf, hv, hall⟩ := readLoads_ok h
  have hd : (⟨c.device, c.sec, c.kw, c.kvar⟩ : Demand K) ∈ (demands db).filter active := by
    refine List.mem_filter.mpr ⟨List.mem_append_right _ (List.mem_map.mpr ⟨c, List.mem_filter.mpr ⟨hc, by simpa using hcat⟩, rfl⟩), ?_⟩
    exact decide_eq_true hk
  obtain ⟨l, hl, e⟩ := Glm.found_right hall hd
  refine ⟨l, hl, ?_⟩
  have hmem : lowerSec s ∈ db.secs.map lowerSec := List.mem_map_of_mem hs
  have h0 : firstSection (db.secs.map lowerSec) (lower c.device) = some (lowerSec s) := by
    have e0 : lower s.id = lower c.device := hn
    rw [← e0]
    exact firstSection_of (sectionFeeders_ok hf).1 hmem
  have hsite : loadSite feeders (db.secs.map lowerSec) (db.cust.map lowerCust) (lower c.device) = .ok (some (shown s.feeder), some (lowerSec s)) := by
    unfold loadSite
    rw [h0]
    dsimp only
    have := (sectionFeeders_ok hf).2 _ hmem
    have e0 : lower s.id = lower c.device := hn
    rw [← e0, ← unblank_lower]
    rw [show find feeders (lower s.id) = _ from this]
    rfl
  obtain ⟨x, hx, rfl⟩ := readLoad_at (db := db) (d := ⟨c.device, c.sec, c.kw, c.kvar⟩) hsite e
  exact ⟨rfl, rfl⟩

/-- The property is false: if there is no line at the end of the section of a load, as with the section of a transformer that only feeds this load,
the whole database cannot be read. -/
theorem C93_node_violated (hsep : Separate db) (hr : Readable num db) {d : Demand K} (hd : d ∈ demands db) (ha : active d = true) {s : SecRow}
    (hs : Site db d s) (hno : ∀ t, IsLine db.skipped db.secs t → ¬Touches t (shown s.toNode)) : readLoads rnd num db = .error .typeError := by
  obtain ⟨feeders, volts, hf, hv, e⟩ := readLoads_eq (rnd := rnd) hr
  rw [e]
  refine Carson.mapM_error (fun r _ => readLoad_cases hf r) ⟨rowOf d, List.mem_map_of_mem (List.mem_filter.mpr ⟨hd, ha⟩), ?_⟩
  unfold readLoad
  have e : (rowOf d).name = lower d.name := rfl
  rw [e, loadSite_at hf hsep hd hs]
  dsimp only
  have e2 : clean (lowerSec s).toNode = shown s.toNode := clean_lower_eq _
  rw [e2, (nodeVoltages_none hv).mpr ⟨rfl, fun t ht => hno t (mem_lines.mp ht)⟩]

/-- The property is false: two loads of the same section get the same name. -/
theorem C93_names_violated (h : readLoads rnd num db = .ok ls) {a b c : List (LoadRow K)} {r r' : LoadRow K} (hl : db.loads = a ++ r :: (b ++ r' :: c))
    (hn : Same r.name r'.name) (hk : ¬(r.kw.1 = 0 ∧ r.kw.2.1 = 0 ∧ r.kw.2.2 = 0)) (hk' : ¬(r'.kw.1 = 0 ∧ r'.kw.2.1 = 0 ∧ r'.kw.2.2 = 0)) :
    ¬(ls.map (·.name)).Nodup := by
  obtain ⟨feeders, volts, hf, hv, hall⟩ := readLoads_ok h
  have hnames : ls.map (·.name) = ((demands db).filter active).map fun d => "Load_".toList ++ shown d.name := by
    clear h
    generalize (demands db).filter active = ds at hall
    induction hall with
    | nil => rfl
    | @cons d l ds ls hdl _ ih =>
      rw [List.map_cons, List.map_cons, ih]
      congr 1
      unfold readLoad at hdl
      split at hdl
      · cases hdl
      · injection hdl with hdl; subst hdl; show _ ++ clean (lower d.name) = _; rw [clean_lower_eq]
      · split at hdl
        · cases hdl
        · injection hdl with hdl; subst hdl; show _ ++ clean (lower d.name) = _; rw [clean_lower_eq]
  rw [hnames]
  unfold demands
  rw [hl]
  have ha : active (⟨r.name, r.name, r.kw, r.kvar⟩ : Demand K) = true := by exact decide_eq_true hk
  have ha' : active (⟨r'.name, r'.name, r'.kw, r'.kvar⟩ : Demand K) = true := by exact decide_eq_true hk'
  simp only [List.map_append, List.map_cons, List.filter_append, List.filter_cons, ha, ha', if_true]
  have e : shown r.name = shown r'.name := by
    rw [← clean_eq, ← clean_eq]
    unfold clean
    rw [show lower r.name = lower r'.name from hn]
  intro hnd
  have h2 := (List.nodup_append.mp (List.nodup_append.mp hnd).1).2.1
  refine (List.nodup_cons.mp h2).1 ?_
  rw [e]
  exact List.mem_append_right _ List.mem_cons_self

end

/-! ### Examples -/

/-- readable numbers of the examples -/
def exKv (t : Text) : Option ℚ := if t = "12.47".toList then some (1247 / 100) else if t = "7.2".toList then some (72 / 10) else none

/-- rounding does not matter here -/
def exRnd (x : ℚ) : ℚ := x

def exSecs : List SecRow :=
  [⟨"S 1".toList, "Feeder A".toList, "A B C N".toList, "Sub".toList, "Node 1".toList, "OH-12.47".toList⟩,
   ⟨"s2".toList, "Feeder A".toList, "A N".toList, "Node 1".toList, "N2".toList, "UG-1-7.2".toList⟩,
   ⟨"t3".toList, "Feeder A".toList, "A N".toList, "N2".toList, "N3".toList, "".toList⟩]

def exLoadDb : LoadDb ℚ where
  feederTable := [("Feeder A".toList, "Main St".toList)]
  skipped := ["T3".toList]
  secs := exSecs
  loads := [⟨"S2".toList, (5, 0, 0), (1, 0, 0)⟩, ⟨"s2".toList, (0, 0, 0), (3, 0, 0)⟩]
  cust := [⟨"Mill".toList, "s 1".toList, "L".toList, (10, 20, 30), (1, 2, 0)⟩, ⟨"Sun".toList, "s 1".toList, "D".toList, (7, 7, 7), (0, 0, 0)⟩]

theorem exSeparate : Separate exLoadDb := by
  refine ⟨?_, ?_⟩
  · decide
  · decide

theorem exReads : readLoads exRnd exKv exLoadDb = .ok
    [⟨"Load_s2".toList, some "feeder_a".toList, some "main_st".toList, some "n2".toList, [('A', 5000, 1000)], some 7200, some (65 / 100), some (11 / 10)⟩,
     ⟨"Load_mill".toList, some "feeder_a".toList, some "main_st".toList, some "node_1".toList, [('A', 10000, 1000), ('B', 20000, 2000), ('C', 30000, 0)],
       some 7200, some (65 / 100), some (11 / 10)⟩] := by
  decide +kernel

example : List.Forall₂ (fun d l => ∀ s, Site exLoadDb d s → LoadAt exRnd exKv exLoadDb d s l) ((demands exLoadDb).filter active)
    [⟨"Load_s2".toList, some "feeder_a".toList, some "main_st".toList, some "n2".toList, [('A', 5000, 1000)], some 7200, some (65 / 100), some (11 / 10)⟩,
     ⟨"Load_mill".toList, some "feeder_a".toList, some "main_st".toList, some "node_1".toList, [('A', 10000, 1000), ('B', 20000, 2000), ('C', 30000, 0)],
       some 7200, some (65 / 100), some (11 / 10)⟩] := C93_loads_partial exSeparate exReads

example : totalKw exLoadDb = 65 := by decide +kernel

theorem exSite {d : Demand ℚ} (hd : d ∈ demands exLoadDb) : ∃ s, Site exLoadDb d s := by
  have : ∀ d ∈ demands exLoadDb, ∃ s ∈ exLoadDb.secs, Same s.id d.sec := by decide +kernel
  obtain ⟨s, h1, h2⟩ := this d hd
  exact ⟨s, h1, h2⟩

example : (65000 : ℚ) = 1000 * totalKw exLoadDb := by
  rw [← C93_total_active exSeparate exReads fun d hd _ => exSite hd]
  decide +kernel

theorem exLine {s : SecRow} (h : IsLine exLoadDb.skipped exLoadDb.secs s) : s ∈ exSecs.take 2 := by
  obtain ⟨h1, h2⟩ := h
  have : ∀ s ∈ exSecs, (∀ k ∈ exLoadDb.skipped, ¬Same k s.id) → s ∈ exSecs.take 2 := by decide +kernel
  exact this s h1 h2

theorem exReadable : Readable exKv exLoadDb := by
  refine ⟨by decide, fun s h => ?_⟩
  have h := exLine h
  rcases List.mem_cons.mp h with rfl | h
  · exact ⟨12470, "oh".toList, "12.47".toList, 1247 / 100, by decide, by decide, by decide +kernel, by norm_num⟩
  · rcases List.mem_cons.mp h with rfl | h
    · exact ⟨7200, "ug-1".toList, "7.2".toList, 72 / 10, by decide, by decide, by decide +kernel, by norm_num⟩
    · cases h

example : ∃ ls, readLoads exRnd exKv exLoadDb = .ok ls := by
  refine C93_reads exSeparate exReadable fun d hd ha => ?_
  have : ∀ d ∈ demands exLoadDb, ∃ s ∈ exLoadDb.secs, Same s.id d.sec ∧
      ∃ t ∈ exLoadDb.secs, (∀ k ∈ exLoadDb.skipped, ¬Same k t.id) ∧ (shown t.fromNode = shown s.toNode ∨ shown t.toNode = shown s.toNode) := by
    decide +kernel
  obtain ⟨s, h1, h2, t, h3, h4, h5⟩ := this d hd
  exact ⟨s, ⟨h1, h2⟩, t, ⟨h3, h4⟩, h5⟩

example : readLoads exRnd exKv exLoadDb = readLoads exRnd exKv { exLoadDb with loads := [⟨"S2".toList, (5, 0, 0), (1, 0, 0)⟩] } :=
  C93_reactive_violated (a := [⟨"S2".toList, (5, 0, 0), (1, 0, 0)⟩]) (b := []) rfl

/-- a load in a section that is not in the table of sections -/
def exLostDb : LoadDb ℚ := { exLoadDb with loads := [⟨"S9".toList, (5, 0, 0), (1, 0, 0)⟩], cust := [] }

example : ∃ l, readLoads exRnd exKv exLostDb = .ok [l] ∧ l.connecting = none ∧ l.phaseLoads = [] := by
  have h : readLoads exRnd exKv exLostDb =
      .ok [⟨"Load_s9".toList, none, none, none, [], none, none, none⟩] := by decide +kernel
  obtain ⟨l, hl, -, h2⟩ := C93_lost_violated h (r := ⟨"S9".toList, (5, 0, 0), (1, 0, 0)⟩) List.mem_cons_self (by decide +kernel) (by decide +kernel)
    (by decide +kernel)
  obtain rfl := List.mem_singleton.mp hl
  exact ⟨_, h, h2⟩

/-- a large customer with the name of another section -/
def exNamedDb : LoadDb ℚ := { exLoadDb with loads := [], cust := [⟨"S2".toList, "s 1".toList, "L".toList, (10, 20, 30), (1, 2, 0)⟩] }

example : ∃ ls, readLoads exRnd exKv exNamedDb = .ok ls ∧ ∃ l ∈ ls, l.connecting = some "n2".toList := by
  obtain ⟨ls, h⟩ : ∃ ls, readLoads exRnd exKv exNamedDb = .ok ls := by
    have h : readLoads exRnd exKv exNamedDb = .ok [⟨"Load_s2".toList, some "feeder_a".toList, some "main_st".toList, some "n2".toList,
      [('A', 10000, 1000), ('B', 20000, 2000), ('C', 30000, 0)], some 7200, some (65 / 100), some (11 / 10)⟩] := by decide +kernel
    exact ⟨_, h⟩
  obtain ⟨l, hl, -, h2⟩ := C93_customer_violated h (c := ⟨"S2".toList, "s 1".toList, "L".toList, (10, 20, 30), (1, 2, 0)⟩) List.mem_cons_self
    (by decide) (by decide +kernel) (s := ⟨"s2".toList, "Feeder A".toList, "A N".toList, "Node 1".toList, "N2".toList, "UG-1-7.2".toList⟩)
    (by decide) (by decide)
  exact ⟨ls, h, l, hl, h2⟩

/-- a load behind a transformer -/
def exBehindDb : LoadDb ℚ := { exLoadDb with loads := [⟨"t3".toList, (5, 0, 0), (1, 0, 0)⟩], cust := [] }

example : readLoads exRnd exKv exBehindDb = .error .typeError := by
  refine C93_node_violated (d := ⟨"t3".toList, "t3".toList, (5, 0, 0), (1, 0, 0)⟩) ?_ ?_ (by decide +kernel) (by decide +kernel)
    (s := ⟨"t3".toList, "Feeder A".toList, "A N".toList, "N2".toList, "N3".toList, "".toList⟩) ?_ ?_
  · exact ⟨by decide, by decide⟩
  · exact ⟨exReadable.ids, exReadable.volts⟩
  · exact ⟨by decide, by decide⟩
  · intro t ht
    have h := exLine ht
    have : ∀ t ∈ exSecs.take 2, ¬(shown t.fromNode = "n3".toList ∨ shown t.toNode = "n3".toList) := by decide +kernel
    exact this t h

/-- two loads of one section -/
def exTwiceDb : LoadDb ℚ := { exLoadDb with loads := [⟨"S2".toList, (5, 0, 0), (1, 0, 0)⟩, ⟨"s2".toList, (6, 0, 0), (3, 0, 0)⟩], cust := [] }

example : ∃ ls, readLoads exRnd exKv exTwiceDb = .ok ls ∧ ¬(ls.map (·.name)).Nodup := by
  have h : readLoads exRnd exKv exTwiceDb = .ok
      [⟨"Load_s2".toList, some "feeder_a".toList, some "main_st".toList, some "n2".toList, [('A', 5000, 1000)], some 7200, some (65 / 100), some (11 / 10)⟩,
       ⟨"Load_s2".toList, some "feeder_a".toList, some "main_st".toList, some "n2".toList, [('A', 6000, 3000)], some 7200, some (65 / 100), some (11 / 10)⟩] := by
    decide +kernel
  exact ⟨_, h, C93_names_violated h (a := []) (b := []) (c := []) rfl (by decide) (by decide +kernel) (by decide +kernel)⟩

/-- the same sections in another order -/
def exOtherDb : LoadDb ℚ := { exLoadDb with secs := [exSecs[1], exSecs[0], exSecs[2]] }

def exMill (v : ℚ) : SynLoad ℚ where
  name := "Load_mill".toList
  feeder := some "feeder_a".toList
  substation := some "main_st".toList
  connecting := some "node_1".toList
  phaseLoads := [('A', 10000, 1000), ('B', 20000, 2000), ('C', 30000, 0)]
  voltage := some v
  vmin := some (65 / 100)
  vmax := some (11 / 10)

theorem exOther : readLoads exRnd exKv exOtherDb = .ok
    [⟨"Load_s2".toList, some "feeder_a".toList, some "main_st".toList, some "n2".toList, [('A', 5000, 1000)], some 7200, some (65 / 100), some (11 / 10)⟩,
     exMill 12470] := by
  decide +kernel

/-- The property is false: the voltage of a load depends on the order of the rows of the table of sections, if lines with different voltages or
phases meet at its node. Here the load with three phases is at the end of a line with three phases and 12470 V. -/
theorem C93_order_violated : ∃ db db' : LoadDb ℚ, db' = { db with secs := db'.secs } ∧ db'.secs.Perm db.secs ∧ ∃ l l' : SynLoad ℚ, ∃ ls ls',
    readLoads exRnd exKv db = .ok ls ∧ readLoads exRnd exKv db' = .ok ls' ∧ l ∈ ls ∧ l' ∈ ls' ∧ l.name = l'.name ∧ l.voltage = some 7200 ∧
      l'.voltage = some 12470 := by
  exact ⟨exLoadDb, exOtherDb, rfl, List.Perm.swap _ _ _, exMill 7200, exMill 12470, _, _, exReads, exOther, List.mem_cons_of_mem _ List.mem_cons_self,
    List.mem_cons_of_mem _ List.mem_cons_self, rfl, rfl, rfl⟩

end Ditto.Syn
