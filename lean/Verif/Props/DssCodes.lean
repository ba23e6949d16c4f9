import Verif.Lemmas.DssCodes

/-! C50: OpenDSS files describe each line by its own wires, geometry or code. -/
namespace Ditto.Dss
open Ditto Ditto.Spec Ditto.Json

/-! ### What the definitions contain -/

/-- The data of an overhead wire say each attribute of the wire that is known, and no others. -/
theorem C50_wire_data (w : DWire) :
    (parseWire w).lookup "GMRac" = w.gmr.map .num ∧ (parseWire w).lookup "Diam" = w.diameter.map .num ∧
      (parseWire w).lookup "normamps" = w.ampacity.map .num ∧ (parseWire w).lookup "emergamps" = w.emergency.map .num ∧
      (parseWire w).lookup "Rac" = w.resistance.map .num ∧
      (w.gmr ≠ none → (parseWire w).lookup "GMRunits" = some (.str "m")) ∧ (w.diameter ≠ none → (parseWire w).lookup "Radunits" = some (.str "m")) := by
  obtain ⟨nc, ph, x, y, gmr, dia, amp, em, res, ins, a1, a2, a3, a4, a5⟩ := w
  unfold parseWire
  cases gmr <;> cases dia <;> cases amp <;> cases em <;> cases res <;> simp [entry, entryUnit, List.lookup]

/-- The data of a cable say each attribute of the wire that is known. -/
theorem C50_cable_data (w : DWire) :
    (parseCable w).lookup "InsLayer" = w.insulation.map .num ∧ (parseCable w).lookup "k" = w.cnNstrand.map .num ∧
      (parseCable w).lookup "DiaStrand" = w.cnDiameter.map .num ∧ (parseCable w).lookup "Rstrand" = w.cnResistance.map .num ∧
      (parseCable w).lookup "Diam" = w.diameter.map .num ∧ (parseCable w).lookup "DiaCable" = w.cnOutside.map .num ∧
      (parseCable w).lookup "Rac" = w.resistance.map .num ∧ (parseCable w).lookup "GmrStrand" = w.cnGmr.map .num ∧
      (parseCable w).lookup "GMRac" = w.gmr.map .num ∧
      (∀ t d, w.insulation = some t → w.diameter = some d → (parseCable w).lookup "DiaIns" = some (.num (d + 2 * t))) ∧
      (parseCable w).lookup "Runits" = some (.str "m") ∧ (parseCable w).lookup "Radunits" = some (.str "m") ∧
      (parseCable w).lookup "GMRunits" = some (.str "m") := by
  have he : ∀ (k k' : String) (o : Option ℚ) (r : Params), (entry k' o ++ r).lookup k = if k = k' ∧ o.isSome then o.map .num else r.lookup k := by
    intro k k' o r
    cases o with
    | none => simp [entry]
    | some v =>
      by_cases hk : k = k'
      · subst hk; simp [entry]
      · have : (k == k') = false := by simpa using hk
        simp [entry, List.lookup_cons, hk, this]
  have hm : ∀ o : Option ℚ, (if o.isSome = true then o.map PVal.num else none) = o.map .num := by intro o; cases o <;> rfl
  unfold parseCable
  simp only [List.append_assoc, he]
  refine ⟨?_, ?_, ?_, ?_, ?_, ?_, ?_, ?_, ?_, ?_, ?_, ?_, ?_⟩
  case refine_10 =>
    intro t d h1 h2
    simp [diaIns, h1, h2]
  all_goals simp [List.lookup, hm]

/-- The parameters of a code: the phases, and the matrices in ohms and nanofarads per km. -/
theorem C50_code_data (l : DLine) :
    (parseLine l).lookup "units" = some (.str "km") ∧ (parseLine l).lookup "nphases" = some (.nat (phaseCount l)) ∧
      (parseLine l).lookup "Faultrate" = l.faultrate.map .num ∧
      (l.r ≠ [] → (parseLine l).lookup "Rmatrix" = some (.mat (l.r.map (List.map (· * 1000)))) ∧
        (parseLine l).lookup "Xmatrix" = some (.mat (l.xm.map (List.map (· * 1000))))) ∧
      (l.r = [] → l.device = false → (parseLine l).lookup "Rmatrix" = none) ∧
      (l.c ≠ [] → (parseLine l).lookup "Cmatrix" = some (.mat (l.c.map (List.map (· * 1000))))) ∧
      (parseLine l).lookup "normamps" = (l.wires.head?.bind (·.ampacity)).map .num ∧
      (parseLine l).lookup "emergamps" = (l.wires.head?.bind (·.emergency)).map .num := by
  unfold parseLine
  simp only [phaseCount_eq]
  generalize l.wires.head?.bind (·.ampacity) = a
  generalize l.wires.head?.bind (·.emergency) = b
  unfold lineMatrices perKm
  cases hf : l.faultrate <;> cases a <;> cases b <;> by_cases hr : l.r = [] <;> by_cases hc : l.c = [] <;> cases hd : l.device <;>
    simp [hr, hc, entry, List.lookup]

/-- A switch, fuse, breaker or sectionalizer without impedances has the same small resistance and reactance (10⁻⁵ ohm per km) in each
phase and none between phases, so that OpenDSS can invert the matrices. -/
theorem C50_device_data (l : DLine) (hr : l.r = []) (hd : l.device = true) :
    ∃ m : List (List ℚ), (parseLine l).lookup "Rmatrix" = some (.mat m) ∧ (parseLine l).lookup "Xmatrix" = some (.mat m) ∧ m.length = phaseCount l ∧
      ∀ i < phaseCount l, ∃ row, m[i]? = some row ∧ row.length = phaseCount l ∧ ∀ j < phaseCount l, row[j]? = some (if j = i then 1 / 100000 else 0) := by
  refine ⟨perKm (smallMatrix (phaseCount l)), ?_, ?_, by simp [perKm, smallMatrix], fun i hi =>
    ⟨((List.range (phaseCount l)).map fun j => if j = i then (1 : ℚ) / 100000000 else 0).map (· * 1000), ?_, by simp, fun j hj => ?_⟩⟩
  · unfold parseLine lineMatrices
    simp only [phaseCount_eq]
    cases l.faultrate <;> simp [hr, hd, entry, List.lookup]
  · unfold parseLine lineMatrices
    simp only [phaseCount_eq]
    cases l.faultrate <;> simp [hr, hd, entry, List.lookup]
  · unfold perKm smallMatrix
    rw [List.getElem?_map, List.getElem?_map, List.getElem?_range hi]
    rfl
  · rw [List.getElem?_map, List.getElem?_map, List.getElem?_range hj]
    simp only [Option.map_some, Option.some.injEq]
    split
    · decide +kernel
    · exact zero_mul _

/-! ### Choice -/

/-- A line is written by its geometry exactly if all that is needed is known of it. -/
theorem C50_choice (l : DLine) : useLinecodes l = false ↔ GeometryKnown l := by
  have h1 : ∀ (α : Type) (o : Option α), o.isNone = false ↔ ∃ v, o = some v := by intro α o; cases o <;> simp
  unfold useLinecodes GeometryKnown Underground
  by_cases hu : l.lineType = some "underground"
  · simp only [hu, ne_eq, not_true_eq_false, if_false, Bool.or_eq_false_iff, List.isEmpty_eq_false_iff, List.any_eq_false, Bool.not_eq_true, true_implies,
      h1, forall_const]
    refine and_congr Iff.rfl (forall₂_congr fun w _ => ?_)
    tauto
  · simp only [hu, ne_eq, not_false_eq_true, if_true, Bool.or_eq_false_iff, List.isEmpty_eq_false_iff, List.any_eq_false, Bool.not_eq_true, h1, false_implies,
      and_true]
    refine and_congr Iff.rfl (forall₂_congr fun w _ => ?_)
    tauto

/-! ### Wires -/

/-- Each wire refers to an entry with exactly its own data, each entry is the data of some wire, and nothing but the names of wires is
changed. Missing: names that look like another name with a number (see `C50_names_violated`). -/
theorem C50_wires_partial (ls : List DLine) (hclash : NoClash (fun n => WireName ls false n ∨ WireName ls true n) ["Wire", "CNCable"]) :
    List.Forall₂ (LineRefers (writeWiredata ls).1) ls (writeWiredata ls).2 ∧
      ((writeWiredata ls).1.wires.map (·.1)).Nodup ∧ ((writeWiredata ls).1.cables.map (·.1)).Nodup ∧
      (∀ e ∈ (writeWiredata ls).1.wires, ∃ l ∈ ls, ¬ Underground l ∧ ∃ w ∈ l.wires, e.2 = parseWire w) ∧
      (∀ e ∈ (writeWiredata ls).1.cables, ∃ l ∈ ls, Underground l ∧ ∃ w ∈ l.wires, e.2 = parseCable w) := by
  obtain ⟨h1, h2⟩ := wires_spec hclash
  exact ⟨h2, h1.wires.nodup, h1.cables.nodup, h1.wires.vals, h1.cables.vals⟩

/-! ### Geometries -/

/-- Wire data and geometries of the lines written by their geometry: writing succeeds, and the geometry that a line refers to describes it,
conductor by conductor. Missing: clashing names, and names shared by overhead wires and cables (see `C50_names_violated`,
`C50_cable_violated`). -/
theorem C50_geometries_partial (ls : List DLine) (hknown : ∀ l ∈ ls, GeometryKnown l)
    (hclash : NoClash (fun n => WireName ls false n ∨ WireName ls true n) ["Wire", "CNCable"])
    (hdisj : ∀ n, WireName ls false n → ¬ WireName ls true n) (hnames : NoClash (LineName ls) ["Geometry"]) :
    ∃ gs ls', writeGeometries (writeWiredata ls).1 (writeWiredata ls).2 = .ok (gs, ls') ∧ (gs.geos.map (·.1)).Nodup ∧
      List.Forall₂ (fun l l' => l' = { l with nameclass := l'.nameclass, wires := l'.wires } ∧
        ∃ n g, l'.nameclass = some n ∧ gs.geos.lookup n = some g ∧ DescribesLine (writeWiredata ls).1 l g) ls ls' := by
  obtain ⟨hI, hF⟩ := wires_spec hclash
  generalize (writeWiredata ls).1 = ws at hI hF ⊢
  generalize (writeWiredata ls).2 = ls1 at hF ⊢
  obtain ⟨gs, ls', h1, h2, h3⟩ := geometries_spec (ws := ws) (ls' := ls1) hnames
    (fun l' hl' n hn => by
      obtain ⟨l, hl, h⟩ := forall2_right hF hl'
      exact ⟨l, hl, by rw [h.1] at hn; exact hn⟩)
    (fun l' hl' => by
      obtain ⟨l, hl, h⟩ := forall2_right hF hl'
      obtain ⟨g, hg, -⟩ := parseGeometry_spec hI hdisj h (hasData_of_known (hknown l hl))
      exact ⟨g, hg⟩)
  refine ⟨gs, ls', h1, h2, ?_⟩
  have hF' : List.Forall₂ (fun l l' => LineRefers ws l l' ∧ GeometryKnown l) ls ls1 := by
    clear h1 h2 h3 hclash hdisj hnames hI
    induction hF with
    | nil => exact .nil
    | cons h _ ih => exact .cons ⟨h, hknown _ List.mem_cons_self⟩ (ih fun l hl => hknown l (List.mem_cons_of_mem _ hl))
  refine forall2_trans (fun l m l' ha hb => ?_) hF' h3
  obtain ⟨n, g, rfl, h5, h6⟩ := hb
  obtain ⟨g', h7, h8⟩ := parseGeometry_spec hI hdisj ha.1 (hasData_of_known ha.2)
  rw [h6] at h7
  cases h7
  refine ⟨?_, n, g, rfl, h5, h8⟩
  have := ha.1.1
  conv_lhs => rw [this]

/-! ### Codes -/

/-- The codes of the other lines: nothing but the nameclass of a line is changed; among the definitions in all files the code that a line
refers to is defined, and only with the parameters of the line. If the line had a nameclass, or there is only one file, the definition is in
the file of the line, once. Missing: lines with the same nameclass and different parameters (see `C50_codes_violated`), lines without
nameclass in separate files (see `C50_file_violated`) and names that differ only in special characters (see `C50_clean_violated`). -/
theorem C50_linecodes_partial (sf ss : Bool) (ls : List DLine) (hcons : Consistent ls) (hclean : CleanDistinct ls) :
    List.Forall₂ (fun l l' => ∃ n, l' = { l with nameclass := some n } ∧
      (∃ f ∈ (writeLinecodes sf ss ls).1.files, ∃ e ∈ f.2, cleanName e.1 = cleanName n) ∧
      (∀ key txt, (writeLinecodes sf ss ls).1.files.lookup key = some txt → ∀ e ∈ txt, cleanName e.1 = cleanName n → e.2 = parseLine l) ∧
      (l.nameclass ≠ none ∨ (sf = false ∧ ss = false) →
        ∃ txt, (writeLinecodes sf ss ls).1.files.lookup (groupKey (groupOf sf ss l.feeder l.substation)) = some txt ∧
          txt.filter (fun e => cleanName e.1 = cleanName n) = [(n, parseLine l)]))
      ls (writeLinecodes sf ss ls).2 := by
  obtain ⟨hI, hF⟩ := linecodes_spec sf ss hcons
  generalize (writeLinecodes sf ss ls).1 = st at hI hF ⊢
  refine hF.imp fun l l' h => ?_
  obtain ⟨n, h1, h2, h3, -⟩ := h
  have hmem : ∀ k v, st.all.lookup k = some v → k ∈ st.all.map (·.1) := fun k v h => List.mem_map.2 ⟨(k, v), lookup_isSome_mem h, rfl⟩
  have huniq : ∀ key txt, st.files.lookup key = some txt → ∀ e ∈ txt, cleanName e.1 = cleanName n → e = (n, parseLine l) := by
    intro key txt ht e he hce
    obtain ⟨hnd, hext⟩ := hI.files _ _ ht
    have he' := hext _ _ (lookup_of_mem_nodup hnd (show (e.1, e.2) ∈ txt from he))
    have hk := clean_inj hI hclean (hmem _ _ he') (hmem _ _ h2) hce
    rw [hk, h2] at he'
    exact Prod.ext hk (Option.some.inj he').symm
  refine ⟨n, h1, ?_, fun key txt ht e he hce => by rw [huniq key txt ht e he hce], fun hc => ?_⟩
  · obtain ⟨key, txt, h4, h5⟩ := hI.some _ _ h2
    exact ⟨(key, txt), lookup_isSome_mem h4, _, lookup_isSome_mem h5, rfl⟩
  · obtain ⟨txt, h4, h5⟩ := h3 hc
    refine ⟨txt, h4, ?_⟩
    obtain ⟨hnd, -⟩ := hI.files _ _ h4
    have hin := lookup_isSome_mem h5
    have hall := huniq _ _ h4
    have hnd' : txt.Nodup := List.Nodup.of_map _ hnd
    have hf := hnd'.filter (fun e => decide (cleanName e.1 = cleanName n))
    have hself : (n, parseLine l) ∈ txt.filter (fun e => decide (cleanName e.1 = cleanName n)) := List.mem_filter.2 ⟨hin, by simp⟩
    generalize hr : txt.filter (fun e => decide (cleanName e.1 = cleanName n)) = r at hf hself
    have hsub : ∀ e ∈ r, e = (n, parseLine l) := fun e he => by
      rw [← hr] at he
      obtain ⟨h6, h7⟩ := List.mem_filter.1 he
      exact hall e h6 (by simpa using h7)
    cases r with
    | nil => cases hself
    | cons a as =>
      have ha := hsub a List.mem_cons_self
      cases as with
      | nil => rw [ha]
      | cons b bs =>
        have hb := hsub b (List.mem_cons_of_mem _ List.mem_cons_self)
        rw [List.nodup_cons] at hf
        exact absurd (hb ▸ ha ▸ List.mem_cons_self) hf.1

/-! ### Examples and violations -/

def exWireA : DWire where
  nameclass := some "acsr"
  phase := some "A"
  x := some 1
  y := some 8
  gmr := some (1 / 100)
  diameter := some (1 / 50)
  ampacity := some 300

/-- the same name with another diameter -/
def exWireB : DWire where
  nameclass := some "acsr"
  phase := some "B"
  x := some 2
  y := some 8
  gmr := some (1 / 100)
  diameter := some (1 / 40)
  ampacity := some 300

def exWireN : DWire where
  phase := some "N"
  x := some 2
  y := some 7
  gmr := some (1 / 100)
  diameter := some (1 / 50)
  ampacity := some 300

def exCable : DWire where
  phase := some "C"
  x := some 0
  y := some (-1)
  gmr := some (1 / 100)
  diameter := some (1 / 50)
  ampacity := some 300
  cnGmr := some (1 / 1000)
  cnResistance := some (1 / 10)
  cnDiameter := some (1 / 500)
  cnOutside := some (1 / 20)
  cnNstrand := some 6

example : ({ device := true, wires := [{ phase := some "A" }, { phase := some "B" }] } : DLine).r = [] ∧
    phaseCount { device := true, wires := [{ phase := some "A" }, { phase := some "B" }] } = 2 := by decide

def exOverhead : DLine where
  name := some "l1"
  nameclass := some "pole"
  lineType := some "overhead"
  wires := [exWireA, exWireB, exWireN]

def exUnderground : DLine where
  name := some "l2"
  lineType := some "underground"
  wires := [exCable]

def exGeoLines : List DLine := [exOverhead, exUnderground]

theorem exWireName {c : Bool} {n : String} (h : WireName exGeoLines c n) : n = "acsr" ∧ c = false := by
  obtain ⟨l, hl, hc, w, hw, hn⟩ := h
  simp only [exGeoLines, List.mem_cons, List.not_mem_nil, or_false] at hl
  rcases hl with rfl | rfl
  · simp only [exOverhead, List.mem_cons, List.not_mem_nil, or_false] at hw
    have : c = false := by
      cases c with
      | false => rfl
      | true => exact absurd (hc.2 rfl) (by unfold Underground; decide)
    rcases hw with rfl | rfl | rfl
    · cases hn; exact ⟨rfl, this⟩
    · cases hn; exact ⟨rfl, this⟩
    · cases hn
  · simp only [exUnderground, List.mem_cons, List.not_mem_nil, or_false] at hw
    subst hw
    cases hn

/-- the example meets the hypotheses of `C50_wires_partial` and `C50_geometries_partial` -/
theorem exGeoLines_clash : NoClash (fun n => WireName exGeoLines false n ∨ WireName exGeoLines true n) ["Wire", "CNCable"] := by
  intro n hn b _ m he
  have hn : n = "acsr" := by rcases hn with h | h <;> exact (exWireName h).1
  subst hn
  have h1 := congrArg String.toList he
  simp only [String.toList_append] at h1
  have : '_' ∈ "acsr".toList := by
    rw [h1]
    exact List.mem_append_left _ (List.mem_append_right _ (by decide))
  exact absurd this (by decide)

example : (∀ l ∈ exGeoLines, GeometryKnown l) ∧ (∀ n, WireName exGeoLines false n → ¬ WireName exGeoLines true n) ∧
    NoClash (LineName exGeoLines) ["Geometry"] := by
  refine ⟨fun l hl => (C50_choice l).1 ?_, fun n _ h => absurd (exWireName h).2 (by decide), fun n hn b _ m he => ?_⟩
  · revert l hl; decide +kernel
  · obtain ⟨l, hl, hn⟩ := hn
    have hn : n = "pole" := by
      simp only [exGeoLines, List.mem_cons, List.not_mem_nil, or_false] at hl
      rcases hl with rfl | rfl <;> cases hn
      rfl
    subst hn
    have h1 := congrArg String.toList he
    simp only [String.toList_append] at h1
    have : '_' ∈ "pole".toList := by
      rw [h1]
      exact List.mem_append_left _ (List.mem_append_right _ (by decide))
    exact absurd this (by decide)

/-- in the example three wires and a cable are written, the second wire under a new name -/
theorem exGeoLines_run : ((writeWiredata exGeoLines).1.wires.map (·.1), (writeWiredata exGeoLines).1.cables.map (·.1)) = (["acsr", "acsr_1"], ["CNCable_2"]) ∧
    (writeGeometries (writeWiredata exGeoLines).1 (writeWiredata exGeoLines).2).map (fun r => r.1.geos.map fun g => (g.1, g.2.conds.map (·.wire))) =
      .ok [("pole", ["acsr", "acsr_1", "acsr"]), ("Geometry_1", ["CNCable_2"])] := by
  constructor <;> decide +kernel

/-- The name of a wire may look like a numbered one: then the data of that wire are overwritten, and it refers to the data of another. -/
theorem C50_names_violated : ∃ (ls : List DLine) (w w' : DWire), (∃ l ∈ ls, w ∈ l.wires ∧ ¬ Underground l) ∧ HasData w ∧
    (∃ l' ∈ (writeWiredata ls).2, w' ∈ l'.wires) ∧ w = w' ∧ ∃ p, (∃ n, w'.nameclass = some n ∧ (writeWiredata ls).1.wires.lookup n = some p) ∧ p ≠ parseWire w := by
  refine ⟨[{ wires := [{ nameclass := some "a", gmr := some 1 }, { nameclass := some "a_1", gmr := some 2 }, { nameclass := some "a", gmr := some 3 }] }],
    { nameclass := some "a_1", gmr := some 2 }, { nameclass := some "a_1", gmr := some 2 }, ?_, ?_, ?_, rfl, [("GMRac", .num 3), ("GMRunits", .str "m")],
    ⟨"a_1", rfl, ?_⟩, ?_⟩
  · exact ⟨_, List.mem_singleton.2 rfl, by decide +kernel, by unfold Underground; decide⟩
  · unfold HasData; decide +kernel
  · exact ⟨{ wires := [{ nameclass := some "a", gmr := some 1 }, { nameclass := some "a_1", gmr := some 2 }, { nameclass := some "a_1", gmr := some 3 }] },
      by decide +kernel, by decide +kernel⟩
  · decide +kernel
  · decide +kernel

/-- A cable that has the same name as an overhead wire is written as an overhead wire, with its data. -/
theorem C50_cable_violated : ∃ ls : List DLine, (∀ l ∈ ls, GeometryKnown l) ∧ ∃ gs ls', writeGeometries (writeWiredata ls).1 (writeWiredata ls).2 = .ok (gs, ls') ∧
    ∃ l ∈ ls', Underground l ∧ ∃ n g, l.nameclass = some n ∧ gs.geos.lookup n = some g ∧ ∀ c ∈ g.conds, c.cable = false := by
  refine ⟨[exOverhead, { exUnderground with wires := [{ exCable with nameclass := some "acsr" }] }], fun l hl => (C50_choice l).1 (by revert l hl; decide +kernel), ?_⟩
  have h : ((writeGeometries (writeWiredata [exOverhead, { exUnderground with wires := [{ exCable with nameclass := some "acsr" }] }]).1
      (writeWiredata [exOverhead, { exUnderground with wires := [{ exCable with nameclass := some "acsr" }] }]).2).map fun r =>
      r.2.any fun l => decide (l.lineType = some "underground") && (match l.nameclass with
        | some n => (match r.1.geos.lookup n with
          | some g => g.conds.all fun c => !c.cable
          | none => false)
        | none => false)) = .ok true := by decide +kernel
  cases hw : writeGeometries (writeWiredata [exOverhead, { exUnderground with wires := [{ exCable with nameclass := some "acsr" }] }]).1
      (writeWiredata [exOverhead, { exUnderground with wires := [{ exCable with nameclass := some "acsr" }] }]).2 with
  | error e => rw [hw] at h; cases h
  | ok r =>
    rw [hw] at h
    obtain ⟨gs, ls'⟩ := r
    refine ⟨gs, ls', rfl, ?_⟩
    have h' : (ls'.any fun l => decide (l.lineType = some "underground") && (match l.nameclass with
        | some n => (match gs.geos.lookup n with
          | some g => g.conds.all fun c => !c.cable
          | none => false)
        | none => false)) = true := by
      injection h
    rw [List.any_eq_true] at h'
    obtain ⟨l, hl, h'⟩ := h'
    rw [Bool.and_eq_true, decide_eq_true_eq] at h'
    refine ⟨l, hl, h'.1, ?_⟩
    have h2 := h'.2
    cases hn : l.nameclass with
    | none => rw [hn] at h2; cases h2
    | some n =>
      rw [hn] at h2
      cases hg : gs.geos.lookup n with
      | none => simp only [hg] at h2; cases h2
      | some g =>
        simp only [hg, List.all_eq_true, Bool.not_eq_true'] at h2
        exact ⟨n, g, rfl, hg, h2⟩

/-- a line of one phase with this nameclass and impedance -/
def exCoded (nc : Option String) (r : ℚ) : DLine where
  nameclass := nc
  wires := [{ phase := some "A" }]
  r := [[r]]
  xm := [[r]]

/-- the example of consistent lines -/
example : Consistent [exCoded (some "a") 1, exCoded none 2, exCoded (some "b") 2, exCoded (some "a") 1] ∧
    CleanDistinct [exCoded (some "a") 1, exCoded none 2, exCoded (some "b") 2, exCoded (some "a") 1] := by
  constructor
  · intro l hl l' hl' n hn hn' _
    simp only [List.mem_cons, List.not_mem_nil, or_false] at hl hl'
    rcases hl with rfl | rfl | rfl | rfl <;> rcases hl' with rfl | rfl | rfl | rfl <;> cases hn <;> first | rfl | (exact absurd hn' (by decide))
  · intro l hl l' hl' n n' hn hn'
    simp only [List.mem_cons, List.not_mem_nil, or_false] at hl hl'
    rcases hl with rfl | rfl | rfl | rfl <;> rcases hl' with rfl | rfl | rfl | rfl <;> cases hn <;> cases hn' <;> decide +kernel

theorem exCoded_run : (writeLinecodes false false [exCoded (some "a") 1, exCoded none 2, exCoded (some "b") 2, exCoded (some "a") 1]).2.map (·.nameclass) =
    [some "a_1", some "1P_Code0", some "b_1", some "a_1"] := by decide +kernel

/-- Of three lines with the same nameclass and different impedances the third gets the code of the second. -/
theorem C50_codes_violated : ∃ ls : List DLine, ∃ l ∈ ls, ∃ l' ∈ (writeLinecodes false false ls).2, l' = { l with nameclass := some "a_1_0" } ∧ l.r = [[3]] ∧
    (writeLinecodes false false ls).1.all.lookup "a_1_0" = some (parseLine (exCoded (some "a") 2)) ∧
    (parseLine (exCoded (some "a") 2)).lookup "Rmatrix" = some (.mat [[2000]]) := by
  refine ⟨[exCoded (some "a") 1, exCoded (some "a") 2, exCoded (some "a") 3], exCoded (some "a") 3, by decide +kernel,
    { exCoded (some "a") 3 with nameclass := some "a_1_0" }, ?_, rfl, rfl, ?_, ?_⟩ <;> decide +kernel

/-- With separate feeders the file of a line without nameclass may lack its code, which is only in the file of another feeder. -/
theorem C50_file_violated : ∃ ls : List DLine, ∃ l' ∈ (writeLinecodes true false ls).2, l'.feeder = some "g" ∧ l'.nameclass = some "1P_Code0" ∧
    (writeLinecodes true false ls).1.files.lookup "DEFAULT_g" = some [] := by
  refine ⟨[{ exCoded none 1 with feeder := some "f" }, { exCoded none 1 with feeder := some "g" }],
    { exCoded (some "1P_Code0") 1 with feeder := some "g" }, ?_, rfl, rfl, ?_⟩ <;> decide +kernel

/-- Names that differ in special characters only become the same name: two definitions of one code. -/
theorem C50_clean_violated : ∃ ls : List DLine, Consistent ls ∧ ∃ txt, (writeLinecodes false false ls).1.files.lookup "DEFAULT_DEFAULT" = some txt ∧
    ∃ e ∈ txt, ∃ e' ∈ txt, cleanName e.1 = cleanName e'.1 ∧ e.2 ≠ e'.2 := by
  refine ⟨[exCoded (some "a-b") 1, exCoded (some "a.b") 2], fun l hl l' hl' n hn hn' _ => ?_,
    [("a-b_1", parseLine (exCoded (some "a-b") 1)), ("a.b_1", parseLine (exCoded (some "a.b") 2))], ?_,
    ("a-b_1", parseLine (exCoded (some "a-b") 1)), ?_, ("a.b_1", parseLine (exCoded (some "a.b") 2)), ?_, ?_, ?_⟩
  · simp only [List.mem_cons, List.not_mem_nil, or_false] at hl hl'
    rcases hl with rfl | rfl <;> rcases hl' with rfl | rfl <;> cases hn <;> first | rfl | (exact absurd hn' (by decide))
  all_goals decide +kernel

end Ditto.Dss
