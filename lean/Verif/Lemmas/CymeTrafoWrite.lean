import Verif.Lemmas.CymeRegWrite
import Verif.Lemmas.CymeCapWrite
import Verif.Spec.CymeTrafoWrite

/-! Lemmas about the transformers in the CYME writer. -/
namespace Ditto.Cyme
open Ditto Glm Spec

theorem sectionId_eq (hash : Text → Text) (a b : Text) : sectionId hash a b = sectionBetween hash a b := by
  unfold sectionId sectionBetween
  dsimp only
  rw [show a ++ "_".toList ++ b = a ++ '_' :: b by rw [List.append_assoc]; rfl]
  by_cases h : (a ++ '_' :: b).length ≤ 64
  · rw [if_neg (by omega), if_pos h]
  · rw [if_pos (by omega), if_neg h]

/-! ### rows -/

theorem trafoRows_eq : ∀ (items : List TrafoItem) (codes : List Text), codes.Nodup →
    ((trafoRows codes items).2.Nodup ∧ codes <+: (trafoRows codes items).2 ∧
    (∀ i ∈ items, i.object ∈ (trafoRows codes items).2) ∧
    (∀ l ∈ (trafoRows codes items).2, l ∈ codes ∨ ∃ i ∈ items, l = i.object) ∧
    (trafoRows codes items).1 = items.map fun i => writtenTrafoRow i [(trafoRows codes items).2.idxOf i.object + 1]) := by
  intro items
  induction items with
  | nil => intro codes hn; exact ⟨hn, List.prefix_rfl, (fun r hr => absurd hr List.not_mem_nil), (fun l hl => Or.inl hl), rfl⟩
  | cons r rs ih =>
    intro codes hn
    obtain ⟨h1, h2, h3, h4⟩ := regCode_eq hn r.object
    have hmem : ∀ l ∈ (regCode codes r.object).2, l ∈ codes ∨ l = r.object := by
      intro l hl
      unfold regCode at hl
      split at hl
      · rw [List.mem_append, List.mem_singleton] at hl; exact hl
      · exact Or.inl hl
    obtain ⟨i1, i2, i3, i4, i5⟩ := ih _ h1
    rw [trafoRows]
    dsimp only
    refine ⟨i1, h2.trans i2, ?_, ?_, ?_⟩
    · intro x hx
      rw [List.mem_cons] at hx
      rcases hx with rfl | hx
      · exact i2.subset h3
      · exact i3 x hx
    · intro l hl
      rcases i4 l hl with h | ⟨x, hx, he⟩
      · rcases hmem l h with h | h
        · exact Or.inl h
        · exact Or.inr ⟨r, List.mem_cons_self, h⟩
      · exact Or.inr ⟨x, List.mem_cons_of_mem _ hx, he⟩
    · rw [List.map_cons, h4, idxOf_prefix i2 h3, i5]

theorem trafoName_inj {j k : Nat} (h : trafoName j = trafoName k) : j = k := by
  unfold trafoName at h
  have := List.append_cancel_left h
  rw [Nat.toList_repr, Nat.toList_repr] at this
  exact Dss.digits_inj this

theorem trafoName_plain (k : Nat) : ',' ∉ trafoName k := by
  unfold trafoName
  rw [List.mem_append, not_or]
  exact ⟨by decide, Dss.not_mem_repr (by decide) k⟩

/-- the row of a line of equipment -/
def deviceLine (eq line : Text) : Text := eq ++ ',' :: stripCommas line

/-- what is written, in terms of the lines of the equipment -/
theorem items_written (items : List TrafoItem) :
    ∃ (names lines : List Text) (k : TrafoItem → Nat),
      ((trafoRows [] items).1, trafoEquipmentRows (trafoRows [] items).2) = (items.map (fun i => writtenTrafoRow i [k i]), lines) ∧
      names.Nodup ∧ (∀ n ∈ names, ∃ k : Nat, n = "transformer_".toList ++ k.repr.toList) ∧
      List.Forall₂ (fun name line => ∃ i ∈ items, trafoName (k i) = name ∧ line = deviceLine name i.object) names lines ∧
      (∀ i ∈ items, trafoName (k i) ∈ names ∧ deviceLine (trafoName (k i)) i.object ∈ lines) ∧
      ((∀ i ∈ items, stripCommas i.object = i.object) → (lines.map fun l => l.dropWhile fun c => c ≠ ',').Nodup) := by
  obtain ⟨c1, -, c3, c4, c5⟩ := trafoRows_eq items [] List.nodup_nil
  generalize hC : (trafoRows [] items).2 = C at c1 c3 c4 c5
  have hidx : ∀ i ∈ items, (i.object, C.idxOf i.object + 1) ∈ C.zipIdx 1 := by
    intro c hc
    rw [List.mk_mem_zipIdx_iff_le_and_getElem?_sub]
    refine ⟨Nat.le_add_left 1 _, ?_⟩
    rw [Nat.add_sub_cancel]
    exact List.getElem?_idxOf (c3 c hc)
  refine ⟨(C.zipIdx 1).map fun p => trafoName p.2, trafoEquipmentRows C, fun c => C.idxOf c.object + 1, ?_, ?_, ?_, ?_, ?_, ?_⟩
  · rw [c5]
  · rw [show ((C.zipIdx 1).map fun p => trafoName p.2) = ((C.zipIdx 1).map (·.2)).map trafoName by rw [List.map_map]; rfl, List.zipIdx_map_snd]
    exact List.Nodup.map (fun a b => trafoName_inj) List.nodup_range'
  · intro n hn
    obtain ⟨p, -, rfl⟩ := List.mem_map.mp hn
    exact ⟨p.2, rfl⟩
  · unfold trafoEquipmentRows
    rw [List.forall₂_map_left_iff, List.forall₂_map_right_iff, List.forall₂_same]
    intro p hp
    obtain ⟨hi, hlt, h2⟩ := List.mem_zipIdx (x := p.1) (i := p.2) hp
    obtain ⟨c, hc, hl⟩ := (c4 p.1 (by rw [h2]; exact List.getElem_mem _)).resolve_left List.not_mem_nil
    refine ⟨c, hc, ?_, by rw [hl]; rfl⟩
    congr 1
    have : C.idxOf c.object = p.2 - 1 := by
      rw [← hl, h2]
      exact List.Nodup.idxOf_getElem c1 _ _
    show C.idxOf c.object + 1 = p.2
    omega
  · intro c hc
    exact ⟨List.mem_map.mpr ⟨_, hidx c hc, rfl⟩, List.mem_map.mpr ⟨_, hidx c hc, rfl⟩⟩
  · intro hs
    have e : (trafoEquipmentRows C).map (fun l => l.dropWhile fun c => c ≠ ',') = C.map fun o => ',' :: o := by
      unfold trafoEquipmentRows
      rw [List.map_map, ← List.zipIdx_map_fst 1 C, List.map_map, List.zipIdx_map_fst]
      refine List.map_congr_left fun p hp => ?_
      obtain ⟨hi, hlt, h2⟩ := List.mem_zipIdx (x := p.1) (i := p.2) hp
      obtain ⟨c, hc, hl⟩ := (c4 p.1 (by rw [h2]; exact List.getElem_mem _)).resolve_left List.not_mem_nil
      show (trafoName p.2 ++ ',' :: stripCommas p.1).dropWhile (fun c => decide (c ≠ ',')) = ',' :: p.1
      rw [hl, hs c hc, List.dropWhile_append_of_pos, List.dropWhile_cons, if_neg (by decide)]
      intro x hx
      have : x ≠ ',' := fun hxe => trafoName_plain p.2 (hxe ▸ hx)
      simpa using this
    rw [e]
    exact List.Nodup.map (fun a b h => by injection h) c1

/-- The lines of equipment begin and end with a digit. -/
theorem strip_line {type last : Text} (mid : List Text) (h1 : type ≠ [] ∧ ',' ∉ type) (h2 : last ≠ [] ∧ ',' ∉ last) :
    stripCommas (type ++ withCommas (mid ++ [last])) = type ++ withCommas (mid ++ [last]) := by
  unfold stripCommas
  rw [dropWhile_comma h1.1 h1.2]
  have e : type ++ withCommas (mid ++ [last]) = (type ++ withCommas mid ++ [',']) ++ last := by
    unfold withCommas
    rw [List.flatMap_append, List.flatMap_cons, List.flatMap_nil, List.append_nil]
    simp
  rw [e, List.reverse_append, dropWhile_comma (by simpa using h2.1) (by simpa using h2.2), List.reverse_append, List.reverse_reverse, List.reverse_reverse]

theorem typeCode_ok {t : TrafoIn} {a : WindingIn} (h : t.centerTap = false) :
    (trafoType t a).repr.toList = typeCode a.phases.length ∧ trafoType t a ≠ 4 := by
  unfold trafoType typeCode
  rw [if_neg (by rw [h]; simp)]
  split_ifs
  · exact ⟨by decide, by omega⟩
  · exact ⟨by decide, by omega⟩
  · exact ⟨by decide, by omega⟩

theorem typeCode_plain (n : Nat) : typeCode n ≠ [] ∧ ',' ∉ typeCode n := by
  unfold typeCode
  split_ifs <;> exact ⟨by decide, by decide⟩

theorem tapText_ok (pr : ℝ → Text) (a b : WindingIn) (rest : List WindingIn) : IsTap pr b (tapText pr (a :: b :: rest)) := by
  unfold tapText
  dsimp only
  constructor
  · intro p x rest' h hx
    rw [h]
    dsimp only
    rw [if_neg hx]
  · intro h
    split
    next p x rest' e =>
      rw [if_pos]
      by_contra hx
      exact h ⟨p, x, rest', e, hx⟩
    next => rfl

/-! ### impedances -/

/-- the percentage that is written as impedance -/
noncomputable def writtenZ (n : TwoNumbers) : ℝ := √((n.r1 / 100 * n.s1 / 1000 + n.r2 / 100 * n.s2 / 1000) ^ 2 + (n.x / 100 * n.s1 / 1000) ^ 2) * 100 / (n.s1 / 1000)

/-- the ratio that is written -/
noncomputable def writtenXr (n : TwoNumbers) : ℝ :=
  if n.r1 / 100 * n.s1 / 1000 + n.r2 / 100 * n.s2 / 1000 = 0 then 0 else n.x / 100 * n.s1 / 1000 / (n.r1 / 100 * n.s1 / 1000 + n.r2 / 100 * n.s2 / 1000)

/-- The variables after a transformer with two windings: those before do not matter. -/
noncomputable def twoAfter (pr : ℝ → Text) (m : Nat) (n : TwoNumbers) : TrafoVars where
  xhl := some (n.x / 100 * n.s1 / 1000)
  rh := some (n.r1 / 100 * n.s1 / 1000)
  rl := some (n.r2 / 100 * n.s2 / 1000)
  xr := some (writtenXr n)
  z1 := some (writtenZ n)
  unit := some (unitCode m)
  prim := some (pr (n.v1 / 1000))
  sec := some (pr (n.v2 / 1000))

/-- the line of the equipment of a transformer with two windings -/
noncomputable def twoObject (pr : ℝ → Text) (t : TrafoIn) (a b : WindingIn) (n : TwoNumbers) (z xr : ℝ) : Text :=
  typeCode a.phases.length ++ withCommas ([pr (n.s1 / 1000), unitCode a.phases.length, pr (n.v1 / 1000), pr (n.v2 / 1000), pr z, pr z, pr xr, pr xr,
    windingsCode false [a, b], "1".toList, lossOf pr t.noload n.s1, shiftOf (windingsCode false [a, b])] ++ ["0".toList])

theorem lossText_ok (pr : ℝ → Text) (power : ℝ) (l : Option ℝ) : lossText pr (some power) l = .ok (lossOf pr l power) := by
  cases l <;> rfl

/-- a transformer whose voltages are known, whatever its impedance is -/
theorem two_tail {pr : ℝ → Text} {rnd : ℝ → ℝ} {t : TrafoIn} {start stop : Text} {a b : WindingIn} {n : TwoNumbers} (hash : Text → Text)
    (hs : t.start = some start) (he : t.stop = some stop) (hc : t.centerTap = false) (hp : a.power = some n.s1) (hv1 : a.voltage = some n.v1)
    (hv2 : b.voltage = some n.v2) (hph : a.phases.length ≤ 3) (hw : t.windings = [a, b]) {v v1 : TrafoVars} (hi : impedanceVars v t a = .ok v1) {z xr : ℝ}
    (hz : v1.z1 = some z) (hxr : v1.xr = some xr) :
    writeTrafo pr rnd hash v t = .ok (trafoItem pr t a (sectionBetween hash start stop) (twoObject pr t a b n z xr),
      { v1 with unit := some (unitCode a.phases.length), prim := some (pr (n.v1 / 1000)), sec := some (pr (n.v2 / 1000)) }) := by
  obtain ⟨h1, h2⟩ := typeCode_ok (a := a) hc
  have hvolt : voltageVars pr rnd v1 t a [b] =
      .ok { v1 with unit := some (unitCode a.phases.length), prim := some (pr (n.v1 / 1000)), sec := some (pr (n.v2 / 1000)) } := by
    unfold voltageVars
    rw [if_pos hph, hv1]
    dsimp only
    unfold secondaryVoltage
    dsimp only
    rw [if_neg h2, hv2]
    dsimp only
    have : primaryVoltage pr rnd t a.phases.length n.v1 = pr (n.v1 / 1000) := by
      unfold primaryVoltage
      rw [if_neg (by rw [hc]; simp)]
    rw [this]
    rfl
  unfold writeTrafo
  rw [hw]
  dsimp only
  rw [hi]
  dsimp only
  rw [hvolt]
  dsimp only
  rw [hp, lossText_ok]
  dsimp only
  unfold trafoObject kvaText
  dsimp only
  rw [hz, hxr]
  dsimp only
  unfold trafoSection
  rw [hs, he]
  dsimp only
  rw [sectionId_eq]
  unfold twoObject equipmentCode
  rw [if_neg h2, h1, hw]
  rfl

theorem two_impedance {t : TrafoIn} {start stop : Text} {a b : WindingIn} {n : TwoNumbers} (h : TwoFull t start stop a b n) (v : TrafoVars) :
    impedanceVars v t a = .ok { v with
      xhl := some (n.x / 100 * n.s1 / 1000)
      rh := some (n.r1 / 100 * n.s1 / 1000)
      rl := some (n.r2 / 100 * n.s2 / 1000)
      xr := some (writtenXr n)
      z1 := some (writtenZ n) } := by
  unfold impedanceVars
  rw [if_neg (typeCode_ok h.plain).2]
  unfold twoVars
  rw [h.windings]
  dsimp only
  unfold resistancesOf
  rw [h.resistance1, h.resistance2, h.reactance, h.power1, h.power2]
  dsimp only
  unfold reactanceOf ratioOf sizeOf' percentOf
  dsimp only
  rw [if_neg (show n.s1 / 1000 ≠ 0 from ne_of_gt (div_pos h.positive (by norm_num)))]
  rfl

/-- What is written for a transformer with two windings does not depend on what was written before. -/
theorem two_written {pr : ℝ → Text} {rnd : ℝ → ℝ} (hash : Text → Text) {t : TrafoIn} {start stop : Text} {a b : WindingIn} {n : TwoNumbers}
    (h : TwoFull t start stop a b n) (v : TrafoVars) :
    writeTrafo pr rnd hash v t = .ok (trafoItem pr t a (sectionBetween hash start stop) (twoObject pr t a b n (writtenZ n) (writtenXr n)),
      twoAfter pr a.phases.length n) := by
  rw [two_tail hash h.start h.stop h.plain h.power1 h.voltage1 h.voltage2 h.phases h.windings (two_impedance h v) rfl rfl]
  rfl

/-! ### cells -/

theorem placeFields_ok (p : Option (Text × Text)) : placeFields p = [(placeOf p).1, (placeOf p).2] := by
  cases p <;> rfl

theorem item_row {pr : ℝ → Text} {t : TrafoIn} {a b : WindingIn} (hc : t.centerTap = false) (hw : t.windings = [a, b]) (sec object : Text) (k : Nat) :
    writtenTrafoRow (trafoItem pr t a sec object) [k] = rowText (settingCells sec t.place (windingsCode true [a, b]) (windingLetters a) (trafoName k)
      (shiftOf (windingsCode false [a, b])) (tapText pr [a, b])) := by
  unfold writtenTrafoRow trafoItem settingCode equipmentCode rowText settingCells
  dsimp only
  rw [if_neg (typeCode_ok hc).2, if_neg (typeCode_ok hc).2, placeFields_ok, hw, join_commas]
  rfl

theorem device_row {pr : ℝ → Text} (t : TrafoIn) (a b : WindingIn) (n : TwoNumbers) (z xr : ℝ) (eq : Text) :
    deviceLine eq (twoObject pr t a b n z xr) = rowText (deviceCells eq (typeCode a.phases.length) (pr (n.s1 / 1000)) (unitCode a.phases.length)
      (pr (n.v1 / 1000)) (pr (n.v2 / 1000)) (pr z) (pr xr) (windingsCode false [a, b]) (lossOf pr t.noload n.s1) (shiftOf (windingsCode false [a, b]))) := by
  unfold deviceLine twoObject
  rw [strip_line _ (typeCode_plain _) ⟨by decide, by decide⟩]
  unfold rowText deviceCells
  rw [List.map_cons, ← join_commas]
  rfl

/-- the codes of the connections -/
theorem codes_ok {a b : WindingIn} {code : Text × Text × Text × Text} (hm : code ∈ connectionCodes) (hz : code.2.1 ≠ "Z".toList) (h : WindingsConnected a b code) :
    windingsCode true [a, b] = code.2.2.1 ∧ windingsCode false [a, b] = code.2.2.2 ∧ shiftOf (windingsCode false [a, b]) = shiftCode code := by
  unfold windingsCode
  dsimp only
  rw [h.1, h.2]
  simp only [connectionCodes, List.mem_cons, List.not_mem_nil, or_false] at hm
  rcases hm with rfl | rfl | rfl | rfl | rfl | rfl
  · exact ⟨by decide, by decide, by decide⟩
  · exact ⟨by decide, by decide, by decide⟩
  · exact ⟨by decide, by decide, by decide⟩
  · exact ⟨by decide, by decide, by decide⟩
  · exact absurd rfl hz
  · exact absurd rfl hz

theorem zigzag_code {a b : WindingIn} (hb : b.connection = some "Z".toList) :
    windingsCode true [a, b] = [] ∧ windingsCode false [a, b] = [] ∧ shiftOf (windingsCode false [a, b]) = "0".toList := by
  have : ∀ s, windingsCode s [a, b] = [] := by
    intro s
    unfold windingsCode
    dsimp only
    unfold windingPairCode
    rw [hb, if_neg (by intro h; exact absurd h.2 (by decide)), if_neg (by intro h; exact absurd h.2 (by decide)),
      if_neg (by intro h; exact absurd h.2 (by decide)), if_neg (by intro h; exact absurd h.2 (by decide))]
    split_ifs <;> rfl
  rw [this, this]
  exact ⟨rfl, rfl, by decide⟩

/-! ### center tap transformers -/

/-- the impedance and the ratio that are written for a center tap transformer -/
noncomputable def centerZ (r x12 x13 x23 : ℝ) : ℝ := √((r * 2) ^ 2 + (10 / 8 * ((x12 + x13 - x23) / 2)) ^ 2)
noncomputable def centerXr (r x12 x13 x23 : ℝ) : ℝ := 10 / 8 * ((x12 + x13 - x23) / 2) / (r * 2)

/-- the line of the equipment of a center tap transformer -/
noncomputable def centerObject (pr : ℝ → Text) (t : TrafoIn) (s v1 v2 v3 z xr : ℝ) : Text :=
  "4".toList ++ withCommas ([pr (s / 1000), "1".toList, pr (v1 / 1000), pr (v2 / 1000 + v3 / 1000), pr z, pr z, pr xr, pr xr,
    "0".toList, "1".toList, lossOf pr t.noload s, "0".toList] ++ ["0".toList])

theorem center_type {t : TrafoIn} {a : WindingIn} (hc : t.centerTap = true) (hp : a.phases.length = 1) : trafoType t a = 4 := by
  unfold trafoType
  rw [if_pos ⟨hc, hp⟩]

/-- What is written for a center tap transformer does not depend on what was written before. -/
theorem center_written {pr : ℝ → Text} {rnd : ℝ → ℝ} (hash : Text → Text) {t : TrafoIn} {start stop : Text} {a b c : WindingIn}
    {s v1 v2 v3 r1 r2 r3 x12 x13 x23 : ℝ} (h : CenterFull t start stop a b c s v1 v2 v3 r1 r2 r3 x12 x13 x23) (hr : r1 ≠ 0) (v : TrafoVars) :
    ∃ v', writeTrafo pr rnd hash v t = .ok (trafoItem pr t a (sectionBetween hash start stop)
      (centerObject pr t s v1 v2 v3 (centerZ r1 x12 x13 x23) (centerXr r1 x12 x13 x23)), v') := by
  have ht := center_type h.center h.phase
  have himp : impedanceVars v t a = .ok { v with
      xhl := some x12, xr := some (centerXr r1 x12 x13 x23), z1 := some (centerZ r1 x12 x13 x23) } := by
    unfold impedanceVars
    rw [if_pos ht]
    unfold centerVars
    rw [h.reactances]
    dsimp only
    unfold centerWindings
    rw [h.windings]
    dsimp only
    rw [h.resistances.1, h.resistances.2.1, h.resistances.2.2]
    dsimp only
    rw [h.power]
    dsimp only
    unfold centerImpedance
    rw [if_neg (mul_ne_zero hr two_ne_zero)]
    rfl
  have hvolt : ∀ v, voltageVars pr rnd v t a [b, c] =
      .ok { v with unit := some "1".toList, prim := some (pr (v1 / 1000)), sec := some (pr (v2 / 1000 + v3 / 1000)) } := by
    intro v
    unfold voltageVars
    rw [if_pos (by rw [h.phase]; omega), h.voltages.1]
    dsimp only
    unfold secondaryVoltage
    dsimp only
    rw [if_pos ht]
    dsimp only
    have e1 : primaryVoltage pr rnd t a.phases.length v1 = pr (v1 / 1000) := by
      unfold primaryVoltage
      rw [if_neg (by rw [h.phase]; omega)]
    have e2 : centerSecondary pr b [c] = pr (v2 / 1000 + v3 / 1000) := by
      unfold centerSecondary
      dsimp only
      rw [h.voltages.2.1, h.voltages.2.2]
    rw [e1, e2, if_neg (by rw [h.phase]; omega)]
  refine ⟨{ v with
      xhl := some x12, xr := some (centerXr r1 x12 x13 x23), z1 := some (centerZ r1 x12 x13 x23), unit := some "1".toList
      prim := some (pr (v1 / 1000)), sec := some (pr (v2 / 1000 + v3 / 1000)) }, ?_⟩
  unfold writeTrafo
  rw [h.windings]
  dsimp only
  rw [himp]
  dsimp only
  rw [hvolt]
  dsimp only
  rw [h.power, lossText_ok]
  dsimp only
  unfold trafoObject kvaText
  dsimp only
  unfold trafoSection
  rw [h.start, h.stop]
  dsimp only
  rw [sectionId_eq]
  unfold centerObject equipmentCode
  rw [if_pos ht, ht]
  rfl

theorem center_row {pr : ℝ → Text} {t : TrafoIn} {a : WindingIn} (ht : trafoType t a = 4) (sec object : Text) (k : Nat) :
    writtenTrafoRow (trafoItem pr t a sec object) [k] = rowText (settingCells sec t.place "15".toList (windingLetters a) (trafoName k) "0".toList
      (tapText pr t.windings)) := by
  unfold writtenTrafoRow trafoItem settingCode equipmentCode rowText settingCells
  dsimp only
  rw [if_pos ht, if_pos ht, placeFields_ok, join_commas]
  rfl

theorem center_device {pr : ℝ → Text} (t : TrafoIn) (s v1 v2 v3 z xr : ℝ) (eq : Text) :
    deviceLine eq (centerObject pr t s v1 v2 v3 z xr) = rowText (deviceCells eq "4".toList (pr (s / 1000)) "1".toList (pr (v1 / 1000))
      (pr (v2 / 1000 + v3 / 1000)) (pr z) (pr xr) "0".toList (lossOf pr t.noload s) "0".toList) := by
  unfold deviceLine centerObject
  rw [strip_line _ ⟨by decide, by decide⟩ ⟨by decide, by decide⟩]
  unfold rowText deviceCells
  rw [List.map_cons, ← join_commas]
  rfl

/-! ### lists -/

/-- the transformer is written in this way, whatever was written before -/
def Writes (pr : ℝ → Text) (rnd : ℝ → ℝ) (hash : Text → Text) (t : TrafoIn) (item : TrafoItem) : Prop :=
  ∀ v, ∃ v', writeTrafo pr rnd hash v t = .ok (item, v')

theorem writes_unique {pr : ℝ → Text} {rnd : ℝ → ℝ} {hash : Text → Text} {t : TrafoIn} {i j : TrafoItem} (hi : Writes pr rnd hash t i)
    (hj : Writes pr rnd hash t j) : i = j := by
  obtain ⟨v, h1⟩ := hi {}
  obtain ⟨w, h2⟩ := hj {}
  rw [h1] at h2
  injection h2 with h2
  injection h2

theorem items_made {pr : ℝ → Text} {rnd : ℝ → ℝ} {hash : Text → Text} : ∀ {ts : List TrafoIn}, (∀ t ∈ ts, ∃ i, Writes pr rnd hash t i) → ∀ v,
    ∃ items, trafoItems pr rnd hash v ts = .ok items ∧ List.Forall₂ (Writes pr rnd hash) ts items := by
  intro ts
  induction ts with
  | nil => intro _ v; exact ⟨[], rfl, .nil⟩
  | cons t ts ih =>
    intro h v
    obtain ⟨i, hi⟩ := h t List.mem_cons_self
    obtain ⟨v', hv⟩ := hi v
    obtain ⟨items, h1, h2⟩ := ih (fun x hx => h x (List.mem_cons_of_mem _ hx)) v'
    refine ⟨i :: items, ?_, .cons hi h2⟩
    rw [trafoItems, hv]
    dsimp only
    rw [h1]

end Ditto.Cyme
