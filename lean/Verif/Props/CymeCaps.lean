import Verif.Lemmas.CymeShared
import Verif.Props.CymeRegRead

/-! C80: capacitors of CYME files. -/
namespace Ditto.Cyme
open Ditto Glm Spec

/-! ### power -/

theorem mem_abc {p : Char} : p ∈ ['A', 'B', 'C'] ↔ p = 'A' ∨ p = 'B' ∨ p = 'C' := by simp

theorem three_bank {N : Type} {num : Text → Option N} (hn : BlankFree num) {attrs cols row : List Text} {v : Values} (h : RowRead attrs cols row v)
    {k : Text} (hk : ∀ p ∈ ['A', 'B', 'C'], columnOf k p ∈ attrs) {b : Char → N} (hb : BankIs num cols row k b) :
    threeValues num v (columnOf k 'A') (columnOf k 'B') (columnOf k 'C') = .ok (some (b 'A', b 'B', b 'C')) := by
  have one : ∀ p ∈ ['A', 'B', 'C'], (∃ x, getEntry (columnOf k p) v = some x) ∧ floatAt num v (columnOf k p) = .ok (b p) := by
    intro p hp
    obtain ⟨c, hc, hx⟩ := hb p hp
    refine ⟨(read_some h (hk p hp)).mpr ⟨c, hc⟩, ?_⟩
    rw [floatAt_cell hn h (hk p hp) hc, hx]
  obtain ⟨⟨x1, e1⟩, f1⟩ := one 'A' (by decide)
  obtain ⟨⟨x2, e2⟩, f2⟩ := one 'B' (by decide)
  obtain ⟨⟨x3, e3⟩, f3⟩ := one 'C' (by decide)
  unfold threeValues
  rw [e1, e2, e3, f1, f2, f3]

theorem three_missing {N : Type} {num : Text → Option N} {attrs cols row : List Text} {v : Values} (h : RowRead attrs cols row v)
    {k : Text} {p : Char} (hp : p ∈ ['A', 'B', 'C']) (hno : ¬∃ c, Cell cols row (columnOf k p) c) :
    threeValues num v (columnOf k 'A') (columnOf k 'B') (columnOf k 'C') = .ok none := by
  have hg : getEntry (columnOf k p) v = none := hasCells_none (hasCells_read h []) fun hh => hno hh.2
  unfold threeValues
  rcases mem_abc.mp hp with rfl | rfl | rfl
  · rw [hg]
  · rw [hg]; cases getEntry (columnOf k 'A') v <;> rfl
  · rw [hg]; cases getEntry (columnOf k 'A') v <;> cases getEntry (columnOf k 'B') v <;> rfl

theorem positive_iff {N : Type} [Semiring N] [LinearOrder N] (b : Char → N) : somePositive (b 'A', b 'B', b 'C') ↔ ∃ p ∈ ['A', 'B', 'C'], 0 < b p := by
  unfold somePositive
  dsimp only
  rw [lt_max_iff, lt_max_iff]
  constructor
  · rintro (h | h | h)
    · exact ⟨'A', by decide, h⟩
    · exact ⟨'B', by decide, h⟩
    · exact ⟨'C', by decide, h⟩
  · rintro ⟨p, hp, h⟩
    rcases mem_abc.mp hp with rfl | rfl | rfl
    · exact Or.inl h
    · exact Or.inr (Or.inl h)
    · exact Or.inr (Or.inr h)

theorem phaseValue_bank {N : Type} [Semiring N] (b : Char → N) {p : Char} (hp : p ∈ ['A', 'B', 'C']) :
    phaseValue (b 'A', b 'B', b 'C') p = some (1000 * b p) := by
  rcases mem_abc.mp hp with rfl | rfl | rfl <;> rfl

theorem fixed_columns : columnOf "fixedkvar".toList 'A' = "fixedkvara".toList ∧ columnOf "fixedkvar".toList 'B' = "fixedkvarb".toList ∧
    columnOf "fixedkvar".toList 'C' = "fixedkvarc".toList ∧ ∀ p ∈ ['A', 'B', 'C'], columnOf "fixedkvar".toList p ∈ shuntSettingQuery.attrs := by decide

theorem switched_columns : columnOf "switchedkvar".toList 'A' = "switchedkvara".toList ∧ columnOf "switchedkvar".toList 'B' = "switchedkvarb".toList ∧
    columnOf "switchedkvar".toList 'C' = "switchedkvarc".toList ∧ ∀ p ∈ ['A', 'B', 'C'], columnOf "switchedkvar".toList p ∈ shuntSettingQuery.attrs := by
  decide

section vars
variable {N : Type} [Semiring N] [LinearOrder N] {num : Text → Option N} (hn : BlankFree num) {cols row : List Text} {v : Values}
  (h : RowRead shuntSettingQuery.attrs cols row v) (data : Option Values)
include hn h

theorem fixed_var {b : Char → N} (hb : Bank num cols row "fixedkvar".toList b) {p : Char} (hp : p ∈ ['A', 'B', 'C']) :
    phaseVar num v data p = .ok (some (1000 * b p)) := by
  have := three_bank hn h fixed_columns.2.2.2 hb.1
  rw [fixed_columns.1, fixed_columns.2.1, fixed_columns.2.2.1] at this
  unfold phaseVar
  rw [this]
  dsimp only
  rw [if_pos ((positive_iff b).mpr hb.2), phaseValue_bank b hp]

theorem idle_fixed (hi : Idle num cols row "fixedkvar".toList) (p : Char) : phaseVar num v data p = switchedVar num v data p := by
  unfold phaseVar
  rcases hi with ⟨q, hq, hno⟩ | ⟨b, hb, hle⟩
  · have := three_missing (num := num) h hq hno
    rw [fixed_columns.1, fixed_columns.2.1, fixed_columns.2.2.1] at this
    rw [this]
  · have := three_bank hn h fixed_columns.2.2.2 hb
    rw [fixed_columns.1, fixed_columns.2.1, fixed_columns.2.2.1] at this
    rw [this]
    dsimp only
    rw [if_neg]
    rw [positive_iff]
    rintro ⟨q, hq, hpos⟩
    exact absurd hpos (not_lt.mpr (hle q hq))

theorem switched_var {b : Char → N} (hb : Bank num cols row "switchedkvar".toList b) {p : Char} (hp : p ∈ ['A', 'B', 'C']) :
    switchedVar num v data p = .ok (some (1000 * b p)) := by
  have := three_bank hn h switched_columns.2.2.2 hb.1
  rw [switched_columns.1, switched_columns.2.1, switched_columns.2.2.1] at this
  unfold switchedVar
  rw [this]
  dsimp only
  rw [if_pos ((positive_iff b).mpr hb.2), phaseValue_bank b hp]

theorem idle_switched (hi : Idle num cols row "switchedkvar".toList) (p : Char) :
    switchedVar num v data p = .ok (dataValue (thousandAt num) data "kvar".toList) := by
  unfold switchedVar
  rcases hi with ⟨q, hq, hno⟩ | ⟨b, hb, hle⟩
  · have := three_missing (num := num) h hq hno
    rw [switched_columns.1, switched_columns.2.1, switched_columns.2.2.1] at this
    rw [this]
  · have := three_bank hn h switched_columns.2.2.2 hb
    rw [switched_columns.1, switched_columns.2.1, switched_columns.2.2.1] at this
    rw [this]
    dsimp only
    rw [if_neg]
    rw [positive_iff]
    rintro ⟨q, hq, hpos⟩
    exact absurd hpos (not_lt.mpr (hle q hq))

/-- the power of a phase -/
theorem power_ok {e : Option (List Text × List Text)} (hread : Readable num cols row)
    (hd : FromEquipment (fun cols row v => Kilo num cols row "kvar".toList v) e (dataValue (thousandAt num) data "kvar".toList)) {p : Char}
    (hp : p ∈ ['A', 'B', 'C']) : ∃ x, phaseVar num v data p = .ok x ∧ PowerOk num cols row e p x := by
  have hfix : ∀ b, Bank num cols row "fixedkvar".toList b → phaseVar num v data p = .ok (some (1000 * b p)) := fun b hb => fixed_var hn h data hb hp
  have hsw : Idle num cols row "fixedkvar".toList → ∀ b, Bank num cols row "switchedkvar".toList b → phaseVar num v data p = .ok (some (1000 * b p)) :=
    fun hi b hb => by rw [idle_fixed hn h data hi, switched_var hn h data hb hp]
  have hid : Idle num cols row "fixedkvar".toList → Idle num cols row "switchedkvar".toList →
      phaseVar num v data p = .ok (dataValue (thousandAt num) data "kvar".toList) :=
    fun hi hi' => by rw [idle_fixed hn h data hi, idle_switched hn h data hi']
  have hok : ∃ x, phaseVar num v data p = .ok x := by
    rcases hread "fixedkvar".toList (by decide) with hi | ⟨b, hb⟩
    · rcases hread "switchedkvar".toList (by decide) with hi' | ⟨b, hb⟩
      · exact ⟨_, hid hi hi'⟩
      · exact ⟨_, hsw hi b hb⟩
    · exact ⟨_, hfix b hb⟩
  obtain ⟨x, hx⟩ := hok
  have eq : ∀ {y : Option N}, phaseVar num v data p = .ok y → x = y := by
    intro y hy
    rw [hx] at hy
    injection hy
  refine ⟨x, hx, fun b hb => eq (hfix b hb), fun hi b hb => eq (hsw hi b hb), fun hi hi' => ?_⟩
  rw [eq (hid hi hi')]
  exact hd

end vars
/-- the power of all phases -/
theorem phases_ok {N : Type} [Semiring N] [LinearOrder N] {num : Text → Option N} {v : Values} {data : Option Values} {P : Char → Option N → Prop}
    {ps : Text} (h : ∀ p ∈ ps, ∃ x, phaseVar num v data p = .ok x ∧ P p x) :
    ∃ xs, phaseVars num v data ps = .ok xs ∧ xs.map (·.1) = ps ∧ ∀ x ∈ xs, P x.1 x.2 := by
  induction ps with
  | nil => exact ⟨[], rfl, rfl, fun _ h => nomatch h⟩
  | cons p ps ih =>
    obtain ⟨x, hx, hp⟩ := h p List.mem_cons_self
    obtain ⟨xs, h1, h2, h3⟩ := ih fun q hq => h q (List.mem_cons_of_mem _ hq)
    refine ⟨(p, x) :: xs, ?_, by rw [List.map_cons, h2], ?_⟩
    · rw [phaseVars, hx]
      dsimp only
      rw [h1]
    · intro y hy
      rcases List.mem_cons.mp hy with rfl | hy
      · exact hp
      · exact h3 y hy

/-! ### the equipment -/

/-- what is known of the equipment of a row -/
def DataRead (q : Query) (e : Option (List Text × List Text)) (data : Option Values) : Prop :=
  (e = none → data = none) ∧ ∀ cols row, e = some (cols, row) → ∃ w, data = some w ∧ RowRead q.attrs cols row w

theorem data_value {N : Type} {q : Query} {e : Option (List Text × List Text)} {data : Option Values} (h : DataRead q e data)
    {P : List Text → List Text → Option N → Prop} {f : Values → Text → Option N} {k : Text}
    (hf : ∀ cols row w, RowRead q.attrs cols row w → P cols row (f w k)) : FromEquipment P e (dataValue f data k) := by
  refine ⟨fun cols row he => ?_, fun he => ?_⟩
  · obtain ⟨w, hw, hr⟩ := h.2 cols row he
    rw [hw]
    exact hf _ _ _ hr
  · rw [h.1 he]
    rfl

theorem not_read {attrs cols row : List Text} {v : Values} (h : RowRead attrs cols row v) {k : Text} (hk : k ∉ attrs) : getEntry k v = none :=
  hasCells_none (hasCells_read h []) fun hh => hk hh.1

/-- a column that is not read for the equipment -/
theorem data_none {N : Type} {f : Values → Text → Option N} {q : Query} {e : Option (List Text × List Text)} {data : Option Values}
    (h : DataRead q e data) {k : Text} (hk : k ∉ q.attrs) (hf : ∀ w, getEntry k w = none → f w k = none) : dataValue f data k = none := by
  cases e with
  | none => rw [h.1 rfl]; rfl
  | some e =>
    obtain ⟨w, hw, hr⟩ := h.2 e.1 e.2 rfl
    rw [hw]
    exact hf w (not_read hr hk)

theorem valueAt_none {N : Type} (num : Text → Option N) {w : Values} {k : Text} (h : getEntry k w = none) : valueAt num w k = none := by
  unfold valueAt floatAt
  rw [h]

theorem thousandAt_none {N : Type} [Semiring N] (num : Text → Option N) {w : Values} {k : Text} (h : getEntry k w = none) :
    thousandAt num w k = none := by
  unfold thousandAt floatAt
  rw [h]
  rfl

theorem cap_queries : (∀ q ∈ [seriesQuery, shuntQuery], q.headers = seriesQuery.headers → q = seriesQuery) ∧
    (∀ q ∈ [seriesQuery, shuntQuery], q.headers = shuntQuery.headers → q = shuntQuery) ∧
    (∀ q ∈ [seriesSettingQuery, shuntSettingQuery], q.headers = seriesSettingQuery.headers → q = seriesSettingQuery) ∧
    (∀ q ∈ [seriesSettingQuery, shuntSettingQuery], q.headers = shuntSettingQuery.headers → q = shuntSettingQuery) := by
  refine ⟨?_, ?_, ?_, ?_⟩ <;> intro q hq he <;> rcases List.mem_cons.mp hq with rfl | hq
  · rfl
  · rw [List.mem_singleton.mp hq] at he
    exact absurd he (by decide)
  · exact absurd he (by decide)
  · exact List.mem_singleton.mp hq
  · rfl
  · rw [List.mem_singleton.mp hq] at he
    exact absurd he (by decide)
  · exact absurd he (by decide)
  · exact List.mem_singleton.mp hq

/-- the equipment that is found for a row -/
theorem device_read {ets : List (List Text × Table)} {news : List (List (Text × Values))}
    (h : List.Forall₂ (PartRead [seriesQuery, shuntQuery]) ets news) (hstar : ∀ t ∈ ets, ∀ r ∈ t.2.rows, '*' ∉ keyOf r) (hap : KeysApart ets)
    {q : Query} (hq : ∀ q' ∈ [seriesQuery, shuntQuery], q'.headers = q.headers → q' = q) {cols row attrs : List Text} {v : Values}
    (hv : RowRead attrs cols row v) {k : Text} (hk : k ∈ attrs) {e : Option (List Text × List Text)} (he : DeviceOf ets q.headers cols row k e) :
    DataRead q e (match getEntry k v with | some x => getEntry x news.flatten | none => none) := by
  rcases he with ⟨eq, hin, heq⟩ | ⟨hno, rfl⟩
  · rw [rowRead_inner hv hk hin]
    obtain ⟨h1, h2⟩ := parts_find h hstar hap heq
    refine ⟨h1, fun cols row he => ?_⟩
    obtain ⟨w, hw, q', hq', hh, hr⟩ := h2 cols row he
    rw [hq q' hq' hh] at hr
    exact ⟨w, hw, hr⟩
  · rw [show getEntry k v = none from hasCells_none (hasCells_read hv []) fun hh => hno hh.2]
    exact ⟨fun _ => rfl, fun _ _ h => nomatch h⟩

/-! ### one row -/

theorem row_key {row : List Text} (h : '*' ∉ keyOf row) (n : Nat) : rowSection (keyOf row ++ List.replicate n '*') = lower (keyOf row) := by
  unfold rowSection
  rw [stripStars_stars h]

theorem capConnection_wiring (t : Text) : IsWiring t (capConnection t) := by
  unfold capConnection
  split_ifs with h1 h2 h3
  · rcases h1 with rfl | rfl <;> exact Or.inl (by decide)
  · rcases h2 with rfl | rfl <;> exact Or.inl (by decide)
  · rcases h3 with rfl | rfl <;> exact Or.inl (by decide)
  · refine Or.inr ⟨?_, rfl⟩
    intro p hp he
    subst he
    have : ∀ p ∈ capWirings, (p.1 = "0".toList ∨ p.1 = "Y".toList) ∨ (p.1 = "1".toList ∨ p.1 = "YNG".toList) ∨ (p.1 = "2".toList ∨ p.1 = "D".toList) := by
      decide
    rcases this p hp with h | h | h
    · exact h1 h
    · exact h2 h
    · exact h3 h

theorem capConnection_delta {t : Text} (h : capConnection t = "D".toList) : t = "2".toList ∨ t = "D".toList := by
  unfold capConnection at h
  split_ifs at h with h1 h2 h3
  · exact absurd h (by decide)
  · exact absurd h (by decide)
  · exact h3
  · exact Or.inr h

/-- a capacitor that is made for a row -/
theorem row_cap {N : Type} [Semiring N] [LinearOrder N] (num : Text → Option N) (s3 : N) {secs : List (Text × Values)} {feeders : List (Text × Text)}
    (caps : List (Text × Values)) {row : List Text} (hrow : '*' ∉ keyOf row) {ends : Values} {feeder phases : Text}
    (hp : Placed secs feeders row ends feeder phases) (n : Nat) (v : Values) {xs : List (Char × Option N)}
    (hxs : phaseVars num v (capData caps v) phases = .ok xs) :
    capacitorOf num s3 secs feeders caps (keyOf row ++ List.replicate n '*') v = .ok {
      name := "Cap_".toList ++ lower (keyOf row)
      element := getEntry "fromnodeid".toList ends
      feeder := feeder
      control := controlOf v
      connection := capConnectionOf v
      reactance := dataValue (valueAt num) (capData caps v) "reactance".toList
      voltage := capVoltage num s3 v (capConnectionOf v) phases.length (dataValue (thousandAt num) (capData caps v) "kv".toList)
      phases := xs } := by
  unfold capacitorOf
  rw [row_key hrow, show getEntry (lower (keyOf row)) feeders = some feeder from hp.network]
  dsimp only
  unfold sectionPhases
  rw [show getEntry (lower (keyOf row)) secs = some ends from hp.section_]
  dsimp only
  rw [hp.phased]
  dsimp only
  rw [hxs]

theorem threeValues_none {N : Type} (num : Text → Option N) {v : Values} {a b c : Text} (h : getEntry a v = none) :
    threeValues num v a b c = .ok none := by
  unfold threeValues
  rw [h]

theorem series_row {N : Type} [Semiring N] [LinearOrder N] {num : Text → Option N} (hn : BlankFree num) (s3 : N) {secs : List (Text × Values)}
    {feeders : List (Text × Text)} {ets : List (List Text × Table)} {news : List (List (Text × Values))}
    (hnews : List.Forall₂ (PartRead [seriesQuery, shuntQuery]) ets news) (hstar : ∀ t ∈ ets, ∀ r ∈ t.2.rows, '*' ∉ keyOf r) (hap : KeysApart ets)
    {cols row : List Text} (hrow : '*' ∉ keyOf row) {ends : Values} {feeder phases : Text} (hp : Placed secs feeders row ends feeder phases) (n : Nat)
    {v : Values} (hv : RowRead seriesSettingQuery.attrs cols row v) {e : Option (List Text × List Text)}
    (he : DeviceOf ets seriesQuery.headers cols row "eqid".toList e) :
    ∃ c, capacitorOf num s3 secs feeders news.flatten (keyOf row ++ List.replicate n '*') v = .ok c ∧ SeriesOk num ends feeder phases row e c := by
  have hd := device_read hnews hstar hap cap_queries.1 hv (show "eqid".toList ∈ seriesSettingQuery.attrs by decide) he
  have hcap : capData news.flatten v = match getEntry "eqid".toList v with | some x => getEntry x news.flatten | none => none := by
    unfold capData
    rw [not_read hv (show "shuntcapacitorid".toList ∉ seriesSettingQuery.attrs by decide)]
    cases getEntry "eqid".toList v <;> rfl
  rw [← hcap] at hd
  have hpow : ∀ p ∈ phases, ∃ x, phaseVar num v (capData news.flatten v) p = .ok x ∧ x = none := by
    intro p _
    refine ⟨_, ?_, rfl⟩
    unfold phaseVar
    rw [threeValues_none num (not_read hv (show "fixedkvara".toList ∉ seriesSettingQuery.attrs by decide))]
    dsimp only
    unfold switchedVar
    rw [threeValues_none num (not_read hv (show "switchedkvara".toList ∉ seriesSettingQuery.attrs by decide))]
    dsimp only
    rw [data_none hd (show "kvar".toList ∉ seriesQuery.attrs by decide) fun w => thousandAt_none num]
  obtain ⟨xs, h1, h2, h3⟩ := phases_ok hpow
  refine ⟨_, row_cap num s3 news.flatten hrow hp n v h1, ⟨⟨rfl, rfl, rfl, h2⟩, ?_, ?_, ?_, h3⟩⟩
  · exact data_value hd fun cols row w hw => valueAt_cell hn hw (by decide)
  · show capConnectionOf v = none
    unfold capConnectionOf
    rw [not_read hv (show "connection".toList ∉ seriesSettingQuery.attrs by decide)]
  · show capVoltage num s3 v _ _ _ = none
    unfold capVoltage floatAt
    rw [not_read hv (show "kv".toList ∉ seriesSettingQuery.attrs by decide)]
    exact data_none hd (show "kv".toList ∉ seriesQuery.attrs by decide) fun w => thousandAt_none num

/-- the voltage of a row of the shunt capacitors -/
theorem voltage_ok {N : Type} [Semiring N] {num : Text → Option N} (hn : BlankFree num) (s3 : N) {cols row : List Text} {v : Values}
    (hv : RowRead shuntSettingQuery.attrs cols row v) {w : Option Text} (hw : w ≠ some "D".toList) (n : Nat) {e : Option (List Text × List Text)}
    {old : Option N} (hold : FromEquipment (fun cols row v => Kilo num cols row "kv".toList v) e old) :
    VoltageOk num s3 cols row w n e (capVoltage num s3 v w n old) := by
  constructor
  · intro c x hc hx
    have : floatAt num v "kv".toList = .ok x := by rw [floatAt_cell hn hv (by decide) hc, hx]
    unfold capVoltage
    rw [this]
    dsimp only
    refine ⟨fun h3 => by rw [if_pos (Or.inr h3)]; rfl, fun h3 h1 => ?_, fun h3 h1 hY => ?_⟩
    · rw [if_neg (by rintro (h | h); exacts [hw h, h3 h]), if_pos h1.symm]
      rfl
    · rw [if_neg (by rintro (h | h); exacts [hw h, h3 h]), if_neg (by rintro (h | h); exacts [hY h, h1 h])]
      exact hold
  · intro hno
    have : ∃ err, floatAt num v "kv".toList = .error err := by
      by_cases hc : ∃ c, Cell cols row "kv".toList c
      · obtain ⟨c, hc⟩ := hc
        rw [floatAt_cell hn hv (by decide) hc]
        cases hx : num c with
        | none => exact ⟨_, rfl⟩
        | some x => exact absurd ⟨c, x, hc, hx⟩ hno
      · unfold floatAt
        rw [show getEntry "kv".toList v = none from hasCells_none (hasCells_read hv []) fun hh => hc hh.2]
        exact ⟨_, rfl⟩
    obtain ⟨err, herr⟩ := this
    unfold capVoltage
    rw [herr]
    exact hold

/-- what a row of the shunt capacitors gives, apart from the voltage -/
theorem shunt_made {N : Type} [Semiring N] [LinearOrder N] {num : Text → Option N} (hn : BlankFree num) (s3 : N) {secs : List (Text × Values)}
    {feeders : List (Text × Text)} {ets : List (List Text × Table)} {news : List (List (Text × Values))}
    (hnews : List.Forall₂ (PartRead [seriesQuery, shuntQuery]) ets news) (hstar : ∀ t ∈ ets, ∀ r ∈ t.2.rows, '*' ∉ keyOf r) (hap : KeysApart ets)
    {cols row : List Text} (hrow : '*' ∉ keyOf row) {ends : Values} {feeder phases : Text} (hp : Placed secs feeders row ends feeder phases)
    (habc : ∀ p ∈ phases, p ∈ ['A', 'B', 'C']) (hread : Readable num cols row) (n : Nat)
    {v : Values} (hv : RowRead shuntSettingQuery.attrs cols row v) {e : Option (List Text × List Text)}
    (he : DeviceOf ets shuntQuery.headers cols row "shuntcapacitorid".toList e) :
    ∃ c old, capacitorOf num s3 secs feeders news.flatten (keyOf row ++ List.replicate n '*') v = .ok c ∧
      FromEquipment (fun cols row v => Kilo num cols row "kv".toList v) e old ∧
      c.voltage = capVoltage num s3 v (capConnectionOf v) phases.length old ∧ c.connection = capConnectionOf v ∧
      (CapacitorOk ends feeder phases row c ∧ (∀ p ∈ c.phases, PowerOk num cols row e p.1 p.2) ∧ c.reactance = none) ∧
      (c.connection ≠ some "D".toList → ShuntOk num s3 ends feeder phases cols row e c) := by
  have hd := device_read hnews hstar hap cap_queries.2.1 hv (show "shuntcapacitorid".toList ∈ shuntSettingQuery.attrs by decide) he
  have hcap : capData news.flatten v = match getEntry "shuntcapacitorid".toList v with | some x => getEntry x news.flatten | none => none := by
    unfold capData
    rw [not_read hv (show "eqid".toList ∉ shuntSettingQuery.attrs by decide)]
    cases getEntry "shuntcapacitorid".toList v <;> rfl
  rw [← hcap] at hd
  have hkv := data_value hd (f := thousandAt num) (k := "kv".toList) (P := fun cols row v => Kilo num cols row "kv".toList v)
    fun cols row w hw => thousandAt_cell hn hw (by decide)
  have hkvar := data_value hd (f := thousandAt num) (k := "kvar".toList) (P := fun cols row v => Kilo num cols row "kvar".toList v)
    fun cols row w hw => thousandAt_cell hn hw (by decide)
  obtain ⟨xs, h1, h2, h3⟩ := phases_ok (P := PowerOk num cols row e) fun p hpm => power_ok hn hv (capData news.flatten v) hread hkvar (habc p hpm)
  have hre := data_none hd (show "reactance".toList ∉ shuntQuery.attrs by decide) fun w => valueAt_none num
  refine ⟨_, _, row_cap num s3 news.flatten hrow hp n v h1, hkv, rfl, rfl, ⟨⟨rfl, rfl, rfl, h2⟩, h3, hre⟩,
    fun hD => ⟨⟨rfl, rfl, rfl, h2⟩, ⟨?_, ?_⟩, ?_, h3, hre⟩⟩
  · intro t ht
    refine ⟨_, capConnection_wiring t, ?_⟩
    show capConnectionOf v = _
    unfold capConnectionOf
    rw [rowRead_inner hv (by decide) ht]
  · intro hno
    show capConnectionOf v = _
    unfold capConnectionOf
    rw [show getEntry "connection".toList v = none from hasCells_none (hasCells_read hv []) fun hh => hno hh.2]
  · exact voltage_ok hn s3 hv hD _ hkv

/-! ### all rows -/

/-- what a row gives -/
def CapGood {N : Type} [Semiring N] [LinearOrder N] (num : Text → Option N) (s3 : N) (secs : List (Text × Values)) (feeders : List (Text × Text))
    (ets : List (List Text × Table)) (r : List Text × List Text × List Text) (c : ReadCapacitor N) : Prop :=
  ∃ ends feeder phases e, Placed secs feeders r.2.2 ends feeder phases ∧ DeviceFor ets r e ∧
    (r.1 = seriesSettingQuery.headers → SeriesOk num ends feeder phases r.2.2 e c) ∧
    (r.1 = shuntSettingQuery.headers → c.connection ≠ some "D".toList → ShuntOk num s3 ends feeder phases r.2.1 r.2.2 e c) ∧
    (r.1 = shuntSettingQuery.headers → ∀ t, Inner r.2.1 r.2.2 "connection".toList t → c.connection = some (capConnection t)) ∧
    (r.1 = shuntSettingQuery.headers → (¬∃ t, Cell r.2.1 r.2.2 "connection".toList t) → c.connection = none) ∧
    (r.1 = shuntSettingQuery.headers → c.connection = some "D".toList → ∀ t x, Cell r.2.1 r.2.2 "kv".toList t → num t = some x →
      c.voltage = some (1000 * x * s3)) ∧
    (r.1 = shuntSettingQuery.headers → CapacitorOk ends feeder phases r.2.2 c ∧ (∀ p ∈ c.phases, PowerOk num r.2.1 r.2.2 e p.1 p.2) ∧ c.reactance = none)

theorem row_good {N : Type} [Semiring N] [LinearOrder N] {num : Text → Option N} (hn : BlankFree num) (s3 : N) {secs : List (Text × Values)}
    {feeders : List (Text × Text)} {ets : List (List Text × Table)} {news : List (List (Text × Values))}
    (hnews : List.Forall₂ (PartRead [seriesQuery, shuntQuery]) ets news) (hstar : ∀ t ∈ ets, ∀ r ∈ t.2.rows, '*' ∉ keyOf r) (hap : KeysApart ets)
    {r : List Text × List Text × List Text} (hrow : '*' ∉ keyOf r.2.2) (hgood : GoodRow num secs feeders r) (hdev : ∃ e, DeviceFor ets r e)
    {p : Text × Values} (hp : EntryRead [seriesSettingQuery, shuntSettingQuery] r p) :
    ∃ c, capacitorOf num s3 secs feeders news.flatten p.1 p.2 = .ok c ∧ CapGood num s3 secs feeders ets r c := by
  obtain ⟨⟨n, hk⟩, q, hq, hh, hv⟩ := hp
  obtain ⟨⟨ends, feeder, phases, hpl, habc⟩, hread⟩ := hgood
  obtain ⟨e, he⟩ := hdev
  rw [hk]
  have hne : seriesSettingQuery.headers ≠ shuntSettingQuery.headers := by decide
  rcases id he with ⟨hr, hde⟩ | ⟨hr, hde⟩
  · rw [cap_queries.2.2.1 q hq (hh.trans hr)] at hv
    obtain ⟨c, h1, h2⟩ := series_row hn s3 hnews hstar hap hrow hpl n hv hde
    have no : r.1 ≠ shuntSettingQuery.headers := by rw [hr]; exact hne
    exact ⟨c, h1, ends, feeder, phases, e, hpl, he, fun _ => h2, fun h => absurd h no, fun h => absurd h no, fun h => absurd h no, fun h => absurd h no,
      fun h => absurd h no⟩
  · rw [cap_queries.2.2.2 q hq (hh.trans hr)] at hv
    obtain ⟨c, old, h1, h2, h3, h4, h6, h5⟩ := shunt_made hn s3 hnews hstar hap hrow hpl habc (hread hr) n hv hde
    have no : r.1 ≠ seriesSettingQuery.headers := by rw [hr]; exact hne.symm
    refine ⟨c, h1, ends, feeder, phases, e, hpl, he, fun h => absurd h no, fun _ => h5, fun _ t ht => ?_, fun _ hno => ?_,
      fun _ hD t x ht hx => ?_, fun _ => h6⟩
    · rw [h4]
      unfold capConnectionOf
      rw [rowRead_inner hv (by decide) ht]
    · rw [h4]
      unfold capConnectionOf
      rw [show getEntry "connection".toList p.2 = none from hasCells_none (hasCells_read hv []) fun hh => hno hh.2]
    · rw [h3, ← h4, hD]
      unfold capVoltage
      rw [floatAt_cell hn hv (by decide) ht, hx]
      dsimp only
      rw [if_pos (Or.inl rfl)]
      rfl

theorem rows_good {N : Type} [Semiring N] [LinearOrder N] {num : Text → Option N} (hn : BlankFree num) (s3 : N) {secs : List (Text × Values)}
    {feeders : List (Text × Text)} {ets : List (List Text × Table)} {news : List (List (Text × Values))}
    (hnews : List.Forall₂ (PartRead [seriesQuery, shuntQuery]) ets news) (hstar : ∀ t ∈ ets, ∀ r ∈ t.2.rows, '*' ∉ keyOf r) (hap : KeysApart ets)
    {rows : List (List Text × List Text × List Text)} {d : List (Text × Values)}
    (hd : List.Forall₂ (EntryRead [seriesSettingQuery, shuntSettingQuery]) rows d)
    (hrows : ∀ r ∈ rows, '*' ∉ keyOf r.2.2 ∧ GoodRow num secs feeders r ∧ ∃ e, DeviceFor ets r e) :
    ∃ cs, allCapacitors num s3 secs feeders news.flatten d = .ok cs ∧ List.Forall₂ (CapGood num s3 secs feeders ets) rows cs := by
  induction hd with
  | nil => exact ⟨[], rfl, .nil⟩
  | @cons r p rows d hp _ ih =>
    obtain ⟨cs, h1, h2⟩ := ih fun r hr => hrows r (List.mem_cons_of_mem _ hr)
    obtain ⟨hs, hg, hdev⟩ := hrows r List.mem_cons_self
    obtain ⟨c, h3, h4⟩ := row_good hn s3 hnews hstar hap hs hg hdev hp
    refine ⟨c :: cs, ?_, .cons h4 h2⟩
    rw [allCapacitors, h3]
    dsimp only
    rw [h1]

theorem setting_ok : (∀ q ∈ [seriesSettingQuery, shuntSettingQuery], q.info = [] ∧ q.attrs.Nodup) ∧
    ([seriesSettingQuery, shuntSettingQuery].map (·.headers)).Nodup ∧ (∀ q ∈ [seriesQuery, shuntQuery], q.info = [] ∧ q.attrs.Nodup) ∧
    ([seriesQuery, shuntQuery].map (·.headers)).Nodup := by
  refine ⟨?_, by decide, ?_, by decide⟩ <;> intro q hq <;> rcases List.mem_cons.mp hq with rfl | hq
  · exact ⟨rfl, by decide⟩
  · rw [List.mem_singleton.mp hq]; exact ⟨rfl, by decide⟩
  · exact ⟨rfl, by decide⟩
  · rw [List.mem_singleton.mp hq]; exact ⟨rfl, by decide⟩

theorem fileRows_mem {ts : List (List Text × Table)} {r : List Text × List Text × List Text} (h : r ∈ fileRows ts) : ∃ t ∈ ts, r.2.2 ∈ t.2.rows := by
  obtain ⟨t, ht, h⟩ := List.mem_flatMap.mp h
  obtain ⟨x, hx, rfl⟩ := List.mem_map.mp h
  exact ⟨t, ht, hx⟩

theorem all_caps {N : Type} [Semiring N] [LinearOrder N] {num : Text → Option N} (hn : BlankFree num) (s3 : N) {secs : List (Text × Values)}
    {feeders : List (Text × Text)} {network equipment : List Text} {ts ets : List (List Text × Table)}
    (h : Mixed [seriesSettingQuery.headers, shuntSettingQuery.headers] network ts) (h' : Mixed [seriesQuery.headers, shuntQuery.headers] equipment ets)
    (hstar : ∀ t ∈ ts ++ ets, ∀ r ∈ t.2.rows, '*' ∉ keyOf r) (hap : KeysApart ts) (hap' : KeysApart ets)
    (hrows : ∀ r ∈ fileRows ts, GoodRow num secs feeders r ∧ ∃ e, DeviceFor ets r e) :
    ∃ caps, parseCapacitors num s3 secs feeders network equipment = .ok caps ∧ List.Forall₂ (CapGood num s3 secs feeders ets) (fileRows ts) caps := by
  have hs1 : ∀ t ∈ ts, ∀ r ∈ t.2.rows, '*' ∉ keyOf r := fun t ht => hstar t (List.mem_append_left _ ht)
  have hs2 : ∀ t ∈ ets, ∀ r ∈ t.2.rows, '*' ∉ keyOf r := fun t ht => hstar t (List.mem_append_right _ ht)
  obtain ⟨news, h1, h2⟩ := readShared_parts setting_ok.1 setting_ok.2.1 h hs1 hap
  obtain ⟨enews, h3, h4⟩ := readShared_parts setting_ok.2.2.1 setting_ok.2.2.2 h' hs2 hap'
  obtain ⟨cs, h5, h6⟩ := rows_good hn s3 h4 hs2 hap' (parts_entries h2) (secs := secs) (feeders := feeders) fun r hr => by
    obtain ⟨t, ht, hx⟩ := fileRows_mem hr
    exact ⟨hs1 t ht _ hx, hrows r hr⟩
  refine ⟨cs, ?_, h6⟩
  unfold parseCapacitors
  rw [h1]
  dsimp only
  rw [h3]
  exact h5

/-- C80. Each row of the series and the shunt capacitors gives one capacitor, in order, at the first node of its section, with the values of the row
and of its equipment. Missing: capacitors in delta, and sections with a series capacitor and a shunt capacitor. -/
theorem C80_capacitors_partial {N : Type} [Semiring N] [LinearOrder N] {num : Text → Option N} (hn : BlankFree num) (s3 : N) {secs : List (Text × Values)}
    {feeders : List (Text × Text)} {network equipment : List Text} {ts ets : List (List Text × Table)}
    (h : Mixed [seriesSettingQuery.headers, shuntSettingQuery.headers] network ts) (h' : Mixed [seriesQuery.headers, shuntQuery.headers] equipment ets)
    (hstar : ∀ t ∈ ts ++ ets, ∀ r ∈ t.2.rows, '*' ∉ keyOf r) (hap : KeysApart ts) (hap' : KeysApart ets)
    (hrows : ∀ r ∈ fileRows ts, GoodRow num secs feeders r ∧ ∃ e, DeviceFor ets r e)
    (hdelta : ∀ r ∈ fileRows ts, (¬∃ t, Cell r.2.1 r.2.2 "connection".toList t) ∨
      ∃ t, Inner r.2.1 r.2.2 "connection".toList t ∧ t ≠ "2".toList ∧ t ≠ "D".toList) :
    ∃ caps, parseCapacitors num s3 secs feeders network equipment = .ok caps ∧
      List.Forall₂ (fun r c => ∃ ends feeder phases e, Placed secs feeders r.2.2 ends feeder phases ∧ DeviceFor ets r e ∧
        (r.1 = seriesSettingQuery.headers → SeriesOk num ends feeder phases r.2.2 e c) ∧
        (r.1 = shuntSettingQuery.headers → ShuntOk num s3 ends feeder phases r.2.1 r.2.2 e c)) (fileRows ts) caps := by
  obtain ⟨caps, h1, h2⟩ := all_caps hn s3 h h' hstar hap hap' hrows
  refine ⟨caps, h1, ?_⟩
  refine (List.forall₂_and_left _ _ |>.mpr ⟨fun r hr => hr, h2⟩ : List.Forall₂ (fun r c => r ∈ fileRows ts ∧ _) (fileRows ts) caps).imp ?_
  rintro r c ⟨hr, ends, feeder, phases, e, g1, g2, g3, g4, g5, g6, g7, g8⟩
  refine ⟨ends, feeder, phases, e, g1, g2, g3, fun hsh => g4 hsh ?_⟩
  intro hD
  rcases hdelta r hr with hno | ⟨t, ht, h1, h2⟩
  · rw [g6 hsh hno] at hD
    cases hD
  · rw [g5 hsh t ht] at hD
    injection hD with hD
    rcases capConnection_delta hD with h | h
    · exact h1 h
    · exact h2 h

/-- The voltage of a shunt capacitor in delta, which is the one between two lines, is multiplied by the square root of 3. -/
theorem C80_delta_violated {N : Type} [Semiring N] [LinearOrder N] {num : Text → Option N} (hn : BlankFree num) (s3 : N) {secs : List (Text × Values)}
    {feeders : List (Text × Text)} {network equipment : List Text} {ts ets : List (List Text × Table)}
    (h : Mixed [seriesSettingQuery.headers, shuntSettingQuery.headers] network ts) (h' : Mixed [seriesQuery.headers, shuntQuery.headers] equipment ets)
    (hstar : ∀ t ∈ ts ++ ets, ∀ r ∈ t.2.rows, '*' ∉ keyOf r) (hap : KeysApart ts) (hap' : KeysApart ets)
    (hrows : ∀ r ∈ fileRows ts, GoodRow num secs feeders r ∧ ∃ e, DeviceFor ets r e) :
    ∃ caps, parseCapacitors num s3 secs feeders network equipment = .ok caps ∧
      List.Forall₂ (fun r c => r.1 = shuntSettingQuery.headers → ∀ d ∈ ["2".toList, "D".toList], Inner r.2.1 r.2.2 "connection".toList d →
        ∀ t x, Cell r.2.1 r.2.2 "kv".toList t → num t = some x → c.connection = some "D".toList ∧ c.voltage = some (1000 * x * s3)) (fileRows ts) caps := by
  obtain ⟨caps, h1, h2⟩ := all_caps hn s3 h h' hstar hap hap' hrows
  refine ⟨caps, h1, h2.imp ?_⟩
  rintro r c ⟨ends, feeder, phases, e, g1, g2, g3, g4, g5, g6, g7, g8⟩ hsh d hd hin t x ht hx
  have hD : c.connection = some "D".toList := by
    rw [g5 hsh d hin, (show ∀ d ∈ ["2".toList, "D".toList], capConnection d = "D".toList by decide) d hd]
  exact ⟨hD, g7 hsh hD t x ht hx⟩

/-- The phase that a capacitor monitors is never kept. -/
theorem C80_control_violated {N : Type} [Semiring N] [LinearOrder N] (num : Text → Option N) (s3 : N) (secs : List (Text × Values))
    (feeders : List (Text × Text)) (network equipment : List Text) (caps : List (ReadCapacitor N))
    (h : parseCapacitors num s3 secs feeders network equipment = .ok caps) : ∀ c ∈ caps, c.control = none := by
  have one : ∀ {data key v} {c : ReadCapacitor N}, capacitorOf num s3 secs feeders data key v = .ok c → c.control = none := by
    intro data key v c hc
    unfold capacitorOf at hc
    split at hc
    · cases hc
    · split at hc
      · cases hc
      · split at hc
        · cases hc
        · injection hc with hc
          subst hc
          show controlOf v = none
          unfold controlOf
          cases getEntry "controllingphase".toList v <;> rfl
  have all : ∀ (data settings) (caps : List (ReadCapacitor N)), allCapacitors num s3 secs feeders data settings = .ok caps →
      ∀ c ∈ caps, c.control = none := by
    intro data settings
    induction settings with
    | nil => intro caps h c hc; injection h with h; subst h; cases hc
    | cons p settings ih =>
      intro caps h c hc
      rw [allCapacitors] at h
      split at h
      · cases h
      · rename_i c' hc'
        split at h
        · cases h
        · rename_i cs hcs
          injection h with h
          subst h
          rcases List.mem_cons.mp hc with rfl | hc
          · exact one hc'
          · exact ih cs hcs c hc
  unfold parseCapacitors at h
  split at h
  · cases h
  · split at h
    · cases h
    · exact all _ _ _ h

/-- If a section has a series capacitor and a shunt capacitor, only the one that comes later in the file is kept. -/
theorem C80_same_section_violated {N : Type} [Semiring N] [LinearOrder N] {num : Text → Option N} (hn : BlankFree num) (s3 : N)
    {secs : List (Text × Values)} {feeders : List (Text × Text)} {network equipment : List Text} {ets : List (List Text × Table)}
    {first second : List Text × Table} {r1 r2 : List Text} (h1 : first.2.rows = [r1]) (h2 : second.2.rows = [r2]) (hsame : keyOf r1 = keyOf r2)
    (h : Mixed [seriesSettingQuery.headers, shuntSettingQuery.headers] network [first, second])
    (h' : Mixed [seriesQuery.headers, shuntQuery.headers] equipment ets)
    (hstar : ∀ t ∈ [first, second] ++ ets, ∀ r ∈ t.2.rows, '*' ∉ keyOf r) (hap' : KeysApart ets)
    (hrow : GoodRow num secs feeders (second.1, second.2.cols, r2)) (hdev : ∃ e, DeviceFor ets (second.1, second.2.cols, r2) e) :
    ∃ c, parseCapacitors num s3 secs feeders network equipment = .ok [c] ∧
      ∃ ends feeder phases e, Placed secs feeders r2 ends feeder phases ∧ DeviceFor ets (second.1, second.2.cols, r2) e ∧
        (second.1 = seriesSettingQuery.headers → SeriesOk num ends feeder phases r2 e c) ∧
        (second.1 = shuntSettingQuery.headers → c.connection ≠ some "D".toList → ShuntOk num s3 ends feeder phases second.2.cols r2 e c) := by
  have hs1 : ∀ t ∈ [first, second], ∀ r ∈ t.2.rows, '*' ∉ keyOf r := fun t ht => hstar t (List.mem_append_left _ ht)
  have hs2 : ∀ t ∈ ets, ∀ r ∈ t.2.rows, '*' ∉ keyOf r := fun t ht => hstar t (List.mem_append_right _ ht)
  obtain ⟨news, g1, g2⟩ := shared_loop setting_ok.1 setting_ok.2.1 h network.length [] (Nat.le_refl _) hs1
  obtain ⟨enews, g3, g4⟩ := readShared_parts setting_ok.2.2.1 setting_ok.2.2.2 h' hs2 hap'
  obtain ⟨n1, n2, rfl, p1, p2⟩ : ∃ n1 n2, news = [n1, n2] ∧ PartRead [seriesSettingQuery, shuntSettingQuery] first n1 ∧
      PartRead [seriesSettingQuery, shuntSettingQuery] second n2 := by
    cases g2 with
    | cons a g2 =>
      cases g2 with
      | cons b g2 =>
        cases g2
        exact ⟨_, _, rfl, a, b⟩
  have single : ∀ {t : List Text × Table} {r : List Text} {n : List (Text × Values)}, t.2.rows = [r] → PartRead [seriesSettingQuery, shuntSettingQuery] t n →
      ∃ v, n = [(keyOf r, v)] := by
    intro t r n ht hp
    have := hp.1
    rw [ht] at this
    obtain ⟨p, rfl⟩ : ∃ p, n = [p] := List.length_eq_one_iff.mp (by rw [← List.length_map (·.1), this]; rfl)
    injection this with this
    refine ⟨p.2, ?_⟩
    rw [show keyOf r = p.1 from (this.trans (List.append_nil _)).symm]
  obtain ⟨v1, rfl⟩ := single h1 p1
  obtain ⟨v2, hn2⟩ := single h2 p2
  have hd : List.foldl updateAll [] [[(keyOf r1, v1)], n2] = n2 := by
    rw [hn2, hsame]
    show setEntry (keyOf r2) v2 [(keyOf r2, v1)] = _
    simp [setEntry]
  have hent : List.Forall₂ (EntryRead [seriesSettingQuery, shuntSettingQuery]) [(second.1, second.2.cols, r2)] n2 := by
    obtain ⟨k1, q, k2, k3, k4⟩ := p2
    have := part_entries k2 k3 k4 [] k1
    rw [h2] at this
    exact this
  obtain ⟨cs, h5, h6⟩ := rows_good hn s3 g4 hs2 hap' hent (secs := secs) (feeders := feeders) fun r hr => by
    rw [List.mem_singleton.mp hr]
    exact ⟨hs1 second (by simp) r2 (by rw [h2]; exact List.mem_cons_self), hrow, hdev⟩
  cases h6 with
  | @cons _ c _ _ hc hnil =>
    cases hnil
    obtain ⟨ends, feeder, phases, e, q1, q2, q3, q4, -⟩ := hc
    refine ⟨c, ?_, ends, feeder, phases, e, q1, q2, q3, q4⟩
    unfold parseCapacitors readShared
    rw [g1, hd]
    dsimp only
    unfold readShared at g3
    rw [g3]
    exact h5

/-- a row that stops the reading, after rows that do not -/
theorem caps_stop {N : Type} [Semiring N] [LinearOrder N] {num : Text → Option N} (hn : BlankFree num) (s3 : N) {secs : List (Text × Values)}
    {feeders : List (Text × Text)} {ets : List (List Text × Table)} {news : List (List (Text × Values))}
    (hnews : List.Forall₂ (PartRead [seriesQuery, shuntQuery]) ets news) (hstar : ∀ t ∈ ets, ∀ r ∈ t.2.rows, '*' ∉ keyOf r) (hap : KeysApart ets)
    {bad : List Text × List Text × List Text} {post : List (List Text × List Text × List Text)} {err : PyErr}
    (hbad : ∀ p, EntryRead [seriesSettingQuery, shuntSettingQuery] bad p → capacitorOf num s3 secs feeders news.flatten p.1 p.2 = .error err) :
    ∀ (pre : List (List Text × List Text × List Text)) (d : List (Text × Values)),
    List.Forall₂ (EntryRead [seriesSettingQuery, shuntSettingQuery]) (pre ++ bad :: post) d →
    (∀ r ∈ pre, '*' ∉ keyOf r.2.2 ∧ GoodRow num secs feeders r ∧ ∃ e, DeviceFor ets r e) →
    allCapacitors num s3 secs feeders news.flatten d = .error err := by
  intro pre
  induction pre with
  | nil =>
    intro d hd _
    rw [List.nil_append] at hd
    cases hd with
    | cons hp _ => rw [allCapacitors, hbad _ hp]
  | cons r pre ih =>
    intro d hd hrows
    rw [List.cons_append] at hd
    cases hd with
    | cons hp hd =>
      obtain ⟨hs, hg, hdev⟩ := hrows r List.mem_cons_self
      obtain ⟨c, h3, -⟩ := row_good hn s3 hnews hstar hap hs hg hdev hp
      rw [allCapacitors, h3]
      dsimp only
      rw [ih _ hd fun x hx => hrows x (List.mem_cons_of_mem _ hx)]

theorem three_unreadable {N : Type} {num : Text → Option N} (hn : BlankFree num) {attrs cols row : List Text} {v : Values} (h : RowRead attrs cols row v)
    {k : Text} (hk : ∀ p ∈ ['A', 'B', 'C'], columnOf k p ∈ attrs) (hcell : ∀ p ∈ ['A', 'B', 'C'], ∃ c, Cell cols row (columnOf k p) c)
    {p : Char} (hp : p ∈ ['A', 'B', 'C']) {c : Text} (hc : Cell cols row (columnOf k p) c) (hx : num c = none) :
    threeValues num v (columnOf k 'A') (columnOf k 'B') (columnOf k 'C') = .error .valueError := by
  have one : ∀ q ∈ ['A', 'B', 'C'], (∃ x, getEntry (columnOf k q) v = some x) ∧
      ((∃ y, floatAt num v (columnOf k q) = .ok y) ∨ floatAt num v (columnOf k q) = .error .valueError) := by
    intro q hq
    obtain ⟨c, hc⟩ := hcell q hq
    refine ⟨(read_some h (hk q hq)).mpr ⟨c, hc⟩, ?_⟩
    rw [floatAt_cell hn h (hk q hq) hc]
    cases num c with
    | none => exact Or.inr rfl
    | some y => exact Or.inl ⟨y, rfl⟩
  have hbad : floatAt num v (columnOf k p) = .error .valueError := by rw [floatAt_cell hn h (hk p hp) hc, hx]
  obtain ⟨⟨x1, e1⟩, f1⟩ := one 'A' (by decide)
  obtain ⟨⟨x2, e2⟩, f2⟩ := one 'B' (by decide)
  obtain ⟨⟨x3, e3⟩, f3⟩ := one 'C' (by decide)
  unfold threeValues
  rw [e1, e2, e3]
  dsimp only
  rcases mem_abc.mp hp with rfl | rfl | rfl
  · rw [hbad]
  · rw [hbad]
    rcases f1 with ⟨y, f1⟩ | f1 <;> rw [f1]
  · rw [hbad]
    rcases f1 with ⟨y, f1⟩ | f1 <;> rcases f2 with ⟨z, f2⟩ | f2 <;> rw [f1, f2]

/-- A row for a section without a feeder, or that is not known, or whose phases are not known, stops the reading, and so does a row of the shunt
capacitors with powers of fixed capacitors for all phases that cannot all be read, or of switched ones if no fixed ones have power. -/
theorem C80_errors {N : Type} [Semiring N] [LinearOrder N] {num : Text → Option N} (hn : BlankFree num) (s3 : N) {secs : List (Text × Values)}
    {feeders : List (Text × Text)} {network equipment : List Text} {ts ets : List (List Text × Table)}
    (h : Mixed [seriesSettingQuery.headers, shuntSettingQuery.headers] network ts) (h' : Mixed [seriesQuery.headers, shuntQuery.headers] equipment ets)
    (hstar : ∀ t ∈ ts ++ ets, ∀ r ∈ t.2.rows, '*' ∉ keyOf r) (hap : KeysApart ts) (hap' : KeysApart ets)
    {pre post : List (List Text × List Text × List Text)} {bad : List Text × List Text × List Text} (hsplit : fileRows ts = pre ++ bad :: post)
    (hrows : ∀ r ∈ pre, GoodRow num secs feeders r ∧ ∃ e, DeviceFor ets r e) :
    (getEntry ((keyOf bad.2.2).map Char.toLower) feeders = none → parseCapacitors num s3 secs feeders network equipment = .error .keyError) ∧
    ((∀ s, getEntry ((keyOf bad.2.2).map Char.toLower) secs = some s → getEntry "phase".toList s = none) →
      parseCapacitors num s3 secs feeders network equipment = .error .keyError) ∧
    (bad.1 = shuntSettingQuery.headers → (∃ ends feeder phases, Placed secs feeders bad.2.2 ends feeder phases ∧ phases ≠ []) →
      (∀ p ∈ ['A', 'B', 'C'], ∃ c, Cell bad.2.1 bad.2.2 (columnOf "fixedkvar".toList p) c) →
      (∃ p ∈ ['A', 'B', 'C'], ∃ c, Cell bad.2.1 bad.2.2 (columnOf "fixedkvar".toList p) c ∧ num c = none) →
      parseCapacitors num s3 secs feeders network equipment = .error .valueError) ∧
    (bad.1 = shuntSettingQuery.headers → (∃ ends feeder phases, Placed secs feeders bad.2.2 ends feeder phases ∧ phases ≠ []) →
      Idle num bad.2.1 bad.2.2 "fixedkvar".toList →
      (∀ p ∈ ['A', 'B', 'C'], ∃ c, Cell bad.2.1 bad.2.2 (columnOf "switchedkvar".toList p) c) →
      (∃ p ∈ ['A', 'B', 'C'], ∃ c, Cell bad.2.1 bad.2.2 (columnOf "switchedkvar".toList p) c ∧ num c = none) →
      parseCapacitors num s3 secs feeders network equipment = .error .valueError) := by
  have hs1 : ∀ t ∈ ts, ∀ r ∈ t.2.rows, '*' ∉ keyOf r := fun t ht => hstar t (List.mem_append_left _ ht)
  have hs2 : ∀ t ∈ ets, ∀ r ∈ t.2.rows, '*' ∉ keyOf r := fun t ht => hstar t (List.mem_append_right _ ht)
  obtain ⟨news, h1, h2⟩ := readShared_parts setting_ok.1 setting_ok.2.1 h hs1 hap
  obtain ⟨enews, h3, h4⟩ := readShared_parts setting_ok.2.2.1 setting_ok.2.2.2 h' hs2 hap'
  have hall : ∀ r ∈ fileRows ts, '*' ∉ keyOf r.2.2 := by
    intro r hr
    obtain ⟨t, ht, hx⟩ := fileRows_mem hr
    exact hs1 t ht _ hx
  have hbs : '*' ∉ keyOf bad.2.2 := hall bad (by rw [hsplit]; exact List.mem_append_right _ List.mem_cons_self)
  have run : ∀ err, (∀ p, EntryRead [seriesSettingQuery, shuntSettingQuery] bad p →
      capacitorOf num s3 secs feeders enews.flatten p.1 p.2 = .error err) → parseCapacitors num s3 secs feeders network equipment = .error err := by
    intro err hbad
    unfold parseCapacitors
    rw [h1]
    dsimp only
    rw [h3]
    have hents := parts_entries h2
    rw [hsplit] at hents
    exact caps_stop hn s3 h4 hs2 hap' hbad pre _ hents fun r hr => ⟨hall r (by rw [hsplit]; exact List.mem_append_left _ hr), hrows r hr⟩
  refine ⟨fun hf => run _ ?_, fun hs => run _ ?_, ?_, ?_⟩
  · rintro p ⟨⟨n, hk⟩, -⟩
    unfold capacitorOf
    rw [hk, row_key hbs, show getEntry (lower (keyOf bad.2.2)) feeders = none from hf]
  · rintro p ⟨⟨n, hk⟩, -⟩
    unfold capacitorOf
    rw [hk, row_key hbs]
    cases getEntry (lower (keyOf bad.2.2)) feeders with
    | none => rfl
    | some f =>
      dsimp only
      unfold sectionPhases
      cases hg : getEntry (lower (keyOf bad.2.2)) secs with
      | none => rfl
      | some s =>
        dsimp only
        rw [hs s hg]
  · rintro hsh ⟨ends, feeder, phases, hpl, hne⟩ hcells ⟨p, hp, c, hc, hx⟩
    refine run _ ?_
    rintro ent ⟨⟨n, hk⟩, q, hq, hh, hv⟩
    rw [cap_queries.2.2.2 q hq (hh.trans hsh)] at hv
    have h3 := three_unreadable hn hv fixed_columns.2.2.2 hcells hp hc hx
    rw [fixed_columns.1, fixed_columns.2.1, fixed_columns.2.2.1] at h3
    unfold capacitorOf
    rw [hk, row_key hbs, show getEntry (lower (keyOf bad.2.2)) feeders = some feeder from hpl.network]
    dsimp only
    unfold sectionPhases
    rw [show getEntry (lower (keyOf bad.2.2)) secs = some ends from hpl.section_]
    dsimp only
    rw [hpl.phased]
    dsimp only
    cases phases with
    | nil => exact absurd rfl hne
    | cons x xs =>
      rw [phaseVars]
      unfold phaseVar
      rw [h3]
  · rintro hsh ⟨ends, feeder, phases, hpl, hne⟩ hidle hcells ⟨p, hp, c, hc, hx⟩
    refine run _ ?_
    rintro ent ⟨⟨n, hk⟩, q, hq, hh, hv⟩
    rw [cap_queries.2.2.2 q hq (hh.trans hsh)] at hv
    have h3 := three_unreadable hn hv switched_columns.2.2.2 hcells hp hc hx
    rw [switched_columns.1, switched_columns.2.1, switched_columns.2.2.1] at h3
    unfold capacitorOf
    rw [hk, row_key hbs, show getEntry (lower (keyOf bad.2.2)) feeders = some feeder from hpl.network]
    dsimp only
    unfold sectionPhases
    rw [show getEntry (lower (keyOf bad.2.2)) secs = some ends from hpl.section_]
    dsimp only
    rw [hpl.phased]
    dsimp only
    cases phases with
    | nil => exact absurd rfl hne
    | cons x xs =>
      rw [phaseVars]
      rw [idle_fixed hn hv _ hidle]
      unfold switchedVar
      rw [h3]

/-! ### examples -/

def capsFile : List Text :=
  ["[SHUNT CAPACITOR SETTING]\n".toList,
    "FORMAT_SHUNTCAPACITORSETTING=SectionID,ShuntCapacitorID,Connection,FixedKVARA,FixedKVARB,FixedKVARC,KV,Status\n".toList,
    "S1,C1,Y,0,5,0,7,On\n".toList, "S1,C1,1,0,0,0,x,On\n".toList, "\n".toList, "[SERIES CAPACITOR SETTING]\n".toList,
    "FORMAT_SERIECAPACITORSETTING=SectionID,EqID,Status\n".toList, "S2,C2,On\n".toList, "\n".toList]

def shuntCols : List Text :=
  ["SectionID".toList, "ShuntCapacitorID".toList, "Connection".toList, "FixedKVARA".toList, "FixedKVARB".toList, "FixedKVARC".toList, "KV".toList,
    "Status".toList]

def shuntRow (conn b kv : Text) : List Text := ["S1".toList, "C1".toList, conn, "0".toList, b, "0".toList, kv, "On".toList]

def seriesCols : List Text := ["SectionID".toList, "EqID".toList, "Status".toList]

def seriesRow (sec : Text) : List Text := [sec, "C2".toList, "On".toList]

def capsTables : List (List Text × Table) :=
  [(shuntSettingQuery.headers, ⟨shuntCols, [shuntRow "Y".toList "5".toList "7".toList, shuntRow "1".toList "0".toList "x".toList]⟩),
    (seriesSettingQuery.headers, ⟨seriesCols, [seriesRow "S2".toList]⟩)]

def capsEquipment : List Text :=
  ["[SERIES CAPACITOR]\n".toList, "FORMAT_SERIECAPACITOR=ID,Reactance\n".toList, "C2,9\n".toList, "\n".toList, "[SHUNT CAPACITOR]\n".toList,
    "FORMAT_SHUNTCAPACITOR=ID,KVAR,KV\n".toList, "C1,6,8\n".toList, "\n".toList]

def capsEquipmentTables : List (List Text × Table) :=
  [(seriesQuery.headers, ⟨["ID".toList, "Reactance".toList], [["C2".toList, "9".toList]]⟩),
    (shuntQuery.headers, ⟨["ID".toList, "KVAR".toList, "KV".toList], [["C1".toList, "6".toList, "8".toList]]⟩)]

def twoSections : List (Text × Values) :=
  oneSection ++ [("s2".toList, [("fromnodeid".toList, "N2".toList), ("tonodeid".toList, "N3".toList), ("phase".toList, "A".toList)])]

def twoFeeders : List (Text × Text) := [("s1".toList, "F".toList), ("s2".toList, "F".toList)]

theorem capsFile_mixed : Mixed [seriesSettingQuery.headers, shuntSettingQuery.headers] capsFile capsTables := by
  refine Mixed.table (lines := ["S1,C1,Y,0,5,0,7,On\n".toList, "S1,C1,1,0,0,0,x,On\n".toList]) (blank := "\n".toList) (by decide)
    ((isHeader_iff _ _).mp (by decide)) ?_
    (ex_format (name := "FORMAT_SHUNTCAPACITORSETTING".toList) (e := ['\n']) (by decide) (by decide) (Or.inr (Or.inl rfl)) (by decide) (by decide) (by decide))
    (.cons (ex_row (e := ['\n']) (by decide) (by decide) (Or.inr (Or.inl rfl)) (by decide) (by decide))
      (.cons (ex_row (e := ['\n']) (by decide) (by decide) (Or.inr (Or.inl rfl)) (by decide) (by decide)) .nil)) (by decide)
    (Mixed.table (lines := ["S2,C2,On\n".toList]) (blank := "\n".toList) (by decide) ((isHeader_iff _ _).mp (by decide)) ?_
      (ex_format (name := "FORMAT_SERIECAPACITORSETTING".toList) (e := ['\n']) (by decide) (by decide) (Or.inr (Or.inl rfl)) (by decide) (by decide)
        (by decide))
      (.cons (ex_row (e := ['\n']) (by decide) (by decide) (Or.inr (Or.inl rfl)) (by decide) (by decide)) .nil) (by decide) .nil)
  · intro hs hm hh
    rcases List.mem_cons.mp hm with rfl | hm
    · exact absurd ((isHeader_iff _ _).mpr hh) (by decide)
    · exact List.mem_singleton.mp hm
  · intro hs hm hh
    rcases List.mem_cons.mp hm with rfl | hm
    · rfl
    · rw [List.mem_singleton.mp hm] at hh
      exact absurd ((isHeader_iff _ _).mpr hh) (by decide)

theorem capsEquipment_mixed : Mixed [seriesQuery.headers, shuntQuery.headers] capsEquipment capsEquipmentTables := by
  refine Mixed.table (lines := ["C2,9\n".toList]) (blank := "\n".toList) (by decide)
    ((isHeader_iff _ _).mp (by decide)) ?_
    (ex_format (name := "FORMAT_SERIECAPACITOR".toList) (e := ['\n']) (by decide) (by decide) (Or.inr (Or.inl rfl)) (by decide) (by decide) (by decide))
    (.cons (ex_row (e := ['\n']) (by decide) (by decide) (Or.inr (Or.inl rfl)) (by decide) (by decide)) .nil) (by decide)
    (Mixed.table (lines := ["C1,6,8\n".toList]) (blank := "\n".toList) (by decide) ((isHeader_iff _ _).mp (by decide)) ?_
      (ex_format (name := "FORMAT_SHUNTCAPACITOR".toList) (e := ['\n']) (by decide) (by decide) (Or.inr (Or.inl rfl)) (by decide) (by decide)
        (by decide))
      (.cons (ex_row (e := ['\n']) (by decide) (by decide) (Or.inr (Or.inl rfl)) (by decide) (by decide)) .nil) (by decide) .nil)
  · intro hs hm hh
    rcases List.mem_cons.mp hm with rfl | hm
    · rfl
    · rw [List.mem_singleton.mp hm] at hh
      exact absurd ((isHeader_iff _ _).mpr hh) (by decide)
  · intro hs hm hh
    rcases List.mem_cons.mp hm with rfl | hm
    · exact absurd ((isHeader_iff _ _).mpr hh) (by decide)
    · exact List.mem_singleton.mp hm

theorem shunt_good {conn b kv : Text} {y : Nat} (hy : digitOf b = some y) :
    GoodRow digitOf twoSections twoFeeders (shuntSettingQuery.headers, shuntCols, shuntRow conn b kv) := by
  refine ⟨⟨_, _, "ABC".toList, ⟨rfl, rfl, rfl⟩, by decide⟩, fun _ k hk => ?_⟩
  rcases List.mem_cons.mp hk with rfl | hk
  · have hb : BankIs digitOf shuntCols (shuntRow conn b kv) "fixedkvar".toList fun p => if p = 'B' then y else 0 := by
      intro p hp
      rcases mem_abc.mp hp with rfl | rfl | rfl
      · exact ⟨"0".toList, cell_at 3 (by decide) rfl (by decide), rfl⟩
      · exact ⟨b, cell_at 4 (by decide) rfl (by decide), hy⟩
      · exact ⟨"0".toList, cell_at 5 (by decide) rfl (by decide), rfl⟩
    by_cases h0 : y = 0
    · refine Or.inl (Or.inr ⟨_, hb, ?_⟩)
      intro p _
      show (if p = 'B' then y else 0) ≤ 0
      split
      · exact Nat.le_of_eq h0
      · exact Nat.le_refl _
    · exact Or.inr ⟨_, hb, 'B', by decide, Nat.pos_of_ne_zero h0⟩
  · rw [List.mem_singleton.mp hk]
    exact Or.inl (Or.inl ⟨'A', by decide, no_cell (show columnOf "switchedkvar".toList 'A' ∉ shuntCols.map (List.map Char.toLower) by decide)⟩)

theorem shunt_device (conn b kv : Text) :
    ∃ e, DeviceFor capsEquipmentTables (shuntSettingQuery.headers, shuntCols, shuntRow conn b kv) e :=
  ⟨_, Or.inr ⟨rfl, Or.inl ⟨"C1".toList, inner_at (cols := shuntCols) 1 (by decide) rfl (by decide) (by show 2 < 8; omega),
    .found (row := ["C1".toList, "6".toList, "8".toList]) (List.mem_cons_of_mem _ List.mem_cons_self) (by unfold FirstRow; decide)⟩⟩⟩

theorem series_device (sec : Text) : ∃ e, DeviceFor capsEquipmentTables (seriesSettingQuery.headers, seriesCols, seriesRow sec) e :=
  ⟨_, Or.inl ⟨rfl, Or.inl ⟨"C2".toList, inner_at (cols := seriesCols) 1 (by decide) rfl (by decide) (by show 2 < 3; omega),
    .found (row := ["C2".toList, "9".toList]) List.mem_cons_self (by unfold FirstRow; decide)⟩⟩⟩

theorem caps_rows : ∀ r ∈ fileRows capsTables, GoodRow digitOf twoSections twoFeeders r ∧ ∃ e, DeviceFor capsEquipmentTables r e := by
  intro r hr
  rcases List.mem_cons.mp hr with rfl | hr
  · exact ⟨shunt_good (y := 5) (by decide), shunt_device _ _ _⟩
  · rcases List.mem_cons.mp hr with rfl | hr
    · exact ⟨shunt_good (y := 0) (by decide), shunt_device _ _ _⟩
    · rw [List.mem_singleton.mp hr]
      exact ⟨⟨⟨_, _, "A".toList, ⟨rfl, rfl, rfl⟩, by decide⟩, fun h => absurd h (by decide)⟩, series_device _⟩

theorem caps_apart : KeysApart capsTables := by unfold KeysApart; decide
theorem capsEquipment_apart : KeysApart capsEquipmentTables := by unfold KeysApart; decide

/-- three capacitors are read -/
example : ∃ caps, parseCapacitors digitOf 2 twoSections twoFeeders capsFile capsEquipment = .ok caps ∧
      List.Forall₂ (fun r c => ∃ ends feeder phases e, Placed twoSections twoFeeders r.2.2 ends feeder phases ∧ DeviceFor capsEquipmentTables r e ∧
        (r.1 = seriesSettingQuery.headers → SeriesOk digitOf ends feeder phases r.2.2 e c) ∧
        (r.1 = shuntSettingQuery.headers → ShuntOk digitOf 2 ends feeder phases r.2.1 r.2.2 e c)) (fileRows capsTables) caps := by
  refine C80_capacitors_partial digitOf_blank 2 capsFile_mixed capsEquipment_mixed (by decide) caps_apart capsEquipment_apart caps_rows ?_
  intro r hr
  rcases List.mem_cons.mp hr with rfl | hr
  · exact Or.inr ⟨"Y".toList, inner_at 2 (by decide) rfl (by decide) (by decide), by decide, by decide⟩
  · rcases List.mem_cons.mp hr with rfl | hr
    · exact Or.inr ⟨"1".toList, inner_at 2 (by decide) rfl (by decide) (by decide), by decide, by decide⟩
    · rw [List.mem_singleton.mp hr]
      exact Or.inl (no_cell (by decide))

example : parseCapacitors digitOf 2 twoSections twoFeeders capsFile capsEquipment = .ok [
    ⟨"Cap_s1".toList, some "N1".toList, "F".toList, none, some "Y".toList, none, some 14000, [('A', some 0), ('B', some 5000), ('C', some 0)]⟩,
    ⟨"Cap_s1".toList, some "N1".toList, "F".toList, none, some "Y".toList, none, some 8000, [('A', some 6000), ('B', some 6000), ('C', some 6000)]⟩,
    ⟨"Cap_s2".toList, some "N2".toList, "F".toList, none, none, some 9, none, [('A', none)]⟩] := by
  decide +kernel

/-- a section without a feeder -/
example : parseCapacitors digitOf 2 twoSections oneFeeder capsFile capsEquipment = .error .keyError := by
  refine (C80_errors digitOf_blank 2 capsFile_mixed capsEquipment_mixed (by decide) caps_apart capsEquipment_apart
    (pre := (fileRows capsTables).take 2) (bad := (seriesSettingQuery.headers, seriesCols, seriesRow "S2".toList)) (post := []) (by decide) ?_).1
    (by decide)
  intro r hr
  have hfix : ∀ {r}, GoodRow digitOf twoSections twoFeeders r → keyOf r.2.2 = "S1".toList → GoodRow digitOf twoSections oneFeeder r := by
    rintro r ⟨⟨ends, feeder, phases, h1, h2⟩, h3⟩ hk
    refine ⟨⟨ends, "F".toList, phases, ⟨h1.section_, h1.phased, ?_⟩, h2⟩, h3⟩
    rw [hk]
    decide
  rcases List.mem_cons.mp hr with rfl | hr
  · exact ⟨hfix (shunt_good (y := 5) (by decide)) (by decide), shunt_device _ _ _⟩
  · rw [List.mem_singleton.mp hr]
    exact ⟨hfix (shunt_good (y := 0) (by decide)) (by decide), shunt_device _ _ _⟩

/-- a series capacitor and a shunt capacitor in delta on the same section -/
def bothFile : List Text :=
  ["[SERIES CAPACITOR SETTING]\n".toList, "FORMAT_SERIECAPACITORSETTING=SectionID,EqID,Status\n".toList, "S1,C2,On\n".toList, "\n".toList,
    "[SHUNT CAPACITOR SETTING]\n".toList,
    "FORMAT_SHUNTCAPACITORSETTING=SectionID,ShuntCapacitorID,Connection,FixedKVARA,FixedKVARB,FixedKVARC,KV,Status\n".toList,
    "S1,C1,D,0,5,0,7,On\n".toList, "\n".toList]

theorem bothFile_mixed : Mixed [seriesSettingQuery.headers, shuntSettingQuery.headers] bothFile
    [(seriesSettingQuery.headers, ⟨seriesCols, [seriesRow "S1".toList]⟩),
      (shuntSettingQuery.headers, ⟨shuntCols, [shuntRow "D".toList "5".toList "7".toList]⟩)] := by
  refine Mixed.table (lines := ["S1,C2,On\n".toList]) (blank := "\n".toList) (by decide)
    ((isHeader_iff _ _).mp (by decide)) ?_
    (ex_format (name := "FORMAT_SERIECAPACITORSETTING".toList) (e := ['\n']) (by decide) (by decide) (Or.inr (Or.inl rfl)) (by decide) (by decide) (by decide))
    (.cons (ex_row (e := ['\n']) (by decide) (by decide) (Or.inr (Or.inl rfl)) (by decide) (by decide)) .nil) (by decide)
    (Mixed.table (lines := ["S1,C1,D,0,5,0,7,On\n".toList]) (blank := "\n".toList) (by decide) ((isHeader_iff _ _).mp (by decide)) ?_
      (ex_format (name := "FORMAT_SHUNTCAPACITORSETTING".toList) (e := ['\n']) (by decide) (by decide) (Or.inr (Or.inl rfl)) (by decide) (by decide)
        (by decide))
      (.cons (ex_row (e := ['\n']) (by decide) (by decide) (Or.inr (Or.inl rfl)) (by decide) (by decide)) .nil) (by decide) .nil)
  · intro hs hm hh
    rcases List.mem_cons.mp hm with rfl | hm
    · rfl
    · rw [List.mem_singleton.mp hm] at hh
      exact absurd ((isHeader_iff _ _).mpr hh) (by decide)
  · intro hs hm hh
    rcases List.mem_cons.mp hm with rfl | hm
    · exact absurd ((isHeader_iff _ _).mpr hh) (by decide)
    · exact List.mem_singleton.mp hm

/-- only one of them is read -/
example : ∃ c, parseCapacitors digitOf 2 twoSections twoFeeders bothFile capsEquipment = .ok [c] := by
  obtain ⟨c, h, -⟩ := C80_same_section_violated digitOf_blank 2 (r1 := seriesRow "S1".toList) (r2 := shuntRow "D".toList "5".toList "7".toList) rfl rfl
    (by decide) bothFile_mixed capsEquipment_mixed (by decide) capsEquipment_apart
    (shunt_good (conn := "D".toList) (b := "5".toList) (kv := "7".toList) (y := 5) (by decide)) (shunt_device _ _ _)
  exact ⟨c, h⟩

/-- its voltage is that of the row times the square root of 3, for which 2 stands here -/
example : (parseCapacitors digitOf 2 twoSections twoFeeders bothFile capsEquipment).map (fun cs => cs.map fun c => (c.name, c.voltage)) =
    .ok [("Cap_s1".toList, some 14000)] := by
  decide +kernel

end Ditto.Cyme
