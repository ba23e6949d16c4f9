import Verif.Lemmas.CymeTrafoWrite
import Verif.Lemmas.CymeSections
import Mathlib.Tactic.Linarith
import Mathlib.Tactic.FieldSimp
import Mathlib.Tactic.LinearCombination

/-! C85: the transformers that the CYME writer writes. -/
namespace Ditto.Cyme
open Ditto Glm Spec

/-! ### impedances -/

theorem writtenZ_nonneg {n : TwoNumbers} (hs : 0 < n.s1) : 0 ≤ writtenZ n :=
  div_nonneg (mul_nonneg (Real.sqrt_nonneg _) (by norm_num)) (div_nonneg hs.le (by norm_num))

theorem writtenZ_sq {n : TwoNumbers} (hs : 0 < n.s1) : writtenZ n * writtenZ n = (n.r1 + n.r2 * n.s2 / n.s1) ^ 2 + n.x ^ 2 := by
  have hs' : n.s1 ≠ 0 := hs.ne'
  unfold writtenZ
  rw [div_mul_div_comm, mul_mul_mul_comm, Real.mul_self_sqrt (by positivity)]
  field_simp

theorem writtenXr_eq {n : TwoNumbers} (hs : 0 < n.s1) (hr : 0 < n.r1 + n.r2 * n.s2 / n.s1) :
    n.x = writtenXr n * (n.r1 + n.r2 * n.s2 / n.s1) := by
  have hs' : n.s1 ≠ 0 := hs.ne'
  have e : n.r1 / 100 * n.s1 / 1000 + n.r2 / 100 * n.s2 / 1000 = (n.r1 + n.r2 * n.s2 / n.s1) * (n.s1 / 100000) := by
    field_simp
    ring
  have hne : (n.r1 + n.r2 * n.s2 / n.s1) * (n.s1 / 100000) ≠ 0 := (mul_pos hr (by positivity)).ne'
  unfold writtenXr
  rw [e, if_neg hne]
  have := hr.ne'
  generalize n.r1 + n.r2 * n.s2 / n.s1 = R at *
  field_simp
  ring

/-- the resistance and reactance that are written, in percent -/
theorem written_ratio {n : TwoNumbers} (hs : 0 < n.s1) (hr : 0 < n.r1 + n.r2 * n.s2 / n.s1) :
    Ratio (writtenZ n) (writtenXr n) (n.r1 + n.r2 * n.s2 / n.s1) n.x := by
  refine ⟨writtenXr_eq hs hr, ?_, mul_nonneg hr.le (writtenZ_nonneg hs)⟩
  rw [writtenZ_sq hs]
  ring

theorem ratio_unique {z xr r x r' x' : ℝ} (hz : 0 ≤ z) (hr : 0 < r) (h : Ratio z xr r x) (h' : Ratio z xr r' x') : r' = r ∧ x' = x := by
  obtain ⟨h1, h2, h3⟩ := h
  obtain ⟨k1, k2, k3⟩ := h'
  have hzpos : 0 < z := by
    rcases hz.lt_or_eq with h | h
    · exact h
    · rw [← h] at h2
      nlinarith [mul_pos hr hr, mul_self_nonneg x]
  have hr' : 0 ≤ r' := by
    by_contra hc
    exact absurd k3 (not_le.mpr (mul_neg_of_neg_of_pos (not_le.mp hc) hzpos))
  have hsq : (r' - r) * ((r' + r) * (1 + xr * xr)) = 0 := by
    rw [h1] at h2
    rw [k1] at k2
    linear_combination k2 - h2
  have hpos : 0 < (r' + r) * (1 + xr * xr) := mul_pos (by linarith) (add_pos_of_pos_of_nonneg one_pos (mul_self_nonneg xr))
  have e : r' = r := by
    rcases mul_eq_zero.mp hsq with h | h
    · linarith
    · exact absurd h hpos.ne'
  exact ⟨e, by rw [h1, k1, e]⟩

theorem written_says {n : TwoNumbers} (hs : 0 < n.s1) (he : n.s1 = n.s2) (h1 : n.v1 ≠ 0) (h2 : n.v2 ≠ 0) (hr : 0 < n.r1 + n.r2) :
    SaysImpedance n (writtenZ n) (writtenXr n) := by
  have hs' : n.s2 ≠ 0 := by rw [← he]; exact hs.ne'
  have e : n.r1 + n.r2 * n.s2 / n.s1 = n.r1 + n.r2 := by
    rw [he]
    field_simp
  refine ⟨n.r1 + n.r2, n.x, ?_, ?_, rfl⟩
  · have := written_ratio hs (by rw [e]; exact hr)
    rwa [e] at this
  · unfold ohmsR
    rw [he]
    field_simp

theorem center_ratio {r1 x12 x13 x23 r x : ℝ} (hr : 0 < r) (h1 : r1 = r / 2) (h2 : (x12 + x13 - x23) / 2 = 4 / 5 * x) :
    Ratio (centerZ r1 x12 x13 x23) (centerXr r1 x12 x13 x23) r x := by
  unfold centerZ centerXr
  rw [h2, h1]
  refine ⟨?_, ?_, mul_nonneg hr.le (Real.sqrt_nonneg _)⟩
  · have := hr.ne'
    field_simp
    ring
  · rw [Real.mul_self_sqrt (by positivity)]
    ring

/-! ### rows -/

theorem writable_item {pr : ℝ → Text} {rnd : ℝ → ℝ} {hash : Text → Text} {t : TrafoIn} (h : Writable t) :
    ∃ i, Writes pr rnd hash t i ∧ stripCommas i.object = i.object := by
  rcases h with ⟨start, stop, a, b, n, h⟩ | ⟨start, stop, a, b, c, s, v1, v2, v3, r1, r2, r3, x12, x13, x23, h, hr⟩
  · exact ⟨_, fun v => ⟨_, two_written hash h v⟩, strip_line _ (typeCode_plain _) ⟨by decide, by decide⟩⟩
  · exact ⟨_, fun v => center_written hash h hr v, strip_line _ ⟨by decide, by decide⟩ ⟨by decide, by decide⟩⟩

theorem two_rows {pr : ℝ → Text} {rnd : ℝ → ℝ} {hash : Text → Text} {t : TrafoIn} {i : TrafoItem} (hi : Writes pr rnd hash t i) {start stop : Text}
    {a b : WindingIn} {n : TwoNumbers} (h : TwoFull t start stop a b n) (k : Nat) :
    TwoRows pr hash t start stop a b n (writtenZ n) (writtenXr n) (windingsCode true [a, b]) (windingsCode false [a, b])
      (shiftOf (windingsCode false [a, b])) (trafoName k) (writtenTrafoRow i [k]) (deviceLine (trafoName k) i.object) := by
  have e := writes_unique hi fun v => ⟨_, two_written hash h v⟩
  subst e
  exact ⟨tapText pr [a, b], tapText_ok pr a b [], item_row h.plain h.windings _ _ k, device_row t a b n _ _ _⟩

theorem rows_of {pr : ℝ → Text} {rnd : ℝ → ℝ} {hash : Text → Text} {t : TrafoIn} {i : TrafoItem} (hi : Writes pr rnd hash t i) (k : Nat) :
    RowsOf pr hash t (trafoName k) (writtenTrafoRow i [k]) (deviceLine (trafoName k) i.object) := by
  constructor
  · intro start stop a b n h code hm hconn hz
    obtain ⟨c1, c2, c3⟩ := codes_ok hm hz hconn
    have := two_rows hi h k
    rw [c3, c1, c2] at this
    exact ⟨_, _, this, fun e h1 h2 hr => written_says h.positive e h1 h2 hr⟩
  · intro start stop a b c s v1 v2 v3 r1 r2 r3 x12 x13 x23 h hr
    have e := writes_unique hi fun v => center_written hash h hr v
    subst e
    refine ⟨_, _, ⟨tapText pr [a, b, c], tapText_ok pr a b [c], ?_, center_device t _ _ _ _ _ _ _⟩, fun r x hr h1 h2 => center_ratio hr h1 h2⟩
    rw [center_row (center_type h.center h.phase), h.windings]

/-- what is written, in terms of the items -/
theorem trafos_written {pr : ℝ → Text} {rnd : ℝ → ℝ} {hash : Text → Text} {ts : List TrafoIn} (h : ∀ t ∈ ts, Writable t) :
    ∃ rows lines names, writeTrafos pr rnd hash ts = .ok (rows, lines) ∧ names.Nodup ∧
      (∀ n ∈ names, ∃ k : Nat, n = "transformer_".toList ++ k.repr.toList) ∧
      (lines.map fun l => l.dropWhile fun c => c ≠ ',').Nodup ∧
      List.Forall₂ (fun name line => ∃ t ∈ ts, ∃ i k, Writes pr rnd hash t i ∧ name = trafoName k ∧ line = deviceLine name i.object) names lines ∧
      List.Forall₂ (fun t row => ∃ i k, Writes pr rnd hash t i ∧ trafoName k ∈ names ∧ deviceLine (trafoName k) i.object ∈ lines ∧ row = writtenTrafoRow i [k])
        ts rows := by
  obtain ⟨items, h1, h2⟩ := items_made (pr := pr) (rnd := rnd) (hash := hash) (fun t ht => (writable_item (h t ht)).imp fun i hi => hi.1) {}
  obtain ⟨names, lines, k, k1, k2, k3, k4, k5, k6⟩ := items_written items
  have back : ∀ i ∈ items, ∃ t ∈ ts, Writes pr rnd hash t i := by
    intro i hi
    exact forall₂_left h2 hi
  refine ⟨items.map fun i => writtenTrafoRow i [k i], lines, names, ?_, k2, k3, ?_, ?_, ?_⟩
  · unfold writeTrafos
    rw [h1]
    dsimp only
    rw [k1]
  · refine k6 fun i hi => ?_
    obtain ⟨t, ht, hw⟩ := back i hi
    obtain ⟨j, hj, hs⟩ := writable_item (pr := pr) (rnd := rnd) (hash := hash) (h t ht)
    rw [writes_unique hw hj]
    exact hs
  · refine k4.imp ?_
    rintro name line ⟨i, hi, rfl, hl⟩
    obtain ⟨t, ht, hw⟩ := back i hi
    exact ⟨t, ht, i, k i, hw, rfl, hl⟩
  · rw [List.forall₂_map_right_iff]
    have := ((List.forall₂_and_left (p := fun i => i ∈ items) items ts).mpr ⟨fun i hi => hi, h2.flip⟩).flip
    refine this.imp ?_
    rintro t i ⟨hi, ht⟩
    exact ⟨i, k i, ht, (k5 i hi).1, (k5 i hi).2, rfl⟩

/-- C85. Each transformer with two windings, and each center tap transformer, gets one row among the settings, in order, and its equipment is one of
those in the equipment file. The row has the section, position, connection, phases, shift and tap of the transformer. The equipment has its power,
voltages, connection and losses, and its impedance, as a percentage and a ratio. No two pieces of equipment have the same name, or say the same, and each
of them is that of a transformer. Missing: windings with different powers or without resistance, and zigzag windings. -/
theorem C85_transformers_partial (pr : ℝ → Text) (rnd : ℝ → ℝ) (hash : Text → Text) {ts : List TrafoIn} (h : ∀ t ∈ ts, Writable t) :
    ∃ rows lines names, writeTrafos pr rnd hash ts = .ok (rows, lines) ∧ names.Nodup ∧
      (∀ n ∈ names, ∃ k : Nat, n = "transformer_".toList ++ k.repr.toList) ∧
      (lines.map fun l => l.dropWhile fun c => c ≠ ',').Nodup ∧
      List.Forall₂ (fun name line => ∃ t ∈ ts, ∃ row, RowsOf pr hash t name row line) names lines ∧
      List.Forall₂ (fun t row => ∃ eq ∈ names, ∃ line ∈ lines, RowsOf pr hash t eq row line) ts rows := by
  obtain ⟨rows, lines, names, h1, h2, h3, h4, h5, h6⟩ := trafos_written (pr := pr) (rnd := rnd) (hash := hash) h
  refine ⟨rows, lines, names, h1, h2, h3, h4, h5.imp ?_, h6.imp ?_⟩
  · rintro name line ⟨t, ht, i, k, hi, rfl, rfl⟩
    exact ⟨t, ht, _, rows_of hi k⟩
  · rintro t row ⟨i, k, hi, hn, hl, rfl⟩
    exact ⟨_, hn, _, hl, rows_of hi k⟩

/-- some rows of a transformer with two windings -/
def HasRows (pr : ℝ → Text) (hash : Text → Text) (lines : List Text) (t : TrafoIn) (row : Text) (P : WindingIn → WindingIn → TwoNumbers → Prop)
    (Q : TwoNumbers → ℝ → ℝ → Text → Text → Prop) : Prop :=
  ∀ start stop a b n, TwoFull t start stop a b n → P a b n →
    ∃ z xr cs ce shift eq, ∃ line ∈ lines, TwoRows pr hash t start stop a b n z xr cs ce shift eq row line ∧ Q n z xr cs ce

theorem has_rows {pr : ℝ → Text} {rnd : ℝ → ℝ} {hash : Text → Text} {ts : List TrafoIn} (h : ∀ t ∈ ts, Writable t)
    (P : WindingIn → WindingIn → TwoNumbers → Prop) (Q : TwoNumbers → ℝ → ℝ → Text → Text → Prop)
    (hQ : ∀ a b n, 0 < n.s1 → P a b n → Q n (writtenZ n) (writtenXr n) (windingsCode true [a, b]) (windingsCode false [a, b])) :
    ∃ rows lines, writeTrafos pr rnd hash ts = .ok (rows, lines) ∧ List.Forall₂ (fun t row => HasRows pr hash lines t row P Q) ts rows := by
  obtain ⟨rows, lines, names, h1, h2, h3, h4, h5, h6⟩ := trafos_written (pr := pr) (rnd := rnd) (hash := hash) h
  refine ⟨rows, lines, h1, h6.imp ?_⟩
  rintro t row ⟨i, k, hi, hn, hl, rfl⟩ start stop a b n hf hp
  exact ⟨_, _, _, _, _, _, _, hl, two_rows hi hf k, hQ a b n hf.positive hp⟩

/-- Windings with different powers: the impedance that is written is not that of the transformer. -/
theorem C85_base_violated (pr : ℝ → Text) (rnd : ℝ → ℝ) (hash : Text → Text) {ts : List TrafoIn} (h : ∀ t ∈ ts, Writable t) :
    ∃ rows lines, writeTrafos pr rnd hash ts = .ok (rows, lines) ∧
      List.Forall₂ (fun t row => HasRows pr hash lines t row
        (fun _ _ n => n.s1 ≠ n.s2 ∧ 0 < n.s2 ∧ n.v1 ≠ 0 ∧ n.v2 ≠ 0 ∧ 0 ≤ n.r1 ∧ 0 < n.r2) fun n z xr _ _ => ¬SaysImpedance n z xr) ts rows := by
  refine has_rows h _ _ ?_
  rintro a b n hs ⟨hne, hs2, hv1, hv2, hr1, hr2⟩ ⟨r, x, h1, h2, h3⟩
  have hs1' := hs.ne'
  have hs2' := hs2.ne'
  have hpos : 0 < n.r1 + n.r2 * n.s2 / n.s1 := add_pos_of_nonneg_of_pos hr1 (by positivity)
  obtain ⟨e, -⟩ := ratio_unique (writtenZ_nonneg hs) hpos (written_ratio hs hpos) h1
  rw [e] at h2
  unfold ohmsR at h2
  field_simp at h2
  have : n.r2 * ((n.s2 - n.s1) * (n.s2 + n.s1)) = 0 := by linear_combination h2
  rcases mul_eq_zero.mp this with h | h
  · exact hr2.ne' h
  · rcases mul_eq_zero.mp h with h | h
    · exact hne (by linarith)
    · linarith

/-- Windings without resistance: their reactance is lost. -/
theorem C85_no_resistance_violated (pr : ℝ → Text) (rnd : ℝ → ℝ) (hash : Text → Text) {ts : List TrafoIn} (h : ∀ t ∈ ts, Writable t) :
    ∃ rows lines, writeTrafos pr rnd hash ts = .ok (rows, lines) ∧
      List.Forall₂ (fun t row => HasRows pr hash lines t row (fun _ _ n => n.r1 = 0 ∧ n.r2 = 0 ∧ n.x ≠ 0 ∧ n.v1 ≠ 0)
        fun n z xr _ _ => xr = 0 ∧ ¬SaysImpedance n z xr) ts rows := by
  refine has_rows h _ _ ?_
  rintro a b n hs ⟨hr1, hr2, hx, hv1⟩
  have e : writtenXr n = 0 := by
    unfold writtenXr
    rw [if_pos (by rw [hr1, hr2]; norm_num)]
  refine ⟨e, ?_⟩
  rintro ⟨r, x, h1, h2, h3⟩
  rw [e] at h1
  have hx0 : x = 0 := by rw [h1.1, zero_mul]
  rw [hx0] at h3
  unfold ohmsX at h3
  have := hs.ne'
  rw [zero_div, zero_mul, eq_comm, mul_eq_zero, div_eq_zero_iff] at h3
  rcases h3 with (h | h) | h
  · exact hx h
  · norm_num at h
  · rw [div_eq_zero_iff] at h
    rcases h with h | h
    · exact hv1 (pow_eq_zero_iff (by norm_num) |>.mp h)
    · exact this h

/-- Zigzag windings: there are codes for their connections, but the cells are empty. -/
theorem C85_zigzag_violated (pr : ℝ → Text) (rnd : ℝ → ℝ) (hash : Text → Text) {ts : List TrafoIn} (h : ∀ t ∈ ts, Writable t) :
    (∃ code ∈ connectionCodes, code.2.1 = "Z".toList) ∧ (∀ code ∈ connectionCodes, code.2.2.1 ≠ [] ∧ code.2.2.2 ≠ []) ∧
    ∃ rows lines, writeTrafos pr rnd hash ts = .ok (rows, lines) ∧
      List.Forall₂ (fun t row => HasRows pr hash lines t row (fun _ b _ => b.connection = some "Z".toList) fun _ _ _ cs ce => cs = [] ∧ ce = []) ts rows := by
  refine ⟨by decide, by decide, has_rows h _ _ ?_⟩
  intro a b n _ hb
  exact ⟨(zigzag_code hb).1, (zigzag_code hb).2.1⟩

/-! ### transformers without reactance -/

theorem items_rows {pr : ℝ → Text} {rnd : ℝ → ℝ} {hash : Text → Text} {ts : List TrafoIn} {items : List TrafoItem}
    (h : trafoItems pr rnd hash {} ts = .ok items) :
    ∃ lines, ∃ k : TrafoItem → Nat, writeTrafos pr rnd hash ts = .ok (items.map fun i => writtenTrafoRow i [k i], lines) ∧
      ∀ i ∈ items, deviceLine (trafoName (k i)) i.object ∈ lines := by
  obtain ⟨names, lines, k, k1, -, -, -, k5, -⟩ := items_written items
  refine ⟨lines, k, ?_, fun i hi => (k5 i hi).2⟩
  unfold writeTrafos
  rw [h]
  dsimp only
  rw [k1]

/-- the ratio that is written for a transformer without reactance, after one with the reactance `x` in kVA -/
noncomputable def bareXr (n : TwoNumbers) (x : Option ℝ) : ℝ := ratioOf x (some (n.r1 / 100 * n.s1 / 1000)) (some (n.r2 / 100 * n.s2 / 1000))

noncomputable def bareZ (n : TwoNumbers) (x : Option ℝ) : ℝ :=
  percentOf (sizeOf' x (some (n.r1 / 100 * n.s1 / 1000)) (some (n.r2 / 100 * n.s2 / 1000))) (some n.s1)

theorem bare_written {pr : ℝ → Text} {rnd : ℝ → ℝ} (hash : Text → Text) {t : TrafoIn} {start stop : Text} {a b : WindingIn} {n : TwoNumbers}
    (h : TwoFull t start stop a b n) (v : TrafoVars) :
    ∃ v', writeTrafo pr rnd hash v { t with reactances := [] } =
      .ok (trafoItem pr { t with reactances := [] } a (sectionBetween hash start stop)
        (twoObject pr { t with reactances := [] } a b n (bareZ n v.xhl) (bareXr n v.xhl)), v') := by
  have hi : impedanceVars v { t with reactances := [] } a = .ok { v with
      xhl := v.xhl
      rh := some (n.r1 / 100 * n.s1 / 1000)
      rl := some (n.r2 / 100 * n.s2 / 1000)
      xr := some (bareXr n v.xhl)
      z1 := some (bareZ n v.xhl) } := by
    unfold impedanceVars
    rw [if_neg (typeCode_ok (t := { t with reactances := [] }) h.plain).2]
    unfold twoVars
    dsimp only
    rw [h.windings]
    dsimp only
    unfold resistancesOf
    rw [h.resistance1, h.resistance2, h.power1, h.power2]
    rfl
  exact ⟨_, two_tail (t := { t with reactances := [] }) hash h.start h.stop h.plain h.power1 h.voltage1 h.voltage2 h.phases h.windings hi rfl rfl⟩

theorem unreacted_rows {pr : ℝ → Text} {t : TrafoIn} {start stop : Text} {a b : WindingIn} {n : TwoNumbers} (hash : Text → Text)
    (h : TwoFull t start stop a b n) (z xr : ℝ) (k : Nat) :
    TwoRows pr hash { t with reactances := [] } start stop a b n z xr (windingsCode true [a, b]) (windingsCode false [a, b])
      (shiftOf (windingsCode false [a, b])) (trafoName k)
      (writtenTrafoRow (trafoItem pr { t with reactances := [] } a (sectionBetween hash start stop) (twoObject pr { t with reactances := [] } a b n z xr)) [k])
      (deviceLine (trafoName k) (twoObject pr { t with reactances := [] } a b n z xr)) :=
  ⟨tapText pr [a, b], tapText_ok pr a b [], item_row (t := { t with reactances := [] }) h.plain h.windings _ _ k, device_row _ a b n z xr _⟩

theorem items_one {pr : ℝ → Text} {rnd : ℝ → ℝ} {hash : Text → Text} {t : TrafoIn} {i : TrafoItem} {v v' : TrafoVars}
    (h : writeTrafo pr rnd hash v t = .ok (i, v')) : trafoItems pr rnd hash v [t] = .ok [i] := by
  rw [trafoItems, h]
  rfl

theorem items_pair {pr : ℝ → Text} {rnd : ℝ → ℝ} {hash : Text → Text} {t1 t2 : TrafoIn} {i1 i2 : TrafoItem} {v v1 v2 : TrafoVars}
    (h1 : writeTrafo pr rnd hash v t1 = .ok (i1, v1)) (h2 : writeTrafo pr rnd hash v1 t2 = .ok (i2, v2)) :
    trafoItems pr rnd hash v [t1, t2] = .ok [i1, i2] := by
  rw [trafoItems, h1]
  dsimp only
  rw [items_one h2]

/-- A transformer without reactance gets that of the one before it, in kVA; if it is the first one, it gets none. -/
theorem C85_stale_violated (pr : ℝ → Text) (rnd : ℝ → ℝ) (hash : Text → Text) {t1 t2 : TrafoIn} {start1 stop1 start2 stop2 : Text} {a1 b1 a2 b2 : WindingIn}
    {n1 n2 : TwoNumbers} (h1 : TwoFull t1 start1 stop1 a1 b1 n1) (h2 : TwoFull t2 start2 stop2 a2 b2 n2)
    (hr : n2.r1 * n2.s1 + n2.r2 * n2.s2 ≠ 0) :
    (∃ row1 row2 lines, writeTrafos pr rnd hash [t1, { t2 with reactances := [] }] = .ok ([row1, row2], lines) ∧
      ∃ z xr cs ce shift eq, ∃ line ∈ lines, TwoRows pr hash { t2 with reactances := [] } start2 stop2 a2 b2 n2 z xr cs ce shift eq row2 line ∧
        xr * (n2.r1 * n2.s1 + n2.r2 * n2.s2) = n1.x * n1.s1) ∧
    ∃ row lines, writeTrafos pr rnd hash [{ t2 with reactances := [] }] = .ok ([row], lines) ∧
      ∃ z xr cs ce shift eq, ∃ line ∈ lines, TwoRows pr hash { t2 with reactances := [] } start2 stop2 a2 b2 n2 z xr cs ce shift eq row line ∧
        xr = 0 ∧ z = 0 := by
  constructor
  · obtain ⟨v', hb⟩ := bare_written (pr := pr) (rnd := rnd) hash h2 (twoAfter pr a1.phases.length n1)
    obtain ⟨lines, k, h3, h4⟩ := items_rows (items_pair (two_written hash h1 {}) hb)
    refine ⟨_, _, lines, h3, _, _, _, _, _, _, _, h4 _ (List.mem_cons_of_mem _ (List.mem_singleton.mpr rfl)), unreacted_rows hash h2 _ _ _, ?_⟩
    have hne : n2.r1 / 100 * n2.s1 / 1000 + n2.r2 / 100 * n2.s2 / 1000 ≠ 0 := fun h => hr (by linear_combination 100000 * h)
    show bareXr n2 (some (n1.x / 100 * n1.s1 / 1000)) * _ = _
    unfold bareXr ratioOf
    dsimp only
    rw [if_neg hne, div_mul_eq_mul_div, div_eq_iff hne]
    ring
  · obtain ⟨v', hb⟩ := bare_written (pr := pr) (rnd := rnd) hash h2 {}
    obtain ⟨lines, k, h3, h4⟩ := items_rows (items_one hb)
    refine ⟨_, lines, h3, _, _, _, _, _, _, _, h4 _ (List.mem_singleton.mpr rfl), unreacted_rows hash h2 _ _ _, rfl, ?_⟩
    show bareZ n2 none = 0
    unfold bareZ sizeOf' percentOf
    dsimp only
    split
    · rfl
    · ring

/-! ### errors -/

theorem items_stop {pr : ℝ → Text} {rnd : ℝ → ℝ} {hash : Text → Text} {bad : TrafoIn} {e : PyErr} (hb : ∀ v, writeTrafo pr rnd hash v bad = .error e)
    (post : List TrafoIn) : ∀ (pre : List TrafoIn) (v : TrafoVars), (∀ t ∈ pre, Writable t) → trafoItems pr rnd hash v (pre ++ bad :: post) = .error e := by
  intro pre
  induction pre with
  | nil => intro v _; rw [List.nil_append, trafoItems, hb]
  | cons t pre ih =>
    intro v h
    obtain ⟨i, hi, -⟩ := writable_item (pr := pr) (rnd := rnd) (hash := hash) (h t List.mem_cons_self)
    obtain ⟨v', hv⟩ := hi v
    rw [List.cons_append, trafoItems, hv]
    dsimp only
    rw [ih v' fun x hx => h x (List.mem_cons_of_mem _ hx)]

theorem written_stop {pr : ℝ → Text} {rnd : ℝ → ℝ} {hash : Text → Text} {bad : TrafoIn} {e : PyErr} (hb : ∀ v, writeTrafo pr rnd hash v bad = .error e)
    {pre : List TrafoIn} (post : List TrafoIn) (h : ∀ t ∈ pre, Writable t) : writeTrafos pr rnd hash (pre ++ bad :: post) = .error e := by
  unfold writeTrafos
  rw [items_stop hb post pre {} h]

/-- What stops the writing: no windings, one winding only, a node that is not known, a voltage that is not known, losses without a power, and a center
tap transformer without resistance. -/
theorem C85_errors (pr : ℝ → Text) (rnd : ℝ → ℝ) (hash : Text → Text) {pre : List TrafoIn} (post : List TrafoIn) (h : ∀ t ∈ pre, Writable t) :
    (∀ t, t.windings = [] → writeTrafos pr rnd hash (pre ++ t :: post) = .error .indexError) ∧
    (∀ t a, t.centerTap = false → t.windings = [a] → writeTrafos pr rnd hash (pre ++ t :: post) = .error .indexError) ∧
    (∀ t start stop a b n, TwoFull t start stop a b n →
      writeTrafos pr rnd hash (pre ++ { t with start := none } :: post) = .error .typeError ∧
      writeTrafos pr rnd hash (pre ++ { t with stop := none } :: post) = .error .typeError ∧
      writeTrafos pr rnd hash (pre ++ { t with windings := [{ a with voltage := none }, b] } :: post) = .error .typeError ∧
      writeTrafos pr rnd hash (pre ++ { t with windings := [a, { b with voltage := none }] } :: post) = .error .typeError ∧
      ∀ loss, writeTrafos pr rnd hash (pre ++ { t with windings := [{ a with power := none }, b], noload := some loss } :: post) = .error .typeError) ∧
    ∀ t start stop a b c s v1 v2 v3 r2 r3 x12 x13 x23, CenterFull t start stop a b c s v1 v2 v3 0 r2 r3 x12 x13 x23 →
      writeTrafos pr rnd hash (pre ++ t :: post) = .error .zeroDivisionError := by
  refine ⟨fun t ht => written_stop (fun v => ?_) post h, fun t a hc ht => written_stop (fun v => ?_) post h, fun t start stop a b n hf => ?_, ?_⟩
  · unfold writeTrafo
    rw [ht]
  · unfold writeTrafo
    rw [ht]
    dsimp only
    unfold impedanceVars
    rw [if_neg (typeCode_ok hc).2]
    unfold twoVars
    rw [ht]
  · have imp : ∀ (t' : TrafoIn) (a' b' : WindingIn) (rest : List WindingIn) (v : TrafoVars), t'.centerTap = false → t'.windings = a' :: b' :: rest →
        ∃ v' z xr, impedanceVars v t' a' = .ok v' ∧ v'.z1 = some z ∧ v'.xr = some xr := by
      intro t' a' b' rest v hc hw
      unfold impedanceVars
      rw [if_neg (typeCode_ok hc).2]
      unfold twoVars
      rw [hw]
      exact ⟨_, _, _, rfl, rfl, rfl⟩
    have volt : ∀ (t' : TrafoIn) (a' b' : WindingIn) (v : TrafoVars) (x y : ℝ), t'.centerTap = false → a'.phases.length ≤ 3 → a'.voltage = some x →
        b'.voltage = some y → ∃ v' u p s, voltageVars pr rnd v t' a' [b'] = .ok v' ∧ v'.z1 = v.z1 ∧ v'.xr = v.xr ∧ v'.unit = some u ∧
          v'.prim = some p ∧ v'.sec = some s := by
      intro t' a' b' v x y hc hp hx hy
      unfold voltageVars
      rw [if_pos hp, hx]
      dsimp only
      unfold secondaryVoltage
      dsimp only
      rw [if_neg (typeCode_ok hc).2, hy]
      exact ⟨_, _, _, _, rfl, rfl, rfl, rfl, rfl, rfl⟩
    have nodes : ∀ t' : TrafoIn, t'.centerTap = false → t'.windings = [a, b] → trafoSection hash t' = none →
        ∀ v, writeTrafo pr rnd hash v t' = .error .typeError := by
      intro t' hc hw hs v
      obtain ⟨v1, z, xr, h1, h2, h3⟩ := imp t' a b [] v hc hw
      obtain ⟨v2, u, p, s, g1, g2, g3, g4, g5, g6⟩ := volt t' a b v1 _ _ hc hf.phases hf.voltage1 hf.voltage2
      unfold writeTrafo
      rw [hw]
      dsimp only
      rw [h1]
      dsimp only
      rw [g1]
      dsimp only
      rw [hf.power1, lossText_ok]
      dsimp only
      unfold trafoObject
      rw [g4, g5, g6, g2, h2, g3, h3]
      dsimp only
      rw [hs]
    refine ⟨written_stop (nodes { t with start := none } hf.plain hf.windings rfl) post h, written_stop (nodes { t with stop := none } hf.plain hf.windings ?_) post h,
      written_stop (fun v => ?_) post h, written_stop (fun v => ?_) post h, fun loss => written_stop (fun v => ?_) post h⟩
    · unfold trafoSection
      dsimp only
      rw [hf.start]
    · obtain ⟨v1, z, xr, h1, h2, h3⟩ := imp { t with windings := [{ a with voltage := none }, b] } { a with voltage := none } b [] v hf.plain rfl
      unfold writeTrafo
      dsimp only
      rw [h1]
      dsimp only
      unfold voltageVars
      rw [if_pos (show ({ a with voltage := none } : WindingIn).phases.length ≤ 3 from hf.phases)]
    · obtain ⟨v1, z, xr, h1, h2, h3⟩ := imp { t with windings := [a, { b with voltage := none }] } a { b with voltage := none } [] v hf.plain rfl
      unfold writeTrafo
      dsimp only
      rw [h1]
      dsimp only
      unfold voltageVars
      rw [if_pos hf.phases, hf.voltage1]
      dsimp only
      unfold secondaryVoltage
      dsimp only
      rw [if_neg (typeCode_ok (t := { t with windings := [a, { b with voltage := none }] }) hf.plain).2]
    · obtain ⟨v1, z, xr, h1, h2, h3⟩ := imp { t with windings := [{ a with power := none }, b], noload := some loss } { a with power := none } b [] v
        hf.plain rfl
      obtain ⟨v2, u, p, s, g1, g2, g3, g4, g5, g6⟩ := volt { t with windings := [{ a with power := none }, b], noload := some loss }
        { a with power := none } b v1 _ _ hf.plain hf.phases hf.voltage1 hf.voltage2
      unfold writeTrafo
      dsimp only
      rw [h1]
      dsimp only
      rw [g1]
      rfl
  · intro t start stop a b c s v1 v2 v3 r2 r3 x12 x13 x23 hf
    refine written_stop (fun v => ?_) post h
    unfold writeTrafo
    rw [hf.windings]
    dsimp only
    unfold impedanceVars
    rw [if_pos (center_type hf.center hf.phase)]
    unfold centerVars
    rw [hf.reactances]
    dsimp only
    rw [hf.windings]
    unfold centerWindings
    dsimp only
    rw [hf.resistances.1, hf.resistances.2.1, hf.resistances.2.2]
    dsimp only
    rw [hf.power]
    dsimp only
    unfold centerImpedance
    rw [if_pos (by norm_num)]

/-! ### examples -/

/-- a transformer with 100 kVA between 12.47 kV and 480 V -/
noncomputable def exampleHigh : WindingIn where
  power := some 100000
  voltage := some 12470
  resistance := some 1
  connection := some "D".toList
  phases := [(some 'A', none), (some 'B', none), (some 'C', none)]

noncomputable def exampleLow : WindingIn where
  power := some 100000
  voltage := some 480
  resistance := some 1
  connection := some "Y".toList
  phases := [(some 'A', some 1), (some 'B', some 1), (some 'C', some 1)]

noncomputable def exampleTwo : TrafoIn where
  start := some "n1".toList
  stop := some "n2".toList
  place := some ("1".toList, "2".toList)
  reactances := [4]
  windings := [exampleHigh, exampleLow]
  centerTap := false
  noload := some (1 / 2)

noncomputable def exampleNumbers : TwoNumbers := ⟨100000, 100000, 12470, 480, 1, 1, 4⟩

theorem example_two : TwoFull exampleTwo "n1".toList "n2".toList exampleHigh exampleLow exampleNumbers :=
  ⟨rfl, rfl, rfl, rfl, rfl, rfl, rfl, rfl, rfl, rfl, rfl, by decide, by norm_num [exampleNumbers]⟩

/-- its connection has a code, and the impedance can be written -/
example : (∃ code ∈ connectionCodes, WindingsConnected exampleHigh exampleLow code ∧ code.2.1 ≠ "Z".toList) ∧
    exampleNumbers.s1 = exampleNumbers.s2 ∧ exampleNumbers.v1 ≠ 0 ∧ exampleNumbers.v2 ≠ 0 ∧ 0 < exampleNumbers.r1 + exampleNumbers.r2 :=
  ⟨⟨("D".toList, "Y".toList, "1".toList, "1".toList), by decide, ⟨rfl, rfl⟩, by decide⟩, rfl, by norm_num [exampleNumbers],
    by norm_num [exampleNumbers], by norm_num [exampleNumbers]⟩

/-- a center tap transformer with 25 kVA -/
noncomputable def exampleHalf (r v : ℝ) : WindingIn where
  power := some 25000
  voltage := some v
  resistance := some r
  connection := some "Y".toList
  phases := [(some 'A', some 1)]

noncomputable def exampleCenter : TrafoIn where
  start := some "n3".toList
  stop := some "n4".toList
  place := none
  reactances := [51 / 25, 51 / 25, 34 / 25]
  windings := [exampleHalf (3 / 5) 7200, exampleHalf (6 / 5) 120, exampleHalf (6 / 5) 120]
  centerTap := true
  noload := none

theorem example_center : CenterFull exampleCenter "n3".toList "n4".toList (exampleHalf (3 / 5) 7200) (exampleHalf (6 / 5) 120)
    (exampleHalf (6 / 5) 120) 25000 7200 120 120 (3 / 5) (6 / 5) (6 / 5) (51 / 25) (51 / 25) (34 / 25) :=
  ⟨rfl, rfl, rfl, rfl, rfl, ⟨rfl, rfl, rfl⟩, ⟨rfl, rfl, rfl⟩, rfl, rfl⟩

/-- with a resistance of 1.2 and a reactance of 1.7 percent -/
example : (0 : ℝ) < 6 / 5 ∧ (3 / 5 : ℝ) = 6 / 5 / 2 ∧ ((51 / 25 + 51 / 25 - 34 / 25) / 2 : ℝ) = 4 / 5 * (17 / 10) := by norm_num

example : ∀ t ∈ [exampleTwo, exampleCenter, exampleTwo], Writable t := by
  have h1 : Writable exampleTwo := Or.inl ⟨_, _, _, _, _, example_two⟩
  have h2 : Writable exampleCenter := Or.inr ⟨_, _, _, _, _, _, _, _, _, _, _, _, _, _, _, example_center, by norm_num⟩
  simp only [List.forall_mem_cons]
  exact ⟨h1, h2, h1, fun _ h => absurd h List.not_mem_nil⟩

/-- the second winding has half of the power -/
example : TwoFull { exampleTwo with windings := [exampleHigh, { exampleLow with power := some 50000 }] } "n1".toList "n2".toList exampleHigh
      { exampleLow with power := some 50000 } { exampleNumbers with s2 := 50000 } ∧
    exampleNumbers.s1 ≠ 50000 ∧ 0 ≤ exampleNumbers.r1 ∧ 0 < exampleNumbers.r2 :=
  ⟨⟨rfl, rfl, rfl, rfl, rfl, rfl, rfl, rfl, rfl, rfl, rfl, by decide, by norm_num [exampleNumbers]⟩, by norm_num [exampleNumbers],
    by norm_num [exampleNumbers], by norm_num [exampleNumbers]⟩

/-- without resistance -/
example : TwoFull { exampleTwo with windings := [{ exampleHigh with resistance := some 0 }, { exampleLow with resistance := some 0 }] } "n1".toList
    "n2".toList { exampleHigh with resistance := some 0 } { exampleLow with resistance := some 0 } { exampleNumbers with r1 := 0, r2 := 0 } :=
  ⟨rfl, rfl, rfl, rfl, rfl, rfl, rfl, rfl, rfl, rfl, rfl, by decide, by norm_num [exampleNumbers]⟩

/-- with a zigzag winding -/
example : TwoFull { exampleTwo with windings := [exampleHigh, { exampleLow with connection := some "Z".toList }] } "n1".toList "n2".toList exampleHigh
    { exampleLow with connection := some "Z".toList } exampleNumbers :=
  ⟨rfl, rfl, rfl, rfl, rfl, rfl, rfl, rfl, rfl, rfl, rfl, by decide, by norm_num [exampleNumbers]⟩

/-- for transformers without reactance -/
example : exampleNumbers.r1 * exampleNumbers.s1 + exampleNumbers.r2 * exampleNumbers.s2 ≠ 0 := by norm_num [exampleNumbers]

/-- a center tap transformer without resistance -/
example : CenterFull { exampleCenter with windings := [exampleHalf 0 7200, exampleHalf 0 120, exampleHalf 0 120] } "n3".toList "n4".toList
    (exampleHalf 0 7200) (exampleHalf 0 120) (exampleHalf 0 120) 25000 7200 120 120 0 0 0 (51 / 25) (51 / 25) (34 / 25) :=
  ⟨rfl, rfl, rfl, rfl, rfl, ⟨rfl, rfl, rfl⟩, ⟨rfl, rfl, rfl⟩, rfl, rfl⟩

end Ditto.Cyme
