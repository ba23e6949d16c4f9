import Verif.Lemmas.DssLoads
import Mathlib.Analysis.Real.Sqrt

/-! C52: loads keep their power, phases, voltage and connection in OpenDSS files. -/
namespace Ditto.Dss
open Ditto Ditto.Spec

variable {K : Type} [Field K] [LinearOrder K] [IsStrictOrderedRing K]

/-- The phases of the reader and those of the writer are inverse to each other; the neutral is 0 for the writer only. -/
theorem C52_phases (p : String) (n : Nat) : ofDssPhase n = some p ↔ toDssPhase p = some n ∧ p ≠ "N" := by
  unfold ofDssPhase toDssPhase
  constructor
  · intro h
    split_ifs at h with h1 h2 h3 <;> injection h with h <;> subst h <;> simp [*]
  · rintro ⟨h, hN⟩
    split_ifs at h with h1 h2 h3 <;> injection h with h <;> subst h <;> simp [*]

/-- The text of a load has its name, connection, bus, voltage in kV, the total powers in kW and kvar, and a number of phases. -/
theorem C52_write (l : DLoad K) (n : String) (ps : List (PLoad K)) (hn : l.name = some n) (hps : l.phaseLoads = some ps) (hne : ps ≠ []) :
    ∃ t, writeLoad l = some t ∧ t.name = n ∧ (l.conn = some "Y" → t.conn = some "wye") ∧ (l.conn = some "D" → t.conn = some "delta") ∧
      t.bus.map (·.1) = l.bus.map cleanName ∧ t.kV = l.volt.map (· / 1000) ∧ t.vmin = l.vmin ∧ t.vmax = l.vmax ∧ t.kW = some (totalP ps / 1000) ∧
      t.kvar = some (totalQ ps / 1000) ∧ t.model = ps.head?.map (·.model) ∧
      ((∀ v, l.volt = some v → 300 ≤ v) → t.phases = some ps.length) ∧ (∀ v, l.volt = some v → v < 300 → t.phases = some 1) := by
  unfold writeLoad
  rw [hn, hps]
  refine ⟨_, rfl, rfl, fun h => ?_, fun h => ?_, ?_, rfl, rfl, rfl, ?_, ?_, ?_, fun h => ?_, fun v hv hlt => ?_⟩
  · simp [connText, h]
  · simp [connText, h]
  · cases l.bus <;> rfl
  · cases ps with
    | nil => exact absurd rfl hne
    | cons p ps => simp only [powerText]; rw [sumKnown_eq]; rfl
  · cases ps with
    | nil => exact absurd rfl hne
    | cons p ps => simp only [powerText]; rw [sumKnown_eq]; rfl
  · cases ps with
    | nil => exact absurd rfl hne
    | cons p ps => rfl
  · simp only [Option.map_some, phasesText]
    cases hv : l.volt with
    | none => rfl
    | some v => simp only [not_lt.2 (h v hv), if_false]
  · simp only [Option.map_some, phasesText, hv, hlt, if_true]

/-- The phases of a connection: those of the bus, in order, all three for a bus without numbers, none without a bus; a delta load with another
number of phases has only so many of them. -/
theorem C52_read_phases {K : Type} (d : LoadData K) :
    (d.bus = none → loadPhases d = []) ∧
      (∀ b, d.bus = some (b, none) → (d.phases = some 3 ∨ connOf d.conn ≠ some "D") → loadPhases d = [some "A", some "B", some "C"]) ∧
      (∀ b ns, d.bus = some (b, some ns) → (d.phases = some ns.length ∨ connOf d.conn ≠ some "D") → loadPhases d = ns.map ofDssPhase) ∧
      (∀ b ns n, d.bus = some (b, some ns) → d.phases = some n → connOf d.conn = some "D" → loadPhases d = (ns.take n).map ofDssPhase) := by
  refine ⟨fun h => ?_, fun b h h1 => ?_, fun b ns h h1 => ?_, fun b ns n h h1 h2 => ?_⟩
  · simp [loadPhases, busPhases, h]
  · unfold loadPhases busPhases
    rw [h, if_neg]
    rcases h1 with h1 | h1 <;> simp [h1]
  · unfold loadPhases busPhases
    rw [h, if_neg]
    rcases h1 with h1 | h1 <;> simp [h1]
  · unfold loadPhases busPhases
    rw [h, h1, h2]
    by_cases hn : n = ns.length
    · simp [hn]
    · simp [hn, List.map_take]

/-- Whatever the data of an enabled load with known powers are: there is a load for each phase of its connection, with equal shares of the
active power; the reactive power is the one with this power factor. -/
theorem C52_read {sqrt : K → K} {d : LoadData K} {kW kVA pf : K} {z : Option Bool × Option (List K)} (hen : d.enabled = true)
    (hkW : d.kW = some kW) (hkVA : d.kVA = some kVA) (hpf : d.pf = some pf) (h0 : pf ≠ 0) (h1 : pf ^ 2 ≤ 1) (hz : zipOf d.model d.zipv = .ok z)
    (hne : loadPhases d ≠ []) :
    ∃ (r : RLoad K) (qs : List K), readLoad sqrt d = .ok (some r) ∧ r.name = "load_" ++ pyLower d.name ∧ r.phaseLoads.map (·.phase) = loadPhases d ∧
      (r.phaseLoads.map (·.p)).sum = kW * 1000 ∧ (∀ x ∈ r.phaseLoads, ∀ y ∈ r.phaseLoads, x.p = y.p ∧ x.q = y.q) ∧
      r.phaseLoads.map (·.q) = qs.map Num.val ∧ qs.sum * pf = kW * 1000 * sqrt (1 - pf ^ 2) ∧
      r.volt = d.kV.map (· * 1000) ∧ r.vmin = d.vmin ∧ r.vmax = d.vmax ∧ r.bus = d.bus.map (·.1) := by
  have hl : ((loadPhases d).length : K) ≠ 0 := cast_ne_zero' fun h => hne (List.length_eq_zero_iff.1 h)
  have hre : reactive sqrt (kW / ((loadPhases d).length : K)) pf = .val (kW / ((loadPhases d).length : K) * 1000 * sqrt (1 - pf ^ 2) / pf) := by
    unfold reactive
    rw [if_neg (by push Not; exact ⟨h0, h1⟩)]
  refine ⟨_, (loadPhases d).map fun _ => kW / ((loadPhases d).length : K) * 1000 * sqrt (1 - pf ^ 2) / pf, readLoad_eq hen hkW hkVA hpf hz hne, rfl, ?_, ?_, ?_, ?_, ?_, rfl,
    rfl, rfl, rfl⟩
  · rw [List.map_map]
    exact (List.map_congr_left fun a _ => rfl).trans (List.map_id _)
  · rw [List.map_map]
    have := sum_const (loadPhases d) (kW / ((loadPhases d).length : K) * 1000)
    rw [show ((fun x : RPhase K => x.p) ∘ fun ph => (⟨ph, kW / ((loadPhases d).length : K) * 1000, reactive sqrt (kW / ((loadPhases d).length : K)) pf, d.model, z.1, z.2⟩ : RPhase K)) =
      fun _ => kW / ((loadPhases d).length : K) * 1000 from rfl, this]
    field_simp
  · intro x hx y hy
    obtain ⟨a, -, rfl⟩ := List.mem_map.1 hx
    obtain ⟨b, -, rfl⟩ := List.mem_map.1 hy
    exact ⟨rfl, rfl⟩
  · rw [List.map_map, List.map_map]
    exact List.map_congr_left fun a _ => hre
  · rw [sum_const]
    field_simp

/-- The ZIP coefficients of a load of model 8 are read as percentages, in the order of OpenDSS: impedance, current, power, of P and then of
Q. -/
theorem C52_zip_read (a b c d e f : K) (rest : List K) :
    zipOf (some 8) (some (a :: b :: c :: d :: e :: f :: rest)) = .ok (some true, some [a * 100, b * 100, c * 100, d * 100, e * 100, f * 100]) ∧
      ∀ m : Option Nat, m ≠ some 8 → ∀ zv : Option (List K), zipOf m zv = .ok (some false, none) := by
  refine ⟨rfl, fun m hm zv => ?_⟩
  unfold zipOf
  rw [if_neg hm]

/-- A load of model 8 with fewer than six coefficients cannot be read; without readable coefficients it is read without them. -/
theorem C52_zip_errors (sqrt : K → K) (d : LoadData K) (hen : d.enabled = true) (hm : d.model = some 8) (zv : List K) (hz : d.zipv = some zv) (hl : zv.length < 6)
    (kW kVA pf : K) (h1 : d.kW = some kW) (h2 : d.kVA = some kVA) (h3 : d.pf = some pf) (h4 : loadPhases d ≠ []) :
    readLoad sqrt d = .error .indexError ∧ zipOf (some 8) (none : Option (List K)) = .ok (none, none) := by
  refine ⟨?_, rfl⟩
  have hzip : zipOf d.model d.zipv = .error .indexError := by
    rw [hm, hz]
    match zv, hl with
    | [], _ => rfl
    | [_], _ => rfl
    | [_, _], _ => rfl
    | [_, _, _], _ => rfl
    | [_, _, _, _], _ => rfl
    | [_, _, _, _, _], _ => rfl
    | _ :: _ :: _ :: _ :: _ :: _ :: _, h => simp only [List.length_cons] at h; omega
  have hl : (loadPhases d).length ≠ 0 := fun h => h4 (List.length_eq_zero_iff.1 h)
  unfold readLoad perPhase
  rw [hen, h1, h2]
  simp only [hl, if_false, Bool.true_eq_false]
  match hp : loadPhases d with
  | [] => exact absurd hp h4
  | a :: as =>
    rw [readPhases, h3]
    simp only [hzip]

/-- Missing values and connections: the errors of the reader. A load without power factor cannot be read although both powers are known. -/
theorem C52_read_errors (sqrt : K → K) (d : LoadData K) (hen : d.enabled = true) :
    (d.kW = none → readLoad sqrt d = .error .typeError) ∧
      (∀ kW, d.kW = some kW → loadPhases d = [] → readLoad sqrt d = .error .zeroDivisionError) ∧
      (∀ kW, d.kW = some kW → loadPhases d ≠ [] → d.kVA = none → readLoad sqrt d = .error .typeError) ∧
      (∀ kW kVA, d.kW = some kW → loadPhases d ≠ [] → d.kVA = some kVA → d.pf = none → readLoad sqrt d = .error .nameError) := by
  refine ⟨fun h => ?_, fun kW h h1 => ?_, fun kW h h1 h2 => ?_, fun kW kVA h h1 h2 h3 => ?_⟩
  · unfold readLoad perPhase; rw [hen, h]; rfl
  · unfold readLoad perPhase; rw [hen, h, h1]; rfl
  · have hl : (loadPhases d).length ≠ 0 := fun h => h1 (List.length_eq_zero_iff.1 h)
    unfold readLoad perPhase; rw [hen, h, h2]; simp [hl]
  · have hl : (loadPhases d).length ≠ 0 := fun h => h1 (List.length_eq_zero_iff.1 h)
    unfold readLoad perPhase
    rw [hen, h, h2]
    simp only [hl, if_false, Bool.true_eq_false]
    match hp : loadPhases d with
    | [] => exact absurd hp h1
    | a :: as => rw [readPhases, h3]

/-- disabled loads are skipped -/
theorem C52_disabled (sqrt : K → K) (d : LoadData K) (h : d.enabled = false) : readLoad sqrt d = .ok none := by
  unfold readLoad
  rw [if_pos h]

/-- the phases that are read again -/
theorem phases_again {l : DLoad K} {n b : String} {ps : List (PLoad K)} {t : LoadText K} {d : LoadData K} (hn : l.name = some n) (hb : l.bus = some b)
    (hps : l.phaseLoads = some ps) (hne : ps ≠ []) (hph : ∀ p ∈ ps, ∃ ph ∈ ["A", "B", "C"], p.phase = some ph)
    (hconn : l.conn = some "Y" ∨ l.conn = some "D" ∧ ∀ v, l.volt = some v → 300 ≤ v ∨ ps.length = 1) (ht : writeLoad l = some t) (hd : Reports t d) :
    loadPhases d = ps.map (·.phase) ∧ connOf d.conn = l.conn ∧ ∃ b', d.bus.map (·.1) = some b' ∧ pyLower b' = pyLower (cleanName b) := by
  unfold writeLoad at ht
  rw [hn, hb, hps] at ht
  cases ht
  obtain ⟨ns, h1, h2⟩ := suffix_known ps hph
  have hns : ns ≠ [] := by
    intro h
    rw [h] at h2
    exact hne (List.map_eq_nil_iff.1 h2.symm)
  have hlen : ns.length = ps.length := by simpa using congrArg List.length h2
  rcases hconn with hc | ⟨hc, hv⟩
  · have hsuf : loadSuffix l.conn ps = ns.map some := by
      unfold loadSuffix
      rw [h1, hc]
      match ps with
      | [] => exact List.append_nil _
      | [p] => exact List.append_nil _
      | _ :: _ :: _ => exact List.append_nil _
    obtain ⟨b', hb', hbus⟩ := hd.bus (cleanName b) ns (by simp [hsuf])
    obtain ⟨c', hc', hdc⟩ := hd.conn "wye" (by simp [connText, hc])
    have hY : connOf d.conn = some "Y" := by
      rw [hdc, pyLower_conn hc']
      decide +kernel
    rw [if_neg hns] at hbus
    refine ⟨?_, hY.trans hc.symm, b', by rw [hbus]; rfl, hb'⟩
    unfold loadPhases
    rw [hY, if_neg (fun h => absurd h.2 (by decide)), hbus]
    exact h2
  · obtain ⟨c', hc', hdc⟩ := hd.conn "delta" (by simp [connText, hc])
    have hD : connOf d.conn = some "D" := by
      rw [hdc, pyLower_conn hc']
      decide +kernel
    match ps, hne with
    | [p], _ =>
      obtain ⟨ph, hm, hp⟩ := hph p List.mem_cons_self
      match ns, hlen with
      | [k], _ =>
        have hk : toDssPhase ph = some k := by simpa [hp] using h1
        have hk2 : ofDssPhase k = some ph := by simpa [hp] using h2
        have hsuf : ∃ k', loadSuffix l.conn [p] = [k, k'].map some := by
          unfold loadSuffix
          rw [h1]
          simp only [hc, if_true, otherPhase, hp, Option.bind_some, hk]
          have hk3 := (C52_phases ph k).1 hk2
          unfold ofDssPhase at hk2
          split_ifs at hk2 with e1 e2 e3
          · exact ⟨2, by rw [e1]; rfl⟩
          · exact ⟨3, by rw [e2]; rfl⟩
          · exact ⟨1, by rw [e3]; rfl⟩
        obtain ⟨k', hsuf⟩ := hsuf
        obtain ⟨b', hb', hbus⟩ := hd.bus (cleanName b) [k, k'] (by simp [hsuf])
        have hN : d.phases = some 1 := hd.phases 1 (by
          simp only [Option.map_some, phasesText]
          cases l.volt with
          | none => rfl
          | some v => by_cases hv' : v < 300 <;> simp [hv'])
        refine ⟨?_, hD.trans hc.symm, b', by rw [hbus]; rfl, hb'⟩
        unfold loadPhases
        rw [hD, hN, hbus]
        simp [busPhases, hk2, hp]
    | p :: q :: rest, _ =>
      have hsuf : loadSuffix l.conn (p :: q :: rest) = ns.map some := by
        unfold loadSuffix
        rw [h1]
        exact List.append_nil _
      obtain ⟨b', hb', hbus⟩ := hd.bus (cleanName b) ns (by simp [hsuf])
      rw [if_neg hns] at hbus
      have hN : d.phases = some (p :: q :: rest).length := hd.phases _ (by
        simp only [Option.map_some, phasesText]
        cases hv' : l.volt with
        | none => rfl
        | some v =>
          rcases hv v hv' with h | h
          · simp only [not_lt.2 h, if_false]
          · simp at h)
      refine ⟨?_, hD.trans hc.symm, b', by rw [hbus]; rfl, hb'⟩
      unfold loadPhases
      have hbp : busPhases d.bus = (p :: q :: rest).map (·.phase) := by rw [hbus]; exact h2
      rw [hbp, hN, List.length_map, if_neg (fun h => h.1 rfl)]

/-- A load that is written and read again by way of OpenDSS has the phases, connection, voltages and the total powers it had. Missing: the
name, which gets a prefix; the distribution of the powers over the phases; loads with reactive power only; the neutral and other phases; delta
loads below 300 V with several phases (see the violations). -/
theorem C52_round_trip_partial {sqrt : K → K} (hs : IsSqrt sqrt) {l : DLoad K} {n b : String} {ps : List (PLoad K)} {t : LoadText K} {d : LoadData K}
    (hn : l.name = some n) (hb : l.bus = some b) (hps : l.phaseLoads = some ps) (hne : ps ≠ [])
    (hph : ∀ p ∈ ps, ∃ ph ∈ ["A", "B", "C"], p.phase = some ph) (hP : totalP ps ≠ 0 ∨ totalQ ps = 0)
    (hconn : l.conn = some "Y" ∨ l.conn = some "D" ∧ ∀ v, l.volt = some v → 300 ≤ v ∨ ps.length = 1)
    (ht : writeLoad l = some t) (hd : Reports t d) :
    ∃ (r : RLoad K) (qs : List K), readLoad sqrt d = .ok (some r) ∧ r.name = "load_" ++ pyLower n ∧ (∃ b', r.bus = some b' ∧ pyLower b' = pyLower (cleanName b)) ∧
      r.conn = l.conn ∧ (∀ v, l.volt = some v → r.volt = some v) ∧ (∀ v, l.vmin = some v → r.vmin = some v) ∧ (∀ v, l.vmax = some v → r.vmax = some v) ∧
      r.phaseLoads.map (·.phase) = ps.map (·.phase) ∧ (∀ x ∈ r.phaseLoads, x.model = ps.head?.map (·.model)) ∧
      (r.phaseLoads.map (·.p)).sum = totalP ps ∧ r.phaseLoads.map (·.q) = qs.map Num.val ∧ qs.sum = totalQ ps ∧
      (∀ x ∈ r.phaseLoads, x.p = totalP ps / ps.length ∧ x.q = .val (totalQ ps / ps.length)) := by
  obtain ⟨hphases, hc, b', hb', hlow⟩ := phases_again hn hb hps hne hph hconn ht hd
  obtain ⟨t', ht', h1, -, -, -, h2, h3, h4, h5, h6, h7, -, -⟩ := C52_write l n ps hn hps hne
  rw [ht] at ht'
  cases ht'
  obtain ⟨pf, hpf, hspec⟩ := hd.pf _ _ h5 h6
  obtain ⟨kVA, hkVA⟩ := hd.kVA
  have hz : zipOf d.model d.zipv = .ok (if d.model = some 8 then none else some false, none) := by
    unfold zipOf
    rw [hd.zipv]
    split <;> rfl
  have hlp : loadPhases d ≠ [] := by
    rw [hphases]
    exact fun h => hne (List.map_eq_nil_iff.1 h)
  have hlen : (loadPhases d).length = ps.length := by rw [hphases, List.length_map]
  have hl : (ps.length : K) ≠ 0 := cast_ne_zero' fun h => hne (List.length_eq_zero_iff.1 h)
  have hre : reactive sqrt (totalP ps / 1000 / ((loadPhases d).length : K)) pf = .val (totalQ ps / ps.length) := by
    rw [reactive_spec hs hspec (hP.imp (fun h => div_ne_zero h (by norm_num)) (fun h => by rw [h, zero_div])), hlen]
    congr 1
    field_simp
  have hp : totalP ps / 1000 / ((loadPhases d).length : K) * 1000 = totalP ps / ps.length := by
    rw [hlen]; field_simp
  refine ⟨_, ps.map fun _ => totalQ ps / ps.length, readLoad_eq hd.enabled (hd.kW _ h5) hkVA hpf hz hlp, ?_, ⟨b', hb', hlow⟩, hc, fun v hv => ?_,
    fun v hv => hd.vmin v (h3.trans hv), fun v hv => hd.vmax v (h4.trans hv), ?_, fun x hx => ?_, ?_, ?_, ?_, fun x hx => ?_⟩
  · simp only; rw [hd.name, h1]
  · simp only
    rw [hd.kV (v / 1000) (by rw [h2, hv]; rfl)]
    simp
  · rw [List.map_map, ← hphases]
    exact (List.map_congr_left fun a _ => rfl).trans (List.map_id _)
  · obtain ⟨a, -, rfl⟩ := List.mem_map.1 hx
    simp only
    cases ps with
    | nil => exact absurd rfl hne
    | cons p ps => exact hd.model _ h7
  · rw [List.map_map]
    refine Eq.trans (congrArg List.sum (List.map_congr_left (g := fun _ => totalP ps / ps.length) fun a _ => hp)) ?_
    rw [sum_const, hlen]
    field_simp
  · rw [List.map_map, List.map_map, hphases, List.map_map]
    refine List.map_congr_left fun a _ => ?_
    have := hre
    rw [hphases] at this
    exact this
  · rw [sum_const]
    field_simp
  · obtain ⟨a, -, rfl⟩ := List.mem_map.1 hx
    exact ⟨hp, hre⟩

/-- In a balanced load each phase has its power again. -/
theorem C52_balanced_partial {sqrt : K → K} (hs : IsSqrt sqrt) {l : DLoad K} {n b : String} {ps : List (PLoad K)} {t : LoadText K} {d : LoadData K} {P Q : K}
    (hn : l.name = some n) (hb : l.bus = some b) (hps : l.phaseLoads = some ps) (hne : ps ≠ [])
    (hph : ∀ p ∈ ps, ∃ ph ∈ ["A", "B", "C"], p.phase = some ph) (hbal : ∀ p ∈ ps, p.p = some P ∧ p.q = some Q) (hP : P ≠ 0 ∨ Q = 0)
    (hconn : l.conn = some "Y" ∨ l.conn = some "D" ∧ ∀ v, l.volt = some v → 300 ≤ v ∨ ps.length = 1)
    (ht : writeLoad l = some t) (hd : Reports t d) :
    ∃ r, readLoad sqrt d = .ok (some r) ∧ r.phaseLoads.map (fun x => (x.phase, some x.p, some x.q)) = ps.map fun p => (p.phase, p.p, p.q.map Num.val) := by
  have hl : (ps.length : K) ≠ 0 := cast_ne_zero' fun h => hne (List.length_eq_zero_iff.1 h)
  have hsum : ∀ (f : PLoad K → Option K) (c : K), (∀ p ∈ ps, f p = some c) → (ps.filterMap f).sum = ps.length * c := by
    intro f c h
    rw [List.filterMap_congr (g := some ∘ fun _ => c) h, List.filterMap_eq_map, sum_const]
  have htP : totalP ps = ps.length * P := hsum _ _ fun p hp => (hbal p hp).1
  have htQ : totalQ ps = ps.length * Q := hsum _ _ fun p hp => (hbal p hp).2
  obtain ⟨r, -, h1, -, -, -, -, -, -, h2, -, -, -, -, h3⟩ := C52_round_trip_partial hs hn hb hps hne hph
    (by rw [htP, htQ]; exact hP.imp (mul_ne_zero hl) (fun h => by rw [h, mul_zero])) hconn ht hd
  refine ⟨r, h1, ?_⟩
  have h4 : ps.map (fun p => (p.phase, p.p, p.q.map Num.val)) = (ps.map (·.phase)).map fun x => (x, some P, some (Num.val Q)) := by
    rw [List.map_map]
    refine List.map_congr_left fun p hp => ?_
    simp [(hbal p hp).1, (hbal p hp).2]
  rw [h4, ← h2, List.map_map]
  refine List.map_congr_left fun x hx => ?_
  obtain ⟨h5, h6⟩ := h3 x hx
  rw [htP, mul_div_cancel_left₀ _ hl] at h5
  rw [htQ, mul_div_cancel_left₀ _ hl] at h6
  simp [h5, h6]

/-! ### Violations -/

/-- the loads per phase cannot be recovered from the file: different loads have the same text -/
theorem C52_unbalanced_violated : ∃ l l' : DLoad ℚ, (l.phaseLoads.map (List.map (·.p))) ≠ (l'.phaseLoads.map (List.map (·.p))) ∧ writeLoad l = writeLoad l' :=
  ⟨{ name := some "l", phaseLoads := some [{ phase := some "A", p := some 1 }, { phase := some "B", p := some 3 }] },
    { name := some "l", phaseLoads := some [{ phase := some "A", p := some 2 }, { phase := some "B", p := some 2 }] }, by decide +kernel, by decide +kernel⟩

/-- Nothing of the ZIP models is written: changing them in any load does not change its text. Only the model of the first phase is. -/
theorem C52_zip_violated (l l' : DLoad K) (f : PLoad K → Bool × List (Option K)) (hps : l'.phaseLoads = l.phaseLoads.map (List.map fun p => { p with useZip := (f p).1, zip := (f p).2 }))
    (h : l' = { l with phaseLoads := l'.phaseLoads }) : writeLoad l' = writeLoad l := by
  obtain ⟨n, c, b, v, lo, hi, ps⟩ := l
  rw [h, hps]
  unfold writeLoad
  cases ps with
  | none => rfl
  | some ps =>
    simp only [Option.map_some, List.length_map]
    have h1 : powerText (ps.map fun p => { p with useZip := (f p).1, zip := (f p).2 }) = powerText ps := by
      cases ps with
      | nil => rfl
      | cons p ps => simp only [List.map_cons, powerText, List.map_map]; rfl
    have h2 : loadSuffix c (ps.map fun p => { p with useZip := (f p).1, zip := (f p).2 }) = loadSuffix c ps := by
      unfold loadSuffix
      rw [List.filterMap_map]
      match ps with
      | [] => rfl
      | [p] => rfl
      | _ :: _ :: _ => rfl
    rw [h1, h2]

/-- The reactive power of a load without active power is lost: it is read as "not a number". -/
theorem C52_reactive_violated {sqrt : K → K} {l : DLoad K} {n b : String} {ps : List (PLoad K)} {t : LoadText K} {d : LoadData K}
    (hn : l.name = some n) (hb : l.bus = some b) (hps : l.phaseLoads = some ps) (hne : ps ≠ [])
    (hph : ∀ p ∈ ps, ∃ ph ∈ ["A", "B", "C"], p.phase = some ph) (hP : totalP ps = 0) (hQ : totalQ ps ≠ 0) (hconn : l.conn = some "Y")
    (ht : writeLoad l = some t) (hd : Reports t d) : ∃ r, readLoad sqrt d = .ok (some r) ∧ r.phaseLoads ≠ [] ∧ ∀ x ∈ r.phaseLoads, x.q = .nan := by
  obtain ⟨hphases, -⟩ := phases_again hn hb hps hne hph (.inl hconn) ht hd
  obtain ⟨t', ht', -, -, -, -, -, -, -, h5, h6, -, -, -⟩ := C52_write l n ps hn hps hne
  rw [ht] at ht'
  cases ht'
  obtain ⟨pf, hpf, hspec⟩ := hd.pf _ _ h5 h6
  obtain ⟨kVA, hkVA⟩ := hd.kVA
  have hz : zipOf d.model d.zipv = .ok (if d.model = some 8 then none else some false, none) := by
    unfold zipOf
    rw [hd.zipv]
    split <;> rfl
  have hlp : loadPhases d ≠ [] := by
    rw [hphases]
    exact fun h => hne (List.map_eq_nil_iff.1 h)
  have h0 : pf = 0 := by
    have h1 := hspec.1
    rw [hP] at h1
    have hq2 : (totalQ ps / 1000) ^ 2 ≠ 0 := pow_ne_zero _ (div_ne_zero hQ (by norm_num))
    have h2 : pf ^ 2 * (totalQ ps / 1000) ^ 2 = 0 := by simpa using h1
    exact pow_eq_zero_iff (by decide) |>.1 ((mul_eq_zero.1 h2).resolve_right hq2)
  refine ⟨_, readLoad_eq hd.enabled (hd.kW _ h5) hkVA hpf hz hlp, fun h => hlp (List.map_eq_nil_iff.1 h), fun x hx => ?_⟩
  obtain ⟨a, -, rfl⟩ := List.mem_map.1 hx
  simp only [reactive, h0, true_or, if_true]

/-! ### Examples -/

/-- the square root of real numbers -/
example : IsSqrt Real.sqrt := fun x hx => ⟨Real.sqrt_nonneg x, Real.mul_self_sqrt hx⟩

/-- a wye load of two phases -/
def exLoad : DLoad ℚ where
  name := some "Load1"
  conn := some "Y"
  bus := some "Bus.7"
  volt := some 7200
  vmin := some (9 / 10)
  phaseLoads := some [{ phase := some "A", p := some 1000, q := some 1000 }, { phase := some "C", p := some 3000, q := some 2000 }]

def exLoadText : LoadText ℚ where
  name := "Load1"
  conn := some "wye"
  bus := some ("Bus_7", [some 1, some 3])
  kV := some (72 / 10)
  vmin := some (9 / 10)
  model := some 1
  kW := some 4
  kvar := some 3
  phases := some 2

theorem exLoad_text : writeLoad exLoad = some exLoadText := by decide +kernel

def exLoadData : LoadData ℚ where
  name := "load1"
  bus := some ("bus_7", some [1, 3])
  conn := some "Wye"
  kV := some (72 / 10)
  vmin := some (9 / 10)
  vmax := some (105 / 100)
  phases := some 2
  kW := some 4
  kVA := some 5
  pf := some (4 / 5)
  model := some 1

theorem exLoad_reports : Reports exLoadText exLoadData where
  enabled := rfl
  name := by decide +kernel
  bus := by
    intro b ns h
    injection h with h
    injection h with h1 h2
    subst h1
    have : ns = [1, 3] := by
      have h3 : List.map some [1, 3] = List.map some ns := h2
      exact ((Option.some_injective _).list_map h3).symm
    subst this
    exact ⟨"bus_7", by decide +kernel, rfl⟩
  conn := by
    intro c h
    injection h with h
    subst h
    exact ⟨"Wye", by decide +kernel, rfl⟩
  kV := fun v h => h
  vmin := fun v h => h
  vmax := fun v h => by cases h
  phases := fun v h => h
  model := fun v h => h
  kW := fun v h => h
  kVA := ⟨5, rfl⟩
  pf := by
    intro P Q h1 h2
    injection h1 with h1
    injection h2 with h2
    subst h1 h2
    exact ⟨4 / 5, rfl, by unfold PowerFactor; decide +kernel⟩
  zipv := rfl

/-- a square root of the one number needed in the example -/
def exRoot (x : ℚ) : ℚ := if x = 9 / 25 then 3 / 5 else 0

example : (readLoad exRoot exLoadData).map (Option.map fun r => (r.name, r.bus, r.conn)) = .ok (some ("load_load1", some "bus_7", some "Y")) ∧
    (readLoad exRoot exLoadData).map (Option.map fun r => r.phaseLoads.map fun x => (x.phase, x.p, x.q)) =
      .ok (some [(some "A", 2000, .val 1500), (some "C", 2000, .val 1500)]) := by
  constructor <;> decide +kernel

example : exLoad.phaseLoads ≠ some [] ∧ (∀ p ∈ exLoad.phaseLoads.getD [], ∃ ph ∈ ["A", "B", "C"], p.phase = some ph) ∧
    totalP (exLoad.phaseLoads.getD []) = 4000 ∧ totalQ (exLoad.phaseLoads.getD []) = 3000 := by
  refine ⟨?_, ?_, ?_, ?_⟩ <;> decide +kernel

/-- a delta load of one phase -/
def exDelta : DLoad ℚ where
  name := some "d"
  conn := some "D"
  bus := some "b"
  volt := some 240
  phaseLoads := some [{ phase := some "C", p := some 1000, q := some 0 }]

example : (writeLoad exDelta).map (fun t => (t.bus, t.phases, t.kW)) = some (some ("b", [some 3, some 1]), some 1, some 1) ∧
    loadPhases ({ name := "d", bus := some ("b", some [3, 1]), conn := some "delta", phases := some 1 } : LoadData ℚ) = [some "C"] := by
  constructor <;> decide +kernel

/-- Of a delta load below 300 V with three phases only the first phase is read. -/
theorem C52_delta_violated : ∃ l : DLoad ℚ, (writeLoad l).map (fun t => (t.bus, t.phases, t.conn)) = some (some ("b", [some 1, some 2, some 3]), some 1, some "delta") ∧
    loadPhases ({ name := "l", bus := some ("b", some [1, 2, 3]), conn := some "delta", phases := some 1 } : LoadData ℚ) = [some "A"] :=
  ⟨{ name := some "l", conn := some "D", bus := some "b", volt := some 240, phaseLoads := some [{ phase := some "A" }, { phase := some "B" }, { phase := some "C" }] },
    by decide +kernel, by decide +kernel⟩

/-- The secondary phases of ditto get the text "None" in the bus, which OpenDSS cannot read; the neutral gets 0, which is read as no phase. -/
theorem C52_phase_violated : (∃ l : DLoad ℚ, (writeLoad l).map (·.bus) = some (some ("b", [none]))) ∧ toDssPhase "N" = some 0 ∧ ofDssPhase 0 = none :=
  ⟨⟨{ name := some "l", bus := some "b", phaseLoads := some [{ phase := some "s1" }] }, by decide +kernel⟩, rfl, rfl⟩

end Ditto.Dss
