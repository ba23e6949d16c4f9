import Verif.Model.DssPVs
import Mathlib.Algebra.Order.Field.Basic
import Mathlib.Data.List.Induction
import Mathlib.Tactic.Linarith
import Mathlib.Tactic.Ring
import Mathlib.Algebra.Order.Ring.Rat
import Mathlib.Algebra.Field.Rat

/-! C68: PV systems in OpenDSS files. -/
namespace Ditto.Dss
open Ditto

section
variable {K : Type} [Field K] [LinearOrder K]

/-- What is written for a PV system. -/
theorem C68_values [IsStrictOrderedRing K] (nv : Option String → Py (Option K)) (p : DPV K) (t : PVText K) (h : pvText nv p = .ok t) :
    t.name = p.name ∧ (∀ b, p.bus = some b → ∃ ns, t.bus = some (cleanName b, ns) ∧ ∀ ps, p.phases = some ps → ns = ps.map toDssPhase) ∧
    (∀ v, p.volt = some v → t.kV = some (v / 1000)) ∧ (∀ v, p.volt = none → nv p.bus = .ok v → t.kV = v.map (· / 1000)) ∧
    (∀ a, p.activeRating = some a → p.pf = none → t.kVA = some (a / 1000)) ∧ (∀ a f, p.activeRating = some a → p.pf = some f → t.kVA = some (a / |f| / 1000)) ∧
    (∀ r, p.ratedPower = some r → t.pmpp = some (r / 1000)) ∧ (∀ q, p.reactiveRating = some q → t.kvarmax = some (q / 1000)) ∧
    (p.conn = some "D" → t.conn = some "delta") ∧ (p.conn = some "Y" → t.conn = some "wye") ∧ (p.conn = none → t.conn = none) ∧ t.limits = p.limits ∧
    (∀ f, p.control = none → p.pf = some f → t.model = some (.powerFactor f)) ∧ (p.control = some "voltvar" → t.model = some .kvarZero) ∧
    (p.control = some "voltwatt" → t.model = some .kvarZero) := by
  unfold pvText at h
  split at h
  · exact absurd h (by simp)
  · rename_i v hv
    split at h
    · exact absurd h (by simp)
    · rename_i kva hk
      split at h
      · exact absurd h (by simp)
      · rename_i c hc
        obtain rfl := Except.ok.inj h
        refine ⟨rfl, fun b hb => ⟨(p.phases.getD []).map toDssPhase, by simp [pvBus, hb], fun ps hps => by rw [hps]; rfl⟩, fun x hx => ?_, fun x hx hn => ?_, fun a ha hp => ?_, fun a f ha hp => ?_, fun r hr => by simp [pvPmpp, hr],
          fun q hq => by simp [hq], fun hd => ?_, fun hd => ?_, fun hd => ?_, rfl, fun f hn hf => by simp [pvModel, hn, hf], fun hn => by simp [pvModel, hn],
          fun hn => by simp [pvModel, hn]⟩
        · unfold pvVolt at hv; rw [hx] at hv
          obtain rfl := Except.ok.inj hv
          rfl
        · unfold pvVolt at hv; rw [hx] at hv
          simp only at hv
          rw [hn] at hv
          obtain rfl := Except.ok.inj hv
          rfl
        · unfold pvKVA at hk; rw [ha, hp] at hk
          simp at hk
          exact hk.symm
        · unfold pvKVA at hk; rw [ha, hp] at hk
          simp only [Option.some.injEq, Option.getD_some] at hk
          split at hk
          · exact absurd hk (by simp)
          · exact (Except.ok.inj hk).symm
        · rw [hd] at hc; exact (Except.ok.inj hc).symm
        · rw [hd] at hc; exact (Except.ok.inj hc).symm
        · rw [hd] at hc; exact (Except.ok.inj hc).symm

/-- When a PV system can be written: it has a voltage or its bus can be looked up, its power factor is not zero if it has a rating, and its
connection is wye, delta or unknown. -/
theorem C68_written (nv : Option String → Py (Option K)) (p : DPV K) : (∃ t, pvText nv p = .ok t) ↔
    ((p.volt ≠ none ∨ ∃ v, nv p.bus = .ok v) ∧ (p.activeRating ≠ none → p.pf ≠ some 0) ∧ (p.conn = none ∨ p.conn = some "D" ∨ p.conn = some "Y")) := by
  have h1 : (∃ v, pvVolt nv p = .ok v) ↔ (p.volt ≠ none ∨ ∃ v, nv p.bus = .ok v) := by
    unfold pvVolt
    cases p.volt <;> simp
  have h2 : (∃ v, pvKVA p = .ok v) ↔ (p.activeRating ≠ none → p.pf ≠ some 0) := by
    unfold pvKVA
    cases p.activeRating with
    | none => simp
    | some a =>
      simp only
      split <;> simp [*]
  have h3 : (∃ v, pvConn p.conn = .ok v) ↔ (p.conn = none ∨ p.conn = some "D" ∨ p.conn = some "Y") := by
    unfold pvConn
    cases p.conn with
    | none => simp
    | some c =>
      simp only
      split
      · simp [*]
      · split <;> simp [*]
  rw [← h1, ← h2, ← h3]
  unfold pvText
  cases pvVolt nv p with
  | error e => simp
  | ok v =>
    cases pvKVA p with
    | error e => simp
    | ok k =>
      cases pvConn p.conn with
      | error e => simp
      | ok c => simp

/-- A PV system of 300 V or more is written with three phases, however many it has. -/
theorem C68_phases_violated (nv : Option String → Py (Option K)) (p : DPV K) (t : PVText K) (h : pvText nv p = .ok t) (v : K) (hv : p.volt = some v)
    (h300 : ¬ v < 300) (ps : List String) (hp : p.phases = some ps) (b : String) (hb : p.bus = some b) :
    t.phases = some 3 ∧ ∃ ns, t.bus = some (cleanName b, ns) ∧ ns.length = ps.length := by
  unfold pvText pvVolt at h
  rw [hv] at h
  simp only at h
  split at h
  · exact absurd h (by simp)
  · split at h
    · exact absurd h (by simp)
    · obtain rfl := Except.ok.inj h
      simp [pvPhases, pvBus, hb, hp, h300]

/-- The voltage base of a feeder is twice the one of the network for voltages under 300 V. -/
theorem C68_bases_violated [IsStrictOrderedRing K] (v : K) (hv : v < 300) (h0 : v ≠ 0) : (pvBases v).2 = 2 * (pvBases v).1 ∧ (pvBases v).2 ≠ (pvBases v).1 := by
  unfold pvBases
  rw [if_pos hv]
  have : v * 2 / 1000 = 2 * (v / 1000) := by ring
  refine ⟨this, fun h => ?_⟩
  have h : v * 2 / 1000 = v / 1000 := h
  rw [this] at h
  have : v / 1000 = 0 := by linarith
  rcases div_eq_zero_iff.1 this with h | h
  · exact h0 h
  · exact absurd h (by norm_num)

end

/-! ### Controls -/

theorem mem_addName {a n : Option String} {l : List (Option String)} : a ∈ addName n l ↔ a = n ∨ a ∈ l := by
  unfold addName
  split
  · constructor
    · exact Or.inr
    · rintro (rfl | h)
      · assumption
      · exact h
  · simp [or_comm]

theorem nodup_addName {n : Option String} {l : List (Option String)} (h : l.Nodup) : (addName n l).Nodup := by
  unfold addName
  split
  · exact h
  · rename_i hn
    refine List.nodup_append.2 ⟨h, List.nodup_singleton _, fun a ha b hb => ?_⟩
    rw [List.mem_singleton] at hb
    rintro rfl
    exact hn (hb ▸ ha)

theorem sets_eq {K : Type} (ps : List (DPV K)) : ((∀ n, n ∈ (ps.foldl addPV {}).voltvar ↔ ∃ p ∈ ps, p.control = some "voltvar" ∧ p.name = n) ∧
    (∀ n, n ∈ (ps.foldl addPV {}).voltwatt ↔ ∃ p ∈ ps, p.control = some "voltwatt" ∧ p.name = n) ∧
    (∀ n, n ∈ (ps.foldl addPV {}).both ↔ ∃ p, ps.getLast? = some p ∧ p.control = some "voltwatt_voltvar" ∧ p.name = n)) ∧
    (ps.foldl addPV {}).voltvar.Nodup ∧ (ps.foldl addPV {}).voltwatt.Nodup ∧ (ps.foldl addPV {}).both.Nodup := by
  induction ps using List.reverseRecOn with
  | nil => simp
  | append_singleton ps p ih =>
    obtain ⟨⟨h1, h2, h3⟩, n1, n2, n3⟩ := ih
    rw [List.foldl_append, List.foldl_cons, List.foldl_nil]
    generalize ps.foldl addPV {} = st at h1 h2 h3 n1 n2 n3 ⊢
    refine ⟨⟨fun n => ?_, fun n => ?_, fun n => ?_⟩, ?_, ?_, ?_⟩
    · unfold addPV
      simp only
      split
      · rename_i hc
        rw [mem_addName, h1]
        constructor
        · rintro (rfl | ⟨p', hp', h⟩)
          · exact ⟨p, by simp, hc, rfl⟩
          · exact ⟨p', by simp [hp'], h⟩
        · rintro ⟨p', hp', h, rfl⟩
          rcases List.mem_append.1 hp' with hp' | hp'
          · exact Or.inr ⟨p', hp', h, rfl⟩
          · rw [List.mem_singleton.1 hp']; exact Or.inl rfl
      · rename_i hc
        rw [h1]
        constructor
        · rintro ⟨p', hp', h⟩
          exact ⟨p', by simp [hp'], h⟩
        · rintro ⟨p', hp', h, hn⟩
          rcases List.mem_append.1 hp' with hp' | hp'
          · exact ⟨p', hp', h, hn⟩
          · rw [List.mem_singleton.1 hp'] at h; exact absurd h hc
    · unfold addPV
      simp only
      split
      · rename_i hc
        rw [mem_addName, h2]
        constructor
        · rintro (rfl | ⟨p', hp', h⟩)
          · exact ⟨p, by simp, hc, rfl⟩
          · exact ⟨p', by simp [hp'], h⟩
        · rintro ⟨p', hp', h, rfl⟩
          rcases List.mem_append.1 hp' with hp' | hp'
          · exact Or.inr ⟨p', hp', h, rfl⟩
          · rw [List.mem_singleton.1 hp']; exact Or.inl rfl
      · rename_i hc
        rw [h2]
        constructor
        · rintro ⟨p', hp', h⟩
          exact ⟨p', by simp [hp'], h⟩
        · rintro ⟨p', hp', h, hn⟩
          rcases List.mem_append.1 hp' with hp' | hp'
          · exact ⟨p', hp', h, hn⟩
          · rw [List.mem_singleton.1 hp'] at h; exact absurd h hc
    · unfold addPV
      simp only [List.getLast?_append, List.getLast?_singleton, Option.some_or, Option.some.injEq]
      split
      · rename_i hc
        rw [List.mem_singleton]
        constructor
        · rintro rfl; exact ⟨p, rfl, hc, rfl⟩
        · rintro ⟨p', rfl, -, rfl⟩; rfl
      · rename_i hc
        constructor
        · intro h; exact absurd h List.not_mem_nil
        · rintro ⟨p', rfl, h, -⟩; exact absurd h hc
    · unfold addPV
      simp only
      split
      · exact nodup_addName n1
      · exact n1
    · unfold addPV
      simp only
      split
      · exact nodup_addName n2
      · exact n2
    · unfold addPV
      simp only
      split
      · exact List.nodup_singleton _
      · exact List.nodup_nil

theorem mem_voltvarPart {s : PVSets} {x : InvPiece} : x ∈ voltvarPart s ↔ s.voltwatt = [] ∧ s.voltvar ≠ [] ∧ (x = .voltvarCurve ∨ ∃ n ∈ s.voltvar, x = .voltvar n) := by
  unfold voltvarPart
  split
  · rename_i h
    simp [h, eq_comm]
  · rename_i h
    simp only [List.not_mem_nil, false_iff]
    rintro ⟨h1, h2, -⟩
    exact h ⟨h2, h1⟩

theorem mem_voltwattPart {s : PVSets} {x : InvPiece} : x ∈ voltwattPart s ↔ s.voltwatt ≠ [] ∧ (x = .voltwattCurve ∨ (∃ n ∈ s.voltwatt, x = .voltwatt n) ∨ x = .bracket) := by
  unfold voltwattPart
  split
  · rename_i h
    simp [h, eq_comm]
  · rename_i h
    simp only [List.not_mem_nil, false_iff]
    rintro ⟨h1, -⟩
    exact h h1

theorem mem_bothPart {s : PVSets} {x : InvPiece} : x ∈ bothPart s ↔ s.both ≠ [] ∧ ((s.voltvar = [] ∧ x = .voltvarCurve) ∨ (s.voltwatt = [] ∧ x = .voltwattCurve) ∨
    ∃ n ∈ s.both, x = .both n) := by
  unfold bothPart
  split
  · rename_i h
    by_cases h1 : s.voltvar = [] <;> by_cases h2 : s.voltwatt = [] <;> simp [h, h1, h2, eq_comm]
  · rename_i h
    simp only [List.not_mem_nil, false_iff]
    rintro ⟨h1, -⟩
    exact h h1

theorem mem_pvControls {K : Type} {ps : List (DPV K)} {x : InvPiece} : x ∈ pvControls ps ↔
    x ∈ voltvarPart (ps.foldl addPV {}) ∨ x ∈ voltwattPart (ps.foldl addPV {}) ∨ x ∈ bothPart (ps.foldl addPV {}) := by
  unfold pvControls
  rw [List.mem_append, List.mem_append, or_assoc]

theorem voltwatt_nil {K : Type} {ps : List (DPV K)} : (ps.foldl addPV {}).voltwatt = [] ↔ ∀ p ∈ ps, p.control ≠ some "voltwatt" := by
  rw [List.eq_nil_iff_forall_not_mem]
  constructor
  · intro h p hp hc
    exact h p.name (((sets_eq ps).1.2.1 _).2 ⟨p, hp, hc, rfl⟩)
  · intro h n hn
    obtain ⟨p, hp, hc, -⟩ := ((sets_eq ps).1.2.1 n).1 hn
    exact h p hp hc

theorem voltvar_nil {K : Type} {ps : List (DPV K)} : (ps.foldl addPV {}).voltvar = [] ↔ ∀ p ∈ ps, p.control ≠ some "voltvar" := by
  rw [List.eq_nil_iff_forall_not_mem]
  constructor
  · intro h p hp hc
    exact h p.name (((sets_eq ps).1.1 _).2 ⟨p, hp, hc, rfl⟩)
  · intro h n hn
    obtain ⟨p, hp, hc, -⟩ := ((sets_eq ps).1.1 n).1 hn
    exact h p hp hc

/-- Exactly the PV systems with the control volt-watt get such a control, and each name one. -/
theorem C68_voltwatt {K : Type} (ps : List (DPV K)) (n : Option String) :
    (InvPiece.voltwatt n ∈ pvControls ps ↔ ∃ p ∈ ps, p.control = some "voltwatt" ∧ p.name = n) ∧ (pvControls ps).count (.voltwatt n) ≤ 1 := by
  constructor
  · rw [mem_pvControls, mem_voltvarPart, mem_voltwattPart, mem_bothPart, ← (sets_eq ps).1.2.1 n]
    simp only [reduceCtorEq, InvPiece.voltwatt.injEq, false_and, and_false, exists_false, or_false, false_or, exists_eq_right']
    constructor
    · exact fun h => h.2
    · exact fun h => ⟨List.ne_nil_of_mem h, h⟩
  · have h1 : (voltvarPart (ps.foldl addPV {})).count (.voltwatt n) = 0 := List.count_eq_zero.2 fun h => by
      have := mem_voltvarPart.1 h
      simp at this
    have h3 : (bothPart (ps.foldl addPV {})).count (.voltwatt n) = 0 := List.count_eq_zero.2 fun h => by
      have := mem_bothPart.1 h
      simp at this
    unfold pvControls
    rw [List.count_append, List.count_append, h1, h3]
    unfold voltwattPart
    split
    · have hinj : Function.Injective InvPiece.voltwatt := fun a b h => InvPiece.voltwatt.inj h
      have : (((ps.foldl addPV {}).voltwatt.map InvPiece.voltwatt).count (.voltwatt n)) ≤ 1 :=
        List.nodup_iff_count_le_one.1 ((sets_eq ps).2.2.1.map hinj) _
      rw [List.cons_append, List.count_cons_of_ne (by simp), List.count_append, List.count_singleton]
      simpa using this
    · simp

/-- In a feeder without volt-watt, exactly the PV systems with the control volt-var get such a control, with the curve it refers to. -/
theorem C68_voltvar_partial {K : Type} (ps : List (DPV K)) (n : Option String) (hw : ∀ p ∈ ps, p.control ≠ some "voltwatt") :
    (InvPiece.voltvar n ∈ pvControls ps ↔ ∃ p ∈ ps, p.control = some "voltvar" ∧ p.name = n) ∧
    (InvPiece.voltvar n ∈ pvControls ps → InvPiece.voltvarCurve ∈ pvControls ps) := by
  have hw' := voltwatt_nil.2 hw
  constructor
  · rw [mem_pvControls, mem_voltvarPart, mem_voltwattPart, mem_bothPart, ← (sets_eq ps).1.1 n]
    simp only [reduceCtorEq, InvPiece.voltvar.injEq, false_and, and_false, exists_false, or_false, false_or, exists_eq_right']
    constructor
    · exact fun h => h.2.2
    · exact fun h => ⟨hw', List.ne_nil_of_mem h, h⟩
  · rw [mem_pvControls, mem_pvControls]
    rintro (h | h | h)
    · obtain ⟨h1, h2, -⟩ := mem_voltvarPart.1 h
      exact Or.inl (mem_voltvarPart.2 ⟨h1, h2, Or.inl rfl⟩)
    · have := mem_voltwattPart.1 h
      simp at this
    · have := mem_bothPart.1 h
      simp at this

/-- In a feeder with a volt-watt PV system, no PV system gets a volt-var control. -/
theorem C68_voltvar_violated {K : Type} (ps : List (DPV K)) (hw : ∃ p ∈ ps, p.control = some "voltwatt") (n : Option String) :
    InvPiece.voltvar n ∉ pvControls ps := by
  rw [mem_pvControls, mem_voltvarPart, mem_voltwattPart, mem_bothPart]
  simp only [reduceCtorEq, InvPiece.voltvar.injEq, false_and, and_false, exists_false, or_false, false_or, not_and]
  intro h
  obtain ⟨p, hp, hc⟩ := hw
  exact absurd hc (voltwatt_nil.1 h p hp)

/-- Only the last PV system of a feeder can get both controls. -/
theorem C68_both_violated {K : Type} (ps : List (DPV K)) (n : Option String) :
    InvPiece.both n ∈ pvControls ps ↔ ∃ p, ps.getLast? = some p ∧ p.control = some "voltwatt_voltvar" ∧ p.name = n := by
  rw [mem_pvControls, mem_voltvarPart, mem_voltwattPart, mem_bothPart, ← (sets_eq ps).1.2.2 n]
  simp only [reduceCtorEq, InvPiece.both.injEq, and_false, exists_false, or_false, false_or, exists_eq_right']
  constructor
  · exact fun h => h.2
  · exact fun h => ⟨List.ne_nil_of_mem h, h⟩

/-- In a feeder with PV systems of all three kinds, the last of which has both, the control refers to a volt-var curve that is not there. -/
theorem C68_curve_violated {K : Type} (ps : List (DPV K)) (hv : ∃ p ∈ ps, p.control = some "voltvar") (hw : ∃ p ∈ ps, p.control = some "voltwatt")
    (p : DPV K) (hl : ps.getLast? = some p) (hp : p.control = some "voltwatt_voltvar") :
    InvPiece.both p.name ∈ pvControls ps ∧ InvPiece.voltvarCurve ∉ pvControls ps := by
  refine ⟨(C68_both_violated ps p.name).2 ⟨p, hl, hp, rfl⟩, ?_⟩
  rw [mem_pvControls, mem_voltvarPart, mem_voltwattPart, mem_bothPart]
  obtain ⟨a, ha, hca⟩ := hv
  obtain ⟨b, hb, hcb⟩ := hw
  have h1 : (ps.foldl addPV {}).voltvar ≠ [] := fun h => voltvar_nil.1 h a ha hca
  have h2 : (ps.foldl addPV {}).voltwatt ≠ [] := fun h => voltwatt_nil.1 h b hb hcb
  simp [h1, h2]

/-- The controls of a feeder with a volt-watt PV system contain a bracket that closes nothing. -/
theorem C68_bracket_violated {K : Type} (ps : List (DPV K)) : InvPiece.bracket ∈ pvControls ps ↔ ∃ p ∈ ps, p.control = some "voltwatt" := by
  rw [mem_pvControls, mem_voltvarPart, mem_voltwattPart, mem_bothPart]
  simp only [reduceCtorEq, and_false, exists_false, or_false, false_or, or_true, and_true]
  rw [← not_iff_not, not_not, voltwatt_nil]
  simp

/-- The curve of the volt-watt controls and of both controls is always there. -/
theorem C68_voltwatt_curve {K : Type} (ps : List (DPV K)) (n : Option String) (h : InvPiece.voltwatt n ∈ pvControls ps ∨ InvPiece.both n ∈ pvControls ps) :
    InvPiece.voltwattCurve ∈ pvControls ps := by
  rw [mem_pvControls, mem_voltwattPart, mem_bothPart]
  by_cases hw : (ps.foldl addPV {}).voltwatt = []
  · right; right
    rcases h with h | h
    · have := ((C68_voltwatt ps n).1).1 h
      obtain ⟨p, hp, hc, -⟩ := this
      exact absurd hc (voltwatt_nil.1 hw p hp)
    · rw [C68_both_violated, ← (sets_eq ps).1.2.2 n] at h
      exact ⟨List.ne_nil_of_mem h, Or.inr (Or.inl ⟨hw, rfl⟩)⟩
  · exact Or.inr (Or.inl ⟨hw, Or.inl rfl⟩)

/-! ### Examples -/

def exPV : DPV ℚ where
  name := some "pv"
  bus := some "b.1"
  phases := some ["A"]
  volt := some 2400
  activeRating := some 8000
  pf := some (4 / 5)
  conn := some "Y"
  control := some "voltvar"

example : pvText (fun _ => .error .keyError) exPV = .ok
    { name := some "pv", bus := some ("b_1", [some 1]), phases := some 3, kV := some (12 / 5), kVA := some 10, pmpp := some (176 / 25),
      conn := some "wye", model := some .kvarZero } := by decide +kernel

example : pvControls [exPV, { exPV with name := some "w", control := some "voltwatt" }, { exPV with name := some "x", control := some "voltwatt_voltvar" },
    { exPV with name := some "y", control := some "voltwatt_voltvar" }] = [.voltwattCurve, .voltwatt (some "w"), .bracket, .both (some "y")] := by decide +kernel

example : pvControls [exPV, { exPV with name := some "x", control := some "voltwatt_voltvar" }] =
    [.voltvarCurve, .voltvar (some "pv"), .voltwattCurve, .both (some "x")] := by decide +kernel

end Ditto.Dss
