import Verif.Spec.SynLines
import Verif.Lemmas.SynLoads
import Verif.Props.SynCaps
import Mathlib.Tactic.Ring
import Mathlib.Tactic.NormNum
import Mathlib.Algebra.Field.Rat
import Mathlib.Algebra.Order.Field.Rat

/-! Lemmas on the lines of Synergi databases. -/
namespace Ditto.Syn
open Ditto Glm Syn.Spec

/-- factor of the scale for a kind of value -/
def factorOf (k : Scale) : Units.SynergiValueType → Option ℚ
  | .SUL => some k.short
  | .MUL => some k.medium
  | .Per_LUL => some k.perLong
  | .LUL => none

theorem lower_twice (t : Text) : lower (lower t) = lower t := by
  unfold lower
  rw [List.map_map]
  apply List.map_congr_left
  intro c _
  exact lowerChar_idem c

theorem ofList_eq {t : Text} {s : String} : String.ofList t = s ↔ t = s.toList := by
  constructor
  · rintro rfl; simp
  · rintro rfl; simp

theorem inMeters_of {u : Text} {k : Scale} (h : scaleOf u = some k) {t : Units.SynergiValueType} {f : ℚ} (hf : factorOf k t = some f) (x : ℚ) :
    inMeters (lower u) t x = .ok (x * f) := by
  unfold inMeters Units.convertLengthUnit Units.synergiFactor
  have hl : pyLower (String.ofList (lower u)) = String.ofList (lower u) := by
    unfold pyLower
    rw [String.toList_ofList]
    exact congrArg String.ofList (lower_twice u)
  simp only [hl, List.mem_cons, List.not_mem_nil, or_false, ofList_eq]
  have l1 : ("english2".toList).map Char.toLower = "english2".toList := by decide
  have l2 : ("english1".toList).map Char.toLower = "english1".toList := by decide
  have l3 : ("english".toList).map Char.toLower = "english".toList := by decide
  have l4 : ("metric".toList).map Char.toLower = "metric".toList := by decide
  have hlu : u.map Char.toLower = lower u := rfl
  simp only [scaleOf, Same, l1, l2, l3, l4, hlu] at h
  generalize lower u = v at h ⊢
  by_cases e1 : v = "english2".toList
  · subst e1
    rw [if_pos rfl] at h
    injection h with h
    subst h
    cases t <;> cases hf <;> simp
  · rw [if_neg e1] at h
    by_cases e2 : v = "english1".toList ∨ v = "english".toList
    · rw [if_pos e2] at h
      injection h with h
      subst h
      rcases e2 with rfl | rfl <;> cases t <;> cases hf <;> simp <;> norm_num
    · rw [if_neg e2] at h
      by_cases e3 : v = "metric".toList
      · subst e3
        rw [if_pos rfl] at h
        injection h with h
        subst h
        cases t <;> cases hf <;> simp
      · rw [if_neg e3] at h
        cases h

theorem inMeters_none {u : Text} (h : scaleOf u = none) (t : Units.SynergiValueType) (x : ℚ) : inMeters (lower u) t x = .error .valueError := by
  unfold inMeters Units.convertLengthUnit
  have hl : pyLower (String.ofList (lower u)) = String.ofList (lower u) := by
    unfold pyLower
    rw [String.toList_ofList]
    exact congrArg String.ofList (lower_twice u)
  simp only [hl, List.mem_cons, List.not_mem_nil, or_false, ofList_eq]
  have l1 : ("english2".toList).map Char.toLower = "english2".toList := by decide
  have l2 : ("english1".toList).map Char.toLower = "english1".toList := by decide
  have l3 : ("english".toList).map Char.toLower = "english".toList := by decide
  have l4 : ("metric".toList).map Char.toLower = "metric".toList := by decide
  have hlu : u.map Char.toLower = lower u := rfl
  simp only [scaleOf, Same, l1, l2, l3, l4, hlu] at h
  rw [if_pos]
  rintro (e | e | e | e) <;> rw [e] at h <;> simp at h

theorem inMeters_ok {u : Text} {t : Units.SynergiValueType} {x y : ℚ} (h : inMeters (lower u) t x = .ok y) : ∃ k, scaleOf u = some k := by
  cases hs : scaleOf u with
  | none => rw [inMeters_none hs] at h; cases h
  | some k => exact ⟨k, rfl⟩

theorem afterDash_ok {t b : Text} (h : afterDash t = some b) : ∃ a, t = a ++ '-' :: b ∧ '-' ∉ b := by
  unfold afterDash at h
  split at h
  case isFalse => cases h
  case isTrue hm =>
    injection h with h
    subst h
    have hd := List.takeWhile_append_dropWhile (p := fun c => decide (c ≠ '-')) (l := t.reverse)
    cases hc : t.reverse.dropWhile (fun c => decide (c ≠ '-')) with
    | nil =>
      rw [hc, List.append_nil] at hd
      have : '-' ∈ t.reverse.takeWhile (fun c => decide (c ≠ '-')) := by rw [hd]; exact List.mem_reverse.mpr hm
      have := List.mem_takeWhile_imp this
      simp at this
    | cons c l =>
      have hc0 : c = '-' := by
        have := List.head_dropWhile_not (p := fun c => decide (c ≠ '-')) (l := t.reverse) (by rw [hc]; simp)
        simp only [hc, List.head_cons] at this
        simpa using this
      subst hc0
      rw [hc] at hd
      refine ⟨l.reverse, ?_, ?_⟩
      · have := congrArg List.reverse hd
        rw [List.reverse_reverse, List.reverse_append, List.reverse_cons] at this
        rw [List.append_assoc] at this
        exact this.symm
      · intro hx
        have := List.mem_takeWhile_imp (List.mem_reverse.mp hx)
        simp at this

theorem lineVoltage_ok {num : Text → Option ℚ} {s : SecRow} {v : ℚ} (h : lineVoltage num (lowerSec s).description = .ok v) : Kv num s v := by
  unfold lineVoltage at h
  cases ha : afterDash (lowerSec s).description with
  | none => rw [ha] at h; cases h
  | some b =>
    rw [ha] at h
    dsimp only at h
    cases hn : num b with
    | none => rw [hn] at h; cases h
    | some x =>
      rw [hn] at h
      injection h with h
      obtain ⟨a, e, hb⟩ := afterDash_ok ha
      exact ⟨a, b, x, e, hb, hn, by rw [← h, mul_comm]⟩

theorem lineRows_eq (db : LineDb) : ((lowerLineDb db).lines.filter fun r => decide (r.sec.id ∉ (lowerLineDb db).skipped)) = (lineRows db).map lowerLine := by
  show ((db.lines.map lowerLine).filter fun r => decide (r.sec.id ∉ db.skipped.map lower)) = _
  unfold lineRows
  rw [List.filter_map]
  congr 1
  apply List.filter_congr
  intro r _
  show decide (lower r.sec.id ∉ db.skipped.map lower) = _
  rw [decide_eq_decide]
  constructor
  · intro h k hk e
    exact h (List.mem_map.mpr ⟨k, hk, e⟩)
  · intro h hm
    obtain ⟨k, hk, e⟩ := List.mem_map.mp hm
    exact h k hk e

theorem lineSecs_eq (db : LineDb) : (lowerLineDb db).lines.map (·.sec) = (db.lines.map (·.sec)).map lowerSec := by
  show (db.lines.map lowerLine).map (·.sec) = _
  rw [List.map_map, List.map_map]
  rfl

/-- the last row with a name is the only one with this name -/
theorem last_of {R : Type} {rows : List R} {low : R → R} {key : R → Text} (hk : ∀ r, key (low r) = lower (key r)) {n : Text} {c : R} (h1 : c ∈ rows)
    (h2 : Same (key c) n) (h3 : ∀ x ∈ rows, Same (key x) n → x = c) : ((rows.map low).reverse.find? fun x => key x = lower n) = some (low c) := by
  cases hf : (rows.map low).reverse.find? (fun x => key x = lower n) with
  | none =>
    rw [List.find?_eq_none] at hf
    have := hf (low c) (List.mem_reverse.mpr (List.mem_map_of_mem h1))
    rw [hk] at this
    exact absurd (decide_eq_true h2) this
  | some x =>
    have e1 := List.find?_some hf
    have e2 := List.mem_of_find?_eq_some hf
    obtain ⟨y, hy, rfl⟩ := List.mem_map.mp (List.mem_reverse.mp e2)
    rw [decide_eq_true_eq, hk] at e1
    rw [h3 y hy e1]

/-- the first row with a name is the only one with this name -/
theorem first_of {R : Type} {rows : List R} {low : R → R} {key : R → Text} (hk : ∀ r, key (low r) = lower (key r)) {n : Text} {c : R} (h1 : c ∈ rows)
    (h2 : Same (key c) n) (h3 : ∀ x ∈ rows, Same (key x) n → x = c) : ((rows.map low).find? fun x => key x = lower n) = some (low c) := by
  cases hf : (rows.map low).find? (fun x => key x = lower n) with
  | none =>
    rw [List.find?_eq_none] at hf
    have := hf (low c) (List.mem_map_of_mem h1)
    rw [hk] at this
    exact absurd (decide_eq_true h2) this
  | some x =>
    have e1 := List.find?_some hf
    have e2 := List.mem_of_find?_eq_some hf
    obtain ⟨y, hy, rfl⟩ := List.mem_map.mp e2
    rw [decide_eq_true_eq, hk] at e1
    rw [h3 y hy e1]

section
variable {num : Text → Option ℚ} {feeders subs : List (Text × Text)} {db : LineDb}

theorem linesFrom_ok : ∀ {cap : Option (Rows ℚ)} {rows : List LineRow} {ls : List SynLine}, linesFrom num feeders subs db cap rows = .ok ls →
    List.Forall₂ (fun r l => ∃ cap, readLine num feeders subs db cap r = .ok l) rows ls
  | _, [], ls, h => by
    injection h with h
    subst h
    exact .nil
  | cap, r :: rest, ls, h => by
    unfold linesFrom at h
    cases hr : readLine num feeders subs db cap r with
    | error e => rw [hr] at h; cases h
    | ok l =>
      rw [hr] at h
      dsimp only at h
      cases ht : linesFrom num feeders subs db (some l.capacitance) rest with
      | error e => rw [ht] at h; cases h
      | ok m =>
        rw [ht] at h
        injection h with h
        subst h
        exact .cons ⟨cap, hr⟩ (linesFrom_ok ht)

theorem linesFrom_of : ∀ {cap : Option (Rows ℚ)} {rows : List LineRow}, (∀ cap, ∀ r ∈ rows, ∃ l, readLine num feeders subs db cap r = .ok l) →
    ∃ ls, linesFrom num feeders subs db cap rows = .ok ls
  | _, [], _ => ⟨[], rfl⟩
  | cap, r :: rest, h => by
    obtain ⟨l, hl⟩ := h cap r List.mem_cons_self
    obtain ⟨ls, hls⟩ := linesFrom_of (cap := some l.capacitance) (rows := rest) fun cap x hx => h cap x (.tail _ hx)
    exact ⟨l :: ls, by unfold linesFrom; rw [hl]; dsimp only; rw [hls]⟩

theorem readLine_ok {cap : Option (Rows ℚ)} {r : LineRow} {l : SynLine} (h : readLine num feeders subs db cap r = .ok l) :
    ∃ length v e ws z c, inMeters db.units .MUL r.length = .ok length ∧ lineVoltage num r.sec.description = .ok v ∧ equipOf db r.sec.id = .ok e ∧
      wiresFrom db r e 0 (secPhases r.sec.phases) = .ok ws ∧ lineMatrices db cap r = .ok (z, c) ∧
      l = ⟨clean r.sec.id, find feeders r.sec.id, substationOf subs (find feeders r.sec.id), length, lineTypeOf r.note, clean r.sec.fromNode,
              clean r.sec.toNode, v, e.recloser, e.isSwitch, e.fuse, keptWires (lineTypeOf r.note) ws, z, c⟩ := by
  unfold readLine at h
  cases h1 : inMeters db.units .MUL r.length with
  | error e => rw [h1] at h; cases h
  | ok length =>
    rw [h1] at h
    dsimp only at h
    cases h2 : lineVoltage num r.sec.description with
    | error e => rw [h2] at h; cases h
    | ok v =>
      rw [h2] at h
      dsimp only at h
      cases h3 : equipOf db r.sec.id with
      | error e => rw [h3] at h; cases h
      | ok e =>
        rw [h3] at h
        dsimp only at h
        cases h4 : wiresFrom db r e 0 (secPhases r.sec.phases) with
        | error e => rw [h4] at h; cases h
        | ok ws =>
          rw [h4] at h
          dsimp only at h
          cases h5 : lineMatrices db cap r with
          | error e => rw [h5] at h; cases h
          | ok p =>
            obtain ⟨z, c⟩ := p
            rw [h5] at h
            injection h with h
            exact ⟨length, v, e, ws, z, c, rfl, rfl, rfl, h4, rfl, h.symm⟩

theorem wiresFrom_ok {r : LineRow} {e : Equip} : ∀ {idx : Nat} {ps : List Char} {ws : List SynWire}, wiresFrom db r e idx ps = .ok ws →
    ws.length = ps.length ∧ ∀ (i : Nat) w, ws[i]? = some w → ∃ p, ps[i]? = some p ∧ readWire db r e (idx + i) p = .ok w
  | idx, [], ws, h => by
    injection h with h
    subst h
    exact ⟨rfl, fun i w hw => by simp at hw⟩
  | idx, p :: ps, ws, h => by
    unfold wiresFrom at h
    cases hw : readWire db r e idx p with
    | error x => rw [hw] at h; cases h
    | ok w =>
      rw [hw] at h
      dsimp only at h
      cases hr : wiresFrom db r e (idx + 1) ps with
      | error x => rw [hr] at h; cases h
      | ok m =>
        rw [hr] at h
        injection h with h
        subst h
        obtain ⟨h1, h2⟩ := wiresFrom_ok hr
        refine ⟨by simp [h1], fun i x hx => ?_⟩
        cases i with
        | zero =>
          injection hx with hx
          subst hx
          exact ⟨p, rfl, hw⟩
        | succ i =>
          obtain ⟨q, hq, hq2⟩ := h2 i x hx
          exact ⟨q, hq, by rw [← hq2, Nat.add_right_comm, Nat.add_assoc]⟩

theorem wiresFrom_of {r : LineRow} {e : Equip} : ∀ {idx : Nat} {ps : List Char}, (∀ (i : Nat) p, ps[i]? = some p → ∃ w, readWire db r e (idx + i) p = .ok w) →
    ∃ ws, wiresFrom db r e idx ps = .ok ws
  | _, [], _ => ⟨[], rfl⟩
  | idx, p :: ps, h => by
    obtain ⟨w, hw⟩ := h 0 p rfl
    obtain ⟨ws, hws⟩ := wiresFrom_of (idx := idx + 1) (ps := ps) (fun i q hq => by
      obtain ⟨x, hx⟩ := h (i + 1) q hq
      exact ⟨x, by rw [← hx, Nat.add_right_comm, Nat.add_assoc]⟩)
    exact ⟨w :: ws, by unfold wiresFrom; rw [show readWire db r e idx p = .ok w from hw]; dsimp only; rw [hws]⟩

/-- the wire before the values of the conductor -/
def bareWire (db : LineDb) (r : LineRow) (e : Equip) (v : Option ℚ × Option ℚ × Option ℚ × Option Bool) (name : Text) (idx : Nat) (phase : Char) : SynWire :=
  ⟨phase, e.recloser, e.isSwitch, e.fuse, v.1, v.2.1, v.2.2.1, v.2.2.2, (positionOf (configOf db.confs r.config) idx phase).map (·.1),
    (positionOf (configOf db.confs r.config) idx phase).map fun p => r.height + p.2, wirePrefix (lineTypeOf r.note) ++ unblank name, none, none, none, none⟩

theorem readWire_ok {r : LineRow} {e : Equip} {idx : Nat} {phase : Char} {w : SynWire} (h : readWire db r e idx phase = .ok w) :
    ∃ v name, wireValues e = .ok v ∧ wireConductor r idx phase = some name ∧
      (conductorOf db.conds name = none ∧ w = bareWire db r e v name idx phase ∨
        ∃ c, conductorOf db.conds name = some c ∧ withConductor db.units c (bareWire db r e v name idx phase) = .ok w) := by
  unfold readWire at h
  cases h1 : wireValues e with
  | error x => rw [h1] at h; cases h
  | ok v =>
    obtain ⟨v1, v2, v3, v4⟩ := v
    rw [h1] at h
    dsimp only at h
    cases h2 : wireConductor r idx phase with
    | none => rw [h2] at h; cases h
    | some name =>
      rw [h2] at h
      dsimp only at h
      refine ⟨_, name, rfl, rfl, ?_⟩
      cases h3 : conductorOf db.conds name with
      | none =>
        rw [h3] at h
        injection h with h
        exact .inl ⟨rfl, h.symm⟩
      | some c =>
        rw [h3] at h
        exact .inr ⟨c, rfl, h⟩

theorem withConductor_ok {u : Text} {c : CondRow} {w w' : SynWire} (h : withConductor (lower u) c w = .ok w') : ∃ k, scaleOf u = some k ∧
    w' = { w with
      gmr := some (c.gmr * k.medium)
      diameter := some (c.diameter * k.short)
      ampacity := some (w.ampacity.getD c.continuous)
      emergency := some (w.emergency.getD c.interrupt)
      resistance := some (c.resistance * k.perLong)
      concentric := concentricOf c } := by
  cases hs : scaleOf u with
  | none =>
    unfold withConductor at h
    rw [inMeters_none hs] at h
    cases h
  | some k =>
    unfold withConductor at h
    rw [inMeters_of hs rfl, inMeters_of hs rfl, inMeters_of hs rfl] at h
    injection h with h
    exact ⟨k, rfl, h.symm⟩

theorem withConductor_of {u : Text} {k : Scale} (hs : scaleOf u = some k) (c : CondRow) (w : SynWire) : ∃ w', withConductor (lower u) c w = .ok w' := by
  unfold withConductor
  rw [inMeters_of hs rfl, inMeters_of hs rfl, inMeters_of hs rfl]
  exact ⟨_, rfl⟩

end
end Ditto.Syn
