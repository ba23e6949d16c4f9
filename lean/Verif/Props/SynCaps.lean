import Verif.Spec.SynCaps
import Verif.Lemmas.SynLoads
import Verif.Lemmas.GlmCaps
import Mathlib.Algebra.Field.Rat
import Mathlib.Tactic.NormNum

/-! C94: capacitors of Synergi databases. -/
namespace Ditto.Syn
open Ditto Glm Syn.Spec

theorem upper_lower (t : Text) : upper (lower t) = t.map Char.toUpper := by
  unfold upper lower
  rw [List.map_map]
  exact List.map_congr_left fun c _ => upperLower c

section
variable {K : Type} [Field K] [DecidableEq K] {db : CapDb K} {cs : List (SynCap K)}

theorem phaseCapsFrom_ok {q : List K} : ∀ {t : Nat} {cs : List Char} {l : List (Char × K)}, phaseCapsFrom q t cs = .ok l →
    l.map (·.1) = cs ∧ ∀ i c x, l[i]? = some (c, x) → ∃ y, q[t + i]? = some y ∧ x = y * 1000
  | t, [], l, h => by
    injection h with h
    subst h
    exact ⟨rfl, fun i c x hx => by simp at hx⟩
  | t, c :: cs, l, h => by
    unfold phaseCapsFrom at h
    cases hq : q[t]? with
    | none => rw [hq] at h; cases h
    | some y =>
      rw [hq] at h
      dsimp only at h
      cases hr : phaseCapsFrom q (t + 1) cs with
      | error e => rw [hr] at h; cases h
      | ok l' =>
        rw [hr] at h
        injection h with h
        subst h
        obtain ⟨h1, h2⟩ := phaseCapsFrom_ok hr
        refine ⟨by rw [List.map_cons, h1], fun i c' x hx => ?_⟩
        cases i with
        | zero =>
          simp only [List.getElem?_cons_zero, Option.some.injEq, Prod.mk.injEq] at hx
          exact ⟨y, hq, hx.2.symm⟩
        | succ i =>
          rw [List.getElem?_cons_succ] at hx
          obtain ⟨z, hz, e⟩ := h2 i c' x hx
          exact ⟨z, by rw [← hz]; congr 1; omega, e⟩

theorem phaseCapsFrom_of {q : List K} : ∀ {t : Nat} {cs : List Char}, t + cs.length ≤ q.length → ∃ l, phaseCapsFrom q t cs = .ok l
  | t, [], _ => ⟨[], rfl⟩
  | t, c :: cs, h => by
    rw [List.length_cons] at h
    obtain ⟨l, hl⟩ := phaseCapsFrom_of (q := q) (t := t + 1) (cs := cs) (by omega)
    unfold phaseCapsFrom
    rw [List.getElem?_eq_getElem (by omega)]
    dsimp only
    rw [hl]
    exact ⟨_, rfl⟩

theorem phaseCapsFrom_error {q : List K} : ∀ {t : Nat} {cs : List Char}, t ≤ q.length → q.length < t + cs.length → phaseCapsFrom q t cs = .error .indexError
  | t, [], h, h2 => by rw [List.length_nil] at h2; omega
  | t, c :: cs, h, h2 => by
    rw [List.length_cons] at h2
    unfold phaseCapsFrom
    by_cases ht : t < q.length
    · rw [List.getElem?_eq_getElem ht]
      dsimp only
      rw [phaseCapsFrom_error (by omega) (by omega)]
    · rw [List.getElem?_eq_none (by omega)]

theorem capPhases_eq (r : CapRow K) : capPhases (lowerCap r).phases = capLetters r := by
  unfold capPhases capLetters lowerCap
  dsimp only
  rw [upper_lower]
  cases r.phases with
  | nil => rfl
  | cons c t => rfl

theorem capKvar_lower (r : CapRow K) : capKvar (lowerCap r) = capKvar r := rfl

/-- the row is read, or it has more than three characters as phases -/
theorem readCap_eq (feeders subs : List (Text × Text)) (secs : List SecRow) (r : CapRow K) :
    ((capLetters r).length ≤ 3 ∧ ∃ c, readCap feeders subs secs (lowerCap r) = .ok c) ∨
      (3 < (capLetters r).length ∧ readCap feeders subs secs (lowerCap r) = .error .indexError) := by
  unfold readCap
  rw [capPhases_eq]
  by_cases h : (capLetters r).length ≤ 3
  · obtain ⟨l, hl⟩ := phaseCapsFrom_of (q := capKvar (lowerCap r)) (t := 0) (cs := capLetters r) (by simpa [capKvar] using h)
    rw [hl]
    exact .inl ⟨h, _, rfl⟩
  · rw [phaseCapsFrom_error (by simp) (by simp [capKvar]; omega)]
    exact .inr ⟨by omega, rfl⟩

theorem letter_kvar (r : CapRow K) {i : Nat} {c : Char} {y : K} (hp : capLetters r <+: ['A', 'B', 'C']) (hc : (capLetters r)[i]? = some c)
    (hy : (capKvar r)[i]? = some y) : y = phaseKvar r c := by
  obtain ⟨rest, hr⟩ := hp
  have hi : i < (capLetters r).length := (List.getElem?_eq_some_iff.mp hc).1
  have : (['A', 'B', 'C'] : List Char)[i]? = some c := by
    rw [← hr, List.getElem?_append_left hi]
    exact hc
  unfold capKvar at hy
  match i, this, hy with
  | 0, h, hy => injection h with h; injection hy with hy; subst h; subst hy; simp only [phaseKvar, ite_not]
  | 1, h, hy => injection h with h; injection hy with hy; subst h; subst hy; simp only [phaseKvar, ite_not]
  | 2, h, hy => injection h with h; injection hy with hy; subst h; subst hy; simp only [phaseKvar, ite_not]
  | n + 3, h, hy => cases h

theorem firstSec_of {secs : List SecRow} (hn : ((secs.map lowerSec).map (·.id)).Nodup) {s : SecRow} (hs : s ∈ secs) {n : Text} (e : Same s.id n) :
    firstSection (secs.map lowerSec) (lower n) = some (lowerSec s) := by
  have h := firstSection_of hn (List.mem_map_of_mem (f := lowerSec) hs)
  have e' : lower s.id = lower n := e
  rw [← e']
  exact h

theorem firstSec_none {secs : List SecRow} {n : Text} (h : ∀ s ∈ secs, ¬Same s.id n) : firstSection (secs.map lowerSec) (lower n) = none := by
  rw [firstSection_none]
  intro t ht
  obtain ⟨t', ht', rfl⟩ := List.mem_map.mp ht
  exact h t' ht'

theorem feeder_of {secs : List SecRow} {feeders : List (Text × Text)} (hf : sectionFeeders (secs.map lowerSec) = .ok feeders) {s : SecRow} (hs : s ∈ secs)
    {n : Text} (e : Same s.id n) : find feeders (lower n) = some (shown s.feeder) := by
  have h := (sectionFeeders_ok hf).2 _ (List.mem_map_of_mem (f := lowerSec) hs)
  have e' : lower s.id = lower n := e
  rw [← e', ← unblank_lower]
  exact h

theorem readCaps_ok (h : readCaps db = .ok cs) : ∃ feeders, sectionFeeders (db.secs.map lowerSec) = .ok feeders ∧
    List.Forall₂ (fun r c => readCap feeders (feederSubstations (db.feederTable.map fun f => (lower f.1, lower f.2))) (db.secs.map lowerSec)
      (lowerCap r) = .ok c) db.caps cs := by
  unfold readCaps at h
  cases hf : sectionFeeders (db.secs.map lowerSec) with
  | error e => rw [hf] at h; cases h
  | ok feeders =>
    rw [hf] at h
    exact ⟨feeders, rfl, List.forall₂_map_left_iff.mp (Net.mapM_forall₂ h)⟩

/-- Each row becomes one capacitor at the end of its section, with its values; its phases have their reactive powers if they are A, A and B, or A, B
and C. Missing: other phases (`C94_phase_violated`, `C94_long_violated`), the control mode (`C94_mode_violated`), the measuring element in sections
with blanks (`C94_measuring_violated`). -/
theorem C94_capacitors_partial (h : readCaps db = .ok cs) : List.Forall₂ (CapAt db) db.caps cs := by
  obtain ⟨feeders, hf, hall⟩ := readCaps_ok h
  refine hall.imp fun r c hc => ?_
  unfold readCap at hc
  rw [capPhases_eq] at hc
  cases hp : phaseCapsFrom (capKvar (lowerCap r)) 0 (capLetters r) with
  | error e => rw [hp] at hc; cases hc
  | ok pcs =>
    rw [hp] at hc
    injection hc with hc
    subst hc
    obtain ⟨h1, h2⟩ := phaseCapsFrom_ok hp
    have hn := (sectionFeeders_ok hf).1
    refine ⟨clean_lower_eq _, ?_, ?_, ?_, ?_, mul_comm _ _, ?_, rfl, rfl, rfl, ⟨rfl, rfl⟩, upper_lower _, ?_, h1, ?_⟩
    · intro s hs e
      show (firstSection (db.secs.map lowerSec) (lower r.sec)).map _ = _
      rw [firstSec_of hn hs e, Option.map_some]
      exact congrArg some (clean_lower_eq _)
    · intro hs
      show (firstSection (db.secs.map lowerSec) (lower r.sec)).map _ = _
      rw [firstSec_none hs]
      rfl
    · intro s hs e
      exact feeder_of hf hs e
    · intro hu s hs e p hp e2
      show substationOf _ (find feeders (lower r.sec)) = _
      rw [feeder_of hf hs e]
      exact substation_of hu hp e2
    · show upper ((lower r.connection).take 1) = _
      unfold upper
      rw [List.map_take]
      exact congrArg (List.take 1) (upper_lower _)
    · intro hb
      show lower (lower r.sec) = _
      rw [lower_idem]
      unfold lower shown
      refine List.map_congr_left fun c hc => ?_
      have hne : c ≠ ' ' := by
        rintro rfl
        exact hb hc
      rw [if_neg hne]
    · intro hpre x hx
      obtain ⟨i, hi, rfl⟩ := List.getElem_of_mem hx
      have hx2 : pcs[i]? = some (pcs[i].1, pcs[i].2) := List.getElem?_eq_getElem hi
      obtain ⟨y, hy, e⟩ := h2 i _ _ hx2
      rw [Nat.zero_add] at hy
      have hc : (capLetters r)[i]? = some pcs[i].1 := by
        rw [← h1, List.getElem?_map, hx2]
        rfl
      rw [e, mul_comm, letter_kvar r hpre hc hy]

/-- The capacitors can be read if the names of sections are different and no capacitor has more than three characters as phases. -/
theorem C94_reads (hs : db.secs.Pairwise fun s t => ¬Same s.id t.id) (hp : ∀ r ∈ db.caps, (capLetters r).length ≤ 3) : ∃ cs, readCaps db = .ok cs := by
  obtain ⟨feeders, hf⟩ := sectionFeeders_of (ids_nodup hs)
  unfold readCaps
  rw [hf]
  dsimp only
  generalize feederSubstations (db.feederTable.map fun f => (lower f.1, lower f.2)) = subs
  generalize db.caps = rs at hp
  induction rs with
  | nil => exact ⟨[], rfl⟩
  | cons r rs ih =>
    obtain ⟨cs, hcs⟩ := ih fun x hx => hp x (List.mem_cons_of_mem _ hx)
    rcases readCap_eq feeders subs (db.secs.map lowerSec) r with ⟨-, c, hc⟩ | ⟨hlt, -⟩
    · refine ⟨c :: cs, ?_⟩
      rw [List.map_cons, List.mapM_cons, hc, hcs]
      rfl
    · exact absurd hlt (Nat.not_lt.mpr (hp r List.mem_cons_self))

/-- The property is false: a capacitor with more than three characters as phases, such as the three phases with neutral or with blanks between them,
makes the whole database unreadable. -/
theorem C94_long_violated (hs : db.secs.Pairwise fun s t => ¬Same s.id t.id) {r : CapRow K} (hr : r ∈ db.caps) (hl : 3 < r.phases.length) :
    readCaps db = .error .indexError := by
  obtain ⟨feeders, hf⟩ := sectionFeeders_of (ids_nodup hs)
  unfold readCaps
  rw [hf]
  dsimp only
  have hcases : ∀ x ∈ db.caps.map lowerCap, readCap feeders (feederSubstations (db.feederTable.map fun f => (lower f.1, lower f.2))) (db.secs.map lowerSec) x
      = .error .indexError ∨ ∃ c, readCap feeders (feederSubstations (db.feederTable.map fun f => (lower f.1, lower f.2))) (db.secs.map lowerSec) x = .ok c := by
    intro x hx
    obtain ⟨r', -, rfl⟩ := List.mem_map.mp hx
    rcases readCap_eq feeders (feederSubstations (db.feederTable.map fun f => (lower f.1, lower f.2))) (db.secs.map lowerSec) r' with ⟨-, h⟩ | ⟨-, h⟩
    · exact .inr h
    · exact .inl h
  refine Carson.mapM_error hcases ⟨lowerCap r, List.mem_map_of_mem hr, ?_⟩
  rcases readCap_eq feeders (feederSubstations (db.feederTable.map fun f => (lower f.1, lower f.2))) (db.secs.map lowerSec) r with ⟨h, -⟩ | ⟨-, h⟩
  · exfalso
    unfold capLetters at h
    rw [if_neg (by rintro e; rw [e] at hl; simp at hl), List.length_map] at h
    omega
  · exact h

/-- The property is false: a capacitor that is only connected to phase B or C gets the reactive power of phase A. -/
theorem C94_phase_violated (h : readCaps db = .ok cs) {r : CapRow K} (hr : r ∈ db.caps) {p : Char} (hp : r.phases.map Char.toUpper = [p]) :
    ∃ c ∈ cs, c.name = shown r.name ∧ c.phaseCaps = [(p, 1000 * phaseKvar r 'A')] := by
  obtain ⟨feeders, hf, hall⟩ := readCaps_ok h
  obtain ⟨c, hc, e⟩ := found_right hall hr
  refine ⟨c, hc, ?_⟩
  unfold readCap at e
  rw [capPhases_eq] at e
  have e1 : capLetters r = [p] := by
    unfold capLetters
    rw [if_neg (by rintro e; rw [e] at hp; cases hp), hp]
  rw [e1] at e
  have e2 : phaseCapsFrom (capKvar (lowerCap r)) 0 [p] = .ok [(p, (if r.fixed.1 = 0 then r.module1 else r.fixed.1) * 1000)] := rfl
  rw [e2] at e
  injection e with e
  subst e
  refine ⟨clean_lower_eq _, ?_⟩
  show [(p, (if r.fixed.1 = 0 then r.module1 else r.fixed.1) * 1000)] = _
  rw [mul_comm]
  simp only [phaseKvar, ite_not]

/-- The property is false: the control mode is always the voltage, whatever the database says. -/
theorem C94_mode_violated (h : readCaps db = .ok cs) {c : SynCap K} (hc : c ∈ cs) : c.mode = "voltage".toList := by
  obtain ⟨feeders, hf, hall⟩ := readCaps_ok h
  obtain ⟨r, hr, e⟩ := found_left hall hc
  unfold readCap at e
  split at e
  · cases e
  · injection e with e
    subst e
    exact ite_self _

/-- The property is false: the measuring element of a capacitor in a section with a blank in its name is not the name of the line. -/
theorem C94_measuring_violated (h : readCaps db = .ok cs) {r : CapRow K} (hr : r ∈ db.caps) (hb : ' ' ∈ r.sec) :
    ∃ c ∈ cs, c.name = shown r.name ∧ c.measuring ≠ shown r.sec := by
  obtain ⟨feeders, hf, hall⟩ := readCaps_ok h
  obtain ⟨c, hc, e⟩ := found_right hall hr
  refine ⟨c, hc, ?_⟩
  unfold readCap at e
  split at e
  · cases e
  · injection e with e
    subst e
    refine ⟨clean_lower_eq _, fun e => ?_⟩
    have e' : lower (lower r.sec) = shown r.sec := e
    have h1 : ' ' ∈ lower (lower r.sec) := by
      rw [lower_idem]
      exact List.mem_map.mpr ⟨' ', hb, by decide⟩
    rw [e'] at h1
    obtain ⟨x, -, hx⟩ := List.mem_map.mp h1
    by_cases hx2 : x = ' '
    · rw [if_pos hx2] at hx
      cases hx
    · rw [if_neg hx2] at hx
      exact hx2 ((lower_blank_iff x).mp hx)

end

/-! ### Examples -/

def exCapRow (sec name phases : Text) : CapRow ℚ :=
  ⟨sec, name, 72 / 10, "Yg".toList, 30, "KVAR".toList, 118, 126, 60, 1, (100, 0, 300), 50, "b".toList, phases⟩

def exCapDb : CapDb ℚ where
  feederTable := [("F 1".toList, "Main".toList)]
  secs := [⟨"S 1".toList, "F 1".toList, "A B C N".toList, "Sub".toList, "Node 1".toList, [] ⟩]
  caps := [exCapRow "s 1".toList "Cap 1".toList "ABC".toList, exCapRow "S9".toList "Cap2".toList "c".toList]

def exCap (name : Text) (f b : Option Text) (m : Text) (pcs : List (Char × ℚ)) : SynCap ℚ :=
  ⟨name, f, if f.isSome then some "main".toList else none, 7200, "Y".toList, 30, "voltage".toList, 118, 126, 60, 1, m, "B".toList, b, pcs⟩

theorem exCaps : readCaps exCapDb = .ok
    [exCap "cap_1".toList (some "f_1".toList) (some "node_1".toList) "s 1".toList [('A', 100000), ('B', 50000), ('C', 300000)],
     exCap "cap2".toList none none "s9".toList [('C', 100000)]] := by
  decide +kernel

example : List.Forall₂ (CapAt exCapDb) exCapDb.caps
    [exCap "cap_1".toList (some "f_1".toList) (some "node_1".toList) "s 1".toList [('A', 100000), ('B', 50000), ('C', 300000)],
     exCap "cap2".toList none none "s9".toList [('C', 100000)]] := C94_capacitors_partial exCaps

example : capLetters exCapDb.caps[0] <+: ['A', 'B', 'C'] := by decide

example : ∃ cs, readCaps exCapDb = .ok cs := C94_reads (by decide) (by decide)

example : readCaps { exCapDb with caps := [exCapRow "s 1".toList "Cap 1".toList "A B C".toList] } = .error .indexError :=
  C94_long_violated (r := exCapRow "s 1".toList "Cap 1".toList "A B C".toList) (by decide) (by exact List.mem_cons_self) (by decide)

/-- the capacitor at phase C with 300 kvar is read with the 100 kvar of phase A -/
example : ∃ cs, readCaps exCapDb = .ok cs ∧ ∃ c ∈ cs, c.name = "cap2".toList ∧ c.phaseCaps = [('C', 100000)] ∧
    phaseKvar (exCapRow "S9".toList "Cap2".toList "c".toList) 'C' = 300 := by
  obtain ⟨c, hc, h1, h2⟩ := C94_phase_violated exCaps (r := exCapRow "S9".toList "Cap2".toList "c".toList) (by exact List.mem_cons_of_mem _ List.mem_cons_self)
    (p := 'C') (by decide)
  refine ⟨_, exCaps, c, hc, h1, ?_, by decide +kernel⟩
  rw [h2]
  decide +kernel

example : ∃ cs, readCaps exCapDb = .ok cs ∧ ∀ c ∈ cs, c.mode = "voltage".toList := ⟨_, exCaps, fun _ hc => C94_mode_violated exCaps hc⟩

example : ∃ cs, readCaps exCapDb = .ok cs ∧ ∃ c ∈ cs, c.name = "cap_1".toList ∧ c.measuring ≠ "s_1".toList :=
  ⟨_, exCaps, C94_measuring_violated exCaps (r := exCapRow "s 1".toList "Cap 1".toList "ABC".toList) (by exact List.mem_cons_self) (by decide)⟩

end Ditto.Syn
