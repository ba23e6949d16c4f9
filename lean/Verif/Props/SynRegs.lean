import Verif.Spec.SynRegs
import Verif.Lemmas.SynLoads
import Verif.Props.SynCaps
import Mathlib.Tactic.LinearCombination
import Mathlib.Tactic.FieldSimp
import Mathlib.Tactic.Positivity
import Mathlib.Algebra.Order.Field.Rat

/-! C97: regulators of Synergi databases. -/
namespace Ditto.Syn
open Ditto Glm Syn.Spec

theorem strip_mem {t : Text} {c : Char} (hc : c ∈ t) (hw : c.isWhitespace = false) : c ∈ Net.pyStrip t := by
  have drop : ∀ {l : Text}, c ∈ l → c ∈ l.dropWhile Char.isWhitespace := by
    intro l hl
    rw [← List.takeWhile_append_dropWhile (p := Char.isWhitespace) (l := l)] at hl
    rcases List.mem_append.mp hl with h | h
    · rw [List.mem_takeWhile_imp h] at hw
      cases hw
    · exact h
  unfold Net.pyStrip
  rw [List.mem_reverse]
  exact drop (List.mem_reverse.mpr (drop hc))

theorem strip_id {t : Text} (h : ∀ c ∈ t, c.isWhitespace = false) : Net.pyStrip t = t := by
  have drop : ∀ {l : Text}, (∀ c ∈ l, c.isWhitespace = false) → l.dropWhile Char.isWhitespace = l := by
    intro l hl
    cases l with
    | nil => rfl
    | cons c l => rw [List.dropWhile_cons_of_neg (by simp [hl c List.mem_cons_self])]
  unfold Net.pyStrip
  rw [drop h, drop fun c hc => h c (List.mem_reverse.mp hc), List.reverse_reverse]

theorem white_lower (c : Char) : c.toLower.isWhitespace = c.isWhitespace := by
  by_cases h : 65 ≤ c.toNat ∧ c.toNat ≤ 90
  · have h1 : c.toLower.toNat = c.toNat + 32 := by rw [lower_nat, if_pos h]
    have nw : ∀ d : Char, 64 < d.toNat → d.isWhitespace = false := by
      intro d hd
      unfold Char.isWhitespace
      have ne : ∀ e : Char, e.toNat ≤ 64 → ¬d = e := by
        rintro e he rfl
        omega
      simp [ne ' ' (by decide), ne '\t' (by decide), ne '\r' (by decide), ne '\n' (by decide)]
    rw [nw _ (by omega), nw _ (by omega)]
  · have : c.toLower = c := by
      apply char_nat
      rw [lower_nat, if_neg h]
    rw [this]

section
variable {K : Type} [Field K] [LinearOrder K] {db : RegDb K} {sqrt : K → K} {gs : List (SynReg K)}

theorem bandOf_band (b : K × K × K) : Band b (bandOf b) := by
  have hmem : ∀ y, y ∈ [b.1, b.2.1, b.2.2].filter (fun x => x ≠ 0) ↔ (y = b.1 ∨ y = b.2.1 ∨ y = b.2.2) ∧ y ≠ 0 := by
    intro y
    simp
  unfold bandOf
  cases hl : [b.1, b.2.1, b.2.2].filter (fun x => x ≠ 0) with
  | nil =>
    refine ⟨⟨fun _ => ?_, fun _ => rfl⟩, fun v h => by cases h⟩
    rw [hl] at hmem
    refine ⟨?_, ?_, ?_⟩
    · by_contra h; exact absurd ((hmem b.1).mpr ⟨.inl rfl, h⟩) (by simp)
    · by_contra h; exact absurd ((hmem b.2.1).mpr ⟨.inr (.inl rfl), h⟩) (by simp)
    · by_contra h; exact absurd ((hmem b.2.2).mpr ⟨.inr (.inr rfl), h⟩) (by simp)
  | cons x l =>
    rw [hl] at hmem
    have fold : ∀ (l : List K) (x : K), l.foldl min x ∈ x :: l ∧ ∀ y ∈ x :: l, l.foldl min x ≤ y := by
      intro l
      induction l with
      | nil => intro x; exact ⟨List.mem_cons_self, fun y hy => by rw [List.mem_singleton.mp hy]; rfl⟩
      | cons a l ih =>
        intro x
        obtain ⟨h1, h2⟩ := ih (min x a)
        rw [List.foldl_cons]
        constructor
        · rcases List.mem_cons.mp h1 with h | h
          · rw [h]
            rcases min_choice x a with e | e <;> rw [e]
            · exact List.mem_cons_self
            · exact .tail _ (.head _)
          · exact .tail _ (.tail _ h)
        · intro y hy
          have hm := h2 (min x a) List.mem_cons_self
          rcases List.mem_cons.mp hy with rfl | hy
          · exact hm.trans (min_le_left _ _)
          · rcases List.mem_cons.mp hy with rfl | hy
            · exact hm.trans (min_le_right _ _)
            · exact h2 y (.tail _ hy)
    have hx := (hmem x).mp List.mem_cons_self
    have notZero : ¬(b.1 = 0 ∧ b.2.1 = 0 ∧ b.2.2 = 0) := by
      rintro ⟨h1, h2, h3⟩
      rcases hx.1 with e | e | e
      · exact hx.2 (e.trans h1)
      · exact hx.2 (e.trans h2)
      · exact hx.2 (e.trans h3)
    dsimp only
    by_cases hall : ∀ y ∈ l, y = x
    · rw [if_pos hall]
      refine ⟨⟨fun h => (by cases h), fun h => absurd h notZero⟩, fun v h => ?_⟩
      injection h with h
      subst h
      refine ⟨hx.2, hx.1, fun y hy h0 => ?_⟩
      rcases List.mem_cons.mp ((hmem y).mpr ⟨hy, h0⟩) with e | e
      · rw [e]
      · rw [hall y e]
    · rw [if_neg hall]
      refine ⟨⟨fun h => (by cases h), fun h => absurd h notZero⟩, fun v h => ?_⟩
      injection h with h
      subst h
      obtain ⟨h1, h2⟩ := fold l x
      have h3 := (hmem _).mp h1
      exact ⟨h3.2, h3.1, fun y hy h0 => h2 y ((hmem y).mpr ⟨hy, h0⟩)⟩

theorem regType_of {r : RegRow K} {d : DevRegRow K} (h : RegTypeOf db.devs r d) : regType (db.devs.map lowerDevReg) (lowerReg r).type = some (lowerDevReg d) := by
  obtain ⟨h1, h2, h3⟩ := h
  unfold regType
  cases hf : (db.devs.map lowerDevReg).reverse.find? (fun x => x.name = (lowerReg r).type) with
  | none =>
    rw [List.find?_eq_none] at hf
    exact absurd (decide_eq_true h2) (hf (lowerDevReg d) (List.mem_reverse.mpr (List.mem_map_of_mem h1)))
  | some x =>
    have e1 := List.find?_some hf
    have e2 := List.mem_of_find?_eq_some hf
    obtain ⟨y, hy, rfl⟩ := List.mem_map.mp (List.mem_reverse.mp e2)
    rw [h3 y hy (of_decide_eq_true e1)]

theorem lastSection_of {secs : List SecRow} (hn : ((secs.map lowerSec).map (·.id)).Nodup) {s : SecRow} (hs : s ∈ secs) {n : Text} (e : Same s.id n) :
    lastSection (secs.map lowerSec) (lower n) = some (lowerSec s) := by
  have e' : lower s.id = lower n := e
  unfold lastSection
  cases hf : (secs.map lowerSec).reverse.find? (fun s => s.id = lower n) with
  | none =>
    rw [List.find?_eq_none] at hf
    exact absurd (decide_eq_true e') (hf (lowerSec s) (List.mem_reverse.mpr (List.mem_map_of_mem hs)))
  | some x =>
    have e0 := List.find?_some hf
    have e1 : x.id = lower n := of_decide_eq_true e0
    have e2 := List.mem_reverse.mp (List.mem_of_find?_eq_some hf)
    exact congrArg some (List.inj_on_of_nodup_map hn e2 (List.mem_map_of_mem hs) (e1.trans e'.symm))

theorem readRegs_ok (h : readRegs sqrt db = .ok gs) : ∃ feeders, sectionFeeders (db.secs.map lowerSec) = .ok feeders ∧
    List.Forall₂ (fun r g => g = readReg sqrt feeders (feederSubstations (db.feederTable.map fun f => (lower f.1, lower f.2))) (db.secs.map lowerSec)
      (db.devs.map lowerDevReg) (lowerReg r)) db.regs gs := by
  unfold readRegs at h
  cases hf : sectionFeeders (db.secs.map lowerSec) with
  | error e => rw [hf] at h; cases h
  | ok feeders =>
    rw [hf] at h
    injection h with h
    subst h
    refine ⟨feeders, rfl, ?_⟩
    rw [List.map_map, List.forall₂_map_right_iff]
    exact List.forall₂_same.mpr fun _ _ => rfl

/-- Each row becomes one regulator of its section, with its settings, ratios, impedances, and two windings with the values of its type. Missing: phases with
neutral or blanks (`C97_neutral_violated`, `C97_blank_violated`), bands of phases that it does not have (`C97_band_violated`). -/
theorem C97_regulators_partial [IsStrictOrderedRing K] (hq : RootsOf sqrt db.devs) (h : readRegs sqrt db = .ok gs) :
    List.Forall₂ (RegAt db) db.regs gs := by
  obtain ⟨feeders, hf, hall⟩ := readRegs_ok h
  refine hall.imp fun r g hg => ?_
  have hn := (sectionFeeders_ok hf).1
  have hfeed : ∀ s ∈ db.secs, Same s.id r.sec → regFeeder feeders (lowerReg r) = some (shown s.feeder) := by
    intro s hs e3
    unfold regFeeder
    have : find feeders (lowerReg r).sec = some (shown s.feeder) := feeder_of hf hs e3
    rw [this]
  subst hg
  refine ⟨clean_lower_eq _, ?_, hfeed, ?_, rfl, ⟨rfl, rfl⟩, bandOf_band _, bandOf_band _, ?_, ?_, ?_, ?_⟩
  · intro s hs e
    have : lastSection (db.secs.map lowerSec) (lowerReg r).sec = some (lowerSec s) := lastSection_of hn hs e
    unfold readReg
    dsimp only
    rw [this]
    exact ⟨congrArg some (clean_lower_eq _), congrArg some (clean_lower_eq _)⟩
  · intro hu s hs e p hp e2
    show substationOf _ (regFeeder feeders (lowerReg r)) = _
    rw [hfeed s hs e]
    exact substation_of hu hp e2
  · intro d hd
    unfold readReg
    dsimp only
    rw [regType_of hd]
    exact ⟨rfl, rfl⟩
  · intro d hd
    unfold readReg
    dsimp only
    rw [regType_of hd]
    refine ⟨_, _, rfl, rfl, mul_comm _ _, ?_⟩
    have hs := hq d hd.1
    show sqrt (d.percentZ ^ 2 / (d.xr ^ 2 + 1)) ^ 2 + (sqrt (d.percentZ ^ 2 / (d.xr ^ 2 + 1)) * d.xr) ^ 2 = d.percentZ ^ 2
    rw [mul_pow, hs]
    have : d.xr ^ 2 + 1 ≠ 0 := by positivity
    field_simp
    ring
  · intro d hd
    unfold readReg
    dsimp only
    rw [regType_of hd]
    refine ⟨rfl, fun w hw => ?_⟩
    have hw' : w = regWinding (lowerReg r).phases (some (lowerDevReg d)) := by
      rcases List.mem_cons.mp hw with e | e
      · exact e
      · exact List.mem_singleton.mp e
    subst hw'
    refine ⟨?_, congrArg some (mul_comm _ _), congrArg some (mul_comm _ _)⟩
    show some (upper ((lower d.code).take 1)) = _
    unfold upper
    rw [List.map_take]
    exact congrArg (fun x => some (List.take 1 x)) (upper_lower _)
  · intro hp w hw
    have hw' : w.phases = regPhases (lower r.phases) := by
      rcases List.mem_cons.mp hw with e | e
      · rw [e]; rfl
      · rw [List.mem_singleton.mp e]; rfl
    rw [hw']
    unfold regPhases
    rw [strip_id, List.filter_eq_self.mpr]
    · exact upper_lower _
    · intro c hc
      obtain ⟨c', hc', rfl⟩ := List.mem_map.mp hc
      refine decide_eq_true fun e => ?_
      apply (hp c' hc').2
      have := upperLower c'
      rw [e] at this
      rw [← this]
      decide
    · intro c hc
      obtain ⟨c', hc', rfl⟩ := List.mem_map.mp hc
      rw [white_lower]
      exact (hp c' hc').1

/-- The regulators can be read if the names of sections are different. -/
theorem C97_reads (hs : db.secs.Pairwise fun s t => ¬Same s.id t.id) : ∃ gs, readRegs sqrt db = .ok gs := by
  obtain ⟨feeders, hf⟩ := sectionFeeders_of (ids_nodup hs)
  unfold readRegs
  rw [hf]
  exact ⟨_, rfl⟩

theorem phases_at (h : readRegs sqrt db = .ok gs) {r : RegRow K} (hr : r ∈ db.regs) : ∃ g ∈ gs, g.name = shown r.id ∧ ∀ w ∈ g.windings,
    w.phases = regPhases (lower r.phases) := by
  obtain ⟨feeders, hf, hall⟩ := readRegs_ok h
  obtain ⟨g, hg, e⟩ := found_right hall hr
  refine ⟨g, hg, ?_⟩
  subst e
  refine ⟨clean_lower_eq _, fun w hw => ?_⟩
  rcases List.mem_cons.mp hw with e | e
  · rw [e]; rfl
  · rw [List.mem_singleton.mp e]; rfl

/-- The property is false: a regulator with neutral gets windings for a phase N. -/
theorem C97_neutral_violated (h : readRegs sqrt db = .ok gs) {r : RegRow K} (hr : r ∈ db.regs) (hn : 'N' ∈ r.phases ∨ 'n' ∈ r.phases) :
    ∃ g ∈ gs, g.name = shown r.id ∧ ∀ w ∈ g.windings, 'N' ∈ w.phases := by
  obtain ⟨g, hg, h1, h2⟩ := phases_at h hr
  refine ⟨g, hg, h1, fun w hw => ?_⟩
  rw [h2 w hw]
  have hmem : 'n' ∈ lower r.phases := by
    rcases hn with hn | hn
    · exact List.mem_map.mpr ⟨'N', hn, by decide⟩
    · exact List.mem_map.mpr ⟨'n', hn, by decide⟩
  unfold regPhases
  exact List.mem_map.mpr ⟨'n', List.mem_filter.mpr ⟨strip_mem hmem (by decide), by decide⟩, by decide⟩

/-- The property is false: a blank between two phases becomes a phase. -/
theorem C97_blank_violated (h : readRegs sqrt db = .ok gs) {r : RegRow K} (hr : r ∈ db.regs) {c d : Char} {x : Text} (hp : r.phases = c :: ' ' :: d :: x)
    (hc : c.isWhitespace = false) (hd : d.isWhitespace = false) : ∃ g ∈ gs, g.name = shown r.id ∧ ∀ w ∈ g.windings, ' ' ∈ w.phases := by
  obtain ⟨g, hg, h1, h2⟩ := phases_at h hr
  refine ⟨g, hg, h1, fun w hw => ?_⟩
  rw [h2 w hw]
  have e1 : lower r.phases = c.toLower :: ' ' :: d.toLower :: lower x := by rw [hp]; rfl
  have hmem : ' ' ∈ Net.pyStrip (lower r.phases) := by
    unfold Net.pyStrip
    rw [e1, List.dropWhile_cons_of_neg (by rw [white_lower, hc]; simp), List.mem_reverse]
    have e2 : (c.toLower :: ' ' :: d.toLower :: lower x).reverse = (lower x).reverse ++ ([d.toLower] ++ [' ', c.toLower]) := by simp
    rw [e2, List.dropWhile_append]
    split
    · rw [List.dropWhile_append]
      have : List.dropWhile Char.isWhitespace [d.toLower] = [d.toLower] := by
        rw [List.dropWhile_cons_of_neg (by rw [white_lower, hd]; simp)]
      rw [this]
      simp
    · simp
  unfold regPhases
  exact List.mem_map.mpr ⟨' ', List.mem_filter.mpr ⟨hmem, by decide⟩, by decide⟩

/-- The property is false: the bandwidth of a regulator can be the one of a phase that it does not have. -/
theorem C97_band_violated (h : readRegs sqrt db = .ok gs) {r : RegRow K} (hr : r ∈ db.regs) {a b : K} (hw : r.widths = (a, b, 0)) (h0 : b ≠ 0) (hlt : b < a)
    (ha : a ≠ 0) : ∃ g ∈ gs, g.name = shown r.id ∧ g.bandwidth = some b := by
  obtain ⟨feeders, hf, hall⟩ := readRegs_ok h
  obtain ⟨g, hg, e⟩ := found_right hall hr
  refine ⟨g, hg, ?_⟩
  subst e
  refine ⟨clean_lower_eq _, ?_⟩
  show bandOf r.widths = some b
  have hb := bandOf_band r.widths
  rw [hw] at hb ⊢
  cases hx : bandOf (a, b, (0 : K)) with
  | none => exact absurd (hb.none.mp hx).1 ha
  | some v =>
    obtain ⟨h1, h2, h3⟩ := hb.value v hx
    rcases h2 with e | e | e
    · have := h3 b (.inr (.inl rfl)) h0
      rw [e] at this
      exact absurd hlt (not_lt.mpr this)
    · rw [e]
    · exact absurd e h1

/-- The property is false: the name of a section is not found behind the letters `Reg`, whatever their case, since all texts are lower case when it is looked for. -/
theorem C97_prefix_violated (h : readRegs sqrt db = .ok gs) {r : RegRow K} (hr : r ∈ db.regs) (hs : ∀ s ∈ db.secs, ¬Same s.id r.sec)
    (hid : ∀ s ∈ db.secs, lower s.id ≠ Net.pyStrip (lower r.id)) : ∃ g ∈ gs, g.name = shown r.id ∧ g.feeder = none := by
  obtain ⟨feeders, hf, hall⟩ := readRegs_ok h
  obtain ⟨g, hg, e⟩ := found_right hall hr
  refine ⟨g, hg, ?_⟩
  subst e
  refine ⟨clean_lower_eq _, ?_⟩
  show regFeeder feeders (lowerReg r) = none
  unfold regFeeder
  have h1 : find feeders (lowerReg r).sec = none := sectionFeeders_keys hf fun s hs2 e => by
    obtain ⟨s', hs', rfl⟩ := List.mem_map.mp hs2
    exact hs s' hs' e
  have h2 : find feeders (Net.pyStrip (lowerReg r).id) = none := sectionFeeders_keys hf fun s hs2 e => by
    obtain ⟨s', hs', rfl⟩ := List.mem_map.mp hs2
    exact hid s' hs' e
  rw [h1]
  exact h2

end

/-! ### Examples -/

def exRegRow (id sec phases : Text) (widths : ℚ × ℚ × ℚ) : RegRow ℚ := ⟨id, sec, "R1".toList, 30, 16, 16, phases, 1, widths, (120, 121, 0)⟩

def exRegDb : RegDb ℚ where
  feederTable := [("F 1".toList, "Main".toList)]
  secs := [⟨"S1".toList, "F 1".toList, "ABCN".toList, "Node 1".toList, "Node 2".toList, []⟩]
  regs := [exRegRow "Reg 7".toList "s1".toList "ABC".toList (2, 2, 2), exRegRow "Reg S1".toList "S9".toList "A N".toList (3, 2, 0)]
  devs := [⟨"r1".toList, 60, 100, 5, 4 / 3, "Yg".toList, 72 / 10, 300⟩]

def exRegRoot (x : ℚ) : ℚ := if x = 9 then 3 else 0

def exSynReg (name : Text) (f sub : Option Text) (w : ℚ) (p : List Char) (a b : Option Text) : SynReg ℚ :=
  ⟨name, f, sub, 30, 16, -16, 1, some w, some 120, some 60, some 100, some 5, some (4 / 3), some 3, some 4,
    [⟨some ['Y'], some 7200, some 300000, p⟩, ⟨some ['Y'], some 7200, some 300000, p⟩], a, b⟩

def exSynRegs : List (SynReg ℚ) :=
  [exSynReg "reg_7".toList (some "f_1".toList) (some "main".toList) 2 ['A', 'B', 'C'] (some "node_1".toList) (some "node_2".toList),
   exSynReg "reg_s1".toList none none 2 ['A', ' ', 'N'] none none]

theorem exRegs : readRegs exRegRoot exRegDb = .ok exSynRegs := by decide +kernel

example : List.Forall₂ (RegAt exRegDb) exRegDb.regs exSynRegs := by
  refine C97_regulators_partial ?_ exRegs
  unfold RootsOf
  decide +kernel

example : RegTypeOf exRegDb.devs (exRegRow "Reg 7".toList "s1".toList "ABC".toList (2, 2, 2)) ⟨"r1".toList, 60, 100, 5, 4 / 3, "Yg".toList, 72 / 10, 300⟩ :=
  ⟨.head _, by decide, fun x hx _ => List.mem_singleton.mp hx⟩

example : ∃ gs, readRegs exRegRoot exRegDb = .ok gs := C97_reads (by decide)

example : ∃ g ∈ exSynRegs, g.name = "reg_s1".toList ∧ ∀ w ∈ g.windings, 'N' ∈ w.phases :=
  C97_neutral_violated exRegs (r := exRegRow "Reg S1".toList "S9".toList "A N".toList (3, 2, 0)) (.tail _ (.head _)) (.inl (by decide))

example : ∃ g ∈ exSynRegs, g.name = "reg_s1".toList ∧ ∀ w ∈ g.windings, ' ' ∈ w.phases :=
  C97_blank_violated exRegs (r := exRegRow "Reg S1".toList "S9".toList "A N".toList (3, 2, 0)) (.tail _ (.head _)) (c := 'A') (d := 'N') (x := []) rfl (by decide) (by decide)

/-- the band of phase B at a regulator for phase A -/
example : ∃ g ∈ exSynRegs, g.name = "reg_s1".toList ∧ g.bandwidth = some 2 :=
  C97_band_violated exRegs (r := exRegRow "Reg S1".toList "S9".toList "A N".toList (3, 2, 0)) (.tail _ (.head _)) (a := 3) rfl (by decide) (by decide) (by decide)

/-- the section S1 in the name is not found -/
example : ∃ g ∈ exSynRegs, g.name = "reg_s1".toList ∧ g.feeder = none :=
  C97_prefix_violated exRegs (r := exRegRow "Reg S1".toList "S9".toList "A N".toList (3, 2, 0)) (.tail _ (.head _)) (by decide) (by decide)

end Ditto.Syn
