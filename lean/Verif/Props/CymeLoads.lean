import Verif.Spec.CymeLoads
import Verif.Lemmas.CymeSections
import Verif.Lemmas.DssRegs
import Mathlib.Tactic.Ring
import Mathlib.Tactic.FieldSimp
import Mathlib.Tactic.Linarith

/-! C75: loads of CYME files. -/
namespace Ditto.Cyme
open Ditto Glm Cyme.Spec

/-! ### sections -/

theorem star_none {t : Text} (h : '*' ∉ t) : ∀ c ∈ t, decide (c = '*') = false := by
  intro c hc
  rw [decide_eq_false_iff_not]
  rintro rfl
  exact h hc

theorem stripStars_stars {name : Text} (h : '*' ∉ name) (n : Nat) : stripStars (name ++ List.replicate n '*') = name := by
  have hs : ∀ c ∈ List.replicate n '*', decide (c = '*') = true := fun c hc => by rw [List.eq_of_mem_replicate hc]; decide
  unfold stripStars
  cases name with
  | nil =>
    rw [List.nil_append]
    have : (List.replicate n '*').dropWhile (fun c => decide (c = '*')) = [] := by rw [List.dropWhile_eq_nil_iff]; exact hs
    rw [this]; rfl
  | cons a c =>
    have : (a :: c ++ List.replicate n '*').dropWhile (fun c => decide (c = '*')) = a :: c ++ List.replicate n '*' := by
      rw [List.cons_append, List.dropWhile_cons, if_neg (by rw [star_none h a List.mem_cons_self]; decide)]
    rw [this, List.reverse_append, dropWhile_all (fun x hx => hs x (List.mem_reverse.mp hx)),
      dropWhile_none (fun x hx => star_none h x (List.mem_reverse.mp hx)), List.reverse_reverse]

theorem lower_stars (name : Text) (n : Nat) : lower (name ++ List.replicate n '*') = lower name ++ List.replicate n '*' := by
  rw [lower_append]
  congr 1
  unfold lower
  rw [List.map_replicate]
  rfl

theorem lower_idem (t : Text) : lower (lower t) = lower t := by
  unfold lower
  rw [List.map_map]
  exact List.map_congr_left fun c _ => Dss.charLower_idem c

theorem form_section {inp : LoadInput} {row : Text × Values} {d : Demand} (h : Form inp row d) : rowSection row.1 = d.sec := by
  obtain ⟨⟨name, n, hk, hs, hd, -⟩, -⟩ := h
  unfold rowSection
  rw [hk, stripStars_stars hs, hd]
  rfl

theorem mem_duplicates {inp : LoadInput} {rows : List (Text × Values)} {ds : List Demand} (h : List.Forall₂ (Form inp) rows ds) (sec : Text) :
    sec ∈ duplicateLoads (rows.map (·.1)) ↔ ∃ d ∈ ds, d.sec = sec ∧ d.again = true := by
  unfold duplicateLoads
  induction h with
  | nil => constructor; · intro h; cases h
           · rintro ⟨d, hd, -⟩; cases hd
  | @cons row d rows ds hr _ ih =>
    obtain ⟨⟨name, n, hk, hs, hd, ha⟩, -⟩ := hr
    have hlast : row.1.getLast? = some '*' ↔ d.again = true := by
      rw [ha, hk]
      cases n with
      | zero =>
        rw [List.replicate_zero, List.append_nil]
        constructor
        · intro h; exact absurd (List.mem_of_getLast? h) hs
        · intro h; omega
      | succ n => rw [List.replicate_succ', ← List.append_assoc, List.getLast?_concat]; simp
    have hsec : stripStars (lower row.1) = d.sec := by
      rw [hk, lower_stars, stripStars_stars (not_mem_lower (by decide) hs), hd]; rfl
    rw [List.map_cons, List.filter_cons]
    by_cases hag : d.again = true
    · rw [if_pos (by rw [decide_eq_true_iff]; exact hlast.mpr hag), List.map_cons, List.mem_cons, ih, hsec]
      constructor
      · rintro (rfl | ⟨x, hx, h⟩)
        · exact ⟨d, List.mem_cons_self, rfl, hag⟩
        · exact ⟨x, List.mem_cons_of_mem _ hx, h⟩
      · rintro ⟨x, hx, h1, h2⟩
        rcases List.mem_cons.mp hx with rfl | hx
        · exact Or.inl h1.symm
        · exact Or.inr ⟨x, hx, h1, h2⟩
    · rw [if_neg (by rw [decide_eq_true_iff, hlast]; exact hag), ih]
      constructor
      · rintro ⟨x, hx, h⟩; exact ⟨x, List.mem_cons_of_mem _ hx, h⟩
      · rintro ⟨x, hx, h1, h2⟩
        rcases List.mem_cons.mp hx with rfl | hx
        · exact absurd h2 hag
        · exact ⟨x, hx, h1, h2⟩

/-! ### powers -/

theorem kvaPowers_stated {s f p q : ℝ} (hp : 100 * p = s * f) (hq : p ^ 2 + q ^ 2 = s ^ 2) (h0 : 0 ≤ q) : kvaPowers s f = some (p, q) := by
  have h1 : s * (f * (1 / 100)) = p := by linarith
  have h2 : s ^ 2 - p ^ 2 = q ^ 2 := by linarith
  unfold kvaPowers
  rw [h1, h2, if_neg (not_lt.mpr (sq_nonneg q)), Real.sqrt_sq h0]

theorem root_stated {p q g : ℝ} (hg : 0 < g) (h : p ^ 2 = g ^ 2 * (p ^ 2 + q ^ 2)) (hpq : 0 ≤ p * q) : p * √((1 - g ^ 2) / g ^ 2) = q := by
  by_cases hp : p = 0
  · subst hp
    have : g ^ 2 * q ^ 2 = 0 := by linarith
    have hq : q = 0 := by
      rcases mul_eq_zero.mp this with h | h
      · exact absurd (pow_eq_zero_iff (two_ne_zero) |>.mp h) hg.ne'
      · exact pow_eq_zero_iff (two_ne_zero) |>.mp h
    rw [hq, zero_mul]
  · have h1 : (1 - g ^ 2) / g ^ 2 = (q / p) ^ 2 := by
      rw [div_pow, div_eq_div_iff (pow_ne_zero 2 hg.ne') (pow_ne_zero 2 hp)]
      linarith
    have h2 : 0 ≤ q / p := by
      have : q / p = p * q / p ^ 2 := by field_simp
      rw [this]
      exact div_nonneg hpq (sq_nonneg p)
    rw [h1, Real.sqrt_sq h2, mul_div_cancel₀ _ hp]

theorem factorPower_stated {p q f g : ℝ} (hf : 0 < f) (hg : f ≤ 1 ∧ g = f ∨ 1 < f ∧ f ≤ 100 ∧ 100 * g = f)
    (h : p ^ 2 = g ^ 2 * (p ^ 2 + q ^ 2)) (hpq : 0 ≤ p * q) : factorPower p f = some (some q) := by
  unfold factorPower
  rcases hg with ⟨h1, rfl⟩ | ⟨h1, h2, h3⟩
  · rw [if_pos ⟨hf.le, h1⟩, if_neg hf.ne', root_stated hf h hpq]
  · have hgf : f / 100 = g := by linarith
    rw [if_neg (fun hc => absurd hc.2 (not_le.mpr h1)), if_pos ⟨h1, h2⟩, hgf, root_stated (by linarith) h hpq]

theorem rowPowers_stated {inp : LoadInput} {connected : Option ℝ} {t : ℤ} {a b p q : ℝ} (h : Stated connected t a b p q) {v1 v2 : Text}
    (h1 : inp.num v1 = some a) (h2 : inp.num v2 = some b) (vars : LoadVars) (ht : vars.valueType = some t) :
    rowPowers inp connected vars v1 v2 = .ok (true, some p, some q) := by
  have key : ¬(a = 0 ∧ b = 0) → rowPowers inp connected vars v1 v2 = powersOf connected vars a (some b) := by
    intro hn
    unfold rowPowers
    rw [h1]
    dsimp only
    by_cases ha : a = 0
    · rw [if_pos ha, h2]
      dsimp only
      rw [if_neg fun hb => hn ⟨ha, hb⟩]
    · rw [if_neg ha, h2]
  have zero : a = 0 → b = 0 → rowPowers inp connected vars v1 v2 = .ok (true, some 0, some 0) := by
    intro ha hb
    unfold rowPowers
    rw [h1]
    dsimp only
    rw [if_pos ha, h2]
    dsimp only
    rw [if_pos hb]
  cases h with
  | zero => exact zero rfl rfl
  | power =>
    by_cases hz : a = 0 ∧ b = 0
    · rw [zero hz.1 hz.2, hz.1, hz.2]
    · rw [key hz]
      unfold powersOf
      rw [ht]
      dsimp only
      rw [if_pos rfl]
  | apparent hs hf hp hq h0 =>
    by_cases hz : a = 0 ∧ b = 0
    · obtain ⟨rfl, rfl⟩ := hz
      have hp0 : p = 0 := by linarith
      have hq0 : q = 0 := by
        rw [hp0] at hq
        have : q ^ 2 = 0 := by linarith
        exact pow_eq_zero_iff (two_ne_zero) |>.mp this
      rw [zero rfl rfl, hp0, hq0]
    · rw [key hz]
      have hap : apparentPower connected a = a := by
        unfold apparentPower
        cases connected with
        | none => rfl
        | some c =>
          rcases hs with hs | hs
          · dsimp only; rw [if_neg hs]
          · cases hs
      unfold powersOf
      rw [ht]
      dsimp only
      rw [if_neg (by decide), if_pos rfl, hap, kvaPowers_stated hp hq h0]
  | @connected s _ _ _ hc hf hp hq h0 =>
    rw [key fun hz => hf.ne' hz.2]
    have hap : apparentPower connected 0 = s := by
      unfold apparentPower
      rw [hc]
      dsimp only
      rw [if_pos rfl]
    unfold powersOf
    rw [ht]
    dsimp only
    rw [if_neg (by decide), if_pos rfl, hap, kvaPowers_stated hp hq h0]
  | factor hf hg hp hpq =>
    rw [key fun hz => hf.ne' hz.2]
    unfold powersOf
    rw [ht]
    dsimp only
    rw [if_neg (by decide), if_neg (by decide), if_pos rfl, factorPower_stated hf hg hp hpq]

/-! ### rows -/

theorem rowPhases_form {inp : LoadInput} {row : Text × Values} {d : Demand} (h : Form inp row d) : rowPhases row.2 = d.phases := by
  unfold rowPhases
  rw [h.2.1]

/-- what a row does to the variables -/
noncomputable def afterRow (inp : LoadInput) (dups : List Text) (vars : LoadVars) (d : Demand) (t : ℤ) (s : Values) (feeder : Text) : LoadVars :=
  if d.sec ∈ dups ∧ d.p = 0 then { vars with valueType := some t, p := some d.p, q := some d.q }
  else storeLoad inp d.connected { vars with valueType := some t, p := some d.p, q := some d.q } (oldLoad dups vars d.sec) d.sec s
    (some d.p, some d.q) d.users feeder

/-- a row with these powers -/
theorem loadRow_powers {inp : LoadInput} {row : Text × Values} {d : Demand} (h : Form inp row d) (hpos : 0 ≤ d.p ∨ 0 ≤ d.q) {feeder : Text}
    (hf : getEntry d.sec inp.sectionFeeder = some feeder) (dups : List Text) (vars : LoadVars) {t : ℤ} {a b : ℝ} (hg : Given inp row t a b)
    (hp : ∀ v1 v2, inp.num v1 = some a → inp.num v2 = some b →
      rowPowers inp d.connected { vars with valueType := some t } v1 v2 = .ok (true, some d.p, some d.q)) :
    loadRow inp dups vars row = .ok (afterRow inp dups vars d t row.2 feeder) := by
  have hsec := form_section h
  obtain ⟨-, -, -, ⟨ut, hu1, hu2⟩, hc⟩ := h
  obtain ⟨⟨tt, ht1, ht2⟩, ⟨at_, ha1, ha2⟩, ⟨bt, hb1, hb2⟩⟩ := hg
  have hconn : rowConnected inp row.2 = .ok d.connected := by
    unfold rowConnected
    rcases hc with ⟨h1, h2⟩ | ⟨c, ⟨ct, h1, h2⟩, h3⟩
    · rw [h1, h2]
    · rw [h1, h3]; dsimp only; rw [h2]
  have htype : rowType inp vars row.2 = .ok (some t) := by
    unfold rowType
    rw [ht1]; dsimp only; rw [ht2]
  unfold loadRow
  rw [hconn, htype]
  dsimp only
  rw [ha1, hb1]
  dsimp only
  rw [hp at_ bt ha2 hb2]
  dsimp only
  unfold rowLoad
  have hk : keepsRow (some d.p, some d.q) = .ok true := by
    unfold keepsRow
    dsimp only
    rw [decide_eq_true hpos]
  rw [hk]
  dsimp only
  unfold addLoad afterRow
  rw [hsec]
  by_cases hz : d.sec ∈ dups ∧ d.p = 0
  · rw [if_pos ⟨hz.1, congrArg some hz.2⟩, if_pos hz]
  · have hz' : ¬(d.sec ∈ dups ∧ (some d.p, some d.q).1 = some 0) := fun hh => hz ⟨hh.1, by injection hh.2⟩
    rw [if_neg hz', if_neg hz, hf]
    dsimp only
    have husers : rowUsers inp row.2 = .ok d.users := by
      unfold rowUsers
      rw [hu1]; dsimp only; rw [hu2]
    rw [husers]
    rfl

theorem loadRow_says {inp : LoadInput} {row : Text × Values} {d : Demand} (h : Says inp row d) (hpos : 0 ≤ d.p ∨ 0 ≤ d.q) {feeder : Text}
    (hf : getEntry d.sec inp.sectionFeeder = some feeder) (dups : List Text) (vars : LoadVars) :
    ∃ t : ℤ, loadRow inp dups vars row = .ok (afterRow inp dups vars d t row.2 feeder) := by
  obtain ⟨hform, t, a, b, hg, hst⟩ := h
  exact ⟨t, loadRow_powers hform hpos hf dups vars hg fun v1 v2 h1 h2 => rowPowers_stated hst h1 h2 _ rfl⟩

theorem lower_digit {t : Text} {c : Char} (hc : c.toNat < 65) (hl : c.toLower = c) : t = [c] ↔ lower t = [c] := by
  constructor
  · rintro rfl; unfold lower; rw [List.map_singleton, hl]
  · intro h
    unfold lower at h
    rw [List.map_eq_singleton_iff] at h
    obtain ⟨x, rfl, hx⟩ := h
    rw [toLower_eq hc hx]

theorem connectionOf_wiring (v : Text) : connectionOf v = wiring v := by
  have d0 : v = "0".toList ↔ lower v = "0".toList := lower_digit (by decide) (by decide)
  have d1 : v = "1".toList ↔ lower v = "1".toList := lower_digit (by decide) (by decide)
  have d2 : v = "2".toList ↔ lower v = "2".toList := lower_digit (by decide) (by decide)
  have d3 : v = "3".toList ↔ lower v = "3".toList := lower_digit (by decide) (by decide)
  have d4 : v = "4".toList ↔ lower v = "4".toList := lower_digit (by decide) (by decide)
  have d5 : v = "5".toList ↔ lower v = "5".toList := lower_digit (by decide) (by decide)
  unfold connectionOf wiring wirings
  have hl : v.map Char.toLower = lower v := rfl
  simp only [d0, d1, d2, d3, d4, d5, hl]
  generalize lower v = w
  rw [List.find?_cons, List.find?_cons, List.find?_cons, List.find?_nil]
  simp only [List.mem_cons, List.not_mem_nil, or_false]
  by_cases h1 : w = "0".toList ∨ w = "yg".toList ∨ w = "1".toList ∨ w = "y".toList
  · rw [if_pos h1, decide_eq_true h1]; rfl
  · rw [if_neg h1, decide_eq_false h1]
    dsimp only
    by_cases h2 : w = "2".toList ∨ w = "delta".toList ∨ w = "3".toList ∨ w = "open delta".toList ∨ w = "4".toList ∨ w = "closed delta".toList
    · rw [if_pos h2, decide_eq_true h2]; rfl
    · rw [if_neg h2, decide_eq_false h2]
      dsimp only
      by_cases h3 : w = "5".toList ∨ w = "zg".toList
      · rw [if_pos h3, decide_eq_true h3]; rfl
      · rw [if_neg h3, decide_eq_false h3]; rfl

theorem phaseNames_eq {t : Text} (h : t ≠ []) : ∃ u, phaseNames t = some u ∧ '_' :: u = t.flatMap fun ph => ['_', ph] := by
  induction t with
  | nil => exact absurd rfl h
  | cons c t ih =>
    cases t with
    | nil => exact ⟨[c], rfl, rfl⟩
    | cons d t =>
      obtain ⟨u, h1, h2⟩ := ih (by simp)
      refine ⟨c :: '_' :: u, ?_, ?_⟩
      · rw [phaseNames, h1]; rfl
      · rw [List.flatMap_cons, ← h2]; rfl

theorem shares_append (a b : List Demand) : shares (a ++ b) = shares a ++ shares b := List.flatMap_append

theorem loadConnection_none (inp : LoadInput) (sec : Text) :
    loadConnection inp none sec = ((getEntry sec inp.loads).bind fun d => getEntry "connection".toList d).bind wiring := by
  unfold loadConnection
  dsimp only
  cases getEntry sec inp.loads with
  | none => rfl
  | some e =>
    rw [Option.bind_some]
    dsimp only
    cases getEntry "connection".toList e with
    | none => rfl
    | some v => rw [Option.bind_some]; exact connectionOf_wiring v

/-- a load that is made or extended serves one more row -/
theorem serves_store {inp : LoadInput} {row : Text × Values} {d : Demand} (h : Form inp row d) {feeder : Text}
    (hf : getEntry d.sec inp.sectionFeeder = some feeder) (vars : LoadVars) (old : Option LoadRec) (ds : List Demand)
    (ho : (ds = [] ∧ old = none) ∨ ∃ l, old = some l ∧ Serves inp d.sec ds l) :
    ∃ l, (storeLoad inp d.connected vars old d.sec row.2 (some d.p, some d.q) d.users feeder).loads = setEntry d.sec l vars.loads ∧
      Serves inp d.sec (ds ++ [d]) l := by
  refine ⟨_, rfl, ?_, ?_, hf.symm, ?_, ?_, ?_, ?_⟩
  · dsimp only
    unfold loadName
    obtain ⟨u, hu1, hu2⟩ := phaseNames_eq h.2.2.1
    rw [rowPhases_form h, hu1, List.flatMap_append, List.flatMap_append, List.flatMap_singleton, ← hu2]
    rcases ho with ⟨rfl, rfl⟩ | ⟨l, rfl, hs⟩
    · simp
    · dsimp only
      rw [hs.name]
      simp
  · dsimp only
    rw [List.map_append, shares_append]
    congr 1
    · rcases ho with ⟨rfl, rfl⟩ | ⟨l, rfl, hs⟩
      · rfl
      · exact hs.phases
    · unfold phaseLoads shares
      rw [rowPhases_form h, List.map_map, List.flatMap_singleton]
      rfl
  · dsimp only
    unfold loadElement
    rcases ho with ⟨rfl, rfl⟩ | ⟨l, rfl, hs⟩
    · dsimp only
      cases getEntry d.sec inp.sectionData <;> rfl
    · exact hs.element
  · rcases ho with ⟨rfl, rfl⟩ | ⟨l, rfl, hs⟩
    · exact loadConnection_none inp d.sec
    · exact hs.connection
  · rw [List.getLast?_concat]; rfl
  · dsimp only
    unfold loadKva
    rw [List.filterMap_append]
    rcases ho with ⟨rfl, rfl⟩ | ⟨l, rfl, hs⟩
    · cases hc : d.connected with
      | none => simp [hc]
      | some c => simp [hc, mul_comm]
    · cases hc : d.connected with
      | none => simp [hc, hs.kva]
      | some c =>
        dsimp only
        rw [hs.kva]
        by_cases hn : ds.filterMap (·.connected) = []
        · simp [hc, hn, mul_comm]
        · simp [hc, hn]
          ring

/-- the rows that count, when `dups` are the sections with more than one row -/
noncomputable def countedIn (dups : List Text) (ds : List Demand) (sec : Text) : List Demand :=
  ds.filter fun d => d.sec = sec ∧ (d.p ≠ 0 ∨ sec ∉ dups)

theorem countedIn_append (dups : List Text) (ds : List Demand) (d : Demand) (sec : Text) :
    countedIn dups (ds ++ [d]) sec = countedIn dups ds sec ++ if d.sec = sec ∧ (d.p ≠ 0 ∨ sec ∉ dups) then [d] else [] := by
  unfold countedIn
  rw [List.filter_append]
  congr 1
  rw [List.filter_cons, List.filter_nil]
  by_cases h : d.sec = sec ∧ (d.p ≠ 0 ∨ sec ∉ dups)
  · rw [if_pos h, if_pos (decide_eq_true h)]
  · rw [if_neg h, if_neg (by rw [decide_eq_true_iff]; exact h)]

/-- the state of a section -/
def SectionOk (inp : LoadInput) (sec : Text) (ds : List Demand) (o : Option LoadRec) : Prop :=
  (ds = [] ∧ o = none) ∨ (ds ≠ [] ∧ ∃ l, o = some l ∧ Serves inp sec ds l)

theorem loadRows_says {inp : LoadInput} {rows : List (Text × Values)} {ds : List Demand} (h : List.Forall₂ (Says inp) rows ds)
    {dups : List Text} : (∀ d ∈ ds, (0 ≤ d.p ∨ 0 ≤ d.q) ∧ ∃ f, getEntry d.sec inp.sectionFeeder = some f) →
    ∀ (done : List Demand) (vars : LoadVars), (∀ sec, sec ∉ dups → (ofSection (done ++ ds) sec).length ≤ 1) →
    (∀ sec, SectionOk inp sec (countedIn dups done sec) (getEntry sec vars.loads)) →
    ∃ vars', loadRows inp dups vars rows = .ok vars' ∧ ∀ sec, SectionOk inp sec (countedIn dups (done ++ ds) sec) (getEntry sec vars'.loads) := by
  induction h with
  | nil => intro _ done vars _ hok; exact ⟨vars, rfl, fun sec => by rw [List.append_nil]; exact hok sec⟩
  | @cons row d rows ds hr _ ih =>
    intro hall done vars hone hok
    obtain ⟨hpos, feeder, hf⟩ := hall d List.mem_cons_self
    obtain ⟨t, hrow⟩ := loadRow_says hr hpos hf dups vars
    unfold afterRow at hrow
    have hassoc : done ++ d :: ds = (done ++ [d]) ++ ds := by simp
    suffices hstep : ∀ vars', loadRow inp dups vars row = .ok vars' →
        ∀ sec, SectionOk inp sec (countedIn dups (done ++ [d]) sec) (getEntry sec vars'.loads) by
      obtain ⟨vars', h1, h2⟩ := ih (fun x hx => hall x (List.mem_cons_of_mem _ hx)) (done ++ [d]) _ (by rw [← hassoc]; exact hone) (hstep _ hrow)
      refine ⟨vars', ?_, by rw [hassoc]; exact h2⟩
      rw [loadRows, hrow]
      exact h1
    intro vars' hv sec
    rw [hrow] at hv
    injection hv with hv
    subst hv
    rw [countedIn_append]
    by_cases hz : d.sec ∈ dups ∧ d.p = 0
    · rw [if_pos hz, if_neg, List.append_nil]
      · exact hok sec
      · rintro ⟨rfl, h | h⟩
        · exact h hz.2
        · exact h hz.1
    · rw [if_neg hz]
      have hold : (countedIn dups done d.sec = [] ∧ oldLoad dups vars d.sec = none) ∨
          ∃ l, oldLoad dups vars d.sec = some l ∧ Serves inp d.sec (countedIn dups done d.sec) l := by
        unfold oldLoad
        by_cases hd : d.sec ∈ dups
        · rw [if_pos hd]
          rcases hok d.sec with h | ⟨-, h⟩
          · exact Or.inl h
          · exact Or.inr h
        · rw [if_neg hd]
          refine Or.inl ⟨?_, rfl⟩
          have hle := hone d.sec hd
          unfold ofSection at hle
          rw [List.filter_append, List.filter_cons, if_pos (by simp), List.length_append, List.length_cons] at hle
          have hnil : done.filter (fun x => decide (x.sec = d.sec)) = [] := by rw [← List.length_eq_zero_iff]; omega
          unfold countedIn
          rw [List.filter_eq_nil_iff] at hnil ⊢
          intro x hx hc
          rw [decide_eq_true_iff] at hc
          exact hnil x hx (decide_eq_true hc.1)
      obtain ⟨l, hl, hserves⟩ := serves_store hr.1 hf { vars with valueType := some t, p := some d.p, q := some d.q } _ _ hold
      rw [hl, getEntry_setEntry]
      by_cases hs : d.sec = sec
      · subst hs
        have hcond : d.sec = d.sec ∧ (d.p ≠ 0 ∨ d.sec ∉ dups) := by
          refine ⟨rfl, ?_⟩
          by_contra hc
          rw [not_or, not_not, not_not] at hc
          exact hz ⟨hc.2, hc.1⟩
        rw [if_pos hcond, if_pos rfl]
        exact Or.inr ⟨by simp, l, rfl, hserves⟩
      · rw [if_neg (fun hc => hs hc.1), if_neg (fun hc => hs hc.symm), List.append_nil]
        exact hok sec

theorem counted_eq {ds : List Demand} {dups : List Text} {sec : Text} (h : sec ∈ dups ↔ 2 ≤ (ofSection ds sec).length) :
    countedIn dups ds sec = counted ds sec := by
  have hsplit : countedIn dups ds sec = (ofSection ds sec).filter fun d => decide (d.p ≠ 0 ∨ sec ∉ dups) := by
    unfold countedIn ofSection
    rw [List.filter_filter]
    congr 1
    funext d
    rw [Bool.decide_and, Bool.and_comm]
  rw [hsplit]
  unfold counted
  refine List.filter_congr fun d hd => ?_
  have hpos : 0 < (ofSection ds sec).length := List.length_pos_of_mem hd
  have : sec ∉ dups ↔ (ofSection ds sec).length = 1 := by rw [h]; omega
  simp only [this]

/-- Reading the loads: each section with rows has one load, with the phases of its rows, each with its share of the power that the row says,
in the order of the rows, the network and the first node of the section, and the sum of the connected transformers.
Missing: of a section with several rows those without active power are ignored even if they have reactive power (C75_reactive_violated), the
number of users is that of the last row (C75_users_violated); rows with negative powers and unknown types are not read as stated
(C75_negative_violated, C75_leading_violated, C75_type_violated, C75_factor_violated), nor are connections of sections with capital letters and
classes of later rows (C75_connection_violated, C75_class_violated). -/
theorem C75_loads_partial {inp : LoadInput} {rows : List (Text × Values)} {ds : List Demand} (h : List.Forall₂ (Says inp) rows ds)
    (hpos : ∀ d ∈ ds, (0 ≤ d.p ∨ 0 ≤ d.q) ∧ ∃ f, getEntry d.sec inp.sectionFeeder = some f)
    (hkeys : ∀ sec, (∃ d ∈ ds, d.sec = sec ∧ d.again = true) ↔ 2 ≤ (ofSection ds sec).length) :
    ∃ loads, parseLoads inp rows = .ok loads ∧ ∀ sec,
      (counted ds sec = [] → getEntry sec loads = none) ∧
      (counted ds sec ≠ [] → ∃ l, getEntry sec loads = some l ∧ Serves inp sec (counted ds sec) l) := by
  have hd : ∀ sec, sec ∈ duplicateLoads (rows.map (·.1)) ↔ 2 ≤ (ofSection ds sec).length := fun sec => (mem_duplicates (h.imp fun _ _ hx => hx.1) sec).trans (hkeys sec)
  obtain ⟨vars', h1, h2⟩ := loadRows_says h (dups := duplicateLoads (rows.map (·.1))) hpos [] {} (fun sec hs => by
    rw [List.nil_append]; rw [hd] at hs; omega) (fun sec => Or.inl ⟨rfl, rfl⟩)
  refine ⟨vars'.loads, ?_, fun sec => ?_⟩
  · unfold parseLoads
    rw [h1]
  · have := h2 sec
    rw [List.nil_append, counted_eq (hd sec)] at this
    rcases this with ⟨ha, hb⟩ | ⟨ha, hb⟩
    · exact ⟨fun _ => hb, fun hn => absurd ha hn⟩
    · exact ⟨fun hn => absurd hn ha, fun _ => hb⟩

/-- the sum of the powers of the phases -/
noncomputable def totalPower (l : LoadRec) : ℝ × ℝ :=
  ((l.phases.map fun x => (x.powers.map (·.1)).getD 0).sum, (l.phases.map fun x => (x.powers.map (·.2)).getD 0).sum)

theorem shares_sum {ds : List Demand} (h : ∀ d ∈ ds, d.phases ≠ []) :
    ((shares ds).map fun x => (x.2.map (·.1)).getD 0).sum = 1000 * (ds.map (·.p)).sum ∧
      ((shares ds).map fun x => (x.2.map (·.2)).getD 0).sum = 1000 * (ds.map (·.q)).sum := by
  induction ds with
  | nil => simp [shares]
  | cons d ds ih =>
    obtain ⟨h1, h2⟩ := ih fun x hx => h x (List.mem_cons_of_mem _ hx)
    have hn : (d.phases.length : ℝ) ≠ 0 := by
      have := List.length_pos_of_ne_nil (h d List.mem_cons_self)
      exact_mod_cast this.ne'
    have hc : shares (d :: ds) = (d.phases.map fun ph => (ph, some (1000 * d.p / d.phases.length, 1000 * d.q / d.phases.length))) ++ shares ds := by
      unfold shares; rw [List.flatMap_cons]
    rw [hc, List.map_append, List.map_append, List.sum_append, List.sum_append, h1, h2, List.map_map, List.map_map]
    constructor
    · have : (d.phases.map ((fun x : Char × Option (ℝ × ℝ) => (x.2.map (·.1)).getD 0) ∘ fun ph =>
          (ph, some (1000 * d.p / d.phases.length, 1000 * d.q / d.phases.length)))) = d.phases.map fun _ => 1000 * d.p / (d.phases.length : ℝ) := rfl
      rw [this, List.map_const', List.sum_replicate, nsmul_eq_mul, List.map_cons, List.sum_cons]
      field_simp
    · have : (d.phases.map ((fun x : Char × Option (ℝ × ℝ) => (x.2.map (·.2)).getD 0) ∘ fun ph =>
          (ph, some (1000 * d.p / d.phases.length, 1000 * d.q / d.phases.length)))) = d.phases.map fun _ => 1000 * d.q / (d.phases.length : ℝ) := rfl
      rw [this, List.map_const', List.sum_replicate, nsmul_eq_mul, List.map_cons, List.sum_cons]
      field_simp

/-- No power is lost: the load of a section has the sum of the powers of its rows, if rows without active power have no reactive power either. -/
theorem C75_power_partial {inp : LoadInput} {rows : List (Text × Values)} {ds : List Demand} (h : List.Forall₂ (Says inp) rows ds)
    (hpos : ∀ d ∈ ds, (0 ≤ d.p ∨ 0 ≤ d.q) ∧ ∃ f, getEntry d.sec inp.sectionFeeder = some f)
    (hkeys : ∀ sec, (∃ d ∈ ds, d.sec = sec ∧ d.again = true) ↔ 2 ≤ (ofSection ds sec).length)
    (hzero : ∀ d ∈ ds, d.p = 0 → d.q = 0) {sec : Text} (hsec : ∃ d ∈ ds, d.sec = sec ∧ d.p ≠ 0) :
    ∃ loads l, parseLoads inp rows = .ok loads ∧ getEntry sec loads = some l ∧
      totalPower l = (1000 * ((ofSection ds sec).map (·.p)).sum, 1000 * ((ofSection ds sec).map (·.q)).sum) := by
  obtain ⟨loads, h1, h2⟩ := C75_loads_partial h hpos hkeys
  have hne : counted ds sec ≠ [] := by
    obtain ⟨d, hd, hs, hp⟩ := hsec
    intro hn
    unfold counted at hn
    rw [List.filter_eq_nil_iff] at hn
    exact hn d (List.mem_filter.mpr ⟨hd, decide_eq_true hs⟩) (decide_eq_true (Or.inl hp))
  obtain ⟨l, hl, hserves⟩ := (h2 sec).2 hne
  refine ⟨loads, l, h1, hl, ?_⟩
  have hph : ∀ d ∈ counted ds sec, d.phases ≠ [] := by
    intro d hd
    have hm : d ∈ ds := (List.mem_filter.mp (List.mem_filter.mp hd).1).1
    obtain ⟨row, -, hr⟩ := forall₂_left h hm
    exact hr.1.2.2.1
  have hsum : ∀ (f : Demand → ℝ) (P : Demand → Bool) (l : List Demand), (∀ d ∈ l, P d = false → f d = 0) → ((l.filter P).map f).sum = (l.map f).sum := by
    intro f P l
    induction l with
    | nil => intro _; rfl
    | cons d l ih =>
      intro hf
      rw [List.filter_cons]
      have ih := ih fun x hx => hf x (List.mem_cons_of_mem _ hx)
      cases hP : P d with
      | true => rw [if_pos rfl, List.map_cons, List.map_cons, List.sum_cons, List.sum_cons, ih]
      | false => rw [if_neg (by decide), ih, List.map_cons, List.sum_cons, hf d List.mem_cons_self hP, zero_add]
  have hzero' : ∀ d ∈ ofSection ds sec, decide (d.p ≠ 0 ∨ (ofSection ds sec).length = 1) = false → d.p = 0 := by
    intro d _ hc
    rw [decide_eq_false_iff_not, not_or, not_not] at hc
    exact hc.1
  have hmem : ∀ d ∈ ofSection ds sec, d ∈ ds := fun d hd => (List.mem_filter.mp hd).1
  obtain ⟨s1, s2⟩ := shares_sum hph
  rw [← hserves.phases, List.map_map] at s1 s2
  have e1 := hsum (·.p) (fun d => decide (d.p ≠ 0 ∨ (ofSection ds sec).length = 1)) (ofSection ds sec) hzero'
  have e2 := hsum (·.q) (fun d => decide (d.p ≠ 0 ∨ (ofSection ds sec).length = 1)) (ofSection ds sec)
    fun d hd hc => hzero d (hmem d hd) (hzero' d hd hc)
  unfold totalPower
  refine Prod.ext ?_ ?_
  · dsimp only
    rw [← e1]
    exact s1
  · dsimp only
    rw [← e2]
    exact s2

/-- A section with several rows that have only reactive power has no load. -/
theorem C75_reactive_violated {inp : LoadInput} {rows : List (Text × Values)} {ds : List Demand} (h : List.Forall₂ (Says inp) rows ds)
    (hpos : ∀ d ∈ ds, (0 ≤ d.p ∨ 0 ≤ d.q) ∧ ∃ f, getEntry d.sec inp.sectionFeeder = some f)
    (hkeys : ∀ sec, (∃ d ∈ ds, d.sec = sec ∧ d.again = true) ↔ 2 ≤ (ofSection ds sec).length)
    {sec : Text} (h2 : 2 ≤ (ofSection ds sec).length) (hz : ∀ d ∈ ds, d.sec = sec → d.p = 0 ∧ 0 < d.q) :
    ∃ loads, parseLoads inp rows = .ok loads ∧ getEntry sec loads = none := by
  obtain ⟨loads, h1, hl⟩ := C75_loads_partial h hpos hkeys
  refine ⟨loads, h1, (hl sec).1 ?_⟩
  unfold counted
  rw [List.filter_eq_nil_iff]
  intro d hd hc
  obtain ⟨hm, hs⟩ := List.mem_filter.mp hd
  rw [decide_eq_true_iff] at hc
  rcases hc with hc | hc
  · exact hc (hz d hm (of_decide_eq_true hs)).1
  · omega

/-- A section with two rows has the users of the second one only. -/
theorem C75_users_violated {inp : LoadInput} {rows : List (Text × Values)} {d d' : Demand} (h : List.Forall₂ (Says inp) rows [d, d'])
    (hpos : ∀ x ∈ [d, d'], (0 ≤ x.p ∨ 0 ≤ x.q) ∧ ∃ f, getEntry x.sec inp.sectionFeeder = some f)
    (hsec : d'.sec = d.sec) (ha : d.again = false) (ha' : d'.again = true) (hp : d.p ≠ 0) (hp' : d'.p ≠ 0) (hu : d.users ≠ 0) :
    ∃ loads l, parseLoads inp rows = .ok loads ∧ getEntry d.sec loads = some l ∧ l.users = some d'.users ∧
      l.users ≠ some (d.users + d'.users) := by
  have hof : ∀ sec, ofSection [d, d'] sec = if d.sec = sec then [d, d'] else [] := by
    intro sec
    unfold ofSection
    by_cases hs : d.sec = sec
    · rw [if_pos hs, List.filter_cons, if_pos (decide_eq_true hs), List.filter_cons, if_pos (decide_eq_true (hsec.trans hs)), List.filter_nil]
    · rw [if_neg hs, List.filter_eq_nil_iff]
      intro x hx
      rw [decide_eq_true_iff]
      rcases List.mem_cons.mp hx with rfl | hx
      · exact hs
      · rw [List.mem_singleton.mp hx, hsec]; exact hs
  obtain ⟨loads, h1, h2⟩ := C75_loads_partial h hpos (fun sec => by
    rw [hof]
    by_cases hs : d.sec = sec
    · rw [if_pos hs]
      exact ⟨fun _ => le_refl 2, fun _ => ⟨d', by simp, hsec.trans hs, ha'⟩⟩
    · rw [if_neg hs]
      constructor
      · rintro ⟨x, hx, hxs, -⟩
        rcases List.mem_cons.mp hx with rfl | hx
        · exact absurd hxs hs
        · rw [List.mem_singleton.mp hx, hsec] at hxs; exact absurd hxs hs
      · intro hl; simp at hl)
  have hc : counted [d, d'] d.sec = [d, d'] := by
    unfold counted
    rw [hof, if_pos rfl, List.filter_eq_self]
    intro x hx
    rw [decide_eq_true_iff]
    rcases List.mem_cons.mp hx with rfl | hx
    · exact Or.inl hp
    · rw [List.mem_singleton.mp hx]; exact Or.inl hp'
  obtain ⟨l, hl, hs⟩ := (h2 d.sec).2 (by rw [hc]; simp)
  rw [hc] at hs
  refine ⟨loads, l, h1, hl, hs.users, ?_⟩
  rw [hs.users]
  intro he
  have : d'.users = d.users + d'.users := by injection he
  exact hu (by linarith)

theorem loadRows_append (inp : LoadInput) (dups : List Text) (rows rows' : List (Text × Values)) : ∀ vars,
    loadRows inp dups vars (rows ++ rows') = match loadRows inp dups vars rows with
      | .error e => .error e
      | .ok v => loadRows inp dups v rows' := by
  induction rows with
  | nil => intro vars; rfl
  | cons row rows ih =>
    intro vars
    rw [List.cons_append, loadRows, loadRows]
    cases loadRow inp dups vars row with
    | error e => rfl
    | ok v => exact ih v

theorem loadRows_step {inp : LoadInput} {dups : List Text} {vars v : LoadVars} {row : Text × Values} (h : loadRow inp dups vars row = .ok v)
    (rows : List (Text × Values)) : loadRows inp dups vars (row :: rows) = loadRows inp dups v rows := by
  rw [loadRows, h]

theorem loadRows_nil (inp : LoadInput) (dups : List Text) (vars : LoadVars) : loadRows inp dups vars [] = .ok vars := rfl

/-- A row with negative powers, as of a generator, is ignored. -/
theorem C75_negative_violated {inp : LoadInput} (rows : List (Text × Values)) {row : Text × Values} {d : Demand} (h : Form inp row d)
    (hagain : d.again = false) {p q : ℝ} (hg : Given inp row 0 p q) (hp : p < 0) (hq : q < 0) :
    parseLoads inp (rows ++ [row]) = parseLoads inp rows := by
  have hlast : ¬ row.1.getLast? = some '*' := by
    have := (mem_duplicates (List.Forall₂.cons h List.Forall₂.nil) (stripStars (lower row.1))).not.mpr (by
      rintro ⟨x, hx, -, hx2⟩
      rw [List.mem_singleton.mp hx, hagain] at hx2
      cases hx2)
    intro hl
    apply this
    unfold duplicateLoads
    rw [List.map_cons, List.map_nil, List.filter_cons, if_pos (decide_eq_true hl), List.map_cons]
    exact List.mem_cons_self
  have hdup : duplicateLoads ((rows ++ [row]).map (·.1)) = duplicateLoads (rows.map (·.1)) := by
    unfold duplicateLoads
    rw [List.map_append, List.filter_append, List.map_cons, List.map_nil, List.filter_cons,
      if_neg (by rw [decide_eq_true_iff]; exact hlast), List.filter_nil, List.append_nil]
  have hrow : ∀ dups vars, loadRow inp dups vars row = .ok { vars with valueType := some 0, p := some p, q := some q } := by
    intro dups vars
    obtain ⟨-, -, -, -, hc⟩ := h
    obtain ⟨⟨tt, ht1, ht2⟩, ⟨at_, ha1, ha2⟩, ⟨bt, hb1, hb2⟩⟩ := hg
    have hconn : rowConnected inp row.2 = .ok d.connected := by
      unfold rowConnected
      rcases hc with ⟨h1, h2⟩ | ⟨c, ⟨ct, h1, h2⟩, h3⟩
      · rw [h1, h2]
      · rw [h1, h3]; dsimp only; rw [h2]
    have htype : rowType inp vars row.2 = .ok (some 0) := by
      unfold rowType
      rw [ht1]; dsimp only; rw [ht2]
    unfold loadRow
    rw [hconn, htype]
    dsimp only
    rw [ha1, hb1]
    dsimp only
    have hpw : rowPowers inp d.connected { vars with valueType := some 0 } at_ bt = .ok (true, some p, some q) := by
      unfold rowPowers
      rw [ha2]
      dsimp only
      rw [if_neg hp.ne, hb2]
      rfl
    rw [hpw]
    dsimp only
    unfold rowLoad keepsRow
    dsimp only
    rw [decide_eq_false (by rintro (h | h) <;> linarith)]
  unfold parseLoads
  rw [hdup, loadRows_append]
  cases loadRows inp (duplicateLoads (rows.map (·.1))) {} rows with
  | error e => rfl
  | ok v =>
    dsimp only
    rw [loadRows, hrow]
    rfl

theorem total_phases {inp : LoadInput} {ds : List Demand} {sec : Text} {l : LoadRec} (h : Serves inp sec ds l) (hp : ∀ d ∈ ds, d.phases ≠ []) :
    totalPower l = (1000 * (ds.map (·.p)).sum, 1000 * (ds.map (·.q)).sum) := by
  obtain ⟨s1, s2⟩ := shares_sum hp
  rw [← h.phases, List.map_map] at s1 s2
  exact Prod.ext s1 s2

/-- a row of a section without other rows makes a load of this row only -/
theorem afterRow_only {inp : LoadInput} {row : Text × Values} {d : Demand} (h : Form inp row d) {feeder : Text}
    (hf : getEntry d.sec inp.sectionFeeder = some feeder) {dups : List Text} (hd : d.sec ∉ dups) (vars : LoadVars) (t : ℤ) :
    ∃ l, (afterRow inp dups vars d t row.2 feeder).loads = setEntry d.sec l vars.loads ∧ Serves inp d.sec [d] l := by
  unfold afterRow
  rw [if_neg (fun hc => hd hc.1)]
  have ho : oldLoad dups vars d.sec = none := by unfold oldLoad; rw [if_neg hd]
  obtain ⟨l, h1, h2⟩ := serves_store h hf { vars with valueType := some t, p := some d.p, q := some d.q } _ [] (Or.inl ⟨rfl, ho⟩)
  exact ⟨l, h1, h2⟩

/-- a row with these powers, alone -/
theorem parseLoads_one {inp : LoadInput} {row : Text × Values} {d : Demand} (h : Form inp row d) (hagain : d.again = false)
    (hpos : 0 ≤ d.p ∨ 0 ≤ d.q) {feeder : Text} (hf : getEntry d.sec inp.sectionFeeder = some feeder) {t : ℤ} {a b : ℝ} (hg : Given inp row t a b)
    (hp : ∀ v1 v2, inp.num v1 = some a → inp.num v2 = some b →
      rowPowers inp d.connected { valueType := some t } v1 v2 = .ok (true, some d.p, some d.q)) :
    ∃ l, parseLoads inp [row] = .ok [(d.sec, l)] ∧ Serves inp d.sec [d] l := by
  have hd : d.sec ∉ duplicateLoads ([row].map (·.1)) := (mem_duplicates (List.Forall₂.cons h List.Forall₂.nil) d.sec).not.mpr (by
    rintro ⟨x, hx, -, hx2⟩
    rw [List.mem_singleton.mp hx, hagain] at hx2
    cases hx2)
  obtain ⟨l, h1, h2⟩ := afterRow_only h hf hd {} t
  refine ⟨l, ?_, h2⟩
  unfold parseLoads
  rw [loadRows_step (loadRow_powers h hpos hf _ {} hg hp), loadRows_nil]
  dsimp only
  rw [h1]
  rfl

/-- A leading power factor makes the load a generator: with an apparent power `s` and a power factor of `-f` percent, its active power is
`-s * f / 100`. -/
theorem C75_leading_violated {inp : LoadInput} {row : Text × Values} {d : Demand} (h : Form inp row d) (hagain : d.again = false)
    {feeder : Text} (hf : getEntry d.sec inp.sectionFeeder = some feeder) {s f : ℝ} (hg : Given inp row 1 s (-f)) (hs : 0 < s) (hf0 : 0 < f)
    (hf1 : f ≤ 100) : ∃ l, parseLoads inp [row] = .ok [(d.sec, l)] ∧ (totalPower l).1 = -(10 * s * f) ∧ 0 ≤ (totalPower l).2 := by
  have hroot : ¬ s ^ 2 - (s * (-f * (1 / 100))) ^ 2 < 0 := by
    have h1 : 0 ≤ s ^ 2 := sq_nonneg s
    have h2 : f ^ 2 ≤ 100 ^ 2 := by nlinarith
    have : s ^ 2 - (s * (-f * (1 / 100))) ^ 2 = s ^ 2 * (100 ^ 2 - f ^ 2) / 100 ^ 2 := by ring
    rw [this, not_lt]
    exact div_nonneg (mul_nonneg h1 (by linarith)) (by norm_num)
  have hform : Form inp row { d with p := s * (-f * (1 / 100)), q := √(s ^ 2 - (s * (-f * (1 / 100))) ^ 2) } := h
  obtain ⟨l, h1, h2⟩ := parseLoads_one hform hagain (Or.inr (Real.sqrt_nonneg _)) hf hg (by
    intro v1 v2 e1 e2
    unfold rowPowers
    rw [e1, e2]
    dsimp only
    rw [if_neg hs.ne']
    unfold powersOf
    dsimp only
    rw [if_neg (by decide), if_pos rfl]
    have ha : apparentPower d.connected s = s := by
      unfold apparentPower
      cases d.connected with
      | none => rfl
      | some c => exact if_neg hs.ne'
    unfold kvaPowers
    rw [ha, if_neg hroot])
  refine ⟨l, h1, ?_, ?_⟩
  · rw [total_phases h2 (fun x hx => by rw [List.mem_singleton.mp hx]; exact h.2.2.1)]
    simp only [List.map_cons, List.map_nil, List.sum_cons, List.sum_nil]
    ring
  · rw [total_phases h2 (fun x hx => by rw [List.mem_singleton.mp hx]; exact h.2.2.1)]
    simp only [List.map_cons, List.map_nil, List.sum_cons, List.sum_nil, add_zero]
    exact mul_nonneg (by norm_num) (Real.sqrt_nonneg _)

/-- two rows of different sections -/
theorem parseLoads_two {inp : LoadInput} {row row' : Text × Values} {d d' : Demand} (h : Says inp row d) (hpos : 0 ≤ d.p ∨ 0 ≤ d.q)
    (h' : Form inp row' d') (hpos' : 0 ≤ d'.p ∨ 0 ≤ d'.q)
    (ha : d.again = false) (ha' : d'.again = false) {feeder feeder' : Text} (hf : getEntry d.sec inp.sectionFeeder = some feeder)
    (hf' : getEntry d'.sec inp.sectionFeeder = some feeder') {t : ℤ} {a b : ℝ} (hg : Given inp row' t a b)
    (hp : ∀ v1 v2 (vars : LoadVars), inp.num v1 = some a → inp.num v2 = some b → vars.p = some d.p → vars.q = some d.q → vars.valueType = some t →
      rowPowers inp d'.connected vars v1 v2 = .ok (true, some d'.p, some d'.q)) :
    ∃ loads l, parseLoads inp [row, row'] = .ok loads ∧ getEntry d'.sec loads = some l ∧ Serves inp d'.sec [d'] l := by
  have hd : ∀ sec, sec ∉ duplicateLoads ([row, row'].map (·.1)) := fun sec =>
    (mem_duplicates (List.Forall₂.cons h.1 (List.Forall₂.cons h' List.Forall₂.nil)) sec).not.mpr (by
      rintro ⟨x, hx, -, hx2⟩
      rcases List.mem_cons.mp hx with rfl | hx
      · rw [ha] at hx2; cases hx2
      · rw [List.mem_singleton.mp hx, ha'] at hx2; cases hx2)
  obtain ⟨t1, hrow⟩ := loadRow_says h hpos hf (duplicateLoads ([row, row'].map (·.1))) {}
  have hv : (afterRow inp (duplicateLoads ([row, row'].map (·.1))) {} d t1 row.2 feeder).p = some d.p ∧
      (afterRow inp (duplicateLoads ([row, row'].map (·.1))) {} d t1 row.2 feeder).q = some d.q := by
    unfold afterRow
    rw [if_neg (fun hc => hd _ hc.1)]
    exact ⟨rfl, rfl⟩
  obtain ⟨l, h1, h2⟩ := afterRow_only h' hf' (hd _) (afterRow inp (duplicateLoads ([row, row'].map (·.1))) {} d t1 row.2 feeder) t
  refine ⟨(afterRow inp (duplicateLoads ([row, row'].map (·.1))) (afterRow inp (duplicateLoads ([row, row'].map (·.1))) {} d t1 row.2 feeder)
    d' t row'.2 feeder').loads, l, ?_, ?_, h2⟩
  · unfold parseLoads
    rw [loadRows_step hrow, loadRows_step (loadRow_powers h' hpos' hf' _ _ hg (fun v1 v2 e1 e2 => hp v1 v2 _ e1 e2 hv.1 hv.2 rfl)), loadRows_nil]
  · rw [h1, getEntry_setEntry, if_pos rfl]

/-- A row with an unknown type of values has the powers of the row before. -/
theorem C75_type_violated {inp : LoadInput} {row row' : Text × Values} {d d' : Demand} (h : Says inp row d) (hpos : 0 ≤ d.p ∨ 0 ≤ d.q)
    (h' : Form inp row' d') (ha : d.again = false) (ha' : d'.again = false) {feeder feeder' : Text}
    (hf : getEntry d.sec inp.sectionFeeder = some feeder) (hf' : getEntry d'.sec inp.sectionFeeder = some feeder') {t : ℤ} {a b : ℝ}
    (hg : Given inp row' t a b) (ht : t ∉ [0, 1, 2, 3]) (hab : ¬(a = 0 ∧ b = 0)) :
    ∃ loads l, parseLoads inp [row, row'] = .ok loads ∧ getEntry d'.sec loads = some l ∧ totalPower l = (1000 * d.p, 1000 * d.q) := by
  have hform : Form inp row' { d' with p := d.p, q := d.q } := h'
  simp only [List.mem_cons, List.not_mem_nil, or_false, not_or] at ht
  obtain ⟨loads, l, h1, h2, h3⟩ := parseLoads_two h hpos hform hpos ha ha' hf hf' hg (by
    intro v1 v2 vars e1 e2 ep eq et
    have hpw : ∀ o, powersOf d'.connected vars a o = .ok (true, some d.p, some d.q) := by
      intro o
      unfold powersOf
      rw [et]
      dsimp only
      rw [if_neg ht.1, if_neg ht.2.1, if_neg ht.2.2.1, if_neg ht.2.2.2, ep, eq]
    unfold rowPowers
    rw [e1, e2]
    dsimp only
    by_cases ha0 : a = 0
    · rw [if_pos ha0, if_neg (fun hb => hab ⟨ha0, hb⟩)]; exact hpw _
    · rw [if_neg ha0]; exact hpw _)
  refine ⟨loads, l, h1, h2, ?_⟩
  rw [total_phases h3 (fun x hx => by rw [List.mem_singleton.mp hx]; exact h'.2.2.1)]
  simp only [List.map_cons, List.map_nil, List.sum_cons, List.sum_nil, add_zero]

/-- A row with active power and a negative power factor has the reactive power of the row before. -/
theorem C75_factor_violated {inp : LoadInput} {row row' : Text × Values} {d d' : Demand} (h : Says inp row d) (hpos : 0 ≤ d.p ∨ 0 ≤ d.q)
    (h' : Form inp row' d') (ha : d.again = false) (ha' : d'.again = false) {feeder feeder' : Text}
    (hf : getEntry d.sec inp.sectionFeeder = some feeder) (hf' : getEntry d'.sec inp.sectionFeeder = some feeder') {p f : ℝ}
    (hg : Given inp row' 2 p f) (hp : 0 ≤ p) (hfac : f < 0) :
    ∃ loads l, parseLoads inp [row, row'] = .ok loads ∧ getEntry d'.sec loads = some l ∧ totalPower l = (1000 * p, 1000 * d.q) := by
  have hform : Form inp row' { d' with p := p, q := d.q } := h'
  obtain ⟨loads, l, h1, h2, h3⟩ := parseLoads_two h hpos hform (Or.inl hp) ha ha' hf hf' hg (by
    intro v1 v2 vars e1 e2 ep eq et
    have hpw : powersOf d'.connected vars p (some f) = .ok (true, some p, some d.q) := by
      unfold powersOf
      rw [et]
      dsimp only
      rw [if_neg (by decide), if_neg (by decide), if_pos rfl]
      have : factorPower p f = some none := by
        unfold factorPower
        rw [if_neg (fun hc => by linarith [hc.1]), if_neg (fun hc => by linarith [hc.1])]
      rw [this]
      dsimp only
      rw [eq]
    unfold rowPowers
    rw [e1, e2]
    dsimp only
    by_cases ha0 : p = 0
    · rw [if_pos ha0, if_neg hfac.ne]; exact hpw
    · rw [if_neg ha0]; exact hpw)
  refine ⟨loads, l, h1, h2, ?_⟩
  rw [total_phases h3 (fun x hx => by rw [List.mem_singleton.mp hx]; exact h'.2.2.1)]
  simp only [List.map_cons, List.map_nil, List.sum_cons, List.sum_nil, add_zero]

/-- If the phases are in the last column, whose cells keep the end of the line (C73_last_column_violated), then the end of the line is a
phase and has its share of the power. -/
theorem C75_line_end_violated {inp : LoadInput} {row : Text × Values} {d : Demand} (h : Says inp row d) (hpos : 0 ≤ d.p ∨ 0 ≤ d.q)
    (hagain : d.again = false) {feeder : Text} (hf : getEntry d.sec inp.sectionFeeder = some feeder) {phases : Text}
    (hph : d.phases = phases ++ ['\n']) : ∃ l, parseLoads inp [row] = .ok [(d.sec, l)] ∧
      l.phases.map (fun x => (x.phase, x.powers)) = (phases ++ ['\n']).map fun ph =>
        (ph, some (1000 * d.p / (phases.length + 1), 1000 * d.q / (phases.length + 1))) := by
  obtain ⟨hform, t, a, b, hg, hst⟩ := h
  obtain ⟨l, h1, h2⟩ := parseLoads_one hform hagain hpos hf hg (fun v1 v2 e1 e2 => rowPowers_stated hst e1 e2 _ rfl)
  refine ⟨l, h1, ?_⟩
  rw [h2.phases]
  unfold shares
  rw [List.flatMap_singleton, hph, List.length_append, List.length_singleton, Nat.cast_add, Nat.cast_one]

/-- A row of a section that is not in the file ends the reading with an error. -/
theorem C75_unknown_section {inp : LoadInput} {row : Text × Values} (rest : List (Text × Values)) {d : Demand} (h : Form inp row d) {p q : ℝ}
    (hg : Given inp row 0 p q) (hp : 0 < p) (hf : getEntry d.sec inp.sectionFeeder = none) :
    parseLoads inp (row :: rest) = .error .keyError := by
  have hsec := form_section h
  obtain ⟨-, -, -, -, hc⟩ := h
  obtain ⟨⟨tt, ht1, ht2⟩, ⟨at_, ha1, ha2⟩, ⟨bt, hb1, hb2⟩⟩ := hg
  have hconn : rowConnected inp row.2 = .ok d.connected := by
    unfold rowConnected
    rcases hc with ⟨h1, h2⟩ | ⟨c, ⟨ct, h1, h2⟩, h3⟩
    · rw [h1, h2]
    · rw [h1, h3]; dsimp only; rw [h2]
  have htype : ∀ vars, rowType inp vars row.2 = .ok (some 0) := by
    intro vars
    unfold rowType
    rw [ht1]; dsimp only; rw [ht2]
  unfold parseLoads
  rw [loadRows]
  unfold loadRow
  rw [hconn, htype]
  dsimp only
  rw [ha1, hb1]
  dsimp only
  have hpw : ∀ vars : LoadVars, vars.valueType = some 0 → rowPowers inp d.connected vars at_ bt = .ok (true, some p, some q) := by
    intro vars hv
    unfold rowPowers
    rw [ha2]
    dsimp only
    rw [if_neg hp.ne', hb2]
    unfold powersOf
    rw [hv]
    dsimp only
    rw [if_pos rfl]
  rw [hpw _ rfl]
  dsimp only
  unfold rowLoad keepsRow
  dsimp only
  rw [decide_eq_true (Or.inl hp.le)]
  dsimp only
  unfold addLoad
  rw [hsec, if_neg (fun hc => hp.ne' (by injection hc.2)), hf]

/-- no load has a connection -/
def Unconnected (vars : LoadVars) : Prop := ∀ sec l, getEntry sec vars.loads = some l → l.connection = none

theorem loadRow_unconnected {inp : LoadInput} (hl : ∀ k v, getEntry k inp.loads = some v → lower k ≠ k) {dups : List Text} {vars vars' : LoadVars}
    {row : Text × Values} (hu : Unconnected vars) (h : loadRow inp dups vars row = .ok vars') : Unconnected vars' := by
  unfold loadRow at h
  split at h
  · cases h
  split at h
  · cases h
  split at h
  · split at h
    · cases h
    · injection h with h; subst h; exact hu
    · unfold rowLoad at h
      split at h
      · cases h
      · injection h with h; subst h; exact hu
      · unfold addLoad at h
        split at h
        · injection h with h; subst h; exact hu
        · split at h
          · cases h
          · split at h
            · cases h
            · injection h with h
              subst h
              intro sec l hs
              unfold storeLoad at hs
              dsimp only at hs
              rw [getEntry_setEntry] at hs
              split at hs
              · injection hs with hs
                subst hs
                dsimp only
                unfold oldLoad
                dsimp only
                have hnone : loadConnection inp none (rowSection row.1) = none := by
                  rw [loadConnection_none]
                  cases hg : getEntry (rowSection row.1) inp.loads with
                  | none => rfl
                  | some v => exact absurd (lower_idem _) (hl _ v hg)
                split
                · cases ho : getEntry (rowSection row.1) vars.loads with
                  | none => exact hnone
                  | some l => exact hu _ l ho
                · exact hnone
              · exact hu _ _ hs
  · injection h with h; subst h; exact hu

theorem loadRows_unconnected {inp : LoadInput} (hl : ∀ k v, getEntry k inp.loads = some v → lower k ≠ k) {dups : List Text} :
    ∀ {rows : List (Text × Values)} {vars vars' : LoadVars}, Unconnected vars → loadRows inp dups vars rows = .ok vars' → Unconnected vars' := by
  intro rows
  induction rows with
  | nil => intro vars vars' hu h; injection h with h; subst h; exact hu
  | cons row rows ih =>
    intro vars vars' hu h
    rw [loadRows] at h
    split at h
    · cases h
    · rename_i v hv
      exact ih (loadRow_unconnected hl hu hv) h

/-- The connections are looked up by the section in lower case: if the sections in the table of the connections have capital letters, no load
has a connection. -/
theorem C75_connection_violated {inp : LoadInput} (hl : ∀ k v, getEntry k inp.loads = some v → k.map Char.toLower ≠ k) {rows : List (Text × Values)}
    {loads : List (Text × LoadRec)} (h : parseLoads inp rows = .ok loads) {sec : Text} {l : LoadRec} (hs : getEntry sec loads = some l) :
    l.connection = none := by
  unfold parseLoads at h
  split at h
  · cases h
  · rename_i v hv
    injection h with h
    subst h
    exact loadRows_unconnected hl (vars := {}) (fun _ _ hn => nomatch hn) hv sec l hs

theorem loadClass_known {inp : LoadInput} {s before : Values} {k : Text} {c : Values} (hk : getEntry "loadtype".toList s = some k)
    (hc : getEntry k inp.classes = some c) : loadClass inp none before s = c := by
  unfold loadClass
  dsimp only
  rw [hk]
  dsimp only
  rw [hc]

theorem afterRow_phases {inp : LoadInput} {dups : List Text} {vars : LoadVars} {d : Demand} (hp : d.p ≠ 0) (t : ℤ) (s : Values) (feeder : Text) :
    ∃ l, (afterRow inp dups vars d t s feeder).loads = setEntry d.sec l vars.loads ∧
      l.phases = oldPhases (oldLoad dups vars d.sec) ++
        phaseLoads inp (loadClass inp (oldLoad dups vars d.sec) vars.classData s) (rowPhases s) (some d.p, some d.q) := by
  unfold afterRow
  rw [if_neg (fun hc => hp hc.2)]
  exact ⟨_, rfl, rfl⟩

theorem zipShares_number {inp : LoadInput} {c : Values} {k : Text} {x : ℝ} (h : Number inp.num c k x) (ks : List Text) :
    zipShares inp c (k :: ks) = x / 100 :: zipShares inp c ks := by
  obtain ⟨t, h1, h2⟩ := h
  rw [zipShares]
  unfold zipShare
  rw [h1]
  dsimp only
  rw [h2]
  rfl

theorem zipShares_percentages {inp : LoadInput} {c : Values} {zs : List ℝ} (h : Percentages inp c zs) : zipShares inp c zipNames = zs := by
  obtain ⟨ip, iq, pp, pq, zp, zq, h1, h2, h3, h4, h5, h6, rfl⟩ := h
  unfold zipNames
  rw [zipShares_number h1, zipShares_number h2, zipShares_number h3, zipShares_number h4, zipShares_number h5, zipShares_number h6]
  rfl

/-- rows of other sections leave the load of a section alone -/
theorem loadRows_other {inp : LoadInput} {rows : List (Text × Values)} {ds : List Demand} (h : List.Forall₂ (Says inp) rows ds)
    {dups : List Text} {sec : Text} : (∀ d ∈ ds, (0 ≤ d.p ∨ 0 ≤ d.q) ∧ ∃ f, getEntry d.sec inp.sectionFeeder = some f) →
    (∀ d ∈ ds, d.sec ≠ sec) → ∀ vars, ∃ vars', loadRows inp dups vars rows = .ok vars' ∧ getEntry sec vars'.loads = getEntry sec vars.loads := by
  induction h with
  | nil => intro _ _ vars; exact ⟨vars, rfl, rfl⟩
  | @cons row d rows ds hr _ ih =>
    intro hall hne vars
    obtain ⟨hpos, f, hf⟩ := hall d List.mem_cons_self
    obtain ⟨t, hrow⟩ := loadRow_says hr hpos hf dups vars
    obtain ⟨v, h1, h2⟩ := ih (fun x hx => hall x (List.mem_cons_of_mem _ hx)) (fun x hx => hne x (List.mem_cons_of_mem _ hx))
      (afterRow inp dups vars d t row.2 f)
    refine ⟨v, by rw [loadRows_step hrow, h1], h2.trans ?_⟩
    unfold afterRow
    split
    · rfl
    · show getEntry sec (setEntry d.sec _ vars.loads) = _
      rw [getEntry_setEntry, if_neg (hne d List.mem_cons_self).symm]

/-- The phases of a load with one row have the shares of constant current, power and impedance of the class of customers that the row names.
Missing are sections with several rows (`C75_class_violated`) and classes that lack some of the percentages. -/
theorem C75_shares_partial {inp : LoadInput} {before after : List (Text × Values)} {row : Text × Values} {ds₁ ds₂ : List Demand} {d : Demand}
    (h₁ : List.Forall₂ (Says inp) before ds₁) (h : Says inp row d) (h₂ : List.Forall₂ (Says inp) after ds₂)
    (hpos : ∀ x ∈ ds₁ ++ d :: ds₂, (0 ≤ x.p ∨ 0 ≤ x.q) ∧ ∃ f, getEntry x.sec inp.sectionFeeder = some f)
    (hother : ∀ x ∈ ds₁ ++ ds₂, x.sec ≠ d.sec) (hagain : d.again = false) {k : Text} {c : Values} {zs : List ℝ}
    (hk : getEntry "loadtype".toList row.2 = some k) (hc : getEntry k inp.classes = some c) (hz : Percentages inp c zs) :
    ∃ loads l, parseLoads inp (before ++ row :: after) = .ok loads ∧ getEntry d.sec loads = some l ∧
      l.phases.map (fun x => (x.phase, x.zip)) = d.phases.map (fun ph => (ph, zs)) := by
  have hform : List.Forall₂ (Form inp) (before ++ row :: after) (ds₁ ++ d :: ds₂) :=
    List.rel_append (h₁.imp fun _ _ hx => hx.1) (List.Forall₂.cons h.1 (h₂.imp fun _ _ hx => hx.1))
  have hdup : d.sec ∉ duplicateLoads ((before ++ row :: after).map (·.1)) := (mem_duplicates hform _).not.mpr (by
    rintro ⟨x, hx, hxs, hxa⟩
    rw [List.mem_append, List.mem_cons] at hx
    rcases hx with hx | rfl | hx
    · exact hother x (List.mem_append_left _ hx) hxs
    · rw [hagain] at hxa; cases hxa
    · exact hother x (List.mem_append_right _ hx) hxs)
  unfold parseLoads
  generalize duplicateLoads ((before ++ row :: after).map (·.1)) = dups at hdup
  obtain ⟨v₁, e₁, -⟩ := loadRows_other h₁ (dups := dups) (sec := d.sec) (fun x hx => hpos x (List.mem_append_left _ hx))
    (fun x hx => hother x (List.mem_append_left _ hx)) {}
  obtain ⟨hp, f, hf⟩ := hpos d (List.mem_append_right _ List.mem_cons_self)
  obtain ⟨t, e⟩ := loadRow_says h hp hf dups v₁
  obtain ⟨v₂, e₂, g₂⟩ := loadRows_other h₂ (dups := dups) (sec := d.sec)
    (fun x hx => hpos x (List.mem_append_right _ (List.mem_cons_of_mem _ hx)))
    (fun x hx => hother x (List.mem_append_right _ hx)) (afterRow inp dups v₁ d t row.2 f)
  rw [loadRows_append, e₁]
  dsimp only
  rw [loadRows_step e, e₂]
  dsimp only
  have ho : oldLoad dups v₁ d.sec = none := by unfold oldLoad; rw [if_neg hdup]
  have ha : ∃ l, getEntry d.sec (afterRow inp dups v₁ d t row.2 f).loads = some l ∧
      l.phases = phaseLoads inp c d.phases (some d.p, some d.q) := by
    unfold afterRow
    rw [if_neg (fun hc => hdup hc.1), ho]
    refine ⟨_, by unfold storeLoad; rw [getEntry_setEntry, if_pos rfl], ?_⟩
    dsimp only
    rw [loadClass_known hk hc, rowPhases_form h.1]
    rfl
  obtain ⟨l, hl, hph⟩ := ha
  refine ⟨_, l, rfl, g₂.trans hl, ?_⟩
  rw [hph]
  unfold phaseLoads
  rw [List.map_map, zipShares_percentages hz]
  rfl

/-- The shares of constant current, power and impedance of the second row of a section are those of the row before it in the file, also if this
one belongs to another section. -/
theorem C75_class_violated {inp : LoadInput} {row₁ row₂ row₃ : Text × Values} {d₁ d₂ d₃ : Demand}
    (h₁ : Says inp row₁ d₁) (h₂ : Says inp row₂ d₂) (h₃ : Says inp row₃ d₃)
    (hpos : ∀ x ∈ [d₁, d₂, d₃], 0 < x.p ∧ ∃ f, getEntry x.sec inp.sectionFeeder = some f)
    (hsec : d₃.sec = d₁.sec) (hne : d₂.sec ≠ d₁.sec) (ha₁ : d₁.again = false) (ha₂ : d₂.again = false) (ha₃ : d₃.again = true)
    {k₁ k₂ : Text} {c₁ c₂ : Values} (hk₁ : getEntry "loadtype".toList row₁.2 = some k₁) (hk₂ : getEntry "loadtype".toList row₂.2 = some k₂)
    (hc₁ : getEntry k₁ inp.classes = some c₁) (hc₂ : getEntry k₂ inp.classes = some c₂) {zs₁ zs₂ : List ℝ} (hz₁ : Percentages inp c₁ zs₁)
    (hz₂ : Percentages inp c₂ zs₂) :
    ∃ loads l, parseLoads inp [row₁, row₂, row₃] = .ok loads ∧ getEntry d₁.sec loads = some l ∧
      l.phases.map (fun x => (x.phase, x.zip)) = d₁.phases.map (fun ph => (ph, zs₁)) ++ d₃.phases.map (fun ph => (ph, zs₂)) := by
  rw [← zipShares_percentages hz₁, ← zipShares_percentages hz₂]
  obtain ⟨p₁, f₁, hf₁⟩ := hpos d₁ (by simp)
  obtain ⟨p₂, f₂, hf₂⟩ := hpos d₂ (by simp)
  obtain ⟨p₃, f₃, hf₃⟩ := hpos d₃ (by simp)
  have hm := mem_duplicates (List.Forall₂.cons h₁.1 (List.Forall₂.cons h₂.1 (List.Forall₂.cons h₃.1 List.Forall₂.nil)))
  have hin : d₁.sec ∈ duplicateLoads ([row₁, row₂, row₃].map (·.1)) := (hm _).mpr ⟨d₃, by simp, hsec, ha₃⟩
  have hout : d₂.sec ∉ duplicateLoads ([row₁, row₂, row₃].map (·.1)) := (hm _).not.mpr (by
    rintro ⟨x, hx, hxs, hxa⟩
    simp only [List.mem_cons, List.not_mem_nil, or_false] at hx
    rcases hx with rfl | rfl | rfl
    · rw [ha₁] at hxa; cases hxa
    · rw [ha₂] at hxa; cases hxa
    · exact hne (hxs.symm.trans hsec))
  unfold parseLoads
  generalize duplicateLoads ([row₁, row₂, row₃].map (·.1)) = dups at hin hout
  obtain ⟨t₁, e₁⟩ := loadRow_says h₁ (Or.inl p₁.le) hf₁ dups {}
  obtain ⟨l₁, s₁, z₁⟩ := afterRow_phases (inp := inp) (dups := dups) (vars := {}) p₁.ne' t₁ row₁.2 f₁
  have o₁ : oldLoad dups {} d₁.sec = none := by unfold oldLoad; rw [if_pos hin]; rfl
  rw [o₁, loadClass_known hk₁ hc₁, rowPhases_form h₁.1] at z₁
  rw [loadRows_step e₁]
  generalize afterRow inp dups {} d₁ t₁ row₁.2 f₁ = v₁ at s₁
  obtain ⟨t₂, e₂⟩ := loadRow_says h₂ (Or.inl p₂.le) hf₂ dups v₁
  rw [loadRows_step e₂]
  obtain ⟨l₂, s₂, -⟩ := afterRow_only h₂.1 hf₂ hout v₁ t₂
  have hcd : (afterRow inp dups v₁ d₂ t₂ row₂.2 f₂).classData = c₂ := by
    unfold afterRow
    rw [if_neg (fun hc => p₂.ne' hc.2)]
    have : oldLoad dups v₁ d₂.sec = none := by unfold oldLoad; rw [if_neg hout]
    rw [this]
    exact loadClass_known (before := v₁.classData) hk₂ hc₂
  generalize afterRow inp dups v₁ d₂ t₂ row₂.2 f₂ = v₂ at s₂ hcd
  obtain ⟨t₃, e₃⟩ := loadRow_says h₃ (Or.inl p₃.le) hf₃ dups v₂
  rw [loadRows_step e₃, loadRows_nil]
  dsimp only
  obtain ⟨l₃, s₃, z₃⟩ := afterRow_phases (inp := inp) (dups := dups) (vars := v₂) p₃.ne' t₃ row₃.2 f₃
  have o₃ : oldLoad dups v₂ d₃.sec = some l₁ := by
    unfold oldLoad
    rw [if_pos (by rw [hsec]; exact hin), s₂, getEntry_setEntry, hsec, if_neg (Ne.symm hne), s₁, getEntry_setEntry, if_pos rfl]
  have hcl : loadClass inp (some l₁) v₂.classData row₃.2 = v₂.classData := rfl
  rw [o₃, hcl, hcd, rowPhases_form h₃.1] at z₃
  refine ⟨_, l₃, rfl, ?_, ?_⟩
  · rw [s₃, getEntry_setEntry, hsec, if_pos rfl]
  · rw [z₃]
    unfold oldPhases
    dsimp only
    rw [z₁]
    unfold oldPhases phaseLoads
    rw [List.nil_append, List.map_append, List.map_map, List.map_map]
    rfl

/-! ### an example -/

/-- numbers of the example -/
def exampleNum (t : Text) : Option ℝ :=
  if t = "0".toList then some 0 else if t = "3".toList then some 3 else if t = "4".toList then some 4 else if t = "5".toList then some 5
  else if t = "60".toList then some 60 else none

/-- numbers of the example -/
def exampleInt (t : Text) : Option ℤ := if t = "0".toList then some 0 else if t = "1".toList then some 1 else none

/-- two sections of one network -/
def exampleLoads : LoadInput where
  num := exampleNum
  int := exampleInt
  loads := [("s1".toList, [("connection".toList, "Yg".toList)])]
  classes := []
  sectionData := [("s1".toList, [("fromnodeid".toList, "n1".toList)])]
  sectionFeeder := [("s1".toList, "f".toList)]

/-- a row of the example -/
def exampleRow (key type value1 value2 phases : Text) : Text × Values :=
  (key, [("valuetype".toList, type), ("value1".toList, value1), ("value2".toList, value2), ("loadphase".toList, phases),
    ("numberofcustomer".toList, "3".toList)])

/-- what the rows of the example say -/
def exampleDemand (again : Bool) (phases : Text) (p q : ℝ) : Demand where
  sec := "s1".toList
  again := again
  phases := phases
  p := p
  q := q
  users := 3
  connected := none

theorem exampleNum_number {s : Values} {k t : Text} {x : ℝ} (h : getEntry k s = some t) (ht : exampleNum t = some x) : Number exampleLoads.num s k x :=
  ⟨t, h, ht⟩

/-- Section S1 with 3 kW and 4 kvar on two phases, and 5 kVA with a power factor of 60 percent on the third. -/
theorem example_says : List.Forall₂ (Says exampleLoads)
    [exampleRow "S1".toList "0".toList "3".toList "4".toList "AB".toList, exampleRow "S1*".toList "1".toList "5".toList "60".toList "C".toList]
    [exampleDemand false "AB".toList 3 4, exampleDemand true "C".toList 3 4] := by
  have n3 : exampleNum "3".toList = some 3 := rfl
  have n4 : exampleNum "4".toList = some 4 := rfl
  have n5 : exampleNum "5".toList = some 5 := rfl
  have n60 : exampleNum "60".toList = some 60 := rfl
  refine List.Forall₂.cons ⟨⟨⟨"S1".toList, 0, rfl, by decide, rfl, by decide⟩, rfl, by decide, ⟨_, rfl, n3⟩, Or.inl ⟨rfl, rfl⟩⟩,
      0, 3, 4, ⟨⟨_, rfl, rfl⟩, ⟨_, rfl, n3⟩, ⟨_, rfl, n4⟩⟩, Stated.power⟩
    (List.Forall₂.cons ⟨⟨⟨"S1".toList, 1, rfl, by decide, rfl, by decide⟩, rfl, by decide, ⟨_, rfl, n3⟩, Or.inl ⟨rfl, rfl⟩⟩,
      1, 5, 60, ⟨⟨_, rfl, rfl⟩, ⟨_, rfl, n5⟩, ⟨_, rfl, n60⟩⟩, ?_⟩ List.Forall₂.nil)
  refine Stated.apparent (Or.inr rfl) (by norm_num) ?_ ?_ ?_
  · show (100 : ℝ) * 3 = 5 * 60; norm_num
  · show (3 : ℝ) ^ 2 + 4 ^ 2 = 5 ^ 2; norm_num
  · show (0 : ℝ) ≤ 4; norm_num

/-- the example has 6 kW and 8 kvar -/
example : ∃ loads l, parseLoads exampleLoads
    [exampleRow "S1".toList "0".toList "3".toList "4".toList "AB".toList, exampleRow "S1*".toList "1".toList "5".toList "60".toList "C".toList] = .ok loads ∧
    getEntry "s1".toList loads = some l ∧ totalPower l = (6000, 8000) := by
  have hs1 : (exampleDemand false "AB".toList 3 4).sec = "s1".toList := rfl
  have hs2 : (exampleDemand true "C".toList 3 4).sec = "s1".toList := rfl
  have hof : ∀ sec, ofSection [exampleDemand false "AB".toList 3 4, exampleDemand true "C".toList 3 4] sec =
      if "s1".toList = sec then [exampleDemand false "AB".toList 3 4, exampleDemand true "C".toList 3 4] else [] := by
    intro sec
    unfold ofSection
    by_cases hs : "s1".toList = sec
    · rw [if_pos hs, List.filter_cons, hs1, if_pos (decide_eq_true hs), List.filter_cons, hs2, if_pos (decide_eq_true hs), List.filter_nil]
    · rw [if_neg hs, List.filter_cons, hs1, if_neg (fun h => hs (of_decide_eq_true h)), List.filter_cons, hs2,
        if_neg (fun h => hs (of_decide_eq_true h)), List.filter_nil]
  obtain ⟨loads, l, h1, h2, h3⟩ := C75_power_partial example_says (sec := "s1".toList)
    (fun d hd => by
      simp only [List.mem_cons, List.not_mem_nil, or_false] at hd
      rcases hd with rfl | rfl
      · exact ⟨Or.inl (show (0 : ℝ) ≤ 3 by norm_num), _, rfl⟩
      · exact ⟨Or.inl (show (0 : ℝ) ≤ 3 by norm_num), _, rfl⟩)
    (fun sec => by
      rw [hof]
      by_cases hs : "s1".toList = sec
      · rw [if_pos hs]
        exact ⟨fun _ => le_refl 2, fun _ => ⟨exampleDemand true "C".toList 3 4, by simp, hs, rfl⟩⟩
      · rw [if_neg hs]
        constructor
        · rintro ⟨x, hx, hxs, -⟩
          simp only [List.mem_cons, List.not_mem_nil, or_false] at hx
          rcases hx with rfl | rfl <;> exact absurd hxs hs
        · intro hl; simp at hl)
    (fun d hd hz => by
      simp only [List.mem_cons, List.not_mem_nil, or_false] at hd
      rcases hd with rfl | rfl
      · exact absurd hz (show (3 : ℝ) ≠ 0 by norm_num)
      · exact absurd hz (show (3 : ℝ) ≠ 0 by norm_num))
    ⟨exampleDemand false "AB".toList 3 4, by simp, rfl, show (3 : ℝ) ≠ 0 by norm_num⟩
  refine ⟨loads, l, h1, h2, ?_⟩
  rw [h3, hof, if_pos rfl]
  show (1000 * (3 + (3 + 0)), 1000 * (4 + (4 + 0))) = ((6000, 8000) : ℝ × ℝ)
  norm_num

/-- the class of the example, with 60 percent constant current -/
def exampleClass : Values :=
  [("constantcurrentip".toList, "60".toList), ("constantcurrentiq".toList, "5".toList), ("constantpowerpp".toList, "4".toList),
    ("constantpowerpq".toList, "3".toList), ("constantimpedancezp".toList, "0".toList), ("constantimpedancezq".toList, "60".toList)]

/-- the example with a class of customers -/
def exampleClassed : LoadInput := { exampleLoads with classes := [("Home".toList, exampleClass)] }

/-- a row with a class of customers -/
def exampleClassRow : Text × Values :=
  ("S1".toList, ("loadtype".toList, "Home".toList) :: (exampleRow "S1".toList "0".toList "3".toList "4".toList "AB".toList).2)

/-- the shares of the class -/
example : ∃ loads l, parseLoads exampleClassed [exampleClassRow] = .ok loads ∧ getEntry "s1".toList loads = some l ∧
    l.phases.map (fun x => (x.phase, x.zip)) =
      [('A', [60 / 100, 5 / 100, 4 / 100, 3 / 100, 0 / 100, 60 / 100]), ('B', [60 / 100, 5 / 100, 4 / 100, 3 / 100, 0 / 100, 60 / 100])] := by
  have n0 : exampleNum "0".toList = some 0 := rfl
  have n3 : exampleNum "3".toList = some 3 := rfl
  have n4 : exampleNum "4".toList = some 4 := rfl
  have n5 : exampleNum "5".toList = some 5 := rfl
  have n60 : exampleNum "60".toList = some 60 := rfl
  refine C75_shares_partial (before := []) (after := []) (row := exampleClassRow) (d := exampleDemand false "AB".toList 3 4) (inp := exampleClassed)
    List.Forall₂.nil
    ⟨⟨⟨"S1".toList, 0, rfl, by decide, rfl, by decide⟩, rfl, by decide, ⟨_, rfl, n3⟩, Or.inl ⟨rfl, rfl⟩⟩,
      0, 3, 4, ⟨⟨_, rfl, rfl⟩, ⟨_, rfl, n3⟩, ⟨_, rfl, n4⟩⟩, Stated.power⟩
    List.Forall₂.nil ?_ (fun x hx => by cases hx) rfl (k := "Home".toList) (c := exampleClass) rfl rfl
    ⟨60, 5, 4, 3, 0, 60, ⟨_, rfl, n60⟩, ⟨_, rfl, n5⟩, ⟨_, rfl, n4⟩, ⟨_, rfl, n3⟩, ⟨_, rfl, n0⟩, ⟨_, rfl, n60⟩, rfl⟩
  intro x hx
  simp only [List.nil_append, List.mem_cons, List.not_mem_nil, or_false] at hx
  subst hx
  exact ⟨Or.inl (show (0 : ℝ) ≤ 3 by norm_num), _, rfl⟩

end Ditto.Cyme
