import Verif.Lemmas.GlmLoads
import Verif.Props.GlmNodes
import Mathlib.Algebra.Order.Ring.Rat
import Mathlib.Algebra.Field.Rat
import Mathlib.Tactic.LinearCombination
import Mathlib.Tactic.Linarith

/-! C86: loads in GridLAB-D files. -/
namespace Ditto.Glm
open Ditto Glm.Spec

theorem value_unique {V : Type} {conv : Text → Option V} {d : Decl} {k : Text} {v w : V} (h : Value conv d k v) (h' : Value conv d k w) : v = w := by
  obtain ⟨t, h1, h2⟩ := h
  obtain ⟨t', h1', h2'⟩ := h'
  rw [h1] at h1'
  cases h1'
  rw [h2] at h2'
  cases h2'
  rfl

theorem value_missing {V : Type} {conv : Text → Option V} {d : Decl} {k : Text} {v : V} (h : Value conv d k v) (h' : attrOf d k = none) : False := by
  obtain ⟨t, h1, -⟩ := h
  rw [h1] at h'
  cases h'

section numbers
variable {K : Type} [Field K] [DecidableEq K] [LinearOrder K] [IsStrictOrderedRing K] {flt : Text → Option K} {cpx : Text → Option (Cx K)}
  {schema : Schema} {due : List Text → Py Bool} {files : Text → Option (List Text)} {rows : List Text} {s : GState} {ds : List Decl}
  {ls : List (GReadLoad K × Option (GReadNode K))}

/-- C86 (partial): reading a file gives exactly one load for each name of a load in the file. It is at its parent, or at a node made for it,
and it has the phases, the voltage and the powers that the file says. What the power of a phase is taken to be, see `PhaseSays`. -/
theorem C86_loads_partial (hr : readGlm schema due files [] rows = .ok s) (hh : Holds s.objects [] ds)
    (h : readLoadFile schema due files flt cpx [] rows = .ok ls) :
    ∃ names : List Text, names.Nodup ∧ (∀ n, n ∈ names ↔ ∃ d, lastNamed ds n = some d ∧ d.cls = "load".toList) ∧
      List.Forall₂ (fun n r => ∃ d, lastNamed ds n = some d ∧ LoadSays flt cpx s.schedules d r) names ls := by
  have hnd := glm_once hr
  unfold readLoadFile at h
  rw [hr] at h
  have hall := loads_ok h
  refine ⟨(s.objects.filter fun p => p.2.cls = "load".toList).map (·.1), ?_, ?_, ?_⟩
  · exact (List.filter_sublist.map _).nodup hnd
  · intro n
    constructor
    · intro hn
      obtain ⟨⟨n', o⟩, hp, rfl⟩ := List.mem_map.mp hn
      obtain ⟨hp, hc⟩ := List.mem_filter.mp hp
      obtain ⟨d, hd, hs⟩ := holds_mem hh hnd hp
      exact ⟨d, hd, by rw [← hs.1]; simpa using hc⟩
    · rintro ⟨d, hd, hc⟩
      obtain ⟨o, ho, hs⟩ := holds_find hh hnd hd
      exact List.mem_map.mpr ⟨(n, o), List.mem_filter.mpr ⟨ho, by simp [hs.1, hc]⟩, rfl⟩
  · rw [List.forall₂_map_left_iff]
    have : ∀ {l : List (Text × GldObj)} {ls : List (GReadLoad K × Option (GReadNode K))}, (∀ p ∈ l, p ∈ s.objects) →
        List.Forall₂ (fun p r => readLoad flt cpx s.schedules p.2 = .ok r) l ls →
        List.Forall₂ (fun p r => ∃ d, lastNamed ds p.1 = some d ∧ LoadSays flt cpx s.schedules d r) l ls := by
      intro l ls hl hf
      induction hf with
      | nil => exact .nil
      | @cons p r l ls hpr _ ih =>
        obtain ⟨d, hd, hs⟩ := holds_mem hh hnd (hl p List.mem_cons_self)
        exact .cons ⟨d, hd, load_ok hs (by rw [lastNamed_name hd]; rfl) hpr⟩ (ih fun q hq => hl q (List.mem_cons_of_mem _ hq))
    exact this (fun p hp => (List.mem_filter.mp hp).1) hall

/-- C86: if all numbers of the loads can be read, then all loads are read -/
theorem C86_succeeds (hr : readGlm schema due files [] rows = .ok s) (hh : Holds s.objects [] ds)
    (hc : ∀ n d, lastNamed ds n = some d → d.cls = "load".toList → CleanLoad flt cpx s.schedules d) :
    ∃ ls, readLoadFile schema due files flt cpx [] rows = .ok ls := by
  unfold readLoadFile
  rw [hr]
  refine loads_clean fun p hp hcls => ?_
  obtain ⟨d, hd, hs⟩ := holds_mem hh (glm_once hr) hp
  exact load_clean hs (hc p.1 d hd (hs.1 ▸ hcls))

omit [LinearOrder K] [IsStrictOrderedRing K] in
/-- C86: the only errors are those of numbers that cannot be read and of products without second factor -/
theorem C86_error_kinds (hr : readGlm schema due files [] rows = .ok s) {e : PyErr}
    (h : readLoadFile schema due files flt cpx [] rows = .error e) : e = .valueError ∨ e = .indexError := by
  unfold readLoadFile at h
  rw [hr] at h
  exact loads_kinds h

/-- the load of an object of the file -/
theorem load_found (hr : readGlm schema due files [] rows = .ok s) (hh : Holds s.objects [] ds)
    (h : readLoadFile schema due files flt cpx [] rows = .ok ls) {n : Text} {d : Decl} (hd : lastNamed ds n = some d) (hc : d.cls = "load".toList) :
    ∃ r ∈ ls, LoadSays flt cpx s.schedules d r := by
  obtain ⟨names, -, h2, h3⟩ := C86_loads_partial hr hh h
  obtain ⟨i, hi⟩ := List.mem_iff_getElem?.mp ((h2 n).mpr ⟨d, hd, hc⟩)
  rw [List.forall₂_iff_get] at h3
  obtain ⟨hi', he⟩ := List.getElem?_eq_some_iff.mp hi
  have := h3.2 i hi' (h3.1 ▸ hi')
  obtain ⟨d', hd', hl⟩ := this
  rw [List.get_eq_getElem, he, hd] at hd'
  cases hd'
  exact ⟨_, List.get_mem _ _, hl⟩

omit [DecidableEq K] [LinearOrder K] [IsStrictOrderedRing K] in
theorem says_phase {schedules : List (Text × Text)} {d : Decl} {c : Char} {l : GPhaseLoad K} (h : PhaseSays flt cpx schedules d c l) : l.phase = c := by
  cases h <;> rfl

omit [DecidableEq K] [LinearOrder K] [IsStrictOrderedRing K] in
theorem phase_has {schedules : List (Text × Text)} {d : Decl} {r : GReadLoad K × Option (GReadNode K)} (h : LoadSays flt cpx schedules d r) {c : Char}
    (hc : c ∈ lettersOf d) {P : GPhaseLoad K → Prop} (hP : ∀ l, PhaseSays flt cpx schedules d c l → P l) : PhaseHas r c P := by
  have key : ∀ {cs : List Char} {pl : List (GPhaseLoad K)}, List.Forall₂ (PhaseSays flt cpx schedules d) cs pl →
      (c ∈ cs → ∃ l ∈ pl, l.phase = c) ∧ ∀ l ∈ pl, PhaseSays flt cpx schedules d l.phase l := by
    intro cs pl hf
    induction hf with
    | nil => exact ⟨(fun h => by cases h), (fun l h => by cases h)⟩
    | @cons c' l cs pl hpl _ ih =>
      have hph := says_phase hpl
      refine ⟨fun hm => ?_, fun l' hl' => ?_⟩
      · rcases List.mem_cons.mp hm with rfl | hm
        · exact ⟨l, List.mem_cons_self, hph⟩
        · obtain ⟨l', h1, h2⟩ := ih.1 hm
          exact ⟨l', List.mem_cons_of_mem _ h1, h2⟩
      · rcases List.mem_cons.mp hl' with rfl | hl'
        · rw [hph]; exact hpl
        · exact ih.2 l' hl'
  obtain ⟨h1, h2⟩ := key h.phases
  exact ⟨h1 hc, fun l hl he => hP l (he ▸ h2 l hl)⟩

/-- C86 (partial): a constant power with an active part is the power of the phase -/
theorem C86_power_partial (hr : readGlm schema due files [] rows = .ok s) (hh : Holds s.objects [] ds)
    (h : readLoadFile schema due files flt cpx [] rows = .ok ls) {n : Text} {d : Decl} (hd : lastNamed ds n = some d) (hcls : d.cls = "load".toList)
    {c : Char} (hc : c ∈ lettersOf d) {w : Cx K} (hw : Value cpx d (ofPhase "constant_power".toList c) w) (hre : w.re ≠ 0) :
    ∃ r ∈ ls, Placed d r ∧ PhaseHas r c fun l => l.p = w.re ∧ l.q = w.im ∧ l.model = 1 ∧ l.zip = false := by
  obtain ⟨r, h1, h2⟩ := load_found hr hh h hd hcls
  refine ⟨r, h1, h2.placed, phase_has h2 hc fun l hl => ?_⟩
  have hno : ¬NoPower cpx d c := by
    rintro (hn | ⟨w', hw', h0⟩)
    · exact value_missing hw hn
    · exact hre (value_unique hw hw' ▸ h0)
  cases hl with
  | power hv _ => cases value_unique hw hv; exact ⟨rfl, rfl, rfl, rfl⟩
  | impedance hn => exact absurd hn hno
  | current hn => exact absurd hn hno
  | zip hn => exact absurd hn hno
  | other hn => exact absurd hn hno

/-- C86 (partial): the power of a constant impedance is the one of the current that flows through it at the given voltage, if no constant
power is given -/
theorem C86_impedance_partial (hr : readGlm schema due files [] rows = .ok s) (hh : Holds s.objects [] ds)
    (h : readLoadFile schema due files flt cpx [] rows = .ok ls) {n : Text} {d : Decl} (hd : lastNamed ds n = some d) (hcls : d.cls = "load".toList)
    {c : Char} (hc : c ∈ lettersOf d) {z v : Cx K} (hz : Value cpx d (ofPhase "constant_impedance".toList c) z)
    (hv : Value cpx d (ofPhase "voltage".toList c) v) (hre : z.re ≠ 0) (hp : attrOf d (ofPhase "constant_power".toList c) = none) :
    ∃ r ∈ ls, Placed d r ∧ PhaseHas r c fun l => (∃ i, Ohm z i v ∧ Draws v i l.p l.q) ∧ l.model = 2 ∧ l.zip = false := by
  obtain ⟨r, h1, h2⟩ := load_found hr hh h hd hcls
  refine ⟨r, h1, h2.placed, phase_has h2 hc fun l hl => ?_⟩
  have hno : ¬NoConstant cpx d c "constant_impedance".toList := by
    rintro (hn | ⟨z', hz', h0 | h0⟩)
    · exact value_missing hz hn
    · exact value_missing hv h0
    · exact hre (value_unique hz hz' ▸ h0)
  cases hl with
  | power hv _ => exact absurd hp (value_missing hv)
  | impedance _ hz' hv' _ ho hdr =>
    cases value_unique hz hz'
    cases value_unique hv hv'
    exact ⟨⟨_, ho, hdr⟩, rfl, rfl⟩
  | current _ hn => exact absurd hn hno
  | zip _ hn => exact absurd hn hno
  | other _ hn => exact absurd hn hno

/-- C86 (partial): the power of a constant current is the one at the given voltage, if neither constant power nor impedance is given -/
theorem C86_current_partial (hr : readGlm schema due files [] rows = .ok s) (hh : Holds s.objects [] ds)
    (h : readLoadFile schema due files flt cpx [] rows = .ok ls) {n : Text} {d : Decl} (hd : lastNamed ds n = some d) (hcls : d.cls = "load".toList)
    {c : Char} (hc : c ∈ lettersOf d) {i v : Cx K} (hi : Value cpx d (ofPhase "constant_current".toList c) i)
    (hv : Value cpx d (ofPhase "voltage".toList c) v) (hre : i.re ≠ 0) (hp : attrOf d (ofPhase "constant_power".toList c) = none)
    (hz : attrOf d (ofPhase "constant_impedance".toList c) = none) :
    ∃ r ∈ ls, Placed d r ∧ PhaseHas r c fun l => Draws v i l.p l.q ∧ l.model = 5 ∧ l.zip = false := by
  obtain ⟨r, h1, h2⟩ := load_found hr hh h hd hcls
  refine ⟨r, h1, h2.placed, phase_has h2 hc fun l hl => ?_⟩
  have hno : ¬NoConstant cpx d c "constant_current".toList := by
    rintro (hn | ⟨z', hz', h0 | h0⟩)
    · exact value_missing hi hn
    · exact value_missing hv h0
    · exact hre (value_unique hi hz' ▸ h0)
  cases hl with
  | power hv _ => exact absurd hp (value_missing hv)
  | impedance _ hz' => exact absurd hz (value_missing hz')
  | current _ _ hi' hv' _ hdr =>
    cases value_unique hi hi'
    cases value_unique hv hv'
    exact ⟨hdr, rfl, rfl⟩
  | zip _ _ hn => exact absurd hn hno
  | other _ _ hn => exact absurd hn hno

/-- nothing but the base power and the shares is given -/
def BaseOnly (d : Decl) (c : Char) : Prop :=
  ∀ k ∈ ["constant_power".toList, "constant_impedance".toList, "constant_current".toList], attrOf d (ofPhase k c) = none

omit [DecidableEq K] [LinearOrder K] [IsStrictOrderedRing K] in
theorem baseOnly_says {schedules : List (Text × Text)} {d : Decl} {c : Char} (hb : BaseOnly d c) {l : GPhaseLoad K}
    (h : PhaseSays flt cpx schedules d c l) : BasePower flt schedules d c l.p ∧ l.q = 0 ∧ l.model = 1 := by
  cases h with
  | power hv _ => exact absurd (hb _ (by simp)) (value_missing hv)
  | impedance _ hz' => exact absurd (hb _ (by simp)) (value_missing hz')
  | current _ _ hi' => exact absurd (hb _ (by simp)) (value_missing hi')
  | zip _ _ _ hbp => exact ⟨hbp, rfl, rfl⟩
  | other _ _ _ hbp => exact ⟨hbp, rfl, rfl⟩

/-- the two factors of a product -/
theorem factors_unique {t a b a' b' : Text} (h : Factors t a b) (h' : Factors t a' b') : a = a' ∧ b = b' := by
  obtain ⟨m, hm⟩ := split_factors h
  obtain ⟨m', hm'⟩ := split_factors h'
  rw [hm] at hm'
  injection hm' with h1 h2
  injection h2 with h2 _
  exact ⟨h1, h2⟩

/-- C86: a base power that is a number is the active power -/
theorem C86_base_number (hr : readGlm schema due files [] rows = .ok s) (hh : Holds s.objects [] ds)
    (h : readLoadFile schema due files flt cpx [] rows = .ok ls) {n : Text} {d : Decl} (hd : lastNamed ds n = some d) (hcls : d.cls = "load".toList)
    {c : Char} (hc : c ∈ lettersOf d) (hb : BaseOnly d c) {p : K} (hp : Value flt d (ofPhase "base_power".toList c) p) :
    ∃ r ∈ ls, Placed d r ∧ PhaseHas r c fun l => l.p = p := by
  obtain ⟨r, h1, h2⟩ := load_found hr hh h hd hcls
  refine ⟨r, h1, h2.placed, phase_has h2 hc fun l hl => ?_⟩
  obtain ⟨hbp, -, -⟩ := baseOnly_says hb hl
  have hno : ∀ {t : Text}, attrOf d (ofPhase "base_power".toList c) = some t → flt t ≠ none := by
    intro t ht hf
    obtain ⟨t', h1, h2⟩ := hp
    rw [ht] at h1
    cases h1
    rw [hf] at h2
    cases h2
  generalize l.p = p at hbp
  cases hbp with
  | missing hm => exact absurd hm (value_missing hp)
  | number hv => exact value_unique hv hp
  | second ht hf => exact absurd hf (hno ht)
  | first ht hf => exact absurd hf (hno ht)
  | unknown ht hf => exact absurd hf (hno ht)

/-- C86: a base power that is a schedule times a number, or a number times a schedule, is the product with the present value -/
theorem C86_base_schedule (hr : readGlm schema due files [] rows = .ok s) (hh : Holds s.objects [] ds)
    (h : readLoadFile schema due files flt cpx [] rows = .ok ls) {n : Text} {d : Decl} (hd : lastNamed ds n = some d) (hcls : d.cls = "load".toList)
    {c : Char} (hc : c ∈ lettersOf d) (hb : BaseOnly d c) {a b v : Text} {x y : K} (ha : '*' ∉ a) (hbs : '*' ∉ b)
    (ht : attrOf d (ofPhase "base_power".toList c) = some (a ++ '*' :: b)) (hf : flt (a ++ '*' :: b) = none)
    (hone : (scheduleValue s.schedules a = some v ∧ scheduleValue s.schedules b = none ∧ flt b = some y) ∨
      (scheduleValue s.schedules b = some v ∧ scheduleValue s.schedules a = none ∧ flt a = some y)) (hx : flt v = some x) :
    ∃ r ∈ ls, Placed d r ∧ PhaseHas r c fun l => l.p = x * y := by
  obtain ⟨r, h1, h2⟩ := load_found hr hh h hd hcls
  refine ⟨r, h1, h2.placed, phase_has h2 hc fun l hl => ?_⟩
  obtain ⟨hbp, -, -⟩ := baseOnly_says hb hl
  have hfac : Factors (a ++ '*' :: b) a b := ⟨[], by rw [List.append_nil], ha, hbs, Or.inl rfl⟩
  generalize l.p = p at hbp
  cases hbp with
  | missing hm => rw [ht] at hm; cases hm
  | number hv =>
    obtain ⟨t', h1, h2⟩ := hv
    rw [ht] at h1; cases h1
    rw [hf] at h2; cases h2
  | second ht' hf' hfac' hs hx' hy' =>
    rw [ht] at ht'; cases ht'
    obtain ⟨rfl, rfl⟩ := factors_unique hfac hfac'
    rcases hone with ⟨h1, h2, h3⟩ | ⟨h1, h2, h3⟩
    · rw [h2] at hs; cases hs
    · rw [h1] at hs; cases hs
      rw [hx] at hx'; cases hx'
      rw [h3] at hy'; cases hy'
      rfl
  | first ht' hf' hfac' hsn hs hx' hy' =>
    rw [ht] at ht'; cases ht'
    obtain ⟨rfl, rfl⟩ := factors_unique hfac hfac'
    rcases hone with ⟨h1, h2, h3⟩ | ⟨h1, h2, h3⟩
    · rw [h1] at hs; cases hs
      rw [hx] at hx'; cases hx'
      rw [h3] at hy'; cases hy'
      rfl
    · rw [h1] at hsn; cases hsn
  | unknown ht' hf' hfac' hsb hsa =>
    rw [ht] at ht'; cases ht'
    obtain ⟨rfl, rfl⟩ := factors_unique hfac hfac'
    rcases hone with ⟨h1, h2, h3⟩ | ⟨h1, h2, h3⟩
    · rw [h1] at hsa; cases hsa
    · rw [h1] at hsb; cases hsb

/-! ### violations -/

/-- C86 violated: a purely reactive load is read as a load without any power -/
theorem C86_reactive_violated (hr : readGlm schema due files [] rows = .ok s) (hh : Holds s.objects [] ds)
    (h : readLoadFile schema due files flt cpx [] rows = .ok ls) {n : Text} {d : Decl} (hd : lastNamed ds n = some d) (hcls : d.cls = "load".toList)
    {c : Char} (hc : c ∈ lettersOf d) {w : Cx K} (hw : Value cpx d (ofPhase "constant_power".toList c) w) (hre : w.re = 0) (him : w.im ≠ 0)
    (ho : ∀ k ∈ ["constant_impedance".toList, "constant_current".toList, "base_power".toList], attrOf d (ofPhase k c) = none) :
    ∃ r ∈ ls, Placed d r ∧ PhaseHas r c fun l => l.p = 0 ∧ l.q = 0 ∧ l.q ≠ w.im := by
  obtain ⟨r, h1, h2⟩ := load_found hr hh h hd hcls
  refine ⟨r, h1, h2.placed, phase_has h2 hc fun l hl => ?_⟩
  have hbase : ∀ {p : K}, BasePower flt s.schedules d c p → p = 0 := by
    intro p hp
    have hm := ho "base_power".toList (by simp)
    cases hp with
    | missing _ => rfl
    | number hv => exact absurd hm (value_missing hv)
    | second ht => rw [hm] at ht; cases ht
    | first ht => rw [hm] at ht; cases ht
    | unknown ht => rfl
  cases hl with
  | power hv hne => exact absurd hre (value_unique hw hv ▸ hne)
  | impedance _ hz' => exact absurd (ho _ (by simp)) (value_missing hz')
  | current _ _ hi' => exact absurd (ho _ (by simp)) (value_missing hi')
  | zip _ _ _ hbp => exact ⟨hbase hbp, rfl, him.symm⟩
  | other _ _ _ hbp => exact ⟨hbase hbp, rfl, him.symm⟩

/-- C86 violated: a load with constant impedance or constant current is read as a load without any power if its voltage is not in the file -/
theorem C86_no_voltage_violated (hr : readGlm schema due files [] rows = .ok s) (hh : Holds s.objects [] ds)
    (h : readLoadFile schema due files flt cpx [] rows = .ok ls) {n : Text} {d : Decl} (hd : lastNamed ds n = some d) (hcls : d.cls = "load".toList)
    {c : Char} (hc : c ∈ lettersOf d) (hv : attrOf d (ofPhase "voltage".toList c) = none)
    (ho : ∀ k ∈ ["constant_power".toList, "base_power".toList], attrOf d (ofPhase k c) = none) :
    ∃ r ∈ ls, Placed d r ∧ PhaseHas r c fun l => l.p = 0 ∧ l.q = 0 := by
  obtain ⟨r, h1, h2⟩ := load_found hr hh h hd hcls
  refine ⟨r, h1, h2.placed, phase_has h2 hc fun l hl => ?_⟩
  have hbase : ∀ {p : K}, BasePower flt s.schedules d c p → p = 0 := by
    intro p hp
    have hm := ho "base_power".toList (by simp)
    cases hp with
    | missing _ => rfl
    | number hv => exact absurd hm (value_missing hv)
    | second ht => rw [hm] at ht; cases ht
    | first ht => rw [hm] at ht; cases ht
    | unknown ht => rfl
  cases hl with
  | power hv _ => exact absurd (ho _ (by simp)) (value_missing hv)
  | impedance _ _ hv' => exact absurd hv (value_missing hv')
  | current _ _ _ hv' => exact absurd hv (value_missing hv')
  | zip _ _ _ hbp => exact ⟨hbase hbp, rfl⟩
  | other _ _ _ hbp => exact ⟨hbase hbp, rfl⟩

/-- C86 violated: a load with a constant power and a constant impedance is read without its impedance -/
theorem C86_both_violated (hr : readGlm schema due files [] rows = .ok s) (hh : Holds s.objects [] ds)
    (h : readLoadFile schema due files flt cpx [] rows = .ok ls) {n : Text} {d : Decl} (hd : lastNamed ds n = some d) (hcls : d.cls = "load".toList)
    {c : Char} (hc : c ∈ lettersOf d) {w z v : Cx K} (hw : Value cpx d (ofPhase "constant_power".toList c) w) (hre : w.re ≠ 0)
    (_hz : Value cpx d (ofPhase "constant_impedance".toList c) z) (_hv : Value cpx d (ofPhase "voltage".toList c) v) (hzre : z.re ≠ 0)
    (hv0 : v.re ≠ 0 ∨ v.im ≠ 0) :
    ∃ r ∈ ls, Placed d r ∧ PhaseHas r c fun l => ∀ i p q, Ohm z i v → Draws v i p q → l.p ≠ w.re + p := by
  obtain ⟨r, h1, h2, h3, h4⟩ := C86_power_partial hr hh h hd hcls hc hw hre
  refine ⟨r, h1, h2, h3, fun l hl hph i p q ho hdr => ?_⟩
  obtain ⟨e, -⟩ := h4 l hl hph
  rw [e]
  intro he
  have hp0 : p = 0 := by linarith
  have hp1 : p = z.re * (i.re * i.re + i.im * i.im) := by rw [hdr.1, ho.1, ho.2]; ring
  rw [hp0] at hp1
  have hi : i.re * i.re + i.im * i.im = 0 := by
    rcases mul_eq_zero.mp hp1.symm with h | h
    · exact absurd h hzre
    · exact h
  have hire : i.re = 0 := by nlinarith [mul_self_nonneg i.re, mul_self_nonneg i.im]
  have hiim : i.im = 0 := by nlinarith [mul_self_nonneg i.re, mul_self_nonneg i.im]
  rcases hv0 with h | h
  · apply h; rw [ho.1, hire, hiim]; ring
  · apply h; rw [ho.2, hire, hiim]; ring

/-- C86 violated: active and reactive share of the current of a ZIP load are not those of its power factor, and its reactive power is zero -/
theorem C86_zip_violated (hr : readGlm schema due files [] rows = .ok s) (hh : Holds s.objects [] ds)
    (h : readLoadFile schema due files flt cpx [] rows = .ok ls) {n : Text} {d : Decl} (hd : lastNamed ds n = some d) (hcls : d.cls = "load".toList)
    {c : Char} (hc : c ∈ lettersOf d) (hb : BaseOnly d c) {cf cpf pf ppf zf zpf : K} (hz : ZipValues flt d c cf cpf pf ppf zf zpf)
    (h0 : cf ≠ 0) (h1 : cpf ≠ 0) (h2 : cpf ≠ 1) :
    ∃ r ∈ ls, Placed d r ∧ PhaseHas r c fun l => l.zip = true ∧ l.q = 0 ∧
      ∃ z, l.shares = some z ∧ z.pcurrent = cf * cpf ∧ z.pcurrent * z.pcurrent + z.qcurrent * z.qcurrent ≠ cf * cf ∧
        z.pcurrent + z.qcurrent + (z.ppower + z.qpower) + (z.pimpedance + z.qimpedance) = cf + pf + zf := by
  obtain ⟨r, e1, e2⟩ := load_found hr hh h hd hcls
  refine ⟨r, e1, e2.placed, phase_has e2 hc fun l hl => ?_⟩
  cases hl with
  | power hv _ => exact absurd (hb _ (by simp)) (value_missing hv)
  | impedance _ hz' => exact absurd (hb _ (by simp)) (value_missing hz')
  | current _ _ hi' => exact absurd (hb _ (by simp)) (value_missing hi')
  | zip _ _ _ _ hz' =>
    cases value_unique hz.cf hz'.cf
    cases value_unique hz.cpf hz'.cpf
    cases value_unique hz.pf hz'.pf
    cases value_unique hz.ppf hz'.ppf
    cases value_unique hz.zf hz'.zf
    cases value_unique hz.zpf hz'.zpf
    refine ⟨rfl, rfl, _, rfl, rfl, ?_, ?_⟩
    · dsimp only
      intro he
      have : cf * cf * (2 * cpf * (cpf - 1)) = 0 := by linear_combination he
      rcases mul_eq_zero.mp this with h | h
      · exact h0 (mul_self_eq_zero.mp h)
      · rcases mul_eq_zero.mp h with h | h
        · rcases mul_eq_zero.mp h with h | h
          · exact two_ne_zero h
          · exact h1 h
        · exact h2 (sub_eq_zero.mp h)
    · dsimp only; ring
  | other _ _ _ _ hk hm =>
    simp only [zipAttrs, List.mem_cons, List.not_mem_nil, or_false] at hk
    rcases hk with rfl | rfl | rfl | rfl | rfl | rfl
    · exact absurd hm (value_missing hz.cf)
    · exact absurd hm (value_missing hz.cpf)
    · exact absurd hm (value_missing hz.pf)
    · exact absurd hm (value_missing hz.ppf)
    · exact absurd hm (value_missing hz.zf)
    · exact absurd hm (value_missing hz.zpf)

/-- C86 violated: no file with a load can be read whose base power is the name of a schedule, or any other text that is neither a number nor a
product -/
theorem C86_base_text_violated (hr : readGlm schema due files [] rows = .ok s) (hh : Holds s.objects [] ds) {n : Text} {d : Decl}
    (hd : lastNamed ds n = some d) (hcls : d.cls = "load".toList) {c : Char} (hc : c ∈ lettersOf d) (hb : BaseOnly d c) {t : Text}
    (ht : attrOf d (ofPhase "base_power".toList c) = some t) (hf : flt t = none) (hs : '*' ∉ t) :
    ∃ e, readLoadFile schema due files flt cpx [] rows = .error e ∧ (e = .valueError ∨ e = .indexError) := by
  cases h : readLoadFile schema due files flt cpx [] rows with
  | error e => exact ⟨e, rfl, C86_error_kinds hr h⟩
  | ok ls =>
    exfalso
    obtain ⟨r, h1, h2⟩ := load_found hr hh h hd hcls
    obtain ⟨⟨l, hl, hph⟩, hP⟩ := phase_has h2 hc (P := fun _ => False) fun l hl => by
      obtain ⟨hbp, -, -⟩ := baseOnly_says hb hl
      have hno : ∀ {t' a b : Text}, attrOf d (ofPhase "base_power".toList c) = some t' → Factors t' a b → False := by
        rintro t' a b ht' ⟨rest, rfl, -⟩
        rw [ht] at ht'
        cases ht'
        exact hs (by simp)
      generalize l.p = p at hbp
      cases hbp with
      | missing hm => rw [ht] at hm; cases hm
      | number hv =>
        obtain ⟨t', e1, e2⟩ := hv
        rw [ht] at e1; cases e1
        rw [hf] at e2; cases e2
      | second ht' _ hfac => exact hno ht' hfac
      | first ht' _ hfac => exact hno ht' hfac
      | unknown ht' _ hfac => exact hno ht' hfac
    exact hP l hl hph

/-- C86 violated: a load whose base power is a product with an unknown schedule is read as a load without any power -/
theorem C86_unknown_schedule_violated (hr : readGlm schema due files [] rows = .ok s) (hh : Holds s.objects [] ds)
    (h : readLoadFile schema due files flt cpx [] rows = .ok ls) {n : Text} {d : Decl} (hd : lastNamed ds n = some d) (hcls : d.cls = "load".toList)
    {c : Char} (hc : c ∈ lettersOf d) (hb : BaseOnly d c) {t a b : Text} (hfac : Factors t a b)
    (ht : attrOf d (ofPhase "base_power".toList c) = some t) (hf : flt t = none) (ha : scheduleValue s.schedules a = none)
    (hbn : scheduleValue s.schedules b = none) :
    ∃ r ∈ ls, Placed d r ∧ PhaseHas r c fun l => l.p = 0 ∧ l.q = 0 := by
  obtain ⟨r, h1, h2⟩ := load_found hr hh h hd hcls
  refine ⟨r, h1, h2.placed, phase_has h2 hc fun l hl => ?_⟩
  obtain ⟨hbp, hq, -⟩ := baseOnly_says hb hl
  refine ⟨?_, hq⟩
  generalize l.p = p at hbp
  cases hbp with
  | missing _ => rfl
  | number hv =>
    obtain ⟨t', e1, e2⟩ := hv
    rw [ht] at e1; cases e1
    rw [hf] at e2; cases e2
  | second ht' hf' hfac' hs =>
    rw [ht] at ht'; cases ht'
    obtain ⟨rfl, rfl⟩ := factors_unique hfac hfac'
    rw [hbn] at hs; cases hs
  | first ht' hf' hfac' hsn hs =>
    rw [ht] at ht'; cases ht'
    obtain ⟨rfl, rfl⟩ := factors_unique hfac hfac'
    rw [ha] at hs; cases hs
  | unknown => rfl

/-- C86 violated: further factors of a base power are left out -/
theorem C86_factors_violated (hr : readGlm schema due files [] rows = .ok s) (hh : Holds s.objects [] ds)
    (h : readLoadFile schema due files flt cpx [] rows = .ok ls) {n : Text} {d : Decl} (hd : lastNamed ds n = some d) (hcls : d.cls = "load".toList)
    {c : Char} (hc : c ∈ lettersOf d) (hb : BaseOnly d c) {a b v more : Text} {x y : K} (ha : '*' ∉ a) (hbs : '*' ∉ b)
    (ht : attrOf d (ofPhase "base_power".toList c) = some (a ++ '*' :: (b ++ '*' :: more))) (hf : flt (a ++ '*' :: (b ++ '*' :: more)) = none)
    (hv : scheduleValue s.schedules b = some v) (hx : flt v = some x) (hy : flt a = some y) :
    ∃ r ∈ ls, Placed d r ∧ PhaseHas r c fun l => l.p = x * y := by
  obtain ⟨r, h1, h2⟩ := load_found hr hh h hd hcls
  refine ⟨r, h1, h2.placed, phase_has h2 hc fun l hl => ?_⟩
  obtain ⟨hbp, -, -⟩ := baseOnly_says hb hl
  have hfac : Factors (a ++ '*' :: (b ++ '*' :: more)) a b := ⟨'*' :: more, rfl, ha, hbs, Or.inr rfl⟩
  generalize l.p = p at hbp
  cases hbp with
  | missing hm => rw [ht] at hm; cases hm
  | number hv =>
    obtain ⟨t', e1, e2⟩ := hv
    rw [ht] at e1; cases e1
    rw [hf] at e2; cases e2
  | second ht' hf' hfac' hs hx' hy' =>
    rw [ht] at ht'; cases ht'
    obtain ⟨rfl, rfl⟩ := factors_unique hfac hfac'
    rw [hv] at hs; cases hs
    rw [hx] at hx'; cases hx'
    rw [hy] at hy'; cases hy'
    rfl
  | first ht' hf' hfac' hsn =>
    rw [ht] at ht'; cases ht'
    obtain ⟨rfl, rfl⟩ := factors_unique hfac hfac'
    rw [hv] at hsn; cases hsn
  | unknown ht' hf' hfac' hsn =>
    rw [ht] at ht'; cases ht'
    obtain ⟨rfl, rfl⟩ := factors_unique hfac hfac'
    rw [hv] at hsn; cases hsn

/-- C86 violated: loads of the class `triplex_load` are not read -/
theorem C86_triplex_violated (hr : readGlm schema due files [] rows = .ok s) (hh : Holds s.objects [] ds)
    (hd : ∀ n d, lastNamed ds n = some d → d.cls = "triplex_load".toList) : readLoadFile schema due files flt cpx [] rows = .ok [] := by
  obtain ⟨ls, h⟩ := C86_succeeds (flt := flt) (cpx := cpx) hr hh (fun n d h1 h2 => absurd ((hd n d h1).symm.trans h2) (by decide))
  obtain ⟨names, -, h2, h3⟩ := C86_loads_partial hr hh h
  cases names with
  | nil => cases h3; exact h
  | cons n names =>
    obtain ⟨d, h1, h2⟩ := (h2 n).mp List.mem_cons_self
    exact absurd ((hd n d h1).symm.trans h2) (by decide)

/-- C86 violated: whether a load is connected in delta or to the neutral makes no difference: two objects that differ in their phases only, and
have the same letters `A`, `B` and `C` in them, give the same load -/
theorem C86_delta_violated {o o' : GldObj} {d d' : Decl} (ho : Stored o d) (ho' : Stored o' d')
    (he : ∀ k, k ≠ "phases".toList → attrOf d k = attrOf d' k) (hl : lettersOf d = lettersOf d') (schedules : List (Text × Text)) :
    readLoad flt cpx schedules o = readLoad flt cpx schedules o' := by
  have hg : ∀ k, k ≠ "phases".toList → getEntry k o.attrs = getEntry k o'.attrs := by
    intro k hk
    rw [stored_get ho, stored_get ho', he k hk]
  have hk : ∀ k c, phaseKey k c ≠ "phases".toList := by
    intro k c e
    have : '_' ∈ "phases".toList := by rw [← e]; simp [phaseKey]
    exact absurd this (by decide)
  have hph : loadPhases o = loadPhases o' := by rw [loadPhases_eq ho, loadPhases_eq ho', hl]
  have hread : ∀ {V : Type} (conv : Text → Option V) k c, readAs conv o (phaseKey k c) = readAs conv o' (phaseKey k c) := by
    intro V conv k c
    unfold readAs
    rw [hg _ (hk k c)]
  have hall : ∀ c ks, readAll flt o c ks = readAll flt o' c ks := by
    intro c ks
    induction ks with
    | nil => rfl
    | cons k ks ih => unfold readAll; rw [hread, ih]
  have hone : ∀ c, readPhaseLoad flt cpx schedules o c = readPhaseLoad flt cpx schedules o' c := by
    intro c
    have h1 : powerOf cpx o c = powerOf cpx o' c := by unfold powerOf; rw [hread]
    have h2 : impedanceOf cpx o c = impedanceOf cpx o' c := by unfold impedanceOf; rw [hread, hread]
    have h3 : currentOf cpx o c = currentOf cpx o' c := by unfold currentOf; rw [hread, hread]
    have h4 : zipLoad flt schedules o c = zipLoad flt schedules o' c := by
      unfold zipLoad basePower readShares
      rw [hall, hg _ (hk _ c)]
    unfold readPhaseLoad
    rw [h1, h2, h3, h4]
  have hloads : ∀ cs, readPhaseLoads flt cpx schedules o cs = readPhaseLoads flt cpx schedules o' cs := by
    intro cs
    induction cs with
    | nil => rfl
    | cons c cs ih => unfold readPhaseLoads; rw [hone, ih]
  have hn := hg "name".toList (by decide)
  have hp := hg "parent".toList (by decide)
  unfold readLoad readVoltage loadNameOf loadElementOf loadNode readName
  rw [hloads, hph, hn, hp, hg "nominal_voltage".toList (by decide)]

end numbers

/-! ### examples -/

theorem lastValue_nodup {l : List (Text × Text)} (h : (l.map (·.1)).Nodup) (k : Text) : lastValue l k = (l.find? fun p => p.1 = k).map (·.2) := by
  induction l with
  | nil => rfl
  | cons p l ih =>
    obtain ⟨k', v⟩ := p
    rw [List.map_cons, List.nodup_cons] at h
    rw [lastValue_cons, ih h.2]
    by_cases hk : k' = k
    · subst hk
      have : l.find? (fun p => decide (p.1 = k')) = none := by
        rw [List.find?_eq_none]
        intro p hp hc
        exact h.1 (List.mem_map.mpr ⟨p, hp, by simpa using hc⟩)
      rw [this, if_pos rfl, List.find?_cons_of_pos (by simp)]
      rfl
    · rw [if_neg hk, List.find?_cons_of_neg (by simpa using hk), Option.or_none]

/-- a file with one object -/
theorem holds_one {cls n : Text} {l : List (Text × Text)} (hc : cls ∉ leftOut) (hl : (l.map (·.1)).Nodup)
    (hn : lastValue l "name".toList = some n) : Holds [(n, ⟨cls, l⟩)] [] [⟨cls, none, l⟩] := by
  have hname : nameOf ⟨cls, none, l⟩ = some n := by
    unfold nameOf
    rw [hn]
  have hlast : ∀ m, lastNamed [⟨cls, none, l⟩] m = if n = m then some ⟨cls, none, l⟩ else none := by
    intro m
    rw [lastNamed_cons, hname]
    change none.or _ = _
    rw [Option.none_or]
    simp [hc]
  intro m
  rw [hlast]
  by_cases h : n = m
  · subst h
    rw [if_pos rfl]
    refine ⟨⟨cls, l⟩, by simp, rfl, fun k => ?_⟩
    rw [← lastValue_nodup hl]
    unfold attrOf
    by_cases hk : k = "name".toList
    · rw [if_pos hk, hk, hname, hn]
    · rw [if_neg hk]
  · rw [if_neg h]
    simp [h]

/-- the attributes of loads -/
def exLoadSchema : Schema := fun c =>
  if c = "load".toList then
    some (["name".toList, "parent".toList, "phases".toList, "nominal_voltage".toList] ++ (['A', 'B', 'C'].flatMap fun c =>
      (["constant_power".toList, "constant_impedance".toList, "constant_current".toList, "voltage".toList, "base_power".toList] ++ zipAttrs).map
        fun k => ofPhase k c))
  else if c = "triplex_load".toList then some ["name".toList]
  else none

/-- some numbers -/
def exReal (t : Text) : Option ℚ :=
  ([("7200".toList, 7200), ("0.5".toList, 1 / 2), ("0.25".toList, 1 / 4), ("3".toList, 3), ("6".toList, 6)].find? fun p => p.1 = t).map (·.2)

/-- some complex numbers -/
def exComplex (t : Text) : Option (Cx ℚ) :=
  ([("10+5j".toList, ⟨10, 5⟩), ("3+4j".toList, ⟨3, 4⟩), ("50+0j".toList, ⟨50, 0⟩), ("7j".toList, ⟨0, 7⟩)].find? fun p => p.1 = t).map (·.2)

/-- a load with three kinds of phases -/
def exLoadAttrs : List (Text × Text) :=
  [("name".toList, "l1".toList), ("parent".toList, "n1".toList), ("phases".toList, "ABCN".toList), ("nominal_voltage".toList, "7200".toList),
    ("constant_power_A".toList, "10+5j".toList), ("constant_impedance_A".toList, "3+4j".toList), ("voltage_A".toList, "50+0j".toList),
    ("constant_impedance_B".toList, "3+4j".toList), ("voltage_B".toList, "50+0j".toList), ("base_power_C".toList, "sch*3".toList),
    ("current_fraction_C".toList, "0.5".toList), ("current_pf_C".toList, "0.5".toList), ("power_fraction_C".toList, "0.25".toList),
    ("power_pf_C".toList, "0.5".toList), ("impedance_fraction_C".toList, "0.25".toList), ("impedance_pf_C".toList, "0.5".toList)]

/-- the rows of a load -/
def exRows (l : List (Text × Text)) : List Text :=
  "object load {".toList :: (l.map fun p => "  ".toList ++ p.1 ++ ' ' :: p.2 ++ [';']) ++ ["}".toList]

/-- a schedule -/
def exSchedule : List Text := ["schedule sch {".toList, "  0 * * * * 6;".toList, "}".toList]

/-- the object of a load -/
def exLoadDecl (l : List (Text × Text)) : Decl := ⟨"load".toList, none, l⟩

theorem ex_load_read : readGlm exLoadSchema (fun _ => .ok true) (fun _ => none) [] (exSchedule ++ exRows exLoadAttrs) =
    .ok { objects := [("l1".toList, ⟨"load".toList, exLoadAttrs⟩)], schedules := [("sch".toList, "6".toList)] } := rfl

theorem ex_load_holds : Holds [("l1".toList, (⟨"load".toList, exLoadAttrs⟩ : GldObj))] [] [exLoadDecl exLoadAttrs] :=
  holds_one (by decide) (by decide) rfl

/-- the load that is read -/
def exLoad : GReadLoad ℚ × Option (GReadNode ℚ) :=
  (⟨"l1".toList, some "n1".toList, some 7200,
    [⟨'A', 10, 5, 1, false, none⟩, ⟨'B', 300, 400, 2, false, none⟩, ⟨'C', 18, 0, 1, true, some ⟨1 / 4, 1 / 4, 1 / 8, 1 / 8, 1 / 8, 1 / 8⟩⟩]⟩, none)

theorem ex_load_ok : readLoadFile exLoadSchema (fun _ => .ok true) (fun _ => none) exReal exComplex [] (exSchedule ++ exRows exLoadAttrs) =
    .ok [exLoad] := by
  unfold readLoadFile
  rw [ex_load_read]
  decide +kernel

theorem ex_load_named : lastNamed [exLoadDecl exLoadAttrs] "l1".toList = some (exLoadDecl exLoadAttrs) := rfl

example : ∃ names : List Text, names.Nodup ∧
    (∀ n, n ∈ names ↔ ∃ d, lastNamed [exLoadDecl exLoadAttrs] n = some d ∧ d.cls = "load".toList) ∧
      List.Forall₂ (fun n r => ∃ d, lastNamed [exLoadDecl exLoadAttrs] n = some d ∧
        LoadSays exReal exComplex [("sch".toList, "6".toList)] d r) names [exLoad] :=
  C86_loads_partial ex_load_read ex_load_holds ex_load_ok

example : ∃ r ∈ [exLoad], Placed (exLoadDecl exLoadAttrs) r ∧ PhaseHas r 'A' fun l => l.p = 10 ∧ l.q = 5 ∧ l.model = 1 ∧ l.zip = false :=
  C86_power_partial ex_load_read ex_load_holds ex_load_ok ex_load_named rfl (by decide) (w := ⟨10, 5⟩) ⟨_, rfl, by decide +kernel⟩ (by decide)

example : ∃ r ∈ [exLoad], Placed (exLoadDecl exLoadAttrs) r ∧
    PhaseHas r 'B' fun l => (∃ i, Ohm ⟨3, 4⟩ i ⟨50, 0⟩ ∧ Draws ⟨50, 0⟩ i l.p l.q) ∧ l.model = 2 ∧ l.zip = false :=
  C86_impedance_partial ex_load_read ex_load_holds ex_load_ok ex_load_named rfl (by decide) ⟨_, rfl, by decide +kernel⟩
    ⟨_, rfl, by decide +kernel⟩ (by decide) rfl

theorem ex_base_only : BaseOnly (exLoadDecl exLoadAttrs) 'C' := by unfold BaseOnly; decide

example : ∃ r ∈ [exLoad], Placed (exLoadDecl exLoadAttrs) r ∧ PhaseHas r 'C' fun l => l.p = 6 * 3 :=
  C86_base_schedule ex_load_read ex_load_holds ex_load_ok ex_load_named rfl (by decide) ex_base_only (a := "sch".toList) (b := "3".toList)
    (v := "6".toList) (by decide) (by decide) rfl (by decide +kernel) (Or.inl ⟨rfl, rfl, by decide +kernel⟩) (by decide +kernel)

example : ∃ r ∈ [exLoad], Placed (exLoadDecl exLoadAttrs) r ∧
    PhaseHas r 'A' fun l => ∀ i p q, Ohm ⟨3, 4⟩ i ⟨50, 0⟩ → Draws ⟨50, 0⟩ i p q → l.p ≠ 10 + p :=
  C86_both_violated ex_load_read ex_load_holds ex_load_ok ex_load_named rfl (by decide) (w := ⟨10, 5⟩) ⟨_, rfl, by decide +kernel⟩ (by decide)
    ⟨_, rfl, by decide +kernel⟩ ⟨_, rfl, by decide +kernel⟩ (by decide) (Or.inl (by decide))

theorem ex_zip_values : ZipValues exReal (exLoadDecl exLoadAttrs) 'C' (1 / 2) (1 / 2) (1 / 4) (1 / 2) (1 / 4) (1 / 2) :=
  ⟨⟨_, rfl, by decide +kernel⟩, ⟨_, rfl, by decide +kernel⟩, ⟨_, rfl, by decide +kernel⟩, ⟨_, rfl, by decide +kernel⟩,
    ⟨_, rfl, by decide +kernel⟩, ⟨_, rfl, by decide +kernel⟩⟩

example : ∃ r ∈ [exLoad], Placed (exLoadDecl exLoadAttrs) r ∧ PhaseHas r 'C' fun l => l.zip = true ∧ l.q = 0 ∧
    ∃ z, l.shares = some z ∧ z.pcurrent = 1 / 2 * (1 / 2) ∧ z.pcurrent * z.pcurrent + z.qcurrent * z.qcurrent ≠ 1 / 2 * (1 / 2) ∧
      z.pcurrent + z.qcurrent + (z.ppower + z.qpower) + (z.pimpedance + z.qimpedance) = 1 / 2 + 1 / 4 + 1 / 4 :=
  C86_zip_violated ex_load_read ex_load_holds ex_load_ok ex_load_named rfl (by decide) ex_base_only ex_zip_values (by decide +kernel)
    (by decide +kernel) (by decide +kernel)

/-- a second load -/
def exOddAttrs : List (Text × Text) :=
  [("name".toList, "l2".toList), ("phases".toList, "ABC".toList), ("constant_power_A".toList, "7j".toList),
    ("constant_impedance_B".toList, "3+4j".toList), ("base_power_C".toList, "foo*3".toList)]

theorem ex_odd_read : readGlm exLoadSchema (fun _ => .ok true) (fun _ => none) [] (exSchedule ++ exRows exOddAttrs) =
    .ok { objects := [("l2".toList, ⟨"load".toList, exOddAttrs⟩)], schedules := [("sch".toList, "6".toList)] } := rfl

theorem ex_odd_holds : Holds [("l2".toList, (⟨"load".toList, exOddAttrs⟩ : GldObj))] [] [exLoadDecl exOddAttrs] :=
  holds_one (by decide) (by decide) rfl

/-- the load that is read, at a new node -/
def exOdd : GReadLoad ℚ × Option (GReadNode ℚ) :=
  (⟨"load_l2".toList, some "l2".toList, none, [⟨'A', 0, 0, 1, false, none⟩, ⟨'B', 0, 0, 1, false, none⟩, ⟨'C', 0, 0, 1, false, none⟩]⟩,
    some ⟨false, "l2".toList, [['A'], ['B'], ['C']], none⟩)

theorem ex_odd_ok : readLoadFile exLoadSchema (fun _ => .ok true) (fun _ => none) exReal exComplex [] (exSchedule ++ exRows exOddAttrs) =
    .ok [exOdd] := by
  unfold readLoadFile
  rw [ex_odd_read]
  decide +kernel

theorem ex_odd_named : lastNamed [exLoadDecl exOddAttrs] "l2".toList = some (exLoadDecl exOddAttrs) := rfl

example : ∃ r ∈ [exOdd], Placed (exLoadDecl exOddAttrs) r ∧ PhaseHas r 'A' fun l => l.p = 0 ∧ l.q = 0 ∧ l.q ≠ 7 :=
  C86_reactive_violated ex_odd_read ex_odd_holds ex_odd_ok ex_odd_named rfl (by decide) (w := ⟨0, 7⟩) ⟨_, rfl, by decide +kernel⟩ rfl (by decide)
    (by decide)

example : ∃ r ∈ [exOdd], Placed (exLoadDecl exOddAttrs) r ∧ PhaseHas r 'B' fun l => l.p = 0 ∧ l.q = 0 :=
  C86_no_voltage_violated ex_odd_read ex_odd_holds ex_odd_ok ex_odd_named rfl (by decide) rfl (by decide)

example : ∃ r ∈ [exOdd], Placed (exLoadDecl exOddAttrs) r ∧ PhaseHas r 'C' fun l => l.p = 0 ∧ l.q = 0 :=
  C86_unknown_schedule_violated ex_odd_read ex_odd_holds ex_odd_ok ex_odd_named rfl (by decide) (by unfold BaseOnly; decide) (a := "foo".toList)
    (b := "3".toList) ⟨[], rfl, by decide, by decide, Or.inl rfl⟩ rfl (by decide +kernel) rfl rfl

/-- a third load -/
def exMoreAttrs : List (Text × Text) :=
  [("name".toList, "l3".toList), ("phases".toList, "ABC".toList), ("constant_current_A".toList, "3+4j".toList), ("voltage_A".toList, "50+0j".toList),
    ("base_power_B".toList, "3*sch*0.5".toList), ("base_power_C".toList, "6".toList)]

theorem ex_more_read : readGlm exLoadSchema (fun _ => .ok true) (fun _ => none) [] (exSchedule ++ exRows exMoreAttrs) =
    .ok { objects := [("l3".toList, ⟨"load".toList, exMoreAttrs⟩)], schedules := [("sch".toList, "6".toList)] } := rfl

theorem ex_more_holds : Holds [("l3".toList, (⟨"load".toList, exMoreAttrs⟩ : GldObj))] [] [exLoadDecl exMoreAttrs] :=
  holds_one (by decide) (by decide) rfl

/-- the load that is read, at a new node -/
def exMore : GReadLoad ℚ × Option (GReadNode ℚ) :=
  (⟨"load_l3".toList, some "l3".toList, none, [⟨'A', 150, -200, 5, false, none⟩, ⟨'B', 18, 0, 1, false, none⟩, ⟨'C', 6, 0, 1, false, none⟩]⟩,
    some ⟨false, "l3".toList, [['A'], ['B'], ['C']], none⟩)

theorem ex_more_ok : readLoadFile exLoadSchema (fun _ => .ok true) (fun _ => none) exReal exComplex [] (exSchedule ++ exRows exMoreAttrs) =
    .ok [exMore] := by
  unfold readLoadFile
  rw [ex_more_read]
  decide +kernel

theorem ex_more_named : lastNamed [exLoadDecl exMoreAttrs] "l3".toList = some (exLoadDecl exMoreAttrs) := rfl

example : ∃ r ∈ [exMore], Placed (exLoadDecl exMoreAttrs) r ∧
    PhaseHas r 'A' fun l => Draws ⟨50, 0⟩ ⟨3, 4⟩ l.p l.q ∧ l.model = 5 ∧ l.zip = false :=
  C86_current_partial ex_more_read ex_more_holds ex_more_ok ex_more_named rfl (by decide) ⟨_, rfl, by decide +kernel⟩ ⟨_, rfl, by decide +kernel⟩
    (by decide) rfl rfl

example : ∃ r ∈ [exMore], Placed (exLoadDecl exMoreAttrs) r ∧ PhaseHas r 'B' fun l => l.p = 6 * 3 :=
  C86_factors_violated ex_more_read ex_more_holds ex_more_ok ex_more_named rfl (by decide) (by unfold BaseOnly; decide) (a := "3".toList)
    (b := "sch".toList) (v := "6".toList) (more := "0.5".toList) (by decide) (by decide) rfl (by decide +kernel) rfl (by decide +kernel)
    (by decide +kernel)

example : ∃ r ∈ [exMore], Placed (exLoadDecl exMoreAttrs) r ∧ PhaseHas r 'C' fun l => l.p = 6 :=
  C86_base_number ex_more_read ex_more_holds ex_more_ok ex_more_named rfl (by decide) (by unfold BaseOnly; decide) ⟨_, rfl, by decide +kernel⟩

/-- a load with the name of a schedule as base power -/
def exTextAttrs : List (Text × Text) := [("name".toList, "l4".toList), ("phases".toList, "CN".toList), ("base_power_C".toList, "sch".toList)]

example : ∃ e, readLoadFile exLoadSchema (fun _ => .ok true) (fun _ => none) exReal exComplex [] (exSchedule ++ exRows exTextAttrs) = .error e ∧
    (e = .valueError ∨ e = .indexError) :=
  C86_base_text_violated (n := "l4".toList)
    (s := { objects := [("l4".toList, ⟨"load".toList, exTextAttrs⟩)], schedules := [("sch".toList, "6".toList)] }) (ds := [exLoadDecl exTextAttrs])
    rfl (holds_one (by decide) (by decide) rfl) rfl rfl (c := 'C') (by decide) (by unfold BaseOnly; decide) rfl (by decide +kernel) (by decide)

example : ∃ ls, readLoadFile exLoadSchema (fun _ => .ok true) (fun _ => none) exReal exComplex []
    (exSchedule ++ exRows [("name".toList, "l5".toList), ("phases".toList, "C".toList), ("base_power_C".toList, "6".toList)]) = .ok ls := by
  refine C86_succeeds (s := { objects := [("l5".toList, ⟨"load".toList, [("name".toList, "l5".toList), ("phases".toList, "C".toList),
    ("base_power_C".toList, "6".toList)]⟩)], schedules := [("sch".toList, "6".toList)] }) rfl (holds_one (by decide) (by decide) rfl) ?_
  intro n d hd _
  have : d = ⟨"load".toList, none, [("name".toList, "l5".toList), ("phases".toList, "C".toList), ("base_power_C".toList, "6".toList)]⟩ := by
    have := List.mem_of_find?_eq_some hd
    simpa using this
  subst this
  refine ⟨?_, ?_, ?_, ?_⟩
  · intro t ht; cases ht
  · intro c hc k hk t ht
    obtain rfl := List.mem_singleton.mp (show c ∈ ['C'] from hc)
    simp only [List.mem_cons, List.not_mem_nil, or_false] at hk
    rcases hk with rfl | rfl | rfl | rfl <;> cases ht
  · intro c hc k hk t ht
    obtain rfl := List.mem_singleton.mp (show c ∈ ['C'] from hc)
    simp only [zipAttrs, List.mem_cons, List.not_mem_nil, or_false] at hk
    rcases hk with rfl | rfl | rfl | rfl | rfl | rfl <;> cases ht
  · intro c hc t ht
    obtain rfl := List.mem_singleton.mp (show c ∈ ['C'] from hc)
    cases ht
    exact Or.inl (by decide +kernel)

example : readLoadFile exLoadSchema (fun _ => .ok true) (fun _ => none) exReal exComplex []
    ["object triplex_load {".toList, "  name t1;".toList, "}".toList] = .ok [] :=
  C86_triplex_violated (s := { objects := [("t1".toList, ⟨"triplex_load".toList, [("name".toList, "t1".toList)]⟩)] }) rfl
    (holds_one (by decide) (by decide) rfl) (by
      intro n d hd
      have := List.mem_of_find?_eq_some hd
      obtain rfl : d = ⟨"triplex_load".toList, none, [("name".toList, "t1".toList)]⟩ := by simpa using this
      rfl)

/-- the same load in delta and to the neutral -/
example (schedules : List (Text × Text)) :
    readLoad exReal exComplex schedules ⟨"load".toList, [("name".toList, "l".toList), ("phases".toList, "ABCD".toList)]⟩ =
      readLoad exReal exComplex schedules ⟨"load".toList, [("name".toList, "l".toList), ("phases".toList, "ABCN".toList)]⟩ := by
  have hst : ∀ t, Stored ⟨"load".toList, [("name".toList, "l".toList), ("phases".toList, t)]⟩
      ⟨"load".toList, none, [("name".toList, "l".toList), ("phases".toList, t)]⟩ := by
    intro t
    have h := holds_one (cls := "load".toList) (n := "l".toList) (l := [("name".toList, "l".toList), ("phases".toList, t)]) (by decide)
      (show ["name".toList, "phases".toList].Nodup by decide) (by simp [lastValue_cons, lastValue_nil]) "l".toList
    have hl : lastNamed [⟨"load".toList, none, [("name".toList, "l".toList), ("phases".toList, t)]⟩] "l".toList =
        some ⟨"load".toList, none, [("name".toList, "l".toList), ("phases".toList, t)]⟩ := by
      rw [lastNamed_cons, if_pos ⟨by change "load".toList ∉ _; decide, by simp [nameOf, lastValue_cons, lastValue_nil]⟩]
      rfl
    rw [hl] at h
    obtain ⟨o, h1, h2⟩ := h
    simp only [List.find?_cons_of_pos, decide_true, Option.map_some, Option.some.injEq] at h1
    exact h1 ▸ h2
  refine C86_delta_violated (hst _) (hst _) ?_ rfl schedules
  intro k hk
  unfold attrOf nameOf
  simp [lastValue_cons, lastValue_nil, Ne.symm hk]

end Ditto.Glm
