import Verif.Model.Units
import Verif.Spec.Units
import Mathlib.Tactic.Linarith
import Mathlib.Tactic.Ring
import Mathlib.Tactic.FieldSimp
import Mathlib.Algebra.Order.Field.Rat
import Mathlib.Algebra.Order.AbsoluteValue.Basic

namespace Ditto.Units
open Ditto.Spec

private theorem approx_mul {ε c q b d : ℚ} (hd : b = d * q) (h : |c - d| ≤ ε * |d|) :
    Approx ε (c * q) b := by
  subst hd
  unfold Approx
  rw [← sub_mul, abs_mul, abs_mul, ← mul_assoc]
  exact mul_le_mul_of_nonneg_right h (abs_nonneg q)

/-- multiplier actually used by `toMeters` -/
private def toC : LengthUnit → ℚ
  | .mile => 1609.34 | .kilometer => 1000 | .kilofoot => 304.8 | .meter => 1 | .foot => 0.3048
  | .inch => 0.0254 | .centimeter => 0.01

private def fromC : LengthUnit → ℚ
  | .mile => 0.000621371 | .kilometer => 1/1000 | .kilofoot => 0.00328084 | .meter => 1
  | .foot => 3.28084 | .inch => 39.3701 | .centimeter => 100

private theorem toMeters_eq {s : String} {u : LengthUnit} (h : Names s u) (q : ℚ) (i : InverseArg) :
    toMeters (some q) (.str s) i = some (if i.eval then q / toC u else toC u * q) := by
  unfold Names at h
  cases u <;> simp only [LengthUnit.abbrev] at h <;> simp [toMeters, h, toC]

private theorem fromMeters_eq {s : String} {u : LengthUnit} (h : Names s u) (q : ℚ) (i : InverseArg) :
    fromMeters (some q) (.str s) i = some (if i.eval then q / fromC u else fromC u * q) := by
  unfold Names at h
  cases u <;> simp only [LengthUnit.abbrev] at h <;> simp [fromMeters, h, fromC]


/-! ### C01 -/

/-- C01: `convert_to_meters` is the physical conversion up to 3 parts per million. -/
theorem C01_to_meters_physical (s : String) (u : LengthUnit) (h : Names s u) (x : ℚ) :
    ∃ y, toMeters (some x) (.str s) = some y ∧ Approx 0.000003 y (u.meters * x) := by
  refine ⟨_, toMeters_eq h x .absent, ?_⟩
  simp only [InverseArg.eval, Bool.false_eq_true, if_false]
  refine approx_mul rfl ?_
  cases u <;> simp only [toC, LengthUnit.meters] <;> norm_num [abs_le]

/-- C01: `convert_from_meters` is the physical conversion up to 3 parts per million. -/
theorem C01_from_meters_physical (s : String) (u : LengthUnit) (h : Names s u) (x : ℚ) :
    ∃ y, fromMeters (some x) (.str s) = some y ∧ Approx 0.000003 y (x / u.meters) := by
  refine ⟨_, fromMeters_eq h x .absent, ?_⟩
  simp only [InverseArg.eval, Bool.false_eq_true, if_false]
  refine approx_mul (d := 1 / u.meters) (by ring) ?_
  cases u <;> simp only [fromC, LengthUnit.meters] <;> norm_num [abs_le]

/-- C01: converting to meters and back gives the original length up to 3 parts per million. -/
theorem C01_round_trip (s : String) (u : LengthUnit) (h : Names s u) (x : ℚ) :
    ∃ y, fromMeters (toMeters (some x) (.str s)) (.str s) = some y ∧ Approx 0.000003 y x := by
  refine ⟨_, by rw [toMeters_eq h x .absent, fromMeters_eq h _ .absent], ?_⟩
  simp only [InverseArg.eval, Bool.false_eq_true, if_false]
  rw [← mul_assoc]
  refine approx_mul (d := 1) (by ring) ?_
  cases u <;> simp only [fromC, toC] <;> norm_num [abs_le]

/-- C01: the other direction, from meters and back. -/
theorem C01_round_trip_from (s : String) (u : LengthUnit) (h : Names s u) (x : ℚ) :
    ∃ y, toMeters (fromMeters (some x) (.str s)) (.str s) = some y ∧ Approx 0.000003 y x := by
  refine ⟨_, by rw [fromMeters_eq h x .absent, toMeters_eq h _ .absent], ?_⟩
  simp only [InverseArg.eval, Bool.false_eq_true, if_false]
  rw [← mul_assoc]
  refine approx_mul (d := 1) (by ring) ?_
  cases u <;> simp only [fromC, toC] <;> norm_num [abs_le]

/-- C01: the round trip is exact for meters, kilometers and centimeters. -/
theorem C01_round_trip_exact (s : String) (u : LengthUnit) (h : Names s u)
    (hu : u = .meter ∨ u = .kilometer ∨ u = .centimeter) (x : ℚ) :
    fromMeters (toMeters (some x) (.str s)) (.str s) = some x := by
  rw [toMeters_eq h x .absent, fromMeters_eq h _ .absent]
  rcases hu with rfl | rfl | rfl <;>
    simp only [InverseArg.eval, fromC, toC, Bool.false_eq_true, if_false, Option.some.injEq] <;> ring

/-- C01: for the other four units the round trip is never exact on a non-zero length. -/
theorem C01_round_trip_inexact (s : String) (u : LengthUnit) (h : Names s u)
    (hu : u = .mile ∨ u = .kilofoot ∨ u = .foot ∨ u = .inch) (x : ℚ) (hx : x ≠ 0) :
    fromMeters (toMeters (some x) (.str s)) (.str s) ≠ some x := by
  rw [toMeters_eq h x .absent, fromMeters_eq h _ .absent]
  rcases hu with rfl | rfl | rfl | rfl <;>
    simp only [InverseArg.eval, fromC, toC, Bool.false_eq_true, if_false, ne_eq,
      Option.some.injEq] <;> intro h' <;> apply hx <;> linarith

/-- C01: the writers' copy of the helper computes the same function as the readers'. -/
theorem C01_writer_agrees (q : Option ℚ) (u : UnitArg) (i : InverseArg) :
    writerFromMeters q u i = fromMeters q u i := by
  unfold writerFromMeters fromMeters
  cases u <;> cases q <;> simp only []
  cases i.eval <;> simp

/-- the hypotheses are met, also by upper-case names -/
example : Names "KFT" .kilofoot ∧ Names "mi" .mile ∧ Names "In" .inch := by
  refine ⟨?_, ?_, ?_⟩ <;> simp [Names, LengthUnit.abbrev] <;> decide
example : fromMeters (toMeters (some 5) (.str "Mi")) (.str "MI") ≠ some 5 ∧
    fromMeters (toMeters (some 5) (.str "Km")) (.str "km") = some 5 := by
  constructor <;> decide +kernel

/-! ### C02 -/

/-- C02: with `inverse=True`, converting a length and a per-length quantity described in the same unit to
meters leaves their product (e.g. the total impedance of a line) exactly unchanged. -/
theorem C02_total_preserved_to_meters (s : String) (u : LengthUnit) (h : Names s u) (len z : ℚ) :
    ∃ len' z', toMeters (some len) (.str s) = some len' ∧
      toMeters (some z) (.str s) (.bool true) = some z' ∧ len' * z' = len * z := by
  refine ⟨_, _, toMeters_eq h len .absent, toMeters_eq h z (.bool true), ?_⟩
  have : toC u ≠ 0 := by cases u <;> norm_num [toC]
  simp only [InverseArg.eval, Bool.false_eq_true, if_false, if_true]
  field_simp

/-- C02: the same from meters to any unit. -/
theorem C02_total_preserved_from_meters (s : String) (u : LengthUnit) (h : Names s u) (len z : ℚ) :
    ∃ len' z', fromMeters (some len) (.str s) = some len' ∧
      fromMeters (some z) (.str s) (.bool true) = some z' ∧ len' * z' = len * z := by
  refine ⟨_, _, fromMeters_eq h len .absent, fromMeters_eq h z (.bool true), ?_⟩
  have : fromC u ≠ 0 := by cases u <;> norm_num [fromC]
  simp only [InverseArg.eval, Bool.false_eq_true, if_false, if_true]
  field_simp

/-- C02: converting a per-length quantity to per-meter and back is the identity up to 3 ppm. -/
theorem C02_inverse_round_trip (s : String) (u : LengthUnit) (h : Names s u) (z : ℚ) :
    ∃ y, fromMeters (toMeters (some z) (.str s) (.bool true)) (.str s) (.bool true) = some y ∧
      Approx 0.000003 y z := by
  refine ⟨_, by rw [toMeters_eq h z (.bool true), fromMeters_eq h _ (.bool true)], ?_⟩
  simp only [InverseArg.eval, if_true]
  rw [div_div, div_eq_mul_inv, mul_comm z]
  refine approx_mul (d := 1) (by ring) ?_
  cases u <;> simp only [fromC, toC] <;> norm_num [abs_le]

example : toMeters (some 2) (.str "km") = some 2000 ∧
    toMeters (some 5) (.str "km") (.bool true) = some (1/200) := by
  constructor <;> decide +kernel

/-! ### C03 -/

private theorem toMeters_isNone (q : ℚ) (s : String) (i : InverseArg) :
    toMeters (some q) (.str s) i = none ↔ ¬ ∃ u, Names s u := by
  constructor
  · rintro h ⟨u, hu⟩
    rw [toMeters_eq hu] at h; simp at h
  · intro h
    simp only [toMeters]
    split_ifs with h1 h2 h3 h4 h5 h6 h7
    all_goals first | rfl | skip
    · exact absurd ⟨.mile, h1⟩ h
    · exact absurd ⟨.kilometer, h2⟩ h
    · exact absurd ⟨.kilofoot, h3⟩ h
    · exact absurd ⟨.meter, h4⟩ h
    · exact absurd ⟨.foot, h5⟩ h
    · exact absurd ⟨.inch, h6⟩ h
    · exact absurd ⟨.centimeter, h7⟩ h

private theorem fromMeters_isNone (q : ℚ) (s : String) (i : InverseArg) :
    fromMeters (some q) (.str s) i = none ↔ ¬ ∃ u, Names s u := by
  constructor
  · rintro h ⟨u, hu⟩
    rw [fromMeters_eq hu] at h; simp at h
  · intro h
    simp only [fromMeters]
    split_ifs with h1 h2 h3 h4 h5 h6 h7
    all_goals first | rfl | skip
    · exact absurd ⟨.mile, h1⟩ h
    · exact absurd ⟨.kilometer, h2⟩ h
    · exact absurd ⟨.kilofoot, h3⟩ h
    · exact absurd ⟨.meter, h4⟩ h
    · exact absurd ⟨.foot, h5⟩ h
    · exact absurd ⟨.inch, h6⟩ h
    · exact absurd ⟨.centimeter, h7⟩ h

/-- C03: both conversions return a number exactly when a quantity is given and the unit is a string naming
one of the seven units; in every other case they return `None`. -/
theorem C03_none_iff_unsupported (q : Option ℚ) (arg : UnitArg) (i : InverseArg) :
    ((toMeters q arg i).isSome ↔ q.isSome ∧ ∃ s u, arg = .str s ∧ Names s u) ∧
    ((fromMeters q arg i).isSome ↔ q.isSome ∧ ∃ s u, arg = .str s ∧ Names s u) := by
  cases arg with
  | none => simp [toMeters, fromMeters]
  | notString => simp [toMeters, fromMeters]
  | str s =>
    cases q with
    | none => simp [toMeters, fromMeters]
    | some q =>
      have h1 := toMeters_isNone q s i
      have h2 := fromMeters_isNone q s i
      rw [← Option.not_isSome_iff_eq_none, not_iff_not] at h1 h2
      rw [h1, h2]
      simp

/-- C03: letter case of the unit is irrelevant. -/
theorem C03_case_insensitive (q : Option ℚ) (s t : String) (i : InverseArg) (h : pyLower s = pyLower t) :
    toMeters q (.str s) i = toMeters q (.str t) i ∧ fromMeters q (.str s) i = fromMeters q (.str t) i := by
  cases q <;> simp [toMeters, fromMeters, h]

/-- C03: `unit_conversion` between two lower-case unit names is the physical conversion up to 6 ppm. -/
theorem C03_unit_conversion_physical (u v : LengthUnit) (x : ℚ) :
    ∃ y, unitConversion (some x) (.str u.abbrev) (.str v.abbrev) = some y ∧
      Approx 0.000006 y (x * u.meters / v.meters) := by
  have hu : Names u.abbrev u := by cases u <;> simp only [Names, LengthUnit.abbrev] <;> decide
  have hv : Names v.abbrev v := by cases v <;> simp only [Names, LengthUnit.abbrev] <;> decide
  have hu' : u.abbrev ∈ supportedUnits := by cases u <;> decide
  have hv' : v.abbrev ∈ supportedUnits := by cases v <;> decide
  refine ⟨_, by
    simp only [unitConversion, hu', hv', not_true_eq_false, if_false]
    rw [toMeters_eq hu x .absent, fromMeters_eq hv _ .absent], ?_⟩
  simp only [InverseArg.eval, Bool.false_eq_true, if_false]
  rw [← mul_assoc]
  refine approx_mul (d := u.meters / v.meters) (by ring) ?_
  cases u <;> cases v <;> simp only [fromC, toC, LengthUnit.meters] <;> norm_num [abs_le]

/-- C03: `unit_conversion` answers `None` exactly when the quantity is missing or one of the units is not
one of the seven lower-case abbreviations (in particular for upper-case names). -/
theorem C03_unit_conversion_none (q : Option ℚ) (a b : UnitArg) :
    unitConversion q a b = none ↔
      q = none ∨ ¬ ((∃ u : LengthUnit, a = .str u.abbrev) ∧ ∃ v : LengthUnit, b = .str v.abbrev) := by
  have key : ∀ s, s ∈ supportedUnits ↔ ∃ u : LengthUnit, s = u.abbrev := by
    intro s
    constructor
    · intro h
      simp only [supportedUnits, List.mem_cons, List.not_mem_nil, or_false] at h
      rcases h with h | h | h | h | h | h | h
      exacts [⟨.kilometer, h⟩, ⟨.meter, h⟩, ⟨.foot, h⟩, ⟨.kilofoot, h⟩, ⟨.inch, h⟩,
        ⟨.centimeter, h⟩, ⟨.mile, h⟩]
    · rintro ⟨u, rfl⟩; cases u <;> decide
  cases a with
  | none => simp [unitConversion]
  | notString => simp [unitConversion]
  | str a =>
    cases b with
    | none => simp [unitConversion]
    | notString => simp [unitConversion]
    | str b =>
      simp only [unitConversion, UnitArg.str.injEq]
      by_cases ha : ∃ u : LengthUnit, a = u.abbrev
      · by_cases hb : ∃ v : LengthUnit, b = v.abbrev
        · rw [if_neg (not_not.2 ((key a).2 ha)), if_neg (not_not.2 ((key b).2 hb))]
          cases q with
          | none => simp [toMeters, fromMeters]
          | some x =>
            obtain ⟨u, rfl⟩ := ha
            obtain ⟨v, rfl⟩ := hb
            obtain ⟨y, hy, -⟩ := C03_unit_conversion_physical u v x
            have hu' : u.abbrev ∈ supportedUnits := (key _).2 ⟨u, rfl⟩
            have hv' : v.abbrev ∈ supportedUnits := (key _).2 ⟨v, rfl⟩
            simp only [unitConversion, hu', hv', not_true_eq_false, if_false] at hy
            rw [hy]; simp
        · rw [if_neg (not_not.2 ((key a).2 ha)), if_pos (fun h => hb ((key b).1 h))]; simp [hb]
      · rw [if_pos (fun h => ha ((key a).1 h))]; simp [ha]

example : unitConversion (some 1) (.str "km") (.str "m") = some 1000 ∧
    unitConversion (some 1) (.str "KM") (.str "m") = none ∧
    toMeters (some 1) (.str "furlong") = none := by
  refine ⟨?_, ?_, ?_⟩ <;> decide +kernel

/-! ### C43: Synergi length units -/

/-- C43: what each Synergi value type means in each unit system (docstring table of
`convert_length_unit`): the unit of one length step, and whether the value is per length. -/
def synergiMeaning : String → SynergiValueType → Option (ℚ × Bool)
  | "english2", .SUL => some (LengthUnit.meters .inch, false)
  | "english1", .SUL => some (LengthUnit.meters .inch, false)
  | "english", .SUL => some (LengthUnit.meters .inch, false)
  | "metric", .SUL => some (1/1000, false)
  | "english2", .MUL => some (LengthUnit.meters .foot, false)
  | "english1", .MUL => some (LengthUnit.meters .foot, false)
  | "english", .MUL => some (LengthUnit.meters .foot, false)
  | "metric", .MUL => some (1, false)
  | "english2", .LUL => some (LengthUnit.meters .mile, false)
  | "english1", .LUL => some (LengthUnit.meters .kilofoot, false)
  | "english", .LUL => some (LengthUnit.meters .kilofoot, false)
  | "metric", .LUL => some (LengthUnit.meters .kilometer, false)
  | "english2", .Per_LUL => some (LengthUnit.meters .mile, true)
  | "english1", .Per_LUL => some (LengthUnit.meters .kilofoot, true)
  | "english", .Per_LUL => some (LengthUnit.meters .kilofoot, true)
  | "metric", .Per_LUL => some (LengthUnit.meters .kilometer, true)
  | _, _ => none

private theorem convert_lower (x : ℚ) (t : SynergiValueType) (units : String) (f : ℚ)
    (hu : pyLower units ∈ ["english", "english2", "english1", "metric"])
    (hf : synergiFactor units t = some f) :
    convertLengthUnit x (some t) (some units) = .ok (x * f) := by
  simp only [convertLengthUnit, hf]
  rw [if_neg (not_not.2 hu)]

/-- C43: for the four lower-case unit systems the Synergi conversion is the documented one up to 3 ppm. -/
theorem C43_synergi_physical_partial (units : String) (t : SynergiValueType) (x step : ℚ) (per : Bool)
    (h : synergiMeaning units t = some (step, per)) :
    ∃ y, convertLengthUnit x (some t) (some units) = .ok y ∧
      Approx 0.000003 y (if per then x / step else x * step) := by
  have hu : units ∈ ["english", "english2", "english1", "metric"] := by
    unfold synergiMeaning at h
    split at h <;> simp_all
  have hl : pyLower units ∈ ["english", "english2", "english1", "metric"] := by
    simp only [List.mem_cons, List.not_mem_nil, or_false] at hu
    rcases hu with rfl | rfl | rfl | rfl <;> decide
  have key : ∃ f, synergiFactor units t = some f ∧
      |f - (if per then 1 / step else step)| ≤ 0.000003 * |if per then 1 / step else step| := by
    simp only [List.mem_cons, List.not_mem_nil, or_false] at hu
    rcases hu with rfl | rfl | rfl | rfl <;> cases t <;>
      simp only [synergiMeaning, LengthUnit.meters, Option.some.injEq, Prod.mk.injEq] at h <;>
      obtain ⟨rfl, rfl⟩ := h <;>
      simp [synergiFactor] <;> norm_num [abs_le]
  obtain ⟨f, hf, hle⟩ := key
  refine ⟨_, convert_lower x t units f hl hf, ?_⟩
  rw [mul_comm x]
  refine approx_mul ?_ hle
  cases per <;> simp <;> ring

/-- C43 (violated): the unit system is accepted in any letter case, e.g. `English1` as spelled in the
docstring, but the lookup then fails with `KeyError` whenever it is not written in lower case. -/
theorem C43_mixed_case_fails (units : String) (t : SynergiValueType) (x : ℚ)
    (h : pyLower units ∈ ["english", "english2", "english1", "metric"]) (hne : pyLower units ≠ units) :
    convertLengthUnit x (some t) (some units) = .error .keyError := by
  have hm : units ∉ ["english", "english2", "english1", "metric"] := by
    intro hm
    apply hne
    simp only [List.mem_cons, List.not_mem_nil, or_false] at hm
    rcases hm with rfl | rfl | rfl | rfl <;> decide
  simp only [List.mem_cons, List.not_mem_nil, or_false, not_or] at hm
  have : synergiFactor units t = none := by simp [synergiFactor, hm]
  simp only [convertLengthUnit, this]
  rw [if_neg (not_not.2 h)]

/-- C43: every other unit string is rejected with `ValueError`. -/
theorem C43_unknown_rejected (units : String) (t : Option SynergiValueType) (x : ℚ)
    (h : pyLower units ∉ ["english", "english2", "english1", "metric"]) :
    convertLengthUnit x t (some units) = .error .valueError := by
  cases t <;> simp only [convertLengthUnit]
  rw [if_pos h]

example : convertLengthUnit 1 (some .LUL) (some "English1") = .error .keyError ∧
    convertLengthUnit 2 (some .LUL) (some "english1") = .ok 609.6 := by
  constructor <;> decide +kernel

end Ditto.Units
