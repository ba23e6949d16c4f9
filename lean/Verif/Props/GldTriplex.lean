import Verif.Lemmas.GldTriplex

/-! C113: triplex lines of GridLAB-D files. `carry` are the variables that the reader still has from the objects before. -/
namespace Ditto.Gld
open Ditto Glm Spec

variable {flt : Text → Option ℝ} {objects : List (Text × GldObj)} {o o' c : GldObj} {carry carry' : Carry}
  {r1 g1 r2 g2 rN gN d t ℓ ℓ' : ℝ}

theorem length_ok (hl : Number flt o "length" ℓ) : triplexLength flt o = .ok (ℓ * 0.3048) := by
  unfold triplexLength
  rw [number_read hl]

theorem not_given (h : Computed c) : givenImpedances c = false := by
  unfold givenImpedances
  simp only [List.all_cons, List.all_nil, Bool.and_true]
  rcases h with h | h | h | h
  all_goals
    unfold Lacks at h
    rw [h]
    simp only [Option.isSome_none, Bool.false_and, Bool.and_false]

/-- the wires of a complete configuration -/
theorem wires_ok (hc : Triplex flt objects c r1 g1 r2 g2 rN gN d t) (L : ℝ) :
    triplexWires flt objects carry L c =
      .ok [madeWire "A" r1 g1 L none 0, madeWire "B" r2 g2 L none 0, madeWire "N" r2 g2 L (some (d / 39.3701)) (t / 39.3701)] := by
  obtain ⟨n1, w1, hn1, hw1, hr1, hg1⟩ := hc.one
  obtain ⟨n2, w2, hn2, hw2, hr2, hg2⟩ := hc.two
  obtain ⟨n3, w3, hn3, hw3, hr3, hg3⟩ := hc.neutral
  have hN : namedConductors c carry.second = .ok [("A", n1), ("B", n2), ("N", n2)] := by
    unfold namedConductors neutralWire secondName
    rw [hn2, hn3, live_some hn1, live_some hn2]
    rfl
  unfold triplexWires
  rw [hN]
  dsimp only
  unfold wireValue
  rw [number_read hc.insulation, number_read hc.diameter]
  dsimp only
  rw [if_neg (by rintro ⟨h, -⟩; cases h)]
  dsimp only
  rw [if_neg (by rintro ⟨h, -⟩; cases h)]
  dsimp only
  change [((_ : TWire), n1), ((_ : TWire), n2), ((_ : TWire), n2)].mapM _ = _
  simp only [List.mapM_cons, List.mapM_nil, values_ok hw1 hr1 hg1, values_ok hw2 hr2 hg2, bind, Except.bind, pure, Except.pure]
  rfl

/-- the two distances, which are in meters and divided by 12 -/
theorem spans_ok (L : ℝ) : spans [madeWire "A" r1 g1 L none 0, madeWire "B" r2 g2 L none 0, madeWire "N" r2 g2 L (some (d / 39.3701)) (t / 39.3701)] =
    some ((d / 39.3701 + 2 * (t / 39.3701)) / 12, (d / 39.3701 + t / 39.3701) / 12) := rfl

theorem self_ne {r g : ℝ} (hr : 0 ≤ r) : carsonSelf r g / 1609.34 ≠ 0 := by
  intro h
  have h1 : carsonSelf r g = 0 := by
    rcases div_eq_zero_iff.mp h with h | h
    · exact h
    · norm_num at h
  have h2 := congrArg Complex.re h1
  change r + 0.00158836 * 60 = 0 at h2
  norm_num at h2
  linarith

/-- the line with the matrix -/
theorem line_ok (hcf : Configuration objects o c) (hl : Number flt o "length" ℓ) (h0 : 0 ≤ ℓ)
    (hc : Triplex flt objects c r1 g1 r2 g2 rN gN d t) (hz : Computed c) :
    ∃ l k, readTriplex flt objects carry o = .ok (l, k) ∧ l.name = getEntry "name".toList o.attrs ∧
      l.source = getEntry "from".toList o.attrs ∧ l.target = getEntry "to".toList o.attrs ∧ l.length = ℓ * 0.3048 ∧
      l.wires = [madeWire "A" r1 g1 (ℓ * 0.3048) none 0, madeWire "B" r2 g2 (ℓ * 0.3048) none 0,
        madeWire "N" r2 g2 (ℓ * 0.3048) (some (d / 39.3701)) (t / 39.3701)] ∧
      ∃ m : Nat → Nat → ℂ, l.matrix = rows 2 (secondaryCell m) ∧ m 2 2 ≠ 0 ∧ ∀ i < 3, ∀ j < 3, m i j =
        perMeter (threeConductors (r1 * (ℓ * 0.3048) / 1609.34) (g1 / 3.28084) (r2 * (ℓ * 0.3048) / 1609.34) (g2 / 3.28084)
          (r2 * (ℓ * 0.3048) / 1609.34) (g2 / 3.28084) ((d / 39.3701 + 2 * (t / 39.3701)) / 12) ((d / 39.3701 + t / 39.3701) / 12) i j) := by
  obtain ⟨n, hn, hcn⟩ := hcf
  obtain ⟨p1, p2, p3, p4, p5, p6, p7, p8⟩ := hc.sizes
  obtain ⟨m, hm, m00, m11, m22, m01, m10, m02, m20, m12, m21⟩ := primitive_three (wa := madeWire "A" r1 g1 (ℓ * 0.3048) none 0)
    (wb := madeWire "B" r2 g2 (ℓ * 0.3048) none 0) (wn := madeWire "N" r2 g2 (ℓ * 0.3048) (some (d / 39.3701)) (t / 39.3701)) rfl rfl rfl
    (self_made p1) (self_made p2) (self_made p2) (spans_ok _) (by dsimp only; positivity) (by dsimp only; positivity)
  have hne : m 2 2 ≠ 0 := by rw [m22]; exact self_ne (by positivity)
  have hcar : triplexCarry flt objects carry (ℓ * 0.3048) o = .ok
      { config := some c, conductors := some [madeWire "A" r1 g1 (ℓ * 0.3048) none 0, madeWire "B" r2 g2 (ℓ * 0.3048) none 0,
          madeWire "N" r2 g2 (ℓ * 0.3048) (some (d / 39.3701)) (t / 39.3701)],
        second := secondName c carry.second, wire := carry.wire || true } := by
    unfold triplexCarry
    rw [hn]
    dsimp only
    rw [hcn]
    dsimp only
    rw [wires_ok hc]
    rfl
  have hmat : triplexMatrix
      { config := some c, conductors := some [madeWire "A" r1 g1 (ℓ * 0.3048) none 0, madeWire "B" r2 g2 (ℓ * 0.3048) none 0,
          madeWire "N" r2 g2 (ℓ * 0.3048) (some (d / 39.3701)) (t / 39.3701)],
        second := secondName c carry.second, wire := carry.wire || true } = .ok (block 2 (secondaryCell m)) := by
    unfold triplexMatrix
    dsimp only
    rw [not_given hz]
    simp only [Bool.false_eq_true, if_false]
    unfold computeSecondary
    rw [hm]
    dsimp only
    rw [if_pos rfl, if_neg hne]
  refine ⟨_, _, by unfold readTriplex; rw [length_ok hl]; dsimp only; rw [hcar]; dsimp only; rw [hmat], rfl, rfl, rfl, rfl, rfl, m, rfl, hne, ?_⟩
  intro i hi j hj
  have h3 : ∀ i < 3, i = 0 ∨ i = 1 ∨ i = 2 := by decide
  rcases h3 i hi with rfl | rfl | rfl <;> rcases h3 j hj with rfl | rfl | rfl <;>
    simp only [m00, m11, m22, m01, m10, m02, m20, m12, m21, perMeter, threeConductors] <;> norm_num

/-- C113 (partial): a triplex line with a complete configuration keeps its name and its ends, its length is converted from feet to meters, and
it has three wires. The live ones have the radii of their conductors in meters and the resistances of their whole lengths. Not shown: the
neutral has its own conductor, see `C113_neutral_violated`, and the diameter and the insulation are those of the live wires, see
`C113_insulation_violated`. -/
theorem C113_wires_partial (hcf : Configuration objects o c) (hl : Number flt o "length" ℓ) (h0 : 0 ≤ ℓ)
    (hc : Triplex flt objects c r1 g1 r2 g2 rN gN d t) (hz : Computed c) :
    ∃ l k a b n, readTriplex flt objects carry o = .ok (l, k) ∧ l.name = getEntry "name".toList o.attrs ∧
      l.source = getEntry "from".toList o.attrs ∧ l.target = getEntry "to".toList o.attrs ∧ l.length = ℓ * 0.3048 ∧ l.wires = [a, b, n] ∧
      a.phase = some "A" ∧ b.phase = some "B" ∧ n.phase = some "N" ∧ a.gmr = some (g1 / 3.28084) ∧ b.gmr = some (g2 / 3.28084) ∧
      a.resistance = some (r1 * (l.length / 1609.34)) ∧ b.resistance = some (r2 * (l.length / 1609.34)) := by
  obtain ⟨l, k, hr, h1, h2, h3, h4, hw, -⟩ := line_ok (carry := carry) hcf hl h0 hc hz
  refine ⟨l, k, _, _, _, hr, h1, h2, h3, h4, hw, rfl, rfl, rfl, rfl, rfl, ?_, ?_⟩
  · rw [h4, ← mul_div_assoc]; rfl
  · rw [h4, ← mul_div_assoc]; rfl

/-- C113 violated: the neutral always gets the resistance and the radius of the second live conductor instead of those of its own one -/
theorem C113_neutral_violated (hcf : Configuration objects o c) (hl : Number flt o "length" ℓ) (h0 : 0 ≤ ℓ)
    (hc : Triplex flt objects c r1 g1 r2 g2 rN gN d t) (hz : Computed c) :
    ∃ l k, readTriplex flt objects carry o = .ok (l, k) ∧ ∃ w ∈ l.wires, w.phase = some "N" ∧ w.gmr = some (g2 / 3.28084) ∧
      w.resistance = some (r2 * (l.length / 1609.34)) ∧ (gN ≠ g2 → w.gmr ≠ some (gN / 3.28084)) := by
  obtain ⟨l, k, hr, h1, h2, h3, h4, hw, -⟩ := line_ok (carry := carry) hcf hl h0 hc hz
  refine ⟨l, k, hr, madeWire "N" r2 g2 (ℓ * 0.3048) (some (d / 39.3701)) (t / 39.3701),
    by rw [hw]; exact .tail _ (.tail _ (.head _)), rfl, rfl, ?_, ?_⟩
  · rw [h4, ← mul_div_assoc]; rfl
  · intro hne h
    have h' : some (g2 / 3.28084) = some (gN / 3.28084) := h
    rw [Option.some.injEq, div_left_inj' (by norm_num)] at h'
    exact hne h'.symm

/-- C113 violated: diameter and insulation of the live wires are lost, and the neutral, which has no insulation, gets them -/
theorem C113_insulation_violated (hcf : Configuration objects o c) (hl : Number flt o "length" ℓ) (h0 : 0 ≤ ℓ)
    (hc : Triplex flt objects c r1 g1 r2 g2 rN gN d t) (hz : Computed c) :
    ∃ l k, readTriplex flt objects carry o = .ok (l, k) ∧
      (∀ w ∈ l.wires, w.phase ≠ some "N" → w.diameter = none ∧ w.insulation = 0) ∧
      ∀ w ∈ l.wires, w.phase = some "N" → w.diameter = some (d / 39.3701) ∧ w.insulation = t / 39.3701 := by
  obtain ⟨l, k, hr, h1, h2, h3, h4, hw, -⟩ := line_ok (carry := carry) hcf hl h0 hc hz
  refine ⟨l, k, hr, ?_, ?_⟩
  · rw [hw]
    intro w hm hp
    simp only [List.mem_cons, List.not_mem_nil, or_false] at hm
    rcases hm with rfl | rfl | rfl
    · exact ⟨rfl, rfl⟩
    · exact ⟨rfl, rfl⟩
    · exact absurd rfl hp
  · rw [hw]
    intro w hm hp
    simp only [List.mem_cons, List.not_mem_nil, or_false] at hm
    rcases hm with rfl | rfl | rfl
    · exact absurd (Option.some.inj hp) (by decide)
    · exact absurd (Option.some.inj hp) (by decide)
    · exact ⟨rfl, rfl⟩

/-- C113 (partial): the matrix is that of Carson's equations with the neutral eliminated, but for resistances of the whole length instead of
those of a mile, for radii in meters instead of feet, for distances in a twelfth of meters instead of feet and for a neutral with the values of
the second conductor -/
theorem C113_matrix_partial (hcf : Configuration objects o c) (hl : Number flt o "length" ℓ) (h0 : 0 ≤ ℓ)
    (hc : Triplex flt objects c r1 g1 r2 g2 rN gN d t) (hz : Computed c) :
    ∃ l k f, readTriplex flt objects carry o = .ok (l, k) ∧ l.matrix = rows 2 f ∧
      EliminatesThird (fun i j => perMeter (threeConductors (r1 * (l.length / 1609.34)) (g1 / 3.28084) (r2 * (l.length / 1609.34)) (g2 / 3.28084)
        (r2 * (l.length / 1609.34)) (g2 / 3.28084) ((d + 2 * t) / 39.3701 / 12) ((d + t) / 39.3701 / 12) i j)) f := by
  obtain ⟨l, k, hr, h1, h2, h3, h4, hw, m, hm, hne, hval⟩ := line_ok (carry := carry) hcf hl h0 hc hz
  refine ⟨l, k, _, hr, hm, ?_⟩
  intro I n hn i hi
  rw [h4] at hn ⊢
  have e1 : (d + 2 * t) / 39.3701 / 12 = (d / 39.3701 + 2 * (t / 39.3701)) / 12 := by ring
  have e2 : (d + t) / 39.3701 / 12 = (d / 39.3701 + t / 39.3701) / 12 := by ring
  have e3 : ∀ r : ℝ, r * (ℓ * 0.3048 / 1609.34) = r * (ℓ * 0.3048) / 1609.34 := fun r => by ring
  simp only [e1, e2, e3] at hn ⊢
  rw [← hval 2 (by omega) 0 (by omega), ← hval 2 (by omega) 1 (by omega), ← hval 2 (by omega) 2 (by omega)] at hn
  rw [← hval i (by omega) 0 (by omega), ← hval i (by omega) 1 (by omega), ← hval i (by omega) 2 (by omega)]
  unfold secondaryCell
  have hnv : n = -(m 2 0 * I 0 + m 2 1 * I 1) / m 2 2 := by
    rw [eq_div_iff hne]
    linear_combination hn
  rw [hnv]
  field_simp
  ring

theorem rows_entry {f g : Nat → Nat → ℂ} (h : rows 2 f = rows 2 g) : f 0 1 = g 0 1 := by
  have h' : [[f 0 0, f 0 1], [f 1 0, f 1 1]] = [[g 0 0, g 0 1], [g 1 0, g 1 1]] := h
  simp only [List.cons.injEq, and_true] at h'
  exact h'.1.2

theorem mutual_ne (x : ℝ) : carsonMutual x ≠ 0 := by
  intro h
  have h2 := congrArg Complex.re h
  change 0.00158836 * 60 = (0 : ℝ) at h2
  norm_num at h2

/-- C113 violated: the impedances per meter depend on the length. Two lines with the same configuration and different lengths do not have the
same matrix. -/
theorem C113_length_violated (hcf : Configuration objects o c) (hl : Number flt o "length" ℓ) (h0 : 0 ≤ ℓ) (hcf' : Configuration objects o' c)
    (hl' : Number flt o' "length" ℓ') (h0' : 0 ≤ ℓ') (hne : ℓ ≠ ℓ') (hc : Triplex flt objects c r1 g1 r2 g2 rN gN d t) (hz : Computed c)
    (h2 : r2 ≠ 0) :
    ∃ l k l' k', readTriplex flt objects carry o = .ok (l, k) ∧ readTriplex flt objects carry' o' = .ok (l', k') ∧ l.matrix ≠ l'.matrix := by
  obtain ⟨l, k, hr, -, -, -, -, -, m, hm, hn, hval⟩ := line_ok (carry := carry) hcf hl h0 hc hz
  obtain ⟨l', k', hr', -, -, -, -, -, m', hm', hn', hval'⟩ := line_ok (carry := carry') hcf' hl' h0' hc hz
  refine ⟨l, k, l', k', hr, hr', ?_⟩
  rw [hm, hm']
  intro h
  have h := rows_entry h
  unfold secondaryCell at h
  have a01 := (hval 0 (by omega) 1 (by omega)).trans (hval' 0 (by omega) 1 (by omega)).symm
  have a02 := (hval 0 (by omega) 2 (by omega)).trans (hval' 0 (by omega) 2 (by omega)).symm
  have a21 := (hval 2 (by omega) 1 (by omega)).trans (hval' 2 (by omega) 1 (by omega)).symm
  have n02 : m' 0 2 ≠ 0 := by
    rw [hval' 0 (by omega) 2 (by omega)]
    exact div_ne_zero (mutual_ne _) (by norm_num)
  have n21 : m' 2 1 ≠ 0 := by
    rw [hval' 2 (by omega) 1 (by omega)]
    exact div_ne_zero (mutual_ne _) (by norm_num)
  rw [a01, a02, a21, mul_one, sub_right_inj] at h
  have h22 : m 2 2 = m' 2 2 := by
    have h := mul_right_cancel₀ n21 h
    rw [div_eq_div_iff hn hn'] at h
    exact (mul_left_cancel₀ n02 h).symm
  rw [hval 2 (by omega) 2 (by omega), hval' 2 (by omega) 2 (by omega)] at h22
  unfold perMeter at h22
  rw [div_left_inj' (by norm_num)] at h22
  have h3 := congrArg Complex.re h22
  change r2 * (ℓ * 0.3048) / 1609.34 + 0.00158836 * 60 = r2 * (ℓ' * 0.3048) / 1609.34 + 0.00158836 * 60 at h3
  rw [add_left_inj, div_left_inj' (by norm_num), mul_right_inj' h2, mul_left_inj' (by norm_num)] at h3
  exact hne h3

/-- C113 violated: a configuration with a neutral, but without second conductor, stops the reading if there was no such line before -/
theorem C113_one_live_violated (hcf : Configuration objects o c) (hl : Number flt o "length" ℓ) (h2 : Lacks c "conductor_2")
    {n : Text} (hN : getEntry "conductor_N".toList c.attrs = some n) (hs : carry.second = none) :
    readTriplex flt objects carry o = .error .unboundLocalError := by
  obtain ⟨k, hk, hc⟩ := hcf
  unfold readTriplex
  rw [length_ok hl]
  dsimp only
  unfold triplexCarry
  rw [hk]
  dsimp only
  rw [hc]
  dsimp only
  unfold triplexWires namedConductors neutralWire secondName
  rw [hN, hs, show getEntry "conductor_2".toList c.attrs = none from h2]
  rfl

/-- the loops without neutral -/
theorem primitive_two {wa wb : TWire} {za zb : ℂ} (ha : wa.phase = some "A") (hb : wb.phase = some "B") (sa : selfZ 60 100 wa.toGWire = .ok za)
    (sb : selfZ 60 100 wb.toGWire = .ok zb) (hd : ∀ d, spans [wa, wb] = some d → 0 < d.1) :
    ∃ m, secondaryPrimitive 60 100 [wa, wb] = .ok m ∧ m 2 2 = 0 := by
  have step1 : ∀ m, storeSelf 60 100 m wa = .ok (setCell m 0 0 (za / 1609.34)) := by
    intro m; unfold storeSelf; rw [sa]; dsimp only; rw [ha]; rfl
  have step2 : ∀ m, storeSelf 60 100 m wb = .ok (setCell m 1 1 (zb / 1609.34)) := by
    intro m; unfold storeSelf; rw [sb]; dsimp only; rw [hb]; rfl
  unfold secondaryPrimitive
  cases hs : spans [wa, wb] with
  | none =>
    have n1 : ∀ m, storeMutual 60 100 none m wa wb = .ok m := by intro m; unfold storeMutual; rw [ha, hb]
    have n2 : ∀ m, storeMutual 60 100 none m wb wa = .ok m := by intro m; unfold storeMutual; rw [ha, hb]
    refine ⟨setCell (setCell (fun _ _ => 0) 0 0 (za / 1609.34)) 1 1 (zb / 1609.34), ?_, rfl⟩
    change List.foldlM (secondaryStep 60 100 none) (fun _ _ => 0) [((wa, 0), wa, 0), ((wa, 0), wb, 1), ((wb, 1), wa, 0), ((wb, 1), wb, 1)] = _
    simp only [List.foldlM_cons, List.foldlM_nil, secondaryStep, bind, Except.bind, pure, Except.pure, step1, step2, n1, n2, if_pos, if_neg,
      zero_ne_one, one_ne_zero, if_true, if_false]
  | some d =>
    have l1 : (logInverse d.1).map (lineZ 60 100 0) = .ok (carsonMutual d.1) := by
      rw [log_pos (hd d hs)]; exact congrArg _ (line_mutual _)
    have n1 : ∀ m, storeMutual 60 100 (some d) m wa wb = .ok (setCell m 0 1 (carsonMutual d.1 / 1609.34)) := by
      intro m; unfold storeMutual; rw [ha, hb]; dsimp only; rw [show spanOf d "A" "B" = d.1 from rfl, l1]; rfl
    have n2 : ∀ m, storeMutual 60 100 (some d) m wb wa = .ok (setCell m 1 0 (carsonMutual d.1 / 1609.34)) := by
      intro m; unfold storeMutual; rw [ha, hb]; dsimp only; rw [show spanOf d "B" "A" = d.1 from rfl, l1]; rfl
    refine ⟨setCell (setCell (setCell (setCell (fun _ _ => 0) 0 0 (za / 1609.34)) 0 1 (carsonMutual d.1 / 1609.34)) 1 0
      (carsonMutual d.1 / 1609.34)) 1 1 (zb / 1609.34), ?_, rfl⟩
    change List.foldlM (secondaryStep 60 100 (some d)) (fun _ _ => 0) [((wa, 0), wa, 0), ((wa, 0), wb, 1), ((wb, 1), wa, 0), ((wb, 1), wb, 1)] = _
    simp only [List.foldlM_cons, List.foldlM_nil, secondaryStep, bind, Except.bind, pure, Except.pure, step1, step2, n1, n2, if_pos, if_neg,
      zero_ne_one, one_ne_zero, if_true, if_false]

/-- C113 violated: a line with two live conductors and no neutral stops the reading -/
theorem C113_no_neutral_violated (hcf : Configuration objects o c) (hl : Number flt o "length" ℓ)
    (h1 : Conductor flt objects c "conductor_1" r1 g1) (h2 : Conductor flt objects c "conductor_2" r2 g2) (hN : Lacks c "conductor_N")
    (hd : Number flt c "diameter" d) (ht : Number flt c "insulation_thickness" t) (hpos : 0 < g1 ∧ 0 < g2 ∧ 0 < d ∧ 0 ≤ t) (hz : Computed c) :
    readTriplex flt objects carry o = .error .zeroDivisionError := by
  obtain ⟨n, hn, hcn⟩ := hcf
  obtain ⟨n1, w1, hn1, hw1, hr1, hg1⟩ := h1
  obtain ⟨n2, w2, hn2, hw2, hr2, hg2⟩ := h2
  obtain ⟨p1, p2, p3, p4⟩ := hpos
  have hN' : namedConductors c carry.second = .ok [("A", n1), ("B", n2)] := by
    unfold namedConductors neutralWire secondName
    rw [hn2, show getEntry "conductor_N".toList c.attrs = none from hN, live_some hn1, live_some hn2]
    rfl
  have hw : triplexWires flt objects carry (ℓ * 0.3048) c =
      .ok [madeWire "A" r1 g1 (ℓ * 0.3048) none 0, madeWire "B" r2 g2 (ℓ * 0.3048) (some (d / 39.3701)) (t / 39.3701)] := by
    unfold triplexWires
    rw [hN']
    dsimp only
    unfold wireValue
    rw [number_read ht, number_read hd]
    dsimp only
    rw [if_neg (by rintro ⟨h, -⟩; cases h)]
    dsimp only
    rw [if_neg (by rintro ⟨h, -⟩; cases h)]
    dsimp only
    change [((_ : TWire), n1), ((_ : TWire), n2)].mapM _ = _
    simp only [List.mapM_cons, List.mapM_nil, values_ok hw1 hr1 hg1, values_ok hw2 hr2 hg2, bind, Except.bind, pure, Except.pure]
    rfl
  obtain ⟨m, hm, h0⟩ := primitive_two (wa := madeWire "A" r1 g1 (ℓ * 0.3048) none 0)
    (wb := madeWire "B" r2 g2 (ℓ * 0.3048) (some (d / 39.3701)) (t / 39.3701)) rfl rfl (self_made p1) (self_made p2) (by
      intro x hx
      have hx' : some ((d / 39.3701 + 2 * (t / 39.3701)) / 12, (d / 39.3701 + t / 39.3701) / 12) = some x := hx
      rw [Option.some.injEq] at hx'
      subst hx'
      dsimp only
      positivity)
  unfold readTriplex
  rw [length_ok hl]
  dsimp only
  unfold triplexCarry
  rw [hn]
  dsimp only
  rw [hcn]
  dsimp only
  rw [hw]
  dsimp only
  unfold triplexMatrix
  dsimp only
  rw [not_given hz]
  simp only [Bool.false_eq_true, if_false]
  unfold computeSecondary
  rw [hm]
  dsimp only
  rw [if_pos rfl, if_pos h0]

/-- C113 violated: impedances that are given directly stop the reading -/
theorem C113_direct_violated (hcf : Configuration objects o c) (hl : Number flt o "length" ℓ)
    (hc : Triplex flt objects c r1 g1 r2 g2 rN gN d t)
    (hz : ∀ k ∈ ["z11", "z12", "z21", "z22"], ¬Lacks c k) : readTriplex flt objects carry o = .error .traitError := by
  obtain ⟨n, hn, hcn⟩ := hcf
  have hg : givenImpedances c = true := by
    unfold givenImpedances
    simp only [List.all_cons, List.all_nil, Bool.and_true, Bool.and_eq_true]
    have key : ∀ k ∈ ["z11", "z12", "z21", "z22"], (getEntry k.toList c.attrs).isSome = true := fun k hk => Option.isSome_iff_ne_none.mpr (hz k hk)
    exact ⟨⟨key "z11" (.head _), key "z12" (.tail _ (.head _))⟩, key "z21" (.tail _ (.tail _ (.head _))), key "z22" (.tail _ (.tail _ (.tail _ (.head _))))⟩
  unfold readTriplex
  rw [length_ok hl]
  dsimp only
  unfold triplexCarry
  rw [hn]
  dsimp only
  rw [hcn]
  dsimp only
  rw [wires_ok hc]
  dsimp only
  unfold triplexMatrix
  dsimp only
  rw [hg]
  rfl

/-- C113 violated: a line without configuration gets the wires and the impedances of the line before -/
theorem C113_previous_violated {l : TLine} {k : Carry} (h : readTriplex flt objects carry o = .ok (l, k))
    (hn : Lacks o' "configuration") (hl : Number flt o' "length" ℓ) :
    ∃ l', readTriplex flt objects k o' = .ok (l', k) ∧ l'.wires = l.wires ∧ l'.matrix = l.matrix ∧ l'.length = ℓ * 0.3048 := by
  unfold readTriplex at h
  split at h
  · cases h
  · split at h
    · cases h
    · rename_i carry' _
      split at h
      · cases h
      · cases h
      · rename_i m ws hm hw
        cases h
        refine ⟨{ name := getEntry "name".toList o'.attrs, source := getEntry "from".toList o'.attrs,
                  target := getEntry "to".toList o'.attrs, length := ℓ * 0.3048, wires := ws, matrix := m }, by
          unfold readTriplex
          rw [length_ok hl]
          dsimp only
          unfold triplexCarry
          rw [show getEntry "configuration".toList o'.attrs = none from hn]
          dsimp only
          rw [hm, hw], rfl, rfl, rfl⟩

/-! A concrete file: the two lines have the lengths 100 and 200. -/

/-- the numbers of the example -/
noncomputable def exFlt : Text → Option ℝ := fun t =>
  if t = "100".toList then some 100 else if t = "200".toList then some 200 else if t = "3".toList then some 3 else if t = "1".toList then some 1
  else if t = "2".toList then some 2 else none

/-- a conductor -/
def exConductor (r g : String) : GldObj :=
  ⟨"triplex_line_conductor".toList, [("resistance".toList, r.toList), ("geometric_mean_radius".toList, g.toList)]⟩

/-- the configuration -/
def exTriplexConfig : GldObj :=
  ⟨"triplex_line_configuration".toList, [("conductor_1".toList, "hot".toList), ("conductor_2".toList, "hot".toList), ("conductor_N".toList, "bare".toList),
    ("diameter".toList, "2".toList), ("insulation_thickness".toList, "1".toList)]⟩

/-- the objects of the file -/
def exTriplexObjects : List (Text × GldObj) :=
  [("hot".toList, exConductor "3" "1"), ("bare".toList, exConductor "1" "2"), ("conf".toList, exTriplexConfig)]

/-- a line -/
def exTriplexLine (length : String) : GldObj :=
  ⟨"triplex_line".toList, [("name".toList, "t".toList), ("length".toList, length.toList), ("configuration".toList, "conf".toList)]⟩

theorem exTriplex_conf : Triplex exFlt exTriplexObjects exTriplexConfig 3 1 3 1 1 2 2 1 := by
  refine ⟨⟨"hot".toList, _, rfl, rfl, ⟨_, rfl, ?_⟩, _, rfl, ?_⟩, ⟨"hot".toList, _, rfl, rfl, ⟨_, rfl, ?_⟩, _, rfl, ?_⟩,
    ⟨"bare".toList, _, rfl, rfl, ⟨_, rfl, ?_⟩, _, rfl, ?_⟩, ⟨_, rfl, ?_⟩, ⟨_, rfl, ?_⟩, by norm_num⟩
  all_goals simp [exFlt]

example : ∃ l k l' k', readTriplex exFlt exTriplexObjects {} (exTriplexLine "100") = .ok (l, k) ∧
    readTriplex exFlt exTriplexObjects {} (exTriplexLine "200") = .ok (l', k') ∧ l.matrix ≠ l'.matrix :=
  C113_length_violated (ℓ := 100) (ℓ' := 200) ⟨"conf".toList, rfl, rfl⟩ ⟨_, rfl, by simp [exFlt]⟩ (by norm_num) ⟨"conf".toList, rfl, rfl⟩
    ⟨_, rfl, by simp [exFlt]⟩ (by norm_num) (by norm_num) exTriplex_conf (.inl rfl) (by norm_num)

end Ditto.Gld
