import Verif.Lemmas.GldUnderground

namespace Ditto.Gld
open Ditto Glm Spec

variable {flt : Text → Option ℝ} {objects : List (Text × GldObj)} {o c : GldObj} {has : String → Bool} {R G : String → ℝ}
  {NR NG : String → Option ℝ} {P : String → ℝ × ℝ} {L : ℝ} {before : Option (GldObj × List UWire)}

theorem cable_length (hl : Number flt o "length" L) : triplexLength flt o = .ok (L * 0.3048) := by
  unfold triplexLength
  rw [number_read hl]

theorem not_nine (h : NotDirect c) : givenNine c = false := by
  unfold givenNine
  rw [Bool.eq_false_iff]
  intro hall
  obtain ⟨k, hk, hl⟩ := h
  have := List.all_eq_true.mp hall k hk
  rw [show getEntry k.toList c.attrs = none from hl] at this
  cases this

theorem four_get {i : Nat} {x : String} (h : ["A", "B", "C", "N"][i]? = some x) : i < 4 ∧ x = letter i := by
  have hi : i < 4 := (List.getElem?_eq_some_iff.mp h).1
  refine ⟨hi, ?_⟩
  interval_cases i <;> exact (Option.some.inj h).symm

/-- the matrix for wires at different points `Q` -/
theorem matrix_ok (hc : CablesAre flt objects c has R G NR NG) (hnd : NotDirect c) {Q : String → ℝ × ℝ}
    (hQ : ∀ x ∈ phasesOf has, ∀ y ∈ phasesOf has, x ≠ y → Q x ≠ Q y) (hR : 0 ≤ R "N") :
    ∃ m, cableMatrix c ((phasesOf has).map (placedCable R G NR NG Q)) = .ok m ∧ LineMatrix (phasesOf has) R G Q m := by
  obtain ⟨z, hz, hin, hout⟩ := primitive_eq (freq := 60) (res := 100) (phases := phasesOf has) (W := fun x => (placedCable R G NR NG Q x).toGWire)
    (fun p hp => (mem_phases.mp hp).1) phases_nodup (fun _ _ => rfl) (self := fun p => carsonSelf (R p) (G p))
    (mu := fun p q => carsonMutual (gap (Q p) (Q q)))
    (fun p _ => selfZ_eq rfl rfl (hc.positive p))
    (fun p hp q hq hpq => by
      unfold mutualZ
      dsimp only [placedCable]
      change (logInverse (gap (Q p) (Q q))).map _ = _
      rw [logInverse_pos (gap_pos (hQ p hp q hq hpq))]
      exact congrArg Except.ok (line_mutual _))
  have hcar : IsCarson (phasesOf has) R G Q z := by
    intro i j x y hx hy
    obtain ⟨hi, rfl⟩ := four_get hx
    obtain ⟨hj, rfl⟩ := four_get hy
    by_cases hm : letter i ∈ phasesOf has ∧ letter j ∈ phasesOf has
    · rw [if_pos hm]; exact hin i j hi hj hm.1 hm.2
    · rw [if_neg hm]; exact hout i j hi hj hm
  have hmap : ((phasesOf has).map (placedCable R G NR NG Q)).map (·.toGWire) = (phasesOf has).map fun x => (placedCable R G NR NG Q x).toGWire := by
    rw [List.map_map]; rfl
  unfold cableMatrix
  rw [not_nine hnd, if_neg (by simp), hmap]
  unfold computeMatrix
  rw [hz]
  dsimp only
  rw [neutral_of (fun _ => rfl)]
  by_cases hN : "N" ∈ phasesOf has
  · have h33 : z 3 3 ≠ 0 := by
      rw [hin 3 3 (by omega) (by omega) hN hN, if_pos rfl]
      intro h
      have hre := congrArg Complex.re h
      simp only [carsonSelf, Complex.zero_re] at hre
      change R "N" + _ = 0 at hre
      norm_num at hre
      linarith
    rw [decide_eq_true hN]
    unfold reduceZ
    simp only [Bool.and_true, if_true]
    rw [if_neg h33]
    exact ⟨_, congrArg Except.ok (rows_map 3 _), z, hcar, fun h => absurd hN h, fun _ => ⟨_, kron_eliminates h33, rfl⟩⟩
  · rw [decide_eq_false hN]
    unfold reduceZ
    simp only [Bool.and_false, Bool.false_eq_true, if_false]
    exact ⟨_, congrArg Except.ok (rows_map 3 _), z, hcar, fun _ => rfl, fun h => absurd h hN⟩

/-- the line if its wires and its matrix are these -/
theorem cable_line (hcf : Configuration objects o c) (hl : Number flt o "length" L) {ws : List UWire} (hws : cableWires flt objects c = .ok ws)
    {m : List (List ℂ)} (hm : cableMatrix c ws = .ok m) :
    readUnderground flt objects before o =
      .ok ({ name := getEntry "name".toList o.attrs, source := getEntry "from".toList o.attrs, target := getEntry "to".toList o.attrs,
             length := L * 0.3048, wires := ws.map cableUnits, matrix := m }, c, ws.map cableUnits) := by
  obtain ⟨n, h1, h2⟩ := hcf
  unfold readUnderground
  rw [cable_length hl]
  dsimp only
  have hcfg : cableConfig flt objects before o = .ok (c, ws) := by
    unfold cableConfig
    rw [h1]
    dsimp only
    rw [h2]
    dsimp only
    rw [hws]
  rw [hcfg]
  dsimp only
  rw [hm]

theorem values_are (l : List String) (Q : String → ℝ × ℝ) : ValuesAre ((l.map (placedCable R G NR NG Q)).map cableUnits) l R G NR NG := by
  unfold ValuesAre
  induction l with
  | nil => exact .nil
  | cons x l ih => exact .cons ⟨rfl, rfl, rfl, rfl, rfl⟩ ih

theorem plain_are (l : List String) : ValuesAre ((l.map (plainCable R G NR NG)).map cableUnits) l R G NR NG := by
  unfold ValuesAre
  induction l with
  | nil => exact .nil
  | cons x l ih => exact .cons ⟨rfl, rfl, rfl, rfl, rfl⟩ ih

theorem at_placed (l : List String) (Q : String → ℝ × ℝ) : At ((l.map (placedCable R G NR NG Q)).map cableUnits) l Q := by
  unfold At
  induction l with
  | nil => exact .nil
  | cons x l ih => exact .cons ⟨rfl, rfl, rfl⟩ ih

/-- the positions of the wires are unique -/
theorem at_unique {l : List String} {ws : List UWire} {Q Q' : String → ℝ × ℝ} (h : At ws l Q) (h' : At ws l Q') : ∀ x ∈ l, Q x = Q' x := by
  unfold At at h h'
  induction h with
  | nil => intro x hx; cases hx
  | cons hw _ ih =>
    cases h' with
    | cons hw' ht' =>
      intro x hx
      rcases List.mem_cons.mp hx with rfl | hx
      · exact Prod.ext (Option.some.inj (hw.2.1.symm.trans hw'.2.1)) (Option.some.inj (hw.2.2.symm.trans hw'.2.2))
      · exact ih ht' x hx

theorem congruent_apart {l : List String} {P Q : String → ℝ × ℝ} (h : Congruent l P Q) (ha : ∀ x ∈ l, ∀ y ∈ l, x ≠ y → P x ≠ P y) :
    ∀ x ∈ l, ∀ y ∈ l, x ≠ y → Q x ≠ Q y := by
  intro x hx y hy hxy he
  have h1 := h x hx y hy
  rw [he, gap_self] at h1
  exact absurd (gap_pos (ha x hx y hy hxy)) (by rw [← h1]; exact lt_irrefl _)

theorem matrix_congruent {l : List String} {P Q : String → ℝ × ℝ} (h : Congruent l P Q) {m : List (List ℂ)} (hm : LineMatrix l R G Q m) :
    LineMatrix l R G P m := by
  obtain ⟨z, hz, hrest⟩ := hm
  refine ⟨z, ?_, hrest⟩
  intro i j x y hx hy
  rw [hz i j x y hx hy]
  split
  · rename_i hxy
    rw [h x hxy.1 y hxy.2]
  · rfl

/-- C114 (partial): an underground line with two or more cables whose distances are given keeps its name and its ends, its length is converted from
feet to meters, and it has a wire for each cable, with the radii and the resistances of its conductor and of the neutral around it in meters and
ohms per meter. The wires have the distances of the cables, in feet, and the matrix is the one of Carson's equations for these distances, with the
neutral eliminated. What is missing: positions in meters, see `C114_units_violated`, three cables of which one is a neutral, see
`C114_neutral_violated`, and the neutrals around the conductors, see `C114_concentric_violated`. -/
theorem C114_cables_partial (hcf : Configuration objects o c) (hl : Number flt o "length" L) (hc : CablesAre flt objects c has R G NR NG)
    (hs : SpacingIs flt objects c has P) (hnd : NotDirect c) (h2 : 2 ≤ (phasesOf has).length) (h3 : (phasesOf has).length = 3 → has "N" = false)
    (hR : 0 ≤ R "N") :
    ∃ line kept Q, readUnderground flt objects before o = .ok (line, kept) ∧ line.name = getEntry "name".toList o.attrs ∧
      line.source = getEntry "from".toList o.attrs ∧ line.target = getEntry "to".toList o.attrs ∧ line.length = L * 0.3048 ∧
      ValuesAre line.wires (phasesOf has) R G NR NG ∧ At line.wires (phasesOf has) Q ∧ Congruent (phasesOf has) P Q ∧
      LineMatrix (phasesOf has) R G P line.matrix := by
  obtain ⟨Q, hQ, hcon⟩ := positions_ok hs h2 h3
  obtain ⟨m, hm, hlm⟩ := matrix_ok hc hnd (congruent_apart hcon hs.apart) hR
  exact ⟨_, _, Q, cable_line hcf hl (cableWires_ok hc hs hQ) hm, rfl, rfl, rfl, rfl, values_are _ Q, at_placed _ Q, hcon, matrix_congruent hcon hlm⟩

/-- C114 violated: the positions are not in meters, as those of other wires are -/
theorem C114_units_violated (hcf : Configuration objects o c) (hl : Number flt o "length" L) (hc : CablesAre flt objects c has R G NR NG)
    (hs : SpacingIs flt objects c has P) (hnd : NotDirect c) (h2 : 2 ≤ (phasesOf has).length) (h3 : (phasesOf has).length = 3 → has "N" = false)
    (hR : 0 ≤ R "N") :
    ∃ line kept, readUnderground flt objects before o = .ok (line, kept) ∧ ¬∃ Q, At line.wires (phasesOf has) Q ∧ SameShape (phasesOf has) P Q := by
  obtain ⟨line, kept, Q, h, -, -, -, -, -, hat, hcon, -⟩ := C114_cables_partial (before := before) hcf hl hc hs hnd h2 h3 hR
  refine ⟨line, kept, h, ?_⟩
  rintro ⟨Q', hat', hsame⟩
  have hu := at_unique hat hat'
  obtain ⟨x, hx, y, hy, hxy⟩ : ∃ x ∈ phasesOf has, ∃ y ∈ phasesOf has, x ≠ y := by
    have hn := phases_nodup (has := has)
    match hp : phasesOf has, h2, hn with
    | x :: y :: l, _, hn =>
      refine ⟨x, by simp, y, by simp, ?_⟩
      rintro rfl
      simp at hn
  have h1 := hcon x hx y hy
  have h2' := hsame x hx y hy
  rw [← hu x hx, ← hu y hy, h1] at h2'
  have hp := gap_pos (hs.apart x hx y hy hxy)
  have : gap (P x) (P y) / 3.28084 < gap (P x) (P y) := by
    rw [div_lt_iff₀ (by norm_num)]
    nlinarith
  linarith

theorem twice_self_left (a c : ℝ × ℝ) : twiceArea a a c = 0 := by unfold twiceArea; simp
theorem twice_self_right (a c : ℝ × ℝ) : twiceArea a c c = 0 := by unfold twiceArea; rw [abs_eq_zero]; ring
theorem twice_self_outer (a c : ℝ × ℝ) : twiceArea a c a = 0 := by unfold twiceArea; simp

/-- C114 violated: three cables of which one is a neutral have wrong distances, in whatever unit `k`. The factors of Heron's formula for the
distances to the neutral are left out; so the area is wrong, unless their product in this unit happens to be 1. -/
theorem C114_neutral_violated (hcf : Configuration objects o c) (hl : Number flt o "length" L) (hc : CablesAre flt objects c has R G NR NG)
    (hs : SpacingIs flt objects c has P) (hnd : NotDirect c) {x y : String} (hp : phasesOf has = [x, y, "N"]) (hR : 0 ≤ R "N")
    (harea : twiceArea (P x) (P y) (P "N") ≠ 0) :
    ∃ line kept, readUnderground flt objects before o = .ok (line, kept) ∧
      ∀ k : ℝ, 0 < k →
        k ^ 4 * (((gap (P x) (P y) + (gap (P x) (P "N") + gap (P y) (P "N"))) / 2 - gap (P x) (P "N")) *
          ((gap (P x) (P y) + (gap (P x) (P "N") + gap (P y) (P "N"))) / 2 - gap (P y) (P "N"))) ≠ 1 →
        ¬∃ Q, At line.wires (phasesOf has) Q ∧ ∀ a ∈ phasesOf has, ∀ b ∈ phasesOf has, gap (Q a) (Q b) = k * gap (P a) (P b) := by
  have hw := lifted_wires hs.apart
  have hd := pairs_describe (has := has) (P := P)
  have hnod := hw.nodup
  rw [hp] at hnod
  simp only [List.nodup_cons, List.mem_cons, List.not_mem_nil, or_false, not_or, List.nodup_nil, and_true, not_false_eq_true] at hnod
  obtain ⟨⟨hxy, hxN⟩, hyN⟩ := hnod
  have hmx : x ∈ phasesOf has := by rw [hp]; simp
  have hmy : y ∈ phasesOf has := by rw [hp]; simp
  have hmN : "N" ∈ phasesOf has := by rw [hp]; simp
  -- the area that is computed
  obtain ⟨i, j, hij, hj, hxi, hyj⟩ : ∃ i j, i < j ∧ j < 3 ∧ x = letter i ∧ y = letter j := by
    unfold phasesOf at hp
    simp only [List.filter_cons, List.filter_nil] at hp
    revert hp
    cases has "A" <;> cases has "B" <;> cases has "C" <;> cases has "N" <;>
      simp only [if_true, Bool.false_eq_true, if_false, List.cons.injEq, reduceCtorEq, and_false, and_true, false_implies, and_imp]
    · rintro rfl rfl; exact ⟨1, 2, by omega, by omega, rfl, rfl⟩
    · rintro rfl rfl; exact ⟨0, 2, by omega, by omega, rfl, rfl⟩
    · rintro rfl rfl; exact ⟨0, 1, by omega, by omega, rfl, rfl⟩
    · intro _ _ h; exact absurd h (by decide)
  have hws : phasesOf has = [letter i, letter j, letter 3] := by rw [hp, hxi, hyj]; rfl
  have ha := area_neutral hd hw (by rw [hp]; simp) hij hj hws
  have hm3 : letter 3 ∈ phasesOf has := hmN
  rw [table_pair hd (by omega) (by omega) (by omega) (by rw [← hxi]; exact hmx) (by rw [← hyj]; exact hmy),
    table_pair hd (by omega) (by omega) (by omega) (by rw [← hxi]; exact hmx) hm3,
    table_pair hd (by omega) (by omega) (by omega) (by rw [← hyj]; exact hmy) hm3, ← hxi, ← hyj, gap_lifted, gap_lifted, gap_lifted,
    show letter 3 = "N" from rfl] at ha
  obtain ⟨Q, hQ, hcase⟩ := three_area hd hw hp hxy hxN hyN
  have hher := heron_twice (P x) (P y) (P "N")
  have hpos : twiceArea (P x) (P y) (P "N") ^ 2 ≠ 0 := pow_ne_zero 2 harea
  generalize hs' : (gap (P x) (P y) + (gap (P x) (P "N") + gap (P y) (P "N"))) / 2 = s at *
  have hsx : s * (s - gap (P x) (P y)) ≠ 0 := by
    intro h0
    apply hpos
    rw [hher, h0]
    ring
  have hdist : Q x ≠ Q y ∧ Q x ≠ Q "N" ∧ Q y ≠ Q "N" := by
    rcases hcase with h | ⟨-, h⟩
    · have hne : twiceArea (Q x) (Q y) (Q "N") ≠ 0 := by
        intro h0
        rw [h0, ha] at h
        apply hsx
        linarith
      refine ⟨?_, ?_, ?_⟩ <;> intro he <;> apply hne
      · rw [he, twice_self_left]
      · rw [he, twice_self_outer]
      · rw [he, twice_self_right]
    · exact h
  have hap : ∀ a ∈ phasesOf has, ∀ b ∈ phasesOf has, a ≠ b → Q a ≠ Q b := by
    obtain ⟨d1, d2, d3⟩ := hdist
    rw [hp]
    intro a ha b hb hab
    simp only [List.mem_cons, List.not_mem_nil, or_false] at ha hb
    rcases ha with rfl | rfl | rfl <;> rcases hb with rfl | rfl | rfl <;>
      first | exact absurd rfl hab | exact d1 | exact d2 | exact d3 | exact d1.symm | exact d2.symm | exact d3.symm
  obtain ⟨m, hm, -⟩ := matrix_ok hc hnd hap hR
  refine ⟨_, _, cable_line hcf hl (cableWires_ok hc hs hQ) hm, ?_⟩
  intro k hk hk1
  rintro ⟨Q', hat', hsame⟩
  have hu := at_unique (at_placed (R := R) (G := G) (NR := NR) (NG := NG) (phasesOf has) Q) hat'
  have hQs : ∀ a ∈ phasesOf has, ∀ b ∈ phasesOf has, gap (Q a) (Q b) = k * gap (P a) (P b) := by
    intro a ha b hb
    rw [hu a ha, hu b hb]
    exact hsame a ha b hb
  have hherQ := heron_twice (Q x) (Q y) (Q "N")
  rw [hQs x hmx y hmy, hQs x hmx _ hmN, hQs y hmy _ hmN] at hherQ
  have e : (k * gap (P x) (P y) + (k * gap (P x) (P "N") + k * gap (P y) (P "N"))) / 2 = k * s := by rw [← hs']; ring
  rw [e] at hherQ
  have hQ2 : twiceArea (Q x) (Q y) (Q "N") ^ 2 = k ^ 4 * twiceArea (P x) (P y) (P "N") ^ 2 := by rw [hherQ, hher]; ring
  rcases hcase with h | ⟨h, -⟩
  · rw [hQ2, hher, ha] at h
    have h' : s * (s - gap (P x) (P y)) * (k ^ 4 * ((s - gap (P x) (P "N")) * (s - gap (P y) (P "N"))) - 1) = 0 := by linear_combination h / 4
    rcases mul_eq_zero.mp h' with h' | h'
    · exact hsx h'
    · exact hk1 (by linarith)
  · rw [hQ2] at h
    rcases mul_eq_zero.mp h with h' | h'
    · exact absurd h' (by positivity)
    · exact hpos h'

/-- C114 violated: the neutrals around the conductors do not matter for the matrix. Lines that differ only in these have the same matrix. -/
theorem C114_concentric_violated {objects' : List (Text × GldObj)} {o' c' : GldObj} {NR' NG' : String → Option ℝ}
    {before' : Option (GldObj × List UWire)} {line line' : ULine} {kept kept' : GldObj × List UWire}
    (hcf : Configuration objects o c) (hl : Number flt o "length" L) (hc : CablesAre flt objects c has R G NR NG)
    (hs : SpacingIs flt objects c has P) (hnd : NotDirect c)
    (hcf' : Configuration objects' o' c') (hl' : Number flt o' "length" L) (hc' : CablesAre flt objects' c' has R G NR' NG')
    (hs' : SpacingIs flt objects' c' has P) (hnd' : NotDirect c') (h2 : 2 ≤ (phasesOf has).length) (h3 : (phasesOf has).length = 3 → has "N" = false)
    (hR : 0 ≤ R "N") (h : readUnderground flt objects before o = .ok (line, kept)) (h' : readUnderground flt objects' before' o' = .ok (line', kept')) :
    line.matrix = line'.matrix := by
  obtain ⟨Q, hQ, hcon⟩ := positions_ok hs h2 h3
  obtain ⟨m, hm, -⟩ := matrix_ok hc hnd (congruent_apart hcon hs.apart) hR
  obtain ⟨m', hm', -⟩ := matrix_ok hc' hnd' (congruent_apart hcon hs.apart) hR
  have e : cableMatrix c ((phasesOf has).map (placedCable R G NR NG Q)) = cableMatrix c' ((phasesOf has).map (placedCable R G NR' NG' Q)) := by
    unfold cableMatrix
    rw [not_nine hnd, not_nine hnd', List.map_map, List.map_map]
    rfl
  rw [cable_line hcf hl (cableWires_ok hc hs hQ) hm] at h
  rw [cable_line hcf' hl' (cableWires_ok hc' hs' hQ) hm'] at h'
  rw [hm, hm'] at e
  have h1 := (Prod.mk.inj (Except.ok.inj h)).1
  have h1' := (Prod.mk.inj (Except.ok.inj h')).1
  rw [← h1, ← h1']
  exact Except.ok.inj e

/-- C114 violated: impedances that are given directly are not accepted -/
theorem C114_direct_violated (hcf : Configuration objects o c) (hl : Number flt o "length" L) (hc : CablesAre flt objects c has R G NR NG)
    (hs : SpacingIs flt objects c has P ∨ Lacks c "spacing")
    (hd : ∀ k ∈ ["z11", "z12", "z13", "z21", "z22", "z23", "z31", "z32", "z33"], ¬Lacks c k) :
    readUnderground flt objects before o = .error .traitError := by
  obtain ⟨n, h1, h2⟩ := hcf
  have hall : givenNine c = true := by
    unfold givenNine
    rw [List.all_eq_true]
    intro k hk
    exact Option.isSome_iff_ne_none.mpr (hd k hk)
  have hws : ∃ ws, cableWires flt objects c = .ok ws := by
    obtain ⟨p1, p2⟩ := plain_ok hc
    unfold cableWires
    rw [p1]
    dsimp only
    unfold spacedWires
    rcases hs with hs | hs
    · obtain ⟨n, sp, s1, s2, s3⟩ := hs.spacing
      rw [s1]
      dsimp only
      rw [s2]
      dsimp only
      rw [distances_ok s3]
      exact ⟨_, rfl⟩
    · rw [show getEntry "spacing".toList c.attrs = none from hs]
      exact ⟨_, rfl⟩
  obtain ⟨ws, hws⟩ := hws
  unfold readUnderground
  rw [cable_length hl]
  dsimp only
  have hcfg : cableConfig flt objects before o = .ok (c, ws) := by
    unfold cableConfig
    rw [h1]
    dsimp only
    rw [h2]
    dsimp only
    rw [hws]
  rw [hcfg]
  dsimp only
  unfold cableMatrix
  rw [hall, if_pos rfl]

/-- C114 violated: a line without configuration has the wires of the line before, whose values are converted again; as the first line it is an
error -/
theorem C114_previous_violated (hl : Number flt o "length" L) (hn : Lacks o "configuration") :
    readUnderground flt objects none o = .error .unboundLocalError ∧
    ∀ c' ws line kept, readUnderground flt objects (some (c', ws)) o = .ok (line, kept) →
      List.Forall₂ (fun w w' => w'.phase = w.phase ∧ w'.gmr = w.gmr.map (· / 3.28084) ∧ w'.resistance = w.resistance.map (· / 1609.34)) ws line.wires := by
  have hcfg : ∀ b, cableConfig flt objects b o = match b with | none => .error .unboundLocalError | some b => .ok b := by
    intro b
    unfold cableConfig
    rw [show getEntry "configuration".toList o.attrs = none from hn]
    cases b <;> rfl
  constructor
  · unfold readUnderground
    rw [cable_length hl]
    dsimp only
    rw [hcfg]
  · intro c' ws line kept h
    unfold readUnderground at h
    rw [cable_length hl] at h
    dsimp only at h
    rw [hcfg] at h
    dsimp only at h
    split at h
    · cases h
    · rename_i hmat
      have h1 := (Prod.mk.inj (Except.ok.inj h)).1
      rw [← h1]
      dsimp only
      clear h1 h hcfg hmat
      induction ws with
      | nil => exact .nil
      | cons w ws ih => exact .cons ⟨rfl, rfl, rfl⟩ ih

/-- the matrix of wires without positions -/
theorem matrix_plain (hc : CablesAre flt objects c has R G NR NG) (hnd : NotDirect c) (hN : has "N" = false) :
    ∃ z : Nat → Nat → ℂ, (∀ (i : Nat) (x : String), ["A", "B", "C"][i]? = some x → has x = true → z i i = carsonSelf (R x) (G x)) ∧
      (∀ (i : Nat) (x : String), ["A", "B", "C"][i]? = some x → has x = false → z i i = 0) ∧ (∀ i < 3, ∀ j < 3, i ≠ j → z i j = 0) ∧
      cableMatrix c ((phasesOf has).map (plainCable R G NR NG)) = .ok (rows 3 fun i j => perMeter (z i j)) := by
  obtain ⟨z, hz, hin, hout⟩ := primitive_eq (freq := 60) (res := 100) (phases := phasesOf has) (W := fun x => (plainCable R G NR NG x).toGWire)
    (fun p hp => (mem_phases.mp hp).1) phases_nodup (fun _ _ => rfl) (self := fun p => carsonSelf (R p) (G p)) (mu := fun _ _ => 0)
    (fun p _ => selfZ_eq rfl rfl (hc.positive p)) (fun p hp q hq hpq => rfl)
  have hN' : "N" ∉ phasesOf has := fun h => by have := (mem_phases.mp h).2; rw [hN] at this; cases this
  have three : ∀ {i : Nat} {x : String}, ["A", "B", "C"][i]? = some x → i < 3 ∧ x = letter i ∧ x ∈ ["A", "B", "C", "N"] := by
    intro i x h
    have hi : i < 3 := (List.getElem?_eq_some_iff.mp h).1
    have e : x = letter i := by interval_cases i <;> exact (Option.some.inj h).symm
    refine ⟨hi, e, ?_⟩
    rw [e]
    interval_cases i <;> decide
  refine ⟨z, ?_, ?_, ?_, ?_⟩
  · intro i x hx hh
    obtain ⟨hi, rfl, hm⟩ := three hx
    have := mem_phases.mpr ⟨hm, hh⟩
    rw [hin i i (by omega) (by omega) this this, if_pos rfl]
  · intro i x hx hh
    obtain ⟨hi, rfl, -⟩ := three hx
    refine hout i i (by omega) (by omega) fun h => ?_
    have := (mem_phases.mp h.1).2
    rw [hh] at this
    cases this
  · intro i hi j hj hij
    by_cases h : letter i ∈ phasesOf has ∧ letter j ∈ phasesOf has
    · rw [hin i j (by omega) (by omega) h.1 h.2, if_neg hij]
    · exact hout i j (by omega) (by omega) h
  · unfold cableMatrix
    rw [not_nine hnd, if_neg (by simp), List.map_map]
    unfold computeMatrix
    change Except.map _ (match primitiveZ 60 100 ((phasesOf has).map fun x => (plainCable R G NR NG x).toGWire) with
      | .error e => .error e
      | .ok m => reduceZ true (hasNeutral ((phasesOf has).map fun x => (plainCable R G NR NG x).toGWire)) m) = _
    rw [hz]
    dsimp only
    rw [neutral_of (fun _ => rfl), decide_eq_false hN']
    unfold reduceZ
    simp only [Bool.and_false, Bool.false_eq_true, if_false]
    exact congrArg Except.ok (rows_map 3 _)

theorem wires_plain (h : CablesAre flt objects c has R G NR NG) (hs : Lacks c "spacing") :
    cableWires flt objects c = .ok ((phasesOf has).map (plainCable R G NR NG)) := by
  obtain ⟨p1, p2⟩ := plain_ok h
  unfold cableWires
  rw [p1]
  dsimp only
  unfold spacedWires
  rw [show getEntry "spacing".toList c.attrs = none from hs]

/-- C114 violated: cables without a spacing have no mutual impedances -/
theorem C114_unplaced_violated (hcf : Configuration objects o c) (hl : Number flt o "length" L) (hc : CablesAre flt objects c has R G NR NG)
    (hs : Lacks c "spacing") (hnd : NotDirect c) (hN : has "N" = false) :
    ∃ line kept, ∃ z : Nat → Nat → ℂ, readUnderground flt objects before o = .ok (line, kept) ∧ ValuesAre line.wires (phasesOf has) R G NR NG ∧
      line.matrix = (rows 3 fun i j => perMeter (z i j)) ∧ (∀ (i : Nat) (x : String), ["A", "B", "C"][i]? = some x → has x = true → z i i = carsonSelf (R x) (G x)) ∧
      (∀ (i : Nat) (x : String), ["A", "B", "C"][i]? = some x → has x = false → z i i = 0) ∧ ∀ i < 3, ∀ j < 3, i ≠ j → z i j = 0 := by
  obtain ⟨z, h1, h2, h3, hm⟩ := matrix_plain hc hnd hN
  exact ⟨_, _, z, cable_line hcf hl (wires_plain hc hs) hm, plain_are _, rfl, h1, h2, h3⟩

/-- C114 (one cable): the matrix of one cable has its self impedance by Carson's equations, and zeros -/
theorem C114_single (hcf : Configuration objects o c) (hl : Number flt o "length" L) (hc : CablesAre flt objects c has R G NR NG)
    (hs : Lacks c "spacing") (hnd : NotDirect c) {x : String} (hx : x ∈ ["A", "B", "C"]) (hp : phasesOf has = [x]) :
    ∃ line kept, readUnderground flt objects before o = .ok (line, kept) ∧ ValuesAre line.wires [x] R G NR NG ∧
      LineMatrix [x] R G P line.matrix := by
  have hN : has "N" = false := by
    by_contra h
    have : "N" ∈ phasesOf has := mem_phases.mpr ⟨by decide, by simpa using h⟩
    rw [hp, List.mem_singleton] at this
    rw [← this] at hx
    revert hx
    decide
  obtain ⟨line, kept, z, h, hv, hm, h1, h2, h3⟩ := C114_unplaced_violated (before := before) hcf hl hc hs hnd hN
  rw [hp] at hv
  refine ⟨line, kept, h, hv, fun i j => if i < 3 ∧ j < 3 then z i j else 0, ?_, ?_, ?_⟩
  · intro i j a b ha hb
    obtain ⟨hi, rfl⟩ := four_get ha
    obtain ⟨hj, rfl⟩ := four_get hb
    have hxN : x ≠ "N" := by rintro rfl; revert hx; decide
    have hmem : ∀ i < 3, letter i = x ↔ has (letter i) = true := by
      intro i hi
      have : letter i ∈ phasesOf has ↔ letter i = x := by rw [hp, List.mem_singleton]
      rw [← this, mem_phases]
      constructor
      · exact fun h => h.2
      · refine fun h => ⟨?_, h⟩
        interval_cases i <;> decide
    have get3 : ∀ i < 3, ["A", "B", "C"][i]? = some (letter i) := by
      intro i hi
      interval_cases i <;> rfl
    simp only [List.mem_singleton]
    by_cases hij : i < 3 ∧ j < 3
    · rw [if_pos hij]
      by_cases he : i = j
      · subst he
        simp only [and_self, if_true]
        by_cases hxi : letter i = x
        · rw [if_pos hxi]; exact h1 i _ (get3 i hij.1) ((hmem i hij.1).mp hxi)
        · rw [if_neg hxi]; exact h2 i _ (get3 i hij.1) (by simpa using fun h => hxi ((hmem i hij.1).mpr h))
      · rw [h3 i hij.1 j hij.2 he, if_neg]
        rintro ⟨e1, e2⟩
        exact he (letter_inj hi hj (e1.trans e2.symm))
    · rw [if_neg hij, if_neg]
      rintro ⟨e1, e2⟩
      have : i = 3 ∨ j = 3 := by omega
      rcases this with rfl | rfl
      · exact hxN e1.symm
      · exact hxN e2.symm
  · intro _
    rw [hm]
    unfold rows
    apply List.map_congr_left
    intro i hi
    apply List.map_congr_left
    intro j hj
    dsimp only
    rw [if_pos ⟨List.mem_range.mp hi, List.mem_range.mp hj⟩]
  · intro h
    rw [List.mem_singleton] at h
    rw [← h] at hx
    exact absurd hx (by decide)

/-! Concrete files: three cables at the corners of a triangle with the sides 3, 4 and 5. -/

/-- the numbers of the example -/
noncomputable def exCableFlt : Text → Option ℝ := fun t =>
  if t = "3".toList then some 3 else if t = "4".toList then some 4 else if t = "5".toList then some 5 else none

/-- the points of the example -/
noncomputable def exCablePoints : String → ℝ × ℝ := fun x => if x = "A" then (0, 0) else if x = "B" then (3, 0) else (0, 4)

/-- the conductor of all cables -/
def exCable : GldObj := ⟨"underground_line_conductor".toList, [("conductor_resistance".toList, "3".toList), ("conductor_gmr".toList, "4".toList),
  ("neutral_resistance".toList, "5".toList)]⟩

/-- the configuration with a third cable -/
def exCableConfig (z : String) : GldObj := ⟨"line_configuration".toList, [("conductor_A".toList, "k".toList), ("conductor_B".toList, "k".toList),
  (("conductor_" ++ z).toList, "k".toList), ("spacing".toList, "sp".toList)]⟩

/-- the spacing with a third cable -/
def exCableSpacing (z : String) : GldObj := ⟨"line_spacing".toList, [("distance_AB".toList, "3".toList), (("distance_A" ++ z).toList, "4".toList),
  (("distance_B" ++ z).toList, "5".toList)]⟩

/-- the objects of the file -/
def exCableObjects (z : String) : List (Text × GldObj) := [("k".toList, exCable), ("sp".toList, exCableSpacing z), ("conf".toList, exCableConfig z)]

/-- the line -/
def exCableLine : GldObj := ⟨"underground_line".toList, [("length".toList, "3".toList), ("configuration".toList, "conf".toList)]⟩

theorem ex_cable : CableIs exCableFlt exCable 3 4 (some 5) none :=
  ⟨⟨_, rfl, by simp [exCableFlt]⟩, ⟨_, rfl, by simp [exCableFlt]⟩, .inr ⟨5, ⟨_, rfl, by simp [exCableFlt]⟩, rfl⟩, .inl ⟨rfl, rfl⟩⟩

theorem ex_gaps : gap (0, 0) (3, 0) = 3 ∧ gap (0, 0) (0, 4) = 4 ∧ gap (3, 0) (0, 4) = 5 := by
  refine ⟨?_, ?_, ?_⟩ <;> exact gap_of_sq (by norm_num) (by norm_num)

theorem ex_cables {z : String} (hz : z = "C" ∨ z = "N") :
    CablesAre exCableFlt (exCableObjects z) (exCableConfig z) (fun x => decide (x ∈ ["A", "B", z])) (fun _ => 3) (fun _ => 4) (fun _ => some 5) (fun _ => none) where
  given x hx hh := by
    refine ⟨"k".toList, exCable, ?_, rfl, ex_cable⟩
    rw [decide_eq_true_iff] at hh
    simp only [List.mem_cons, List.not_mem_nil, or_false] at hh
    rcases hz with rfl | rfl <;> rcases hh with rfl | rfl | rfl <;> rfl
  others x hx hh := by
    rw [decide_eq_false_iff_not] at hh
    simp only [List.mem_cons, List.not_mem_nil, or_false] at hh hx
    rcases hz with rfl | rfl <;> rcases hx with rfl | rfl | rfl | rfl <;> first | exact absurd hh (by decide) | rfl
  positive _ := by norm_num

theorem ex_spacing {z : String} (hz : z = "C" ∨ z = "N") :
    SpacingIs exCableFlt (exCableObjects z) (exCableConfig z) (fun x => decide (x ∈ ["A", "B", z])) exCablePoints where
  spacing := by
    obtain ⟨g1, g2, g3⟩ := ex_gaps
    refine ⟨"sp".toList, exCableSpacing z, by rcases hz with rfl | rfl <;> rfl, by rcases hz with rfl | rfl <;> rfl, ?_⟩
    intro x y hxy
    simp only [List.mem_cons, List.not_mem_nil, or_false, Prod.mk.injEq] at hxy
    have pA : exCablePoints "A" = (0, 0) := rfl
    have pB : exCablePoints "B" = (3, 0) := rfl
    have pC : exCablePoints "C" = (0, 4) := rfl
    have pN : exCablePoints "N" = (0, 4) := rfl
    have e3 : exCableFlt "3".toList = some 3 := by simp [exCableFlt]
    have e4 : exCableFlt "4".toList = some 4 := by simp [exCableFlt]
    have e5 : exCableFlt "5".toList = some 5 := by simp [exCableFlt]
    constructor
    · intro h
      rcases hz with rfl | rfl <;> rcases hxy with ⟨rfl, rfl⟩ | ⟨rfl, rfl⟩ | ⟨rfl, rfl⟩ | ⟨rfl, rfl⟩ | ⟨rfl, rfl⟩ | ⟨rfl, rfl⟩ <;>
        first
        | exact absurd h (by decide)
        | exact ⟨"3".toList, rfl, by rw [pA, pB, g1]; exact e3⟩
        | exact ⟨"4".toList, rfl, by rw [pA, pC, g2]; exact e4⟩
        | exact ⟨"4".toList, rfl, by rw [pA, pN, g2]; exact e4⟩
        | exact ⟨"5".toList, rfl, by rw [pB, pC, g3]; exact e5⟩
        | exact ⟨"5".toList, rfl, by rw [pB, pN, g3]; exact e5⟩
    · intro h
      rcases hz with rfl | rfl <;> rcases hxy with ⟨rfl, rfl⟩ | ⟨rfl, rfl⟩ | ⟨rfl, rfl⟩ | ⟨rfl, rfl⟩ | ⟨rfl, rfl⟩ | ⟨rfl, rfl⟩ <;>
        first | exact absurd h (by decide) | rfl
  apart x hx y hy hxy := by
    have hxm := (mem_phases.mp hx).2
    have hym := (mem_phases.mp hy).2
    rw [decide_eq_true_iff] at hxm hym
    simp only [List.mem_cons, List.not_mem_nil, or_false] at hxm hym
    have h3 : exCablePoints z = (0, 4) := by rcases hz with rfl | rfl <;> rfl
    have pA : exCablePoints "A" = (0, 0) := rfl
    have pB : exCablePoints "B" = (3, 0) := rfl
    rcases hxm with rfl | rfl | rfl <;> rcases hym with rfl | rfl | rfl <;>
      first | exact absurd rfl hxy | (simp [pA, pB, h3])

example : ∃ line kept Q, readUnderground exCableFlt (exCableObjects "C") none exCableLine = .ok (line, kept) ∧
    At line.wires ["A", "B", "C"] Q ∧ gap (Q "A") (Q "B") = 3 ∧ gap (Q "B") (Q "C") = 5 := by
  obtain ⟨line, kept, Q, h, -, -, -, -, -, hat, hcon, -⟩ := C114_cables_partial (before := none) (o := exCableLine) (L := 3)
    ⟨"conf".toList, rfl, rfl⟩ ⟨_, rfl, by simp [exCableFlt]⟩ (ex_cables (.inl rfl)) (ex_spacing (.inl rfl)) ⟨"z11", by simp, rfl⟩ (by decide)
    (fun _ => by decide) (by norm_num)
  refine ⟨line, kept, Q, h, hat, ?_, ?_⟩
  · rw [hcon "A" (by decide) "B" (by decide)]; exact ex_gaps.1
  · rw [hcon "B" (by decide) "C" (by decide)]; exact ex_gaps.2.2

example : ∃ line kept, readUnderground exCableFlt (exCableObjects "N") none exCableLine = .ok (line, kept) ∧
    ¬∃ Q, At line.wires ["A", "B", "N"] Q ∧ Congruent ["A", "B", "N"] exCablePoints Q := by
  obtain ⟨line, kept, h, hk⟩ := C114_neutral_violated (before := none) (o := exCableLine) (L := 3) (x := "A") (y := "B")
    ⟨"conf".toList, rfl, rfl⟩ ⟨_, rfl, by simp [exCableFlt]⟩ (ex_cables (.inr rfl)) (ex_spacing (.inr rfl)) ⟨"z11", by simp, rfl⟩ (by decide)
    (by norm_num) (by
      have pA : exCablePoints "A" = (0, 0) := rfl
      have pB : exCablePoints "B" = (3, 0) := rfl
      have pN : exCablePoints "N" = (0, 4) := rfl
      rw [pA, pB, pN]; unfold twiceArea; norm_num)
  refine ⟨line, kept, h, ?_⟩
  rintro ⟨Q, hat, hcon⟩
  refine hk 1 (by norm_num) ?_ ⟨Q, hat, fun a ha b hb => ?_⟩
  · have pA : exCablePoints "A" = (0, 0) := rfl
    have pB : exCablePoints "B" = (3, 0) := rfl
    have pN : exCablePoints "N" = (0, 4) := rfl
    rw [pA, pB, pN, ex_gaps.1, ex_gaps.2.1, ex_gaps.2.2]; norm_num
  · rw [one_mul]; exact hcon a ha b hb

end Ditto.Gld
