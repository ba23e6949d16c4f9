import Verif.Props.GldSpacing
import Verif.Model.GldMatrix
import Verif.Spec.GldMatrix

namespace Ditto.Gld
open Ditto Ditto.Gld.Spec

theorem wireIndex_letter {i : Nat} (hi : i < 4) : wireIndex (letter i) = .ok i := by
  interval_cases i <;> rfl

/-- the loops store the values of all pairs -/
theorem fold_store {freq res : ℝ} {val : Nat → Nat → ℂ} : ∀ (l : List ((GWire × Nat) × GWire × Nat)) (m : Nat → Nat → ℂ),
    (∀ p ∈ l, ∃ i j, i < 4 ∧ j < 4 ∧ p.1.1.phase = some (letter i) ∧ p.2.1.phase = some (letter j) ∧ pairZ freq res p.1 p.2 = .ok (val i j)) →
    ∃ m', l.foldlM (pairStep freq res) m = .ok m' ∧
      ∀ a b, a < 4 → b < 4 → ((∃ p ∈ l, p.1.1.phase = some (letter a) ∧ p.2.1.phase = some (letter b)) → m' a b = val a b) ∧
        ((∀ p ∈ l, ¬(p.1.1.phase = some (letter a) ∧ p.2.1.phase = some (letter b))) → m' a b = m a b)
  | [], m, _ => ⟨m, rfl, fun _ _ _ _ => ⟨fun ⟨_, h, _⟩ => absurd h List.not_mem_nil, fun _ => rfl⟩⟩
  | p :: l, m, h => by
    obtain ⟨i, j, hi, hj, hpi, hpj, hz⟩ := h p List.mem_cons_self
    have hstep : pairStep freq res m p = .ok (setCell m i j (val i j)) := by
      unfold pairStep storeZ
      rw [hz, hpi, hpj]
      dsimp only
      rw [wireIndex_letter hi, wireIndex_letter hj]
    obtain ⟨m', hm', hspec⟩ := fold_store l (setCell m i j (val i j)) fun q hq => h q (List.mem_cons_of_mem _ hq)
    refine ⟨m', ?_, ?_⟩
    · rw [List.foldlM_cons, hstep]; exact hm'
    · intro a b ha hb
      obtain ⟨h1, h2⟩ := hspec a b ha hb
      constructor
      · rintro ⟨q, hq, hqa, hqb⟩
        by_cases hl : ∃ p ∈ l, p.1.1.phase = some (letter a) ∧ p.2.1.phase = some (letter b)
        · exact h1 hl
        · rcases List.mem_cons.mp hq with rfl | hq
          · rw [hpi, Option.some.injEq] at hqa
            rw [hpj, Option.some.injEq] at hqb
            have ea := letter_inj hi ha hqa
            have eb := letter_inj hj hb hqb
            subst ea; subst eb
            rw [h2 (fun p hp hc => hl ⟨p, hp, hc⟩)]
            unfold setCell
            rw [if_pos ⟨rfl, rfl⟩]
          · exact absurd ⟨q, hq, hqa, hqb⟩ hl
      · intro hno
        rw [h2 fun q hq => hno q (List.mem_cons_of_mem _ hq)]
        unfold setCell
        rw [if_neg]
        rintro ⟨rfl, rfl⟩
        exact hno p List.mem_cons_self ⟨hpi, hpj⟩

/-- the values of the matrix for wires with different phases -/
theorem primitive_eq {freq res : ℝ} {phases : List String} {W : String → GWire} (hph : ∀ p ∈ phases, p ∈ ["A", "B", "C", "N"])
    (hn : phases.Nodup) (hW : ∀ p ∈ phases, (W p).phase = some p) {self : String → ℂ} {mu : String → String → ℂ}
    (hs : ∀ p ∈ phases, selfZ freq res (W p) = .ok (self p))
    (hm : ∀ p ∈ phases, ∀ q ∈ phases, p ≠ q → mutualZ freq res (W p) (W q) = .ok (mu p q)) :
    ∃ m, primitiveZ freq res (phases.map W) = .ok m ∧
      (∀ i j, i < 4 → j < 4 → letter i ∈ phases → letter j ∈ phases → m i j = if i = j then self (letter i) else mu (letter i) (letter j)) ∧
      ∀ i j, i < 4 → j < 4 → ¬(letter i ∈ phases ∧ letter j ∈ phases) → m i j = 0 := by
  have hmem : ∀ v ∈ (phases.map W).zipIdx, ∃ p ∈ phases, phases[v.2]? = some p ∧ v.1 = W p := by
    intro v hv
    have := List.mem_zipIdx_iff_getElem?.mp hv
    rw [List.getElem?_map] at this
    cases hp : phases[v.2]? with
    | none => rw [hp] at this; cases this
    | some p =>
      rw [hp] at this
      exact ⟨p, List.mem_of_getElem? hp, rfl, (Option.some.inj this).symm⟩
  have hpairs : ∀ p ∈ wirePairs (phases.map W), ∃ i j, i < 4 ∧ j < 4 ∧ p.1.1.phase = some (letter i) ∧ p.2.1.phase = some (letter j) ∧
      letter i ∈ phases ∧ letter j ∈ phases ∧
      pairZ freq res p.1 p.2 = .ok (if i = j then self (letter i) else mu (letter i) (letter j)) := by
    rintro ⟨v, w⟩ hp
    unfold wirePairs at hp
    rw [List.mem_flatMap] at hp
    obtain ⟨v', hv, hp⟩ := hp
    rw [List.mem_map] at hp
    obtain ⟨w', hw, he⟩ := hp
    rw [Prod.mk.injEq] at he
    obtain ⟨rfl, rfl⟩ := he
    obtain ⟨p, hpp, hpi, hvp⟩ := hmem v' hv
    obtain ⟨q, hqq, hqi, hwq⟩ := hmem w' hw
    obtain ⟨i, hi, rfl, -⟩ := letter_of_phase (hph p hpp)
    obtain ⟨j, hj, rfl, -⟩ := letter_of_phase (hph q hqq)
    refine ⟨i, j, hi, hj, by rw [hvp]; exact hW _ hpp, by rw [hwq]; exact hW _ hqq, hpp, hqq, ?_⟩
    unfold pairZ
    by_cases hij : i = j
    · subst hij
      have : v'.2 = w'.2 := by
        have h1 := (List.getElem?_eq_some_iff.mp hpi)
        have h2 := (List.getElem?_eq_some_iff.mp hqi)
        obtain ⟨h1, e1⟩ := h1
        obtain ⟨h2, e2⟩ := h2
        exact (List.Nodup.getElem_inj_iff hn).mp (e1.trans e2.symm)
      dsimp only
      rw [if_pos this, if_pos rfl, hvp]
      exact hs _ hpp
    · have : v'.2 ≠ w'.2 := by
        intro h
        rw [h, hqi, Option.some.injEq] at hpi
        exact hij (letter_inj hi hj hpi.symm)
      dsimp only
      rw [if_neg this, if_neg hij, hvp, hwq]
      exact hm _ hpp _ hqq fun h => hij (letter_inj hi hj h)
  obtain ⟨m, hm1, hm2⟩ := fold_store (freq := freq) (res := res) (val := fun i j => if i = j then self (letter i) else mu (letter i) (letter j))
    (wirePairs (phases.map W)) (fun _ _ => 0) (by
      intro p hp
      obtain ⟨i, j, hi, hj, h1, h2, -, -, h3⟩ := hpairs p hp
      exact ⟨i, j, hi, hj, h1, h2, h3⟩)
  refine ⟨m, hm1, ?_, ?_⟩
  · intro i j hi hj hpi hpj
    apply (hm2 i j hi hj).1
    obtain ⟨a, ha⟩ := List.getElem?_of_mem hpi
    obtain ⟨b, hb⟩ := List.getElem?_of_mem hpj
    refine ⟨((W (letter i), a), (W (letter j), b)), ?_, hW _ hpi, hW _ hpj⟩
    unfold wirePairs
    rw [List.mem_flatMap]
    refine ⟨(W (letter i), a), List.mem_zipIdx_iff_getElem?.mpr (by rw [List.getElem?_map, ha]; rfl), List.mem_map.mpr ⟨_, ?_, rfl⟩⟩
    exact List.mem_zipIdx_iff_getElem?.mpr (by rw [List.getElem?_map, hb]; rfl)
  · intro i j hi hj hno
    apply (hm2 i j hi hj).2
    intro p hp hc
    obtain ⟨a, b, ha, hb, h1, h2, h3, h4, -⟩ := hpairs p hp
    rw [h1, Option.some.injEq] at hc
    rw [h2, Option.some.injEq] at hc
    rw [hc.1] at h3
    rw [hc.2] at h4
    exact hno ⟨h3, h4⟩

theorem logInverse_pos {d : ℝ} (h : 0 < d) : logInverse d = .ok (Real.log (1 / d)) := by
  unfold logInverse
  rw [if_neg h.ne', if_neg (not_lt.mpr h.le)]

theorem selfZ_eq {w : GWire} {r g : ℝ} (hr : w.resistance = some r) (hg : w.gmr = some g) (h : 0 < g) :
    selfZ 60 100 w = .ok (carsonSelf r g) := by
  unfold selfZ
  rw [hr, hg]
  dsimp only
  rw [logInverse_pos h]
  rfl

/-- the mutual impedance of wires at positions in meters, in a formula for feet -/
noncomputable def meterMutual (d : ℝ) : ℂ := carsonMutual d + ⟨0, 0.00202237 * 60 * Real.log 3.28084⟩

theorem mutualZ_eq {v w : GWire} {p q : ℝ × ℝ} (h1 : v.x = some p.1) (h2 : v.y = some p.2) (h3 : w.x = some q.1) (h4 : w.y = some q.2)
    {d : ℝ} (hd : 0 < d) (hg : gap p q = d / 3.28084) :
    mutualZ 60 100 v w = .ok (meterMutual d) := by
  unfold mutualZ
  rw [h1, h2, h3, h4]
  dsimp only
  have : wireDistance p.1 p.2 q.1 q.2 = d / 3.28084 := hg
  rw [this, logInverse_pos (by positivity)]
  change Except.ok _ = Except.ok _
  congr 1
  unfold lineZ meterMutual carsonMutual
  have hl : Real.log (1 / (d / 3.28084)) = Real.log (1 / d) + Real.log 3.28084 := by
    rw [one_div_div, Real.log_div (by norm_num) hd.ne', one_div, Real.log_inv]; ring
  rw [hl]
  apply Complex.ext
  · simp
  · simp
    ring

theorem rows_map (n : Nat) (m : Nat → Nat → ℂ) :
    ((block n m).map fun row => row.map fun z => z / 1609.34) = rows n fun i j => perMeter (m i j) := by
  unfold block rows
  rw [List.map_map]
  apply List.map_congr_left
  intro i _
  simp only [Function.comp, List.map_map]
  rfl

/-- the positions of two or more wires have the right distances -/
theorem spacing_shape {g : Distances} {phases : List String} {earth : Bool} {P : String → ℝ × ℝ} (hd : Describes g phases earth P)
    (hw : Wires phases P) (h2 : 2 ≤ phases.length) :
    ∃ Q : String → ℝ × ℝ, computeSpacing g phases = .ok (some (phases.map Q)) ∧ SameShape phases P Q := by
  have h4 : phases.length ≤ 4 := nodup_le (l' := ["A", "B", "C", "N"]) hw.nodup hw.phases
  have : phases.length = 2 ∨ phases.length = 3 ∨ phases.length = 4 := by omega
  rcases this with h | h | h
  · obtain ⟨Q, h1, h2, -⟩ := C69_two hd hw h; exact ⟨Q, h1, h2⟩
  · obtain ⟨Q, h1, h2, -⟩ := C69_three hd hw h; exact ⟨Q, h1, h2⟩
  · obtain ⟨Q, h1, h2, -⟩ := C69_four_partial hd hw h; exact ⟨Q, h1, h2⟩

theorem zipWith_own {α β γ : Type} (f : α → β → γ) (g : α → β) : ∀ l : List α, l.zipWith f (l.map g) = l.map fun a => f a (g a)
  | [] => rfl
  | a :: l => by rw [List.map_cons, List.zipWith_cons_cons, zipWith_own f g l]; rfl

theorem letter_lookup {i : Nat} {x : String} (hi : i < 4) (h : letters[i]? = some x) : x = letter i := by
  rw [letter_get (by omega), Option.some.injEq] at h
  exact h.symm

/-- the wires of a line whose spacing describes them -/
theorem wires_eq {g : Distances} {phases : List String} {earth : Bool} {P : String → ℝ × ℝ} (hd : Describes g phases earth P)
    (hw : Wires phases P) (h2 : 2 ≤ phases.length) {r gmr : String → Option ℝ} {R G : String → ℝ}
    (hr : ∀ p ∈ phases, r p = some (R p)) (hg : ∀ p ∈ phases, gmr p = some (G p)) (hpos : ∀ p ∈ phases, 0 < G p) :
    ∃ W : String → GWire, overheadWires (some g) r gmr phases = .ok (phases.map W) ∧ (∀ p, (W p).phase = some p) ∧
      ∃ z, primitiveZ 60 100 (phases.map W) = .ok z ∧
        (∀ i j, i < 4 → j < 4 → letter i ∈ phases → letter j ∈ phases → z i j =
          if i = j then carsonSelf (R (letter i)) (G (letter i)) else meterMutual (gap (P (letter i)) (P (letter j)))) ∧
        ∀ i j, i < 4 → j < 4 → ¬(letter i ∈ phases ∧ letter j ∈ phases) → z i j = 0 := by
  obtain ⟨Q, hQ, hsame⟩ := spacing_shape hd hw h2
  refine ⟨fun p => { phase := some p, resistance := r p, gmr := gmr p, x := some (Q p).1, y := some (Q p).2 }, ?_, fun _ => rfl, ?_⟩
  · unfold overheadWires
    dsimp only
    rw [hQ]
    change Except.ok (phases.zipWith _ (phases.map Q)) = _
    rw [zipWith_own]
  · exact primitive_eq hw.phases hw.nodup (fun _ _ => rfl) (fun p hp => selfZ_eq (hr p hp) (hg p hp) (hpos p hp))
      fun p hp q hq hpq => mutualZ_eq (p := Q p) (q := Q q) rfl rfl rfl rfl (gap_pos (hw.apart p hp q hq hpq)) (hsame p hp q hq)

theorem neutral_of {phases : List String} {W : String → GWire} (hW : ∀ p, (W p).phase = some p) :
    hasNeutral (phases.map W) = decide ("N" ∈ phases) := by
  unfold hasNeutral
  rw [List.any_map, Bool.eq_iff_iff, List.any_eq_true, decide_eq_true_iff]
  simp only [Function.comp, hW, beq_iff_eq, Option.some.injEq, exists_eq_right]

/-- C70 (partial): the matrix of an overhead line without neutral has, for each phase, the self impedance of Carson's equations in ohms per
meter, and 0 for phases that do not occur. The mutual impedances are not those of Carson's equations, see `C70_units_violated`. -/
theorem C70_phases_partial {g : Distances} {phases : List String} {earth : Bool} {P : String → ℝ × ℝ} (hd : Describes g phases earth P)
    (hw : Wires phases P) (h2 : 2 ≤ phases.length) (hN : "N" ∉ phases) {r gmr : String → Option ℝ} {R G : String → ℝ}
    (hr : ∀ p ∈ phases, r p = some (R p)) (hg : ∀ p ∈ phases, gmr p = some (G p)) (hpos : ∀ p ∈ phases, 0 < G p)
    {direct : List (Option String)} (hdir : none ∈ direct) :
    ∃ z : Nat → Nat → ℂ, overheadMatrix direct (some g) r gmr phases = .ok (rows 3 fun i j => perMeter (z i j)) ∧
      (∀ i x, letters[i]? = some x → x ∈ phases → z i i = carsonSelf (R x) (G x)) ∧
      (∀ i j x y, i ≠ j → letters[i]? = some x → letters[j]? = some y → x ∈ phases → y ∈ phases →
        z i j = carsonMutual (gap (P x) (P y)) + ⟨0, 0.00202237 * 60 * Real.log 3.28084⟩) ∧
      ∀ i j x y, i < 4 → j < 4 → letters[i]? = some x → letters[j]? = some y → ¬(x ∈ phases ∧ y ∈ phases) → z i j = 0 := by
  obtain ⟨W, h1, hph, z, hz, hin, hout⟩ := wires_eq hd hw h2 hr hg hpos
  have hlt : ∀ i x, letters[i]? = some x → x ∈ phases → i < 4 ∧ letter i = x := by
    intro i x hi hx
    have hi5 : i < 5 := by
      have := (List.getElem?_eq_some_iff.mp hi).1
      simpa [letters] using this
    rw [letter_get hi5, Option.some.injEq] at hi
    refine ⟨?_, hi⟩
    by_contra hc
    obtain rfl : i = 4 := by omega
    rw [← hi] at hx
    exact earth_not_mem hw hx
  refine ⟨z, ?_, ?_, ?_, ?_⟩
  · unfold overheadMatrix
    rw [h1]
    dsimp only
    rw [if_neg]
    · unfold computeMatrix
      rw [hz]
      dsimp only
      rw [neutral_of hph, decide_eq_false hN]
      unfold reduceZ
      simp only [Bool.and_false, Bool.false_eq_true, if_false]
      exact congrArg Except.ok (rows_map 3 _)
    · rw [List.all_eq_true]
      intro h
      have := h none hdir
      cases this
  · intro i x hi hx
    obtain ⟨h4, rfl⟩ := hlt i x hi hx
    rw [hin i i h4 h4 hx hx, if_pos rfl]
  · intro i j x y hij hi hj hx hy
    obtain ⟨h4, rfl⟩ := hlt i x hi hx
    obtain ⟨h5, rfl⟩ := hlt j y hj hy
    rw [hin i j h4 h5 hx hy, if_neg hij]
    rfl
  · intro i j x y h4 h5 hi hj hno
    rw [letter_lookup h4 hi, letter_lookup h5 hj] at hno
    exact hout i j h4 h5 hno

/-- C70 violated: no mutual impedance of an overhead line without neutral is the one of Carson's equations: the formula for feet is used
with distances in meters -/
theorem C70_units_violated {g : Distances} {phases : List String} {earth : Bool} {P : String → ℝ × ℝ} (hd : Describes g phases earth P)
    (hw : Wires phases P) (h2 : 2 ≤ phases.length) (hN : "N" ∉ phases) {r gmr : String → Option ℝ} {R G : String → ℝ}
    (hr : ∀ p ∈ phases, r p = some (R p)) (hg : ∀ p ∈ phases, gmr p = some (G p)) (hpos : ∀ p ∈ phases, 0 < G p)
    {direct : List (Option String)} (hdir : none ∈ direct) :
    ∃ f, overheadMatrix direct (some g) r gmr phases = .ok (rows 3 f) ∧
      ∀ i j x y, i ≠ j → letters[i]? = some x → letters[j]? = some y → x ∈ phases → y ∈ phases →
        (f i j).re = (perMeter (carsonMutual (gap (P x) (P y)))).re ∧ (perMeter (carsonMutual (gap (P x) (P y)))).im < (f i j).im := by
  obtain ⟨z, h1, -, h2, -⟩ := C70_phases_partial hd hw h2 hN hr hg hpos hdir
  refine ⟨_, h1, ?_⟩
  intro i j x y hij hi hj hx hy
  have hlog : (0 : ℝ) < Real.log 3.28084 := Real.log_pos (by norm_num)
  have e : ((1609.34 : ℂ)) = ((1609.34 : ℝ) : ℂ) := by push_cast; norm_num
  rw [h2 i j x y hij hi hj hx hy]
  unfold perMeter
  rw [e, Complex.div_ofReal_re, Complex.div_ofReal_re, Complex.div_ofReal_im, Complex.div_ofReal_im]
  constructor
  · simp
  · simp only [Complex.add_im]
    apply div_lt_div_of_pos_right _ (by norm_num)
    linarith [mul_pos (by norm_num : (0 : ℝ) < 0.00202237 * 60) hlog]

/-- the reduction eliminates the neutral -/
theorem kron_eliminates {z : Nat → Nat → ℂ} (h : z 3 3 ≠ 0) : Eliminates z (kronCell z) := by
  intro I n hn i _
  unfold kronCell
  have : n = -(z 3 0 * I 0 + z 3 1 * I 1 + z 3 2 * I 2) / z 3 3 := by
    rw [eq_div_iff h]; linear_combination hn
  rw [this]
  field_simp
  ring

/-- C70 (neutral, partial): the matrix of an overhead line with neutral is the one of the primitive matrix after the neutral is
eliminated. What is missing: the mutual impedances are those for distances in meters, as above. -/
theorem C70_neutral_partial {g : Distances} {phases : List String} {earth : Bool} {P : String → ℝ × ℝ} (hd : Describes g phases earth P)
    (hw : Wires phases P) (h2 : 2 ≤ phases.length) (hN : "N" ∈ phases) {r gmr : String → Option ℝ} {R G : String → ℝ}
    (hr : ∀ p ∈ phases, r p = some (R p)) (hg : ∀ p ∈ phases, gmr p = some (G p)) (hpos : ∀ p ∈ phases, 0 < G p) (hR : 0 ≤ R "N")
    {direct : List (Option String)} (hdir : none ∈ direct) :
    ∃ z k : Nat → Nat → ℂ, overheadMatrix direct (some g) r gmr phases = .ok (rows 3 fun i j => perMeter (k i j)) ∧ Eliminates z k ∧
      (∀ i x, i < 4 → letters[i]? = some x → x ∈ phases → z i i = carsonSelf (R x) (G x)) ∧
      (∀ i j x y, i < 4 → j < 4 → i ≠ j → letters[i]? = some x → letters[j]? = some y → x ∈ phases → y ∈ phases →
        z i j = carsonMutual (gap (P x) (P y)) + ⟨0, 0.00202237 * 60 * Real.log 3.28084⟩) ∧
      ∀ i j x y, i < 4 → j < 4 → letters[i]? = some x → letters[j]? = some y → ¬(x ∈ phases ∧ y ∈ phases) → z i j = 0 := by
  obtain ⟨W, h1, hph, z, hz, hin, hout⟩ := wires_eq hd hw h2 hr hg hpos
  have h33 : z 3 3 ≠ 0 := by
    rw [hin 3 3 (by omega) (by omega) hN hN, if_pos rfl]
    intro h
    have hre := congrArg Complex.re h
    simp only [carsonSelf, Complex.zero_re] at hre
    change R "N" + _ = 0 at hre
    norm_num at hre
    linarith
  refine ⟨z, kronCell z, ?_, kron_eliminates h33, ?_, ?_, ?_⟩
  · unfold overheadMatrix
    rw [h1]
    dsimp only
    rw [if_neg]
    · unfold computeMatrix
      rw [hz]
      dsimp only
      rw [neutral_of hph, decide_eq_true hN]
      unfold reduceZ
      simp only [Bool.and_true, if_true]
      rw [if_neg h33]
      exact congrArg Except.ok (rows_map 3 _)
    · rw [List.all_eq_true]
      intro h
      have := h none hdir
      cases this
  · intro i x h4 hi hx
    rw [letter_lookup h4 hi] at hx ⊢
    rw [hin i i h4 h4 hx hx, if_pos rfl]
  · intro i j x y h4 h5 hij hi hj hx hy
    rw [letter_lookup h4 hi] at hx ⊢
    rw [letter_lookup h5 hj] at hy ⊢
    rw [hin i j h4 h5 hx hy, if_neg hij]
    rfl
  · intro i j x y h4 h5 hi hj hno
    rw [letter_lookup h4 hi, letter_lookup h5 hj] at hno
    exact hout i j h4 h5 hno

/-- C70 violated: a line configuration with its matrix `z11` to `z33` cannot be read -/
theorem C70_direct_violated {direct : List (Option String)} (h : none ∉ direct) (g : Option Distances) (r gmr : String → Option ℝ)
    (phases : List String) : ∃ e, overheadMatrix direct g r gmr phases = .error e := by
  unfold overheadMatrix
  cases overheadWires g r gmr phases with
  | error e => exact ⟨e, rfl⟩
  | ok ws =>
    dsimp only
    rw [if_pos]
    · exact ⟨_, rfl⟩
    · rw [List.all_eq_true]
      intro x hx
      cases x with
      | none => exact absurd hx h
      | some _ => rfl

/-- C70 violated: without a spacing the mutual impedances are 0 -/
theorem C70_unplaced_violated {phases : List String} (hph : ∀ p ∈ phases, p ∈ ["A", "B", "C"]) (hn : phases.Nodup)
    {r gmr : String → Option ℝ} {R G : String → ℝ}
    (hr : ∀ p ∈ phases, r p = some (R p)) (hg : ∀ p ∈ phases, gmr p = some (G p)) (hpos : ∀ p ∈ phases, 0 < G p)
    {direct : List (Option String)} (hdir : none ∈ direct) :
    ∃ z : Nat → Nat → ℂ, overheadMatrix direct none r gmr phases = .ok (rows 3 fun i j => perMeter (z i j)) ∧
      (∀ i x, i < 3 → letters[i]? = some x → x ∈ phases → z i i = carsonSelf (R x) (G x)) ∧ ∀ i j, i < 3 → j < 3 → i ≠ j → z i j = 0 := by
  have hph' : ∀ p ∈ phases, p ∈ ["A", "B", "C", "N"] := by
    intro p hp; have := hph p hp; simp only [List.mem_cons, List.not_mem_nil, or_false] at this ⊢; tauto
  have hN : "N" ∉ phases := by intro h; have := hph _ h; revert this; decide
  obtain ⟨z, hz, hin, hout⟩ := primitive_eq (freq := 60) (res := 100) (W := fun p => { phase := some p, resistance := r p, gmr := gmr p })
    hph' hn (fun _ _ => rfl) (fun p hp => selfZ_eq (hr p hp) (hg p hp) (hpos p hp)) (mu := fun _ _ => 0) (fun _ _ _ _ _ => rfl)
  refine ⟨z, ?_, ?_, ?_⟩
  · unfold overheadMatrix overheadWires
    dsimp only
    rw [if_neg]
    · unfold computeMatrix placedWires
      rw [hz]
      dsimp only
      rw [neutral_of (fun _ => rfl), decide_eq_false hN]
      unfold reduceZ
      simp only [Bool.and_false, Bool.false_eq_true, if_false]
      exact congrArg Except.ok (rows_map 3 _)
    · rw [List.all_eq_true]
      intro h
      have := h none hdir
      cases this
  · intro i x h3 hi hx
    rw [letter_lookup (by omega) hi] at hx ⊢
    rw [hin i i (by omega) (by omega) hx hx, if_pos rfl]
  · intro i j h3 h4 hij
    by_cases hm : letter i ∈ phases ∧ letter j ∈ phases
    · rw [hin i j (by omega) (by omega) hm.1 hm.2, if_neg hij]
    · exact hout i j (by omega) (by omega) hm

/-- C70 violated: if the resistance or the radius of the neutral is missing the reading fails -/
theorem C70_missing_violated {g : Distances} {phases : List String} {earth : Bool} {P : String → ℝ × ℝ} (hd : Describes g phases earth P)
    (hw : Wires phases P) (h2 : 2 ≤ phases.length) (hN : "N" ∈ phases) {r gmr : String → Option ℝ}
    (hmiss : r "N" = none ∨ gmr "N" = none) (hpos : ∀ p ∈ phases, ∀ G, gmr p = some G → 0 < G)
    {direct : List (Option String)} (hdir : none ∈ direct) :
    overheadMatrix direct (some g) r gmr phases = .error .zeroDivisionError := by
  obtain ⟨Q, hQ, hsame⟩ := spacing_shape hd hw h2
  obtain ⟨z, hz, hin, -⟩ := primitive_eq (freq := 60) (res := 100)
    (W := fun p => { phase := some p, resistance := r p, gmr := gmr p, x := some (Q p).1, y := some (Q p).2 }) hw.phases hw.nodup (fun _ _ => rfl)
    (self := fun p => match r p, gmr p with | some R, some G => carsonSelf R G | _, _ => 0)
    (mu := fun p q => meterMutual (gap (P p) (P q)))
    (by
      intro p hp
      cases hrp : r p with
      | none => unfold selfZ; rfl
      | some R =>
        cases hgp : gmr p with
        | none => unfold selfZ; rfl
        | some G =>
          dsimp only
          exact selfZ_eq rfl rfl (hpos p hp G hgp))
    (fun p hp q hq hpq => mutualZ_eq (p := Q p) (q := Q q) rfl rfl rfl rfl (gap_pos (hw.apart p hp q hq hpq)) (hsame p hp q hq))
  have h33 : z 3 3 = 0 := by
    rw [hin 3 3 (by omega) (by omega) hN hN, if_pos rfl]
    change (match r "N", gmr "N" with | some R, some G => carsonSelf R G | _, _ => 0) = 0
    rcases hmiss with h | h
    · rw [h]
    · rw [h]; cases r "N" <;> rfl
  unfold overheadMatrix overheadWires
  dsimp only
  rw [hQ]
  have hm : placedWires r gmr phases (some (phases.map Q)) = phases.map fun p =>
      { phase := some p, resistance := r p, gmr := gmr p, x := some (Q p).1, y := some (Q p).2 } := zipWith_own _ _ _
  simp only [Except.map, hm]
  rw [if_neg]
  · unfold computeMatrix
    rw [hz]
    dsimp only
    rw [neutral_of (fun _ => rfl), decide_eq_true hN]
    unfold reduceZ
    simp only [Bool.and_true, if_true]
    rw [if_pos h33]
  · rw [List.all_eq_true]
    intro h
    have := h none hdir
    cases this

/-! A case: the wires of the crossarm of C69. -/

example : ∃ f, overheadMatrix [none] (some (exDistances ["A", "B", "C"] true exPoints)) (fun _ => some 0.3) (fun _ => some 0.02) ["A", "B", "C"] =
    .ok (rows 3 f) ∧ ∀ i j x y, i ≠ j → letters[i]? = some x → letters[j]? = some y → x ∈ ["A", "B", "C"] → y ∈ ["A", "B", "C"] →
        (f i j).re = (perMeter (carsonMutual (gap (exPoints x) (exPoints y)))).re ∧
        (perMeter (carsonMutual (gap (exPoints x) (exPoints y)))).im < (f i j).im :=
  C70_units_violated (ex_describes _ _ _) (ex_wires (by decide) (by decide)) (by decide) (by decide) (R := fun _ => 0.3) (G := fun _ => 0.02)
    (fun _ _ => rfl) (fun _ _ => rfl) (fun _ _ => by norm_num) (by simp)

example : overheadMatrix [none] (some (exDistances ["A", "B", "C", "N"] true exPoints)) (fun p => if p = "N" then none else some 0.3)
    (fun _ => some 0.02) ["A", "B", "C", "N"] = .error .zeroDivisionError :=
  C70_missing_violated (ex_describes _ _ _) (ex_wires (by decide) (by decide)) (by decide) (by decide) (Or.inl rfl)
    (fun _ _ G h => by cases h; norm_num) (by simp)

example : ∃ z k : Nat → Nat → ℂ, overheadMatrix [none] (some (exDistances ["A", "B", "C", "N"] true exPoints)) (fun _ => some 0.3)
    (fun _ => some 0.02) ["A", "B", "C", "N"] = .ok (rows 3 fun i j => perMeter (k i j)) ∧ Eliminates z k ∧ z 3 3 = carsonSelf 0.3 0.02 := by
  obtain ⟨z, k, h1, h2, h3, -⟩ := C70_neutral_partial (g := exDistances ["A", "B", "C", "N"] true exPoints) (ex_describes _ _ _)
    (ex_wires (by decide) (by decide)) (by decide) (by decide) (r := fun _ => some 0.3) (gmr := fun _ => some 0.02) (R := fun _ => 0.3)
    (G := fun _ => 0.02) (fun _ _ => rfl) (fun _ _ => rfl) (fun _ _ => by norm_num) (by norm_num) (direct := [none]) (by simp)
  exact ⟨z, k, h1, h2, h3 3 "N" (by omega) rfl (by decide)⟩

end Ditto.Gld
