import Verif.Spec.CymeLineData
import Verif.Props.CymeLineCodes
import Mathlib.Tactic.Ring

/-! C122: impedances of lines in the CYME writer. -/
namespace Ditto.Cyme
open Ditto Glm Spec Ditto.Spec

section
variable {N : Type} [Field N]

theorem amps_fold (p : OverPhase) : ∀ (amps : List (OverPhase × N)) (d : List (OverKey × N)),
    ((∀ e ∈ amps, e.1 ≠ p) ∧ codeOf (.amps p) (amps.foldl (fun d a => putCode (.amps a.1) a.2 d) d) = codeOf (.amps p) d) ∨
      ∃ before a after, amps = before ++ (p, a) :: after ∧ (∀ e ∈ after, e.1 ≠ p) ∧
        codeOf (.amps p) (amps.foldl (fun d a => putCode (.amps a.1) a.2 d) d) = some a := by
  intro amps
  induction amps with
  | nil => intro d; exact .inl ⟨fun e he => (List.not_mem_nil he).elim, rfl⟩
  | cons e es ih =>
    intro d
    rw [List.foldl_cons]
    rcases ih (putCode (.amps e.1) e.2 d) with ⟨h1, h2⟩ | ⟨before, a, after, h1, h2, h3⟩
    · rw [codeOf_put] at h2
      by_cases he : OverKey.amps p = OverKey.amps e.1
      · rw [if_pos he] at h2
        have hp : p = e.1 := OverKey.amps.inj he
        exact .inr ⟨[], e.2, es, by rw [hp]; rfl, h1, h2⟩
      · rw [if_neg he] at h2
        refine .inl ⟨fun x hx => ?_, h2⟩
        rcases List.mem_cons.mp hx with rfl | hx
        · exact fun hh => he (by rw [hh])
        · exact h1 x hx
    · exact .inr ⟨e :: before, a, after, by rw [h1]; rfl, h2, h3⟩

theorem amps_other (k : OverKey) (hk : ∀ p, k ≠ .amps p) : ∀ (amps : List (OverPhase × N)) (d : List (OverKey × N)),
    codeOf k (amps.foldl (fun d a => putCode (.amps a.1) a.2 d) d) = codeOf k d := by
  intro amps
  induction amps with
  | nil => intro d; rfl
  | cons e es ih =>
    intro d
    rw [List.foldl_cons, ih, codeOf_put, if_neg (hk e.1)]

theorem numberOrZero_some (x : N) : numberOrZero (some x) = x := rfl

theorem numberOrZero_none : numberOrZero (none : Option N) = 0 := rfl

/-- **C122**, overhead lines with the phases in the order A, B, C: the row has the resistances and reactances of the impedance matrix in ohms per km, the
mutual susceptances and the ampacities. -/
theorem C122_overhead_partial (w : N) (aa ab ac ba bb bc ca cb cc : N × N) (c : Option (N × N × N)) (amps : List (OverPhase × N))
    (u₁ u₂ u₃ u₄ u₅ u₆ : N) :
    ∃ d aA aB aC, overData w [.A, .B, .C] [[aa, ab, ac], [ba, bb, bc], [ca, cb, cc]]
        (c.map fun m => [[u₁, m.1, m.2.2], [u₂, u₃, m.2.1], [u₄, u₅, u₆]]) amps = .ok d ∧
      AmpsOf amps .A aA ∧ AmpsOf amps .B aB ∧ AmpsOf amps .C aC ∧
      overNumbers d = [aa.1 * 1000, bb.1 * 1000, cc.1 * 1000, aa.2 * 1000, bb.2 * 1000, cc.2 * 1000, 0, 0, 0,
        ab.1 * 1000, bc.1 * 1000, ac.1 * 1000, ab.2 * 1000, bc.2 * 1000, ac.2 * 1000,
        ((c.map fun m => m.1 * w * 1000).getD 0), ((c.map fun m => m.2.1 * w * 1000).getD 0), ((c.map fun m => m.2.2 * w * 1000).getD 0), aA, aB, aC] := by
  unfold overData
  generalize hd : amps.foldl (fun d a => putCode (OverKey.amps a.1) a.2 d) [] = d₀
  have hamps : ∀ p, ∃ a, AmpsOf amps p a ∧ numberOrZero (codeOf (OverKey.amps p) d₀) = a := by
    intro p
    rw [← hd]
    rcases amps_fold p amps [] with ⟨h1, h2⟩ | ⟨before, a, after, h1, h2, h3⟩
    · rw [h2]
      exact ⟨0, .inl ⟨h1, rfl⟩, rfl⟩
    · rw [h3]
      exact ⟨a, .inr ⟨before, after, h1, h2⟩, rfl⟩
  have hother : ∀ k, (∀ p, k ≠ OverKey.amps p) → codeOf k d₀ = none := by
    intro k hk
    rw [← hd, amps_other k hk]
    rfl
  obtain ⟨aA, hA, eA⟩ := hamps .A
  obtain ⟨aB, hB, eB⟩ := hamps .B
  obtain ⟨aC, hC, eC⟩ := hamps .C
  have s1 := hother (.small .A) (fun p h => nomatch h)
  have s2 := hother (.small .B) (fun p h => nomatch h)
  have s3 := hother (.small .C) (fun p h => nomatch h)
  cases c with
  | none =>
    refine ⟨_, aA, aB, aC, rfl, hA, hB, hC, ?_⟩
    simp [overNumbers, overKeys, codeOf_put, eA, eB, eC, numberOrZero_some]
  | some m =>
    refine ⟨_, aA, aB, aC, rfl, hA, hB, hC, ?_⟩
    simp [overNumbers, overKeys, codeOf_put, eA, eB, eC, s1, s2, s3, numberOrZero_some, numberOrZero_none]

/-- **C122**, any order of the phases: resistances and reactances of the phases are in their columns. -/
theorem C122_self (w : N) (a b c d e f g h i : N × N) (amps : List (OverPhase × N)) {phases : List OverPhase} (hp : phases ∈ phaseOrders) :
    ∃ t, overData w phases [[a, b, c], [d, e, f], [g, h, i]] none amps = .ok t ∧ ∀ (k : Nat) p v, phases[k]? = some p → [a, e, i][k]? = some v →
      (overNumbers t)[phaseColumn p]? = some (v.1 * 1000) ∧ (overNumbers t)[3 + phaseColumn p]? = some (v.2 * 1000) := by
  unfold phaseOrders at hp
  unfold overData
  generalize amps.foldl (fun d a => putCode (OverKey.amps a.1) a.2 d) [] = d₀
  simp only [List.mem_cons, List.not_mem_nil, or_false] at hp
  rcases hp with rfl | rfl | rfl | rfl | rfl | rfl <;>
  · refine ⟨_, rfl, ?_⟩
    intro k p v hk hv
    rcases k with _ | _ | _ | k
    · cases hk
      cases hv
      simp [overNumbers, overKeys, codeOf_put, phaseColumn, numberOrZero_some]
    · cases hk
      cases hv
      simp [overNumbers, overKeys, codeOf_put, phaseColumn, numberOrZero_some]
    · cases hk
      cases hv
      simp [overNumbers, overKeys, codeOf_put, phaseColumn, numberOrZero_some]
    · cases hk

/-- **C122**, mutual impedances: if phase B comes before A, or C before B, the mutual resistance and reactance of both are written as zero. -/
theorem C122_order_violated (w : N) (a b c d e f g h i : N × N) (amps : List (OverPhase × N)) {phases : List OverPhase} (hp : phases ∈ phaseOrders) :
    ∃ t, overData w phases [[a, b, c], [d, e, f], [g, h, i]] none amps = .ok t ∧
      (Before phases .B .A → (overNumbers t)[9]? = some 0 ∧ (overNumbers t)[12]? = some 0) ∧
      (Before phases .C .B → (overNumbers t)[10]? = some 0 ∧ (overNumbers t)[13]? = some 0) := by
  unfold phaseOrders at hp
  unfold overData
  generalize hd : amps.foldl (fun d a => putCode (OverKey.amps a.1) a.2 d) [] = d₀
  have hother : ∀ k, (∀ p, k ≠ OverKey.amps p) → codeOf k d₀ = none := by
    intro k hk
    rw [← hd, amps_other k hk]
    rfl
  have m1 := hother (.mutualR .A .B) (fun p h => nomatch h)
  have m2 := hother (.mutualX .A .B) (fun p h => nomatch h)
  have m3 := hother (.mutualR .B .C) (fun p h => nomatch h)
  have m4 := hother (.mutualX .B .C) (fun p h => nomatch h)
  have no : ∀ (phases : List OverPhase) (p q : OverPhase), (∀ i < 3, ∀ j < 3, i < j → ¬(phases[i]? = some p ∧ phases[j]? = some q)) → phases.length = 3 →
      ¬Before phases p q := by
    rintro phases p q h hl ⟨i, j, hij, h1, h2⟩
    have hj : j < 3 := by
      rw [← hl]
      exact (List.getElem?_eq_some_iff.mp h2).1
    exact h i (by omega) j hj hij ⟨h1, h2⟩
  simp only [List.mem_cons, List.not_mem_nil, or_false] at hp
  rcases hp with rfl | rfl | rfl | rfl | rfl | rfl
  · exact ⟨_, rfl, fun hb => (no _ _ _ (by decide) rfl hb).elim, fun hb => (no _ _ _ (by decide) rfl hb).elim⟩
  · refine ⟨_, rfl, fun hb => (no _ _ _ (by decide) rfl hb).elim, fun hb => ?_⟩
    simp [overNumbers, overKeys, codeOf_put, m3, m4, numberOrZero_none]
  · refine ⟨_, rfl, fun hb => ?_, fun hb => (no _ _ _ (by decide) rfl hb).elim⟩
    simp [overNumbers, overKeys, codeOf_put, m1, m2, numberOrZero_none]
  · refine ⟨_, rfl, fun hb => ?_, fun hb => (no _ _ _ (by decide) rfl hb).elim⟩
    simp [overNumbers, overKeys, codeOf_put, m1, m2, numberOrZero_none]
  · refine ⟨_, rfl, fun hb => (no _ _ _ (by decide) rfl hb).elim, fun hb => ?_⟩
    simp [overNumbers, overKeys, codeOf_put, m3, m4, numberOrZero_none]
  · refine ⟨_, rfl, fun hb => ?_, fun hb => ?_⟩
    · simp [overNumbers, overKeys, codeOf_put, m1, m2, numberOrZero_none]
    · simp [overNumbers, overKeys, codeOf_put, m3, m4, numberOrZero_none]

/-- **C122**, susceptances: those of the phases are always written as zero, whatever the capacitance matrix is. -/
theorem C122_shunt_violated (w : N) (aa ab ac ba bb bc ca cb cc : N × N) (c₁ c₂ c₃ c₄ c₅ c₆ c₇ c₈ c₉ : N) (amps : List (OverPhase × N)) :
    ∃ d, overData w [.A, .B, .C] [[aa, ab, ac], [ba, bb, bc], [ca, cb, cc]] (some [[c₁, c₂, c₃], [c₄, c₅, c₆], [c₇, c₈, c₉]]) amps = .ok d ∧
      (overNumbers d)[6]? = some 0 ∧ (overNumbers d)[7]? = some 0 ∧ (overNumbers d)[8]? = some 0 := by
  obtain ⟨d, aA, aB, aC, h1, -, -, -, h2⟩ := C122_overhead_partial w aa ab ac ba bb bc ca cb cc (some (c₂, c₆, c₃)) amps c₁ c₄ c₅ c₇ c₈ c₉
  refine ⟨d, h1, ?_⟩
  rw [h2]
  exact ⟨rfl, rfl, rfl⟩

/-- **C122**, too small matrices -/
theorem C122_errors (w : N) (d : List (OverKey × N)) (z : List (List (N × N))) (c : Option (List (List N))) (p q : OverPhase) (k j : Nat) (hkj : k ≤ j)
    (hz : ∀ r, z[k]? = some r → r.length ≤ j) : overPair w z c d ((p, k), (q, j)) = .error .indexError := by
  have he : entryAt z k j = .error .indexError := by
    unfold entryAt
    cases h : z[k]? with
    | none => rfl
    | some r =>
      dsimp only
      rw [List.getElem?_eq_none (hz r h)]
  unfold overPair
  dsimp only
  by_cases h : j = k
  · rw [if_pos h, he]
  · rw [if_neg h, if_pos (by omega), he]

/-- **C122**, a capacitance matrix of another size than the impedance matrix is left out. -/
theorem C122_size (w : N) (phases : List OverPhase) (z : List (List (N × N))) (c : List (List N)) (amps : List (OverPhase × N)) (h : c.length ≠ z.length) :
    overData w phases z (some c) amps = overData w phases z none amps := by
  have hp : ∀ d e, overPair w z (some c) d e = overPair w z none d e := by
    intro d e
    have hs : sizedCapacitances z (some c) = sizedCapacitances z none := if_neg h
    unfold overPair
    rw [hs]
  unfold overData
  generalize amps.foldl (fun d a => putCode (OverKey.amps a.1) a.2 d) [] = d
  induction phasePairs phases generalizing d with
  | nil => rfl
  | cons e es ih =>
    rw [overLoop, overLoop, hp]
    cases overPair w z none d e with
    | error err => rfl
    | ok d' => exact ih d'

/-- **C122**, too small matrices: the first one that is missing stops the writer. -/
theorem C122_stops (w : N) (phases : List OverPhase) (p : OverPhase) (z : List (List (N × N))) (c : Option (List (List N))) (amps : List (OverPhase × N))
    (hz : ∀ r, z[0]? = some r → r = []) : overData w (p :: phases) z c amps = .error .indexError := by
  have h := fun d => C122_errors w d z c p p 0 0 (Nat.le_refl 0) (fun r hr => by rw [hz r hr]; exact Nat.le_refl 0)
  unfold overData
  rw [show phasePairs (p :: phases) = ((p, 0), (p, 0)) :: ((phases.zipIdx 1).map (fun b => ((p, 0), b)) ++
    (phases.zipIdx 1).flatMap fun a => (p :: phases).zipIdx.map fun b => (a, b)) from rfl, overLoop, h]

end

/-! ### cables -/

section
variable {V : Type} [Zero V] [DecidableEq V]

omit [Zero V] [DecidableEq V] in
theorem entryAt_balanced {m : List (List V)} {n : Nat} {own other : V} (h : Balanced m n own other) {k j : Nat} (hk : k < n) (hj : j < n) :
    entryAt m k j = .ok (if j = k then own else other) := by
  unfold entryAt
  have h1 : m[k]? = some (m[k]'(by rw [h.rows]; exact hk)) := List.getElem?_eq_getElem (by rw [h.rows]; exact hk)
  have hl : (m[k]'(by rw [h.rows]; exact hk)).length = n := h.cols _ (List.getElem_mem _)
  have h2 : (m[k]'(by rw [h.rows]; exact hk))[j]? = some ((m[k]'(by rw [h.rows]; exact hk))[j]'(by rw [hl]; exact hj)) := List.getElem?_eq_getElem (by rw [hl]; exact hj)
  rw [h1]
  dsimp only
  rw [h2]
  exact congrArg Except.ok (h.entries k j _ _ h1 h2)

theorem offLoop_balanced {m : List (List V)} {n : Nat} {own other : V} (h : Balanced m n own other) {k : Nat} (hk : k < n) :
    ∀ (js : List Nat) (o : V), (∀ j ∈ js, j < n) → (o = 0 ∨ o = other) →
      offLoop m k o js = .ok (if ∃ j ∈ js, j ≠ k then other else o) := by
  intro js
  induction js with
  | nil =>
    intro o _ _
    rw [offLoop, if_neg]
    rintro ⟨j, hj, -⟩
    exact List.not_mem_nil hj
  | cons j js ih =>
    intro o hj ho
    rw [offLoop]
    by_cases hjk : j = k
    · rw [if_pos hjk, ih o (fun x hx => hj x (.tail _ hx)) ho]
      refine congrArg Except.ok (if_congr ?_ rfl rfl)
      constructor
      · rintro ⟨x, hx, hxk⟩
        exact ⟨x, .tail _ hx, hxk⟩
      · rintro ⟨x, hx, hxk⟩
        rcases List.mem_cons.mp hx with rfl | hx
        · exact (hxk hjk).elim
        · exact ⟨x, hx, hxk⟩
    · rw [if_neg hjk, entryAt_balanced h hk (hj j (.head _)), if_neg hjk, if_pos ⟨j, .head _, hjk⟩]
      dsimp only
      have hnew : (if other ≠ 0 then other else o) = other := by
        by_cases h0 : other = 0
        · rw [if_neg (fun hh => hh h0), h0]
          rcases ho with ho | ho
          · exact ho
          · rw [ho, h0]
        · rw [if_pos h0]
      rw [hnew, ih other (fun x hx => hj x (.tail _ hx)) (.inr rfl), ite_self]

theorem diagLoop_balanced {m : List (List V)} {n : Nat} {own other : V} (h : Balanced m n own other) (hs : own ≠ 0) :
    ∀ (ks : List Nat) (s : V × V), (∀ k ∈ ks, k < n) → (s.2 = 0 ∨ s.2 = other) → ks ≠ [] →
      diagLoop m n s ks = .ok (own, if 2 ≤ n then other else s.2) := by
  intro ks
  induction ks with
  | nil => intro s _ _ hne; exact (hne rfl).elim
  | cons k ks ih =>
    intro s hk ho _
    have hkn := hk k (.head _)
    rw [diagLoop, entryAt_balanced h hkn hkn, if_pos rfl]
    dsimp only
    rw [if_neg hs, offLoop_balanced h hkn (List.range n) s.2 (fun j hj => List.mem_range.mp hj) ho]
    dsimp only
    have hex : (∃ j ∈ List.range n, j ≠ k) ↔ 2 ≤ n := by
      constructor
      · rintro ⟨j, hj, hjk⟩
        have := List.mem_range.mp hj
        omega
      · intro h2
        by_cases h0 : k = 0
        · exact ⟨1, List.mem_range.mpr (by omega), by omega⟩
        · exact ⟨0, List.mem_range.mpr (by omega), fun hh => h0 hh.symm⟩
    have ho' : (if ∃ j ∈ List.range n, j ≠ k then other else s.2) = if 2 ≤ n then other else s.2 := if_congr hex rfl rfl
    rw [ho']
    cases ks with
    | nil => rw [diagLoop]
    | cons k' ks' =>
      rw [ih (own, if 2 ≤ n then other else s.2) (fun x hx => hk x (.tail _ hx)) ?_ (List.cons_ne_nil _ _)]
      · by_cases h2 : 2 ≤ n
        · simp only [if_pos h2]
        · simp only [if_neg h2]
      · by_cases h2 : 2 ≤ n
        · exact .inr (if_pos h2)
        · dsimp only
          rw [if_neg h2]
          exact ho

end

section
variable {N : Type} [Field N] [LinearOrder N]

/-- **C122**, cables: for a balanced impedance matrix of at least two phases, the zero sequence impedance is the self impedance and twice the mutual one, the
positive sequence impedance is the difference, in ohms per km, and the susceptances are those of the capacitances. -/
theorem C122_cable_partial (w : N) (voltage : Option N) (a : Option N) (amps : List (Option N)) {n : Nat} (hn : 2 ≤ n) {z : List (List (N × N))} {s m : N × N}
    (hz : Balanced z n s m) (hs : s ≠ 0) {c : List (List N)} {cs cm : N} (hc : Balanced c n cs cm) (hcs : cs ≠ 0) :
    cableData w voltage (a :: amps) z (some c) = .ok
      { r1 := (s.1 - m.1) * 1000, r0 := (s.1 + 2 * m.1) * 1000, x1 := (s.2 - m.2) * 1000, x0 := (s.2 + 2 * m.2) * 1000
        b1 := (cs - cm) * w, b0 := (cs + 2 * cm) * w, amps := a, kind := cableKind voltage (amps.length + 1) } := by
  have hr : List.range n ≠ [] := by
    intro h
    have := congrArg List.length h
    rw [List.length_range, List.length_nil] at this
    omega
  have h1 : diagLoop z z.length ((0, 0), (0, 0)) (List.range z.length) = .ok (s, m) := by
    rw [hz.rows]
    rw [show (((0, 0), (0, 0)) : (N × N) × (N × N)) = (0, 0) from rfl, diagLoop_balanced hz hs _ _ (fun k hk => List.mem_range.mp hk) (.inl rfl) hr,
      if_pos hn]
  have h2 : cableB w z.length (some c) = .ok ((cs - cm) * w, (cs + 2 * cm) * w) := by
    unfold cableB
    dsimp only
    rw [hz.rows, hc.rows, diagLoop_balanced hc hcs _ _ (fun k hk => List.mem_range.mp hk) (.inl rfl) hr, if_pos hn]
  have h3 : entryAt z 1 1 = .ok s := by rw [entryAt_balanced hz (by omega) (by omega), if_pos rfl]
  unfold cableData
  rw [h1]
  dsimp only
  rw [h2, h3]
  rfl

/-- the same without capacitances, for any number of phases; with one phase both impedances are that of the phase -/
theorem C122_cable_plain (w : N) (voltage : Option N) (a : Option N) (amps : List (Option N)) {n : Nat} (hn : 1 ≤ n) {z : List (List (N × N))} {s m : N × N}
    (hz : Balanced z n s m) (hs : s ≠ 0) :
    ∃ d, cableData w voltage (a :: amps) z none = .ok d ∧ d.b1 = 0 ∧ d.b0 = 0 ∧ d.amps = a ∧
      (2 ≤ n → d.r1 = (s.1 - m.1) * 1000 ∧ d.r0 = (s.1 + 2 * m.1) * 1000 ∧ d.x1 = (s.2 - m.2) * 1000 ∧ d.x0 = (s.2 + 2 * m.2) * 1000) ∧
      (n = 1 → d.r1 = s.1 * 1000 ∧ d.r0 = s.1 * 1000 ∧ d.x1 = s.2 * 1000 ∧ d.x0 = s.2 * 1000) := by
  have hr : List.range n ≠ [] := by
    intro h
    have := congrArg List.length h
    rw [List.length_range, List.length_nil] at this
    omega
  have h1 : diagLoop z z.length ((0, 0), (0, 0)) (List.range z.length) = .ok (s, if 2 ≤ n then m else 0) := by
    rw [hz.rows]
    rw [show (((0, 0), (0, 0)) : (N × N) × (N × N)) = (0, 0) from rfl, diagLoop_balanced hz hs _ _ (fun k hk => List.mem_range.mp hk) (.inl rfl) hr]
  unfold cableData cableB
  rw [h1]
  dsimp only
  refine ⟨_, rfl, rfl, rfl, rfl, fun h2 => ?_, fun h2 => ?_⟩
  · rw [entryAt_balanced hz (show 1 < n by omega) (show 1 < n by omega), if_pos rfl, if_pos h2]
    exact ⟨rfl, rfl, rfl, rfl⟩
  · have he : entryAt z 1 1 = .error .indexError := by
      unfold entryAt
      rw [List.getElem?_eq_none (by rw [hz.rows, h2])]
    rw [he, if_neg (by omega)]
    dsimp only
    refine ⟨?_, ?_, ?_, ?_⟩ <;> simp

/-- the type of a cable: two below 600 V with at most two wires -/
theorem C122_kind (v : Option N) (n : Nat) : (cableKind v n = 2 ↔ (∃ x, v = some x ∧ x < 600) ∧ n ≤ 2) ∧ (cableKind v n = 0 ∨ cableKind v n = 2) := by
  unfold cableKind
  cases v with
  | none => exact ⟨⟨fun h => absurd (show (0 : Nat) = 2 from h) (by decide), fun ⟨⟨x, h, _⟩, _⟩ => nomatch h⟩, .inl rfl⟩
  | some x =>
    dsimp only
    by_cases h : x < 600 ∧ n ≤ 2
    · rw [if_pos h]
      exact ⟨⟨fun _ => ⟨⟨x, rfl, h.1⟩, h.2⟩, fun _ => rfl⟩, .inr rfl⟩
    · rw [if_neg h]
      exact ⟨⟨fun hh => absurd hh (by decide), fun ⟨⟨y, hy, hlt⟩, hn⟩ => (h ⟨by rw [Option.some.inj hy]; exact hlt, hn⟩).elim⟩, .inl rfl⟩

/-- **C122**, cables that stop the writer: those with a row that is too short and those without wires -/
theorem C122_cable_errors (w : N) (voltage : Option N) (amps : List (Option N)) (c : Option (List (List N))) (rows : List (List (N × N))) :
    cableData w voltage amps ([] :: rows) c = .error .typeError ∧
    (∀ {n : Nat} {z : List (List (N × N))} {s m : N × N}, 1 ≤ n → Balanced z n s m → s ≠ 0 → cableData w voltage [] z none = .error .indexError) := by
  constructor
  · unfold cableData
    rw [List.length_cons, List.range_succ_eq_map, diagLoop]
    rfl
  · intro n z s m hn hz hs
    have h1 : diagLoop z z.length ((0, 0), (0, 0)) (List.range z.length) = .ok (s, if 2 ≤ n then m else 0) := by
      rw [hz.rows]
      rw [show (((0, 0), (0, 0)) : (N × N) × (N × N)) = (0, 0) from rfl, diagLoop_balanced hz hs _ _ (fun k hk => List.mem_range.mp hk) (.inl rfl) ?_]
      intro h
      have := congrArg List.length h
      rw [List.length_range, List.length_nil] at this
      omega
    unfold cableData
    rw [h1]
    rfl

/-- **C122**, cables that are not balanced: only the last phases count, here one of two phases without mutual impedance. -/
theorem C122_unbalanced_violated (w : N) (voltage : Option N) (a : Option N) (amps : List (Option N)) (x y : N × N) (hx : x ≠ 0) (hy : y ≠ 0) :
    ∃ d, cableData w voltage (a :: amps) [[x, 0], [0, y]] none = .ok d ∧ d.r1 = y.1 * 1000 ∧ d.x1 = y.2 * 1000 ∧ d.r0 = y.1 * 1000 ∧ d.x0 = y.2 * 1000 := by
  have h1 : diagLoop [[x, 0], [0, y]] 2 ((0, 0), (0, 0)) (List.range 2) = .ok (y, 0) := by
    rw [show List.range 2 = [0, 1] from rfl, diagLoop, show entryAt [[x, 0], [0, y]] 0 0 = .ok x from rfl]
    dsimp only
    rw [if_neg hx, show List.range 2 = [0, 1] from rfl]
    have o1 : ∀ o : N × N, offLoop [[x, 0], [0, y]] 0 o [0, 1] = .ok o := by
      intro o
      rw [offLoop, if_pos rfl, offLoop, if_neg (by decide), show entryAt [[x, 0], [0, y]] 0 1 = .ok 0 from rfl]
      dsimp only
      rw [if_neg (fun h => h rfl), offLoop]
    have o2 : ∀ o : N × N, offLoop [[x, 0], [0, y]] 1 o [0, 1] = .ok o := by
      intro o
      rw [offLoop, if_neg (by decide), show entryAt [[x, 0], [0, y]] 1 0 = .ok 0 from rfl]
      dsimp only
      rw [if_neg (fun h => h rfl), offLoop, if_pos rfl, offLoop]
    rw [o1]
    dsimp only
    rw [diagLoop, show entryAt [[x, 0], [0, y]] 1 1 = .ok y from rfl]
    dsimp only
    rw [if_neg hy, show List.range 2 = [0, 1] from rfl, o2]
    dsimp only
    rw [diagLoop]
    rfl
  unfold cableData cableB
  rw [show [[x, 0], [0, y]].length = 2 from rfl, h1]
  dsimp only
  rw [show entryAt [[x, 0], [0, y]] 1 1 = .ok y from rfl]
  refine ⟨_, rfl, ?_, ?_, ?_, ?_⟩ <;> simp

/-- **C122**, capacitance matrices that are smaller than the impedance matrix stop the writer. -/
theorem C122_small_violated (w : N) (x : N) (hx : x ≠ 0) (n : Nat) : cableB w (n + 2) (some [[x]]) = .error .typeError := by
  unfold cableB
  dsimp only
  have h : ∃ e, diagLoop [[x]] 1 (0, 0) (List.range (n + 2)) = .error e := by
    rw [List.range_succ_eq_map, List.range_succ_eq_map, List.map_cons, diagLoop, show entryAt [[x]] 0 0 = .ok x from rfl]
    dsimp only
    rw [if_neg hx, show offLoop [[x]] 0 0 (List.range 1) = .ok 0 from rfl]
    dsimp only
    rw [diagLoop, show entryAt [[x]] (Nat.succ 0) (Nat.succ 0) = .error .indexError from rfl]
    exact ⟨_, rfl⟩
  obtain ⟨e, he⟩ := h
  rw [show [[x]].length = 1 from rfl, he]
  dsimp only
  rw [if_neg (List.cons_ne_nil _ _)]

end

/-! ### examples -/

example : Balanced [[(2, 3), (1, 1)], [((1, 1) : ℚ × ℚ), (2, 3)]] 2 (2, 3) (1, 1) := by
  refine ⟨rfl, by decide +kernel, ?_⟩
  intro k j r v hk hj
  rcases k with _ | _ | k
  · cases hk
    rcases j with _ | _ | j <;> cases hj <;> rfl
  · cases hk
    rcases j with _ | _ | j <;> cases hj <;> rfl
  · cases hk

example : (cableData (1 : ℚ) (some 240) [some 100, none] [[(2, 3), (1, 1)], [(1, 1), (2, 3)]] (some [[5, 1], [1, 5]])).toOption = some
    { r1 := 1000, r0 := 4000, x1 := 2000, x0 := 5000, b1 := 4, b0 := 7, amps := some 100, kind := 2 } := by decide +kernel

example : (cableData (1 : ℚ) none [none, none, none] [[(2, 3)]] none).toOption = some
    { r1 := 2000, r0 := 2000, x1 := 3000, x0 := 3000, b1 := 0, b0 := 0, amps := none, kind := 0 } := by decide +kernel

example : ((overData (1 : ℚ) [.B, .A, .C] [[(1, 2), (3, 4), (5, 6)], [(3, 4), (7, 8), (9, 10)], [(5, 6), (9, 10), (11, 12)]] none
    [(.A, 100), (.C, 50), (.A, 200)]).toOption.map overNumbers) =
    some [7000, 1000, 11000, 8000, 2000, 12000, 0, 0, 0, 0, 5000, 9000, 0, 6000, 10000, 0, 0, 0, 200, 0, 50] := by decide +kernel

example : Before [.B, .A, .C] .B .A := ⟨0, 1, by decide, rfl, rfl⟩

end Ditto.Cyme
