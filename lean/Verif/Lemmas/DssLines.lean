import Verif.Spec.DssLines
import Verif.Lemmas.DssLoads
import Verif.Props.DssCodes

namespace Ditto.Dss
open Ditto Ditto.Spec Ditto.Mat

theorem lower_length (m : List (List ℚ)) : (lowerTriangle m).length = m.length := by simp [lowerTriangle]

theorem lower_get (m : List (List ℚ)) (i : Nat) : (lowerTriangle m)[i]? = (m[i]?).map fun row => row.take (i + 1) := by
  simp [lowerTriangle, List.getElem?_mapIdx]

/-- a symmetric matrix is determined by its lower triangle -/
theorem symmetrize_lower {n : Nat} {m : List (List ℚ)} (hn : 0 < n) (h : SymmetricSquare n m) : symmetrize (lowerTriangle m) = .ok (some m) := by
  obtain ⟨⟨hlen, hrows⟩, hsym⟩ := h
  have hlow : LowerTriangular (lowerTriangle m) := by
    intro i row hi
    rw [lower_get, Option.map_eq_some_iff] at hi
    obtain ⟨row', h1, rfl⟩ := hi
    have h2 := (List.getElem?_eq_some_iff.1 h1).1
    rw [List.length_take, hrows row' (List.mem_of_getElem? h1)]
    omega
  have hne : lowerTriangle m ≠ [] := by
    intro h
    have := lower_length m
    rw [h] at this
    simp at this
    omega
  obtain ⟨r, hr, hent⟩ := C04_lower_triangular (by decide) (lowerTriangle m) hne hlow
  obtain ⟨⟨hrl, hrr⟩, hrs⟩ := C04_symmetric _ _ hr
  rw [lower_length] at hrl hrr
  rw [hr]
  congr 2
  have key : ∀ i j v, HasEntry m i j v → HasEntry r i j v := by
    have hle : ∀ i j v, j ≤ i → HasEntry m i j v → HasEntry r i j v := by
      rintro i j v hij ⟨row, h1, h2⟩
      refine hent i j v hij ⟨row.take (i + 1), by rw [lower_get, h1]; rfl, ?_⟩
      rw [List.getElem?_take, if_pos (by omega), h2]
    intro i j v hv
    by_cases hij : j ≤ i
    · exact hle i j v hij hv
    · exact hrs j i v (hle j i v (by omega) (hsym i j v hv))
  refine List.ext_getElem (by omega) fun i h1 h2 => ?_
  have hl1 : r[i].length = n := by rw [hrr _ (List.getElem_mem _), hlen]
  have hl2 : m[i].length = n := hrows _ (List.getElem_mem _)
  refine List.ext_getElem (by omega) fun j h3 h4 => ?_
  obtain ⟨row, h5, h6⟩ := key i j (m[i][j]) ⟨m[i], List.getElem?_eq_getElem h2, List.getElem?_eq_getElem h4⟩
  rw [List.getElem?_eq_getElem h1] at h5
  injection h5 with h5
  subst h5
  rw [List.getElem?_eq_getElem h3] at h6
  injection h6

theorem perMeter_km {u : String} (hu : pyLower u = "km") (x : ℚ) : perMeter u x = some (x / 1000) := by
  simp [perMeter, Units.toMeters, hu, Units.InverseArg.eval]

theorem row_again {u : String} (hu : pyLower u = "km") (row : List ℚ) : (row.map (· * 1000)).filterMap (perMeter u) = row := by
  rw [List.filterMap_map]
  have : perMeter u ∘ (· * 1000) = some := by
    funext x
    simp [perMeter_km hu]
  rw [this, List.filterMap_some]

/-- A symmetric matrix that is written per km and reported by OpenDSS is read again. -/
theorem readMatrix_reported {u : String} (hu : pyLower u = "km") {n : Nat} {m : List (List ℚ)} (hn : 0 < n) (h : SymmetricSquare n m) :
    readMatrix u (reported (m.map (List.map (· * 1000)))) = some m := by
  have hlow : (lowerTriangle (m.map (List.map (· * 1000)))).map (List.filterMap (perMeter u)) = lowerTriangle m := by
    refine List.ext_getElem? fun i => ?_
    rw [List.getElem?_map, lower_get, lower_get, List.getElem?_map]
    cases m[i]? with
    | none => rfl
    | some row =>
      simp only [Option.map_some]
      rw [← List.map_take, row_again hu]
  have hrows : readMatrix u (.rows (lowerTriangle (m.map (List.map (· * 1000))))) = some m := by
    simp only [readMatrix]
    rw [hlow, symmetrize_lower hn h]
  match m with
  | [] => exact hrows
  | [row] =>
    simp only [List.map_cons, List.map_nil, reported, readMatrix]
    rw [row_again hu]
  | _ :: _ :: _ => exact hrows

theorem lineUnit_km {u : String} (hu : pyLower u = "km") : lineUnit u = u := by
  unfold lineUnit
  rw [hu, if_pos (by decide)]

/-- the numbers of the phases that are written -/
theorem lineSuffix_known : ∀ (ws : List LWire), (∀ w ∈ ws, ∃ ph ∈ ["A", "B", "C"], w.wire.phase = some ph) →
    ∃ ns : List Nat, lineSuffix ws = ns.map some ∧ ns.map ofDssPhase = ws.map (·.wire.phase) := by
  intro ws
  induction ws with
  | nil => intro _; exact ⟨[], rfl, rfl⟩
  | cons w ws ih =>
    intro h
    obtain ⟨ns, h1, h2⟩ := ih fun q hq => h q (List.mem_cons_of_mem _ hq)
    obtain ⟨ph, hm, hp⟩ := h w List.mem_cons_self
    obtain ⟨n, h3, h4⟩ := ofDss_toDss hm
    refine ⟨n :: ns, ?_, ?_⟩
    · have hN : decide (ph ∈ ["N", "N1", "N2"]) = false := by
        simp only [List.mem_cons, List.not_mem_nil, or_false] at hm
        rcases hm with rfl | rfl | rfl <;> decide
      unfold lineSuffix at h1 ⊢
      rw [List.filterMap_cons_some (f := fun x : LWire => x.wire.phase) hp, List.filter_cons, hN]
      simp only [Bool.not_false, if_true]
      rw [List.map_cons, h1, h3]
      rfl
    · rw [List.map_cons, h2, h4, List.map_cons, hp]

theorem phaseCount_all (ws : List LWire) (h : ∀ w ∈ ws, ∃ ph ∈ ["A", "B", "C"], w.wire.phase = some ph) :
    ((ws.map (·.wire)).filter isPhase).length = ws.length := by
  rw [List.filter_eq_self.2, List.length_map]
  intro w hw
  obtain ⟨l, hl, rfl⟩ := List.mem_map.1 hw
  obtain ⟨ph, hm, hp⟩ := h l hl
  unfold isPhase
  rw [hp]
  simp only [List.mem_cons, List.not_mem_nil, or_false] at hm
  rcases hm with rfl | rfl | rfl <;> decide

/-- with known phases only the states of the wires matter -/
theorem closedWires_all (ws : List LWire) (h : ∀ w ∈ ws, ∃ ph ∈ ["A", "B", "C"], w.wire.phase = some ph) :
    closedWires ws = ws.filter fun w => decide (w.isOpen ≠ some true) := by
  unfold closedWires
  refine List.filter_congr fun w hw => ?_
  obtain ⟨ph, hm, hp⟩ := h w hw
  rw [hp]
  have hN : decide (ph ∈ ["N", "N1", "N2"]) = false := by
    simp only [List.mem_cons, List.not_mem_nil, or_false] at hm
    rcases hm with rfl | rfl | rfl <;> decide
  simp only [hN]
  simp

end Ditto.Dss
