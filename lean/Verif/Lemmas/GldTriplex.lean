import Verif.Spec.GldTriplex
import Mathlib.Tactic.Ring
import Mathlib.Tactic.FieldSimp
import Mathlib.Tactic.NormNum
import Mathlib.Tactic.Positivity
import Mathlib.Tactic.LinearCombination

namespace Ditto.Gld
open Ditto Glm Spec

variable {flt : Text → Option ℝ} {objects : List (Text × GldObj)}

theorem number_read {o : GldObj} {k : String} {x : ℝ} (h : Number flt o k x) : readOptional flt o k.toList = .ok (some x) := by
  obtain ⟨t, h1, h2⟩ := h
  unfold readOptional readAs
  rw [h1]
  dsimp only
  rw [h2]
  rfl

theorem lacks_read {o : GldObj} {k : String} (h : Lacks o k) : readOptional flt o k.toList = .ok none := by
  unfold readOptional readAs
  rw [show getEntry k.toList o.attrs = none from h]
  rfl

theorem log_pos {d : ℝ} (h : 0 < d) : logInverse d = .ok (Real.log (1 / d)) := by
  unfold logInverse
  rw [if_neg h.ne', if_neg (not_lt.mpr h.le)]

theorem line_self (r g : ℝ) : lineZ 60 100 r (Real.log (1 / g)) = carsonSelf r g := rfl

theorem line_mutual (d : ℝ) : lineZ 60 100 0 (Real.log (1 / d)) = carsonMutual d := by
  unfold lineZ carsonMutual
  rw [zero_add]

/-- a live conductor -/
theorem live_some {c : GldObj} {k : String} {n : Text} (h : getEntry k.toList c.attrs = some n) (p : String) :
    liveWire c k.toList p = [(p, n)] := by
  unfold liveWire
  rw [h]

theorem live_none {c : GldObj} {k : String} (h : Lacks c k) (p : String) : liveWire c k.toList p = [] := by
  unfold liveWire
  rw [show getEntry k.toList c.attrs = none from h]

/-- the values of a conductor -/
theorem values_ok {n : Text} {w : GldObj} {r g : ℝ} (hn : getEntry n objects = some w) (hr : Number flt w "resistance" r)
    (hg : Number flt w "geometric_mean_radius" g) (v : TWire) (L : ℝ) :
    conductorValues flt objects L (v, n) = .ok { v with gmr := some (g / 3.28084), resistance := some (r * L / 1609.34) } := by
  unfold conductorValues
  dsimp only
  rw [hn]
  dsimp only
  rw [number_read hg]
  dsimp only
  rw [number_read hr]

/-- the wire with these values -/
noncomputable def madeWire (p : String) (r g L : ℝ) (d : Option ℝ) (t : ℝ) : TWire :=
  { phase := some p, resistance := some (r * L / 1609.34), gmr := some (g / 3.28084), diameter := d, insulation := t }

theorem self_made {p : String} {r g L : ℝ} {d : Option ℝ} {t : ℝ} (hg : 0 < g) :
    selfZ 60 100 (madeWire p r g L d t).toGWire = .ok (carsonSelf (r * L / 1609.34) (g / 3.28084)) := by
  unfold selfZ madeWire
  dsimp only
  rw [log_pos (by positivity)]
  rfl

/-- the loops for three wires -/
theorem primitive_three {wa wb wn : TWire} {za zb zn : ℂ} {d : ℝ × ℝ} (ha : wa.phase = some "A") (hb : wb.phase = some "B")
    (hn : wn.phase = some "N") (sa : selfZ 60 100 wa.toGWire = .ok za) (sb : selfZ 60 100 wb.toGWire = .ok zb)
    (sn : selfZ 60 100 wn.toGWire = .ok zn) (hd : spans [wa, wb, wn] = some d) (h1 : 0 < d.1) (h2 : 0 < d.2) :
    ∃ m, secondaryPrimitive 60 100 [wa, wb, wn] = .ok m ∧ m 0 0 = za / 1609.34 ∧ m 1 1 = zb / 1609.34 ∧ m 2 2 = zn / 1609.34 ∧
      m 0 1 = carsonMutual d.1 / 1609.34 ∧ m 1 0 = carsonMutual d.1 / 1609.34 ∧ m 0 2 = carsonMutual d.2 / 1609.34 ∧
      m 2 0 = carsonMutual d.2 / 1609.34 ∧ m 1 2 = carsonMutual d.2 / 1609.34 ∧ m 2 1 = carsonMutual d.2 / 1609.34 := by
  have l1 : (logInverse d.1).map (lineZ 60 100 0) = .ok (carsonMutual d.1) := by rw [log_pos h1]; exact congrArg _ (line_mutual _)
  have l2 : (logInverse d.2).map (lineZ 60 100 0) = .ok (carsonMutual d.2) := by rw [log_pos h2]; exact congrArg _ (line_mutual _)
  have iA : secondaryIndex "A" = .ok 0 := rfl
  have iB : secondaryIndex "B" = .ok 1 := rfl
  have iN : secondaryIndex "N" = .ok 2 := rfl
  have sAB : spanOf d "A" "B" = d.1 := rfl
  have sBA : spanOf d "B" "A" = d.1 := rfl
  have sAN : spanOf d "A" "N" = d.2 := rfl
  have sNA : spanOf d "N" "A" = d.2 := rfl
  have sBN : spanOf d "B" "N" = d.2 := rfl
  have sNB : spanOf d "N" "B" = d.2 := rfl
  unfold secondaryPrimitive
  rw [hd]
  refine ⟨setCell (setCell (setCell (setCell (setCell (setCell (setCell (setCell (setCell (fun _ _ => 0) 0 0 (za / 1609.34)) 0 1
      (carsonMutual d.1 / 1609.34)) 0 2 (carsonMutual d.2 / 1609.34)) 1 0 (carsonMutual d.1 / 1609.34)) 1 1 (zb / 1609.34)) 1 2
      (carsonMutual d.2 / 1609.34)) 2 0 (carsonMutual d.2 / 1609.34)) 2 1 (carsonMutual d.2 / 1609.34)) 2 2 (zn / 1609.34), ?_, ?_⟩
  · have step1 : ∀ m, storeSelf 60 100 m wa = .ok (setCell m 0 0 (za / 1609.34)) := by
      intro m; unfold storeSelf; rw [sa]; dsimp only; rw [ha]; dsimp only; rw [iA]
    have step2 : ∀ m, storeSelf 60 100 m wb = .ok (setCell m 1 1 (zb / 1609.34)) := by
      intro m; unfold storeSelf; rw [sb]; dsimp only; rw [hb]; dsimp only; rw [iB]
    have step3 : ∀ m, storeSelf 60 100 m wn = .ok (setCell m 2 2 (zn / 1609.34)) := by
      intro m; unfold storeSelf; rw [sn]; dsimp only; rw [hn]; dsimp only; rw [iN]
    have mutual_ok : ∀ (m : Nat → Nat → ℂ) (v w : TWire) (p q : String) (i j : Nat) (z : ℂ), v.phase = some p → w.phase = some q →
        (logInverse (spanOf d p q)).map (lineZ 60 100 0) = .ok z → secondaryIndex p = .ok i → secondaryIndex q = .ok j →
        storeMutual 60 100 (some d) m v w = .ok (setCell m i j (z / 1609.34)) := by
      intro m v w p q i j z hv hw hz hi hj
      unfold storeMutual
      rw [hv, hw]
      dsimp only
      rw [hz]
      dsimp only
      rw [hi, hj]
    have mAB := fun m => mutual_ok m wa wb "A" "B" 0 1 _ ha hb (by rw [sAB]; exact l1) iA iB
    have mAN := fun m => mutual_ok m wa wn "A" "N" 0 2 _ ha hn (by rw [sAN]; exact l2) iA iN
    have mBA := fun m => mutual_ok m wb wa "B" "A" 1 0 _ hb ha (by rw [sBA]; exact l1) iB iA
    have mBN := fun m => mutual_ok m wb wn "B" "N" 1 2 _ hb hn (by rw [sBN]; exact l2) iB iN
    have mNA := fun m => mutual_ok m wn wa "N" "A" 2 0 _ hn ha (by rw [sNA]; exact l2) iN iA
    have mNB := fun m => mutual_ok m wn wb "N" "B" 2 1 _ hn hb (by rw [sNB]; exact l2) iN iB
    change List.foldlM (secondaryStep 60 100 (some d)) (fun _ _ => 0)
      [((wa, 0), wa, 0), ((wa, 0), wb, 1), ((wa, 0), wn, 2), ((wb, 1), wa, 0), ((wb, 1), wb, 1), ((wb, 1), wn, 2), ((wn, 2), wa, 0),
        ((wn, 2), wb, 1), ((wn, 2), wn, 2)] = _
    simp only [List.foldlM_cons, List.foldlM_nil, secondaryStep, bind, Except.bind, pure, Except.pure, step1, step2, step3, mAB, mAN, mBA,
      mBN, mNA, mNB, if_pos, if_neg, zero_ne_one, one_ne_zero, OfNat.ofNat_ne_zero, OfNat.zero_ne_ofNat, OfNat.ofNat_ne_one,
      OfNat.one_ne_ofNat, if_true, if_false]
  · simp [setCell]

end Ditto.Gld
