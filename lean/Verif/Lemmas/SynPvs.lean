import Verif.Spec.SynPvs
import Verif.Lemmas.SynLoads
import Verif.Lemmas.GlmCaps
import Verif.Props.SynRegs

namespace Ditto.Syn
open Ditto Glm Syn.Spec

theorem find_reverse {α : Type} {p : α → Bool} : ∀ {l : List α}, (l.Pairwise fun a b => ¬(p a = true ∧ p b = true)) → l.reverse.find? p = l.find? p
  | [], _ => rfl
  | a :: l, h => by
    obtain ⟨h1, h2⟩ := List.pairwise_cons.mp h
    rw [List.reverse_cons, List.find?_append, find_reverse h2]
    cases hp : p a with
    | true =>
      have : l.find? p = none := by
        rw [List.find?_eq_none]
        intro b hb hpb
        exact h1 b hb ⟨hp, hpb⟩
      rw [this, List.find?_cons_of_pos hp]
      simp [hp]
    | false =>
      rw [List.find?_cons_of_neg (by simp [hp])]
      simp [hp]

theorem forall_append {α β : Type} {R : α → β → Prop} : ∀ {a c : List α} {b d : List β}, List.Forall₂ R a b → List.Forall₂ R c d →
    List.Forall₂ R (a ++ c) (b ++ d)
  | _, _, _, _, .nil, h => h
  | _, _, _, _, .cons h1 h2, h => .cons h1 (forall_append h2 h)

/-- one result or none for each row -/
theorem forall_filterMap {α β γ : Type} {f : α → Option β} {R : β → γ → Prop} : ∀ {a : List α} {b : List (List γ)},
    List.Forall₂ (fun x l => (f x = none ∧ l = []) ∨ ∃ p v, f x = some p ∧ l = [v] ∧ R p v) a b → List.Forall₂ R (a.filterMap f) b.flatten
  | _, _, .nil => .nil
  | _, _, .cons h1 h2 => by
    have ih := forall_filterMap h2
    rcases h1 with ⟨h, rfl⟩ | ⟨p, v, h, rfl, hr⟩
    · rw [List.filterMap_cons_none h]
      exact ih
    · rw [List.filterMap_cons_some h]
      exact .cons hr ih

section
variable {K : Type}

theorem isSolar_lower (t : Text) : isSolar (lower t) = true ↔ Solar t := by
  unfold isSolar Solar
  rw [Bool.or_eq_true, decide_eq_true_eq, decide_eq_true_eq]
  exact Iff.rfl

theorem device_find {devs : List (GenDevRow K)} (hn : devs.Pairwise fun c d => ¬Same c.name d.name) (t : Text) :
    ((devs.map lowerGenDev).reverse.find? fun d => decide (lower t = d.name)) = (devs.find? fun d => decide (Same d.name t)).map lowerGenDev := by
  rw [find_reverse]
  · rw [List.find?_map]
    congr 1
    congr 1
    funext d
    exact decide_eq_decide.mpr ⟨fun h => h.symm, fun h => h.symm⟩
  · rw [List.pairwise_map]
    refine hn.imp fun {c d} h => ?_
    rintro ⟨h1, h2⟩
    rw [decide_eq_true_eq] at h1 h2
    exact h (h1.symm.trans h2)

theorem device_filter : ∀ {devs : List (GenDevRow K)} (_ : devs.Pairwise fun c d => ¬Same c.name d.name) (t : Text),
    ((devs.map lowerGenDev).filter fun d => decide (lower t = d.name) && decide (lower d.kind = "pv".toList)) =
      (solarDevice devs t).toList.map lowerGenDev
  | [], _, _ => rfl
  | d :: devs, hn, t => by
    obtain ⟨h1, h2⟩ := List.pairwise_cons.mp hn
    rw [List.map_cons]
    by_cases hd : Same d.name t
    · have e : lower t = (lowerGenDev d).name := hd.symm
      have hrest : (devs.map lowerGenDev).filter (fun d => decide (lower t = d.name) && decide (lower d.kind = "pv".toList)) = [] := by
        rw [List.filter_eq_nil_iff]
        intro x hx hx2
        obtain ⟨y, hy, rfl⟩ := List.mem_map.mp hx
        rw [Bool.and_eq_true, decide_eq_true_eq] at hx2
        exact h1 y hy (hd.trans hx2.1)
      unfold solarDevice
      rw [List.find?_cons_of_pos (by simpa using hd)]
      dsimp only
      have ek : lower (lowerGenDev d).kind = "pv".toList ↔ Same d.kind "pv".toList := by
        show lower (lower d.kind) = _ ↔ _
        rw [lower_idem]; exact Iff.rfl
      by_cases hk : Same d.kind "pv".toList
      · rw [List.filter_cons_of_pos (by rw [decide_eq_true e, decide_eq_true (ek.mpr hk)]; rfl), hrest, if_pos hk]
        rfl
      · rw [List.filter_cons_of_neg (by rw [decide_eq_false (fun h => hk (ek.mp h))]; simp), hrest, if_neg hk]
        rfl
    · rw [List.filter_cons_of_neg]
      · rw [device_filter h2 t]
        unfold solarDevice
        rw [List.find?_cons_of_neg (by simpa using hd)]
      · rw [Bool.and_eq_true, decide_eq_true_eq]
        exact fun h => hd h.1.symm

section
variable [Field K] [DecidableEq K]

theorem sumOf_eq (x : K × K × K) : sumOf x = three x := by
  have key : ∀ a : K, (if a ≠ 0 then a else 0) = a := fun a => by
    by_cases h : a = 0
    · rw [if_neg (by simpa using h), h]
    · rw [if_pos h]
  unfold sumOf three
  rw [key, key, key]

theorem kw_nodup (x : K × K × K) : (kwLetters x).Nodup := by
  unfold kwLetters
  split <;> split <;> split <;> decide

theorem kw_mem (x : K × K × K) (c : Char) : c ∈ kwLetters x ↔ (c = 'A' ∧ x.1 ≠ 0) ∨ (c = 'B' ∧ x.2.1 ≠ 0) ∨ (c = 'C' ∧ x.2.2 ≠ 0) := by
  unfold kwLetters
  split <;> split <;> split <;> simp_all

theorem add_nodup {q : K} {c : Char} {ps : List Char} (h : ps.Nodup) : (addLetter q c ps).Nodup := by
  unfold addLetter
  split
  · split
    · rename_i hc
      rw [List.nodup_append]
      refine ⟨h, List.nodup_singleton c, ?_⟩
      intro a ha b hb e
      rw [List.mem_singleton] at hb
      exact hc (hb ▸ e ▸ ha)
    · exact h
  · exact h

theorem add_mem {q : K} {c : Char} {ps : List Char} {x : Char} : x ∈ addLetter q c ps ↔ x ∈ ps ∨ (x = c ∧ q ≠ 0) := by
  unfold addLetter
  split
  · rename_i hq
    split
    · simp [hq]
    · rename_i hc
      have hc := not_not.mp hc
      constructor
      · exact .inl
      · rintro (h | ⟨rfl, -⟩)
        · exact h
        · exact hc
  · rename_i hq
    simp [hq]

theorem power_iff (kw kvar : K × K × K) (c : Char) : power kw kvar c ≠ (0, 0) ↔
    (c = 'A' ∧ (kw.1 ≠ 0 ∨ kvar.1 ≠ 0)) ∨ (c = 'B' ∧ (kw.2.1 ≠ 0 ∨ kvar.2.1 ≠ 0)) ∨ (c = 'C' ∧ (kw.2.2 ≠ 0 ∨ kvar.2.2 ≠ 0)) := by
  unfold power
  split
  · simp [Prod.ext_iff, imp_iff_not_or]
  · simp [Prod.ext_iff, imp_iff_not_or]
  · simp [Prod.ext_iff, imp_iff_not_or]
  · rename_i h1 h2 h3
    simp only [ne_eq, not_true_eq_false, false_iff]
    rintro (⟨h, -⟩ | ⟨h, -⟩ | ⟨h, -⟩)
    · exact h1 h
    · exact h2 h
    · exact h3 h

theorem phases_gen (kw kvar : K × K × K) : PhasesAre kw kvar (kvarLetters kvar (kwLetters kw)) := by
  refine ⟨add_nodup (add_nodup (add_nodup (kw_nodup kw))), fun c => ?_⟩
  unfold kvarLetters
  rw [add_mem, add_mem, add_mem, kw_mem, power_iff]
  tauto

theorem phases_cust {kw kvar : K × K × K} (h : ActiveOnly kw kvar) : PhasesAre kw kvar (kwLetters kw) := by
  refine ⟨kw_nodup kw, fun c => ?_⟩
  rw [kw_mem, power_iff]
  obtain ⟨h1, h2, h3⟩ := h
  tauto

theorem pvVoltage_ok {rnd : K → K} {volts : List (Text × K × List Char)} {n : Nat} {c : Text} {v : K} (h : pvVoltage rnd volts n (some c) = .ok v) :
    ∃ x, find volts c = some x ∧ v = voltageAt rnd n x.1 x.2 := by
  unfold pvVoltage at h
  dsimp only at h
  cases hx : find volts c with
  | none => rw [hx] at h; cases h
  | some x =>
    rw [hx] at h
    injection h with h
    exact ⟨x, rfl, h.symm⟩

end
end
end Ditto.Syn
