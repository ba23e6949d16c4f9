import Verif.Model.SynTables
import Mathlib.Data.List.Forall2

namespace Ditto.Syn
open Ditto Glm

theorem lower_nat (c : Char) : c.toLower.toNat = if 65 ≤ c.toNat ∧ c.toNat ≤ 90 then c.toNat + 32 else c.toNat := by
  unfold Char.toLower
  split
  · rename_i hc
    have h1 : 65 ≤ c.toNat := hc.1
    have h2 : c.toNat ≤ 90 := hc.2
    rw [if_pos ⟨h1, h2⟩]
    change (c.val + 32).toNat = _
    rw [UInt32.toNat_add]
    exact Nat.mod_eq_of_lt (by have : c.val.toNat ≤ 90 := h2; show c.val.toNat + 32 < 2 ^ 32; omega)
  · rename_i hc
    rw [if_neg fun h => hc ⟨h.1, h.2⟩]

theorem upper_nat (c : Char) : c.toUpper.toNat = if 97 ≤ c.toNat ∧ c.toNat ≤ 122 then c.toNat - 32 else c.toNat := by
  unfold Char.toUpper
  split
  · rename_i hc
    have h1 : 97 ≤ c.toNat := hc.1
    have h2 : c.toNat ≤ 122 := hc.2
    rw [if_pos ⟨h1, h2⟩]
    have e : (('A'.val - 'a'.val : UInt32)).toNat = 4294967264 := rfl
    have h3 : 97 ≤ c.val.toNat := h1
    have h4 : c.val.toNat ≤ 122 := h2
    show (c.val + ('A'.val - 'a'.val)).toNat = c.val.toNat - 32
    rw [UInt32.toNat_add, e]
    omega
  · rename_i hc
    rw [if_neg fun h => hc ⟨h.1, h.2⟩]

theorem char_nat {c d : Char} (h : c.toNat = d.toNat) : c = d := Char.ext (UInt32.toNat_inj.mp h)

theorem lowerChar_idem (c : Char) : c.toLower.toLower = c.toLower := by
  apply char_nat
  rw [lower_nat c.toLower, lower_nat c]
  split <;> (try split) <;> omega

theorem upperLower (c : Char) : c.toLower.toUpper = c.toUpper := by
  apply char_nat
  rw [upper_nat, upper_nat, lower_nat]
  split <;> (try split) <;> (try split) <;> omega

theorem upper_L {c : Char} : c.toUpper = 'L' ↔ c.toLower = 'l' := by
  constructor
  · intro h
    have := congrArg Char.toNat h
    apply char_nat
    rw [upper_nat] at this
    rw [lower_nat]
    change _ = 76 at this
    change _ = 108
    split at this <;> split <;> omega
  · intro h
    have := congrArg Char.toNat h
    apply char_nat
    rw [lower_nat] at this
    rw [upper_nat]
    change _ = 108 at this
    change _ = 76
    split at this <;> split <;> omega

theorem upper_C {c : Char} : c.toUpper = 'C' ↔ c.toLower = 'c' := by
  constructor
  · intro h
    have := congrArg Char.toNat h
    apply char_nat
    rw [upper_nat] at this
    rw [lower_nat]
    change _ = 67 at this
    change _ = 99
    split at this <;> split <;> omega
  · intro h
    have := congrArg Char.toNat h
    apply char_nat
    rw [lower_nat] at this
    rw [upper_nat]
    change _ = 99 at this
    change _ = 67
    split at this <;> split <;> omega

theorem lower_idem (t : Text) : lower (lower t) = lower t := by
  unfold lower
  rw [List.map_map]
  exact List.map_congr_left fun c _ => lowerChar_idem c

theorem lower_blank_iff (c : Char) : c.toLower = ' ' ↔ c = ' ' := by
  constructor
  · intro h
    have := congrArg Char.toNat h
    apply char_nat
    rw [lower_nat] at this
    change _ = 32 at this
    change _ = 32
    split at this <;> omega
  · rintro rfl
    decide

theorem clean_lower (t : Text) : clean (lower t) = clean t := by
  unfold clean
  rw [lower_idem]

theorem find_zip {V : Type} {keys : List Text} {vals : List V} (hl : keys.length = vals.length) (hn : keys.Nodup) {i : Nat} (hi : i < keys.length) :
    find (keys.zip vals) keys[i] = some (vals[i]'(hl ▸ hi)) := by
  induction keys generalizing vals i with
  | nil => cases hi
  | cons k keys ih =>
    cases vals with
    | nil => cases hl
    | cons v vals =>
      unfold find
      cases i with
      | zero => simp
      | succ i =>
        have hn' := List.nodup_cons.mp hn
        have hi' : i < keys.length := Nat.lt_of_succ_lt_succ hi
        have hk : k ≠ keys[i] := fun e => hn'.1 (e ▸ List.getElem_mem hi')
        rw [List.zip_cons_cons, List.find?_cons_of_neg (by simpa using hk)]
        exact ih (Nat.succ.inj hl) hn'.2 hi'

theorem find_none {V : Type} {d : List (Text × V)} {k : Text} : find d k = none ↔ ∀ e ∈ d, e.1 ≠ k := by
  unfold find
  rw [Option.map_eq_none_iff, List.find?_eq_none]
  simp

theorem find_mem {V : Type} {d : List (Text × V)} {k : Text} {v : V} (h : find d k = some v) : (k, v) ∈ d := by
  unfold find at h
  obtain ⟨e, he, rfl⟩ := Option.map_eq_some_iff.mp h
  have h1 := List.find?_some he
  have h2 := List.mem_of_find?_eq_some he
  have h3 : e.1 = k := by simpa using h1
  rw [← h3]
  exact h2

theorem find_cons {V : Type} {d : List (Text × V)} {k k' : Text} {v : V} : find ((k', v) :: d) k = if k' = k then some v else find d k := by
  unfold find
  by_cases h : k' = k
  · rw [if_pos h, List.find?_cons_of_pos (by simpa using h)]; rfl
  · rw [if_neg h, List.find?_cons_of_neg (by simpa using h)]

theorem dedup_length {l : List Text} : l.length = l.dedup.length ↔ l.Nodup := by
  constructor
  · intro h
    rw [← List.dedup_eq_self]
    exact (List.dedup_sublist l).eq_of_length h.symm
  · intro h
    rw [List.dedup_eq_self.mpr h]

/-- when a dictionary can be built, and what it is -/
theorem createMapping_ok {keys values : List Text} {b : Bool} {m : List (Text × Text)} (h : createMapping keys values b = .ok m) :
    keys.length = values.length ∧ keys.Nodup ∧ m = keys.zip (if b then values.map unblank else values) := by
  unfold createMapping at h
  split at h
  · cases h
  · rename_i h1
    split at h
    · cases h
    · rename_i h2
      injection h with h
      exact ⟨not_not.mp h1, dedup_length.mp (not_not.mp h2), h.symm⟩

theorem sectionFeeders_ok {secs : List SecRow} {m : List (Text × Text)} (h : sectionFeeders secs = .ok m) :
    (secs.map (·.id)).Nodup ∧ ∀ s ∈ secs, find m s.id = some (unblank s.feeder) := by
  obtain ⟨-, h2, rfl⟩ := createMapping_ok h
  refine ⟨h2, fun s hs => ?_⟩
  obtain ⟨i, hi, rfl⟩ := List.getElem_of_mem hs
  rw [if_pos rfl]
  have := find_zip (keys := secs.map (·.id)) (vals := (secs.map (·.feeder)).map unblank) (by simp) h2 (i := i) (by simpa using hi)
  simpa using this

theorem sectionFeeders_of {secs : List SecRow} (h : (secs.map (·.id)).Nodup) : ∃ m, sectionFeeders secs = .ok m := by
  unfold sectionFeeders createMapping
  rw [if_neg (by simp), if_neg (by simpa using (dedup_length.mpr h))]
  exact ⟨_, rfl⟩

theorem sectionFeeders_keys {secs : List SecRow} {m : List (Text × Text)} (h : sectionFeeders secs = .ok m) {k : Text} (hk : ∀ s ∈ secs, s.id ≠ k) :
    find m k = none := by
  obtain ⟨-, -, rfl⟩ := createMapping_ok h
  rw [find_none]
  intro e he e1
  have : e.1 ∈ secs.map (·.id) := (List.of_mem_zip he).1
  obtain ⟨s, hs, e2⟩ := List.mem_map.mp this
  exact hk s hs (e2.trans e1)

theorem firstSection_some {secs : List SecRow} {n : Text} {s : SecRow} (h : firstSection secs n = some s) : s ∈ secs ∧ s.id = n :=
  ⟨List.mem_of_find?_eq_some h, by simpa using List.find?_some h⟩

theorem firstSection_none {secs : List SecRow} {n : Text} : firstSection secs n = none ↔ ∀ s ∈ secs, s.id ≠ n := by
  unfold firstSection
  rw [List.find?_eq_none]
  simp

theorem firstSection_of {secs : List SecRow} (hn : (secs.map (·.id)).Nodup) {s : SecRow} (hs : s ∈ secs) : firstSection secs s.id = some s := by
  cases h : firstSection secs s.id with
  | none => exact absurd rfl (firstSection_none.mp h s hs)
  | some t =>
    obtain ⟨ht, e⟩ := firstSection_some h
    rw [List.inj_on_of_nodup_map hn ht hs e]

end Ditto.Syn
