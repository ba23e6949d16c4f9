import Verif.Lemmas.CymeRegWrite
import Verif.Spec.CymeCapWrite
import Verif.Props.CymeLoads
import Mathlib.Algebra.BigOperators.Group.List.Basic

/-! Lemmas about the capacitors in the CYME writer. -/
namespace Ditto.Cyme
open Ditto Glm Spec

section numbers
variable {K : Type} [Field K] [LinearOrder K]

/-! ### values -/

theorem capSection_eq (hash : Text → Text) (c : CapIn K) : capSection hash c = sectionOfCap hash c := by
  unfold capSection sectionId sectionOfCap
  dsimp only
  rw [show c.element ++ "_".toList ++ c.name = c.element ++ '_' :: c.name by rw [List.append_assoc]; rfl]
  by_cases h : (c.element ++ '_' :: c.name).length ≤ 64
  · rw [if_neg (by omega), if_pos h]
  · rw [if_pos (by omega), if_neg h]

theorem upper_letter {p : Char} (h : p = 'A' ∨ p = 'B' ∨ p = 'C') : p.toUpper = p := by
  rcases h with rfl | rfl | rfl <;> decide

theorem switched_none {l : List (Char × Option K)} (hl : ∀ p ∈ l.map (·.1), p = 'A' ∨ p = 'B' ∨ p = 'C') {c : Char} (h : c ∉ l.map (·.1)) (v : Option K) :
    l.foldl (fun v p => if p.1.toUpper = c ∧ p.2.isSome then p.2 else v) v = v := by
  induction l generalizing v with
  | nil => rfl
  | cons p l ih =>
    rw [List.map_cons, List.mem_cons, not_or] at h
    rw [List.foldl_cons, if_neg]
    · exact ih (fun q hq => hl q (List.mem_cons_of_mem _ hq)) h.2 v
    · rw [upper_letter (hl p.1 List.mem_cons_self)]
      exact fun hc => h.1 hc.1.symm

theorem switchedVarOf_eq {c : CapIn K} (hl : ∀ p ∈ capLetters c, p = 'A' ∨ p = 'B' ∨ p = 'C') (hn : (capLetters c).Nodup) (p : Char) :
    switchedVarOf p c.phases = varFor c p := by
  unfold switchedVarOf varFor
  unfold capLetters at hl hn
  generalize c.phases = l at hl hn
  induction l with
  | nil => rfl
  | cons x l ih =>
    rw [List.map_cons, List.nodup_cons] at hn
    have hl' : ∀ q ∈ l.map (·.1), q = 'A' ∨ q = 'B' ∨ q = 'C' := fun q hq => hl q (List.mem_cons_of_mem _ hq)
    have hx := upper_letter (hl x.1 List.mem_cons_self)
    rw [List.foldl_cons, List.find?_cons]
    by_cases h : x.1 = p
    · rw [decide_eq_true h]
      rw [switched_none hl' (by rw [← h]; exact hn.1)]
      cases hs : x.2 with
      | none =>
        rw [if_neg (fun hc => by cases hc.2)]
        exact hs.symm
      | some y => rw [if_pos ⟨by rw [hx]; exact h, rfl⟩]; exact hs.symm
    · rw [decide_eq_false h, if_neg (fun hc => h (by rw [← hx]; exact hc.1))]
      exact ih hl' hn.2

theorem kvarField_eq {pr : K → Text} {c : CapIn K} (hl : ∀ p ∈ capLetters c, p = 'A' ∨ p = 'B' ∨ p = 'C') (hn : (capLetters c).Nodup) (p : Char) :
    kvarField pr (switchedVarOf p c.phases) = kvarFor pr c p := by
  rw [switchedVarOf_eq hl hn]
  unfold kvarFor
  cases varFor c p <;> rfl

theorem totalVar_eq (l : List (Char × Option K)) : totalVar l = (l.filterMap (·.2)).sum := by
  unfold totalVar
  rw [List.sum_eq_foldl]

theorem oneVar_eq {c : CapIn K} (h : CapOk c) : IsOneVar c (oneVar c.phases) := by
  unfold oneVar IsOneVar
  rw [switchedVarOf_eq h.letters h.once, switchedVarOf_eq h.letters h.once, switchedVarOf_eq h.letters h.once]
  cases h3 : varFor c 'C' with
  | some x => exact Or.inl rfl
  | none =>
    refine Or.inr ⟨rfl, ?_⟩
    dsimp only
    cases h2 : varFor c 'B' with
    | some x => exact Or.inl rfl
    | none =>
      refine Or.inr ⟨rfl, ?_⟩
      dsimp only
      cases h1 : varFor c 'A' with
      | some x => rfl
      | none =>
        exfalso
        have hp := h.power
        have hnil : c.phases.filterMap (·.2) = [] := by
          rw [List.filterMap_eq_nil_iff]
          intro x hx
          have hf : c.phases.find? (fun y => y.1 = x.1) = some x := by
            have hn := h.once
            unfold capLetters at hn
            generalize c.phases = l at hx hn
            induction l with
            | nil => cases hx
            | cons y l ih =>
              rw [List.map_cons, List.nodup_cons] at hn
              rw [List.find?_cons]
              rcases List.mem_cons.mp hx with rfl | hx
              · rw [decide_eq_true rfl]
              · rw [decide_eq_false, ih hx hn.2]
                intro he
                exact hn.1 (he ▸ List.mem_map_of_mem hx)
          have hv : varFor c x.1 = x.2 := by
            unfold varFor
            rw [hf]
            rfl
          rw [← hv]
          rcases h.letters x.1 (List.mem_map_of_mem hx) with e | e | e <;> rw [e] <;> assumption
        rw [hnil] at hp
        exact lt_irrefl _ hp

/-! ### rows -/

theorem capRow_cells {pr : K → Text} {s3 : K} (hash : Text → Text) {c : CapIn K} (hl : ∀ p ∈ capLetters c, p = 'A' ∨ p = 'B' ∨ p = 'C')
    (hn : (capLetters c).Nodup) (k : Nat) : capRow pr s3 (capSection hash c) c [k] =
      joinCells (firstCells pr hash c ++ (kvFields pr s3 c ++ lastCells pr hash c (modeField c.mode) (capName k))) := by
  unfold capRow
  rw [join_commas, capSection_eq, kvarField_eq hl hn, kvarField_eq hl hn, kvarField_eq hl hn]
  have hv : ∀ o, rowValue o = orEmpty o := fun o => by cases o <;> rfl
  have ht : ∀ o : Option K, threeFields pr o = [orEmpty (o.map pr), orEmpty (o.map pr), orEmpty (o.map pr)] := fun o => by cases o <;> rfl
  rw [hv, ht, ht]
  unfold firstCells lastCells
  simp only [List.cons_append, List.nil_append, List.append_assoc, List.flatMap_cons, List.flatMap_nil]

/-- the number of the equipment depends on the line only -/
theorem capRows_eq (pr : K → Text) (s3 : K) (hash : Text → Text) : ∀ (caps : List (CapIn K)) (codes : List Text), codes.Nodup →
    ((capRows pr s3 hash codes caps).2.Nodup ∧ codes <+: (capRows pr s3 hash codes caps).2 ∧
    (∀ r ∈ caps, capObject pr s3 r ∈ (capRows pr s3 hash codes caps).2) ∧
    (∀ l ∈ (capRows pr s3 hash codes caps).2, l ∈ codes ∨ ∃ r ∈ caps, l = capObject pr s3 r) ∧
    (capRows pr s3 hash codes caps).1 =
      caps.map fun r => capRow pr s3 (capSection hash r) r [(capRows pr s3 hash codes caps).2.idxOf (capObject pr s3 r) + 1]) := by
  intro caps
  induction caps with
  | nil => intro codes hn; exact ⟨hn, List.prefix_rfl, (fun r hr => absurd hr List.not_mem_nil), (fun l hl => Or.inl hl), rfl⟩
  | cons r rs ih =>
    intro codes hn
    obtain ⟨h1, h2, h3, h4⟩ := regCode_eq hn (capObject pr s3 r)
    have hmem : ∀ l ∈ (regCode codes (capObject pr s3 r)).2, l ∈ codes ∨ l = capObject pr s3 r := by
      intro l hl
      unfold regCode at hl
      split at hl
      · rw [List.mem_append, List.mem_singleton] at hl; exact hl
      · exact Or.inl hl
    obtain ⟨i1, i2, i3, i4, i5⟩ := ih _ h1
    rw [capRows]
    dsimp only
    refine ⟨i1, h2.trans i2, ?_, ?_, ?_⟩
    · intro x hx
      rw [List.mem_cons] at hx
      rcases hx with rfl | hx
      · exact i2.subset h3
      · exact i3 x hx
    · intro l hl
      rcases i4 l hl with h | ⟨x, hx, he⟩
      · rcases hmem l h with h | h
        · exact Or.inl h
        · exact Or.inr ⟨r, List.mem_cons_self, h⟩
      · exact Or.inr ⟨x, List.mem_cons_of_mem _ hx, he⟩
    · rw [List.map_cons, h4, idxOf_prefix i2 h3, i5]

/-! ### the equipment -/

theorem dropWhile_comma {t : Text} (h0 : t ≠ []) (hc : ',' ∉ t) (u : Text) : (t ++ u).dropWhile (fun c => c = ',') = t ++ u := by
  cases t with
  | nil => exact absurd rfl h0
  | cons c t =>
    rw [List.mem_cons, not_or] at hc
    rw [List.cons_append, List.dropWhile_cons, if_neg (by simpa using Ne.symm hc.1)]

theorem strip_end {t : Text} (h0 : t ≠ []) (hc : ',' ∉ t) (u : Text) :
    ((u ++ t ++ [',']).reverse.dropWhile fun c => c = ',').reverse = u ++ t := by
  rw [List.reverse_append, show [','].reverse ++ (u ++ t).reverse = ',' :: (u ++ t).reverse from rfl, List.dropWhile_cons, if_pos (by decide), List.reverse_append,
    dropWhile_comma (by simpa using h0) (by simpa using hc), List.reverse_append, List.reverse_reverse, List.reverse_reverse]

theorem kvText_eq (pr : K → Text) (s3 : K) (c : CapIn K) (v : K) : kvText pr s3 c.phases.length v = kvFor pr s3 c v := rfl

theorem kvFor_text {pr : K → Text} {P : Text → Prop} (h : ∀ x, P (pr x)) (s3 : K) (c : CapIn K) (v : K) : P (kvFor pr s3 c v) := by
  unfold kvFor
  split_ifs <;> exact h _

theorem zeros (t : Text) : t ++ ",0,0,0".toList = t ++ withCommas ["0".toList, "0".toList, "0".toList] := rfl

theorem equipment_full {pr : K → Text} (hpr : ∀ x, ',' ∉ pr x ∧ pr x ≠ []) {s3 : K} {c : CapIn K} (hc : CapOk c) {v : K} (hv : c.voltage = some v)
    (eq : Text) : eq ++ ',' :: stripCommas (capObject pr s3 c) ++ ",0,0,0".toList = joinCells (capEquipment pr s3 eq c (oneVar c.phases) v) := by
  have hkv := kvFor_text (P := fun t => ',' ∉ t ∧ t ≠ []) hpr s3 c v
  unfold capObject kvFields stripCommas
  rw [totalVar_eq, if_pos hc.power, hv]
  dsimp only
  rw [kvText_eq, dropWhile_comma (hpr _).2 (hpr _).1]
  rw [show pr (oneVar c.phases / 1000) ++ ',' :: List.flatMap (fun t => t ++ [',']) [kvFor pr s3 c v] =
    (pr (oneVar c.phases / 1000) ++ [',']) ++ kvFor pr s3 c v ++ [','] by simp, strip_end hkv.2 hkv.1]
  unfold capEquipment
  rw [← join_commas]
  simp only [withCommas, List.flatMap_cons, List.flatMap_nil, List.append_assoc, List.cons_append, List.nil_append, List.append_nil]
  rfl

theorem equipment_unpowered {pr : K → Text} (hpr : ∀ x, ',' ∉ pr x ∧ pr x ≠ []) {s3 : K} {c : CapIn K} (hc : (c.phases.filterMap (·.2)).sum ≤ 0) {v : K}
    (hv : c.voltage = some v) (eq : Text) : eq ++ ',' :: stripCommas (capObject pr s3 c) ++ ",0,0,0".toList =
      joinCells [eq, kvFor pr s3 c v, "0".toList, "0".toList, "0".toList] := by
  have hkv := kvFor_text (P := fun t => ',' ∉ t ∧ t ≠ []) hpr s3 c v
  unfold capObject kvFields stripCommas
  rw [totalVar_eq, if_neg (not_lt.mpr hc), hv]
  dsimp only
  rw [kvText_eq, List.nil_append, List.dropWhile_cons, if_pos (by decide), List.flatMap_cons, List.flatMap_nil, List.append_nil,
    dropWhile_comma hkv.2 hkv.1]
  rw [show kvFor pr s3 c v ++ [','] = [] ++ kvFor pr s3 c v ++ [','] from rfl, strip_end hkv.2 hkv.1]
  rw [← join_commas]
  simp only [withCommas, List.flatMap_cons, List.flatMap_nil, List.append_assoc, List.cons_append, List.nil_append, List.append_nil]
  rfl

theorem capName_inj {j k : Nat} (h : capName j = capName k) : j = k := by
  unfold capName at h
  have := List.append_cancel_left h
  rw [Nat.toList_repr, Nat.toList_repr] at this
  exact Dss.digits_inj this

/-- the control is the right one, except for the current -/
theorem modeField_ok {m : Option Text} (h : ∀ t, m = some t → t.map Char.toLower ≠ "currentflow".toList) : IsMode m (modeField m) := by
  cases m with
  | none => rfl
  | some t =>
    have ht := h t rfl
    unfold IsMode modeField
    dsimp only
    have hi : (t.map Char.toLower).map Char.toLower = t.map Char.toLower := lower_idem t
    generalize t.map Char.toLower = l at ht hi
    split_ifs with h1 h2 h3 h4 h5
    · rw [h1] at hi
      exact absurd hi (by decide)
    · exact Or.inl (by rw [h2]; decide)
    · exact Or.inl (by rw [h3]; decide)
    · exact Or.inl (by rw [h4]; decide)
    · exact Or.inl (by rw [h5]; decide)
    · refine Or.inr ⟨?_, rfl⟩
      intro p hp he
      subst he
      have : ∀ p ∈ capModes, p.1 = "currentflow".toList ∨ p.1 = "voltage".toList ∨ p.1 = "activepower".toList ∨ p.1 = "reactivepower".toList ∨
          p.1 = "timescheduled".toList := by decide
      rcases this p hp with e | e | e | e | e
      · exact ht e
      · exact h2 e
      · exact h3 e
      · exact h4 e
      · exact h5 e

end numbers

end Ditto.Cyme
