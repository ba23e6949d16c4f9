import Verif.Lemmas.CymeRegWrite

/-! C78: regulators in the CYME writer. -/
namespace Ditto.Cyme
open Ditto Glm Spec

/-- what the dictionary holds after the regulators `done` -/
def Merged (hash : Text → Text) (code : Text → Nat) (done : List RegIn) (d : List (Text × Text)) : Prop :=
  (d.map (·.1)).Nodup ∧ (∀ s, s ∈ d.map (·.1) ↔ ∃ r ∈ done, sectionOf hash r = s) ∧
    ∀ s row, getEntry s d = some row → ∀ r ∈ regsIn hash done s, RowOf s (regsIn hash done s) (regName (code (regObject r))) row

theorem rowOf_single {hash : Text → Text} {r : RegIn} (hr : RegOk hash r) (k : Nat) :
    RowOf (sectionOf hash r) [r] (regName k) (regRow (sectionOf hash r) r [k]) := by
  refine ⟨r.phases.map (·.1), ?_, fun h => ?_, ?_⟩
  · unfold lettersOf
    rw [List.flatMap_cons, List.flatMap_nil, List.append_nil]
  · simp at h
  · intro x hx
    rw [List.mem_singleton.mp hx, regRow_cells hr.once]
    rfl

theorem row_first {hash : Text → Text} {r : RegIn} (hr : RegOk hash r) (k : Nat) :
    ∃ rest, Net.splitCh ',' (regRow (sectionOf hash r) r [k]) = sectionOf hash r :: rest := by
  have hr1 : ∀ y ∈ [r], RegOk hash y := fun y hy => by rw [List.mem_singleton.mp hy]; exact hr
  have hlr : lettersOf [r] = r.phases.map (·.1) := by
    unfold lettersOf
    rw [List.flatMap_cons, List.flatMap_nil, List.append_nil]
  rw [regRow_cells hr.once, split_join (by simp [rowCells])
    (group_plain (eq := regName k) hr1 hr rfl (List.Perm.of_eq hlr.symm) (regName_plain k))]
  exact ⟨_, rfl⟩

theorem regsIn_append (hash : Text → Text) (done : List RegIn) (r : RegIn) (s : Text) :
    regsIn hash (done ++ [r]) s = if sectionOf hash r = s then regsIn hash done s ++ [r] else regsIn hash done s := by
  unfold regsIn
  rw [List.filter_append, List.filter_cons, List.filter_nil]
  by_cases h : sectionOf hash r = s
  · rw [if_pos (decide_eq_true h), if_pos h]
  · rw [if_neg (by simpa using h), if_neg h, List.append_nil]

theorem keys_set {V : Type} (k : Text) (v : V) (d : List (Text × V)) :
    (setEntry k v d).map (·.1) = if k ∈ d.map (·.1) then d.map (·.1) else d.map (·.1) ++ [k] := by
  induction d with
  | nil => rfl
  | cons p d ih =>
    rw [setEntry]
    by_cases h : p.1 = k
    · rw [if_pos h, if_pos (by simp [h])]
      simp [h]
    · rw [if_neg h, List.map_cons, List.map_cons, ih]
      by_cases hk : k ∈ d.map (·.1)
      · rw [if_pos hk, if_pos (List.mem_cons_of_mem _ hk)]
      · rw [if_neg hk, if_neg (by rw [List.mem_cons, not_or]; exact ⟨Ne.symm h, hk⟩)]
        rfl

theorem getEntry_none {V : Type} {k : Text} {d : List (Text × V)} : getEntry k d = none ↔ k ∉ d.map (·.1) := by
  rw [getEntry_find, Option.map_eq_none_iff, List.find?_eq_none]
  constructor
  · intro h hk
    obtain ⟨p, hp, hk⟩ := List.mem_map.mp hk
    exact h p hp (by simpa using hk)
  · intro h p hp hc
    exact h (List.mem_map.mpr ⟨p, hp, by simpa using hc⟩)

theorem merge_step {hash : Text → Text} {code : Text → Nat} {done : List RegIn} {r : RegIn} {d : List (Text × Text)}
    (hok : ∀ x ∈ done ++ [r], RegOk hash x) (ha : ∀ x ∈ done, sectionOf hash x = sectionOf hash r → Alike x r)
    (hn : (lettersOf (regsIn hash (done ++ [r]) (sectionOf hash r))).Nodup) (h : Merged hash code done d) :
    ∃ d', mergeStep d (regRow (sectionOf hash r) r [code (regObject r)]) = .ok d' ∧ Merged hash code (done ++ [r]) d' := by
  have hr := hok r (by simp)
  obtain ⟨rest, hrest⟩ := row_first hr (code (regObject r))
  obtain ⟨h1, h2, h3⟩ := h
  have hself : regsIn hash (done ++ [r]) (sectionOf hash r) = regsIn hash done (sectionOf hash r) ++ [r] := by
    rw [regsIn_append, if_pos rfl]
  rw [hself] at hn
  unfold mergeStep
  rw [hrest]
  dsimp only
  -- what is left to show for the new row
  suffices hnew : ∀ new, (∀ x ∈ regsIn hash done (sectionOf hash r) ++ [r],
      RowOf (sectionOf hash r) (regsIn hash done (sectionOf hash r) ++ [r]) (regName (code (regObject x))) new) →
      Merged hash code (done ++ [r]) (setEntry (sectionOf hash r) new d) by
    have halike : ∀ x ∈ regsIn hash done (sectionOf hash r), Alike x r := by
      intro x hx
      obtain ⟨hx, hs⟩ := List.mem_filter.mp hx
      exact ha x hx (by simpa using hs)
    have hcode : ∀ x ∈ regsIn hash done (sectionOf hash r) ++ [r], code (regObject x) = code (regObject r) := by
      intro x hx
      rw [List.mem_append, List.mem_singleton] at hx
      rcases hx with hx | rfl
      · rw [alike_object (halike x hx)]
      · rfl
    cases hd : getEntry (sectionOf hash r) d with
    | none =>
      dsimp only
      refine ⟨_, rfl, hnew _ ?_⟩
      have hnil : regsIn hash done (sectionOf hash r) = [] := by
        unfold regsIn
        rw [List.filter_eq_nil_iff]
        intro x hx hc
        exact getEntry_none.mp hd ((h2 _).mpr ⟨x, hx, by simpa using hc⟩)
      intro x hx
      rw [hcode x hx, hnil]
      exact rowOf_single hr _
    | some old =>
      dsimp only
      have hne : regsIn hash done (sectionOf hash r) ≠ [] := by
        intro hnil
        have hmem : sectionOf hash r ∈ d.map (·.1) := by
          by_contra hc
          rw [getEntry_none.mpr hc] at hd
          cases hd
        obtain ⟨x, hx, hs⟩ := (h2 _).mp hmem
        have : x ∈ regsIn hash done (sectionOf hash r) := List.mem_filter.mpr ⟨hx, by simpa using hs⟩
        rw [hnil] at this
        cases this
      obtain ⟨y, hy⟩ := List.exists_mem_of_ne_nil _ hne
      have ho := h3 _ _ hd y hy
      rw [alike_object (halike y hy)] at ho
      obtain ⟨new, e, hrow⟩ := merge_group
        (fun x hx => hok x (List.mem_append_left _ (List.mem_filter.mp hx).1)) hne hr rfl
        (fun x hx => by simpa using (List.mem_filter.mp hx).2) halike hn ho
      rw [e]
      dsimp only
      exact ⟨_, rfl, hnew _ fun x hx => by rw [hcode x hx]; exact hrow⟩
  intro new hrow
  refine ⟨?_, ?_, ?_⟩
  · rw [keys_set]
    split
    · exact h1
    · rename_i hk
      rw [List.nodup_append]
      refine ⟨h1, by simp, ?_⟩
      intro a ha b hb hab
      rw [List.mem_singleton] at hb
      exact hk (by rw [← hb, ← hab]; exact ha)
  · intro s
    rw [keys_set]
    have : s ∈ (if sectionOf hash r ∈ d.map (·.1) then d.map (·.1) else d.map (·.1) ++ [sectionOf hash r]) ↔
        s ∈ d.map (·.1) ∨ s = sectionOf hash r := by
      split
      · rename_i hk
        constructor
        · exact Or.inl
        · rintro (h | rfl)
          · exact h
          · exact hk
      · rw [List.mem_append, List.mem_singleton]
    rw [this, h2]
    constructor
    · rintro (⟨x, hx, hs⟩ | rfl)
      · exact ⟨x, List.mem_append_left _ hx, hs⟩
      · exact ⟨r, by simp, rfl⟩
    · rintro ⟨x, hx, hs⟩
      rw [List.mem_append, List.mem_singleton] at hx
      rcases hx with hx | rfl
      · exact Or.inl ⟨x, hx, hs⟩
      · exact Or.inr hs.symm
  · intro s row hs x hx
    rw [getEntry_setEntry] at hs
    rw [regsIn_append] at hx ⊢
    by_cases he : s = sectionOf hash r
    · rw [if_pos he] at hs
      injection hs with hs
      subst he hs
      rw [if_pos rfl] at hx ⊢
      exact hrow x hx
    · rw [if_neg he] at hs
      rw [if_neg (Ne.symm he)] at hx ⊢
      exact h3 s row hs x hx

theorem merge_all {hash : Text → Text} {code : Text → Nat} : ∀ (regs done : List RegIn) (d : List (Text × Text)),
    (∀ x ∈ done ++ regs, RegOk hash x) → (∀ a ∈ done ++ regs, ∀ b ∈ done ++ regs, sectionOf hash a = sectionOf hash b → Alike a b) →
    (∀ s, (lettersOf (regsIn hash (done ++ regs) s)).Nodup) → Merged hash code done d →
    ∃ d', mergeRegulators d (regs.map fun r => regRow (sectionOf hash r) r [code (regObject r)]) = .ok d' ∧ Merged hash code (done ++ regs) d' := by
  intro regs
  induction regs with
  | nil => intro done d _ _ _ h; exact ⟨d, rfl, by rw [List.append_nil]; exact h⟩
  | cons r rs ih =>
    intro done d hok ha hn h
    have hassoc : done ++ r :: rs = (done ++ [r]) ++ rs := by simp
    rw [hassoc] at hok ha hn ⊢
    obtain ⟨d₁, e₁, m₁⟩ := merge_step (r := r) (fun x hx => hok x (List.mem_append_left _ hx))
      (fun x hx hs => ha x (by simp [hx]) r (by simp) hs)
      (by
        have := hn (sectionOf hash r)
        unfold regsIn lettersOf at this ⊢
        rw [List.filter_append, List.flatMap_append] at this
        exact (List.nodup_append.mp this).1) h
    obtain ⟨d₂, e₂, m₂⟩ := ih (done ++ [r]) d₁ hok ha hn m₁
    refine ⟨d₂, ?_, m₂⟩
    rw [List.map_cons, mergeRegulators, e₁]
    exact e₂

theorem strip_object {r : RegIn} (h0 : r.kva ≠ []) (hc : ',' ∉ r.kva) : stripCommas (regObject r) = regObject r := by
  unfold stripCommas
  have h1 : (regObject r).dropWhile (fun c => c = ',') = regObject r := by
    unfold regObject
    cases hk : r.kva with
    | nil => exact absurd hk h0
    | cons c t =>
      rw [hk, List.mem_cons, not_or] at hc
      rw [List.cons_append, List.dropWhile_cons, if_neg (by simpa using Ne.symm hc.1)]
  have h2 : ∃ t, regObject r = t ++ ['0'] := by
    refine ⟨r.kva ++ (withCommas [formatted r.band, formatted r.ct, formatted r.pt, "0".toList, r.kvln, "10".toList, "10".toList, "32".toList] ++
      [',']), ?_⟩
    unfold regObject withCommas
    simp only [List.flatMap_cons, List.flatMap_nil, List.append_assoc, List.append_nil, List.cons_append]
    rfl
  rw [h1]
  obtain ⟨t, ht⟩ := h2
  rw [ht, List.reverse_append]
  rw [show ['0'].reverse ++ t.reverse = '0' :: t.reverse from rfl, List.dropWhile_cons, if_neg (by decide), List.reverse_cons, List.reverse_reverse]

theorem equipment_row {r : RegIn} (h0 : r.kva ≠ []) (hc : ',' ∉ r.kva) (eq : Text) :
    eq ++ ',' :: stripCommas (regObject r) = equipmentRow eq r := by
  rw [strip_object h0 hc]
  unfold regObject
  rw [join_commas]
  have hf : ∀ o, formatted o = orNone o := fun o => by cases o <;> rfl
  simp only [hf]
  rfl

/-- The written file has one row for each section with regulators. It has all their phases, the data they have in common, the compensators of
each phase, and the name of the equipment with their power, voltage, bandwidth and ratios. The names of the equipment are different. Missing
are regulators on one section whose data are not the same (`C78_different_violated`, `C78_equipment_violated`) or that share a phase
(`C78_overlap_violated`, `C78_fourth_violated`). -/
theorem C78_regulators_partial {hash : Text → Text} {regs : List RegIn} (hok : ∀ r ∈ regs, RegOk hash r)
    (halike : ∀ a ∈ regs, ∀ b ∈ regs, sectionOf hash a = sectionOf hash b → Alike a b)
    (honce : ∀ sec, (lettersOf (regsIn hash regs sec)).Nodup) :
    ∃ rows equipment secs names, writeRegulators hash regs = .ok (rows, equipment) ∧
      secs.Nodup ∧ (∀ s, s ∈ secs ↔ ∃ r ∈ regs, sectionOf hash r = s) ∧
      names.Nodup ∧ (∀ n ∈ names, ∃ k : Nat, n = "regulator_".toList ++ k.repr.toList) ∧
      List.Forall₂ (fun name row => ∃ r ∈ regs, row = equipmentRow name r) names equipment ∧
      List.Forall₂ (fun sec row => ∃ eq ∈ names, RowOf sec (regsIn hash regs sec) eq row ∧
        ∀ r ∈ regsIn hash regs sec, equipmentRow eq r ∈ equipment) secs rows := by
  obtain ⟨c1, -, c3, c4, c5⟩ := regRows_eq hash regs [] List.nodup_nil
  generalize hC : (regRows hash [] regs).2 = C at c1 c3 c4 c5
  obtain ⟨d, e, m1, m2, m3⟩ := merge_all (hash := hash) (code := fun l => C.idxOf l + 1) regs [] []
    (by rw [List.nil_append]; exact hok) (by rw [List.nil_append]; exact halike) (by rw [List.nil_append]; exact honce)
    ⟨List.nodup_nil, fun s => ⟨fun h => (by cases h), fun ⟨r, hr, _⟩ => (by cases hr)⟩, fun s row h => (by cases h)⟩
  rw [List.nil_append] at m2 m3
  have hobj : ∀ l ∈ C, ∃ r ∈ regs, l = regObject r := fun l hl => (c4 l hl).resolve_left List.not_mem_nil
  have hrows : (regRows hash [] regs).1 = regs.map fun r => regRow (sectionOf hash r) r [C.idxOf (regObject r) + 1] := by
    rw [c5]
    simp only [regSection_eq]
  have hget : ∀ (l : List (Text × Text)), (l.map (·.1)).Nodup → ∀ p ∈ l, getEntry p.1 l = some p.2 := by
    intro l
    induction l with
    | nil => intro _ p hp; cases hp
    | cons q l ih =>
      intro hn p hp
      rw [List.map_cons, List.nodup_cons] at hn
      rw [getEntry]
      rw [List.mem_cons] at hp
      rcases hp with rfl | hp
      · rw [if_pos rfl]
      · rw [if_neg, ih hn.2 p hp]
        intro h
        exact hn.1 (h ▸ List.mem_map_of_mem (f := (·.1)) hp)
  refine ⟨d.map (·.2), equipmentRows C, d.map (·.1), (C.zipIdx 1).map fun p => regName p.2, ?_, m1, m2, ?_, ?_, ?_, ?_⟩
  · unfold writeRegulators
    rw [hrows, e, hC]
  · rw [show ((C.zipIdx 1).map fun p => regName p.2) = ((C.zipIdx 1).map (·.2)).map regName by rw [List.map_map]; rfl, List.zipIdx_map_snd]
    exact List.Nodup.map (fun a b => regName_inj) List.nodup_range'
  · intro n hn
    obtain ⟨p, -, rfl⟩ := List.mem_map.mp hn
    exact ⟨p.2, rfl⟩
  · unfold equipmentRows
    rw [List.forall₂_map_left_iff, List.forall₂_map_right_iff, List.forall₂_same]
    intro p hp
    obtain ⟨hi, -, h2⟩ := List.mem_zipIdx (x := p.1) (i := p.2) hp
    obtain ⟨r, hr, hl⟩ := hobj p.1 (by rw [h2]; exact List.getElem_mem _)
    refine ⟨r, hr, ?_⟩
    rw [hl, equipment_row (hok r hr).power (hok r hr).values.2.2.2.2.1]
  · rw [List.forall₂_map_left_iff, List.forall₂_map_right_iff, List.forall₂_same]
    intro p hp
    have hg := hget d m1 p hp
    obtain ⟨r, hr, hs⟩ := (m2 p.1).mp (List.mem_map_of_mem hp)
    have hrin : r ∈ regsIn hash regs p.1 := List.mem_filter.mpr ⟨hr, by simpa using hs⟩
    refine ⟨regName (C.idxOf (regObject r) + 1), ?_, m3 p.1 p.2 hg r hrin, ?_⟩
    · refine List.mem_map.mpr ⟨(regObject r, C.idxOf (regObject r) + 1), ?_, rfl⟩
      rw [List.mk_mem_zipIdx_iff_le_and_getElem?_sub]
      refine ⟨Nat.le_add_left 1 _, ?_⟩
      rw [Nat.add_sub_cancel]
      exact List.getElem?_idxOf (c3 r hr)
    intro x hx
    obtain ⟨hx, hxs⟩ := List.mem_filter.mp hx
    have hxs : sectionOf hash x = p.1 := by simpa using hxs
    have hol : regObject x = regObject r := alike_object (halike x hx r hr (hxs.trans hs.symm))
    unfold equipmentRows
    rw [List.mem_map]
    refine ⟨(regObject r, C.idxOf (regObject r) + 1), ?_, ?_⟩
    · rw [List.mk_mem_zipIdx_iff_le_and_getElem?_sub]
      refine ⟨Nat.le_add_left 1 _, ?_⟩
      rw [Nat.add_sub_cancel]
      exact List.getElem?_idxOf (c3 r hr)
    · dsimp only
      rw [← hol, equipment_row (hok x hx).power (hok x hx).values.2.2.2.2.1]

/-! ### where it fails -/

/-- the cells of the row of one regulator -/
def cellsOf (hash : Text → Text) (r : RegIn) (k : Nat) : List Text :=
  rowCells (sectionOf hash r) (placeOf r.place).1 (placeOf r.place).2 (r.phases.map (·.1)) (orEmpty r.band) (orEmpty r.ct)
    (orEmpty r.pt) (orEmpty r.setpoint) (regName k) (valueFor (·.2.1) [r] 'A') (valueFor (·.2.1) [r] 'B') (valueFor (·.2.1) [r] 'C')
    (valueFor (·.2.2) [r] 'A') (valueFor (·.2.2) [r] 'B') (valueFor (·.2.2) [r] 'C')

theorem cellsOf_plain {hash : Text → Text} {r : RegIn} (hr : RegOk hash r) (k : Nat) : ∀ c ∈ cellsOf hash r k, ',' ∉ c := by
  have hlr : lettersOf [r] = r.phases.map (·.1) := by
    unfold lettersOf
    rw [List.flatMap_cons, List.flatMap_nil, List.append_nil]
  exact group_plain (eq := regName k) (fun y hy => by rw [List.mem_singleton.mp hy]; exact hr) hr rfl (List.Perm.of_eq hlr.symm) (regName_plain k)

/-- two regulators on one section -/
theorem write_two {hash : Text → Text} {a b : RegIn} (ha : RegOk hash a) (hb : RegOk hash b) (hs : sectionOf hash b = sectionOf hash a) :
    ∃ equipment, writeRegulators hash [a, b] =
      .ok ([joinCells (List.zipWith mergeField (cellsOf hash a 1) (cellsOf hash b (if regObject b = regObject a then 1 else 2)))], equipment) := by
  have hcode : (regRows hash [] [a, b]).1 = [regRow (sectionOf hash a) a [1],
      regRow (sectionOf hash b) b [if regObject b = regObject a then 1 else 2]] := by
    simp only [regRows, regSection_eq]
    have h1 : regCode [] (regObject a) = ([1], [regObject a]) := rfl
    rw [h1]
    dsimp only
    have h2 : (regCode [regObject a] (regObject b)).1 = [if regObject b = regObject a then 1 else 2] := by
      unfold regCode
      by_cases h : regObject b = regObject a
      · rw [if_pos h, h, matchingIds_some (List.nodup_singleton _) (List.mem_singleton.mpr rfl), List.idxOf_cons_self]
      · rw [if_neg h, matchingIds_none (fun hc => h (List.mem_singleton.mp hc))]
        rfl
    rw [h2]
  unfold writeRegulators
  rw [hcode]
  obtain ⟨ra, hra⟩ := row_first ha 1
  obtain ⟨rb, hrb⟩ := row_first hb (if regObject b = regObject a then 1 else 2)
  have e₁ : mergeStep [] (regRow (sectionOf hash a) a [1]) = .ok [(sectionOf hash a, regRow (sectionOf hash a) a [1])] := by
    unfold mergeStep
    rw [hra]
    rfl
  have e₂ : mergeStep [(sectionOf hash a, regRow (sectionOf hash a) a [1])]
      (regRow (sectionOf hash b) b [if regObject b = regObject a then 1 else 2]) =
      .ok [(sectionOf hash a, joinCells (List.zipWith mergeField (cellsOf hash a 1)
        (cellsOf hash b (if regObject b = regObject a then 1 else 2))))] := by
    unfold mergeStep
    rw [hrb]
    dsimp only
    rw [hs, getEntry, if_pos rfl]
    dsimp only
    rw [← hs, regRow_cells hb.once, hs, regRow_cells ha.once]
    have := merge_join (a := cellsOf hash a 1) (b := cellsOf hash b (if regObject b = regObject a then 1 else 2)) (by simp [cellsOf, rowCells]) rfl
      (cellsOf_plain ha 1) (cellsOf_plain hb _)
    unfold cellsOf at this ⊢
    rw [hs] at this ⊢
    rw [this]
    dsimp only
    rw [setEntry, if_pos rfl]
  rw [mergeRegulators, e₁]
  dsimp only
  rw [mergeRegulators, e₂]
  exact ⟨_, rfl⟩

theorem mergeField_lost {x y : Text} (h : x ≠ y) (hw : x ∉ phaseWords ∨ y ∉ phaseWords) (hx : x ≠ "0".toList) (hy : y ≠ "0".toList) :
    mergeField x y = [] := by
  unfold mergeField
  rw [if_neg h, if_neg (fun hc => by rcases hw with hw | hw; exact hw hc.1; exact hw hc.2), if_neg (fun hc => hx hc.1), if_neg (fun hc => hy hc.1)]

theorem not_word {t : Text} (h : ∀ c ∈ t, c ≠ 'A' ∧ c ≠ 'B' ∧ c ≠ 'C') : t ∉ phaseWords := by
  have hw : ∀ w ∈ phaseWords, 'A' ∈ w ∨ 'B' ∈ w ∨ 'C' ∈ w := by decide
  intro hc
  rcases hw t hc with h' | h' | h'
  · exact (h _ h').1 rfl
  · exact (h _ h').2.1 rfl
  · exact (h _ h').2.2 rfl

/-- If two regulators on a section have different set points, the row has none. -/
theorem C78_different_violated {hash : Text → Text} {a b : RegIn} (ha : RegOk hash a) (hb : RegOk hash b)
    (hs : sectionOf hash b = sectionOf hash a) {s t : Text} (hsa : a.setpoint = some s) (hsb : b.setpoint = some t) (hne : s ≠ t)
    (hs0 : s ≠ "0".toList) (ht0 : t ≠ "0".toList) (hsl : ∀ c ∈ s, c ≠ 'A' ∧ c ≠ 'B' ∧ c ≠ 'C') :
    ∃ cells equipment, writeRegulators hash [a, b] = .ok ([joinCells cells], equipment) ∧ cells[0]? = some (sectionOf hash a) ∧
      cells[7]? = some [] ∧ cells[8]? = some [] ∧ cells[9]? = some [] := by
  obtain ⟨eq, h⟩ := write_two ha hb hs
  have hm : mergeField (orEmpty a.setpoint) (orEmpty b.setpoint) = [] := by
    rw [hsa, hsb]
    exact mergeField_lost hne (Or.inl (not_word hsl)) hs0 ht0
  refine ⟨_, eq, h, ?_, ?_, ?_, ?_⟩
  · show some (mergeField (sectionOf hash a) (sectionOf hash b)) = _
    rw [hs, mergeField_same]
  all_goals
    show some (mergeField (orEmpty a.setpoint) (orEmpty b.setpoint)) = _
    rw [hm]

/-- If two regulators on a section need different equipment, the row has none. -/
theorem C78_equipment_violated {hash : Text → Text} {a b : RegIn} (ha : RegOk hash a) (hb : RegOk hash b)
    (hs : sectionOf hash b = sectionOf hash a) (hk : equipmentRow [] b ≠ equipmentRow [] a) :
    ∃ cells equipment, writeRegulators hash [a, b] = .ok ([joinCells cells], equipment) ∧ cells[0]? = some (sectionOf hash a) ∧
      cells[10]? = some [] := by
  obtain ⟨eq, h⟩ := write_two ha hb hs
  have hobj : regObject b ≠ regObject a := by
    intro hc
    apply hk
    rw [← equipment_row hb.power hb.values.2.2.2.2.1, ← equipment_row ha.power ha.values.2.2.2.2.1, hc]
  rw [if_neg hobj] at h
  refine ⟨_, eq, h, ?_, ?_⟩
  · show some (mergeField (sectionOf hash a) (sectionOf hash b)) = _
    rw [hs, mergeField_same]
  · show some (mergeField (regName 1) (regName 2)) = _
    congr 1

/-- If a regulator of two phases and one of a single phase share the phase, the row has the phase twice. -/
theorem C78_overlap_violated {hash : Text → Text} {a b : RegIn} (ha : RegOk hash a) (hb : RegOk hash b)
    (hs : sectionOf hash b = sectionOf hash a) {p q : Char} (hpa : a.phases.map (·.1) = [p, q]) (hpb : b.phases.map (·.1) = [p]) :
    ∃ cells equipment ph, writeRegulators hash [a, b] = .ok ([joinCells cells], equipment) ∧ cells[0]? = some (sectionOf hash a) ∧
      cells[3]? = some ph ∧ ph.Perm [p, p, q] := by
  obtain ⟨eq, h⟩ := write_two ha hb hs
  have hla : ∀ c ∈ a.phases.map (·.1), c = 'A' ∨ c = 'B' ∨ c = 'C' := fun c hc => by
    obtain ⟨x, hx, rfl⟩ := List.mem_map.mp hc
    exact ha.letters x hx
  have hlb : ∀ c ∈ b.phases.map (·.1), c = 'A' ∨ c = 'B' ∨ c = 'C' := fun c hc => by
    obtain ⟨x, hx, rfl⟩ := List.mem_map.mp hc
    exact hb.letters x hx
  have hwa := short_word ha.once hla (by rw [hpa]; simp) (by rw [hpa]; simp)
  have hwb := short_word hb.once hlb (by rw [hpb]; simp) (by rw [hpb]; simp)
  rw [hpa] at hwa
  rw [hpb] at hwb
  refine ⟨_, eq, mergeField (a.phases.map (·.1)) (b.phases.map (·.1)), h, ?_, rfl, ?_⟩
  · show some (mergeField (sectionOf hash a) (sectionOf hash b)) = _
    rw [hs, mergeField_same]
  · rw [hpa, hpb]
    unfold mergeField
    rw [if_neg (by simp), if_pos ⟨hwa, hwb⟩]
    exact (List.perm_insertionSort _ _).trans (List.Perm.cons p (List.Perm.swap p q []))

/-- If a regulator of three phases and another one share a section, the row has no phases. -/
theorem C78_fourth_violated {hash : Text → Text} {a b : RegIn} (ha : RegOk hash a) (hb : RegOk hash b)
    (hs : sectionOf hash b = sectionOf hash a) (hpa : a.phases.length = 3) (hpb : b.phases.length < 3) :
    ∃ cells equipment, writeRegulators hash [a, b] = .ok ([joinCells cells], equipment) ∧ cells[0]? = some (sectionOf hash a) ∧
      cells[3]? = some [] := by
  obtain ⟨eq, h⟩ := write_two ha hb hs
  refine ⟨_, eq, h, ?_, ?_⟩
  · show some (mergeField (sectionOf hash a) (sectionOf hash b)) = _
    rw [hs, mergeField_same]
  · show some (mergeField (a.phases.map (·.1)) (b.phases.map (·.1))) = _
    have hw : ∀ w ∈ phaseWords, w.length ≠ 3 := by decide
    congr 1
    have hlen : (a.phases.map (·.1)).length = 3 := by rw [List.length_map]; exact hpa
    refine mergeField_lost ?_ (Or.inl fun hc => hw _ hc hlen) ?_ ?_
    · intro hc
      rw [hc, List.length_map] at hlen
      omega
    · intro hc
      rw [hc] at hlen
      exact absurd hlen (by decide)
    · intro hc
      have h0 : '0' ∈ b.phases.map (·.1) := by rw [hc]; decide
      obtain ⟨x, hx, h0⟩ := List.mem_map.mp h0
      rcases hb.letters x hx with h1 | h1 | h1 <;> rw [h1] at h0 <;> exact absurd h0 (by decide)

/-! ### examples -/

/-- a regulator with one phase -/
def exampleReg (p : Char) (r : Text) : RegIn where
  start := "n1".toList
  stop := "n2".toList
  changes := false
  place := some ("1.5".toList, "2.5".toList)
  phases := [(p, r, "9.0".toList)]
  band := some "2.0".toList
  ct := some "700.0".toList
  pt := some "20.0".toList
  setpoint := some "120.0".toList
  kva := "10000.0".toList
  kvln := "7.2".toList

/-- the regulators of the example, on two sections -/
def exampleRegs : List RegIn :=
  [exampleReg 'B' "3.0".toList, { exampleReg 'A' "3.0".toList with start := "n7".toList }, exampleReg 'C' "0".toList, exampleReg 'A' "4.0".toList]

theorem exampleReg_ok {p : Char} (hp : p = 'A' ∨ p = 'B' ∨ p = 'C') {r start : Text} (hr : ',' ∉ r) (hs : ',' ∉ start) : RegOk id { exampleReg p r with start := start } where
  phases := by simp [exampleReg]
  letters := by
    intro x hx
    rw [List.mem_singleton.mp hx]
    exact hp
  once := List.nodup_singleton _
  numbers := by
    intro x hx t ht
    rw [List.mem_singleton.mp hx] at ht
    simp only [List.mem_cons, List.not_mem_nil, or_false] at ht
    rcases ht with rfl | rfl
    · exact hr
    · decide
  place := show ',' ∉ "1.5".toList ∧ ',' ∉ "2.5".toList by decide
  values := show ',' ∉ "2.0".toList ∧ ',' ∉ "700.0".toList ∧ ',' ∉ "20.0".toList ∧ ',' ∉ "120.0".toList ∧ ',' ∉ "10000.0".toList ∧
    ',' ∉ "7.2".toList by decide
  power := show "10000.0".toList ≠ [] by decide
  name := by
    unfold sectionOf
    have hc : ',' ∉ start ++ "_".toList ++ "n2".toList := by
      rw [List.mem_append, List.mem_append, not_or, not_or]
      exact ⟨⟨hs, by decide⟩, by decide⟩
    dsimp only [exampleReg]
    simp only [Bool.false_eq_true, if_false]
    split
    · exact hc
    · exact hc

theorem exampleRegs_sections : exampleRegs.map (sectionOf id) = ["n1_n2".toList, "n7_n2".toList, "n1_n2".toList, "n1_n2".toList] := by
  decide +kernel

theorem exampleRegs_ok : ∀ r ∈ exampleRegs, RegOk id r := by
  intro r hr
  unfold exampleRegs at hr
  simp only [List.mem_cons, List.not_mem_nil, or_false] at hr
  rcases hr with rfl | rfl | rfl | rfl
  · exact exampleReg_ok (p := 'B') (start := "n1".toList) (Or.inr (Or.inl rfl)) (by decide) (by decide)
  · exact exampleReg_ok (p := 'A') (start := "n7".toList) (Or.inl rfl) (by decide) (by decide)
  · exact exampleReg_ok (p := 'C') (start := "n1".toList) (Or.inr (Or.inr rfl)) (by decide) (by decide)
  · exact exampleReg_ok (p := 'A') (start := "n1".toList) (Or.inl rfl) (by decide) (by decide)

theorem exampleRegs_alike : ∀ a ∈ exampleRegs, ∀ b ∈ exampleRegs, sectionOf id a = sectionOf id b → Alike a b := by
  intro a ha b hb _
  unfold exampleRegs at ha hb
  simp only [List.mem_cons, List.not_mem_nil, or_false] at ha hb
  rcases ha with rfl | rfl | rfl | rfl <;> rcases hb with rfl | rfl | rfl | rfl <;> exact ⟨rfl, rfl, rfl, rfl, rfl, rfl, rfl⟩

theorem exampleRegs_once : ∀ sec, (lettersOf (regsIn id exampleRegs sec)).Nodup := by
  intro sec
  by_cases h1 : sec = "n1_n2".toList
  · rw [h1]; decide +kernel
  · by_cases h2 : sec = "n7_n2".toList
    · rw [h2]; decide +kernel
    · have : regsIn id exampleRegs sec = [] := by
        unfold regsIn
        rw [List.filter_eq_nil_iff]
        intro r hr hc
        have hm : sectionOf id r ∈ exampleRegs.map (sectionOf id) := List.mem_map_of_mem hr
        rw [of_decide_eq_true hc, exampleRegs_sections] at hm
        simp only [List.mem_cons, List.not_mem_nil, or_false] at hm
        rcases hm with h | h | h | h
        · exact h1 h
        · exact h2 h
        · exact h1 h
        · exact h1 h
      rw [this]
      exact List.nodup_nil

/-- three regulators on the first section, one on the second one -/
example : ∃ rows equipment secs names, writeRegulators id exampleRegs = .ok (rows, equipment) ∧
      secs.Nodup ∧ (∀ s, s ∈ secs ↔ ∃ r ∈ exampleRegs, sectionOf id r = s) ∧
      names.Nodup ∧ (∀ n ∈ names, ∃ k : Nat, n = "regulator_".toList ++ k.repr.toList) ∧
      List.Forall₂ (fun name row => ∃ r ∈ exampleRegs, row = equipmentRow name r) names equipment ∧
      List.Forall₂ (fun sec row => ∃ eq ∈ names, RowOf sec (regsIn id exampleRegs sec) eq row ∧
        ∀ r ∈ regsIn id exampleRegs sec, equipmentRow eq r ∈ equipment) secs rows :=
  C78_regulators_partial exampleRegs_ok exampleRegs_alike exampleRegs_once

/-- the rows of the example -/
example : writeRegulators id exampleRegs = .ok (
    ["n1_n2,1.5,2.5,ABC,2.0,700.0,20.0,120.0,120.0,120.0,regulator_1,n1_n2,M,10,10,T,4.0,3.0,0,9.0,9.0,9.0,0,0,0,0".toList,
      "n7_n2,1.5,2.5,A,2.0,700.0,20.0,120.0,120.0,120.0,regulator_1,n7_n2,M,10,10,T,3.0,0,0,9.0,0,0,0,0,0,0".toList],
    ["regulator_1,10000.0,2.0,700.0,20.0,0,7.2,10,10,32,0".toList]) := by
  decide +kernel

end Ditto.Cyme
