import Verif.Spec.DssSeries
import Verif.Lemmas.DssFiles

/-! Lemmas on time series in OpenDSS files. -/
namespace Ditto.Dss
open Ditto Ditto.Spec Ditto.Json

variable {K : Type} [Field K] [DecidableEq K]

theorem oneDay_iff (n : Nat) : oneDay n = true ↔ Daily n := by
  simp [oneDay, Daily, or_assoc]

section first
variable {sf ss : Bool}
omit [Field K] [DecidableEq K]

theorem first_append (l : List (PlainSeries K)) (s : PlainSeries K) : firstSeries sf ss (l ++ [s]) =
    if ∃ a ∈ firstSeries sf ss l, SameData sf ss a s then firstSeries sf ss l else firstSeries sf ss l ++ [s] := by
  unfold firstSeries
  rw [List.foldl_append]
  rfl

theorem first_mem {l : List (PlainSeries K)} : ∀ {s : PlainSeries K}, s ∈ firstSeries sf ss l → s ∈ l := by
  induction l using List.reverseRecOn with
  | nil => intro s h; exact absurd h List.not_mem_nil
  | append_singleton l t ih =>
    intro s h
    rw [first_append] at h
    split at h
    · exact List.mem_append_left _ (ih h)
    · rcases List.mem_append.1 h with h | h
      · exact List.mem_append_left _ (ih h)
      · exact List.mem_append_right _ h

theorem first_found {l : List (PlainSeries K)} : ∀ {s : PlainSeries K}, s ∈ l → ∃ a ∈ firstSeries sf ss l, SameData sf ss a s := by
  induction l using List.reverseRecOn with
  | nil => intro s h; exact absurd h List.not_mem_nil
  | append_singleton l t ih =>
    intro s h
    rw [first_append]
    rcases List.mem_append.1 h with h | h
    · obtain ⟨a, ha, hs⟩ := ih h
      split
      · exact ⟨a, ha, hs⟩
      · exact ⟨a, List.mem_append_left _ ha, hs⟩
    · rw [List.mem_singleton] at h
      subst h
      split
      · assumption
      · exact ⟨s, by simp, rfl, rfl⟩

theorem first_pairwise (l : List (PlainSeries K)) : (firstSeries sf ss l).Pairwise fun a b => ¬ SameData sf ss a b := by
  induction l using List.reverseRecOn with
  | nil => exact List.Pairwise.nil
  | append_singleton l t ih =>
    rw [first_append]
    split
    · exact ih
    · rename_i h
      rw [List.pairwise_append]
      refine ⟨ih, List.pairwise_singleton _ _, fun a ha b hb => ?_⟩
      rw [List.mem_singleton] at hb
      subst hb
      exact fun hs => h ⟨a, ha, hs⟩

end first

theorem setKey_same {α : Type} {k : String} {v : α} : ∀ {d : List (String × α)}, d.lookup k = some v → setKey k v d = d
  | [], h => by cases h
  | e :: es, h => by
    rw [List.lookup_cons] at h
    rw [setKey]
    by_cases he : k = e.1
    · rw [if_pos he.symm]
      simp only [he, BEq.rfl] at h
      cases h
      rw [he]
    · rw [if_neg (Ne.symm he)]
      have : (k == e.1) = false := by simpa using he
      rw [this] at h
      rw [setKey_same h]

theorem addGroup_same {s f : String} {subs : List (String × List String)} {fs : List String} (h : subs.lookup s = some fs) (hf : f ∈ fs) :
    addGroup s f subs = subs := by
  unfold addGroup
  rw [h]
  simp only
  unfold addTo
  rw [if_pos hf]
  exact setKey_same h

/-- what the first loop has found -/
structure SeriesInv (sf ss : Bool) (rows : String → List (List K)) (l : List (PlainSeries K)) (st : SeriesState K) : Prop where
  split : st.split = splitItems sf ss ((firstSeries sf ss l).map (seriesItem rows))
  groups : ∀ s ∈ l, ∃ d, st.datasets.lookup (groupKey (seriesGroup sf ss s)) = some d
  names : ∀ k loc name, ((st.datasets.lookup k).getD []).lookup loc = some name ↔
    ∃ s ∈ firstSeries sf ss l, groupKey (seriesGroup sf ss s) = k ∧ s.file = loc ∧ s.label = name
  formats : ∀ s ∈ firstSeries sf ss l, ∃ t ∈ firstSeries sf ss l, t.label = s.label ∧ st.formats.lookup s.label = some (oneDay (rows t.file).length)
  solve : st.solve = if firstSeries sf ss l = [] then none else some ((firstSeries sf ss l).all fun s => oneDay (rows s.file).length)
  number : (firstSeries sf ss l = [] ∧ st.number = none) ∨
    ∃ s ∈ firstSeries sf ss l, st.number = some (rows s.file).length ∧ ∀ t ∈ firstSeries sf ss l, (rows s.file).length ≤ (rows t.file).length

variable {sf ss : Bool} {rows : String → List (List K)} {read : String → Py (List (List K))} {percent : K → String}

omit [DecidableEq K] in
theorem item_group (s : PlainSeries K) : groupFor sf ss (seriesItem rows s) = seriesGroup sf ss s := rfl

omit [DecidableEq K] in
theorem texts_known {l : List (PlainSeries K)} {s : PlainSeries K} (hs : s ∈ l) :
    ((splitItems sf ss (l.map (seriesItem rows))).texts.lookup (groupKey (seriesGroup sf ss s))).isSome = true := by
  rw [split_texts, if_neg]
  · rfl
  · intro h
    have : shapeOf rows s ∈ ((l.map (seriesItem rows)).filter fun i => groupKey (groupFor sf ss i) = groupKey (seriesGroup sf ss s)).filterMap (·.out) :=
      List.mem_filterMap.2 ⟨seriesItem rows s, List.mem_filter.2 ⟨List.mem_map.2 ⟨s, hs, rfl⟩, by simp [item_group]⟩, rfl⟩
    rw [h] at this
    cases this

theorem note_lookup (g : String × String) (st : SeriesState K) (k : String) : ((noteGroup g st).datasets.lookup k).getD [] = (st.datasets.lookup k).getD [] := by
  unfold noteGroup
  simp only
  cases h : st.datasets.lookup (groupKey g) with
  | none =>
    simp only [lookup_setKey]
    split
    · rename_i hk; rw [hk, h]; rfl
    · rfl
  | some d => rfl

theorem note_groups (g : String × String) (st : SeriesState K) : ∃ d, (noteGroup g st).datasets.lookup (groupKey g) = some d := by
  unfold noteGroup
  simp only
  cases h : st.datasets.lookup (groupKey g) with
  | none => exact ⟨[], by simp only [lookup_setKey, if_true]⟩
  | some d => exact ⟨d, h⟩

theorem note_keeps (g : String × String) (st : SeriesState K) {k : String} {d : List (String × String)} (hd : st.datasets.lookup k = some d) :
    ∃ d, (noteGroup g st).datasets.lookup k = some d := by
  unfold noteGroup
  simp only
  cases h : st.datasets.lookup (groupKey g) with
  | none =>
    simp only [lookup_setKey]
    split
    · exact ⟨_, rfl⟩
    · exact ⟨d, hd⟩
  | some d' => exact ⟨d, hd⟩

theorem step_plain (remove : Bool) (st : SeriesState K) (s : PlainSeries K) : seriesStep read percent remove sf ss st s.object =
    plainSeries read remove (groupKey (seriesGroup sf ss s)) s.label s.file s.object (noteGroup (seriesGroup sf ss s) st) := by
  unfold seriesStep PlainSeries.object
  cases s.unit
  · rfl
  · simp only [if_true]; rfl

/-- a file that is there already is found -/
theorem known_first {l : List (PlainSeries K)} {st : SeriesState K} {s : PlainSeries K} (h : SeriesInv sf ss rows l st)
    {a : PlainSeries K} (ha : a ∈ firstSeries sf ss l) (hs : SameData sf ss a s) :
    (noteGroup (seriesGroup sf ss s) st).split = st.split ∧
      seriesKnown (noteGroup (seriesGroup sf ss s) st) (groupKey (seriesGroup sf ss s)) s.file = true := by
  have hsplit : (noteGroup (seriesGroup sf ss s) st).split = st.split := by
    have hm := (split_subs sf ss ((firstSeries sf ss l).map (seriesItem rows))).mem (seriesGroup sf ss s).1 (seriesGroup sf ss s).2
    obtain ⟨fs, hl, hf⟩ := hm.2 ⟨seriesItem rows a, List.mem_map.2 ⟨a, ha, rfl⟩, hs.1⟩
    rw [← h.split] at hl
    unfold noteGroup
    simp only [addGroup_same hl hf]
  refine ⟨hsplit, ?_⟩
  unfold seriesKnown
  rw [note_lookup, hsplit, h.split, ← hs.1, texts_known ha, (h.names _ _ a.label).2 ⟨a, ha, rfl, hs.2, rfl⟩]
  rfl

/-- nothing changes then -/
theorem step_known {l : List (PlainSeries K)} {st : SeriesState K} {s : PlainSeries K} (h : SeriesInv sf ss rows l st)
    {a : PlainSeries K} (ha : a ∈ firstSeries sf ss l) (hs : SameData sf ss a s) :
    ∃ st', seriesStep read percent false sf ss st s.object = .ok st' ∧ SeriesInv sf ss rows (l ++ [s]) st' := by
  have hfirst : firstSeries sf ss (l ++ [s]) = firstSeries sf ss l := by rw [first_append, if_pos ⟨a, ha, hs⟩]
  obtain ⟨hsplit, hknown⟩ := known_first h ha hs
  refine ⟨_, by rw [step_plain, plainSeries, if_pos hknown], ?_⟩
  refine ⟨by rw [hfirst]; exact hsplit.trans h.split, fun t ht => ?_, fun k loc name => ?_, ?_, ?_, ?_⟩
  · rcases List.mem_append.1 ht with ht | ht
    · obtain ⟨d, hd⟩ := h.groups t ht
      exact note_keeps _ _ hd
    · rw [List.mem_singleton.1 ht]
      exact note_groups _ _
  · rw [hfirst, ← h.names]
    exact iff_of_eq (by rw [← note_lookup (seriesGroup sf ss s) st])
  · rw [hfirst]; exact h.formats
  · rw [hfirst]; exact h.solve
  · rw [hfirst]; exact h.number

/-- a new file -/
theorem step_new {l : List (PlainSeries K)} {st : SeriesState K} {s : PlainSeries K} (h : SeriesInv sf ss rows l st)
    (hk : ∀ a ∈ l, groupKey (seriesGroup sf ss a) = groupKey (seriesGroup sf ss s) → seriesGroup sf ss a = seriesGroup sf ss s)
    (hn : ¬ ∃ a ∈ firstSeries sf ss l, SameData sf ss a s) (hr : read s.file = .ok (rows s.file)) :
    ∃ st', seriesStep read percent false sf ss st s.object = .ok st' ∧ SeriesInv sf ss rows (l ++ [s]) st' := by
  have hfirst : firstSeries sf ss (l ++ [s]) = firstSeries sf ss l ++ [s] := by rw [first_append, if_neg hn]
  have hnone : (((noteGroup (seriesGroup sf ss s) st).datasets.lookup (groupKey (seriesGroup sf ss s))).getD []).lookup s.file = none := by
    rw [note_lookup]
    cases hl : ((st.datasets.lookup (groupKey (seriesGroup sf ss s))).getD []).lookup s.file with
    | none => rfl
    | some name =>
      obtain ⟨a, ha, hka, hfa, -⟩ := (h.names _ _ _).1 hl
      exact absurd ⟨a, ha, hk a (first_mem ha) hka, hfa⟩ hn
  have hknown : seriesKnown (noteGroup (seriesGroup sf ss s) st) (groupKey (seriesGroup sf ss s)) s.file = false := by
    unfold seriesKnown
    rw [hnone]; rfl
  refine ⟨_, by rw [step_plain, plainSeries, if_neg (by rw [hknown]; decide), hr], ?_⟩
  simp only [Bool.false_eq_true, if_false]
  refine ⟨?_, fun t ht => ?_, fun k loc name => ?_, fun t ht => ?_, ?_, ?_⟩
  · rw [hfirst, List.map_append, List.map_singleton, splitItems_append, ← h.split]
    rfl
  · unfold keepShape
    simp only [lookup_setKey]
    split
    · exact ⟨_, rfl⟩
    · rename_i hne
      rcases List.mem_append.1 ht with ht | ht
      · obtain ⟨d, hd⟩ := h.groups t ht
        exact note_keeps _ _ hd
      · rw [List.mem_singleton.1 ht] at hne
        exact absurd rfl hne
  · rw [hfirst]
    unfold keepShape
    simp only [lookup_setKey]
    by_cases hkk : k = groupKey (seriesGroup sf ss s)
    · rw [if_pos hkk, Option.getD_some, lookup_setKey]
      by_cases hloc : loc = s.file
      · rw [if_pos hloc]
        constructor
        · intro he
          cases he
          exact ⟨s, by simp, hkk.symm, hloc.symm, rfl⟩
        · rintro ⟨t, ht, hkt, hft, rfl⟩
          rcases List.mem_append.1 ht with ht | ht
          · exact absurd ⟨t, ht, hk t (first_mem ht) (hkt.trans hkk), hft.trans hloc⟩ hn
          · rw [List.mem_singleton.1 ht]
      · rw [if_neg hloc]
        have hno := note_lookup (seriesGroup sf ss s) st k
        rw [hkk] at hno
        change ((((noteGroup (seriesGroup sf ss s) st).datasets.lookup (groupKey (seriesGroup sf ss s))).getD []).lookup loc = some name) ↔ _
        rw [hno, h.names]
        constructor
        · rintro ⟨t, ht, h1, h2, h3⟩
          exact ⟨t, List.mem_append_left _ ht, h1.trans hkk.symm, h2, h3⟩
        · rintro ⟨t, ht, h1, h2, h3⟩
          rcases List.mem_append.1 ht with ht | ht
          · exact ⟨t, ht, h1.trans hkk, h2, h3⟩
          · rw [List.mem_singleton.1 ht] at h2
            exact absurd h2.symm hloc
    · rw [if_neg hkk]
      have hno := note_lookup (seriesGroup sf ss s) st k
      change (((noteGroup (seriesGroup sf ss s) st).datasets.lookup k).getD []).lookup loc = some name ↔ _
      rw [hno, h.names]
      constructor
      · rintro ⟨t, ht, h1⟩
        exact ⟨t, List.mem_append_left _ ht, h1⟩
      · rintro ⟨t, ht, h1, h2, h3⟩
        rcases List.mem_append.1 ht with ht | ht
        · exact ⟨t, ht, h1, h2, h3⟩
        · rw [List.mem_singleton.1 ht] at h1
          exact absurd h1.symm hkk
  · rw [hfirst] at ht ⊢
    have hfm : (keepShape (notePoints { noteGroup (seriesGroup sf ss s) st with bound := true } s.label (rows s.file).length)
      (groupKey (seriesGroup sf ss s)) s.file ⟨s.label, (rows s.file).length, s.object.interval.getD 1, s.file, s.object.kvar.getD ""⟩).formats =
      setKey s.label (oneDay (rows s.file).length) st.formats := rfl
    rw [hfm, lookup_setKey]
    by_cases hl : t.label = s.label
    · rw [if_pos hl]
      exact ⟨s, by simp, hl.symm, rfl⟩
    · rw [if_neg hl]
      rcases List.mem_append.1 ht with ht | ht
      · obtain ⟨u, hu, h1, h2⟩ := h.formats t ht
        exact ⟨u, List.mem_append_left _ hu, h1, h2⟩
      · rw [List.mem_singleton.1 ht] at hl
        exact absurd rfl hl
  · rw [hfirst, if_neg (by simp)]
    change solveOf st.solve (rows s.file).length = _
    rw [h.solve, List.all_append]
    unfold solveOf
    by_cases he : firstSeries sf ss l = []
    · rw [if_pos he, he]
      cases hd : oneDay (rows s.file).length <;> simp [hd]
    · rw [if_neg he]
      cases hd : oneDay (rows s.file).length <;> simp [hd]
  · rw [hfirst]
    right
    change ∃ s' ∈ _, some (lessOf st.number (rows s.file).length) = _ ∧ _
    rcases h.number with ⟨he, hnum⟩ | ⟨a, ha, hnum, hle⟩
    · rw [he, hnum]
      exact ⟨s, by simp, rfl, fun t ht => by simp at ht; rw [ht]⟩
    · rw [hnum]
      by_cases hlt : (rows a.file).length ≤ (rows s.file).length
      · refine ⟨a, List.mem_append_left _ ha, by simp [lessOf, hlt], fun t ht => ?_⟩
        rcases List.mem_append.1 ht with ht | ht
        · exact hle t ht
        · rw [List.mem_singleton.1 ht]; exact hlt
      · have hlt' : (rows s.file).length ≤ (rows a.file).length := by omega
        refine ⟨s, by simp, by simp [lessOf, hlt'], fun t ht => ?_⟩
        rcases List.mem_append.1 ht with ht | ht
        · exact le_trans hlt' (hle t ht)
        · rw [List.mem_singleton.1 ht]

/-- the first loop -/
theorem seriesLoop_ok : ∀ (l : List (PlainSeries K)),
    (∀ a ∈ l, ∀ b ∈ l, groupKey (seriesGroup sf ss a) = groupKey (seriesGroup sf ss b) → seriesGroup sf ss a = seriesGroup sf ss b) →
    (∀ s ∈ l, read s.file = .ok (rows s.file)) →
    ∃ st, seriesLoop read percent false sf ss (l.map PlainSeries.object) = .ok st ∧ SeriesInv sf ss rows l st := by
  intro l
  induction l using List.reverseRecOn with
  | nil =>
    intro _ _
    refine ⟨{}, rfl, rfl, fun s hs => absurd hs List.not_mem_nil, fun k loc name => ?_, fun s hs => absurd hs List.not_mem_nil, rfl, .inl ⟨rfl, rfl⟩⟩
    constructor
    · intro h; simp at h
    · rintro ⟨s, hs, -⟩; exact absurd hs List.not_mem_nil
  | append_singleton l s ih =>
    intro hk hr
    obtain ⟨st, hst, hinv⟩ := ih (fun a ha b hb => hk a (List.mem_append_left _ ha) b (List.mem_append_left _ hb)) fun t ht => hr t (List.mem_append_left _ ht)
    have hstep : ∃ st', seriesStep read percent false sf ss st s.object = .ok st' ∧ SeriesInv sf ss rows (l ++ [s]) st' := by
      by_cases hn : ∃ a ∈ firstSeries sf ss l, SameData sf ss a s
      · obtain ⟨a, ha, hs⟩ := hn
        exact step_known hinv ha hs
      · exact step_new hinv (fun a ha => hk a (List.mem_append_left _ ha) s (by simp)) hn (hr s (by simp))
    obtain ⟨st', h', hinv'⟩ := hstep
    refine ⟨st', ?_, hinv'⟩
    unfold seriesLoop at hst ⊢
    rw [List.map_append, List.foldlM_append, hst]
    change (seriesStep read percent false sf ss st s.object >>= pure) = _
    rw [h']
    rfl

end Ditto.Dss
