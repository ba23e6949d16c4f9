import Verif.Spec.DssSource
import Verif.Props.DssNodes
import Mathlib.Tactic.FieldSimp
import Mathlib.Algebra.Field.Rat

/-! C65: the power source and the feeders in OpenDSS files. -/
namespace Ditto.Dss
open Ditto Ditto.Spec

/-! ### Writer -/

/-- The master file has the values of every source of the model, in the order of the model; a source without name raises `TypeError`. -/
theorem C65_written {K : Type} [Field K] (ss : List (DSource K)) :
    ((∃ s ∈ ss, s.isSource = true ∧ s.name = none) → masterSources ss = .error .typeError) ∧
    ((∀ s ∈ ss, s.isSource = true → s.name ≠ none) → ∃ ts, masterSources ss = .ok ts ∧
      List.Forall₂ (fun s t => sourceText s = .ok t) (ss.filter (·.isSource)) ts) := by
  induction ss with
  | nil =>
    refine ⟨?_, fun _ => ⟨[], rfl, List.Forall₂.nil⟩⟩
    rintro ⟨s, hs, -⟩
    exact absurd hs List.not_mem_nil
  | cons s ss ih =>
    cases hsrc : s.isSource with
    | false =>
      rw [masterSources, hsrc, if_neg (by simp), List.filter_cons_of_neg (by simp [hsrc])]
      refine ⟨?_, fun h => ih.2 fun s' hs' => h s' (List.mem_cons_of_mem _ hs')⟩
      rintro ⟨s', hs', h1, h2⟩
      rcases List.mem_cons.1 hs' with rfl | hs'
      · rw [hsrc] at h1; exact absurd h1 (by simp)
      · exact ih.1 ⟨s', hs', h1, h2⟩
    | true =>
      rw [masterSources, hsrc, if_pos rfl, List.filter_cons_of_pos (by simp [hsrc])]
      cases hn : s.name with
      | none =>
        have : sourceText s = .error .typeError := by unfold sourceText; rw [hn]
        rw [this]
        exact ⟨fun _ => rfl, fun h => absurd hn (h s List.mem_cons_self hsrc)⟩
      | some n =>
        obtain ⟨t, ht⟩ : ∃ t, sourceText s = .ok t := by unfold sourceText; rw [hn]; exact ⟨_, rfl⟩
        rw [ht]
        constructor
        · rintro ⟨s', hs', h1, h2⟩
          rcases List.mem_cons.1 hs' with rfl | hs'
          · rw [hn] at h2; exact absurd h2 (by simp)
          · rw [ih.1 ⟨s', hs', h1, h2⟩]
        · intro h
          obtain ⟨ts, h1, h2⟩ := ih.2 fun s' hs' => h s' (List.mem_cons_of_mem _ hs')
          rw [h1]
          exact ⟨_, rfl, List.Forall₂.cons ht h2⟩

/-- Angle, rated power, emergency power and phases of a source are not in the files. -/
theorem C65_lost_violated {K : Type} [Field K] (ss : List (DSource K)) :
    masterSources ss = masterSources (ss.map fun s => { s with angle := none, rated := none, emergency := none, phases := [] }) := by
  induction ss with
  | nil => rfl
  | cons s ss ih =>
    rw [List.map_cons, masterSources, masterSources, ← ih]
    rfl

/-- Nor is the name of a source with a known bus. -/
theorem C65_name_violated {K : Type} [Field K] (s : DSource K) (b n n' : String) (hb : s.bus = some b) :
    sourceText { s with name := some n } = sourceText { s with name := some n' } := by
  unfold sourceText
  simp [hb]

theorem hasSrc_append : ∀ (a b : List Char), hasSrc (a ++ (['_', 's', 'r', 'c'] ++ b)) = true := by
  intro a b
  induction a with
  | nil => simp [hasSrc, List.isPrefixOf]
  | cons c a ih => rw [List.cons_append, hasSrc, ih]; simp

/-- The bus of a source without known bus is taken from its name, without the ending "_src" that the reader adds. -/
theorem C65_fallback {K : Type} [Field K] (s : DSource K) (b : String) (hb : s.bus = none) (hn : s.name = some (b ++ "_src")) :
    ∃ t, sourceText s = .ok t ∧ t.bus = cleanName b := by
  have hl : (b ++ "_src").toList = b.toList ++ (['_', 's', 'r', 'c'] ++ []) := by rw [String.toList_append]; rfl
  refine ⟨_, by unfold sourceText; rw [hn], ?_⟩
  simp only [hb, Option.getD_none]
  unfold sourceName
  rw [hl, if_pos (hasSrc_append _ _)]
  congr 1
  have : (b.toList ++ (['_', 's', 'r', 'c'] ++ [])).length - 4 = b.toList.length := by simp
  rw [this, List.take_left, String.ofList_toList]

/-- With "_src" elsewhere in the name, its last four characters are lost. -/
theorem C65_fallback_violated {K : Type} [Field K] (s : DSource K) (a b : String) (hb : s.bus = none) (h4 : b.toList.length = 4)
    (hn : s.name = some (a ++ "_src" ++ b)) : ∃ t, sourceText s = .ok t ∧ t.bus = cleanName (a ++ "_src") := by
  have hl : (a ++ "_src" ++ b).toList = a.toList ++ (['_', 's', 'r', 'c'] ++ b.toList) := by
    rw [String.toList_append, String.toList_append, List.append_assoc]; rfl
  refine ⟨_, by unfold sourceText; rw [hn], ?_⟩
  simp only [hb, Option.getD_none]
  unfold sourceName
  rw [hl, if_pos (hasSrc_append _ _)]
  congr 1
  have : (a.toList ++ (['_', 's', 'r', 'c'] ++ b.toList)).length - 4 = (a.toList ++ ['_', 's', 'r', 'c']).length := by simp [h4]
  have hs : (a ++ "_src").toList = a.toList ++ ['_', 's', 'r', 'c'] := by rw [String.toList_append]; rfl
  rw [this, ← List.append_assoc, List.take_left, ← hs, String.ofList_toList]

/-! ### Reader -/

theorem lastCoords_eq (flt : List Char → Option ℚ) (d : Char) (file : Option (List (List Char))) :
    lastCoords flt d file = ((lastOfFile flt d file).map (·.2)).getD (.none, .none) := by
  cases file with
  | none => rfl
  | some ls =>
    show (ls.filterMap (readCoord flt d)).foldl (fun _ c => c.2) (.none, .none) = (((ls.filterMap (readCoord flt d)).getLast?).map (·.2)).getD (.none, .none)
    generalize ls.filterMap (readCoord flt d) = cs
    induction cs using List.reverseRecOn with
    | nil => rfl
    | append_singleton cs c ih => simp

theorem loop_ok {K : Type} [Field K] {c : Coord × Coord} {pos : Option ℚ × Option ℚ} (hc : sourcePosition c = .ok pos) : ∀ (ss : List (SourceData K))
    (st : List (RSource K) × List (Meta K) × String), readSourcesLoop c ss st = .ok
      (st.1 ++ (ss.filter (·.enabled)).map (readSource pos), st.2.1 ++ ((ss.filter (·.enabled)).map (readSource pos)).filterMap sourceMeta,
        ((((ss.filter (·.enabled)).map (readSource pos)).filterMap sourceMeta).getLast?.map (·.name)).getD st.2.2) := by
  intro ss
  induction ss with
  | nil => intro st; simp [readSourcesLoop]
  | cons s ss ih =>
    intro st
    rw [readSourcesLoop]
    cases hen : s.enabled with
    | false =>
      rw [if_neg (by simp), List.filter_cons_of_neg (by simp [hen])]
      exact ih st
    | true =>
      rw [if_pos rfl, List.filter_cons_of_pos (by simp [hen]), hc]
      simp only [List.map_cons]
      cases hm : sourceMeta (readSource pos s) with
      | none =>
        rw [List.filterMap_cons_none hm]
        simp only
        rw [ih]
        simp
      | some m =>
        rw [List.filterMap_cons_some hm]
        simp only
        rw [ih]
        simp only [List.append_assoc, List.singleton_append, Except.ok.injEq, Prod.mk.injEq, true_and]
        cases hl : (((ss.filter (·.enabled)).map (readSource pos)).filterMap sourceMeta).getLast? with
        | none =>
          rw [List.getLast?_eq_none_iff] at hl
          simp [hl]
        | some m' =>
          rw [List.getLast?_cons, hl]
          simp

theorem loop_error {K : Type} [Field K] {c : Coord × Coord} {e : PyErr} (hc : sourcePosition c = .error e) : ∀ (ss : List (SourceData K))
    (st : List (RSource K) × List (Meta K) × String), (∃ s ∈ ss, s.enabled = true) → readSourcesLoop c ss st = .error e := by
  intro ss
  induction ss with
  | nil => rintro st ⟨s, hs, -⟩; exact absurd hs List.not_mem_nil
  | cons s ss ih =>
    rintro st ⟨s', hs', he⟩
    rw [readSourcesLoop]
    cases hen : s.enabled with
    | true => rw [if_pos rfl, hc]
    | false =>
      rw [if_neg (by simp)]
      refine ih st ?_
      rcases List.mem_cons.1 hs' with rfl | hs'
      · rw [hen] at he; exact absurd he (by simp)
      · exact ⟨s', hs', he⟩

/-- What is read: each enabled source gives a source with its values, at the position of the last line of the file, and a feeder headed by its
bus; the feeder of all other objects is the one of the last source with a bus. -/
theorem C65_read {K : Type} [Field K] (flt : List Char → Option ℚ) (d : Char) (file : Option (List (List Char))) (ss : List (SourceData K))
    (x y : Option ℚ) (hx : coordValue (lastCoords flt d file).1 = some x) (hy : coordValue (lastCoords flt d file).2 = some y) :
    ∃ rs ms feeder, readSources flt d file ss = .ok (rs, ms, feeder) ∧
      List.Forall₂ (fun (s : SourceData K) (r : RSource K) => r.name = s.name ∧ r.isSource = true ∧ r.bus = s.bus.map (·.1) ∧
        r.volt = s.basekv.map (· * 1000) ∧ (∀ v, s.pu = some v → r.pu = v) ∧ (∀ v, s.angle = some v → r.angle = v) ∧
        r.rated = s.baseMVA.map (· * 1000000) ∧ r.emergency = s.mvasc3.map (· * 1000000) ∧ r.phases = [some "A", some "B", some "C"] ∧
        r.position = (x, y)) (ss.filter (·.enabled)) rs ∧
      ms = rs.filterMap (fun r => r.bus.map fun b => { name := b ++ "_src", headnode := some b, substation := some b, volt := r.volt }) ∧
      ((∃ b, (rs.filterMap (·.bus)).getLast? = some b ∧ feeder = b ++ "_src") ∨ (rs.filterMap (·.bus) = [] ∧ feeder = "Sourcebus")) := by
  have hc : sourcePosition (lastCoords flt d file) = .ok (x, y) := by unfold sourcePosition; rw [hx, hy]
  refine ⟨_, _, _, loop_ok hc ss _, ?_, rfl, ?_⟩
  · rw [List.nil_append, List.forall₂_map_right_iff, List.forall₂_same]
    intro s _
    refine ⟨rfl, rfl, rfl, rfl, fun v hv => ?_, fun v hv => ?_, rfl, rfl, rfl, rfl⟩
    · simp [readSource, hv]
    · simp [readSource, hv]
  · simp only [List.nil_append]
    generalize (ss.filter (·.enabled)).map (readSource (x, y)) = rs
    have hm : (rs.filterMap sourceMeta).map (·.name) = (rs.filterMap (·.bus)).map (· ++ "_src") := by
      rw [List.map_filterMap, List.map_filterMap]
      refine List.filterMap_congr fun r _ => ?_
      unfold sourceMeta
      cases r.bus <;> rfl
    rw [← List.getLast?_map, hm, List.getLast?_map]
    cases hl : (rs.filterMap (·.bus)).getLast? with
    | none =>
      rw [List.getLast?_eq_none_iff] at hl
      exact Or.inr ⟨hl, rfl⟩
    | some b => exact Or.inl ⟨b, rfl, rfl⟩

/-- The source of a model that is written and read keeps bus, voltage, per unit value and impedances. Missing: the rest, see below. -/
theorem C65_source_partial {K : Type} [Field K] [CharZero K] (flt : List Char → Option ℚ) (dl : Char) (file : Option (List (List Char))) (ss : List (DSource K)) (s : DSource K)
    (hone : ss.filter (·.isSource) = [s]) (hname : s.name ≠ none) (b : String) (hb : s.bus = some b) (pos : Option ℚ × Option ℚ)
    (hx : coordValue (lastCoords flt dl file).1 = some pos.1) (hy : coordValue (lastCoords flt dl file).2 = some pos.2) :
    ∃ t, masterSources ss = .ok [t] ∧ ∀ d, ReportsSource t d → ∃ r m, readSources flt dl file [d] = .ok ([r], [m], cleanName b ++ "_src") ∧
      r.bus = some (cleanName b) ∧ (∀ v, s.volt = some v → r.volt = some v ∧ m.volt = some v) ∧ (∀ v, s.pu = some v → r.pu = v) ∧
      (∀ z, s.z1 = some z → r.z1 = some z) ∧ (∀ z, s.z0 = some z → r.z0 = some z) ∧
      m.name = cleanName b ++ "_src" ∧ m.headnode = some (cleanName b) ∧ m.substation = some (cleanName b) := by
  obtain ⟨ts, hts, hf⟩ := (C65_written ss).2 fun s' hs' hsrc => by
    have : s' ∈ ss.filter (·.isSource) := List.mem_filter.2 ⟨hs', by simpa using hsrc⟩
    rw [hone, List.mem_singleton] at this
    rw [this]; exact hname
  rw [hone] at hf
  obtain ⟨t, ts', ht, hnil, rfl⟩ := List.forall₂_cons_left_iff.1 hf
  rw [List.forall₂_nil_left_iff.1 hnil] at hts
  refine ⟨t, hts, fun d hd => ?_⟩
  obtain ⟨n, hn⟩ := Option.ne_none_iff_exists'.1 hname
  unfold sourceText at ht
  rw [hn] at ht
  simp only [Except.ok.injEq] at ht
  have hc : sourcePosition (lastCoords flt dl file) = .ok pos := by unfold sourcePosition; rw [hx, hy]
  obtain ⟨ref, href, hrb⟩ := hd.bus
  have hrb : ref.1 = cleanName b := by rw [hrb, ← ht, hb]; rfl
  have hmeta : sourceMeta (readSource pos d) = some
      { name := cleanName b ++ "_src", headnode := some (cleanName b), substation := some (cleanName b), volt := (readSource pos d).volt } := by
    unfold sourceMeta
    have : (readSource pos d).bus = some (cleanName b) := by simp [readSource, href, hrb]
    rw [this]
    rfl
  have hvolt : ∀ v, s.volt = some v → (readSource pos d).volt = some v := by
    intro v hv
    have := hd.kV (v / 1000) (by rw [← ht, hv]; rfl)
    unfold readSource
    rw [this]
    simp
  have hz : ∀ (l : Option (List (Option K))) (r x : Option K) (z : K × K), (l = some [some z.1, some z.2] ∨ (l = none ∧ r = some z.1 ∧ x = some z.2)) →
      readSrcImpedance l r x = some z := by
    rintro l r x z (rfl | ⟨rfl, rfl, rfl⟩) <;> rfl
  refine ⟨readSource pos d, { name := cleanName b ++ "_src", headnode := some (cleanName b), substation := some (cleanName b), volt := (readSource pos d).volt },
    ?_, by simp [readSource, href, hrb], fun v hv => ⟨hvolt v hv, hvolt v hv⟩, fun v hv => ?_,
    fun z hz1 => hz _ _ _ z (hd.z1 z (by rw [← ht]; exact hz1)), fun z hz0 => hz _ _ _ z (hd.z0 z (by rw [← ht]; exact hz0)), rfl, rfl, rfl⟩
  · unfold readSources
    rw [loop_ok hc]
    simp only [List.filter_cons_of_pos hd.enabled, List.filter_nil, List.map_cons, List.map_nil, List.filterMap_cons_some hmeta, List.filterMap_nil,
      List.nil_append, List.getLast?_singleton, Option.map_some, Option.getD_some]
  · have := hd.pu v (by rw [← ht]; exact hv)
    simp [readSource, this]

/-- The position of a source is the one of the last bus of the file, not the one of its own bus. -/
theorem C65_position_violated {K : Type} [Field K] (flt : List Char → Option ℚ) (d : Char) (file : Option (List (List Char))) (ss : List (SourceData K))
    (rs : List (RSource K)) (ms : List (Meta K)) (feeder : String) (h : readSources flt d file ss = .ok (rs, ms, feeder)) (b : Option String) (x y : ℚ)
    (hlast : lastOfFile flt d file = some (b, .num x, .num y)) : ∀ r ∈ rs, r.position = (some x, some y) := by
  have hl : lastCoords flt d file = (.num x, .num y) := by rw [lastCoords_eq, hlast]; rfl
  have hc : sourcePosition (lastCoords flt d file) = .ok (some x, some y) := by rw [hl]; rfl
  unfold readSources at h
  rw [loop_ok hc] at h
  simp only [Except.ok.injEq, Prod.mk.injEq, List.nil_append] at h
  intro r hr
  rw [← h.1] at hr
  obtain ⟨s, -, rfl⟩ := List.mem_map.1 hr
  rfl

/-- If the last line of the file has a coordinate that is no number, no network with an enabled source can be read. -/
theorem C65_text_violated {K : Type} [Field K] (flt : List Char → Option ℚ) (d : Char) (file : Option (List (List Char))) (ss : List (SourceData K))
    (hs : ∃ s ∈ ss, s.enabled = true) (b : Option String) (x : Coord) (t : List Char) (hlast : lastOfFile flt d file = some (b, x, .text t)) :
    readSources flt d file ss = .error .traitError := by
  have hl : lastCoords flt d file = (x, .text t) := by rw [lastCoords_eq, hlast]; rfl
  have hc : sourcePosition (lastCoords flt d file) = .error .traitError := by
    rw [hl]
    unfold sourcePosition
    cases x <;> rfl
  exact loop_error hc ss _ hs

/-! ### Feeders -/

theorem addFeeder_none {d : List (String × List String × String × String)} {x : List Char × List Char × List Char × List Char}
    (h : d.lookup (String.ofList x.2.2.1) = none) :
    addFeeder d x = d ++ [(String.ofList x.2.2.1, [undot x.1], undot x.2.1, undot x.2.1)] := by
  unfold addFeeder; rw [h]

theorem addFeeder_some {d : List (String × List String × String × String)} {x : List Char × List Char × List Char × List Char}
    {e : List String × String × String} (h : d.lookup (String.ofList x.2.2.1) = some e) :
    addFeeder d x = Json.setKey (String.ofList x.2.2.1) (e.1 ++ [undot x.1], e.2) d := by
  unfold addFeeder; rw [h]

theorem feeders_fold (xs : List (List Char × List Char × List Char × List Char)) :
    (((xs.foldl addFeeder []).map (·.1)).Nodup) ∧ ∀ f, (xs.foldl addFeeder []).lookup f =
      (xs.find? fun x => decide (String.ofList x.2.2.1 = f)).map fun x =>
        ((xs.filter fun y => decide (String.ofList y.2.2.1 = f)).map (fun y => undot y.1), undot x.2.1, undot x.2.1) := by
  induction xs using List.reverseRecOn with
  | nil => exact ⟨List.nodup_nil, fun f => rfl⟩
  | append_singleton xs x ih =>
    obtain ⟨h1, h2⟩ := ih
    rw [List.foldl_append, List.foldl_cons, List.foldl_nil]
    cases hl : (xs.foldl addFeeder []).lookup (String.ofList x.2.2.1) with
    | none =>
      rw [addFeeder_none hl]
      have hnone := h2 (String.ofList x.2.2.1)
      rw [hl] at hnone
      have hno : xs.find? (fun y => decide (String.ofList y.2.2.1 = String.ofList x.2.2.1)) = none := by
        cases hf : xs.find? (fun y => decide (String.ofList y.2.2.1 = String.ofList x.2.2.1)) with
        | none => rfl
        | some y => rw [hf] at hnone; exact absurd hnone (by simp)
      refine ⟨?_, fun f => ?_⟩
      · simp only [List.map_append, List.map_cons, List.map_nil]
        refine List.nodup_append.2 ⟨h1, List.nodup_singleton _, fun a ha b hb => ?_⟩
        rw [List.mem_singleton] at hb
        subst hb
        rintro rfl
        obtain ⟨e, he, hee⟩ := List.mem_map.1 ha
        have := Json.lookup_mem h1 (k := e.1) (v := e.2) he
        rw [hee, hl] at this
        exact absurd this (by simp)
      · rw [List.find?_append, List.filter_append, List.lookup_append]
        by_cases hf : String.ofList x.2.2.1 = f
        · subst hf
          rw [hl, hno]
          have : xs.filter (fun y => decide (String.ofList y.2.2.1 = String.ofList x.2.2.1)) = [] := by
            rw [List.filter_eq_nil_iff]
            exact List.find?_eq_none.1 hno
          simp [this]
        · rw [h2 f]
          cases xs.find? (fun y => decide (String.ofList y.2.2.1 = f)) <;> simp [hf, Ne.symm hf]
    | some e =>
      rw [addFeeder_some hl]
      refine ⟨Json.setKey_nodup _ _ h1, fun f => ?_⟩
      rw [Json.lookup_setKey, List.find?_append, List.filter_append]
      have he := h2 (String.ofList x.2.2.1)
      rw [hl] at he
      obtain ⟨y, hy, hye⟩ := Option.map_eq_some_iff.1 he.symm
      by_cases hf : f = String.ofList x.2.2.1
      · subst hf
        rw [if_pos rfl, hy]
        simp [← hye]
      · rw [if_neg hf, h2 f]
        have : ¬ String.ofList x.2.2.1 = f := fun h => hf h.symm
        cases xs.find? (fun y => decide (String.ofList y.2.2.1 = f)) <;> simp [this]

/-- The feeders of the feeder file: each name of the third column once, with the substation of its first line. -/
theorem C65_feeders {K : Type} (file : List (List Char)) (ms : List (Meta K)) (h : readFeeders file = .ok ms) :
    ∃ xs, (file.drop 1).mapM feederFields = .ok xs ∧ (ms.map (·.name)).Nodup ∧ (∀ f, (∃ m ∈ ms, m.name = f) ↔ ∃ x ∈ xs, String.ofList x.2.2.1 = f) ∧
      ∀ m ∈ ms, ∃ x, xs.find? (fun x => decide (String.ofList x.2.2.1 = m.name)) = some x ∧ m.substation = some (undot x.2.1) := by
  unfold readFeeders at h
  cases hx : (file.drop 1).mapM feederFields with
  | error e => rw [hx] at h; exact absurd h (by simp)
  | ok xs =>
    rw [hx] at h
    simp only [Except.ok.injEq] at h
    subst h
    obtain ⟨h1, h2⟩ := feeders_fold xs
    have hfind : ∀ f, (∃ m ∈ (xs.foldl addFeeder []), m.1 = f) → (xs.find? fun x => decide (String.ofList x.2.2.1 = f)).isSome = true := by
      rintro f ⟨m, hm, rfl⟩
      have := Json.lookup_mem h1 (k := m.1) (v := m.2) hm
      rw [h2] at this
      obtain ⟨y, hy, -⟩ := Option.map_eq_some_iff.1 this
      rw [hy]; rfl
    refine ⟨xs, rfl, by rw [List.map_map]; exact h1, fun f => ⟨?_, ?_⟩, ?_⟩
    · rintro ⟨m, hm, rfl⟩
      obtain ⟨e, he, rfl⟩ := List.mem_map.1 hm
      obtain ⟨x, hx'⟩ := Option.isSome_iff_exists.1 (hfind e.1 ⟨e, he, rfl⟩)
      have := List.find?_some hx'
      exact ⟨x, List.mem_of_find?_eq_some hx', of_decide_eq_true this⟩
    · rintro ⟨x, hx', rfl⟩
      have : ((xs.foldl addFeeder []).lookup (String.ofList x.2.2.1)).isSome = true := by
        rw [h2, Option.isSome_map, List.find?_isSome]
        exact ⟨x, hx', by simp⟩
      obtain ⟨e, he⟩ := Option.isSome_iff_exists.1 this
      exact ⟨_, List.mem_map.2 ⟨(_, e), Json.lookup_some_mem he, rfl⟩, rfl⟩
    · intro m hm
      obtain ⟨e, he, rfl⟩ := List.mem_map.1 hm
      have := Json.lookup_mem h1 (k := e.1) (v := e.2) he
      rw [h2] at this
      obtain ⟨y, hy, hye⟩ := Option.map_eq_some_iff.1 this
      refine ⟨y, hy, ?_⟩
      rw [← hye]

/-- The transformer of a feeder is always the name of its substation, whatever the fourth column says. -/
theorem C65_transformer_violated {K : Type} (file : List (List Char)) (ms : List (Meta K)) (h : readFeeders file = .ok ms) :
    ∀ m ∈ ms, m.transformer = m.substation := by
  unfold readFeeders at h
  cases hx : (file.drop 1).mapM feederFields with
  | error e => rw [hx] at h; exact absurd h (by simp)
  | ok xs =>
    rw [hx] at h
    simp only [Except.ok.injEq] at h
    subst h
    obtain ⟨h1, h2⟩ := feeders_fold xs
    intro m hm
    obtain ⟨e, he, rfl⟩ := List.mem_map.1 hm
    have := Json.lookup_mem h1 (k := e.1) (v := e.2) he
    rw [h2] at this
    obtain ⟨y, hy, hye⟩ := Option.map_eq_some_iff.1 this
    simp only
    rw [← hye]

theorem mapM_err {α β : Type} {f : α → Py β} {e : PyErr} (hall : ∀ a e', f a = .error e' → e' = e) : ∀ (l : List α), (∃ a ∈ l, f a = .error e) →
    l.mapM f = .error e := by
  intro l
  induction l with
  | nil => rintro ⟨a, ha, -⟩; exact absurd ha List.not_mem_nil
  | cons a l ih =>
    rintro ⟨a', ha', h'⟩
    rw [List.mapM_cons]
    cases hf : f a with
    | error e' => rw [hall a e' hf]; rfl
    | ok b =>
      rcases List.mem_cons.1 ha' with rfl | ha'
      · rw [hf] at h'; exact absurd h' (by simp)
      · rw [ih ⟨a', ha', h'⟩]; rfl

/-- A line with other than four fields, for example a blank last one or one with two blanks, makes the file unreadable. -/
theorem C65_fields_violated {K : Type} (file : List (List Char)) (l : List Char) (hl : l ∈ file.drop 1) (h4 : (Net.splitCh ' ' l).length ≠ 4) :
    readFeeders (K := K) file = .error .valueError := by
  have hf : ∀ l, (Net.splitCh ' ' l).length ≠ 4 → feederFields l = .error .valueError := by
    intro l h
    unfold feederFields
    split
    · rename_i heq
      have := congrArg List.length heq
      rw [List.length_map] at this
      exact absurd this h
    · rfl
  unfold readFeeders
  rw [mapM_err (e := .valueError) (fun a e' h => ?_) _ ⟨l, hl, hf l h4⟩]
  unfold feederFields at h
  split at h
  · exact absurd h (by simp)
  · exact (Except.error.inj h).symm

/-! ### Examples -/

def exSource : DSource ℚ where
  name := some "source"
  isSource := true
  bus := some "sub.1"
  volt := some 115000
  pu := some (21 / 20)
  z1 := some (1, 2)
  z0 := some (3, 4)
  angle := some 30
  rated := some 1000000

def exSourceText : SourceText ℚ := ⟨"sub_1", some (21 / 20), some 115, some (1, 2), some (3, 4)⟩

example : masterSources [exSource, {}] = .ok [exSourceText] := by decide +kernel

def exSourceData : SourceData ℚ where
  name := "Vsource.source"
  bus := some ("sub_1", some [1, 2, 3])
  basekv := some 115
  pu := some (21 / 20)
  baseMVA := some 100
  z1l := some [some 1, some 2]
  r0 := some 3
  x0 := some 4

example : ReportsSource exSourceText exSourceData :=
  ⟨rfl, ⟨_, rfl, rfl⟩, fun v h => h, fun v h => h, fun z h => Or.inl (by cases h; rfl), fun z h => Or.inr (by cases h; exact ⟨rfl, rfl, rfl⟩)⟩

/-- the source is at `sub_1`, but gets the position of the last bus -/
example : readSources exFlt ',' (some [['s', 'u', 'b', '_', '1', ',', '1', ',', '1'], ['b', ',', '2', ',', '3']]) [exSourceData] = .ok
    ([{ name := "Vsource.source", bus := some "sub_1", volt := some 115000, pu := 21 / 20, z1 := some (1, 2), z0 := some (3, 4), angle := 0,
        rated := some 100000000, phases := [some "A", some "B", some "C"], position := (some 2, some 3) }],
      [{ name := "sub_1_src", headnode := some "sub_1", substation := some "sub_1", volt := some 115000 }], "sub_1_src") := by decide +kernel

example : readSources exFlt ',' (some [['b', ',', '2', ',', 'x']]) [exSourceData] = .error .traitError := by decide +kernel

def exFeederFile : List (List Char) :=
  [['h'], ['N', '.', '1', ' ', 'S', '.', ' ', 'F', ' ', 'T', '\n'], ['n', '2', ' ', 's', '2', ' ', 'F', ' ', 't', '\n'], ['n', '3', ' ', 's', '3', ' ', 'g', ' ', 't', '\n']]

example : readFeeders (K := ℚ) exFeederFile = .ok
    [{ name := "F", substation := some "s", transformer := some "s" }, { name := "g", substation := some "s3", transformer := some "s3" }] := by decide +kernel

example : readFeeders (K := ℚ) (exFeederFile ++ [['\n']]) = .error .valueError := by decide +kernel

end Ditto.Dss
