import Verif.Lemmas.EphBuses
import Verif.Spec.EphTrafos
import Mathlib.Data.List.Dedup

/-! Lemmas on the sheet Multiphase Transformer of the ePHASOR writer. -/
namespace Ditto.Eph
open Ditto Ditto.Eph.Spec
open Ditto.Glm (Text)

/-- the texts that are not there yet -/
def newKeys : List Text → List Text → List Text
  | _, [] => []
  | old, k :: ks => if k ∈ old then newKeys old ks else k :: newKeys (old ++ [k]) ks

theorem newKeys_mem (ks : List Text) : ∀ (old : List Text) (k : Text), k ∈ newKeys old ks ↔ k ∈ ks ∧ k ∉ old := by
  induction ks with
  | nil => intro old k; simp [newKeys]
  | cons a ks ih =>
    intro old k
    unfold newKeys
    split
    · next h =>
      rw [ih, List.mem_cons]
      constructor
      · exact fun ⟨h1, h2⟩ => ⟨.inr h1, h2⟩
      · rintro ⟨rfl | h1, h2⟩
        · exact absurd h h2
        · exact ⟨h1, h2⟩
    · next h =>
      rw [List.mem_cons, ih, List.mem_cons, List.mem_append, List.mem_singleton]
      by_cases hk : k = a
      · subst hk; simp [h]
      · simp [hk]

theorem newKeys_nodup (ks : List Text) : ∀ old : List Text, (newKeys old ks).Nodup := by
  induction ks with
  | nil => intro old; exact List.nodup_nil
  | cons a ks ih =>
    intro old
    unfold newKeys
    split
    · exact ih old
    · rw [List.nodup_cons]
      refine ⟨fun h => ?_, ih _⟩
      rw [newKeys_mem] at h
      exact h.2 (by simp)

theorem newKeys_length (old ks : List Text) : (newKeys old ks).length = ((ks.filter (· ∉ old)).dedup).length := by
  apply List.Perm.length_eq
  rw [List.perm_ext_iff_of_nodup (newKeys_nodup _ _) (List.nodup_dedup _)]
  intro k
  rw [newKeys_mem, List.mem_dedup, List.mem_filter]
  simp

variable {K : Type} [Field K] [DecidableEq K]

theorem trafoKey_ok {t : EphTrafo K} {key : Text} (h : trafoKey t = .ok key) (hs : isSingle t = true) : keyOf t = some key := by
  unfold trafoKey at h
  unfold keyOf
  rw [if_pos hs]
  cases he : t.source <;> cases hn : t.name <;> rw [he, hn] at h <;> cases h
  rfl

theorem isSingle_cons {t : EphTrafo K} {w : EphWinding K} {ws : List (EphWinding K)} (h : t.windings = w :: ws) : isSingle t = decide (w.phases.length = 1) := by
  unfold isSingle; rw [h]; simp [beq_eq_decide]

theorem firstStep_ok {s s' : FirstState K} {t : EphTrafo K} (h : firstStep s t = .ok s') :
    s'.dict.map (·.1) = s.dict.map (·.1) ++ newKeys (s.dict.map (·.1)) (keyOf t).toList ∧
      s'.count = s.count + (if isSingle t then 0 else 1) + (newKeys (s.dict.map (·.1)) (keyOf t).toList).length ∧ (isSingle t = true → keyOf t ≠ none) := by
  unfold firstStep at h
  cases hw : t.windings with
  | nil => rw [hw] at h; cases h
  | cons w ws =>
    rw [hw] at h
    simp only at h
    have hsi := isSingle_cons hw
    by_cases h1 : w.phases.length = 1
    · rw [if_pos h1] at h
      rw [h1] at hsi
      have hsi : isSingle t = true := by rw [hsi]; rfl
      cases hk : trafoKey t with
      | error e => rw [hk] at h; cases h
      | ok key =>
        rw [hk] at h
        simp only at h
        have hko := trafoKey_ok hk hsi
        rw [hko, hsi]
        refine ⟨?_, ?_, by simp⟩
        all_goals
          unfold firstSingle at h
          cases hf : s.dict.find? (·.1 = key) with
          | some e =>
            rw [hf] at h
            simp only at h
            have e0 := List.find?_some hf
            have hmem : key ∈ s.dict.map (·.1) := List.mem_map.mpr ⟨e, List.mem_of_find?_eq_some hf, of_decide_eq_true e0⟩
            cases hc : combineEntry e.2 w with
            | error e' => rw [hc] at h; cases h
            | ok e' =>
              rw [hc] at h
              cases h
              simp only [Option.toList_some, newKeys, if_pos hmem, List.append_nil, List.length_nil, if_true, Nat.add_zero]
              try
                rw [List.map_map]
                apply List.map_congr_left
                intro d _
                simp only [Function.comp]
                split
                · next he => exact he.symm
                · rfl
          | none =>
            rw [hf] at h
            have hmem : key ∉ s.dict.map (·.1) := by
              intro hm
              obtain ⟨d, hd, he⟩ := List.mem_map.mp hm
              have := List.find?_eq_none.mp hf d hd
              exact this (by simpa using he)
            cases h
            simp only [Option.toList_some, newKeys, if_neg hmem, List.map_append, List.map_cons, List.map_nil, List.length_cons, List.length_nil, if_true]
    · rw [if_neg h1] at h
      have hsi : isSingle t = false := by rw [hsi]; exact decide_eq_false h1
      cases h
      have hk : keyOf t = none := by unfold keyOf; rw [hsi]; rfl
      rw [hk, hsi]
      simp [newKeys]

theorem newKeys_append (ks ks' : List Text) : ∀ old : List Text, newKeys old (ks ++ ks') = newKeys old ks ++ newKeys (old ++ newKeys old ks) ks' := by
  induction ks with
  | nil => intro old; simp [newKeys]
  | cons a ks ih =>
    intro old
    rw [List.cons_append, newKeys, newKeys]
    split
    · exact ih old
    · rw [ih, List.cons_append, List.append_assoc, List.singleton_append]

theorem singleKeys_cons (t : EphTrafo K) (ts : List (EphTrafo K)) : singleKeys (t :: ts) = (keyOf t).toList ++ singleKeys ts := by
  unfold singleKeys
  rw [List.filterMap_cons]
  cases keyOf t <;> rfl

theorem first_fold {ts : List (EphTrafo K)} : ∀ {s s' : FirstState K}, ts.foldlM firstStep s = .ok s' →
    s'.dict.map (·.1) = s.dict.map (·.1) ++ newKeys (s.dict.map (·.1)) (singleKeys ts) ∧
      s'.count = s.count + (ts.filter fun t => !isSingle t).length + (newKeys (s.dict.map (·.1)) (singleKeys ts)).length ∧
      (singleKeys ts).length = (ts.filter fun t => isSingle t).length := by
  induction ts with
  | nil => intro s s' h; cases h; simp [singleKeys, newKeys]
  | cons t ts ih =>
    intro s s' h
    rw [List.foldlM_cons] at h
    cases h1 : firstStep s t with
    | error e => rw [h1] at h; cases h
    | ok s1 =>
      rw [h1] at h
      obtain ⟨a1, a2, a3⟩ := ih (show ts.foldlM firstStep s1 = .ok s' from h)
      obtain ⟨b1, b2, b3⟩ := firstStep_ok h1
      rw [b1] at a1 a2
      rw [singleKeys_cons, newKeys_append]
      refine ⟨by rw [a1, List.append_assoc], ?_, ?_⟩
      · rw [a2, b2, List.length_append, List.filter_cons]
        cases isSingle t <;> simp <;> omega
      · rw [List.length_append, a3, List.filter_cons]
        cases hs : isSingle t
        · have : keyOf t = none := by unfold keyOf; rw [hs]; rfl
          rw [this]; simp
        · obtain ⟨k, hk⟩ := Option.ne_none_iff_exists'.mp (b3 hs)
          rw [hk]; simp; omega

theorem fill_id {round2 : K → K} {root : K} {sums : Option (Option K × Option K)} {before : Option Nat} {t : EphTrafo K} {r r' : TrafoRow K}
    (h : trafoFill round2 root sums before t r = .ok r') : ∀ n ∈ t.name, r'.id = some n := by
  intro n hn
  unfold trafoFill at h
  simp only [Option.mem_def.mp hn] at h
  cases h1 : trafoWindings round2 root sums t { r with id := some n } with
  | error e => rw [h1] at h; cases h
  | ok r1 =>
    rw [h1] at h
    simp only at h
    have hid : r1.id = some n := by
      unfold trafoWindings at h1
      split at h1
      · split at h1
        · cases h1
        · simp only [bind, Except.bind, pure, Except.pure] at h1
          split at h1
          · cases h1
          · split at h1
            · cases h1
            · cases h1; rfl
      · cases h1; rfl
    cases h2 : phaseCount t before with
    | none => rw [h2] at h; cases h
    | some k => rw [h2] at h; cases h; exact hid

theorem second_step {round2 : K → K} {root : K} {dict : TrafoDict K} {s s' : SecondState K} {t : EphTrafo K} {i : Nat} {kv1 kva : Option K}
    (hp : trafoPlace dict s.next t = .ok (i, kv1, kva)) (h : secondStep round2 root dict s t = .ok s') : ∃ r', s'.rows = s.rows.set i r' ∧ s'.next = i + 1 ∧ ∀ n ∈ t.name, r'.id = some n := by
  unfold secondStep at h
  rw [hp] at h
  simp only at h
  cases hr : s.rows[i]? with
  | none => rw [hr] at h; cases h
  | some r =>
    rw [hr] at h
    simp only at h
    cases hf : trafoFill round2 root (combinedSums dict t.source kv1 kva) s.phases t r with
    | error e => rw [hf] at h; cases h
    | ok r' =>
      rw [hf] at h
      cases h
      exact ⟨r', rfl, rfl, fill_id hf⟩

theorem second_length {round2 : K → K} {root : K} {dict : TrafoDict K} {s s' : SecondState K} {t : EphTrafo K} (h : secondStep round2 root dict s t = .ok s') :
    s'.rows.length = s.rows.length ∧ s.rows ≠ [] := by
  unfold secondStep at h
  cases hp : trafoPlace dict s.next t with
  | error e => rw [hp] at h; cases h
  | ok p =>
    obtain ⟨i, kv1, kva⟩ := p
    rw [hp] at h
    simp only at h
    cases hr : s.rows[i]? with
    | none => rw [hr] at h; cases h
    | some r =>
      rw [hr] at h
      simp only at h
      cases hf : trafoFill round2 root (combinedSums dict t.source kv1 kva) s.phases t r with
      | error e => rw [hf] at h; cases h
      | ok r' =>
        rw [hf] at h
        cases h
        refine ⟨by simp, ?_⟩
        intro hn
        rw [hn] at hr; simp at hr

theorem second_fold_length {round2 : K → K} {root : K} {dict : TrafoDict K} {ts : List (EphTrafo K)} : ∀ {s s' : SecondState K},
    ts.foldlM (secondStep round2 root dict) s = .ok s' → s'.rows.length = s.rows.length ∧ (ts ≠ [] → s.rows ≠ []) := by
  induction ts with
  | nil => intro s s' h; cases h; exact ⟨rfl, fun h => absurd rfl h⟩
  | cons t ts ih =>
    intro s s' h
    rw [List.foldlM_cons] at h
    cases h1 : secondStep round2 root dict s t with
    | error e => rw [h1] at h; cases h
    | ok s1 =>
      rw [h1] at h
      have a := ih (show ts.foldlM (secondStep round2 root dict) s1 = .ok s' from h)
      have b := second_length h1
      exact ⟨a.1.trans b.1, fun _ => b.2⟩

theorem sheet_ok {round2 : K → K} {root : K} {dict : TrafoDict K} {ts : List (EphTrafo K)} {rows : List (TrafoRow K)} {dict' : TrafoDict K} :
    trafoSheet round2 root dict ts = .ok (rows, dict') ↔ ∃ s, ts.foldlM firstStep { count := 0, next := 0, dict := dict } = .ok s ∧ s.dict = dict' ∧
      ∃ s', ts.foldlM (secondStep round2 root s.dict) { rows := List.replicate s.count {}, next := 0, phases := none } = .ok s' ∧ s'.rows = rows := by
  unfold trafoSheet
  cases h1 : ts.foldlM firstStep { count := 0, next := 0, dict := dict } with
  | error e => exact ⟨(fun h => by cases h), (fun ⟨s, h, _⟩ => by cases h)⟩
  | ok s =>
    change ((ts.foldlM (secondStep round2 root s.dict) { rows := List.replicate s.count {}, next := 0, phases := none }) >>= fun s' => Except.ok (s'.rows, s.dict)) = .ok (rows, dict') ↔ _
    cases h2 : ts.foldlM (secondStep round2 root s.dict) { rows := List.replicate s.count {}, next := 0, phases := none } with
    | error e =>
      refine ⟨(fun h => by cases h), ?_⟩
      rintro ⟨s1, hs1, -, s2, hs2, -⟩
      cases hs1
      rw [h2] at hs2; cases hs2
    | ok s' =>
      constructor
      · intro h
        cases h
        exact ⟨s, rfl, rfl, s', h2, rfl⟩
      · rintro ⟨s1, hs1, hd, s2, hs2, hr⟩
        cases hs1
        rw [h2] at hs2
        cases hs2
        subst hd hr
        rfl

/-- the entries of the single phase transformers, if these are the rows from a number on -/
def entriesFrom : Nat → List (EphTrafo K) → TrafoDict K
  | _, [] => []
  | n, t :: ts => (match keyOf t, t.windings with
    | some key, w :: _ => [(key, ⟨false, n, w.voltage, w.power⟩)]
    | _, _ => []) ++ entriesFrom (n + 1) ts

theorem entries_keys (ts : List (EphTrafo K)) : ∀ n, (entriesFrom n ts).map (·.1) = singleKeys ts := by
  induction ts with
  | nil => intro n; rfl
  | cons t ts ih =>
    intro n
    rw [singleKeys_cons, entriesFrom, List.map_append, ih]
    congr 1
    cases hk : keyOf t with
    | none => rfl
    | some key =>
      cases hw : t.windings with
      | nil => unfold keyOf isSingle at hk; rw [hw] at hk; cases hk
      | cons w ws => rfl

theorem entries_plain (ts : List (EphTrafo K)) : ∀ n, ∀ d ∈ entriesFrom n ts, d.2.combined = false := by
  induction ts with
  | nil => intro n d hd; cases hd
  | cons t ts ih =>
    intro n d hd
    rw [entriesFrom, List.mem_append] at hd
    rcases hd with hd | hd
    · cases hk : keyOf t with
      | none => rw [hk] at hd; cases hd
      | some key =>
        cases hw : t.windings with
        | nil => rw [hk, hw] at hd; cases hd
        | cons w ws =>
          rw [hk, hw] at hd
          rw [List.mem_singleton.mp hd]
    · exact ih _ d hd

theorem firstStep_fresh (s : FirstState K) (t : EphTrafo K) (hn : s.next = s.count) (hk : ∀ k ∈ keyOf t, k ∉ s.dict.map (·.1)) (hw : t.windings ≠ []) (hkey : isSingle t = true → keyOf t ≠ none) :
    firstStep s t = .ok { count := s.count + 1, next := s.count + 1, dict := s.dict ++ entriesFrom s.count [t] } := by
  unfold firstStep entriesFrom entriesFrom
  cases hw' : t.windings with
  | nil => exact absurd hw' hw
  | cons w ws =>
    simp only
    have hsi := isSingle_cons hw'
    by_cases h1 : w.phases.length = 1
    · have hsi : isSingle t = true := by rw [hsi]; exact decide_eq_true h1
      rw [if_pos h1]
      obtain ⟨key, hko⟩ := Option.ne_none_iff_exists'.mp (hkey hsi)
      have hkk : trafoKey t = .ok key := by
        unfold keyOf at hko
        rw [if_pos hsi] at hko
        unfold trafoKey
        cases he : t.source <;> cases hn : t.name <;> rw [he, hn] at hko <;> cases hko
        rfl
      rw [hkk]
      simp only
      have hf : s.dict.find? (·.1 = key) = none := by
        rw [List.find?_eq_none]
        intro d hd he
        exact hk key hko (List.mem_map.mpr ⟨d, hd, of_decide_eq_true he⟩)
      unfold firstSingle
      rw [hf, hko, hn]
      rfl
    · have hsi : isSingle t = false := by rw [hsi]; exact decide_eq_false h1
      rw [if_neg h1]
      have hko : keyOf t = none := by unfold keyOf; rw [hsi]; rfl
      rw [hko, hn]
      simp

theorem entries_cons (n : Nat) (t : EphTrafo K) (ts : List (EphTrafo K)) : entriesFrom n (t :: ts) = entriesFrom n [t] ++ entriesFrom (n + 1) ts := by
  rw [entriesFrom, entriesFrom, entriesFrom, List.append_nil]

theorem first_fresh (ts : List (EphTrafo K)) : ∀ (s : FirstState K), s.next = s.count → (s.dict.map (·.1) ++ singleKeys ts).Nodup →
    (∀ t ∈ ts, t.windings ≠ [] ∧ (isSingle t = true → keyOf t ≠ none)) →
    ts.foldlM firstStep s = .ok { count := s.count + ts.length, next := s.count + ts.length, dict := s.dict ++ entriesFrom s.count ts } := by
  induction ts with
  | nil =>
    intro s hn _ _
    obtain ⟨c, n, d⟩ := s
    simp only at hn
    subst hn
    simp only [List.length_nil, Nat.add_zero, entriesFrom, List.append_nil]
    rfl
  | cons t ts ih =>
    intro s hn hd hall
    rw [singleKeys_cons] at hd
    have hfresh : ∀ k ∈ keyOf t, k ∉ s.dict.map (·.1) := by
      intro k hk hm
      rw [Option.mem_def.mp hk] at hd
      exact (List.disjoint_of_nodup_append hd) hm (by simp)
    have h1 := firstStep_fresh s t hn hfresh (hall t List.mem_cons_self).1 (hall t List.mem_cons_self).2
    have e1 := entries_keys [t] s.count
    rw [singleKeys_cons] at e1
    have e2 : singleKeys ([] : List (EphTrafo K)) = [] := rfl
    rw [e2, List.append_nil] at e1
    rw [List.foldlM_cons, h1]
    have := ih { count := s.count + 1, next := s.count + 1, dict := s.dict ++ entriesFrom s.count [t] } rfl
      (by simp only [List.map_append, e1]; rw [List.append_assoc]; exact hd) (fun t' ht' => hall t' (List.mem_cons_of_mem _ ht'))
    simp only at this
    have e3 := entries_cons s.count t ts
    rw [List.length_cons, e3, ← List.append_assoc, show s.count + (ts.length + 1) = s.count + 1 + ts.length by omega]
    exact this

theorem first_all {ts : List (EphTrafo K)} : ∀ {s s' : FirstState K}, ts.foldlM firstStep s = .ok s' → ∀ t ∈ ts, t.windings ≠ [] ∧ (isSingle t = true → keyOf t ≠ none) := by
  induction ts with
  | nil => intro s s' _ t ht; cases ht
  | cons t ts ih =>
    intro s s' h t' ht'
    rw [List.foldlM_cons] at h
    cases h1 : firstStep s t with
    | error e => rw [h1] at h; cases h
    | ok s1 =>
      rw [h1] at h
      rcases List.mem_cons.mp ht' with rfl | ht'
      · refine ⟨fun hw => ?_, (firstStep_ok h1).2.2⟩
        unfold firstStep at h1
        rw [hw] at h1; cases h1
      · exact ih (show ts.foldlM firstStep s1 = .ok s' from h) t' ht'

theorem find_entry {D D' : TrafoDict K} {key : Text} {e : TrafoEntry K} (h : ((D ++ (key, e) :: D').map (·.1)).Nodup) : (D ++ (key, e) :: D').find? (·.1 = key) = some (key, e) := by
  rw [List.map_append, List.map_cons] at h
  have hn : key ∉ D.map (·.1) := fun hm => (List.disjoint_of_nodup_append h) hm (by simp)
  rw [List.find?_append, List.find?_eq_none.mpr]
  · simp
  · intro d hd he
    exact hn (List.mem_map.mpr ⟨d, hd, of_decide_eq_true he⟩)

/-- the rows of transformers that each have their own row -/
def fillAll (round2 : K → K) (root : K) : Option Nat → List (EphTrafo K) → Except PyErr (List (TrafoRow K))
  | _, [] => .ok []
  | before, t :: ts => match trafoFill round2 root none before t {} with
    | .error e => .error e
    | .ok r => (fillAll round2 root (phaseCount t before) ts).map (r :: ·)

theorem combined_none {D : TrafoDict K} (hD : ∀ d ∈ D, d.2.combined = false) (source : Option Text) (kv1 kva : Option K) : combinedSums D source kv1 kva = none := by
  unfold combinedSums
  cases source with
  | none => rfl
  | some e =>
    simp only
    cases hf : D.find? (·.1 = e) with
    | none => rfl
    | some d =>
      simp only
      rw [hD d (List.mem_of_find?_eq_some hf)]
      rfl

theorem place_entry {D D' : TrafoDict K} {n : Nat} {t : EphTrafo K} (h : ((D ++ (entriesFrom n [t] ++ D')).map (·.1)).Nodup) (hw : t.windings ≠ [])
    (hkey : isSingle t = true → keyOf t ≠ none) : ∃ kv1 kva, trafoPlace (D ++ (entriesFrom n [t] ++ D')) n t = .ok (n, kv1, kva) := by
  unfold trafoPlace
  cases hw' : t.windings with
  | nil => exact absurd hw' hw
  | cons w ws =>
    simp only
    have hsi := isSingle_cons hw'
    by_cases h1 : w.phases.length = 1
    · have hsi : isSingle t = true := by rw [hsi]; exact decide_eq_true h1
      rw [if_pos h1]
      obtain ⟨key, hko⟩ := Option.ne_none_iff_exists'.mp (hkey hsi)
      have hkk : trafoKey t = .ok key := by
        unfold keyOf at hko
        rw [if_pos hsi] at hko
        unfold trafoKey
        cases he : t.source <;> cases hn : t.name <;> rw [he, hn] at hko <;> cases hko
        rfl
      rw [hkk]
      have e1 : entriesFrom n [t] = [(key, ⟨false, n, w.voltage, w.power⟩)] := by
        rw [entriesFrom, entriesFrom, hko, hw']; rfl
      rw [e1] at h ⊢
      simp only
      have hf := find_entry (D := D) (D' := D') (key := key) (e := ⟨false, n, w.voltage, w.power⟩) h
      rw [List.singleton_append, hf]
      exact ⟨_, _, rfl⟩
    · rw [if_neg h1]
      exact ⟨_, _, rfl⟩

theorem second_fresh (round2 : K → K) (root : K) (ts : List (EphTrafo K)) : ∀ (D : TrafoDict K) (done : List (TrafoRow K)) (before : Option Nat),
    ((D ++ entriesFrom done.length ts).map (·.1)).Nodup → (∀ d ∈ D, d.2.combined = false) → (∀ t ∈ ts, t.windings ≠ [] ∧ (isSingle t = true → keyOf t ≠ none)) →
    (ts.foldlM (secondStep round2 root (D ++ entriesFrom done.length ts)) { rows := done ++ List.replicate ts.length {}, next := done.length, phases := before }).map (·.rows) =
      (fillAll round2 root before ts).map (done ++ ·) := by
  induction ts with
  | nil =>
    intro D done before _ _ _
    simp only [List.length_nil, List.replicate_zero, List.append_nil]
    change Except.ok done = Except.ok (done ++ [])
    rw [List.append_nil]
  | cons t ts ih =>
    intro D done before hd hD hall
    rw [entries_cons] at hd ⊢
    obtain ⟨kv1, kva, hp⟩ := place_entry hd (hall t List.mem_cons_self).1 (hall t List.mem_cons_self).2
    have hall' : ∀ d ∈ D ++ (entriesFrom done.length [t] ++ entriesFrom (done.length + 1) ts), d.2.combined = false := by
      intro d hd
      rw [List.mem_append, List.mem_append] at hd
      rcases hd with hd | hd | hd
      · exact hD d hd
      · exact entries_plain _ _ d hd
      · exact entries_plain _ _ d hd
    have hrow : (done ++ List.replicate (t :: ts).length ({} : TrafoRow K))[done.length]? = some {} := by
      rw [List.getElem?_append_right (le_refl _), Nat.sub_self, List.length_cons, List.replicate_succ]; rfl
    have hset : ∀ r : TrafoRow K, (done ++ List.replicate (t :: ts).length ({} : TrafoRow K)).set done.length r = (done ++ [r]) ++ List.replicate ts.length ({} : TrafoRow K) := by
      intro r
      rw [List.set_append_right _ _ (le_refl _), Nat.sub_self, List.length_cons, List.replicate_succ, List.set_cons_zero, List.append_assoc]; rfl
    have hstep : secondStep round2 root (D ++ (entriesFrom done.length [t] ++ entriesFrom (done.length + 1) ts))
        { rows := done ++ List.replicate (t :: ts).length {}, next := done.length, phases := before } t =
        (trafoFill round2 root none before t {}).map fun r' => { rows := (done ++ [r']) ++ List.replicate ts.length {}, next := done.length + 1, phases := phaseCount t before } := by
      unfold secondStep
      simp only [hp, hrow, combined_none hall', hset]
    rw [List.foldlM_cons, fillAll, hstep]
    cases hf : trafoFill round2 root none before t {} with
    | error e => rfl
    | ok r =>
      have hlen : (done ++ [r]).length = done.length + 1 := by simp
      have := ih (D ++ entriesFrom done.length [t]) (done ++ [r]) (phaseCount t before)
        (by rw [hlen, List.append_assoc]; exact hd) (fun d hd => hall' d (by
          rw [List.mem_append] at hd
          rcases hd with hd | hd
          · exact List.mem_append_left _ hd
          · exact List.mem_append_right _ (List.mem_append_left _ hd))) (fun t' ht' => hall t' (List.mem_cons_of_mem _ ht'))
      rw [hlen, List.append_assoc] at this
      refine Eq.trans this ?_
      cases fillAll round2 root (phaseCount t before) ts with
      | error e => rfl
      | ok rs =>
        change Except.ok (done ++ [r] ++ rs) = Except.ok (done ++ (r :: rs))
        rw [List.append_assoc]; rfl

theorem sheet_fresh (round2 : K → K) (root : K) {ts : List (EphTrafo K)} (hk : (singleKeys ts).Nodup) (hall : ∀ t ∈ ts, t.windings ≠ [] ∧ (isSingle t = true → keyOf t ≠ none)) :
    (trafoSheet round2 root [] ts).map (·.1) = fillAll round2 root none ts := by
  have h1 := first_fresh ts { count := 0, next := 0, dict := [] } rfl (by simpa using hk) hall
  have h2 := second_fresh round2 root ts [] [] none (by simpa [entries_keys] using hk) (fun d hd => by cases hd) hall
  unfold trafoSheet
  rw [h1]
  simp only [List.nil_append, Nat.zero_add, List.length_nil] at h2 ⊢
  change ((ts.foldlM (secondStep round2 root (entriesFrom 0 ts)) { rows := List.replicate ts.length {}, next := 0, phases := none }) >>= fun s' => Except.ok (s'.rows, entriesFrom 0 ts)).map (·.1) = _
  cases hf : ts.foldlM (secondStep round2 root (entriesFrom 0 ts)) { rows := List.replicate ts.length {}, next := 0, phases := none } with
  | error e =>
    rw [hf] at h2
    cases hr : fillAll round2 root none ts with
    | error e' => rw [hr] at h2; exact h2
    | ok r => rw [hr] at h2; cases h2
  | ok s' =>
    rw [hf] at h2
    cases hr : fillAll round2 root none ts with
    | error e' => rw [hr] at h2; cases h2
    | ok r => rw [hr] at h2; exact h2

/-! the cells of a transformer -/

theorem windingPhases_ok {element : Option Text} : ∀ {pws : List (EphPhaseWinding K)} {k : Nat} {b b' : List (Option Text)} {t t' : List (Option K)},
    windingPhases element k pws (b, t) = .ok (b', t') → k ≤ 3 → b.length = 3 → t.length = 3 →
    b'.length = 3 ∧ t'.length = 3 ∧ k + pws.length ≤ 3 ∧ (∀ i, (i < k ∨ k + pws.length ≤ i) → b'[i]? = b[i]? ∧ t'[i]? = t[i]?) ∧
      ∀ i pw, pws[i]? = some pw → ∃ e p, element = some e ∧ pw.phase = some p ∧ b'[k + i]? = some (some (busName e p)) ∧ t'[k + i]? = some (some (tapOf pw)) := by
  intro pws
  induction pws with
  | nil =>
    intro k b b' t t' h hk hb ht
    unfold windingPhases at h
    cases h
    exact ⟨hb, ht, by simpa using hk, fun i _ => ⟨rfl, rfl⟩, fun i pw hi => by simp at hi⟩
  | cons pw pws ih =>
    intro k b b' t t' h hk hb ht
    unfold windingPhases at h
    cases hbus : windingBus element pw.phase with
    | error e => rw [hbus] at h; cases h
    | ok bus =>
      rw [hbus] at h
      simp only at h
      split at h
      · next hk3 =>
        obtain ⟨a1, a2, a3, a4, a5⟩ := ih h hk3 (by simpa using hb) (by simpa using ht)
        have hbe : ∃ e p, element = some e ∧ pw.phase = some p ∧ bus = busName e p := by
          unfold windingBus at hbus
          cases element with
          | none => cases hbus
          | some e =>
            cases hph : pw.phase with
            | none => rw [hph] at hbus; cases hbus
            | some p => rw [hph] at hbus; cases hbus; exact ⟨e, p, rfl, rfl, rfl⟩
        refine ⟨a1, a2, by rw [List.length_cons]; omega, ?_, ?_⟩
        · intro i hi
          rw [List.length_cons] at hi
          obtain ⟨c1, c2⟩ := a4 i (by omega)
          rw [c1, c2, List.getElem?_set_ne (by omega), List.getElem?_set_ne (by omega)]
          exact ⟨rfl, rfl⟩
        · intro i pw' hi
          cases i with
          | zero =>
            simp only [List.getElem?_cons_zero, Option.some.injEq] at hi
            subst hi
            obtain ⟨e, p, he, hp, hbn⟩ := hbe
            obtain ⟨c1, c2⟩ := a4 k (by omega)
            refine ⟨e, p, he, hp, ?_, ?_⟩
            · rw [Nat.add_zero, c1, List.getElem?_set_self (by omega), hbn]
            · rw [Nat.add_zero, c2, List.getElem?_set_self (by omega)]
              unfold tapOf
              cases pw.tap <;> rfl
          | succ i =>
            rw [List.getElem?_cons_succ] at hi
            obtain ⟨e, p, he, hp, c1, c2⟩ := a5 i pw' hi
            rw [show k + 1 + i = k + (i + 1) by omega] at c1 c2
            exact ⟨e, p, he, hp, c1, c2⟩
      · cases h

theorem windingPhases_exists {element : Option Text} : ∀ (pws : List (EphPhaseWinding K)) (k : Nat) (c : List (Option Text) × List (Option K)),
    k + pws.length ≤ 3 → (∀ pw ∈ pws, element ≠ none ∧ pw.phase ≠ none) → ∃ c', windingPhases element k pws c = .ok c' := by
  intro pws
  induction pws with
  | nil => intro k c _ _; exact ⟨c, by unfold windingPhases; rfl⟩
  | cons pw pws ih =>
    intro k c hk h
    obtain ⟨h1, h2⟩ := h pw List.mem_cons_self
    obtain ⟨e, he⟩ := Option.ne_none_iff_exists'.mp h1
    obtain ⟨p, hp⟩ := Option.ne_none_iff_exists'.mp h2
    rw [List.length_cons] at hk
    unfold windingPhases
    have : windingBus element pw.phase = .ok (busName e p) := by rw [he, hp]; rfl
    rw [this]
    simp only
    rw [if_pos (by omega)]
    exact ih _ _ (by omega) fun pw' h' => h pw' (List.mem_cons_of_mem _ h')

theorem divided_ok {a : Option K} {b : K} {c : Option K} (h : divided a b = .ok c) : ∃ x, a = some x ∧ c = some (x / b) := by
  unfold divided at h
  cases a with
  | none => cases h
  | some x => cases h; exact ⟨x, rfl, rfl⟩

theorem windingCells_ok {round2 : K → K} {root : K} {element : Option Text} {w : EphWinding K} {taps taps' : List (Option K)} {c : WindingCells K}
    (h : windingCells round2 root none element w ({}, taps) = .ok (c, taps')) (ht : taps.length = 3) : WindingSays element w c ∧ WindingOk element w ∧ taps'.length = 3 ∧
      ∀ i < 3, taps'[i]? = match w.phases[i]? with | some pw => some (some (tapOf pw)) | none => taps[i]? := by
  unfold windingCells windingRatings at h
  simp only [bind, Except.bind, pure, Except.pure] at h
  cases h1 : divided w.power 1000 with
  | error e => rw [h1] at h; cases h
  | ok p =>
    cases h2 : divided w.voltage 1000 with
    | error e => rw [h1, h2] at h; cases h
    | ok v =>
      cases h3 : divided w.resistance 100 with
      | error e => rw [h1, h2, h3] at h; cases h
      | ok r =>
        rw [h1, h2, h3] at h
        simp only at h
        cases h4 : windingPhases element 0 w.phases (({} : WindingCells K).buses, taps) with
        | error e => rw [h4] at h; cases h
        | ok bt =>
          rw [h4] at h
          cases h
          obtain ⟨b', t'⟩ := bt
          obtain ⟨a1, a2, a3, a4, a5⟩ := windingPhases_ok h4 (by omega) rfl ht
          obtain ⟨x1, e1, rfl⟩ := divided_ok h1
          obtain ⟨x2, e2, rfl⟩ := divided_ok h2
          obtain ⟨x3, e3, rfl⟩ := divided_ok h3
          refine ⟨⟨⟨a1, fun i hi => ⟨?_, ?_⟩⟩, ⟨?_, ?_, ?_⟩, ⟨x2, e2, rfl⟩, ⟨x1, e1, rfl⟩, ⟨x3, e3, rfl⟩⟩, ⟨by simp [e1], by simp [e2], by simp [e3], by omega, ?_⟩, a2, ?_⟩
          · intro pw hpw
            obtain ⟨e, p, he, hp, hb, -⟩ := a5 i pw hpw
            rw [Nat.zero_add] at hb
            refine ⟨e, p, _, he, hp, hb, ?_⟩
            unfold BusOf busName lowered
            rw [List.append_assoc]; rfl
          · intro hn
            rw [List.getElem?_eq_none_iff] at hn
            rw [(a4 i (by omega)).1]
            have : ∀ i < 3, (({} : WindingCells K).buses)[i]? = some none := by
              intro i hi
              match i, hi with
              | 0, _ => rfl
              | 1, _ => rfl
              | 2, _ => rfl
            exact this i hi
          · intro hc; simp only [connectionCell, hc, if_true]
          · intro hc; simp only [connectionCell, hc]; rfl
          · intro n1 n2; simp only [connectionCell]; rw [if_neg n1, if_neg n2]
          · intro pw hpw
            obtain ⟨i, hi, hpi⟩ := List.mem_iff_getElem.mp hpw
            obtain ⟨e, p, he, hp, -⟩ := a5 i pw (by rw [List.getElem?_eq_getElem hi, hpi])
            exact ⟨by simp [he], by simp [hp]⟩
          · intro i hi
            cases hpw : w.phases[i]? with
            | some pw =>
              obtain ⟨e, p, -, -, -, htp⟩ := a5 i pw hpw
              rw [Nat.zero_add] at htp
              exact htp
            | none =>
              rw [List.getElem?_eq_none_iff] at hpw
              exact (a4 i (by omega)).2

theorem windingCells_exists (round2 : K → K) (root : K) {element : Option Text} {w : EphWinding K} (c : WindingCells K × List (Option K)) (h : WindingOk element w) :
    ∃ c', windingCells round2 root none element w c = .ok c' := by
  obtain ⟨h1, h2, h3, h4, h5⟩ := h
  obtain ⟨x1, e1⟩ := Option.ne_none_iff_exists'.mp h1
  obtain ⟨x2, e2⟩ := Option.ne_none_iff_exists'.mp h2
  obtain ⟨x3, e3⟩ := Option.ne_none_iff_exists'.mp h3
  obtain ⟨bt, hbt⟩ := windingPhases_exists w.phases 0 (c.1.buses, c.2) (by omega) h5
  unfold windingCells windingRatings
  rw [e1, e2, e3]
  simp only [divided, bind, Except.bind, pure, Except.pure, hbt]
  exact ⟨_, rfl⟩

theorem fill_ok {round2 : K → K} {root : K} {before : Option Nat} {t : EphTrafo K} {r : TrafoRow K} {w1 w2 : EphWinding K} {ws : List (EphWinding K)}
    (hw : t.windings = w1 :: w2 :: ws) (h : trafoFill round2 root none before t {} = .ok r) : TrafoSays t w1 w2 r ∧ t.reactances ≠ [] ∧ WindingOk t.source w1 ∧ WindingOk t.sink w2 ∧
      r.constants = some trafoConstants ∧ (t.name = none → r.id = some "None".toList) := by
  unfold trafoFill trafoWindings phaseCount at h
  rw [hw] at h
  simp only at h
  cases hx : t.reactances with
  | nil => rw [hx] at h; cases h
  | cons x xs =>
    rw [hx] at h
    simp only [bind, Except.bind, pure, Except.pure] at h
    cases h1 : windingCells round2 root none t.source w1 (({} : TrafoRow K).first, ({} : TrafoRow K).taps) with
    | error e => rw [h1] at h; cases h
    | ok c1 =>
      rw [h1] at h
      simp only at h
      cases h2 : windingCells round2 root none t.sink w2 (({} : TrafoRow K).second, c1.2) with
      | error e => rw [h2] at h; cases h
      | ok c2 =>
        rw [h2] at h
        cases h
        obtain ⟨a1, a2, a3, a4⟩ := windingCells_ok (c := c1.1) (taps' := c1.2) h1 rfl
        obtain ⟨b1, b2, b3, b4⟩ := windingCells_ok (c := c2.1) (taps' := c2.2) h2 a3
        refine ⟨⟨?_, rfl, a1, b1, ?_, x, by rw [hx]; rfl, rfl⟩, by simp, a2, b2, rfl, ?_⟩
        · intro n hn
          simp only [Option.mem_def.mp hn]
        · intro i hi
          simp only
          rw [b4 i hi, a4 i hi]
          have : ∀ i < 3, (({} : TrafoRow K).taps)[i]? = some none := by
            intro i hi
            match i, hi with
            | 0, _ => rfl
            | 1, _ => rfl
            | 2, _ => rfl
          cases w2.phases[i]? with
          | some pw => rfl
          | none =>
            cases w1.phases[i]? with
            | some pw => rfl
            | none => exact this i hi
        · intro hn
          simp only [hn]

theorem fill_exists (round2 : K → K) (root : K) (before : Option Nat) {t : EphTrafo K} (h : TrafoOk t) : ∃ r, trafoFill round2 root none before t {} = .ok r := by
  obtain ⟨hx, -, w1, w2, ws, hw, h1, h2⟩ := h
  unfold trafoFill trafoWindings phaseCount
  rw [hw]
  cases hx' : t.reactances with
  | nil => exact absurd hx' hx
  | cons x xs =>
    obtain ⟨c1, hc1⟩ := windingCells_exists round2 root (({} : TrafoRow K).first, ({} : TrafoRow K).taps) h1
    obtain ⟨c2, hc2⟩ := windingCells_exists round2 root (({} : TrafoRow K).second, c1.2) h2
    simp only [bind, Except.bind, pure, Except.pure]
    simp only at hc1 hc2
    simp only [hc1, hc2]
    exact ⟨_, rfl⟩

theorem fillAll_ok {round2 : K → K} {root : K} {ts : List (EphTrafo K)} : ∀ {before : Option Nat} {rows : List (TrafoRow K)}, fillAll round2 root before ts = .ok rows →
    List.Forall₂ (fun t r => ∃ b, trafoFill round2 root none b t {} = .ok r) ts rows := by
  induction ts with
  | nil => intro before rows h; cases h; exact .nil
  | cons t ts ih =>
    intro before rows h
    unfold fillAll at h
    cases h1 : trafoFill round2 root none before t {} with
    | error e => rw [h1] at h; cases h
    | ok r =>
      rw [h1] at h
      simp only at h
      cases h2 : fillAll round2 root (phaseCount t before) ts with
      | error e => rw [h2] at h; cases h
      | ok rs =>
        rw [h2] at h
        cases h
        exact .cons ⟨before, h1⟩ (ih h2)

theorem fillAll_exists (round2 : K → K) (root : K) {ts : List (EphTrafo K)} : ∀ (before : Option Nat), (∀ t ∈ ts, TrafoOk t) → ∃ rows, fillAll round2 root before ts = .ok rows := by
  induction ts with
  | nil => intro before _; exact ⟨[], rfl⟩
  | cons t ts ih =>
    intro before h
    obtain ⟨r, hr⟩ := fill_exists round2 root before (h t List.mem_cons_self)
    obtain ⟨rs, hrs⟩ := ih (phaseCount t before) fun t' h' => h t' (List.mem_cons_of_mem _ h')
    unfold fillAll
    rw [hr]
    simp only [hrs]
    exact ⟨_, rfl⟩

theorem place_single {D : TrafoDict K} {n : Nat} {t : EphTrafo K} {key : Text} {e : TrafoEntry K} (hk : keyOf t = some key) (hf : D.find? (·.1 = key) = some (key, e)) :
    trafoPlace D n t = .ok (e.index, e.voltage, e.power) := by
  have hs : isSingle t = true := by
    cases hs : isSingle t with
    | true => rfl
    | false => unfold keyOf at hk; rw [hs] at hk; cases hk
  unfold keyOf at hk
  rw [if_pos hs] at hk
  unfold trafoPlace trafoKey
  cases hw : t.windings with
  | nil => unfold isSingle at hs; rw [hw] at hs; cases hs
  | cons w ws =>
    rw [isSingle_cons hw] at hs
    simp only
    rw [if_pos (of_decide_eq_true hs)]
    cases he : t.source <;> cases hn : t.name <;> rw [he, hn] at hk <;> cases hk
    simp only [hf]

theorem place_other {D : TrafoDict K} {n : Nat} {t : EphTrafo K} (hs : isSingle t = false) (hw : t.windings ≠ []) : trafoPlace D n t = .ok (n, some 0, some 0) := by
  unfold trafoPlace
  cases hw' : t.windings with
  | nil => exact absurd hw' hw
  | cons w ws =>
    rw [isSingle_cons hw'] at hs
    simp only
    rw [if_neg (of_decide_eq_false hs)]

theorem firstStep_found {s s' : FirstState K} {t : EphTrafo K} {key : Text} {e : TrafoEntry K} (hk : keyOf t = some key) (hf : s.dict.find? (·.1 = key) = some (key, e))
    (h : firstStep s t = .ok s') : ∃ e' : TrafoEntry K, e'.index = e.index ∧ s' = { s with next := e.index + 1, dict := s.dict.map fun d => if d.1 = key then (key, e') else d } := by
  have hs : isSingle t = true := by
    cases hs : isSingle t with
    | true => rfl
    | false => unfold keyOf at hk; rw [hs] at hk; cases hk
  unfold keyOf at hk
  rw [if_pos hs] at hk
  unfold firstStep trafoKey at h
  cases hw : t.windings with
  | nil => unfold isSingle at hs; rw [hw] at hs; cases hs
  | cons w ws =>
    rw [isSingle_cons hw] at hs
    rw [hw] at h
    simp only at h
    rw [if_pos (of_decide_eq_true hs)] at h
    cases he : t.source <;> cases hn : t.name <;> rw [he, hn] at hk <;> cases hk
    rw [he, hn] at h
    simp only [firstSingle, hf] at h
    cases hc : combineEntry e w with
    | error e' => rw [hc] at h; cases h
    | ok e' =>
      rw [hc] at h
      cases h
      refine ⟨e', ?_, rfl⟩
      unfold combineEntry at hc
      simp only [bind, Except.bind, pure, Except.pure] at hc
      split at hc
      · cases hc
      · split at hc
        · cases hc
        · cases hc; rfl

end Ditto.Eph
