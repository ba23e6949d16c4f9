import Verif.Spec.DssFiles
import Verif.Lemmas.DssCodes
import Mathlib.Data.List.Nodup
import Mathlib.Data.List.Induction
import Mathlib.Data.List.Perm.Basic
import Mathlib.Data.List.Perm.Lattice

/-! Helper lemmas for C51. -/
namespace Ditto.Dss
open Ditto Ditto.Spec Ditto.Json

theorem groupFor_eq {α : Type} (sf ss : Bool) (i : Item α) : groupOf sf ss i.feeder i.substation = groupFor sf ss i := rfl

theorem folderFor_eq (sf ss : Bool) (g : String × String) : folder sf ss (cleanLower g.1) (cleanLower g.2) = folderFor sf ss g := rfl

/-! ### Partition of a list -/

theorem partition_perm {α κ : Type} [DecidableEq κ] (key : α → κ) : ∀ (G : List κ) (l : List α), G.Nodup → (∀ a ∈ l, key a ∈ G) →
    (G.flatMap fun g => l.filter fun a => key a = g).Perm l := by
  intro G
  induction G with
  | nil =>
    intro l _ h
    cases l with
    | nil => exact .nil
    | cons a as => exact absurd (h a List.mem_cons_self) List.not_mem_nil
  | cons g gs ih =>
    intro l hn h
    rw [List.nodup_cons] at hn
    rw [List.flatMap_cons]
    refine List.Perm.trans ?_ (List.filter_append_perm (fun a => decide (key a = g)) l)
    refine List.Perm.append_left _ ?_
    have h1 := ih (l.filter fun a => !decide (key a = g)) hn.2 fun a ha => by
      obtain ⟨h2, h3⟩ := List.mem_filter.1 ha
      rcases List.mem_cons.1 (h a h2) with h4 | h4
      · rw [h4] at h3; simp at h3
      · exact h4
    refine List.Perm.trans (List.Perm.of_eq ?_) h1
    have : ∀ g' ∈ gs, (l.filter fun a => decide (key a = g')) = (l.filter fun a => !decide (key a = g)).filter fun a => decide (key a = g') := by
      intro g' hg'
      rw [List.filter_filter]
      refine List.filter_congr fun a _ => ?_
      by_cases ha : key a = g'
      · have : g' ≠ g := fun he => hn.1 (he ▸ hg')
        simp [ha, this]
      · simp [ha]
    exact List.flatMap_congr this

/-! ### The first loop -/

theorem splitItems_append {α : Type} (sf ss : Bool) (is : List (Item α)) (i : Item α) : splitItems sf ss (is ++ [i]) = splitStep sf ss (splitItems sf ss is) i := by
  simp [splitItems]

/-- the texts by their keys -/
theorem split_texts {α : Type} (sf ss : Bool) (is : List (Item α)) (k : String) : (splitItems sf ss is).texts.lookup k =
    if ((is.filter fun i => groupKey (groupFor sf ss i) = k).filterMap (·.out)) = [] then none
    else some ((is.filter fun i => groupKey (groupFor sf ss i) = k).filterMap (·.out)) := by
  induction is using List.reverseRecOn with
  | nil => rfl
  | append_singleton is i ih =>
    rw [splitItems_append, splitStep]
    simp only [groupFor_eq, List.filter_append, List.filterMap_append]
    cases ho : i.out with
    | none =>
      simp only
      have : (List.filter (fun i => decide (groupKey (groupFor sf ss i) = k)) [i]).filterMap (·.out) = [] := by
        by_cases hk : groupKey (groupFor sf ss i) = k
        · simp [hk, ho]
        · simp [hk]
      rw [this, List.append_nil, ih]
    | some x =>
      simp only
      rw [lookup_setKey]
      by_cases hk : k = groupKey (groupFor sf ss i)
      · rw [if_pos hk, ← hk, ih]
        have : (List.filter (fun i => decide (groupKey (groupFor sf ss i) = k)) [i]).filterMap (·.out) = [x] := by simp [hk, ho]
        rw [this]
        split
        · rename_i he; rw [he]; rfl
        · simp
      · rw [if_neg hk, ih]
        have : (List.filter (fun i => decide (groupKey (groupFor sf ss i) = k)) [i]).filterMap (·.out) = [] := by
          have : ¬ groupKey (groupFor sf ss i) = k := fun h => hk h.symm
          simp [this]
        rw [this, List.append_nil]

theorem mem_addTo {f g : String} {fs : List String} : g ∈ addTo f fs ↔ g = f ∨ g ∈ fs := by
  unfold addTo
  split
  · exact ⟨.inr, fun h => h.elim (fun h => h ▸ ‹f ∈ fs›) id⟩
  · rw [List.mem_append, List.mem_singleton]; exact or_comm

theorem nodup_addTo {f : String} {fs : List String} (h : fs.Nodup) : (addTo f fs).Nodup := by
  unfold addTo
  split
  · exact h
  · rename_i hf
    rw [List.nodup_append]
    exact ⟨h, List.nodup_singleton _, fun a ha b hb => by rw [List.mem_singleton.1 hb]; rintro rfl; exact hf ha⟩

/-- the substations and their feeders -/
structure SubsInv {α : Type} (sf ss : Bool) (is : List (Item α)) (subs : List (String × List String)) : Prop where
  nodup : (subs.map (·.1)).Nodup
  feeders : ∀ e ∈ subs, e.2.Nodup
  mem : ∀ s f, (∃ fs, subs.lookup s = some fs ∧ f ∈ fs) ↔ ∃ i ∈ is, groupFor sf ss i = (s, f)

theorem addGroup_lookup (s f s' : String) (subs : List (String × List String)) : (addGroup s f subs).lookup s' =
    if s' = s then some (match subs.lookup s with | none => [f] | some fs => addTo f fs) else subs.lookup s' := by
  unfold addGroup
  cases h : subs.lookup s with
  | none => simp only [lookup_setKey]
  | some fs => simp only [lookup_setKey]

theorem split_subs {α : Type} (sf ss : Bool) (is : List (Item α)) : SubsInv sf ss is (splitItems sf ss is).subs := by
  induction is using List.reverseRecOn with
  | nil => exact ⟨List.nodup_nil, fun e he => absurd he List.not_mem_nil, fun s f => by simp [splitItems]⟩
  | append_singleton is i ih =>
    rw [splitItems_append]
    have hs : (splitStep sf ss (splitItems sf ss is) i).subs = addGroup (groupFor sf ss i).1 (groupFor sf ss i).2 (splitItems sf ss is).subs := by
      unfold splitStep
      cases i.out <;> rfl
    rw [hs]
    generalize (splitItems sf ss is).subs = subs at ih
    rcases hg : groupFor sf ss i with ⟨g1, g2⟩
    refine ⟨?_, fun e he => ?_, fun s f => ?_⟩
    · unfold addGroup
      split <;> exact setKey_nodup _ _ ih.nodup
    · unfold addGroup at he
      split at he
      · rcases mem_setKey he with rfl | he
        · exact List.nodup_singleton _
        · exact ih.feeders e he
      · rename_i fs hfs
        rcases mem_setKey he with rfl | he
        · exact nodup_addTo (ih.feeders _ (lookup_isSome_mem hfs))
        · exact ih.feeders e he
    · rw [addGroup_lookup]
      have hi := ih.mem s f
      simp only [List.mem_append, List.mem_singleton, or_and_right, exists_or, exists_eq_left, hg, Prod.mk.injEq]
      by_cases hsg : s = g1
      · subst hsg
        rw [if_pos rfl, ← hi]
        cases hl : subs.lookup s with
        | none =>
          simp only [Option.some.injEq, exists_eq_left', List.mem_singleton, reduceCtorEq, false_and, exists_false, false_or, true_and]
          exact eq_comm
        | some fs =>
          simp only [Option.some.injEq, exists_eq_left', mem_addTo, true_and]
          rw [or_comm, eq_comm]
      · rw [if_neg hsg, hi]
        constructor
        · exact .inl
        · rintro (h | h)
          · exact h
          · exact absurd h.1.symm hsg

/-! ### The second loop -/

theorem lookup_putFile {α : Type} (p q : List String) (t : List α) (d : List (List String × List α)) :
    (putFile p t d).lookup q = if q = p then some t else d.lookup q := by
  induction d with
  | nil =>
    rw [putFile, List.lookup_cons]
    by_cases h : q = p
    · simp [h]
    · have : (q == p) = false := by simpa using h
      simp [this, h]
  | cons e es ih =>
    rw [putFile]
    by_cases he : e.1 = p
    · rw [if_pos he, List.lookup_cons]
      by_cases h : q = p
      · simp [h]
      · have h1 : (q == p) = false := by simpa using h
        have h2 : (q == e.1) = false := by rw [he]; exact h1
        obtain ⟨e1, e2⟩ := e
        rw [h1, if_neg h, List.lookup_cons]
        simp only at h2
        rw [h2]
    · rw [if_neg he]
      obtain ⟨e1, e2⟩ := e
      simp only at he
      rw [List.lookup_cons, List.lookup_cons, ih]
      by_cases h : q = p
      · subst h
        have : (q == e1) = false := by simpa using fun h => he h.symm
        rw [this]
      · rw [if_neg h, if_neg h]

theorem putFile_new {α : Type} {p : List String} {t : List α} {d : List (List String × List α)} (h : p ∉ d.map (·.1)) : putFile p t d = d ++ [(p, t)] := by
  induction d with
  | nil => rfl
  | cons e es ih =>
    rw [List.map_cons, List.mem_cons, not_or] at h
    rw [putFile, if_neg fun he => h.1 he.symm, ih h.2]
    rfl

/-- the loops do what a loop over all pairs of a substation and a feeder would do, if the names allow it -/
theorem writeFeeders_eq {α : Type} {sf ss : Bool} {texts : List (String × List α)} {content : String × String → List α} {s : String}
    : ∀ (fs : List String) (w : Written α), (∀ f ∈ fs, texts.lookup (groupKey (s, f)) = some (content (s, f)) ∧ content (s, f) ≠ []) →
      (cleanLower s = s ∨ fs.length ≤ 1) → ((w.files.map (·.1)) ++ fs.map fun f => folderFor sf ss (s, f)).Nodup →
      writeFeeders sf ss texts s fs w = .ok ⟨w.files ++ fs.map fun f => (folderFor sf ss (s, f), content (s, f)), w.redirects ++ fs.map fun f => folderFor sf ss (s, f)⟩ := by
  intro fs
  induction fs with
  | nil => intro w _ _ _; simp [writeFeeders]
  | cons f fs ih =>
    intro w hc hclean hnd
    obtain ⟨h1, h2⟩ := hc f List.mem_cons_self
    rw [writeFeeders, h1]
    simp only
    have hne : (content (s, f)).isEmpty = false := by simpa using h2
    rw [hne, if_neg (by decide)]
    have hp : folder sf ss (cleanLower s) (cleanLower f) = folderFor sf ss (s, f) := rfl
    rw [hp]
    have hnew : folderFor sf ss (s, f) ∉ w.files.map (·.1) := by
      intro hm
      rw [List.nodup_append] at hnd
      exact hnd.2.2 _ hm _ (by simp) rfl
    rw [putFile_new hnew]
    rcases hclean with hcl | hlen
    · rw [hcl, ih ⟨w.files ++ [(folderFor sf ss (s, f), content (s, f))], w.redirects ++ [folderFor sf ss (s, f)]⟩
        (fun g hg => hc g (List.mem_cons_of_mem _ hg)) (.inl hcl) (by simpa using hnd)]
      simp
    · have : fs = [] := List.eq_nil_of_length_eq_zero (by simpa using hlen)
      subst this
      simp [writeFeeders]

theorem writeSubs_eq {α : Type} {sf ss : Bool} {ord : List String → List String} {texts : List (String × List α)} {content : String × String → List α}
    : ∀ (subs : List (String × List String)) (w : Written α),
      (∀ e ∈ subs, ∀ f ∈ ord e.2, texts.lookup (groupKey (e.1, f)) = some (content (e.1, f)) ∧ content (e.1, f) ≠ []) →
      (∀ e ∈ subs, cleanLower e.1 = e.1 ∨ (ord e.2).length ≤ 1) →
      ((w.files.map (·.1)) ++ (subs.flatMap fun e => (ord e.2).map fun f => (e.1, f)).map (folderFor sf ss)).Nodup →
      writeSubs sf ss ord texts subs w = .ok ⟨w.files ++ (subs.flatMap fun e => (ord e.2).map fun f => (e.1, f)).map fun g => (folderFor sf ss g, content g),
        w.redirects ++ (subs.flatMap fun e => (ord e.2).map fun f => (e.1, f)).map (folderFor sf ss)⟩ := by
  intro subs
  induction subs with
  | nil => intro w _ _ _; simp [writeSubs]
  | cons e es ih =>
    intro w hc hclean hnd
    rw [List.flatMap_cons, List.map_append, ← List.append_assoc] at hnd
    rw [writeSubs, writeFeeders_eq (content := content) (ord e.2) w (hc e List.mem_cons_self) (hclean e List.mem_cons_self) (by
      rw [List.nodup_append] at hnd
      have := hnd.1
      rw [List.map_map] at this
      exact this)]
    simp only
    rw [ih _ (fun e he => hc e (List.mem_cons_of_mem _ he)) (fun e he => hclean e (List.mem_cons_of_mem _ he)) (by
      simp only [List.map_append, List.map_map]
      rw [List.map_map] at hnd
      exact hnd)]
    simp only [List.flatMap_cons, List.map_append, List.map_map, List.append_assoc]
    rfl

/-! ### All together -/

/-- all groups, in the order in which they are written -/
def groups {α : Type} (sf ss : Bool) (ord : List String → List String) (is : List (Item α)) : List (String × String) :=
  (splitItems sf ss is).subs.flatMap fun e => (ord e.2).map fun f => (e.1, f)

theorem mem_groups {α : Type} {sf ss : Bool} {ord : List String → List String} (hord : ∀ l, (ord l).Perm l) {is : List (Item α)} {g : String × String} :
    g ∈ groups sf ss ord is ↔ ∃ i ∈ is, groupFor sf ss i = g := by
  have h := split_subs sf ss is
  unfold groups
  obtain ⟨s, f⟩ := g
  rw [← h.mem s f]
  simp only [List.mem_flatMap, List.mem_map, Prod.mk.injEq]
  constructor
  · rintro ⟨e, he, f', hf', rfl, rfl⟩
    exact ⟨e.2, lookup_of_mem_nodup h.nodup he, (hord _).mem_iff.1 hf'⟩
  · rintro ⟨fs, hl, hf⟩
    exact ⟨(s, fs), lookup_isSome_mem hl, f, (hord _).mem_iff.2 hf, rfl, rfl⟩

theorem nodup_groups {α : Type} {sf ss : Bool} {ord : List String → List String} (hord : ∀ l, (ord l).Perm l) (is : List (Item α)) :
    (groups sf ss ord is).Nodup := by
  have h := split_subs sf ss is
  unfold groups
  have hn := h.nodup
  have hf := h.feeders
  generalize (splitItems sf ss is).subs = subs at hn hf
  induction subs with
  | nil => exact List.nodup_nil
  | cons e es ih =>
    rw [List.map_cons, List.nodup_cons] at hn
    rw [List.flatMap_cons, List.nodup_append]
    refine ⟨?_, ih hn.2 fun e he => hf e (List.mem_cons_of_mem _ he), fun a ha b hb => ?_⟩
    · exact List.Nodup.map (fun a b hab => (Prod.mk.inj hab).2) ((hord _).nodup_iff.2 (hf e List.mem_cons_self))
    · rintro rfl
      obtain ⟨f, -, rfl⟩ := List.mem_map.1 ha
      obtain ⟨e', he', hb⟩ := List.mem_flatMap.1 hb
      obtain ⟨f', -, heq⟩ := List.mem_map.1 hb
      exact hn.1 (List.mem_map.2 ⟨e', he', (Prod.mk.inj heq).1⟩)

theorem key_texts {α : Type} {sf ss : Bool} {is : List (Item α)} (h : Separable sf ss is) {i : Item α} (hi : i ∈ is) :
    (splitItems sf ss is).texts.lookup (groupKey (groupFor sf ss i)) = some (textsFor sf ss is (groupFor sf ss i)) := by
  have he : (is.filter fun j => decide (groupKey (groupFor sf ss j) = groupKey (groupFor sf ss i))) =
      is.filter fun j => decide (groupFor sf ss j = groupFor sf ss i) := by
    refine List.filter_congr fun j hj => ?_
    rw [decide_eq_decide]
    exact ⟨fun hk => h.keys j hj i hi hk, fun hk => by rw [hk]⟩
  have hn := h.named i hi
  unfold textsFor at hn ⊢
  rw [split_texts, he, if_neg hn]

theorem folders_nodup {α : Type} {sf ss : Bool} {ord : List String → List String} (hord : ∀ l, (ord l).Perm l) {is : List (Item α)} (h : Separable sf ss is) :
    ((groups sf ss ord is).map (folderFor sf ss)).Nodup := by
  refine List.Nodup.map_on (fun a ha b hb hab => ?_) (nodup_groups hord is)
  obtain ⟨i, hi, rfl⟩ := (mem_groups hord).1 ha
  obtain ⟨j, hj, rfl⟩ := (mem_groups hord).1 hb
  exact h.folders i hi j hj hab

theorem clean_or_one {α : Type} {sf ss : Bool} {ord : List String → List String} (hord : ∀ l, (ord l).Perm l) {is : List (Item α)} (h : Separable sf ss is) :
    ∀ e ∈ (splitItems sf ss is).subs, cleanLower e.1 = e.1 ∨ (ord e.2).length ≤ 1 := by
  intro e he
  have hs := split_subs sf ss is
  rw [(hord e.2).length_eq]
  have hfe := hs.feeders e he
  match hfs : e.2, hfe with
  | [], _ => exact .inr (by simp)
  | [f], _ => exact .inr (by simp)
  | f :: f' :: rest, hnd =>
    left
    obtain ⟨i, hi, hgi⟩ := (hs.mem e.1 f).1 ⟨e.2, lookup_of_mem_nodup hs.nodup he, by rw [hfs]; simp⟩
    obtain ⟨j, hj, hgj⟩ := (hs.mem e.1 f').1 ⟨e.2, lookup_of_mem_nodup hs.nodup he, by rw [hfs]; simp⟩
    have := h.clean i hi j hj (by rw [hgi, hgj]) (by
      rw [hgi, hgj]
      rintro rfl
      simp at hnd)
    rwa [hgi] at this

theorem groups_content {α : Type} {sf ss : Bool} {ord : List String → List String} (hord : ∀ l, (ord l).Perm l) {is : List (Item α)} (h : Separable sf ss is) :
    ∀ e ∈ (splitItems sf ss is).subs, ∀ f ∈ ord e.2, (splitItems sf ss is).texts.lookup (groupKey (e.1, f)) = some (textsFor sf ss is (e.1, f)) ∧
      textsFor sf ss is (e.1, f) ≠ [] := by
  intro e he f hf
  have hs := split_subs sf ss is
  obtain ⟨i, hi, hgi⟩ := (hs.mem e.1 f).1 ⟨e.2, lookup_of_mem_nodup hs.nodup he, (hord _).mem_iff.1 hf⟩
  rw [← hgi]
  exact ⟨key_texts h hi, h.named i hi⟩

theorem writeItems_eq {α : Type} {sf ss : Bool} {ord : List String → List String} (hord : ∀ l, (ord l).Perm l) {is : List (Item α)} (h : Separable sf ss is) :
    writeItems sf ss ord is = .ok ⟨(groups sf ss ord is).map fun g => (folderFor sf ss g, textsFor sf ss is g), (groups sf ss ord is).map (folderFor sf ss)⟩ := by
  unfold writeItems
  have := writeSubs_eq (content := textsFor sf ss is) _ {} (groups_content hord h) (clean_or_one hord h) (folders_nodup hord h)
  rw [this]
  rfl

theorem texts_perm {α : Type} {sf ss : Bool} {ord : List String → List String} (hord : ∀ l, (ord l).Perm l) (is : List (Item α)) :
    ((groups sf ss ord is).flatMap (textsFor sf ss is)).Perm (is.filterMap (·.out)) := by
  have h := partition_perm (groupFor sf ss) (groups sf ss ord is) is (nodup_groups hord is) fun i hi => (mem_groups hord).2 ⟨i, hi, rfl⟩
  have h2 := h.filterMap (·.out)
  refine List.Perm.trans (List.Perm.of_eq ?_) h2
  rw [List.filterMap_flatMap]
  rfl

theorem lookup_files {α : Type} {ps : List (List String × List α)} (hn : (ps.map (·.1)).Nodup) {p : List String} {t : List α} (h : (p, t) ∈ ps) :
    ps.lookup p = some t := by
  induction ps with
  | nil => cases h
  | cons e es ih =>
    obtain ⟨k', v'⟩ := e
    rw [List.map_cons, List.nodup_cons] at hn
    rw [List.lookup_cons]
    rcases List.mem_cons.1 h with heq | h'
    · cases heq; simp
    · have hne : p ≠ k' := by
        rintro rfl
        exact hn.1 (List.mem_map.2 ⟨(p, t), h', rfl⟩)
      have : (p == k') = false := by simpa using hne
      rw [this]
      exact ih hn.2 h'

/-! ### Bus coordinates -/

def putAll {κ β : Type} (path : κ → List String) (content : κ → List β) (fs : List κ) (d : List (List String × List β)) : List (List String × List β) :=
  fs.foldl (fun d f => putFile (path f) (content f) d) d

theorem putAll_other {κ β : Type} {path : κ → List String} {content : κ → List β} {q : List String} : ∀ {fs : List κ} {d : List (List String × List β)},
    (∀ f ∈ fs, path f ≠ q) → (putAll path content fs d).lookup q = d.lookup q := by
  intro fs
  induction fs with
  | nil => intro d _; rfl
  | cons f fs ih =>
    intro d h
    show (putAll path content fs (putFile (path f) (content f) d)).lookup q = _
    rw [ih fun g hg => h g (List.mem_cons_of_mem _ hg), lookup_putFile, if_neg fun he => h f List.mem_cons_self he.symm]

theorem putAll_own {κ β : Type} {path : κ → List String} {content : κ → List β} : ∀ {fs : List κ} {d : List (List String × List β)} {f : κ},
    (fs.map path).Nodup → f ∈ fs → (putAll path content fs d).lookup (path f) = some (content f) := by
  intro fs
  induction fs with
  | nil => intro d f _ h; cases h
  | cons g gs ih =>
    intro d f hn hf
    rw [List.map_cons, List.nodup_cons] at hn
    show (putAll path content gs (putFile (path g) (content g) d)).lookup (path f) = _
    rcases List.mem_cons.1 hf with rfl | hf
    · rw [putAll_other fun g hg he => hn.1 (List.mem_map.2 ⟨g, hg, he⟩), lookup_putFile, if_pos rfl]
    · exact ih hn.2 hf

theorem busFeeders_eq {sf ss : Bool} {texts : List (String × List BusLine)} {content : String × String → List BusLine} {s : String} :
    ∀ (fs : List String) (sub : List BusLine) (st : BusState),
      (∀ f ∈ fs, texts.lookup (groupKey (s, f)) = some (content (s, f)) ∧ content (s, f) ≠ []) → (cleanLower s = s ∨ fs.length ≤ 1) →
      busFeeders sf ss texts s fs sub st = .ok (if fs = [] then s else cleanLower s, sub ++ fs.flatMap fun f => content (s, f),
        ⟨if sf then putAll (fun f => folderFor sf ss (s, f)) (fun f => content (s, f)) fs st.files else st.files, st.all ++ fs.flatMap fun f => content (s, f)⟩) := by
  intro fs
  induction fs with
  | nil => intro sub st _ _; simp [busFeeders, putAll]
  | cons f fs ih =>
    intro sub st hc hclean
    obtain ⟨h1, h2⟩ := hc f List.mem_cons_self
    rw [busFeeders, h1]
    simp only
    have hne : (content (s, f)).isEmpty = false := by simpa using h2
    rw [hne, if_neg (by decide)]
    have hp : folder sf ss (cleanLower s) (cleanLower f) = folderFor sf ss (s, f) := rfl
    rw [hp]
    rcases hclean with hcl | hlen
    · rw [hcl, ih _ _ (fun g hg => hc g (List.mem_cons_of_mem _ hg)) (.inl hcl)]
      cases sf <;> simp [putAll, hcl]
    · have : fs = [] := List.eq_nil_of_length_eq_zero (by simpa using hlen)
      subst this
      cases sf <;> simp [busFeeders, putAll]

/-- what holds after the substations `es` -/
structure BusInv (sf ss : Bool) (ord : List String → List String) (content : String × String → List BusLine) (es : List (String × List String))
    (st : BusState) : Prop where
  all : st.all = (es.flatMap fun e => (ord e.2).map fun f => (e.1, f)).flatMap content
  feeders : sf = true → ∀ e ∈ es, ∀ f ∈ ord e.2, st.files.lookup (folderFor sf ss (e.1, f)) = some (content (e.1, f))
  subs : ss = true → ∀ e ∈ es, st.files.lookup [cleanLower e.1] = some ((ord e.2).flatMap fun f => content (e.1, f))

theorem busSubs_spec {sf ss : Bool} {ord : List String → List String} {texts : List (String × List BusLine)} {content : String × String → List BusLine} :
    ∀ (es ds : List (String × List String)) (st : BusState), BusInv sf ss ord content ds st →
      (∀ e ∈ es, ord e.2 ≠ [] ∧ ∀ f ∈ ord e.2, texts.lookup (groupKey (e.1, f)) = some (content (e.1, f)) ∧ content (e.1, f) ≠ []) →
      (∀ e ∈ es, cleanLower e.1 = e.1 ∨ (ord e.2).length ≤ 1) →
      ((ds ++ es).flatMap fun e => (ord e.2).map fun f => folderFor sf ss (e.1, f)).Nodup →
      (ss = true → ((ds ++ es).map fun e => cleanLower e.1).Nodup) →
      ∃ st', busSubs sf ss ord texts es st = .ok st' ∧ BusInv sf ss ord content (ds ++ es) st' := by
  intro es
  induction es with
  | nil => intro ds st h _ _ _ _; exact ⟨st, rfl, by rwa [List.append_nil]⟩
  | cons e es ih =>
    intro ds st h hc hclean hnd hsub
    obtain ⟨hne, hce⟩ := hc e List.mem_cons_self
    rw [busSubs, busFeeders_eq (content := content) _ _ _ hce (hclean e List.mem_cons_self)]
    simp only [if_neg hne, List.nil_append]
    have hnd' : ((ds ++ [e]).flatMap fun e => (ord e.2).map fun f => folderFor sf ss (e.1, f)).Nodup := by
      rw [List.append_cons, List.flatMap_append] at hnd
      exact (List.nodup_append.1 hnd).1
    rw [List.flatMap_append, List.flatMap_singleton] at hnd'
    obtain ⟨hn1, hn2, hn3⟩ := List.nodup_append.1 hnd'
    -- folders of feeders and of substations are different
    have hdiff : sf = true → ∀ g x, folderFor sf ss g = [x] → ss = false := by
      rintro rfl g x hx
      cases ss with
      | false => rfl
      | true => simp [folderFor] at hx
    have hinv : BusInv sf ss ord content (ds ++ [e])
        ⟨if ss then putFile [cleanLower e.1] ((ord e.2).flatMap fun f => content (e.1, f))
          (if sf then putAll (fun f => folderFor sf ss (e.1, f)) (fun f => content (e.1, f)) (ord e.2) st.files else st.files)
          else (if sf then putAll (fun f => folderFor sf ss (e.1, f)) (fun f => content (e.1, f)) (ord e.2) st.files else st.files),
          st.all ++ (ord e.2).flatMap fun f => content (e.1, f)⟩ := by
      refine ⟨?_, fun hsf d hd f hf => ?_, fun hss d hd => ?_⟩
      · simp only [h.all, List.flatMap_append, List.flatMap_singleton, List.flatMap_map]
      · have hl : (putAll (fun f => folderFor sf ss (e.1, f)) (fun f => content (e.1, f)) (ord e.2) st.files).lookup (folderFor sf ss (d.1, f)) =
            some (content (d.1, f)) := by
          rcases List.mem_append.1 hd with hd | hd
          · rw [putAll_other, h.feeders hsf d hd f hf]
            intro f' hf' he
            exact hn3 _ (List.mem_flatMap.2 ⟨d, hd, List.mem_map.2 ⟨f, hf, rfl⟩⟩) _ (List.mem_map.2 ⟨f', hf', rfl⟩) he.symm
          · rw [List.mem_singleton.1 hd] at hf ⊢
            exact putAll_own (path := fun f => folderFor sf ss (e.1, f)) (content := fun f => content (e.1, f)) hn2 hf
        simp only [hsf, if_true] at hl ⊢
        cases hss : ss with
        | false => rw [hss] at hl; simpa using hl
        | true =>
          rw [hss] at hl
          simp only [if_true]
          rw [lookup_putFile, if_neg, hl]
          simp [folderFor]
      · simp only [hss, if_true]
        rw [lookup_putFile]
        have hsd := hsub hss
        rw [List.append_cons, List.map_append] at hsd
        have hsd1 := (List.nodup_append.1 hsd).1
        rw [List.map_append, List.map_singleton] at hsd1
        rcases List.mem_append.1 hd with hd | hd
        · have hneq : [cleanLower d.1] ≠ [cleanLower e.1] := by
            intro he
            exact (List.nodup_append.1 hsd1).2.2 _ (List.mem_map.2 ⟨d, hd, rfl⟩) _ (List.mem_singleton.2 rfl) (List.cons.inj he).1
          rw [if_neg hneq]
          have hs := h.subs hss d hd
          cases hsf : sf with
          | false => simpa using hs
          | true =>
            simp only [if_true]
            rw [putAll_other, hs]
            intro f' _ he
            simp [folderFor] at he
        · rw [List.mem_singleton.1 hd, if_pos rfl]
    obtain ⟨st', h1, h2⟩ := ih (ds ++ [e]) _ hinv (fun d hd => hc d (List.mem_cons_of_mem _ hd)) (fun d hd => hclean d (List.mem_cons_of_mem _ hd))
      (by rwa [List.append_assoc]) (fun hss => by rw [List.append_assoc]; exact hsub hss)
    exact ⟨st', h1, by rwa [List.append_assoc] at h2⟩

theorem flatMap_map_folder {sf ss : Bool} {ord : List String → List String} (es : List (String × List String)) :
    (es.flatMap fun e => (ord e.2).map fun f => folderFor sf ss (e.1, f)) = (es.flatMap fun e => (ord e.2).map fun f => (e.1, f)).map (folderFor sf ss) := by
  rw [List.map_flatMap]
  simp only [List.map_map]
  rfl

theorem subs_ne_nil {α : Type} {sf ss : Bool} (is : List (Item α)) : ∀ e ∈ (splitItems sf ss is).subs, e.2 ≠ [] := by
  induction is using List.reverseRecOn with
  | nil => intro e he; cases he
  | append_singleton is i ih =>
    rw [splitItems_append]
    have hs : (splitStep sf ss (splitItems sf ss is) i).subs = addGroup (groupFor sf ss i).1 (groupFor sf ss i).2 (splitItems sf ss is).subs := by
      unfold splitStep
      cases i.out <;> rfl
    rw [hs]
    intro e he
    unfold addGroup at he
    split at he
    · rcases mem_setKey he with rfl | he
      · simp
      · exact ih e he
    · rcases mem_setKey he with rfl | he
      · intro h
        have : (groupFor sf ss i).2 ∈ ([] : List String) := by
          simp only at h
          rw [← h]; exact mem_addTo.2 (.inl rfl)
        cases this
      · exact ih e he

end Ditto.Dss
