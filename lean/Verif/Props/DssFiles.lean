import Verif.Lemmas.DssFiles

/-! C51: the OpenDSS writer writes every object to exactly one file, that of its substation and feeder. -/
namespace Ditto.Dss
open Ditto Ditto.Spec Ditto.Json

/-- Whatever the order in which sets are iterated: if the names can be used for folders, each group of objects has its own file with exactly
the texts of its objects in the order of the model, every text is in exactly one file, and every file is redirected once. Missing: other
names (see the violations below). -/
theorem C51_distributed_partial {α : Type} (sf ss : Bool) (ord : List String → List String) (hord : ∀ l, (ord l).Perm l) (is : List (Item α))
    (h : Separable sf ss is) : ∃ w, writeItems sf ss ord is = .ok w ∧ Distributed sf ss is w := by
  refine ⟨_, writeItems_eq hord h, ?_⟩
  have hf : ((groups sf ss ord is).map fun g => (folderFor sf ss g, textsFor sf ss is g)).map (·.1) = (groups sf ss ord is).map (folderFor sf ss) := by
    rw [List.map_map]; rfl
  refine ⟨fun i hi => ?_, fun e he => ?_, ?_, ?_, hf.symm⟩
  · exact lookup_files (by rw [hf]; exact folders_nodup hord h) (List.mem_map.2 ⟨_, (mem_groups hord).2 ⟨i, hi, rfl⟩, rfl⟩)
  · obtain ⟨g, hg, rfl⟩ := List.mem_map.1 he
    obtain ⟨i, hi, rfl⟩ := (mem_groups hord).1 hg
    exact ⟨i, hi, rfl⟩
  · rw [List.flatMap_map]
    exact texts_perm hord is
  · rw [hf]
    exact folders_nodup hord h

theorem together_texts {α : Type} (is : List (Item α)) (g : String × String) (hg : g = ("DEFAULT", "DEFAULT")) :
    textsFor false false is g = is.filterMap (·.out) := by
  subst hg
  unfold textsFor
  rw [List.filter_eq_self.2]
  intro i _
  simp [groupFor]

theorem together_separable {α : Type} {is : List (Item α)} (h : is.filterMap (·.out) ≠ []) : Separable false false is where
  named := fun i _ => by rw [together_texts is (groupFor false false i) rfl]; exact h
  keys := fun _ _ _ _ _ => rfl
  clean := fun _ _ _ _ _ hne => absurd rfl hne
  folders := fun _ _ _ _ _ => rfl

/-- Without separation there is one file with all objects in the order of the model. -/
theorem C51_together {α : Type} (ord : List String → List String) (hord : ∀ l, (ord l).Perm l) (is : List (Item α)) (h : is.filterMap (·.out) ≠ []) :
    writeItems false false ord is = .ok ⟨[([], is.filterMap (·.out))], [[]]⟩ := by
  rw [writeItems_eq hord (together_separable h)]
  have hg : groups false false ord is = [("DEFAULT", "DEFAULT")] := by
    have hall : ∀ g ∈ groups false false ord is, g = ("DEFAULT", "DEFAULT") := by
      intro g hg
      obtain ⟨i, -, rfl⟩ := (mem_groups hord).1 hg
      rfl
    have hnd := nodup_groups (sf := false) (ss := false) hord is
    have hne : groups false false ord is ≠ [] := by
      intro he
      cases is with
      | nil => exact h rfl
      | cons i is =>
        have : groupFor false false i ∈ groups false false ord (i :: is) := (mem_groups hord).2 ⟨i, List.mem_cons_self, rfl⟩
        rw [he] at this
        cases this
    generalize groups false false ord is = G at hall hnd hne
    match G, hne with
    | [a], _ => rw [hall a (by simp)]
    | a :: b :: c, _ =>
      have h1 := hall a (by simp)
      have h2 := hall b (by simp)
      rw [h1, h2] at hnd
      simp at hnd
  rw [hg]
  simp [folderFor, together_texts]

/-- Nothing is written for no objects. -/
theorem C51_empty {α : Type} (sf ss : Bool) (ord : List String → List String) : writeItems sf ss ord ([] : List (Item α)) = .ok {} := rfl

/-- With files per substation: it is enough that the names of the substations stay different when cleaned, and that each has a named
object. -/
theorem C51_substations_partial {α : Type} (ord : List String → List String) (hord : ∀ l, (ord l).Perm l) (is : List (Item α))
    (hnamed : ∀ i ∈ is, ∃ j ∈ is, j.substation.getD "DEFAULT" = i.substation.getD "DEFAULT" ∧ j.out ≠ none)
    (hclean : ∀ i ∈ is, ∀ j ∈ is, cleanLower (i.substation.getD "DEFAULT") = cleanLower (j.substation.getD "DEFAULT") →
      i.substation.getD "DEFAULT" = j.substation.getD "DEFAULT") : ∃ w, writeItems false true ord is = .ok w ∧ Distributed false true is w := by
  refine C51_distributed_partial false true ord hord is ⟨fun i hi => ?_, fun i _ j _ hk => ?_, fun _ _ _ _ _ hne => absurd rfl hne, fun i hi j hj hf => ?_⟩
  · obtain ⟨j, hj, h1, h2⟩ := hnamed i hi
    intro he
    unfold textsFor at he
    rw [List.filterMap_eq_nil_iff] at he
    exact h2 (he j (List.mem_filter.2 ⟨hj, by simp [groupFor, h1]⟩))
  · have h1 : (groupFor false true i).1 = (groupFor false true j).1 := by
      have hk' : (groupFor false true i).1 ++ "_" ++ "DEFAULT" = (groupFor false true j).1 ++ "_" ++ "DEFAULT" := hk
      exact String.append_left_inj _ |>.1 (String.append_left_inj _ |>.1 hk')
    exact Prod.ext h1 rfl
  · have h1 : cleanLower (i.substation.getD "DEFAULT") = cleanLower (j.substation.getD "DEFAULT") := by
      simpa [folderFor, groupFor] using hf
    exact Prod.ext (by simpa [groupFor] using hclean i hi j hj h1) rfl

/-! ### Bus coordinates -/

theorem bus_outs (ns : List DNode) : (ns.filterMap busItem).filterMap (·.out) =
    ns.filterMap fun n => match n.name, n.position with | some s, some p => some (cleanLower s, p) | _, _ => none := by
  rw [List.filterMap_filterMap]
  refine List.filterMap_congr fun n _ => ?_
  unfold busItem
  cases n.name <;> cases n.position <;> rfl

/-- The combined file of bus coordinates has each node with a name and a position exactly once; with files per feeder the file of a feeder
has those of the feeder, and with files per substation the one of a substation those of its feeders. Missing: other names, as above. -/
theorem C51_buses_partial (sf ss : Bool) (ord : List String → List String) (hord : ∀ l, (ord l).Perm l) (ns : List DNode)
    (h : Separable sf ss (ns.filterMap busItem))
    (hsub : ss = true → ∀ i ∈ ns.filterMap busItem, ∀ j ∈ ns.filterMap busItem, cleanLower (groupFor sf ss i).1 = cleanLower (groupFor sf ss j).1 →
      (groupFor sf ss i).1 = (groupFor sf ss j).1) (hne : ns.filterMap busItem ≠ []) :
    ∃ files all, writeBuses sf ss ord ns = .ok files ∧ files.lookup [] = some all ∧
      all.Perm (ns.filterMap fun n => match n.name, n.position with | some s, some p => some (cleanLower s, p) | _, _ => none) ∧
      (sf = true → ∀ i ∈ ns.filterMap busItem,
        files.lookup (folderFor sf ss (groupFor sf ss i)) = some (textsFor sf ss (ns.filterMap busItem) (groupFor sf ss i))) ∧
      (ss = true → ∀ i ∈ ns.filterMap busItem, ∃ t, files.lookup [cleanLower (groupFor sf ss i).1] = some t ∧
        t.Perm (((ns.filterMap busItem).filter fun j => (groupFor sf ss j).1 = (groupFor sf ss i).1).filterMap (·.out))) := by
  rw [← bus_outs]
  unfold writeBuses
  generalize ns.filterMap busItem = is at h hsub hne ⊢
  have hs := split_subs sf ss is
  have hfold := folders_nodup hord h
  have hsubs : ss = true → (((splitItems sf ss is).subs).map fun e => cleanLower e.1).Nodup := by
    intro hss
    have : ((splitItems sf ss is).subs.map fun e => cleanLower e.1) = ((splitItems sf ss is).subs.map (·.1)).map cleanLower := by
      rw [List.map_map]; rfl
    rw [this]
    refine List.Nodup.map_on (fun a ha b hb hab => ?_) hs.nodup
    have hex : ∀ a ∈ (splitItems sf ss is).subs.map (·.1), ∃ i ∈ is, (groupFor sf ss i).1 = a := by
      intro a ha
      obtain ⟨e, he, rfl⟩ := List.mem_map.1 ha
      obtain ⟨f, hf⟩ := List.exists_mem_of_ne_nil _ (subs_ne_nil is e he)
      obtain ⟨i, hi, hg⟩ := (hs.mem e.1 f).1 ⟨e.2, lookup_of_mem_nodup hs.nodup he, hf⟩
      exact ⟨i, hi, by rw [hg]⟩
    obtain ⟨i, hi, rfl⟩ := hex a ha
    obtain ⟨j, hj, rfl⟩ := hex b hb
    exact hsub hss i hi j hj hab
  obtain ⟨st, h1, h2⟩ := busSubs_spec (sf := sf) (ss := ss) (ord := ord) (texts := (splitItems sf ss is).texts) (content := textsFor sf ss is)
    (splitItems sf ss is).subs [] {} ⟨rfl, fun _ e he => absurd he List.not_mem_nil, fun _ e he => absurd he List.not_mem_nil⟩
    (fun e he => ⟨fun hn => subs_ne_nil is e he (List.perm_nil.1 (hn ▸ (hord e.2).symm)), groups_content hord h e he⟩)
    (clean_or_one hord h) (by rw [List.nil_append, flatMap_map_folder]; exact hfold) (by rw [List.nil_append]; exact hsubs)
  rw [List.nil_append] at h2
  rw [h1]
  have hall : st.all.Perm (is.filterMap (·.out)) := by rw [h2.all]; exact texts_perm hord is
  have hallne : st.all.isEmpty = false := by
    cases is with
    | nil => exact absurd rfl hne
    | cons i is =>
      have h3 := h.named i List.mem_cons_self
      rw [List.isEmpty_eq_false_iff]
      intro he
      rw [he] at hall
      have h4 := List.nil_perm.1 hall
      apply h3
      rw [List.filterMap_eq_nil_iff] at h4
      unfold textsFor
      rw [List.filterMap_eq_nil_iff]
      exact fun a ha => h4 a (List.mem_filter.1 ha).1
  refine ⟨_, st.all, rfl, ?_, hall, fun hsf i hi => ?_, fun hss i hi => ?_⟩
  · rw [hallne, if_neg (by decide), lookup_putFile, if_pos rfl]
  · rw [hallne, if_neg (by decide), lookup_putFile, if_neg (by rw [hsf]; simp [folderFor])]
    obtain ⟨fs, hl, hf⟩ := (hs.mem (groupFor sf ss i).1 (groupFor sf ss i).2).2 ⟨i, hi, rfl⟩
    exact h2.feeders hsf ((groupFor sf ss i).1, fs) (lookup_isSome_mem hl) _ ((hord _).mem_iff.2 hf)
  · rw [hallne, if_neg (by decide), lookup_putFile, if_neg (by simp)]
    obtain ⟨fs, hl, hf⟩ := (hs.mem (groupFor sf ss i).1 (groupFor sf ss i).2).2 ⟨i, hi, rfl⟩
    refine ⟨_, h2.subs hss ((groupFor sf ss i).1, fs) (lookup_isSome_mem hl), ?_⟩
    have hp := partition_perm (fun j => (groupFor sf ss j).2) (ord fs) (is.filter fun j => (groupFor sf ss j).1 = (groupFor sf ss i).1)
      ((hord _).nodup_iff.2 (hs.feeders _ (lookup_isSome_mem hl))) (fun j hj => by
        obtain ⟨h5, h6⟩ := List.mem_filter.1 hj
        have h6 : (groupFor sf ss j).1 = (groupFor sf ss i).1 := by simpa using h6
        obtain ⟨fs', hl', hf'⟩ := (hs.mem (groupFor sf ss j).1 (groupFor sf ss j).2).2 ⟨j, h5, rfl⟩
        rw [h6, hl] at hl'
        cases hl'
        exact (hord _).mem_iff.2 hf')
    refine List.Perm.trans (List.Perm.of_eq ?_) (hp.filterMap (·.out))
    rw [List.filterMap_flatMap]
    refine List.flatMap_congr fun f _ => ?_
    unfold textsFor
    rw [List.filter_filter]
    congr 1
    refine List.filter_congr fun j _ => ?_
    rw [← Bool.decide_and, decide_eq_decide]
    constructor
    · intro he; rw [he]; exact ⟨rfl, rfl⟩
    · rintro ⟨h7, h8⟩; exact Prod.ext h8 h7

/-! ### Master file -/

theorem takeFirst_eq : ∀ (first files : List String), files.Nodup → first.Nodup →
    takeFirst first files = (first.filter fun n => decide (n ∈ files), files.filter fun f => decide (f ∉ first)) := by
  intro first
  induction first with
  | nil => intro files _ _; simp [takeFirst]
  | cons n ns ih =>
    intro files hf hn
    rw [List.nodup_cons] at hn
    rw [takeFirst]
    by_cases h : n ∈ files
    · rw [if_pos h, ih _ (hf.erase n) hn.2]
      simp only [List.filter_cons, h, decide_true, if_true]
      refine Prod.ext ?_ ?_
      · simp only [List.cons.injEq, true_and]
        refine List.filter_congr fun m hm => ?_
        rw [decide_eq_decide]
        exact List.mem_erase_of_ne fun he => hn.1 (he ▸ hm)
      · simp only
        rw [hf.erase_eq_filter, List.filter_filter]
        refine List.filter_congr fun m _ => ?_
        by_cases hm : m = n <;> simp [hm]
    · rw [if_neg h, ih _ hf hn.2]
      refine Prod.ext ?_ ?_
      · simp [h]
      · refine List.filter_congr fun m hm => ?_
        have : m ≠ n := fun he => h (he ▸ hm)
        simp [this]

/-- The master file redirects wire data, cables, geometries, codes, lines and transformers that are written in this order, then all other
files but those of the buses, each once. -/
theorem C51_master (first : List String) (isBus : String → Bool) (files : List String) (hf : files.Nodup) (hn : first.Nodup) :
    masterRedirects first isBus files = (first.filter fun n => decide (n ∈ files)) ++ (files.filter fun f => decide (f ∉ first) && !isBus f) ∧
      ((∀ n ∈ first, isBus n = false) → (masterRedirects first isBus files).Perm (files.filter fun f => !isBus f)) := by
  have h1 : masterRedirects first isBus files = (first.filter fun n => decide (n ∈ files)) ++ (files.filter fun f => decide (f ∉ first) && !isBus f) := by
    unfold masterRedirects
    rw [takeFirst_eq first files hf hn]
    simp only [List.filter_filter]
    congr 1
    exact List.filter_congr fun f _ => Bool.and_comm _ _
  refine ⟨h1, fun hb => ?_⟩
  rw [h1, List.perm_ext_iff_of_nodup]
  · intro f
    simp only [List.mem_append, List.mem_filter, decide_eq_true_eq, Bool.and_eq_true, Bool.not_eq_true']
    constructor
    · rintro (⟨h2, h3⟩ | ⟨h2, -, h3⟩)
      · exact ⟨h3, hb f h2⟩
      · exact ⟨h2, h3⟩
    · rintro ⟨h2, h3⟩
      by_cases hm : f ∈ first
      · exact .inl ⟨hm, h2⟩
      · exact .inr ⟨h2, hm, h3⟩
  · rw [List.nodup_append]
    refine ⟨hn.filter _, hf.filter _, fun a ha b hb he => ?_⟩
    subst he
    have h2 := (List.mem_filter.1 hb).2
    rw [Bool.and_eq_true, decide_eq_true_eq] at h2
    exact h2.1 (List.mem_filter.1 ha).1
  · exact hf.filter _

/-! ### Examples and violations -/

/-- two substations with two feeders -/
def exItems : List (Item Nat) :=
  [⟨some "f1", some "s1", some 1⟩, ⟨some "f2", some "s1", some 2⟩, ⟨some "f1", some "s1", some 3⟩, ⟨some "f3", some "s2", some 4⟩, ⟨none, none, some 5⟩,
    ⟨some "f2", some "s1", none⟩]

example : Separable true true exItems := by
  refine ⟨?_, ?_, ?_, ?_⟩ <;> decide +kernel

theorem exItems_run : writeItems true true id exItems =
    .ok ⟨[(["s1", "f1"], [1, 3]), (["s1", "f2"], [2]), (["s2", "f3"], [4]), (["default", "default"], [5])],
      [["s1", "f1"], ["s1", "f2"], ["s2", "f3"], ["default", "default"]]⟩ := by decide +kernel

example : (∀ i ∈ exItems, ∃ j ∈ exItems, j.substation.getD "DEFAULT" = i.substation.getD "DEFAULT" ∧ j.out ≠ none) ∧
    ∀ i ∈ exItems, ∀ j ∈ exItems, cleanLower (i.substation.getD "DEFAULT") = cleanLower (j.substation.getD "DEFAULT") →
      i.substation.getD "DEFAULT" = j.substation.getD "DEFAULT" := by
  constructor <;> decide +kernel

def exBuses : List DNode :=
  [⟨some "N.1", some (1, 2), some "f1", some "s1"⟩, ⟨none, some (1, 2), some "f1", some "s1"⟩, ⟨some "n2", some (3, 4), some "f2", some "s1"⟩,
    ⟨some "n3", none, some "f2", some "s1"⟩, ⟨some "n4", some (5, 6), some "f3", some "s2"⟩]

example : Separable true true (exBuses.filterMap busItem) ∧ exBuses.filterMap busItem ≠ [] ∧
    (true = true → ∀ i ∈ exBuses.filterMap busItem, ∀ j ∈ exBuses.filterMap busItem,
      cleanLower (groupFor true true i).1 = cleanLower (groupFor true true j).1 → (groupFor true true i).1 = (groupFor true true j).1) := by
  refine ⟨⟨?_, ?_, ?_, ?_⟩, ?_, ?_⟩ <;> decide +kernel

theorem exBuses_run : writeBuses true true id exBuses = .ok [(["s1", "f1"], [("n_1", 1, 2)]), (["s1", "f2"], [("n2", 3, 4)]),
    (["s1"], [("n_1", 1, 2), ("n2", 3, 4)]), (["s2", "f3"], [("n4", 5, 6)]), (["s2"], [("n4", 5, 6)]),
    ([], [("n_1", 1, 2), ("n2", 3, 4), ("n4", 5, 6)])] := by decide +kernel

example : masterRedirects ["WireData.dss", "CNDATA.dss", "LineGeometry.dss", "LineCodes.dss", "Lines.dss", "Transformers.dss"]
    (fun f => decide (f = "Buscoords.dss")) ["Buscoords.dss", "Transformers.dss", "Loads.dss", "WireData.dss", "LineGeometry.dss", "Lines.dss"] =
    ["WireData.dss", "LineGeometry.dss", "Lines.dss", "Transformers.dss", "Loads.dss"] := by decide +kernel

/-- With files per feeder but not per substation, and objects of two feeders, nothing can be written: the loop looks for the second feeder
under the changed name of the substation. -/
theorem C51_feeders_violated {α : Type} (ord : List String → List String) (hord : ∀ l, (ord l).Perm l) (is : List (Item α)) (i j : Item α) (hi : i ∈ is)
    (hj : j ∈ is) (hij : i.feeder.getD "DEFAULT" ≠ j.feeder.getD "DEFAULT") : writeItems true false ord is = .error .keyError := by
  have hs := split_subs true false is
  have hg : ∀ k : Item α, groupFor true false k = ("DEFAULT", k.feeder.getD "DEFAULT") := fun k => rfl
  -- there is one substation, "DEFAULT", with at least two feeders
  obtain ⟨fs, hl, hfi⟩ := (hs.mem "DEFAULT" (i.feeder.getD "DEFAULT")).2 ⟨i, hi, hg i⟩
  obtain ⟨fs', hl', hfj⟩ := (hs.mem "DEFAULT" (j.feeder.getD "DEFAULT")).2 ⟨j, hj, hg j⟩
  rw [hl] at hl'
  cases hl'
  have hsubs : (splitItems true false is).subs = [("DEFAULT", fs)] := by
    have hn := hs.nodup
    have hm := lookup_isSome_mem hl
    have hall : ∀ e ∈ (splitItems true false is).subs, e.1 = "DEFAULT" := by
      intro e he
      obtain ⟨f, hf⟩ := List.exists_mem_of_ne_nil _ (subs_ne_nil is e he)
      obtain ⟨k, -, hk⟩ := (hs.mem e.1 f).1 ⟨e.2, lookup_of_mem_nodup hs.nodup he, hf⟩
      rw [hg k] at hk
      exact (Prod.mk.inj hk).1.symm
    generalize (splitItems true false is).subs = subs at hn hm hall
    match subs with
    | [] => cases hm
    | [a] => rw [List.mem_singleton.1 hm]
    | a :: b :: c =>
      have h1 := hall a (by simp)
      have h2 := hall b (by simp)
      simp [h1, h2] at hn
  unfold writeItems
  rw [hsubs, writeSubs]
  have htexts : ∀ f, (splitItems true false is).texts.lookup (groupKey ("default", f)) = none := by
    intro f
    rw [split_texts, if_pos]
    rw [List.filterMap_eq_nil_iff]
    intro k hk
    exfalso
    have := (List.mem_filter.1 hk).2
    rw [decide_eq_true_eq, hg k] at this
    have h1 := congrArg (fun s : String => s.toList.head?) this
    simp only [groupKey, String.toList_append] at h1
    revert h1
    have hd : "DEFAULT".toList = ['D', 'E', 'F', 'A', 'U', 'L', 'T'] := rfl
    have hd' : "default".toList = ['d', 'e', 'f', 'a', 'u', 'l', 't'] := rfl
    rw [hd, hd']
    simp
  have hmi : i.feeder.getD "DEFAULT" ∈ ord fs := (hord _).mem_iff.2 hfi
  have hmj : j.feeder.getD "DEFAULT" ∈ ord fs := (hord _).mem_iff.2 hfj
  have hcl : cleanLower "DEFAULT" = "default" := by decide +kernel
  have hw : ∀ w : Written α, writeFeeders true false (splitItems true false is).texts "DEFAULT" (ord fs) w = .error .keyError := by
    intro w
    match hof : ord fs with
    | [] => rw [hof] at hmi; cases hmi
    | [a] =>
      rw [hof] at hmi hmj
      exact absurd ((List.mem_singleton.1 hmi).trans (List.mem_singleton.1 hmj).symm) hij
    | a :: b :: c =>
      rw [writeFeeders]
      cases (splitItems true false is).texts.lookup (groupKey ("DEFAULT", a)) with
      | none => rfl
      | some t =>
        simp only
        rw [hcl, writeFeeders, htexts]
  rw [hw]

/-- The same happens in a substation with capitals in its name and two feeders. -/
theorem C51_capitals_violated : ∃ is : List (Item Nat), (∀ i ∈ is, i.out ≠ none) ∧ ∀ ord : List String → List String, (∀ l, (ord l).Perm l) →
    writeItems true true ord is = .error .keyError := by
  refine ⟨[⟨some "f1", some "S1", some 1⟩, ⟨some "f2", some "S1", some 2⟩], by decide, fun ord hord => ?_⟩
  have hs : splitItems true true [(⟨some "f1", some "S1", some 1⟩ : Item Nat), ⟨some "f2", some "S1", some 2⟩] =
      ⟨[("S1", ["f1", "f2"])], [("S1_f1", [1]), ("S1_f2", [2])]⟩ := by decide +kernel
  unfold writeItems
  rw [hs]
  simp only [writeSubs]
  have ho : ord ["f1", "f2"] = ["f1", "f2"] ∨ ord ["f1", "f2"] = ["f2", "f1"] := by
    have h := hord ["f1", "f2"]
    generalize ord ["f1", "f2"] = l at h
    match l, h.length_eq with
    | [a, b], _ =>
      have ha : a = "f1" ∨ a = "f2" := by simpa using h.mem_iff.1 (List.mem_cons_self : a ∈ [a, b])
      have hb : b = "f1" ∨ b = "f2" := by simpa using h.mem_iff.1 (by simp : b ∈ [a, b])
      have hn : a ≠ b := by simpa using h.nodup_iff.2 (by decide)
      rcases ha with rfl | rfl <;> rcases hb with rfl | rfl
      · exact absurd rfl hn
      · exact .inl rfl
      · exact .inr rfl
      · exact absurd rfl hn
  rcases ho with ho | ho <;> rw [ho] <;> decide +kernel

/-- A feeder with nothing but objects without a name ends the writing for all. -/
theorem C51_nameless_violated : ∃ is : List (Item Nat), ∀ ord : List String → List String, (∀ l, (ord l).Perm l) → writeItems false false ord is = .error .keyError := by
  refine ⟨[⟨none, none, none⟩], fun ord hord => ?_⟩
  have hs : splitItems false false [(⟨none, none, none⟩ : Item Nat)] = ⟨[("DEFAULT", ["DEFAULT"])], []⟩ := by decide +kernel
  unfold writeItems
  rw [hs]
  simp only [writeSubs]
  rw [List.perm_singleton.1 (hord ["DEFAULT"])]
  decide +kernel

/-- Feeders whose names differ in special characters overwrite each other's files, which are redirected twice. -/
theorem C51_overwritten_violated : ∃ is : List (Item Nat), (∀ i ∈ is, i.out ≠ none) ∧
    writeItems true true id is = .ok ⟨[(["s", "a_b"], [2])], [["s", "a_b"], ["s", "a_b"]]⟩ ∧ 1 ∈ is.filterMap (·.out) :=
  ⟨[⟨some "a b", some "s", some 1⟩, ⟨some "a-b", some "s", some 2⟩], by decide, by decide +kernel, by decide +kernel⟩

/-- Two groups whose names join to the same text are written twice, both into both files. -/
theorem C51_collision_violated : ∃ is : List (Item Nat), (∀ i ∈ is, i.out ≠ none) ∧
    writeItems true true id is = .ok ⟨[(["a_b", "c"], [1, 2]), (["a", "b_c"], [1, 2])], [["a_b", "c"], ["a", "b_c"]]⟩ :=
  ⟨[⟨some "c", some "a_b", some 1⟩, ⟨some "b_c", some "a", some 2⟩], by decide, by decide +kernel⟩

/-- Different nodes get the same name in the file of the buses. -/
theorem C51_buses_violated : ∃ ns : List DNode, (ns.map (·.name)).Nodup ∧
    writeBuses false false id ns = .ok [([], [("n_1", 1, 2), ("n_1", 3, 4)])] :=
  ⟨[⟨some "n.1", some (1, 2), none, none⟩, ⟨some "n-1", some (3, 4), none, none⟩], by decide, by decide +kernel⟩

end Ditto.Dss
