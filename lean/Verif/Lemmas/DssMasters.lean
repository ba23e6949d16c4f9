import Verif.Spec.DssMasters
import Verif.Lemmas.DssSeries

/-! Lemmas on the master files of feeders. -/
namespace Ditto.Dss
open Ditto Ditto.Spec Ditto.Json

/-! ### Voltages -/

section bases
variable {K : Type} [Field K] [LinearOrder K]

omit [Field K] in
theorem mem_addBase {x y : K} {s : List K} : y ∈ addBase x s ↔ y = x ∨ y ∈ s := by
  unfold addBase
  split
  · exact ⟨.inr, fun h => h.elim (fun h => h ▸ ‹x ∈ s›) id⟩
  · rw [List.mem_append, List.mem_singleton]; exact or_comm

omit [Field K] in
theorem nodup_addBase {x : K} {s : List K} (h : s.Nodup) : (addBase x s).Nodup := by
  unfold addBase
  split
  · exact h
  · rename_i hf
    rw [List.nodup_append]
    exact ⟨h, List.nodup_singleton _, fun a ha b hb => by rw [List.mem_singleton.1 hb]; rintro rfl; exact hf ha⟩

omit [Field K] in
theorem addAll_spec : ∀ (xs s : List K), s.Nodup → (xs.foldl (fun s x => addBase x s) s).Nodup ∧
    ∀ y, y ∈ xs.foldl (fun s x => addBase x s) s ↔ y ∈ xs ∨ y ∈ s
  | [], s, h => ⟨h, fun y => by simp⟩
  | x :: xs, s, h => by
    rw [List.foldl_cons]
    obtain ⟨h1, h2⟩ := addAll_spec xs (addBase x s) (nodup_addBase h)
    refine ⟨h1, fun y => ?_⟩
    rw [h2, mem_addBase, List.mem_cons]
    tauto

theorem baseSets_append (root3 : K) (us : List (VoltUse K)) (u : VoltUse K) : baseSets root3 (us ++ [u]) = baseStep root3 (baseSets root3 us) u := by
  unfold baseSets
  rw [List.foldl_append]
  rfl

/-- both sets -/
theorem baseSets_spec (root3 : K) (us : List (VoltUse K)) : (baseSets root3 us).1.Nodup ∧ (∀ x, x ∈ (baseSets root3 us).1 ↔ ∃ u ∈ us, x ∈ masterBases root3 u) ∧
    ∀ k, (((baseSets root3 us).2.lookup k).getD []).Nodup ∧
      ∀ x, x ∈ ((baseSets root3 us).2.lookup k).getD [] ↔ ∃ u ∈ us, groupKey u.group = k ∧ x = feederBase root3 u := by
  induction us using List.reverseRecOn with
  | nil => simp [baseSets]
  | append_singleton us u ih =>
    obtain ⟨h1, h2, h3⟩ := ih
    rw [baseSets_append]
    obtain ⟨h4, h5⟩ := addAll_spec (masterBases root3 u) _ h1
    refine ⟨h4, fun x => ?_, fun k => ?_⟩
    · change x ∈ List.foldl _ _ _ ↔ _
      rw [h5, h2]
      simp only [List.mem_append, List.mem_singleton]
      constructor
      · rintro (h | ⟨v, hv, h⟩)
        · exact ⟨u, .inr rfl, h⟩
        · exact ⟨v, .inl hv, h⟩
      · rintro ⟨v, hv | rfl, h⟩
        · exact .inr ⟨v, hv, h⟩
        · exact .inl h
    · unfold baseStep
      simp only [lookup_setKey]
      by_cases hk : k = groupKey u.group
      · rw [if_pos hk, Option.getD_some, ← hk]
        refine ⟨nodup_addBase (h3 k).1, fun x => ?_⟩
        rw [mem_addBase, (h3 k).2]
        simp only [List.mem_append, List.mem_singleton]
        constructor
        · rintro (h | ⟨v, hv, h⟩)
          · exact ⟨u, .inr rfl, hk.symm, h⟩
          · exact ⟨v, .inl hv, h⟩
        · rintro ⟨v, hv | rfl, h⟩
          · exact .inr ⟨v, hv, h⟩
          · exact .inl h.2
      · rw [if_neg hk]
        refine ⟨(h3 k).1, fun x => ?_⟩
        rw [(h3 k).2]
        simp only [List.mem_append, List.mem_singleton]
        constructor
        · rintro ⟨v, hv, h⟩
          exact ⟨v, .inl hv, h⟩
        · rintro ⟨v, hv | rfl, h⟩
          · exact ⟨v, hv, h⟩
          · exact absurd h.1.symm hk

omit [Field K] in
theorem voltages_sort {l : List K} (h : l.Nodup) : Voltages (l.insertionSort (· ≤ ·)) (· ∈ l) where
  sorted := List.pairwise_insertionSort _ _
  nodup := (List.perm_insertionSort _ l).nodup_iff.2 h
  mem := fun _ => (List.perm_insertionSort _ l).mem_iff

end bases

/-! ### Paths -/

theorem clean_no_slash : ∀ (b : Bool) (l : List Char), '/' ∉ cleanChars b l
  | _, [] => by simp [cleanChars]
  | b, c :: cs => by
    rw [cleanChars]
    split
    · rename_i hc
      intro h
      rcases List.mem_cons.1 h with h | h
      · rw [← h] at hc; exact absurd hc (by decide)
      · exact clean_no_slash _ _ h
    · split
      · exact clean_no_slash _ _
      · intro h
        rcases List.mem_cons.1 h with h | h
        · exact absurd h (by decide)
        · exact clean_no_slash _ _ h

theorem cleanLower_no_slash (s : String) : '/' ∉ (cleanLower s).toList := by
  unfold cleanLower cleanName
  rw [String.toList_ofList]
  exact clean_no_slash _ _

theorem split_slash : ∀ {a b c d : List Char}, '/' ∉ a → '/' ∉ c → a ++ '/' :: b = c ++ '/' :: d → a = c ∧ b = d
  | [], b, [], d, _, _, h => ⟨rfl, (List.cons.inj h).2⟩
  | [], b, x :: c, d, _, hc, h => absurd (List.mem_cons.2 (.inl (List.cons.inj h).1)) hc
  | x :: a, b, [], d, ha, _, h => absurd (List.mem_cons.2 (.inl (List.cons.inj h).1.symm)) ha
  | x :: a, b, y :: c, d, ha, hc, h => by
    have hx := (List.cons.inj h).1
    obtain ⟨h1, h2⟩ := split_slash (fun h => ha (List.mem_cons_of_mem _ h)) (fun h => hc (List.mem_cons_of_mem _ h)) (List.cons.inj h).2
    exact ⟨by rw [hx, h1], h2⟩

theorem joinPath_toList {s f : String} (hs : s ≠ "") : (joinPath s f).toList = s.toList ++ '/' :: f.toList := by
  unfold joinPath
  rw [if_neg hs, String.toList_append, String.toList_append]
  simp

theorem joinPath_inj {s f s' f' : String} (hs : s ≠ "") (hs' : s' ≠ "") (h1 : '/' ∉ s.toList) (h2 : '/' ∉ s'.toList) (h : joinPath s f = joinPath s' f') :
    (s, f) = (s', f') := by
  have h := congrArg String.toList h
  rw [joinPath_toList hs, joinPath_toList hs'] at h
  obtain ⟨ha, hb⟩ := split_slash h1 h2 h
  rw [String.toList_inj.1 ha, String.toList_inj.1 hb]

/-! ### Dictionaries of files -/

theorem lookup_appendAll (es : List (String × String)) (k : String) : (es.foldl (fun d e => appendAt e.1 e.2 d) ([] : List (String × List String))).lookup k =
    if (es.filter fun e => e.1 = k) = [] then none else some ((es.filter fun e => e.1 = k).map (·.2)) := by
  induction es using List.reverseRecOn with
  | nil => rfl
  | append_singleton es e ih =>
    rw [List.foldl_append, List.foldl_cons, List.foldl_nil, appendAt, lookup_setKey, List.filter_append]
    by_cases hk : k = e.1
    · rw [if_pos hk, ← hk, ih]
      have : (List.filter (fun e => decide (e.1 = k)) [e]) = [e] := by simp [hk]
      have hne : List.filter (fun e => decide (e.1 = k)) es ++ [e] ≠ [] := by simp
      rw [this, if_neg hne]
      split
      · rename_i he; rw [he]; rfl
      · simp
    · rw [if_neg hk, ih]
      have : (List.filter (fun e => decide (e.1 = k)) [e]) = [] := by
        have : ¬ e.1 = k := fun h => hk h.symm
        simp [this]
      rw [this, List.append_nil]

/-- the entries of `feeders_redirect` in order -/
def feederEntries (ps : List Phase) : List (String × String) := ps.flatMap fun p => p.groups.map fun g => (joinPath g.1 g.2, p.file)

theorem feedersRedirect_eq (ps : List Phase) : feedersRedirect true ps = (feederEntries ps).foldl (fun d e => appendAt e.1 e.2 d) [] := by
  unfold feedersRedirect feederEntries
  rw [List.foldl_flatMap]
  congr 1
  funext d p
  rw [List.foldl_map]
  rfl

def substationEntries (sf : Bool) (ps : List Phase) : List (String × String) :=
  ps.flatMap fun p => p.groups.map fun g => (g.1, if sf then joinPath g.2 p.file else p.file)

theorem substationsRedirect_eq (sf : Bool) (ps : List Phase) : substationsRedirect sf true ps = (substationEntries sf ps).foldl (fun d e => appendAt e.1 e.2 d) [] := by
  unfold substationsRedirect substationEntries
  rw [List.foldl_flatMap]
  congr 1
  funext d p
  rw [List.foldl_map]
  rfl

/-- the entries of one feeder -/
theorem feederEntries_filter {ps : List Phase} (h : ∀ p ∈ ps, p.groups.Nodup ∧ ∀ g ∈ p.groups, ∃ s f, g = (cleanLower s, cleanLower f) ∧ cleanLower s ≠ "")
    {s f : String} (hs : cleanLower s ≠ "") :
    ((feederEntries ps).filter fun e => e.1 = joinPath (cleanLower s) (cleanLower f)).map (·.2) =
      (ps.filter fun p => (cleanLower s, cleanLower f) ∈ p.groups).map (·.file) := by
  induction ps with
  | nil => rfl
  | cons p ps ih =>
    have ih := ih fun q hq => h q (List.mem_cons_of_mem _ hq)
    obtain ⟨hn, hg⟩ := h p List.mem_cons_self
    have hcons : feederEntries (p :: ps) = (p.groups.map fun g => (joinPath g.1 g.2, p.file)) ++ feederEntries ps := rfl
    rw [hcons, List.filter_append, List.map_append, ih]
    have hone : ((p.groups.map fun g => (joinPath g.1 g.2, p.file)).filter fun e => e.1 = joinPath (cleanLower s) (cleanLower f)) =
        if (cleanLower s, cleanLower f) ∈ p.groups then [(joinPath (cleanLower s) (cleanLower f), p.file)] else [] := by
      clear hcons ih h
      generalize p.groups = gs at hn hg
      induction gs with
      | nil => rfl
      | cons g gs ihg =>
        have ihg := ihg (List.nodup_cons.1 hn).2 fun g' hg' => hg g' (List.mem_cons_of_mem _ hg')
        obtain ⟨s', f', rfl, hs'⟩ := hg g List.mem_cons_self
        rw [List.map_cons, List.filter_cons, ihg]
        by_cases he : (cleanLower s', cleanLower f') = (cleanLower s, cleanLower f)
        · obtain ⟨h1, h2⟩ := Prod.mk.inj he
          have hnot : (cleanLower s, cleanLower f) ∉ gs := by rw [← he]; exact (List.nodup_cons.1 hn).1
          have hmem : (cleanLower s, cleanLower f) ∈ (cleanLower s', cleanLower f') :: gs := by rw [he]; exact List.mem_cons_self
          rw [if_neg hnot, h1, h2]
          simp
        · have hne : joinPath (cleanLower s') (cleanLower f') ≠ joinPath (cleanLower s) (cleanLower f) :=
            fun hj => he (joinPath_inj hs' hs (cleanLower_no_slash _) (cleanLower_no_slash _) hj)
          rw [if_neg (by simpa using hne)]
          have : ((cleanLower s, cleanLower f) ∈ (cleanLower s', cleanLower f') :: gs) ↔ (cleanLower s, cleanLower f) ∈ gs := by
            rw [List.mem_cons]
            exact ⟨fun h => h.elim (fun h => absurd h.symm he) id, .inr⟩
          simp only [this]
    rw [hone, List.filter_cons]
    by_cases hm : (cleanLower s, cleanLower f) ∈ p.groups
    · rw [if_pos hm, if_pos (by simpa using hm)]; rfl
    · rw [if_neg hm, if_neg (by simpa using hm)]; rfl

variable {K : Type} [Field K] [LinearOrder K]

/-- a feeder with files is one -/
theorem isFeeder_files {m : MasterState K} (hsf : m.sf = true) (hss : m.ss = true)
    (h : ∀ p ∈ m.phases, p.groups.Nodup ∧ ∀ g ∈ p.groups, ∃ s f, g = (cleanLower s, cleanLower f) ∧ cleanLower s ≠ "") {s f : String} (hs : cleanLower s ≠ "")
    (hp : ∃ p ∈ m.phases, (cleanLower s, cleanLower f) ∈ p.groups) : isFeeder m (cleanLower s) (cleanLower f) = true ∧
      ((feedersRedirect m.sf m.phases).lookup (joinPath (cleanLower s) (cleanLower f))).getD [] =
        (m.phases.filter fun p => (cleanLower s, cleanLower f) ∈ p.groups).map (·.file) := by
  have hfil := feederEntries_filter h (f := f) hs
  have hne : ((feederEntries m.phases).filter fun e => e.1 = joinPath (cleanLower s) (cleanLower f)) ≠ [] := by
    intro he
    rw [he] at hfil
    obtain ⟨p, hp1, hp2⟩ := hp
    have : p.file ∈ (m.phases.filter fun p => (cleanLower s, cleanLower f) ∈ p.groups).map (·.file) :=
      List.mem_map.2 ⟨p, List.mem_filter.2 ⟨hp1, by simpa using hp2⟩, rfl⟩
    rw [← hfil] at this
    cases this
  have hfr : (feedersRedirect m.sf m.phases).lookup (joinPath (cleanLower s) (cleanLower f)) =
      some ((m.phases.filter fun p => (cleanLower s, cleanLower f) ∈ p.groups).map (·.file)) := by
    rw [hsf, feedersRedirect_eq, lookup_appendAll, if_neg hne, hfil]
  have hsr : (substationsRedirect m.sf m.ss m.phases).lookup (joinPath (cleanLower s) (cleanLower f)) = none := by
    rw [hss, substationsRedirect_eq, lookup_appendAll, if_pos]
    rw [List.filter_eq_nil_iff]
    intro e he
    obtain ⟨p, hp, he⟩ := List.mem_flatMap.1 he
    obtain ⟨g, hg, rfl⟩ := List.mem_map.1 he
    obtain ⟨s', f', rfl, -⟩ := (h p hp).2 g hg
    simp only [decide_eq_true_eq]
    intro hj
    have := cleanLower_no_slash s'
    rw [hj, joinPath_toList hs] at this
    simp at this
  unfold isFeeder
  rw [hfr, hsr]
  exact ⟨rfl, rfl⟩

end Ditto.Dss
