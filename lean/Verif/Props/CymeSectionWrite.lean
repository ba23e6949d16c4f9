import Verif.Spec.CymeSectionWrite
import Verif.Lemmas.GlmParse
import Verif.Props.CymeRegWrite
import Mathlib.Data.List.Forall2
import Mathlib.Data.List.Sort
import Mathlib.Data.List.Nodup
import Mathlib.Data.List.Range
import Mathlib.Algebra.Field.Rat
import Mathlib.Algebra.Order.Field.Rat

/-! C120: sections and tables of lines in the CYME writer. -/
namespace Ditto.Cyme
open Ditto Glm Spec Ditto.Spec

/-! ### names -/

theorem shorten_short {hash : Text → Text} {id : Text} (h : id.length ≤ 64) : shorten hash id = id := by
  unfold shorten
  rw [if_neg (Nat.not_lt.mpr h)]

theorem stars_add (name : Text) (j : Nat) : name ++ List.replicate j '*' ++ ['*'] = name ++ List.replicate (j + 1) '*' := by
  rw [List.append_assoc, ← List.replicate_succ']

theorem stars_inj {name : Text} {i j : Nat} (h : name ++ List.replicate i '*' = name ++ List.replicate j '*') : i = j := by
  have := congrArg List.length h
  rw [List.length_append, List.length_append, List.length_replicate, List.length_replicate] at this
  omega

/-- names with less than `j` stars that are there -/
theorem stars_count {ids : List Text} {name : Text} {j : Nat} (h : ∀ i < j, name ++ List.replicate i '*' ∈ ids) :
    j ≤ ids.countP fun x => name.isPrefixOf x := by
  have hn : ((List.range j).map fun i => name ++ List.replicate i '*').Nodup :=
    (List.nodup_map_iff_inj_on List.nodup_range).mpr fun i _ k _ hik => stars_inj hik
  have hs : ((List.range j).map fun i => name ++ List.replicate i '*') ⊆ ids.filter fun x => name.isPrefixOf x := by
    intro x hx
    obtain ⟨i, hi, rfl⟩ := List.mem_map.mp hx
    exact List.mem_filter.mpr ⟨h i (List.mem_range.mp hi), List.isPrefixOf_iff_prefix.mpr (List.prefix_append _ _)⟩
  have hl := (hn.subperm hs).length_le
  rw [List.length_map, List.length_range] at hl
  rw [List.countP_eq_length_filter]
  exact hl

theorem freshId_of (hash : Text → Text) {ids : List Text} {name : Text} (hl : name.length + ids.countP (fun x => name.isPrefixOf x) ≤ 64) :
    ∀ (n j : Nat), j + n = ids.length + 1 → (∀ i < j, name ++ List.replicate i '*' ∈ ids) →
      ∃ id, freshId hash ids n (name ++ List.replicate j '*') = some id ∧ FreshName ids name id := by
  intro n
  induction n with
  | zero =>
    intro j hj h
    have := (stars_count h).trans List.countP_le_length
    omega
  | succ n ih =>
    intro j hj h
    rw [freshId]
    by_cases hm : name ++ List.replicate j '*' ∈ ids
    · rw [if_pos hm, stars_add]
      have h' : ∀ i < j + 1, name ++ List.replicate i '*' ∈ ids := by
        intro i hi
        rcases Nat.lt_succ_iff_lt_or_eq.mp hi with hi | rfl
        · exact h i hi
        · exact hm
      have hc := stars_count h'
      rw [shorten_short (by rw [List.length_append, List.length_replicate]; omega)]
      exact ih (j + 1) (by omega) h'
    · rw [if_neg hm]
      exact ⟨_, rfl, j, rfl, hm, h⟩

theorem fresh_length {ids : List Text} {name id : Text} (h : FreshName ids name id) (hl : name.length + ids.countP (fun x => name.isPrefixOf x) ≤ 64) :
    id.length ≤ 64 := by
  obtain ⟨k, rfl, -, hk⟩ := h
  have := stars_count hk
  rw [List.length_append, List.length_replicate]
  omega

/-! ### dictionaries of lists -/

theorem getEntry_push {V : Type} (k n : Text) (v : V) (d : List (Text × List V)) :
    getEntry n (pushEntry k v d) = if n = k then some (match getEntry k d with | none => [v] | some l => l ++ [v]) else getEntry n d := by
  unfold pushEntry
  cases getEntry k d with
  | none => exact getEntry_setEntry ..
  | some l => exact getEntry_setEntry ..

section
variable {N : Type}

/-- the values of a feeder, or nothing -/
def listed {V : Type} (l : List V) : Option (List V) := if l = [] then none else some l

theorem listed_push {V : Type} (l : List V) (v : V) : (match listed l with | none => [v] | some l => l ++ [v]) = l ++ [v] := by
  unfold listed
  by_cases h : l = []
  · rw [if_pos h, h]; rfl
  · rw [if_neg h]

theorem listed_append {V : Type} (l : List V) (v : V) : listed (l ++ [v]) = some (l ++ [v]) := by
  unfold listed
  rw [if_neg (List.append_ne_nil_of_right_ne_nil _ (List.cons_ne_nil _ _))]

theorem ofFeeder_append (f : Text) (before : List (SectionLine N × Text)) (l : SectionLine N) (id : Text) :
    ofFeeder f (before ++ [(l, id)]) = if l.feeder = some f then ofFeeder f before ++ [(l, id)] else ofFeeder f before := by
  unfold ofFeeder
  rw [List.filter_append]
  by_cases h : l.feeder = some f
  · rw [if_pos h, List.filter_cons_of_pos (p := fun p : SectionLine N × Text => decide (p.1.feeder = some f)) (decide_eq_true h), List.filter_nil]
  · rw [if_neg h, List.filter_cons_of_neg (p := fun p : SectionLine N × Text => decide (p.1.feeder = some f)) (fun hh => h (of_decide_eq_true hh)),
      List.filter_nil, List.append_nil]

variable [Field N] [LinearOrder N]

/-! ### tables -/

omit [Field N] [LinearOrder N] in
theorem kept_eq (l : SectionLine N) : l.kept = writtenWires l := by
  unfold SectionLine.kept writtenWires
  refine List.filter_congr fun w _ => ?_
  cases w.drop <;> rfl

omit [Field N] [LinearOrder N] in
theorem phases_eq (l : SectionLine N) : l.phases = phaseLetters l := by
  unfold SectionLine.phases phaseLetters
  rw [kept_eq]

theorem underground_iff (l : SectionLine N) : l.underground = true ↔ IsCable l := by
  unfold SectionLine.underground IsCable
  rw [Bool.or_eq_true]
  refine or_congr ?_ ?_
  · cases l.lineType with
    | none => exact ⟨fun h => (Bool.false_ne_true h).elim, fun ⟨_, h, _⟩ => nomatch h⟩
    | some t =>
      dsimp only
      rw [decide_eq_true_iff]
      exact ⟨fun h => ⟨t, rfl, h⟩, fun ⟨_, h, h'⟩ => by cases h; exact h'⟩
  · cases l.voltage with
    | none => exact ⟨fun h => (Bool.false_ne_true h).elim, fun ⟨_, h, _⟩ => nomatch h⟩
    | some t =>
      dsimp only
      rw [decide_eq_true_iff]
      exact ⟨fun h => ⟨t, rfl, h⟩, fun ⟨_, h, h'⟩ => by cases h; exact h'⟩

theorem kind_of (l : SectionLine N) : TableOf l l.kind := by
  unfold SectionLine.kind
  cases h1 : l.isFuse with
  | true => rw [if_pos rfl]; exact .fuse h1
  | false =>
  rw [if_neg Bool.false_ne_true]
  cases h2 : l.isRecloser with
  | true => rw [if_pos rfl]; exact .recloser h1 h2
  | false =>
  rw [if_neg Bool.false_ne_true]
  cases h3 : l.isBreaker with
  | true => rw [if_pos rfl]; exact .breaker h1 h2 h3
  | false =>
  rw [if_neg Bool.false_ne_true]
  cases h4 : l.isSwitch with
  | true => rw [if_pos rfl]; exact .switch h1 h2 h3 h4
  | false =>
  rw [if_neg Bool.false_ne_true]
  cases h5 : l.underground with
  | true => rw [if_pos rfl]; exact .underground h1 h2 h3 h4 ((underground_iff l).mp h5)
  | false =>
  rw [if_neg Bool.false_ne_true]
  have hc : ¬IsCable l := fun hh => by rw [(underground_iff l).mpr hh] at h5; cases h5
  rw [phases_eq]
  by_cases h6 : (phaseLetters l).length = 3 ∧ l.matrix = true
  · rw [if_pos h6]
    exact .overhead h1 h2 h3 h4 hc h6.1 h6.2
  · rw [if_neg h6]
    refine .byPhase h1 h2 h3 h4 hc ?_
    by_cases h7 : (phaseLetters l).length = 3
    · exact .inr (Bool.eq_false_iff.mpr fun h8 => h6 ⟨h7, h8⟩)
    · exact .inl h7

theorem sorted_of (ws : List SectionWire) : PhasesInOrder ws (sortedPhases ws) :=
  ⟨List.pairwise_insertionSort _ _, List.perm_insertionSort _ _⟩

/-- the row of a line -/
theorem lineText_of (id : Text) (l : SectionLine N) (h : HasPhase l) : ∃ row, lineText id l = .ok row ∧ TableRow id l l.kind row := by
  have hk := kind_of l
  have len : ∃ len, (l.length = some len ∨ (l.length = none ∧ len = [])) ∧ ∀ k : LineKind, k.device = false → lengthColumn k l = ',' :: len := by
    cases hl : l.length with
    | none => exact ⟨[], .inr ⟨rfl, rfl⟩, fun k hk => by unfold lengthColumn; rw [hk, hl]; rfl⟩
    | some t => exact ⟨t, .inl rfl, fun k hk => by unfold lengthColumn; rw [hk, hl]; rfl⟩
  obtain ⟨len, hlen, hcol⟩ := len
  have closed : ∃ c, (stateColumns .switch l = .ok (",M,".toList ++ c ++ ",0".toList) ∧ stateColumns .breaker l = .ok (",M,".toList ++ c ++ ",0".toList)) ∧
      ClosedText l c := by
    unfold stateColumns
    dsimp only
    rw [kept_eq]
    have hs := sorted_of ((writtenWires l).filter fun w => w.isOpen = some false)
    cases hp : sortedPhases ((writtenWires l).filter fun w => w.isOpen = some false) with
    | nil =>
      rw [hp] at hs
      refine ⟨"None".toList, ⟨?_, ?_⟩, .open hs⟩ <;> decide
    | cons p ps =>
      rw [hp] at hs
      exact ⟨_, ⟨rfl, rfl⟩, .closed hs⟩
  obtain ⟨c, ⟨hsw, hbr⟩, hc⟩ := closed
  have all : l.isFuse = true ∨ l.isRecloser = true → ∃ ps, (stateColumns .fuse l = .ok (",M,".toList ++ ps.flatten ++ ",0".toList) ∧
      stateColumns .recloser l = .ok (",M,".toList ++ ps.flatten ++ ",0".toList)) ∧ PhasesInOrder (writtenWires l) ps := by
    intro hf
    unfold stateColumns
    dsimp only
    rw [kept_eq]
    have hs := sorted_of (writtenWires l)
    cases hp : sortedPhases (writtenWires l) with
    | nil =>
      rw [hp] at hs
      obtain ⟨w, hw, hn⟩ := h hf
      have hm := hs.2.symm.subset (List.mem_filter.mpr ⟨List.mem_map_of_mem hw, decide_eq_true hn⟩)
      cases hm
    | cons p ps =>
      rw [hp] at hs
      exact ⟨p :: ps, ⟨rfl, rfl⟩, hs⟩
  unfold lineText
  generalize l.kind = k at hk
  cases hk with
  | fuse h1 =>
    obtain ⟨ps, ⟨h2, -⟩, h3⟩ := all (.inl h1)
    rw [h2]
    refine ⟨_, rfl, ?_⟩
    have := TableRow.fuse (id := id) h3
    refine Eq.mp (congrArg _ ?_) this
    show _ = id ++ l.code ++ [] ++ (",M,".toList ++ ps.flatten ++ ",0".toList) ++ ",0".toList ++ (',' :: id) ++ []
    rw [show ",0,0,".toList = ",0".toList ++ ",0".toList ++ [','] by decide]
    simp only [List.append_assoc, List.append_nil, List.nil_append, List.cons_append]
  | recloser h1 h2 =>
    obtain ⟨ps, ⟨-, h2⟩, h3⟩ := all (.inr h2)
    rw [h2]
    refine ⟨_, rfl, ?_⟩
    have := TableRow.recloser (id := id) h3
    refine Eq.mp (congrArg _ ?_) this
    show _ = id ++ l.code ++ [] ++ (",M,".toList ++ ps.flatten ++ ",0".toList) ++ ",0".toList ++ (',' :: id) ++ []
    rw [show ",0,0,".toList = ",0".toList ++ ",0".toList ++ [','] by decide]
    simp only [List.append_assoc, List.append_nil, List.nil_append, List.cons_append]
  | breaker =>
    rw [hbr]
    refine ⟨_, rfl, ?_⟩
    have := TableRow.breaker (id := id) hc
    refine Eq.mp (congrArg _ ?_) this
    show _ = id ++ l.code ++ [] ++ (",M,".toList ++ c ++ ",0".toList) ++ ",0".toList ++ (',' :: id) ++ []
    rw [show ",0,0,".toList = ",0".toList ++ ",0".toList ++ [','] by decide]
    simp only [List.append_assoc, List.append_nil, List.nil_append, List.cons_append]
  | switch =>
    rw [hsw]
    refine ⟨_, rfl, ?_⟩
    have := TableRow.switch (id := id) hc
    refine Eq.mp (congrArg _ ?_) this
    show _ = id ++ l.code ++ [] ++ (",M,".toList ++ c ++ ",0".toList) ++ ",0".toList ++ (',' :: id) ++ []
    rw [show ",0,0,".toList = ",0".toList ++ ",0".toList ++ [','] by decide]
    simp only [List.append_assoc, List.append_nil, List.nil_append, List.cons_append]
  | underground =>
    refine ⟨_, rfl, ?_⟩
    have := TableRow.underground (id := id) hlen
    refine Eq.mp (congrArg _ ?_) this
    show _ = id ++ l.code ++ lengthColumn .underground l ++ [] ++ ",0".toList ++ [] ++ ",10,2".toList
    rw [hcol _ rfl, show ",0,10,2".toList = ",0".toList ++ ",10,2".toList by decide]
    simp only [List.append_assoc, List.append_nil, List.nil_append, List.cons_append]
  | overhead =>
    refine ⟨_, rfl, ?_⟩
    have := TableRow.overhead (id := id) hlen
    refine Eq.mp (congrArg _ ?_) this
    show _ = id ++ l.code ++ lengthColumn .overhead l ++ [] ++ ",0".toList ++ [] ++ []
    rw [hcol _ rfl]
    simp only [List.append_assoc, List.append_nil, List.nil_append, List.cons_append]
  | byPhase =>
    refine ⟨_, rfl, ?_⟩
    have := TableRow.byPhase (id := id) hlen
    refine Eq.mp (congrArg _ ?_) this
    show _ = id ++ l.code ++ lengthColumn .byPhase l ++ [] ++ ",0".toList ++ [] ++ []
    rw [hcol _ rfl]
    simp only [List.append_assoc, List.append_nil, List.nil_append, List.cons_append]

omit [Field N] [LinearOrder N] in
theorem sectionText_of (l : SectionLine N) (id a b : Text) : SectionRowOf l id a b (sectionText id a b l) := by
  have index : ∀ o : Option Text, o = some (indexText o) ∨ (o = none ∧ indexText o = "0".toList) := by
    intro o
    cases o with
    | none => exact .inr ⟨rfl, rfl⟩
    | some t => exact .inl rfl
  refine ⟨indexText l.startIndex, indexText l.stopIndex, index _, index _, ?_⟩
  unfold sectionText
  rw [phases_eq]
  simp only [withCommas, joinCells, List.flatMap_cons, List.flatMap_nil, List.append_nil, List.cons_append]

/-! ### all lines -/

/-- what holds after some lines -/
structure DoneWith (done : List (SectionLine N × Text)) (s : SectionState) : Prop where
  written : WrittenFor done s
  ids : ∀ f, getEntry f s.ids = listed ((ofFeeder f done).map (·.2))
  names : ∀ p ∈ done, ∃ a b k, p.1.start = some a ∧ p.1.stop = some b ∧ p.2 = (a ++ '_' :: b) ++ List.replicate k '*'

omit [Field N] [LinearOrder N] in
theorem near_count {done : List (SectionLine N × Text)} (name f : Text)
    (hn : ∀ p ∈ done, ∃ a b k, p.1.start = some a ∧ p.1.stop = some b ∧ p.2 = (a ++ '_' :: b) ++ List.replicate k '*') :
    ((ofFeeder f done).map (·.2)).countP (fun x => name.isPrefixOf x) ≤ (done.map (·.1)).countP (near name) := by
  rw [List.countP_map, List.countP_map]
  refine (List.Sublist.countP_le (List.filter_sublist (l := done))).trans ?_
  refine List.countP_mono_left fun p hp h => ?_
  obtain ⟨a, b, k, h1, h2, h3⟩ := hn p hp
  have h : name.isPrefixOf p.2 = true := h
  show near name p.1 = true
  unfold near
  rw [h1, h2]
  dsimp only
  rw [Bool.or_eq_true, List.isPrefixOf_iff_prefix, List.isPrefixOf_iff_prefix]
  rw [List.isPrefixOf_iff_prefix, h3] at h
  exact List.prefix_or_prefix_of_prefix (List.prefix_append _ _) h

omit [Field N] [LinearOrder N] in
theorem newId_of (hash : Text → Text) {done : List (SectionLine N × Text)} {ids : List (Text × List Text)} {a b f : Text}
    (hi : getEntry f ids = listed ((ofFeeder f done).map (·.2)))
    (hl : (a ++ '_' :: b).length + ((ofFeeder f done).map (·.2)).countP (fun x => (a ++ '_' :: b).isPrefixOf x) ≤ 64) :
    ∃ id, newSectionId hash ids (some f) a b = .ok id ∧ FreshName ((ofFeeder f done).map (·.2)) (a ++ '_' :: b) id := by
  unfold newSectionId
  dsimp only
  rw [hi]
  generalize (ofFeeder f done).map (·.2) = before at hl
  unfold listed
  by_cases he : before = []
  · rw [if_pos he]
    refine ⟨_, congrArg Except.ok (shorten_short (by omega)), 0, ?_, ?_, fun j hj => absurd hj (Nat.not_lt_zero j)⟩
    · rw [List.replicate_zero, List.append_nil]
    · rw [he]; exact List.not_mem_nil
  · rw [if_neg he]
    dsimp only
    obtain ⟨id, h1, h2⟩ := freshId_of hash hl (before.length + 1) 0 (by omega) (fun j hj => absurd hj (Nat.not_lt_zero j))
    rw [List.replicate_zero, List.append_nil] at h1
    rw [h1]
    exact ⟨id, congrArg Except.ok (shorten_short (fresh_length h2 hl)), h2⟩

/-- one line -/
theorem sectionStep_of (hash : Text → Text) {done : List (SectionLine N × Text)} {s : SectionState} {l : SectionLine N} {a b f : Text} (hd : DoneWith done s)
    (hf : FeederLine l a b f) (hp : HasPhase l)
    (hl : (a ++ '_' :: b).length + (done.map (·.1)).countP (near (a ++ '_' :: b)) ≤ 64) :
    ∃ id s', sectionStep hash s l = .ok s' ∧ FreshName ((ofFeeder f done).map (·.2)) (a ++ '_' :: b) id ∧ DoneWith (done ++ [(l, id)]) s' := by
  obtain ⟨id, h1, h2⟩ := newId_of hash (hd.ids f) ((Nat.add_le_add_left (near_count _ f hd.names) _).trans hl)
  obtain ⟨row, h3, h4⟩ := lineText_of id l hp
  have h5 : networkOf s.last l = .ok f := by
    unfold networkOf
    rw [hf.outside, hf.feeder]
    dsimp only
    rw [if_neg Bool.false_ne_true, if_neg hf.named]
  refine ⟨id, { ids := noteId l.feeder id s.ids, networks := pushEntry f (sectionText id a b l) s.networks, last := some f
                inter := s.inter ++ l.positions.zipIdx.map (fun p => (id, p.2, p.1.1, p.1.2)), rows := s.rows ++ [(l.kind, row)] }, ?_, h2, ?_⟩
  · unfold sectionStep
    rw [hf.start, hf.stop]
    dsimp only
    rw [hf.feeder, h1]
    dsimp only
    rw [h3]
    dsimp only
    rw [h5]
  · refine ⟨⟨?_, ?_, ?_⟩, ?_, ?_⟩
    · intro g
      dsimp only
      rw [getEntry_push, ofFeeder_append, hf.feeder]
      by_cases hg : g = f
      · subst hg
        rw [if_pos rfl, if_pos rfl]
        have hr : ∃ a' b', (l, id).1.start = some a' ∧ (l, id).1.stop = some b' ∧ SectionRowOf (l, id).1 (l, id).2 a' b' (sectionText id a b l) :=
          ⟨a, b, hf.start, hf.stop, sectionText_of l id a b⟩
        refine .inr ?_
        rcases hd.written.networks g with ⟨hn, hg⟩ | ⟨rs, -, hg, hall⟩
        · rw [hn, hg]
          exact ⟨_, List.cons_ne_nil _ _, rfl, .cons hr .nil⟩
        · rw [hg]
          exact ⟨_, List.append_ne_nil_of_right_ne_nil _ (List.cons_ne_nil _ _), rfl, List.rel_append hall (.cons hr .nil)⟩
      · rw [if_neg hg, if_neg (fun h => hg (Option.some.inj h).symm)]
        exact hd.written.networks g
    · exact List.rel_append hd.written.rows (.cons ⟨kind_of l, h4⟩ .nil)
    · dsimp only
      rw [hd.written.points, List.flatMap_append, List.flatMap_cons, List.flatMap_nil, List.append_nil]
    · intro g
      dsimp only
      rw [hf.feeder]
      show getEntry g (pushEntry f id s.ids) = _
      rw [getEntry_push, ofFeeder_append, hf.feeder]
      by_cases hg : g = f
      · subst hg
        rw [if_pos rfl, if_pos rfl, hd.ids, listed_push, List.map_append, List.map_cons, List.map_nil, listed_append]
      · rw [if_neg hg, if_neg (fun h => hg (Option.some.inj h).symm)]
        exact hd.ids g
    · intro p hp
      rcases List.mem_append.mp hp with hp | hp
      · exact hd.names p hp
      · rw [List.mem_singleton.mp hp]
        obtain ⟨k, hk, -, -⟩ := h2
        exact ⟨a, b, k, hf.start, hf.stop, hk⟩

/-- lines that are not dropped -/
theorem loop_of (hash : Text → Text) (all : List (SectionLine N)) (hr : Room all) : ∀ (ls : List (SectionLine N)) (done : List (SectionLine N × Text))
    (s : SectionState), DoneWith done s → done.map (·.1) ++ ls.filter (fun l => l.drop = false) = all →
    (∀ l ∈ ls, l.drop = false → (∃ a b f, FeederLine l a b f) ∧ HasPhase l) →
    ∃ ids s', sectionLoop hash s ls = .ok s' ∧ NamesOf done (ls.filter fun l => l.drop = false) ids ∧
      DoneWith (done ++ (ls.filter fun l => l.drop = false).zip ids) s' := by
  intro ls
  induction ls with
  | nil =>
    intro done s hd _ _
    refine ⟨[], s, rfl, .nil, ?_⟩
    rw [List.filter_nil, List.zip_nil_left, List.append_nil]
    exact hd
  | cons l ls ih =>
    intro done s hd hall hls
    rw [sectionLoop]
    cases hdrop : l.drop with
    | true =>
      rw [if_pos rfl]
      rw [List.filter_cons_of_neg (p := fun l : SectionLine N => decide (l.drop = false)) (by rw [hdrop]; decide)] at hall ⊢
      exact ih done s hd hall fun l' h => hls l' (.tail _ h)
    | false =>
      rw [if_neg Bool.false_ne_true]
      rw [List.filter_cons_of_pos (p := fun l : SectionLine N => decide (l.drop = false)) (decide_eq_true hdrop)] at hall ⊢
      obtain ⟨⟨a, b, f, hf⟩, hp⟩ := hls l (.head _) hdrop
      have hm : l ∈ all := by rw [← hall]; exact List.mem_append_right _ (.head _)
      have hroom := hr l hm a b hf.start hf.stop
      have hc : (done.map (·.1)).countP (near (a ++ '_' :: b)) ≤ all.countP (near (a ++ '_' :: b)) := by
        rw [← hall]; exact (List.sublist_append_left _ _).countP_le
      obtain ⟨id, s', h1, h2, h3⟩ := sectionStep_of hash hd hf hp (by omega)
      rw [h1]
      dsimp only
      obtain ⟨ids, s'', h4, h5, h6⟩ := ih (done ++ [(l, id)]) s' h3
        (by rw [List.map_append, List.map_cons, List.map_nil, List.append_assoc]; exact hall) (fun l' h => hls l' (.tail _ h))
      refine ⟨id :: ids, s'', h4, .cons hf h2 h5, ?_⟩
      rw [List.zip_cons_cons]
      rw [List.append_assoc] at h6
      exact h6

omit [Field N] [LinearOrder N] in
theorem sectionNames_nodup {before : List (SectionLine N × Text)} {ls : List (SectionLine N)} {ids : List Text} (h : NamesOf before ls ids) :
    (∀ f, ((ofFeeder f before).map (·.2)).Nodup) → ∀ f, ((ofFeeder f (before ++ ls.zip ids)).map (·.2)).Nodup := by
  induction h with
  | nil =>
    intro hb f
    rw [List.zip_nil_left, List.append_nil]
    exact hb f
  | @cons before l a b f id ls ids hf hn _ ih =>
    intro hb g
    have := ih (fun g' => by
      rw [ofFeeder_append, hf.feeder]
      by_cases hg : f = g'
      · subst hg
        rw [if_pos rfl, List.map_append]
        obtain ⟨k, -, hk, -⟩ := hn
        exact (hb f).append (List.nodup_singleton _) fun x hx hx' => hk (by rw [← show x = id from List.mem_singleton.mp hx']; exact hx)
      · rw [if_neg (fun h => hg (Option.some.inj h))]
        exact hb g') g
    rw [List.append_assoc] at this
    exact this

/-- **C120**, sections: lines of feeders between two nodes get sections with names that no other section of the feeder has. Each feeder gets the rows of
its own lines in their order, each line gets a row in the table of its kind, and the points between the nodes are those of the line. Missing: columns for
the equipment, lines in substations. -/
theorem C120_sections_partial (hash : Text → Text) (lines : List (SectionLine N)) (hr : Room (lines.filter fun l => l.drop = false))
    (hf : ∀ l ∈ lines, l.drop = false → (∃ a b f, FeederLine l a b f) ∧ HasPhase l) :
    ∃ ids s, sectionLoop hash {} lines = .ok s ∧ NamesOf [] (lines.filter fun l => l.drop = false) ids ∧
      (∀ f, ((ofFeeder f ((lines.filter fun l => l.drop = false).zip ids)).map (·.2)).Nodup) ∧
      WrittenFor ((lines.filter fun l => l.drop = false).zip ids) s := by
  have h0 : DoneWith ([] : List (SectionLine N × Text)) {} :=
    ⟨⟨fun f => .inl ⟨rfl, rfl⟩, .nil, rfl⟩, fun f => rfl, fun p hp => (List.not_mem_nil hp).elim⟩
  obtain ⟨ids, s, h1, h2, h3⟩ := loop_of hash _ hr lines [] {} h0 (List.nil_append _) hf
  exact ⟨ids, s, h1, h2, sectionNames_nodup h2 (fun f => List.nodup_nil), h3.written⟩

omit [Field N] [LinearOrder N] in
theorem cutAt_none : ∀ t : Text, ¬"ation_".toList <:+: t → cutAt "ation_".toList t = none := by
  intro t
  induction t with
  | nil => intro _; rfl
  | cons c t ih =>
    intro h
    rw [cutAt, if_neg (fun hp => h (List.isPrefixOf_iff_prefix.mp hp).isInfix), ih fun hh => h (hh.trans (List.suffix_cons c t).isInfix)]
    rfl

omit [Field N] [LinearOrder N] in
/-- **C120**, lines in substations: they get into the network of their substation, which the table of the sections names in a row of its own and in each of
its rows, if the name does not contain "ation_". -/
theorem C120_substation (l : SectionLine N) (last : Option Text) (heads : List (Text × Text)) {s : Text} (hl : l.isSubstation = true)
    (hs : l.substation = some s) (hn : s ≠ []) (ha : ¬"ation_".toList <:+: s) (rows : List Text) :
    ∃ net, networkOf last l = .ok net ∧
      sectionTable heads [(net, rows)] = .ok (("SUBSTATION=".toList ++ joinCells [s, [], "1".toList]) :: rows.map fun r => joinCells [r, s]) := by
  refine ⟨"substation_".toList ++ s, ?_, ?_⟩
  · unfold networkOf
    rw [hl, hs]
    dsimp only
    rw [if_pos rfl, if_neg hn]
  · have hsub : inText "substation".toList ("substation_".toList ++ s) = true :=
      (inText_iff _ _).mpr (List.IsPrefix.isInfix ⟨'_' :: s, rfl⟩)
    have hcut : subnetName ("substation_".toList ++ s) = .ok s := by
      unfold subnetName
      rw [show cutAt "ation_".toList ("substation_".toList ++ s) = some ("subst".toList, s) from rfl]
      dsimp only
      rw [cutAt_none s ha]
    rw [sectionTable, sectionTable]
    unfold networkHeader
    rw [if_pos hsub, hcut]
    dsimp only
    rw [List.append_nil]
    refine congrArg Except.ok (congrArg₂ List.cons ?_ rfl)
    rw [show ",,1".toList = ',' :: ',' :: "1".toList by decide]
    simp only [joinCells, List.append_assoc, List.nil_append]

/-! ### what is not as expected -/

/-- **C120**, parallel lines with long names: names of more than 64 characters are replaced only after the test whether the feeder has them, thus two
lines of a feeder between the same nodes get the same section. -/
theorem C120_parallel_violated (hash : Text → Text) (hs : ∀ t, (hash t).length ≤ 64) {l l' : SectionLine N} {a b f : Text} (hl : FeederLine l a b f)
    (hl' : FeederLine l' a b f) (hp : HasPhase l) (hp' : HasPhase l') (hd : l.drop = false) (hd' : l'.drop = false)
    (long : 64 < (a ++ '_' :: b).length) :
    ∃ s, sectionLoop hash {} [l, l'] = .ok s ∧ getEntry f s.ids = some [hash (a ++ '_' :: b), hash (a ++ '_' :: b)] := by
  obtain ⟨row, h1, -⟩ := lineText_of (hash (a ++ '_' :: b)) l hp
  obtain ⟨row', h2, -⟩ := lineText_of (hash (a ++ '_' :: b)) l' hp'
  have net : ∀ (last : Option Text) (x : SectionLine N), FeederLine x a b f → networkOf last x = .ok f := by
    intro last x hf
    unfold networkOf
    rw [hf.outside, hf.feeder]
    dsimp only
    rw [if_neg Bool.false_ne_true, if_neg hf.named]
  have sh : shorten hash (a ++ '_' :: b) = hash (a ++ '_' :: b) := by unfold shorten; rw [if_pos long]
  have first : sectionStep hash {} l = .ok
      { ids := [(f, [hash (a ++ '_' :: b)])], networks := [(f, [sectionText (hash (a ++ '_' :: b)) a b l])], last := some f
        inter := l.positions.zipIdx.map (fun p => (hash (a ++ '_' :: b), p.2, p.1.1, p.1.2)), rows := [(l.kind, row)] } := by
    unfold sectionStep
    rw [hl.start, hl.stop]
    dsimp only
    have id1 : newSectionId hash [] l.feeder a b = .ok (hash (a ++ '_' :: b)) := by
      rw [hl.feeder]
      exact congrArg Except.ok sh
    rw [id1]
    dsimp only
    rw [h1]
    dsimp only
    rw [net _ l hl, hl.feeder]
    rfl
  rw [sectionLoop, hd, if_neg Bool.false_ne_true, first]
  dsimp only
  rw [sectionLoop, hd', if_neg Bool.false_ne_true]
  have hne : (a ++ '_' :: b) ∉ [hash (a ++ '_' :: b)] := by
    intro hm
    have := congrArg List.length (List.mem_singleton.mp hm)
    have := hs (a ++ '_' :: b)
    omega
  have id2 : newSectionId hash [(f, [hash (a ++ '_' :: b)])] l'.feeder a b = .ok (hash (a ++ '_' :: b)) := by
    rw [hl'.feeder]
    unfold newSectionId
    dsimp only
    rw [getEntry, if_pos rfl]
    dsimp only
    rw [List.length_singleton, freshId, if_neg hne]
    exact congrArg Except.ok sh
  unfold sectionStep
  rw [hl'.start, hl'.stop]
  dsimp only
  rw [id2]
  dsimp only
  rw [h2]
  dsimp only
  rw [net _ l' hl']
  dsimp only
  rw [sectionLoop]
  refine ⟨_, rfl, ?_⟩
  rw [hl'.feeder]
  show getEntry f (pushEntry f (hash (a ++ '_' :: b)) [(f, [hash (a ++ '_' :: b)])]) = _
  rw [getEntry_push, if_pos rfl, getEntry, if_pos rfl]
  rfl

/-- **C120**, networks: a line without a feeder that is not in a substation is written into the network of the object before; if there is none, the
writer fails. -/
theorem C120_network_violated {l : SectionLine N} (ho : l.isSubstation = false) (hf : l.feeder = none ∨ l.feeder = some []) (last : Text) :
    networkOf (some last) l = .ok last ∧ networkOf none l = .error .unboundLocalError := by
  unfold networkOf
  rw [ho]
  rcases hf with hf | hf
  · rw [hf]; exact ⟨rfl, rfl⟩
  · rw [hf]; exact ⟨rfl, rfl⟩

/-- The same for a line of a substation without a name, even if it has a feeder. -/
theorem C120_unnamed_violated {l : SectionLine N} (ho : l.isSubstation = true) (hf : l.substation = none ∨ l.substation = some []) (last : Text) :
    networkOf (some last) l = .ok last ∧ networkOf none l = .error .unboundLocalError := by
  unfold networkOf
  rw [ho]
  rcases hf with hf | hf
  · rw [hf]; exact ⟨rfl, rfl⟩
  · rw [hf]; exact ⟨rfl, rfl⟩

/-- **C120**, states: wires of a switch or breaker whose state is not known are written as open. -/
theorem C120_open_violated {l : SectionLine N} (h : ∀ w ∈ l.wires, w.isOpen = none) :
    stateColumns .switch l = .ok ",M,None,0".toList ∧ stateColumns .breaker l = .ok ",M,None,0".toList := by
  have : l.kept.filter (fun w => w.isOpen = some false) = [] := by
    refine List.filter_eq_nil_iff.mpr fun w hw => ?_
    rw [h w (List.mem_of_mem_filter hw)]
    decide
  unfold stateColumns
  dsimp only
  rw [this]
  exact ⟨rfl, rfl⟩

/-- **C120**, names of substations: what follows a second "ation_" in the name of the network is lost, thus different substations are written with the same
name. -/
theorem C120_substation_violated (heads : List (Text × Text)) :
    networkHeader heads ("substation_".toList ++ "x".toList) = .ok ("SUBSTATION=x,,1".toList, "x".toList) ∧
      networkHeader heads ("substation_".toList ++ "xation_1".toList) = .ok ("SUBSTATION=x,,1".toList, "x".toList) ∧
      networkHeader heads ("substation_".toList ++ "xation_2".toList) = .ok ("SUBSTATION=x,,1".toList, "x".toList) := by
  unfold networkHeader
  rw [if_pos (by decide +kernel), if_pos (by decide +kernel), if_pos (by decide +kernel)]
  rw [show subnetName ("substation_".toList ++ "x".toList) = .ok "x".toList by rfl,
    show subnetName ("substation_".toList ++ "xation_1".toList) = .ok "x".toList by rfl,
    show subnetName ("substation_".toList ++ "xation_2".toList) = .ok "x".toList by rfl]
  exact ⟨rfl, rfl, rfl⟩

/-- **C120**, feeders: sections of two feeders can have the same name, as the names of the nodes are only put together. -/
theorem C120_feeders_violated (hash : Text → Text) {l l' : SectionLine N} {x y z f f' : Text} (hl : FeederLine l (x ++ '_' :: y) z f)
    (hl' : FeederLine l' x (y ++ '_' :: z) f') (hp : HasPhase l) (hp' : HasPhase l') (hd : l.drop = false) (hd' : l'.drop = false) (hn : f ≠ f')
    (short : (x ++ '_' :: (y ++ '_' :: z)).length + 2 ≤ 64) :
    ∃ s, sectionLoop hash {} [l, l'] = .ok s ∧ NamesOf [] [l, l'] [x ++ '_' :: (y ++ '_' :: z), x ++ '_' :: (y ++ '_' :: z)] ∧
      WrittenFor [(l, x ++ '_' :: (y ++ '_' :: z)), (l', x ++ '_' :: (y ++ '_' :: z))] s := by
  have hk : [l, l'].filter (fun l => l.drop = false) = [l, l'] := by
    rw [List.filter_cons_of_pos (p := fun l : SectionLine N => decide (l.drop = false)) (decide_eq_true hd),
      List.filter_cons_of_pos (p := fun l : SectionLine N => decide (l.drop = false)) (decide_eq_true hd'), List.filter_nil]
  have base : (x ++ '_' :: y) ++ '_' :: z = x ++ '_' :: (y ++ '_' :: z) := by rw [List.append_assoc, List.cons_append]
  have room : Room [l, l'] := by
    intro k hk a b ha hb
    have hc : [l, l'].countP (near (a ++ '_' :: b)) ≤ 2 := List.countP_le_length
    have : (a ++ '_' :: b).length = (x ++ '_' :: (y ++ '_' :: z)).length := by
      rcases List.mem_cons.mp hk with rfl | hk
      · rw [hl.start] at ha
        rw [hl.stop] at hb
        cases ha
        cases hb
        rw [base]
      · rw [List.mem_singleton.mp hk] at ha hb
        rw [hl'.start] at ha
        rw [hl'.stop] at hb
        cases ha
        cases hb
        rfl
    omega
  have none_before : ∀ {n id : Text}, FreshName [] n id → id = n := by
    rintro n id ⟨k, h1, -, h3⟩
    cases k with
    | zero => rw [h1, List.replicate_zero, List.append_nil]
    | succ k => exact (List.not_mem_nil (h3 0 (Nat.succ_pos k))).elim
  obtain ⟨ids, s, h1, h2, -, h3⟩ := C120_sections_partial hash [l, l'] (by rw [hk]; exact room) (fun k hk _ => by
    rcases List.mem_cons.mp hk with rfl | hk
    · exact ⟨⟨_, _, _, hl⟩, hp⟩
    · rw [List.mem_singleton.mp hk]
      exact ⟨⟨_, _, _, hl'⟩, hp'⟩)
  rw [hk] at h2 h3
  have hids : ids = [x ++ '_' :: (y ++ '_' :: z), x ++ '_' :: (y ++ '_' :: z)] := by
    cases h2 with
    | @cons _ _ a b g id _ ids' hf hfr h2 =>
      have e1 := hl.start.symm.trans hf.start
      have e2 := hl.stop.symm.trans hf.stop
      cases e1
      cases e2
      have hid := none_before hfr
      cases h2 with
      | @cons _ _ a' b' g' id' _ ids'' hf' hfr' h2' =>
        cases h2'
        have e1 := hl'.start.symm.trans hf'.start
        have e2 := hl'.stop.symm.trans hf'.stop
        have e3 := hl'.feeder.symm.trans hf'.feeder
        cases e1
        cases e2
        cases e3
        have he : ofFeeder f' ([] ++ [(l, id)]) = [] := by
          rw [ofFeeder_append, hl.feeder, if_neg (fun h => hn (Option.some.inj h))]
          rfl
        rw [he] at hfr'
        rw [none_before hfr', hid, base]
  rw [hids] at h2 h3
  exact ⟨s, h1, h2, h3⟩

/-- **C120**, table of sections: for feeders that have an object, and whose names do not contain "substation" and are not "subtransmission", the row of the
feeder with its head node, then its sections with an empty column for the network. -/
theorem C120_table (heads : List (Text × Text)) (networks : List (Text × List Text))
    (h : ∀ n ∈ networks, ∃ node, getEntry n.1 heads = some node ∧ ¬"substation".toList <:+: n.1 ∧ n.1 ≠ "subtransmission".toList) :
    ∃ blocks : List (List Text), sectionTable heads networks = .ok blocks.flatten ∧
      List.Forall₂ (fun (n : Text × List Text) block => ∃ node, getEntry n.1 heads = some node ∧
        block = ("FEEDER=".toList ++ joinCells [n.1, node, "1".toList]) :: n.2.map fun r => r ++ [',']) networks blocks := by
  induction networks with
  | nil => exact ⟨[], rfl, .nil⟩
  | cons n ns ih =>
    obtain ⟨blocks, h1, h2⟩ := ih fun m hm => h m (.tail _ hm)
    obtain ⟨node, h3, h4, h5⟩ := h n (.head _)
    refine ⟨(("FEEDER=".toList ++ joinCells [n.1, node, "1".toList]) :: n.2.map fun r => r ++ [',']) :: blocks, ?_, .cons ⟨node, h3, rfl⟩ h2⟩
    obtain ⟨net, rows⟩ := n
    dsimp only at h3 h4 h5 ⊢
    rw [sectionTable, h1]
    have hh : networkHeader heads net = .ok ("FEEDER=".toList ++ joinCells [net, node, "1".toList], []) := by
      unfold networkHeader
      rw [if_neg (fun hh => h4 ((inText_iff _ _).mp hh)), h3]
      dsimp only
      rw [if_neg h5]
      refine congrArg (fun t => Except.ok (t, [])) ?_
      rw [show ",1".toList = ',' :: "1".toList by decide]
      simp only [joinCells, List.append_assoc, List.cons_append]
    rw [hh]
    rfl

/-- **C120**, errors: lines without one of the nodes, fuses and reclosers with neutral wires only, networks that are not those of a feeder object. -/
theorem C120_errors (hash : Text → Text) (s : SectionState) (l : SectionLine N) (heads : List (Text × Text)) :
    (l.start = none ∨ l.stop = none → sectionStep hash s l = .error .valueError) ∧
      ((∀ w ∈ writtenWires l, w.phase ∈ ["N".toList, "N1".toList, "N2".toList]) → l.isFuse = true ∨ l.isRecloser = true →
        ∀ id, lineText id l = .error .typeError) ∧
      (∀ net, ¬"substation".toList <:+: net → getEntry net heads = none → networkHeader heads net = .error .keyError) ∧
      (∀ net, "substation".toList <:+: net → ¬"ation_".toList <:+: net → networkHeader heads net = .error .indexError) := by
  refine ⟨?_, ?_, ?_, ?_⟩
  · rintro (h | h)
    · unfold sectionStep
      rw [h]
    · unfold sectionStep
      rw [h]
      cases l.start <;> rfl
  · intro hw hf id
    have hs : sortedPhases l.kept = [] := by
      have := (sorted_of l.kept).2
      rw [kept_eq] at this ⊢
      refine List.Perm.eq_nil (this.trans (List.Perm.of_eq (List.filter_eq_nil_iff.mpr fun p hp => ?_)))
      obtain ⟨w, hm, rfl⟩ := List.mem_map.mp hp
      exact fun hh => of_decide_eq_true hh (hw w hm)
    have hk : l.kind = .fuse ∨ l.kind = .recloser := by
      unfold SectionLine.kind
      cases h1 : l.isFuse with
      | true => exact .inl (if_pos rfl)
      | false =>
        rw [h1] at hf
        rw [if_neg Bool.false_ne_true, hf.resolve_left Bool.false_ne_true]
        exact .inr (if_pos rfl)
    unfold lineText stateColumns
    rcases hk with hk | hk <;> rw [hk, hs]
  · intro net h1 h2
    unfold networkHeader
    rw [if_neg (fun hh => h1 ((inText_iff _ _).mp hh)), h2]
  · intro net h1 h2
    unfold networkHeader
    rw [if_pos ((inText_iff _ _).mpr h1)]
    unfold subnetName
    rw [cutAt_none net h2]

end

/-! ### examples -/

def threeWires : List SectionWire := [{ phase := "B".toList }, { phase := "A".toList }, { phase := "C".toList }, { phase := "N".toList }]

/-- an overhead line with three phases -/
def overLine : SectionLine ℚ :=
  { start := some "n1".toList, stop := some "n2".toList, feeder := some "f".toList, wires := threeWires, voltage := some 7200, length := some "5.0".toList
    positions := [("1".toList, "2".toList), ("3".toList, "4".toList)], code := ",line_1".toList }

/-- a breaker between the same nodes -/
def breakerLine : SectionLine ℚ :=
  { start := some "n1".toList, stop := some "n2".toList, feeder := some "f".toList, isBreaker := true, startIndex := some "2".toList
    wires := [{ phase := "C".toList, isOpen := some false }, { phase := "A".toList, isOpen := some false }, { phase := "B".toList, isOpen := some true }] }

/-- a line that is dropped -/
def gone : SectionLine ℚ := { drop := true, start := none, stop := none }

/-- a line of one phase in another feeder, with low voltage -/
def lowLine : SectionLine ℚ :=
  { start := some "n1".toList, stop := some "n2".toList, feeder := some "g".toList, voltage := some 240, wires := [{ phase := "B".toList }] }

/-- a fuse -/
def fuseLine : SectionLine ℚ :=
  { start := some "n2".toList, stop := some "n3".toList, feeder := some "f".toList, isFuse := true, isSwitch := true
    wires := [{ phase := "C".toList }, { phase := "A".toList }, { phase := "B".toList, drop := true }, { phase := "N".toList }] }

def exampleLines : List (SectionLine ℚ) := [overLine, gone, breakerLine, lowLine, fuseLine]

example : Room (exampleLines.filter fun l => l.drop = false) := by
  have h : ∀ l ∈ exampleLines.filter (fun l => l.drop = false), ∀ p ∈ l.start.toList, ∀ q ∈ l.stop.toList,
      (p ++ '_' :: q).length + (exampleLines.filter fun l => l.drop = false).countP (near (p ++ '_' :: q)) ≤ 64 := by decide +kernel
  intro l hl a b ha hb
  exact h l hl a (by rw [ha]; exact .head _) b (by rw [hb]; exact .head _)

example : ∀ l ∈ exampleLines, l.drop = false → (∃ a b f, FeederLine l a b f) ∧ HasPhase l := by
  intro l hl hd
  have hn : ∀ c : Char, [c] ≠ [] := fun c => List.cons_ne_nil _ _
  unfold exampleLines at hl
  rcases List.mem_cons.mp hl with rfl | hl
  · exact ⟨⟨_, _, _, rfl, rfl, rfl, hn _, rfl⟩, fun h => absurd h (by decide)⟩
  rcases List.mem_cons.mp hl with rfl | hl
  · cases hd
  rcases List.mem_cons.mp hl with rfl | hl
  · exact ⟨⟨_, _, _, rfl, rfl, rfl, hn _, rfl⟩, fun h => absurd h (by decide)⟩
  rcases List.mem_cons.mp hl with rfl | hl
  · exact ⟨⟨_, _, _, rfl, rfl, rfl, hn _, rfl⟩, fun h => absurd h (by decide)⟩
  rw [List.mem_singleton.mp hl]
  exact ⟨⟨_, _, _, rfl, rfl, rfl, hn _, rfl⟩, fun _ => ⟨_, .head _, by decide⟩⟩

example : (sectionLoop id {} exampleLines).toOption = some
    { ids := [("f".toList, ["n1_n2".toList, "n1_n2*".toList, "n2_n3".toList]), ("g".toList, ["n1_n2".toList])]
      networks := [("f".toList, ["n1_n2,n1,0,n2,0,BAC".toList, "n1_n2*,n1,2,n2,0,CAB".toList, "n2_n3,n2,0,n3,0,CA".toList]),
        ("g".toList, ["n1_n2,n1,0,n2,0,B".toList])]
      last := some "f".toList
      inter := [("n1_n2".toList, 0, "1".toList, "2".toList), ("n1_n2".toList, 1, "3".toList, "4".toList)]
      rows := [(.overhead, "n1_n2,line_1,5.0,0".toList), (.breaker, "n1_n2*,M,AC,0,0,n1_n2*".toList), (.underground, "n1_n2,,0,10,2".toList),
        (.fuse, "n2_n3,M,AC,0,0,n2_n3".toList)] } := by decide +kernel

/-- tables for a line with two phases, a recloser, a switch and a line below ground -/
example : ({ overLine with wires := threeWires.tail } : SectionLine ℚ).kind = .byPhase ∧ ({ overLine with matrix := false } : SectionLine ℚ).kind = .byPhase ∧
    ({ overLine with isRecloser := true, isBreaker := true } : SectionLine ℚ).kind = .recloser ∧
    ({ overLine with isSwitch := true } : SectionLine ℚ).kind = .switch ∧ ({ overLine with voltage := some 600 } : SectionLine ℚ).kind = .overhead ∧
    ({ overLine with lineType := some "UnderGround".toList } : SectionLine ℚ).kind = .underground := by decide +kernel

/-- a substation between the lines of a feeder, then a line without a feeder -/
example : ((sectionLoop id {} [overLine, { overLine with isSubstation := true, substation := some "s".toList }, { overLine with feeder := none }]).toOption.map
    (·.networks)) = some [("f".toList, ["n1_n2,n1,0,n2,0,BAC".toList]),
      ("substation_s".toList, ["n1_n2*,n1,0,n2,0,BAC".toList, "n1_n2,n1,0,n2,0,BAC".toList])] := by decide +kernel

/-- the table of sections -/
example : (sectionTable [("f".toList, "src".toList), ("subtransmission".toList, "t".toList)]
    [("f".toList, ["r1".toList, "r2".toList]), ("substation_s".toList, ["r3".toList]), ("subtransmission".toList, ["r4".toList])]).toOption =
    some ["FEEDER=f,src,1".toList, "r1,".toList, "r2,".toList, "SUBSTATION=s,,1".toList, "r3,s".toList, "TRANSMISSIONLINE=subtransmission,t,1".toList,
      "r4,".toList] := by decide +kernel

/-- long names of parallel lines -/
example : 64 < (List.replicate 32 'a' ++ '_' :: List.replicate 32 'b').length := by decide

/-- a long name is replaced while stars are added -/
example : (newSectionId (fun _ => "h".toList) [("f".toList, [List.replicate 32 'a' ++ '_' :: List.replicate 31 'b', "h".toList, "h*".toList])] (some "f".toList)
    (List.replicate 32 'a') (List.replicate 31 'b')).toOption = some "h**".toList := by decide +kernel

end Ditto.Cyme
