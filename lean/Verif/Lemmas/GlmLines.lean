import Verif.Spec.GlmLines
import Verif.Lemmas.GlmLoads
import Verif.Lemmas.GlmCaps
import Verif.Props.GlmWritten
import Mathlib.Data.List.Sublists
import Mathlib.Data.List.Permutation

/-! Helper lemmas for lines in the GridLAB-D writer. -/
namespace Ditto.Glm
open Ditto Glm.Spec

/-! ### numbers of one part -/

theorem innerMinus_iff {t : Text} : innerMinus t = false ↔ ∀ s c r, t = s ++ c :: '-' :: r → c = 'e' := by
  induction t with
  | nil =>
    refine ⟨fun _ s c r h => ?_, fun _ => rfl⟩
    have := congrArg List.length h
    simp at this
  | cons a t ih =>
    cases t with
    | nil =>
      refine ⟨fun _ s c r h => ?_, fun _ => rfl⟩
      have := congrArg List.length h
      simp at this
      omega
    | cons b t =>
      unfold innerMinus
      rw [Bool.or_eq_false_iff, ih]
      constructor
      · rintro ⟨h1, h2⟩ s c r h
        cases s with
        | nil =>
          simp only [List.nil_append, List.cons.injEq] at h
          obtain ⟨rfl, rfl, -⟩ := h
          simpa using h1
        | cons x s =>
          simp only [List.cons_append, List.cons.injEq] at h
          exact h2 s c r h.2
      · intro h
        refine ⟨?_, fun s c r e => h (a :: s) c r (by rw [e]; rfl)⟩
        by_cases hb : b = '-'
        · have := h [] a t (by rw [hb]; rfl)
          simp [this]
        · simp [hb]

theorem onePart_iff {t : Text} : OnePart t ↔ '+' ∉ t ∧ innerMinus t = false := by
  unfold OnePart
  rw [innerMinus_iff]

theorem withReal_pos {t : Text} (h : OnePart t) : withReal t = '0' :: '+' :: t := by
  unfold withReal
  rw [if_pos (onePart_iff.mp h)]

theorem withReal_neg {t : Text} (h : ¬OnePart t) : withReal t = t := by
  unfold withReal
  rw [if_neg (fun h' => h (onePart_iff.mpr h'))]

theorem withReal_token {t : Text} (h : Token t) : Token (withReal t) := by
  unfold withReal
  split
  · obtain ⟨h1, h2⟩ := h
    refine ⟨?_, ?_⟩
    · intro c hc
      rcases List.mem_cons.mp hc with rfl | hc
      · decide
      rcases List.mem_cons.mp hc with rfl | hc
      · decide
      exact h1 c hc
    · cases t with
      | nil => decide
      | cons a t => rw [List.getLast?_cons_cons, List.getLast?_cons_cons]; exact h2
  · exact h

/-! ### phases -/

/-- all lists of different letters A, B, C -/
def letterLists : List (List Char) := ['A', 'B', 'C'].sublists'.flatMap List.permutations'

theorem letters_listed {cs : List Char} (hn : cs.Nodup) (h : ∀ c ∈ cs, c ∈ ['A', 'B', 'C']) : cs ∈ letterLists := by
  have hp : cs.Perm (['A', 'B', 'C'].filter fun c => c ∈ cs) := by
    refine (List.perm_ext_iff_of_nodup hn ((show ['A', 'B', 'C'].Nodup by decide).filter _)).mpr fun c => ?_
    rw [List.mem_filter]
    exact ⟨fun hc => ⟨h c hc, by simpa using hc⟩, fun hc => by simpa using hc.2⟩
  exact List.mem_flatMap.mpr ⟨_, List.mem_sublists'.mpr List.filter_sublist, List.mem_permutations'.mpr hp⟩

/-- the letters in the order of the alphabet -/
def inOrder (cs : List Char) : List Char := ['A', 'B', 'C'].filter fun c => c ∈ cs

theorem sorted_letters : ∀ cs ∈ letterLists, (((cs.map fun c => [c]).insertionSort fun a b => textLe a b = true) : List Text).zipIdx =
    (inOrder cs).map fun c => ([c], (cs.filter (· < c)).length) := by decide +kernel

theorem keys_letters : ∀ cs ∈ letterLists, ((inOrder cs).flatMap fun a => (inOrder cs).map fun b => zKey a b).Nodup := by decide +kernel

theorem zKey_inj {a b a' b' : Char} (ha : a ∈ ['A', 'B', 'C']) (hb : b ∈ ['A', 'B', 'C']) (ha' : a' ∈ ['A', 'B', 'C']) (hb' : b' ∈ ['A', 'B', 'C'])
    (h : zKey a b = zKey a' b') : a = a' ∧ b = b' :=
  (show ∀ a ∈ ['A', 'B', 'C'], ∀ b ∈ ['A', 'B', 'C'], ∀ a' ∈ ['A', 'B', 'C'], ∀ b' ∈ ['A', 'B', 'C'], zKey a b = zKey a' b' → a = a' ∧ b = b' by
    decide +kernel) a ha b hb a' ha' b' hb' h

theorem number_letter : ∀ c ∈ ['A', 'B', 'C'], phaseNumber [c] = .ok (letterPosition c + 1) ∧
    (Nat.repr (letterPosition c + 1)).toList = [phaseDigit c] := by decide +kernel

theorem mem_inOrder {cs : List Char} (h : ∀ c ∈ cs, c ∈ ['A', 'B', 'C']) {c : Char} : c ∈ inOrder cs ↔ c ∈ cs := by
  unfold inOrder
  rw [List.mem_filter]
  exact ⟨fun hc => by simpa using hc.2, fun hc => ⟨h c hc, by simpa using hc⟩⟩

theorem foldl_fresh {V : Type} {l acc : List (Text × V)} (h : ((acc ++ l).map (·.1)).Nodup) :
    l.foldl (fun d p => setEntry p.1 p.2 d) acc = acc ++ l := by
  induction l generalizing acc with
  | nil => rw [List.append_nil]; rfl
  | cons p l ih =>
    have hp : p.1 ∉ acc.map (·.1) := by
      rw [List.map_append, List.map_cons, List.nodup_append] at h
      intro hm
      exact h.2.2 _ hm _ List.mem_cons_self rfl
    rw [List.foldl_cons, setEntry_fresh hp, ih (by rw [List.append_assoc]; exact h), List.append_assoc]
    rfl

/-! ### impedances -/

section numbers
variable {K : Type} {showCx : Cx K → Text}

/-- the text of an impedance -/
def zText (showCx : Cx K → Text) (z : Cx K) : Text := withReal (stripParens (showCx z))

/-- the entries of a configuration -/
def zEntries (showCx : Cx K → Text) (Z : Char → Char → Cx K) (cs : List Char) : List (Text × Text) :=
  (inOrder cs).flatMap fun a => (inOrder cs).map fun b => (zKey a b, zText showCx (Z a b))

theorem cell_ok {l : WGLine K} {cs : List Char} {m : List (List (Cx K))} (hm : l.matrix = some m) {a b : Char} (ha : a ∈ ['A', 'B', 'C'])
    (hb : b ∈ ['A', 'B', 'C']) {z : Cx K} (hz : Impedance l cs a b z) :
    zCell showCx m ([a], (cs.filter (· < a)).length) ([b], (cs.filter (· < b)).length) = .ok (zKey a b, zText showCx z) := by
  obtain ⟨m', row, h1, h2, h3⟩ := hz
  rw [hm] at h1
  cases h1
  unfold zCell
  dsimp only
  rw [(number_letter a ha).1, (number_letter b hb).1]
  dsimp only
  have hi : ∀ c, zIndex m (cs.filter (· < c)).length (letterPosition c + 1) = matrixPosition m cs c := by
    intro c
    unfold zIndex matrixPosition
    split <;> rfl
  rw [hi, hi]
  unfold matrixAt
  rw [h2]
  dsimp only
  rw [h3]
  dsimp only
  rw [(number_letter a ha).2, (number_letter b hb).2]
  rfl

theorem row_ok {m : List (List (Cx K))} {a : Char} {g : Char → Nat} {Z : Char → Char → Cx K} {cs : List Char}
    (h : ∀ b ∈ cs, zCell showCx m ([a], g a) ([b], g b) = .ok (zKey a b, zText showCx (Z a b))) :
    zRow showCx m ([a], g a) (cs.map fun c => ([c], g c)) = .ok (cs.map fun b => (zKey a b, zText showCx (Z a b))) := by
  induction cs with
  | nil => rfl
  | cons b cs ih =>
    rw [List.map_cons, zRow, h b List.mem_cons_self]
    dsimp only
    rw [ih fun c hc => h c (List.mem_cons_of_mem _ hc)]
    rfl

theorem rows_ok {m : List (List (Cx K))} {g : Char → Nat} {Z : Char → Char → Cx K} {ss cs : List Char}
    (h : ∀ a ∈ cs, ∀ b ∈ ss, zCell showCx m ([a], g a) ([b], g b) = .ok (zKey a b, zText showCx (Z a b))) :
    zRows showCx m (ss.map fun c => ([c], g c)) (cs.map fun c => ([c], g c)) =
      .ok (cs.flatMap fun a => ss.map fun b => (zKey a b, zText showCx (Z a b))) := by
  induction cs with
  | nil => rfl
  | cons a cs ih =>
    rw [List.map_cons, zRows, row_ok (g := g) (h a List.mem_cons_self)]
    dsimp only
    rw [ih fun c hc => h c (List.mem_cons_of_mem _ hc)]
    rfl

theorem entries_keys (showCx : Cx K → Text) (Z : Char → Char → Cx K) (cs : List Char) :
    (zEntries showCx Z cs).map (·.1) = (inOrder cs).flatMap fun a => (inOrder cs).map fun b => zKey a b := by
  unfold zEntries
  rw [List.map_flatMap]
  simp only [List.map_map, Function.comp_def]

theorem entries_nodup (showCx : Cx K → Text) (Z : Char → Char → Cx K) {cs : List Char} (hn : cs.Nodup) (h : ∀ c ∈ cs, c ∈ ['A', 'B', 'C']) :
    ((zEntries showCx Z cs).map (·.1)).Nodup := by
  rw [entries_keys]
  exact keys_letters cs (letters_listed hn h)

theorem mem_entries {Z : Char → Char → Cx K} {cs : List Char} (h : ∀ c ∈ cs, c ∈ ['A', 'B', 'C']) {p : Text × Text} :
    p ∈ zEntries showCx Z cs ↔ ∃ a ∈ cs, ∃ b ∈ cs, p = (zKey a b, zText showCx (Z a b)) := by
  unfold zEntries
  rw [List.mem_flatMap]
  constructor
  · rintro ⟨a, ha, hp⟩
    obtain ⟨b, hb, rfl⟩ := List.mem_map.mp hp
    exact ⟨a, (mem_inOrder h).mp ha, b, (mem_inOrder h).mp hb, rfl⟩
  · rintro ⟨a, ha, b, hb, rfl⟩
    exact ⟨a, (mem_inOrder h).mpr ha, List.mem_map.mpr ⟨b, (mem_inOrder h).mpr hb, rfl⟩⟩

/-- the dictionary of a line -/
theorem dict_ok {l : WGLine K} {cs : List Char} (h : WritableMatrix l cs) :
    ∃ d, zDict showCx l = .ok d ∧ (d.map (·.1)).Nodup ∧
      ∀ p, p ∈ d ↔ ∃ a ∈ cs, ∃ b ∈ cs, ∃ z, Impedance l cs a b z ∧ p = (zKey a b, zText showCx z) := by
  have huniq : ∀ {a b z z'}, Impedance l cs a b z → Impedance l cs a b z' → z = z' := by
    rintro a b z z' ⟨m, row, h1, h2, h3⟩ ⟨m', row', h1', h2', h3'⟩
    rw [h1] at h1'
    cases h1'
    rw [h2] at h2'
    cases h2'
    rw [h3] at h3'
    cases h3'
    rfl
  have hsort : sortedPhases l.wires = (cs.map fun c => [c]).insertionSort fun a b => textLe a b = true := by
    unfold sortedPhases
    rw [h.letters.wires]
  cases hm : l.matrix with
  | none =>
    refine ⟨[], by unfold zDict; rw [hm], List.nodup_nil, fun p => ⟨(fun hp => by cases hp), ?_⟩⟩
    rintro ⟨a, -, b, -, z, ⟨m, row, h1, -⟩, -⟩
    rw [hm] at h1
    cases h1
  | some m =>
    have hex : ∃ Z : Char → Char → Option (Cx K), ∀ a ∈ cs, ∀ b ∈ cs, ∃ z, Z a b = some z ∧ Impedance l cs a b z := by
      classical
      refine ⟨fun a b => if h : ∃ z, Impedance l cs a b z then some h.choose else none, fun a ha b hb => ?_⟩
      have := h.full a ha b hb
      exact ⟨this.choose, dif_pos this, this.choose_spec⟩
    obtain ⟨Z, hZ⟩ := hex
    by_cases hcs : cs = []
    · subst hcs
      refine ⟨[], ?_, List.nodup_nil, fun p => ⟨(fun hp => by cases hp), ?_⟩⟩
      · unfold zDict
        rw [hm, hsort]
        rfl
      · rintro ⟨a, ha, -⟩
        cases ha
    · obtain ⟨c₀, hc₀⟩ := List.exists_mem_of_ne_nil cs hcs
      obtain ⟨z₀, -, -⟩ := hZ c₀ hc₀ c₀ hc₀
      have hval : ∀ a ∈ cs, ∀ b ∈ cs, Impedance l cs a b ((Z a b).elim z₀ id) := by
        intro a ha b hb
        obtain ⟨z, h1, h2⟩ := hZ a ha b hb
        rw [h1]
        exact h2
      refine ⟨zEntries showCx (fun a b => (Z a b).elim z₀ id) cs, ?_, entries_nodup _ _ h.letters.once h.letters.letters, fun p => ?_⟩
      · unfold zDict
        rw [hm, hsort]
        dsimp only
        rw [sorted_letters cs (letters_listed h.letters.once h.letters.letters),
          rows_ok (g := fun c => (cs.filter (· < c)).length) (Z := fun a b => (Z a b).elim z₀ id) (by
            intro a ha b hb
            have ha := (mem_inOrder h.letters.letters).mp ha
            have hb := (mem_inOrder h.letters.letters).mp hb
            exact cell_ok hm (h.letters.letters a ha) (h.letters.letters b hb) (hval a ha b hb))]
        dsimp only
        rw [foldl_fresh (by rw [List.nil_append]; exact entries_nodup showCx (fun a b => (Z a b).elim z₀ id) h.letters.once h.letters.letters)]
        rfl
      · rw [mem_entries h.letters.letters]
        constructor
        · rintro ⟨a, ha, b, hb, rfl⟩
          exact ⟨a, ha, b, hb, _, hval a ha b hb, rfl⟩
        · rintro ⟨a, ha, b, hb, z, hz, rfl⟩
          exact ⟨a, ha, b, hb, by rw [huniq hz (hval a ha b hb)]⟩

/-! ### the loop over the lines -/

theorem noConfig_iff {l : WGLine K} : noConfig l = false ↔ Configured l := by
  unfold noConfig Configured
  simp

theorem find_append {a b : List (List (Text × Text) × Text)} {d : List (Text × Text)} {n : Text} (h : findConfig a d = some n) :
    findConfig (a ++ b) d = some n := by
  unfold findConfig at h ⊢
  rw [List.find?_append]
  cases hf : a.find? (fun p => sameItems p.1 d) with
  | none => rw [hf] at h; cases h
  | some p => rw [hf] at h; exact h

theorem sameItems_iff {a b : List (Text × Text)} : sameItems a b = true ↔ ∀ p, p ∈ a ↔ p ∈ b := by
  unfold sameItems
  simp only [Bool.and_eq_true, List.all_eq_true, decide_eq_true_eq]
  exact ⟨fun h p => ⟨h.1 p, h.2 p⟩, fun h => ⟨fun p => (h p).mp, fun p => (h p).mpr⟩⟩

theorem find_same {configs : List (List (Text × Text) × Text)} {d d' : List (Text × Text)} (h : ∀ p, p ∈ d ↔ p ∈ d') :
    findConfig configs d = findConfig configs d' := by
  unfold findConfig
  congr 2
  funext p
  rw [Bool.eq_iff_iff, sameItems_iff, sameItems_iff]
  exact ⟨fun hp q => (hp q).trans (h q), fun hp q => (hp q).trans (h q).symm⟩

theorem find_self {configs : List (List (Text × Text) × Text)} {d : List (Text × Text)} {n : Text} (h : findConfig configs d = none) :
    findConfig (configs ++ [(d, n)]) d = some n := by
  unfold findConfig at h ⊢
  rw [Option.map_eq_none_iff] at h
  have hs : sameItems d d = true := sameItems_iff.mpr fun p => Iff.rfl
  have : List.find? (fun p : List (Text × Text) × Text => sameItems p.1 d) [(d, n)] = some (d, n) :=
    List.find?_cons_of_pos (p := fun p : List (Text × Text) × Text => sameItems p.1 d) hs
  rw [List.find?_append, h, this]
  rfl

theorem configOf_cons {names : List (Option Text × Text)} {o : Option Text} {n name : Text} :
    configOf ((o, n) :: names) name = if o = some name then some n else configOf names name := by
  unfold configOf
  by_cases h : o = some name
  · rw [List.find?_cons_of_pos (by simpa using h), if_pos h]
    rfl
  · rw [List.find?_cons_of_neg (by simpa using h), if_neg h]

theorem found_mem {configs : List (List (Text × Text) × Text)} {d : List (Text × Text)} {n : Text} (h : findConfig configs d = some n) :
    ∃ p ∈ configs, p.2 = n := by
  unfold findConfig at h
  obtain ⟨p, h1, h2⟩ := Option.map_eq_some_iff.mp h
  exact ⟨p, List.mem_of_find?_eq_some h1, h2⟩

theorem found_same {configs : List (List (Text × Text) × Text)} {d : List (Text × Text)} {n : Text} (h : findConfig configs d = some n) :
    ∃ p ∈ configs, p.2 = n ∧ ∀ q, q ∈ p.1 ↔ q ∈ d := by
  unfold findConfig at h
  obtain ⟨p, h1, h2⟩ := Option.map_eq_some_iff.mp h
  exact ⟨p, List.mem_of_find?_eq_some h1, h2, sameItems_iff.mp (by simpa using List.find?_some h1)⟩

/-- what is known after the loop -/
structure LoopDone (showCx : Cx K → Text) (ls : List (WGLine K)) (st : LineConfigs) (count : Nat) (new : List (List (Text × Text) × Text))
    (names : List (Option Text × Text)) : Prop where
  run : writeConfigs showCx st count ls = .ok (⟨st.configs ++ new, names⟩, new.flatMap fun p => configRows p.1 p.2)
  numbered : new.map (·.2) = (List.range new.length).map fun i => configName (count + i)
  origin : ∀ p ∈ new, ∃ l ∈ ls, Configured l ∧ zDict showCx l = .ok p.1
  found : ∀ l ∈ ls, Configured l → ∀ d, zDict showCx l = .ok d → ∃ n, findConfig (st.configs ++ new) d = some n
  kept : ∀ name, (∀ l ∈ ls, Configured l → l.name ≠ some name) → configOf names name = configOf st.names name
  set : ∀ l ∈ ls, Configured l → ∀ name, l.name = some name → ∀ d, zDict showCx l = .ok d →
    (∀ l' ∈ ls, Configured l' → l'.name = some name → zDict showCx l' = .ok d) → configOf names name = findConfig (st.configs ++ new) d
  known : ∀ p ∈ names, p ∈ st.names ∨ p.2 ∈ (st.configs ++ new).map (·.2)

theorem loop_done {ls : List (WGLine K)} {st : LineConfigs} {count : Nat} (h : ∀ l ∈ ls, Configured l → ∃ d, zDict showCx l = .ok d) :
    ∃ new names, LoopDone showCx ls st count new names := by
  induction ls generalizing st count with
  | nil =>
    refine ⟨[], st.names, ?_, rfl, (fun p hp => by cases hp), (fun l hl => by cases hl), (fun _ _ => rfl), (fun l hl => by cases hl),
      (fun p hp => Or.inl hp)⟩
    rw [writeConfigs, List.append_nil]
    rfl
  | cons l ls ih =>
    have htail : ∀ l ∈ ls, Configured l → ∃ d, zDict showCx l = .ok d := fun l' hl' => h l' (List.mem_cons_of_mem _ hl')
    cases hc : noConfig l with
    | true =>
      have hnc : ¬Configured l := fun h' => by rw [noConfig_iff.mpr h'] at hc; cases hc
      obtain ⟨new, names, D⟩ := ih (st := st) (count := count) htail
      refine ⟨new, names, ?_, D.numbered, ?_, ?_, ?_, ?_, D.known⟩
      · rw [writeConfigs, if_pos hc]
        exact D.run
      · intro p hp
        obtain ⟨l', a, b⟩ := D.origin p hp
        exact ⟨l', List.mem_cons_of_mem _ a, b⟩
      · intro l' hl' hc'
        rcases List.mem_cons.mp hl' with rfl | hl'
        · exact absurd hc' hnc
        · exact D.found l' hl' hc'
      · intro name hn
        exact D.kept name fun l' hl' => hn l' (List.mem_cons_of_mem _ hl')
      · intro l' hl' hc' name hn d hd hall
        rcases List.mem_cons.mp hl' with rfl | hl'
        · exact absurd hc' hnc
        · exact D.set l' hl' hc' name hn d hd fun x hx => hall x (List.mem_cons_of_mem _ hx)
    | false =>
      have hcf := noConfig_iff.mp hc
      obtain ⟨d, hd⟩ := h l List.mem_cons_self hcf
      -- the part that does not depend on whether the configuration is new
      have key : ∀ (st₁ : LineConfigs) (n : Text) (count₁ : Nat), st₁.names = (l.name, n) :: st.names → findConfig st₁.configs d = some n →
          ∀ new names, LoopDone showCx ls st₁ count₁ new names →
          (∀ l' ∈ l :: ls, Configured l' → ∀ d', zDict showCx l' = .ok d' → ∃ n, findConfig (st₁.configs ++ new) d' = some n) ∧
          (∀ name, (∀ l' ∈ l :: ls, Configured l' → l'.name ≠ some name) → configOf names name = configOf st.names name) ∧
          (∀ l' ∈ l :: ls, Configured l' → ∀ name, l'.name = some name → ∀ d', zDict showCx l' = .ok d' →
            (∀ x ∈ l :: ls, Configured x → x.name = some name → zDict showCx x = .ok d') →
            configOf names name = findConfig (st₁.configs ++ new) d') ∧
          (∀ p ∈ names, p ∈ st.names ∨ p.2 ∈ (st₁.configs ++ new).map (·.2)) := by
        intro st₁ n count₁ hnames hfind new names D
        refine ⟨?_, ?_, ?_, ?_⟩
        · intro l' hl' hc' d' hd'
          rcases List.mem_cons.mp hl' with rfl | hl'
          · rw [hd] at hd'
            cases hd'
            exact ⟨n, find_append hfind⟩
          · exact D.found l' hl' hc' d' hd'
        · intro name hn
          rw [D.kept name fun l' hl' => hn l' (List.mem_cons_of_mem _ hl'), hnames, configOf_cons, if_neg (hn l List.mem_cons_self hcf)]
        · intro l' hl' hc' name hn d' hd' hall
          by_cases hex : ∃ x ∈ ls, Configured x ∧ x.name = some name
          · obtain ⟨x, hx, hxc, hxn⟩ := hex
            exact D.set x hx hxc name hxn d' (hall x (List.mem_cons_of_mem _ hx) hxc hxn) fun y hy => hall y (List.mem_cons_of_mem _ hy)
          · rcases List.mem_cons.mp hl' with rfl | hl'
            · rw [hd] at hd'
              cases hd'
              rw [D.kept name fun x hx hxc hxn => hex ⟨x, hx, hxc, hxn⟩, hnames, configOf_cons, if_pos hn, find_append hfind]
            · exact absurd ⟨l', hl', hc', hn⟩ hex
        · intro p hp
          rcases D.known p hp with hp | hp
          · rw [hnames] at hp
            rcases List.mem_cons.mp hp with rfl | hp
            · refine Or.inr ?_
              obtain ⟨q, hq, e⟩ := found_mem hfind
              exact List.mem_map.mpr ⟨q, List.mem_append_left _ hq, e⟩
            · exact Or.inl hp
          · exact Or.inr hp
      cases hf : findConfig st.configs d with
      | some n =>
        obtain ⟨new, names, D⟩ := ih (st := { st with names := (l.name, n) :: st.names }) (count := count) htail
        obtain ⟨k1, k2, k3, k4⟩ := key { st with names := (l.name, n) :: st.names } n _ rfl hf new names D
        refine ⟨new, names, ?_, D.numbered, ?_, k1, k2, k3, k4⟩
        · rw [writeConfigs, if_neg (by rw [hc]; decide), hd]
          dsimp only
          rw [hf]
          exact D.run
        · intro p hp
          obtain ⟨l', a, b⟩ := D.origin p hp
          exact ⟨l', List.mem_cons_of_mem _ a, b⟩
      | none =>
        obtain ⟨new, names, D⟩ := ih (st := ⟨st.configs ++ [(d, configName count)], (l.name, configName count) :: st.names⟩) (count := count + 1) htail
        obtain ⟨k1, k2, k3, k4⟩ := key _ (configName count) _ rfl (find_self hf) new names D
        have hcat : st.configs ++ [(d, configName count)] ++ new = st.configs ++ ((d, configName count) :: new) := by
          rw [List.append_assoc]; rfl
        refine ⟨(d, configName count) :: new, names, ?_, ?_, ?_, ?_, k2, ?_, by rw [← hcat]; exact k4⟩
        · rw [writeConfigs, if_neg (by rw [hc]; decide), hd]
          dsimp only
          rw [hf]
          dsimp only
          rw [D.run]
          dsimp only
          rw [hcat]
          rfl
        · rw [List.map_cons, D.numbered, List.length_cons, List.range_succ_eq_map, List.map_cons, List.map_map]
          congr 1
          refine List.map_congr_left fun i _ => ?_
          show configName (count + 1 + i) = configName (count + (i + 1))
          congr 1
          omega
        · intro p hp
          rcases List.mem_cons.mp hp with rfl | hp
          · exact ⟨l, List.mem_cons_self, hcf, hd⟩
          · obtain ⟨l', a, b⟩ := D.origin p hp
            exact ⟨l', List.mem_cons_of_mem _ a, b⟩
        · intro l' hl' hc' d' hd'
          rw [← hcat]
          exact k1 l' hl' hc' d' hd'
        · intro l' hl' hc' name hn d' hd' hall
          rw [← hcat]
          exact k3 l' hl' hc' name hn d' hd' hall

/-- nothing is written if all configurations are known -/
theorem loop_known {ls : List (WGLine K)} {st : LineConfigs} {count : Nat}
    (h : ∀ l ∈ ls, Configured l → ∃ d n, zDict showCx l = .ok d ∧ findConfig st.configs d = some n) :
    ∃ names, writeConfigs showCx st count ls = .ok (⟨st.configs, names⟩, []) ∧
      (∀ l ∈ ls, Configured l → ∀ name, l.name = some name → ∃ n, configOf names name = some n) ∧
      ∀ name, (configOf st.names name).isSome → (configOf names name).isSome := by
  induction ls generalizing st with
  | nil => exact ⟨st.names, rfl, (fun l hl => by cases hl), fun _ h => h⟩
  | cons l ls ih =>
    cases hc : noConfig l with
    | true =>
      have hnc : ¬Configured l := fun h' => by rw [noConfig_iff.mpr h'] at hc; cases hc
      obtain ⟨names, h1, h2, h3⟩ := ih fun l' hl' => h l' (List.mem_cons_of_mem _ hl')
      refine ⟨names, by rw [writeConfigs, if_pos hc]; exact h1, ?_, h3⟩
      intro l' hl' hc'
      rcases List.mem_cons.mp hl' with rfl | hl'
      · exact absurd hc' hnc
      · exact h2 l' hl' hc'
    | false =>
      obtain ⟨d, n, hd, hf⟩ := h l List.mem_cons_self (noConfig_iff.mp hc)
      obtain ⟨names, h1, h2, h3⟩ := ih (st := { st with names := (l.name, n) :: st.names }) fun l' hl' => h l' (List.mem_cons_of_mem _ hl')
      refine ⟨names, ?_, ?_, ?_⟩
      · rw [writeConfigs, if_neg (by rw [hc]; decide), hd]
        dsimp only
        rw [hf]
        exact h1
      · intro l' hl' hc' name hn
        rcases List.mem_cons.mp hl' with rfl | hl'
        · refine Option.isSome_iff_exists.mp (h3 name ?_)
          show (configOf ((l'.name, n) :: st.names) name).isSome
          rw [configOf_cons, if_pos hn]
          rfl
        · exact h2 l' hl' hc' name hn
      · intro name hn
        refine h3 name ?_
        show (configOf ((l.name, n) :: st.names) name).isSome
        rw [configOf_cons]
        split
        · rfl
        · exact hn

/-- the writing ends at the first line without dictionary -/
theorem loop_error {pre post : List (WGLine K)} {l : WGLine K} {st : LineConfigs} {count : Nat} {e : PyErr}
    (h : ∀ l ∈ pre, Configured l → ∃ d, zDict showCx l = .ok d) (hc : Configured l) (he : zDict showCx l = .error e) :
    writeConfigs showCx st count (pre ++ l :: post) = .error e := by
  induction pre generalizing st count with
  | nil =>
    rw [List.nil_append, writeConfigs, if_neg (by rw [noConfig_iff.mpr hc]; decide), he]
  | cons x pre ih =>
    have ih' : ∀ st count, writeConfigs showCx st count (pre ++ l :: post) = .error e :=
      fun st count => ih (st := st) (count := count) fun l' hl' => h l' (List.mem_cons_of_mem _ hl')
    rw [List.cons_append]
    cases hx : noConfig x with
    | true => rw [writeConfigs, if_pos hx]; exact ih' _ _
    | false =>
      obtain ⟨d, hd⟩ := h x List.mem_cons_self (noConfig_iff.mp hx)
      rw [writeConfigs, if_neg (by rw [hx]; decide), hd]
      dsimp only
      cases hf : findConfig st.configs d with
      | some n => dsimp only; exact ih' _ _
      | none => dsimp only; rw [ih']

/-! ### errors -/

theorem phase_error {p : Text} {e : PyErr} (h : phaseNumber p = .error e) : e = .keyError := by
  unfold phaseNumber at h
  split at h
  · cases h
  split at h
  · cases h
  split at h
  · cases h
  · cases h; rfl

theorem cell_error {m : List (List (Cx K))} {j k : Text × Nat} {e : PyErr} (h : zCell showCx m j k = .error e) :
    e = .keyError ∨ e = .indexError := by
  unfold zCell at h
  cases h1 : phaseNumber j.1 with
  | error x => rw [h1] at h; cases h; exact Or.inl (phase_error h1)
  | ok a =>
    cases h2 : phaseNumber k.1 with
    | error x => rw [h1, h2] at h; cases h; exact Or.inl (phase_error h2)
    | ok b =>
      rw [h1, h2] at h
      dsimp only at h
      unfold matrixAt at h
      cases h3 : m[zIndex m j.2 a]? with
      | none => rw [h3] at h; cases h; exact Or.inr rfl
      | some row =>
        rw [h3] at h
        dsimp only at h
        cases h4 : row[zIndex m k.2 b]? with
        | none => rw [h4] at h; cases h; exact Or.inr rfl
        | some z => rw [h4] at h; cases h

theorem cell_number {m : List (List (Cx K))} {j k : Text × Nat} {p : Text × Text} (h : zCell showCx m j k = .ok p) :
    (∃ a, phaseNumber j.1 = .ok a) ∧ ∃ b, phaseNumber k.1 = .ok b := by
  unfold zCell at h
  cases h1 : phaseNumber j.1 with
  | error x => rw [h1] at h; cases h
  | ok a =>
    cases h2 : phaseNumber k.1 with
    | error x => rw [h1, h2] at h; cases h
    | ok b => exact ⟨⟨a, rfl⟩, ⟨b, rfl⟩⟩

theorem row_cases {m : List (List (Cx K))} {j : Text × Nat} {ks : List (Text × Nat)} :
    (∃ l, zRow showCx m j ks = .ok l ∧ ∀ k ∈ ks, ∃ p, zCell showCx m j k = .ok p) ∨
      ∃ e, zRow showCx m j ks = .error e ∧ ∃ k ∈ ks, zCell showCx m j k = .error e := by
  induction ks with
  | nil => exact Or.inl ⟨[], rfl, (fun k hk => by cases hk)⟩
  | cons k ks ih =>
    rw [zRow]
    cases hc : zCell showCx m j k with
    | error e => exact Or.inr ⟨e, rfl, k, List.mem_cons_self, hc⟩
    | ok p =>
      rcases ih with ⟨l, h1, h2⟩ | ⟨e, h1, k', hk', h2⟩
      · refine Or.inl ⟨p :: l, by dsimp only; rw [h1], ?_⟩
        intro k' hk'
        rcases List.mem_cons.mp hk' with rfl | hk'
        · exact ⟨p, hc⟩
        · exact h2 k' hk'
      · exact Or.inr ⟨e, by dsimp only; rw [h1], k', List.mem_cons_of_mem _ hk', h2⟩

theorem rows_cases {m : List (List (Cx K))} {ks js : List (Text × Nat)} :
    (∃ l, zRows showCx m ks js = .ok l ∧ ∀ j ∈ js, ∀ k ∈ ks, ∃ p, zCell showCx m j k = .ok p) ∨
      ∃ e, zRows showCx m ks js = .error e ∧ ∃ j ∈ js, ∃ k ∈ ks, zCell showCx m j k = .error e := by
  induction js with
  | nil => exact Or.inl ⟨[], rfl, (fun k hk => by cases hk)⟩
  | cons j js ih =>
    rw [zRows]
    rcases row_cases (showCx := showCx) (m := m) (j := j) (ks := ks) with ⟨r, h1, h2⟩ | ⟨e, h1, k, hk, h2⟩
    · rw [h1]
      rcases ih with ⟨l, h3, h4⟩ | ⟨e, h3, j', hj', h4⟩
      · refine Or.inl ⟨r ++ l, by dsimp only; rw [h3], ?_⟩
        intro j' hj'
        rcases List.mem_cons.mp hj' with rfl | hj'
        · exact h2
        · exact h4 j' hj'
      · exact Or.inr ⟨e, by dsimp only; rw [h3], j', List.mem_cons_of_mem _ hj', h4⟩
    · exact Or.inr ⟨e, by rw [h1], j, List.mem_cons_self, k, hk, h2⟩

theorem dict_cases {l : WGLine K} {m : List (List (Cx K))} (hm : l.matrix = some m) :
    (∃ d, zDict showCx l = .ok d ∧ ∀ j ∈ (sortedPhases l.wires).zipIdx, ∀ k ∈ (sortedPhases l.wires).zipIdx, ∃ p, zCell showCx m j k = .ok p) ∨
      ∃ e, zDict showCx l = .error e ∧ ∃ j ∈ (sortedPhases l.wires).zipIdx, ∃ k ∈ (sortedPhases l.wires).zipIdx, zCell showCx m j k = .error e := by
  unfold zDict
  rw [hm]
  dsimp only
  rcases rows_cases (showCx := showCx) (m := m) (ks := (sortedPhases l.wires).zipIdx) (js := (sortedPhases l.wires).zipIdx) with ⟨r, h1, h2⟩ | ⟨e, h1, h2⟩
  · exact Or.inl ⟨_, by rw [h1], h2⟩
  · exact Or.inr ⟨e, by rw [h1], h2⟩

theorem mem_sorted {ws : List WWire} {p : Text} : p ∈ sortedPhases ws ↔ p ∈ ws.filterMap (·.phase) ∧ p ≠ ['N'] := by
  unfold sortedPhases
  rw [List.mem_insertionSort, List.mem_filter]
  simp

/-- the matrix is too small -/
theorem dict_small {l : WGLine K} {cs : List Char} (h : LineLetters l cs) {m : List (List (Cx K))} (hm : l.matrix = some m) {a b : Char}
    (ha : a ∈ cs) (hb : b ∈ cs) (hz : ¬∃ z, Impedance l cs a b z) : zDict showCx l = .error .indexError := by
  have hz' : (sortedPhases l.wires).zipIdx = (inOrder cs).map fun c => ([c], (cs.filter (· < c)).length) := by
    unfold sortedPhases
    rw [h.wires]
    exact sorted_letters cs (letters_listed h.once h.letters)
  have hpos : ∀ c, zIndex m (cs.filter (· < c)).length (letterPosition c + 1) = matrixPosition m cs c := by
    intro c
    unfold zIndex matrixPosition
    split <;> rfl
  rcases dict_cases (showCx := showCx) hm with ⟨d, -, hall⟩ | ⟨e, he, j, hj, k, hk, hc⟩
  · exfalso
    rw [hz'] at hall
    obtain ⟨p, hp⟩ := hall _ (List.mem_map.mpr ⟨a, (mem_inOrder h.letters).mpr ha, rfl⟩) _ (List.mem_map.mpr ⟨b, (mem_inOrder h.letters).mpr hb, rfl⟩)
    unfold zCell at hp
    dsimp only at hp
    rw [(number_letter a (h.letters a ha)).1, (number_letter b (h.letters b hb)).1] at hp
    dsimp only at hp
    rw [hpos, hpos] at hp
    unfold matrixAt at hp
    cases h3 : m[matrixPosition m cs a]? with
    | none => rw [h3] at hp; cases hp
    | some row =>
      rw [h3] at hp
      dsimp only at hp
      cases h4 : row[matrixPosition m cs b]? with
      | none => rw [h4] at hp; cases hp
      | some z => exact hz ⟨z, m, row, hm, h3, h4⟩
  · rw [he]
    rcases cell_error hc with rfl | rfl
    · exfalso
      rw [hz'] at hj hk
      obtain ⟨x, hx, rfl⟩ := List.mem_map.mp hj
      obtain ⟨y, hy, rfl⟩ := List.mem_map.mp hk
      have hx := h.letters x ((mem_inOrder h.letters).mp hx)
      have hy := h.letters y ((mem_inOrder h.letters).mp hy)
      unfold zCell at hc
      dsimp only at hc
      rw [(number_letter x hx).1, (number_letter y hy).1] at hc
      dsimp only at hc
      unfold matrixAt at hc
      cases h3 : m[zIndex m (cs.filter (· < x)).length (letterPosition x + 1)]? with
      | none => rw [h3] at hc; cases hc
      | some row =>
        rw [h3] at hc
        dsimp only at hc
        cases h4 : row[zIndex m (cs.filter (· < y)).length (letterPosition y + 1)]? with
        | none => rw [h4] at hc; cases hc
        | some z => rw [h4] at hc; cases hc
    · rfl

/-- a phase without number -/
theorem dict_phase {l : WGLine K} {m : List (List (Cx K))} (hm : l.matrix = some m) {w : WWire} (hw : w ∈ l.wires) {p : Text} (hp : w.phase = some p)
    (hk : p ∉ [['A'], ['B'], ['C'], ['1'], ['2'], ['N']]) : ∃ e, (e = .keyError ∨ e = .indexError) ∧ zDict showCx l = .error e := by
  rcases dict_cases (showCx := showCx) hm with ⟨d, -, hall⟩ | ⟨e, he, j, hj, k, hk', hc⟩
  · exfalso
    have hmem : p ∈ sortedPhases l.wires := by
      refine mem_sorted.mpr ⟨List.mem_filterMap.mpr ⟨w, hw, hp⟩, ?_⟩
      rintro rfl
      exact hk (by decide)
    obtain ⟨i, hi, rfl⟩ := List.mem_iff_getElem.mp hmem
    have hz : ((sortedPhases l.wires)[i], i) ∈ (sortedPhases l.wires).zipIdx :=
      List.mem_iff_getElem.mpr ⟨i, by rw [List.length_zipIdx]; exact hi, by rw [List.getElem_zipIdx]; simp⟩
    obtain ⟨q, hq⟩ := hall _ hz _ hz
    obtain ⟨⟨a, ha⟩, -⟩ := cell_number hq
    dsimp only at ha
    generalize (sortedPhases l.wires)[i] = p at ha hk
    unfold phaseNumber at ha
    simp only [List.mem_cons, List.not_mem_nil, or_false, not_or] at hk
    obtain ⟨h1, h2, h3, h4, h5, -⟩ := hk
    rw [if_neg (by rintro (h | h); exacts [h1 h, h4 h]), if_neg (by rintro (h | h); exacts [h2 h, h5 h]), if_neg h3] at ha
    cases ha
  · exact ⟨e, cell_error hc, he⟩

end numbers

/-! ### names of configurations -/

theorem configName_inj {m n : Nat} (h : configName m = configName n) : m = n := by
  unfold configName at h
  have h1 := List.append_cancel_left h
  rw [Nat.toList_repr, Nat.toList_repr] at h1
  have h2 := @Nat.ofDigitChars_toDigits 10 m (by decide) (by decide)
  have h3 := @Nat.ofDigitChars_toDigits 10 n (by decide) (by decide)
  rw [h1] at h2
  rw [← h2, h3]

theorem configName_token (n : Nat) : Token (configName n) := by
  have hd : ∀ c ∈ (Nat.repr n).toList, c.isDigit = true := by
    intro c hc
    rw [Nat.toList_repr] at hc
    exact Nat.isDigit_of_mem_toDigits (by decide) (by decide) hc
  have hw : ∀ c : Char, c.isDigit = true → c.isWhitespace = false := by
    intro c hc
    simp only [Char.isDigit, Bool.and_eq_true, decide_eq_true_eq] at hc
    obtain ⟨h1, h2⟩ := hc
    simp only [Char.isWhitespace, Bool.or_eq_false_iff, decide_eq_false_iff_not]
    have h1 : 48 ≤ c.toNat := by exact_mod_cast h1
    refine ⟨⟨⟨?_, ?_⟩, ?_⟩, ?_⟩ <;> rintro rfl <;> revert h1 <;> decide
  refine ⟨?_, ?_⟩
  · intro c hc
    unfold configName at hc
    rcases List.mem_append.mp hc with hc | hc
    · exact (show ∀ c ∈ "line_config_".toList, c.isWhitespace = false by decide) c hc
    · exact hw c (hd c hc)
  · intro h
    have hne : (Nat.repr n).toList ≠ [] := by rw [Nat.toList_repr]; exact Nat.toDigits_ne_nil
    unfold configName at h
    rw [List.getLast?_append_of_ne_nil _ hne] at h
    exact absurd (hd _ (List.mem_of_getLast? h)) (by decide)

end Ditto.Glm
