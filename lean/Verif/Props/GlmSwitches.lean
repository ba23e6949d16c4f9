import Verif.Props.GlmLoads
import Verif.Lemmas.GlmCaps
import Verif.Spec.GlmSwitches
import Mathlib.Data.List.TakeWhile

/-! C90: fuses and switches in GridLAB-D files. -/
namespace Ditto.Glm
open Ditto Glm.Spec

/-! ### quotes -/

theorem strip_front {a : Nat} {u : Text} (h : u.head? ≠ some '"') : (List.replicate a '"' ++ u).dropWhile (· = '"') = u := by
  induction a with
  | zero =>
    cases u with
    | nil => rfl
    | cons c u =>
      have : c ≠ '"' := fun e => h (by rw [e]; rfl)
      show (c :: u).dropWhile _ = _
      rw [List.dropWhile_cons_of_neg (by simpa using this)]
  | succ a ih =>
    rw [List.replicate_succ, List.cons_append, List.dropWhile_cons_of_pos (by simp), ih]

theorem strip_unquoted {t u : Text} (h : Unquoted t u) : stripQuotes t = u := by
  obtain ⟨a, b, rfl, h1, h2⟩ := h
  unfold stripQuotes
  cases u with
  | nil =>
    rw [List.append_nil, ← List.replicate_add]
    have : (List.replicate (a + b) '"').dropWhile (· = '"') = [] := by
      have := strip_front (a := a + b) (u := []) (by simp)
      rw [List.append_nil] at this
      exact this
    rw [this]
    rfl
  | cons c u =>
    rw [List.append_assoc, strip_front (by simpa using h1), List.reverse_append, List.reverse_replicate]
    rw [strip_front (by rw [List.head?_reverse]; exact h2), List.reverse_reverse]

/-- every text has quotes around a text without quotes around it -/
theorem unquoted_strip (t : Text) : ∃ u, Unquoted t u := by
  refine ⟨stripQuotes t, (t.takeWhile (· = '"')).length, ((t.dropWhile (· = '"')).reverse.takeWhile (· = '"')).length, ?_, ?_, ?_⟩
  · have h1 : ∀ l : Text, List.replicate (l.takeWhile (· = '"')).length '"' = l.takeWhile (· = '"') := fun l =>
      (List.eq_replicate_iff.mpr ⟨rfl, fun c hc => by simpa using List.mem_takeWhile_imp hc⟩).symm
    rw [h1, h1]
    have h2 : stripQuotes t ++ (t.dropWhile (· = '"')).reverse.takeWhile (· = '"') = t.dropWhile (· = '"') := by
      unfold stripQuotes
      have h3 := List.takeWhile_append_dropWhile (p := (· = '"')) (l := (t.dropWhile (· = '"')).reverse)
      have h4 := congrArg List.reverse h3
      rw [List.reverse_append, List.reverse_reverse] at h4
      have h5 : ((t.dropWhile (· = '"')).reverse.takeWhile (· = '"')).reverse = (t.dropWhile (· = '"')).reverse.takeWhile (· = '"') := by
        rw [← h1, List.reverse_replicate]
      rw [h5] at h4
      exact h4
    rw [List.append_assoc, h2, List.takeWhile_append_dropWhile]
  · intro h
    unfold stripQuotes at h
    rw [List.head?_reverse] at h
    have h1 : ((t.dropWhile (· = '"')).reverse.dropWhile (· = '"')) <:+ (t.dropWhile (· = '"')).reverse := List.dropWhile_suffix _
    have h2 := List.reverse_prefix.mpr h1
    rw [List.reverse_reverse] at h2
    rw [← List.head?_reverse] at h
    obtain ⟨x, hx⟩ := h2
    cases hs : ((t.dropWhile (· = '"')).reverse.dropWhile (· = '"')).reverse with
    | nil => rw [hs] at h; cases h
    | cons c l =>
      rw [hs] at h hx
      have hc : c = '"' := by simpa using h
      have := List.head?_dropWhile_not (p := (· = '"')) t
      rw [← hx] at this
      simp [hc] at this
  · intro h
    unfold stripQuotes at h
    rw [List.getLast?_reverse] at h
    have := List.head?_dropWhile_not (p := (· = '"')) (t.dropWhile (· = '"')).reverse
    rw [h] at this
    simp at this

/-! ### wires -/

section wires
variable {k : SwitchKind} {o : GldObj} {d : Decl}

theorem key_state (c : Char) : stateKey k.suffix c = k.key c := by
  unfold stateKey SwitchKind.key
  simp [show "_".toList = ['_'] by decide]

theorem stateWire_eq (ho : Stored o d) (c : Char) :
    stateWire k.suffix k.word o c = match attrOf d (k.key c) with | none => [] | some t => [⟨c, some (t == k.word)⟩] := by
  unfold stateWire
  rw [key_state, stored_get ho]
  rfl

/-- wires of phases with their own states -/
theorem mem_states (ho : Stored o d) {cs : List Char} {w : GWire} :
    w ∈ cs.flatMap (stateWire k.suffix k.word o) ↔ w.phase ∈ cs ∧ ∃ t, attrOf d (k.key w.phase) = some t ∧ w.isOpen = some (t == k.word) := by
  rw [List.mem_flatMap]
  constructor
  · rintro ⟨c, hc, hw⟩
    rw [stateWire_eq ho] at hw
    split at hw
    · cases hw
    · rename_i t ht
      obtain rfl := List.mem_singleton.mp hw
      exact ⟨hc, t, ht, rfl⟩
  · rintro ⟨hc, t, ht, hw⟩
    refine ⟨w.phase, hc, ?_⟩
    rw [stateWire_eq ho, ht]
    refine List.mem_singleton.mpr ?_
    cases w
    simp only [GWire.mk.injEq, true_and]
    exact hw

theorem states_phases (ho : Stored o d) {cs : List Char} :
    (cs.flatMap (stateWire k.suffix k.word o)).map (·.phase) = cs.filter fun c => (attrOf d (k.key c)).isSome := by
  induction cs with
  | nil => rfl
  | cons c cs ih =>
    rw [List.flatMap_cons, List.map_append, ih, stateWire_eq ho, List.filter_cons]
    cases attrOf d (k.key c) <;> rfl

theorem states_empty (ho : Stored o d) {cs : List Char} :
    (cs.flatMap (stateWire k.suffix k.word o)).length = 0 ↔ ∀ c ∈ cs, ¬HasState k d c := by
  rw [← List.length_map (f := (·.phase)), states_phases ho, List.length_eq_zero_iff, List.filter_eq_nil_iff]
  rfl

/-- the wires of an object with states or with a status -/
theorem wires_say (ho : Stored o d) {cs : List Char} (hp : HasPhases d cs) (hn : cs.Nodup) (hsub : ∀ c ∈ cs, c ∈ ['A', 'B', 'C'])
    (hd : Described k d cs) : WiresSay k d cs (switchWires k.suffix k.word o) := by
  obtain ⟨t, u, h1, h2, rfl⟩ := hp
  have hwhole : (∀ c ∈ ['A', 'B', 'C'], ¬HasState k d c) → ∀ s, attrOf d "status".toList = some s →
      WiresSay k d (u.filter fun c => c ≠ 'N') (switchWires k.suffix k.word o) := by
    intro hno s hs
    unfold switchWires
    rw [if_pos ((states_empty ho).mpr hno)]
    unfold wholeWires statusWires
    rw [stored_get ho, stored_get ho, h1, hs]
    dsimp only
    rw [strip_unquoted h2]
    refine ⟨?_, ?_⟩
    · rw [List.map_map]
      exact (List.map_id _) ▸ List.Perm.refl _
    · intro w hw
      obtain ⟨c, hc, rfl⟩ := List.mem_map.mp hw
      refine ⟨_, rfl, ?_⟩
      have hc' : attrOf d (k.key c) = none := by
        have := hno c (hsub c hc)
        unfold HasState at this
        simpa using this
      unfold PhaseOpen
      rw [hc', hs]
      simp
  rcases hd with hd | ⟨hno, hs⟩
  · by_cases he : ∀ c ∈ ['A', 'B', 'C'], ¬HasState k d c
    · have hnil : u.filter (fun c => c ≠ 'N') = [] := List.eq_nil_iff_forall_not_mem.mpr fun c hc =>
        he c (hsub c hc) ((hd c (hsub c hc)).mpr hc)
      unfold switchWires
      rw [if_pos ((states_empty ho).mpr he)]
      unfold wholeWires
      rw [stored_get ho, h1]
      dsimp only
      rw [strip_unquoted h2]
      have hw : ∀ s, statusWires s u = [] := by
        intro s
        unfold statusWires
        rw [hnil]
        cases s <;> rfl
      rw [hw, hnil]
      exact ⟨List.Perm.refl _, fun w hw => by cases hw⟩
    · unfold switchWires
      rw [if_neg (fun h => he ((states_empty ho).mp h))]
      refine ⟨?_, ?_⟩
      · rw [states_phases ho]
        refine (List.perm_ext_iff_of_nodup ((show ['A', 'B', 'C'].Nodup by decide).filter _) hn).mpr fun c => ?_
        rw [List.mem_filter]
        constructor
        · rintro ⟨a, b⟩
          exact (hd c a).mp b
        · intro hc
          exact ⟨hsub c hc, (hd c (hsub c hc)).mpr hc⟩
      · intro w hw
        obtain ⟨-, t', h3, h4⟩ := (mem_states ho).mp hw
        refine ⟨_, h4, ?_⟩
        unfold PhaseOpen
        rw [h3]
        simp
  · obtain ⟨s, hs⟩ := Option.isSome_iff_exists.mp hs
    exact hwhole hno s hs

end wires

/-! ### files -/

section files
variable {schema : Schema} {due : List Text → Py Bool} {files : Text → Option (List Text)} {rows : List Text} {s : GState} {ds : List Decl}
  {rs : List GReadSwitch}

/-- what is read for an object -/
structure SwitchRead (k : SwitchKind) (d : Decl) (r : GReadSwitch) : Prop where
  ends : EndsSay d r
  wires : ∃ o, Stored o d ∧ r.wires = switchWires k.suffix k.word o

theorem fuse_read {o : GldObj} {d : Decl} {r : GReadSwitch} (ho : Stored o d) (hn : (nameOf d).isSome) (h : readFuse o = .ok r) :
    SwitchRead fuses d r ∧ r.fuse = true := by
  unfold readFuse at h
  injection h with h
  subst h
  refine ⟨⟨⟨?_, stored_get ho _, stored_get ho _⟩, o, ho, rfl⟩, rfl⟩
  obtain ⟨n, hn⟩ := Option.isSome_iff_exists.mp hn
  show _ = some (readName o)
  unfold readName
  rw [stored_get ho, attr_name, hn]

theorem switch_read {o : GldObj} {d : Decl} {r : GReadSwitch} (ho : Stored o d) (hn : (nameOf d).isSome) (h : readSwitch o = .ok r) :
    SwitchRead switches d r ∧ r.fuse = false := by
  unfold readSwitch at h
  injection h with h
  subst h
  refine ⟨⟨⟨?_, stored_get ho _, stored_get ho _⟩, o, ho, rfl⟩, rfl⟩
  obtain ⟨n, hn⟩ := Option.isSome_iff_exists.mp hn
  show _ = some (readName o)
  unfold readName
  rw [stored_get ho, attr_name, hn]

/-- the fuses of a file -/
theorem fuse_names (hr : readGlm schema due files [] rows = .ok s) (hh : Holds s.objects [] ds) :
    ∃ rs, readFuseFile schema due files [] rows = .ok rs ∧
    ∃ names : List Text, names.Nodup ∧ (∀ n, n ∈ names ↔ ∃ d, lastNamed ds n = some d ∧ d.cls = fuses.cls) ∧
      List.Forall₂ (fun n r => ∃ d, lastNamed ds n = some d ∧ SwitchRead fuses d r ∧ r.fuse = true) names rs := by
  obtain ⟨rs, h⟩ := class_clean (cls := "fuse".toList) (f := readFuse) (l := s.objects) fun p _ _ => ⟨_, rfl⟩
  refine ⟨rs, ?_, class_names fuse_read hr hh h⟩
  unfold readFuseFile
  rw [hr]
  exact h

/-- the switches of a file -/
theorem switch_names (hr : readGlm schema due files [] rows = .ok s) (hh : Holds s.objects [] ds) :
    ∃ rs, readSwitchFile schema due files [] rows = .ok rs ∧
    ∃ names : List Text, names.Nodup ∧ (∀ n, n ∈ names ↔ ∃ d, lastNamed ds n = some d ∧ d.cls = switches.cls) ∧
      List.Forall₂ (fun n r => ∃ d, lastNamed ds n = some d ∧ SwitchRead switches d r ∧ r.fuse = false) names rs := by
  obtain ⟨rs, h⟩ := class_clean (cls := "switch".toList) (f := readSwitch) (l := s.objects) fun p _ _ => ⟨_, rfl⟩
  refine ⟨rs, ?_, class_names switch_read hr hh h⟩
  unfold readSwitchFile
  rw [hr]
  exact h

/-- reading fuses, or switches -/
def readKind (fuse : Bool) (schema : Schema) (due : List Text → Py Bool) (files : Text → Option (List Text)) (rows : List Text) : Py (List GReadSwitch) :=
  if fuse then readFuseFile schema due files [] rows else readSwitchFile schema due files [] rows

/-- fuses, or switches -/
def kindOf (fuse : Bool) : SwitchKind := if fuse then fuses else switches

theorem kind_names (fuse : Bool) (hr : readGlm schema due files [] rows = .ok s) (hh : Holds s.objects [] ds) :
    ∃ rs, readKind fuse schema due files rows = .ok rs ∧
    ∃ names : List Text, names.Nodup ∧ (∀ n, n ∈ names ↔ ∃ d, lastNamed ds n = some d ∧ d.cls = (kindOf fuse).cls) ∧
      List.Forall₂ (fun n r => ∃ d, lastNamed ds n = some d ∧ SwitchRead (kindOf fuse) d r ∧ r.fuse = fuse) names rs := by
  cases fuse with
  | true => exact fuse_names hr hh
  | false => exact switch_names hr hh

/-- C90 (partial): reading a file gives exactly one fuse for each name of a fuse in the file, and one switch for each name of a switch, with its
ends; its wires are exactly the phases of the object, each one open if and only if the file says so. For the wires it is needed that each phase
A, B, C is given once, and that either all phases have a state or none and there is a status. -/
theorem C90_switches_partial (fuse : Bool) (hr : readGlm schema due files [] rows = .ok s) (hh : Holds s.objects [] ds) :
    ∃ rs, readKind fuse schema due files rows = .ok rs ∧
    ∃ names : List Text, names.Nodup ∧ (∀ n, n ∈ names ↔ ∃ d, lastNamed ds n = some d ∧ d.cls = (kindOf fuse).cls) ∧
      List.Forall₂ (fun n r => ∃ d, lastNamed ds n = some d ∧ EndsSay d r ∧ r.fuse = fuse ∧
        ∀ cs, HasPhases d cs → cs.Nodup → (∀ c ∈ cs, c ∈ ['A', 'B', 'C']) → Described (kindOf fuse) d cs → WiresSay (kindOf fuse) d cs r.wires) names rs := by
  obtain ⟨rs, h1, names, h2, h3, h4⟩ := kind_names fuse hr hh
  refine ⟨rs, h1, names, h2, h3, List.Forall₂.imp ?_ h4⟩
  rintro n r ⟨d, hd, hs, hf⟩
  obtain ⟨o, ho, hw⟩ := hs.wires
  refine ⟨d, hd, hs.ends, hf, fun cs a b c e => ?_⟩
  rw [hw]
  exact wires_say ho a b c e

/-- the line of an object of the file -/
theorem switch_found (fuse : Bool) (hr : readGlm schema due files [] rows = .ok s) (hh : Holds s.objects [] ds) {n : Text} {d : Decl}
    (hd : lastNamed ds n = some d) (hc : d.cls = (kindOf fuse).cls) :
    ∃ rs, readKind fuse schema due files rows = .ok rs ∧ ∃ r ∈ rs, r.name = n ∧ SwitchRead (kindOf fuse) d r := by
  obtain ⟨rs, h1, names, -, h3, h4⟩ := kind_names fuse hr hh
  obtain ⟨r, hr', d', hd', hs, -⟩ := found_right h4 ((h3 n).mpr ⟨d, hd, hc⟩)
  rw [hd] at hd'
  cases hd'
  refine ⟨rs, h1, r, hr', ?_, hs⟩
  have := hs.ends.name
  rw [lastNamed_name hd] at this
  cases this
  rfl

/-- C90 violated: if one phase has its own state, then the phases without one are lost -/
theorem C90_some_states_violated (fuse : Bool) (hr : readGlm schema due files [] rows = .ok s) (hh : Holds s.objects [] ds) {n : Text} {d : Decl}
    (hd : lastNamed ds n = some d) (hc : d.cls = (kindOf fuse).cls) {c : Char} (hcm : c ∈ ['A', 'B', 'C']) (hst : HasState (kindOf fuse) d c) :
    ∃ rs, readKind fuse schema due files rows = .ok rs ∧ ∃ r ∈ rs, r.name = n ∧ ∀ w ∈ r.wires, HasState (kindOf fuse) d w.phase := by
  obtain ⟨rs, h1, r, h2, h3, h4⟩ := switch_found fuse hr hh hd hc
  refine ⟨rs, h1, r, h2, h3, fun w hw => ?_⟩
  obtain ⟨o, ho, he⟩ := h4.wires
  rw [he] at hw
  unfold switchWires at hw
  rw [if_neg (fun h => (states_empty ho).mp h c hcm hst)] at hw
  obtain ⟨-, t, ht, -⟩ := (mem_states ho).mp hw
  unfold HasState
  rw [ht]
  rfl

/-- C90 violated: without states and without status only the first phase is kept, neither open nor closed -/
theorem C90_no_status_violated (fuse : Bool) (hr : readGlm schema due files [] rows = .ok s) (hh : Holds s.objects [] ds) {n : Text} {d : Decl}
    (hd : lastNamed ds n = some d) (hc : d.cls = (kindOf fuse).cls) {c : Char} {cs : List Char} (hp : HasPhases d (c :: cs))
    (hst : ∀ c ∈ ['A', 'B', 'C'], ¬HasState (kindOf fuse) d c) (hno : attrOf d "status".toList = none) :
    ∃ rs, readKind fuse schema due files rows = .ok rs ∧ ∃ r ∈ rs, r.name = n ∧ r.wires = [⟨c, none⟩] := by
  obtain ⟨rs, h1, r, h2, h3, h4⟩ := switch_found fuse hr hh hd hc
  refine ⟨rs, h1, r, h2, h3, ?_⟩
  obtain ⟨o, ho, he⟩ := h4.wires
  obtain ⟨t, u, h5, h6, h7⟩ := hp
  rw [he]
  unfold switchWires
  rw [if_pos ((states_empty ho).mpr hst)]
  unfold wholeWires statusWires
  rw [stored_get ho, stored_get ho, h5, hno]
  dsimp only
  rw [strip_unquoted h6, ← h7]
  rfl

/-- C90 violated: every letter of the phases but N becomes a wire, also those that are no phases, such as D for a delta connection -/
theorem C90_letter_violated (fuse : Bool) (hr : readGlm schema due files [] rows = .ok s) (hh : Holds s.objects [] ds) {n : Text} {d : Decl}
    (hd : lastNamed ds n = some d) (hc : d.cls = (kindOf fuse).cls) {cs : List Char} (hp : HasPhases d cs)
    (hst : ∀ c ∈ ['A', 'B', 'C'], ¬HasState (kindOf fuse) d c) {t : Text} (hs : attrOf d "status".toList = some t) :
    ∃ rs, readKind fuse schema due files rows = .ok rs ∧ ∃ r ∈ rs, r.name = n ∧ r.wires.map (·.phase) = cs := by
  obtain ⟨rs, h1, r, h2, h3, h4⟩ := switch_found fuse hr hh hd hc
  refine ⟨rs, h1, r, h2, h3, ?_⟩
  obtain ⟨o, ho, he⟩ := h4.wires
  obtain ⟨t, u, h5, h6, rfl⟩ := hp
  rw [he]
  unfold switchWires
  rw [if_pos ((states_empty ho).mpr hst)]
  unfold wholeWires statusWires
  rw [stored_get ho, stored_get ho, h5, hs]
  dsimp only
  rw [strip_unquoted h6, List.map_map]
  exact List.map_id _

/-- C90 violated: an object that is open as a whole is read as closed if its phases have states and these do not say that they are open -/
theorem C90_status_violated (fuse : Bool) (hr : readGlm schema due files [] rows = .ok s) (hh : Holds s.objects [] ds) {n : Text} {d : Decl}
    (hd : lastNamed ds n = some d) (hc : d.cls = (kindOf fuse).cls) {c : Char} (hcm : c ∈ ['A', 'B', 'C']) {t : Text}
    (hst : attrOf d ((kindOf fuse).key c) = some t) (ht : t ≠ (kindOf fuse).word) :
    ∃ rs, readKind fuse schema due files rows = .ok rs ∧ ∃ r ∈ rs, r.name = n ∧ ⟨c, some false⟩ ∈ r.wires := by
  obtain ⟨rs, h1, r, h2, h3, h4⟩ := switch_found fuse hr hh hd hc
  refine ⟨rs, h1, r, h2, h3, ?_⟩
  obtain ⟨o, ho, he⟩ := h4.wires
  rw [he]
  unfold switchWires
  rw [if_neg (fun h => (states_empty ho).mp h c hcm (by unfold HasState; rw [hst]; rfl))]
  refine (mem_states ho).mpr ⟨hcm, t, hst, ?_⟩
  simpa using ht

end files

/-! ### an example -/

/-- the attributes of fuses and switches -/
def exSwitchSchema : Schema := fun c =>
  if c = "switch".toList then
    some (["name".toList, "from".toList, "to".toList, "phases".toList, "status".toList, "phase_A_state".toList, "phase_B_state".toList,
      "phase_C_state".toList])
  else if c = "fuse".toList then
    some (["name".toList, "from".toList, "to".toList, "phases".toList, "status".toList, "phase_A_status".toList, "phase_B_status".toList,
      "phase_C_status".toList])
  else none

/-- a fuse with states -/
def exFuse : List (Text × Text) :=
  [("name".toList, "f1".toList), ("from".toList, "n1".toList), ("to".toList, "n2".toList), ("phases".toList, "\"CAN\"".toList),
    ("status".toList, "OPEN".toList), ("phase_A_status".toList, "BLOWN".toList), ("phase_C_status".toList, "GOOD".toList)]

/-- a switch without states -/
def exDeltaSwitch : List (Text × Text) :=
  [("name".toList, "s1".toList), ("from".toList, "n1".toList), ("to".toList, "n2".toList), ("phases".toList, "ABD".toList),
    ("status".toList, "OPEN".toList)]

/-- a switch without status -/
def exBare : List (Text × Text) :=
  [("name".toList, "s2".toList), ("from".toList, "n1".toList), ("to".toList, "n2".toList), ("phases".toList, "ABCN".toList)]

/-- the rows of an object -/
def exSwitchRows (cls : Text) (l : List (Text × Text)) : List Text :=
  ("object ".toList ++ cls ++ " {".toList) :: (l.map fun p => "  ".toList ++ p.1 ++ ' ' :: p.2 ++ [';']) ++ ["}".toList]

theorem ex_fuse_read : readGlm exSwitchSchema (fun _ => .ok true) (fun _ => none) [] (exSwitchRows "fuse".toList exFuse) =
    .ok { objects := [("f1".toList, ⟨"fuse".toList, exFuse⟩)], schedules := [] } := rfl

theorem ex_fuse_holds : Holds [("f1".toList, (⟨"fuse".toList, exFuse⟩ : GldObj))] [] [⟨"fuse".toList, none, exFuse⟩] :=
  holds_one (by decide) (by decide) (by decide +kernel)

theorem ex_fuse_phases : HasPhases ⟨"fuse".toList, none, exFuse⟩ ['C', 'A'] := ⟨_, "CAN".toList, rfl, ⟨1, 1, by decide, by decide, by decide⟩, by decide⟩

example : Described (kindOf true) ⟨"fuse".toList, none, exFuse⟩ ['C', 'A'] := Or.inl (by unfold HasState; decide +kernel)

example : ∃ rs, readKind true exSwitchSchema (fun _ => .ok true) (fun _ => none) (exSwitchRows "fuse".toList exFuse) = .ok rs ∧
    ∃ names : List Text, names.Nodup ∧ (∀ n, n ∈ names ↔ ∃ d, lastNamed [⟨"fuse".toList, none, exFuse⟩] n = some d ∧ d.cls = (kindOf true).cls) ∧
      List.Forall₂ (fun n r => ∃ d, lastNamed [⟨"fuse".toList, none, exFuse⟩] n = some d ∧ EndsSay d r ∧ r.fuse = true ∧
        ∀ cs, HasPhases d cs → cs.Nodup → (∀ c ∈ cs, c ∈ ['A', 'B', 'C']) → Described (kindOf true) d cs → WiresSay (kindOf true) d cs r.wires) names rs :=
  C90_switches_partial true ex_fuse_read ex_fuse_holds

example : readKind true exSwitchSchema (fun _ => .ok true) (fun _ => none) (exSwitchRows "fuse".toList exFuse) =
    .ok [⟨"f1".toList, true, some "n1".toList, some "n2".toList, [⟨'A', some true⟩, ⟨'C', some false⟩]⟩] := by decide +kernel

example : ∃ rs, readKind true exSwitchSchema (fun _ => .ok true) (fun _ => none) (exSwitchRows "fuse".toList exFuse) = .ok rs ∧
    ∃ r ∈ rs, r.name = "f1".toList ∧ ∀ w ∈ r.wires, HasState (kindOf true) ⟨"fuse".toList, none, exFuse⟩ w.phase :=
  C90_some_states_violated true ex_fuse_read ex_fuse_holds (d := ⟨"fuse".toList, none, exFuse⟩) rfl rfl (c := 'A') (by decide)
    (by unfold HasState; decide +kernel)

example : ∃ rs, readKind true exSwitchSchema (fun _ => .ok true) (fun _ => none) (exSwitchRows "fuse".toList exFuse) = .ok rs ∧
    ∃ r ∈ rs, r.name = "f1".toList ∧ ⟨'C', some false⟩ ∈ r.wires :=
  C90_status_violated true ex_fuse_read ex_fuse_holds (d := ⟨"fuse".toList, none, exFuse⟩) rfl rfl (c := 'C') (by decide) (t := "GOOD".toList)
    (by decide +kernel) (by decide)

theorem ex_delta_read : readGlm exSwitchSchema (fun _ => .ok true) (fun _ => none) [] (exSwitchRows "switch".toList exDeltaSwitch) =
    .ok { objects := [("s1".toList, ⟨"switch".toList, exDeltaSwitch⟩)], schedules := [] } := rfl

theorem ex_delta_holds : Holds [("s1".toList, (⟨"switch".toList, exDeltaSwitch⟩ : GldObj))] [] [⟨"switch".toList, none, exDeltaSwitch⟩] :=
  holds_one (by decide) (by decide) (by decide +kernel)

example : ∃ rs, readKind false exSwitchSchema (fun _ => .ok true) (fun _ => none) (exSwitchRows "switch".toList exDeltaSwitch) = .ok rs ∧
    ∃ r ∈ rs, r.name = "s1".toList ∧ r.wires.map (·.phase) = ['A', 'B', 'D'] :=
  C90_letter_violated false ex_delta_read ex_delta_holds (d := ⟨"switch".toList, none, exDeltaSwitch⟩) rfl rfl
    ⟨_, "ABD".toList, rfl, ⟨0, 0, by decide, by decide, by decide⟩, by decide⟩ (by unfold HasState; decide +kernel) (t := "OPEN".toList) (by decide)

theorem ex_bare_read : readGlm exSwitchSchema (fun _ => .ok true) (fun _ => none) [] (exSwitchRows "switch".toList exBare) =
    .ok { objects := [("s2".toList, ⟨"switch".toList, exBare⟩)], schedules := [] } := rfl

theorem ex_bare_holds : Holds [("s2".toList, (⟨"switch".toList, exBare⟩ : GldObj))] [] [⟨"switch".toList, none, exBare⟩] :=
  holds_one (by decide) (by decide) (by decide +kernel)

example : ∃ rs, readKind false exSwitchSchema (fun _ => .ok true) (fun _ => none) (exSwitchRows "switch".toList exBare) = .ok rs ∧
    ∃ r ∈ rs, r.name = "s2".toList ∧ r.wires = [⟨'A', none⟩] :=
  C90_no_status_violated false ex_bare_read ex_bare_holds (d := ⟨"switch".toList, none, exBare⟩) rfl rfl (cs := ['B', 'C'])
    ⟨_, "ABCN".toList, rfl, ⟨0, 0, by decide, by decide, by decide⟩, by decide⟩ (by unfold HasState; decide +kernel) (by decide)

end Ditto.Glm
