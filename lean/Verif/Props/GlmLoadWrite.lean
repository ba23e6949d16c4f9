import Verif.Props.GlmLoads
import Verif.Spec.GlmLoadWrite
import Mathlib.Data.Rat.Encodable

/-! C87: loads in the GridLAB-D writer, and reading them again. -/
namespace Ditto.Glm
open Ditto Glm.Spec

section numbers
variable {K : Type} [Field K] [DecidableEq K] {shown : K → Text} {showCx : Cx K → Text} {flt : Text → Option K} {cpx : Text → Option (Cx K)}

/-! ### the statements -/

/-- the letter of a phase -/
def letterOf (j : WPhaseLoad K) : Char :=
  match j.phase with
  | some [c] => c
  | _ => ' '

/-- the statements of a fraction -/
def fractionSts (shown : K → Text) (kind : Text) (c : Char) : Option K → Option K → List (Text × Text)
  | some a, some b => [(ofPhase (kind ++ "_fraction".toList) c, shown (a + b)), (ofPhase (kind ++ "_pf".toList) c, shown (a / (a + b)))]
  | _, _ => []

/-- the statement of a complex power -/
def powerSts (text : Cx K → Text) (k : Text) (c : Char) : Option K → Option K → List (Text × Text)
  | some p, some q => [(ofPhase k c, text ⟨p, q⟩)]
  | _, _ => []

/-- the statements of a phase -/
def phaseSts (shown : K → Text) (showCx : Cx K → Text) (j : WPhaseLoad K) : List (Text × Text) :=
  if j.useZip = some 1 then
    fractionSts shown "current".toList (letterOf j) j.pcurrent j.qcurrent ++ fractionSts shown "power".toList (letterOf j) j.ppower j.qpower ++
      fractionSts shown "impedance".toList (letterOf j) j.pimpedance j.qimpedance ++ powerSts showCx "base_power".toList (letterOf j) j.p j.q
  else powerSts (fun z => stripParens (showCx z)) "constant_power".toList (letterOf j) j.p j.q

/-- a statement that may be missing -/
def optSts (k : Text) : Option Text → List (Text × Text)
  | none => []
  | some v => [(k, v)]

/-- name, voltage and parent -/
def headSts (shown : K → Text) (l : WLoad K) : List (Text × Text) :=
  optSts "name".toList (l.name.map ('n' :: ·)) ++ optSts "nominal_voltage".toList (l.voltage.map shown) ++
    optSts "parent".toList (l.element.map ('n' :: ·))

/-- the statements of a load -/
def loadSts (shown : K → Text) (showCx : Cx K → Text) (l : WLoad K) : List (Text × Text) :=
  headSts shown l ++ l.phaseLoads.flatMap (phaseSts shown showCx)

/-- a load as an object of a file -/
def loadDecl (shown : K → Text) (showCx : Cx K → Text) (l : WLoad K) : Decl := ⟨"load".toList, none, loadSts shown showCx l⟩

omit [DecidableEq K] in
theorem letter_of {j : WPhaseLoad K} {c : Char} (h : j.phase = some [c]) : letterOf j = c := by unfold letterOf; rw [h]

/-- rows that begin with a blank -/
def Indented (rows : List Text) : Prop := ∀ row ∈ rows, row.head? = some ' '

theorem indented_append {a b : List Text} (ha : Indented a) (hb : Indented b) : Indented (a ++ b) := fun row h =>
  (List.mem_append.mp h).elim (ha row) (hb row)

theorem indented_entry (k v : Text) : Indented [entryRow four k v] := by
  intro row h
  rw [List.mem_singleton.mp h]
  rfl

theorem phase_word {k : Text} {c : Char} (hk : ∀ x ∈ k, x.isWhitespace = false) (hc : c ∈ ['A', 'B', 'C']) : Word (ofPhase k c) := by
  refine ⟨by simp [ofPhase], fun x hx => ?_⟩
  unfold ofPhase at hx
  rcases List.mem_append.mp hx with hx | hx
  · exact hk x hx
  · simp only [List.mem_cons, List.not_mem_nil, or_false] at hx hc
    rcases hx with rfl | rfl
    · decide
    · rcases hc with rfl | rfl | rfl <;> decide

theorem phase_plain {k : Text} {c : Char} (hs : ¬['/', '/'] <+: k) (hl : 2 ≤ k.length) : Plain (ofPhase k c) := by
  have hm : '_' ∈ ofPhase k c := by simp [ofPhase]
  refine ⟨?_, ?_, ?_⟩
  · intro e; rw [e] at hm; exact absurd hm (by decide)
  · intro e; rw [e] at hm; exact absurd hm (by decide)
  · rintro ⟨t, ht⟩
    apply hs
    match k, hl with
    | a :: b :: k, _ =>
      unfold ofPhase at ht
      injection ht with h1 h2
      injection h2 with h2 h3
      subst h1 h2
      exact ⟨k, rfl⟩

theorem phase_statement {k v : Text} {c : Char} (hk : ∀ x ∈ k, x.isWhitespace = false) (hs : ¬['/', '/'] <+: k) (hl : 2 ≤ k.length)
    (hc : c ∈ ['A', 'B', 'C']) (hv : Token v) : Body [entryRow four (ofPhase k c) v] [(ofPhase k c, v)] :=
  body_one (entry_statement four_blank (phase_word hk hc) (phase_plain hs hl) hv)

theorem fraction_body (hk : Numbers shown flt) {kind : Text} (hkind : kind ∈ ["current".toList, "power".toList, "impedance".toList]) {c : Char}
    (hc : c ∈ ['A', 'B', 'C']) {p q : Option K} (h : Fraction p q) :
    ∃ rows, fractionRows shown kind [c] p q = .ok rows ∧ Body rows (fractionSts shown kind c p q) ∧ Indented rows := by
  obtain ⟨a, b, rfl, rfl, hne⟩ := h
  refine ⟨[entryRow four (kind ++ "_fraction_".toList ++ [c]) (shown (a + b)), entryRow four (kind ++ "_pf_".toList ++ [c]) (shown (a / (a + b)))], ?_, ?_,
    indented_append (indented_entry _ _) (indented_entry _ _)⟩
  · unfold fractionRows
    dsimp only
    rw [if_neg hne]
  · have e1 : kind ++ "_fraction_".toList ++ [c] = ofPhase (kind ++ "_fraction".toList) c := by
      unfold ofPhase; rw [List.append_assoc, List.append_assoc]; rfl
    have e2 : kind ++ "_pf_".toList ++ [c] = ofPhase (kind ++ "_pf".toList) c := by
      unfold ofPhase; rw [List.append_assoc, List.append_assoc]; rfl
    rw [e1, e2]
    have hw : ∀ s ∈ ["_fraction".toList, "_pf".toList], (∀ x ∈ kind ++ s, x.isWhitespace = false) ∧ ¬['/', '/'] <+: kind ++ s ∧ 2 ≤ (kind ++ s).length := by
      simp only [List.mem_cons, List.not_mem_nil, or_false] at hkind
      rcases hkind with rfl | rfl | rfl <;> decide
    obtain ⟨f1, f2, f3⟩ := hw "_fraction".toList (by simp)
    obtain ⟨g1, g2, g3⟩ := hw "_pf".toList (by simp)
    exact body_append (phase_statement f1 f2 f3 hc (hk.token _)) (phase_statement g1 g2 g3 hc (hk.token _))

/-- the rows of a phase are its statements -/
theorem phase_body (hk : Numbers shown flt) (hx : ComplexNumbers showCx cpx) {j : WPhaseLoad K} {c : Char} (hj : WritablePhase j c) :
    ∃ rows, phaseLoadRows shown showCx j = .ok rows ∧ Body rows (phaseSts shown showCx j) ∧ Indented rows := by
  obtain ⟨p, hp⟩ := Option.isSome_iff_exists.mp hj.active
  obtain ⟨q, hq⟩ := Option.isSome_iff_exists.mp hj.reactive
  obtain ⟨z, hz⟩ := Option.isSome_iff_exists.mp hj.flag
  have hl := letter_of hj.phase
  unfold phaseLoadRows phaseSts
  rw [hj.phase, hl]
  dsimp only
  rw [hz]
  dsimp only
  by_cases h1 : z = 1
  · subst h1
    rw [if_pos rfl, if_pos rfl]
    obtain ⟨s1, s2, s3⟩ := hj.shares hz
    obtain ⟨r1, a1, b1, c1⟩ := fraction_body hk (kind := "current".toList) (by simp) hj.letter s1
    obtain ⟨r2, a2, b2, c2⟩ := fraction_body hk (kind := "power".toList) (by simp) hj.letter s2
    obtain ⟨r3, a3, b3, c3⟩ := fraction_body hk (kind := "impedance".toList) (by simp) hj.letter s3
    refine ⟨r1 ++ r2 ++ r3 ++ [entryRow four (ofPhase "base_power".toList c) (showCx ⟨p, q⟩)], ?_, ?_,
      indented_append (indented_append (indented_append c1 c2) c3) (indented_entry _ _)⟩
    · unfold zipRows
      rw [a1, a2, a3, hp, hq]
      rfl
    · refine body_append (body_append (body_append b1 b2) b3) ?_
      rw [hp, hq]
      exact phase_statement (k := "base_power".toList) (by decide) (by decide) (by decide) hj.letter (hx.token _)
  · rw [if_neg h1, if_neg (fun h => h1 (by injection h))]
    refine ⟨_, rfl, ?_, ?_⟩
    · rw [hp, hq]
      exact phase_statement (k := "constant_power".toList) (by decide) (by decide) (by decide) hj.letter (hx.stripped _)
    · rw [hp, hq]
      exact indented_entry _ _

theorem phases_body (hk : Numbers shown flt) (hx : ComplexNumbers showCx cpx) {js : List (WPhaseLoad K)} {cs : List Char}
    (h : List.Forall₂ WritablePhase js cs) :
    ∃ rows, phaseLoadsRows shown showCx js = .ok rows ∧ Body rows (js.flatMap (phaseSts shown showCx)) ∧ Indented rows := by
  induction h with
  | nil => exact ⟨[], rfl, Body.nil, (fun _ h => by cases h)⟩
  | @cons j c js cs hj _ ih =>
    obtain ⟨r1, a1, b1, c1⟩ := phase_body hk hx hj
    obtain ⟨r2, a2, b2, c2⟩ := ih
    refine ⟨r1 ++ r2, ?_, ?_, indented_append c1 c2⟩
    · unfold phaseLoadsRows
      rw [a1, a2]
    · rw [List.flatMap_cons]
      exact body_append b1 b2

theorem opt_body {k : Text} {o : Option Text} (hw : Word k) (hp : Plain k) (ho : ∀ v, o = some v → Token v) :
    Body (optRows k o) (optSts k o) ∧ Indented (optRows k o) := by
  cases o with
  | none => exact ⟨Body.nil, (fun _ h => by cases h)⟩
  | some v => exact ⟨body_one (entry_statement four_blank hw hp (ho v rfl)), indented_entry _ _⟩

omit [DecidableEq K] in
theorem head_body (hk : Numbers shown flt) {l : WLoad K} (hn : ∀ n, l.name = some n → Token ('n' :: n))
    (he : ∀ e, l.element = some e → Token ('n' :: e)) : Body (loadHeadRows shown l) (headSts shown l) ∧ Indented (loadHeadRows shown l) := by
  obtain ⟨a1, b1⟩ := opt_body (k := "name".toList) (o := l.name.map ('n' :: ·)) (word_lit (by decide)) (plain_lit (by decide)) (by
    intro v hv
    obtain ⟨n, h1, rfl⟩ := Option.map_eq_some_iff.mp hv
    exact hn n h1)
  obtain ⟨a2, b2⟩ := opt_body (k := "nominal_voltage".toList) (o := l.voltage.map shown) (word_lit (by decide)) (plain_lit (by decide)) (by
    intro v hv
    obtain ⟨n, h1, rfl⟩ := Option.map_eq_some_iff.mp hv
    exact hk.token n)
  obtain ⟨a3, b3⟩ := opt_body (k := "parent".toList) (o := l.element.map ('n' :: ·)) (word_lit (by decide)) (plain_lit (by decide)) (by
    intro v hv
    obtain ⟨n, h1, rfl⟩ := Option.map_eq_some_iff.mp hv
    exact he n h1)
  exact ⟨body_append (body_append a1 a2) a3, indented_append (indented_append b1 b2) b3⟩

theorem indented_plain {rows : List Text} (h : Indented rows) : NoInclude rows := by
  intro row hr
  have := h row hr
  cases row with
  | nil => cases this
  | cons c row =>
    cases this
    rintro ⟨t, ht⟩
    injection ht with h1 _
    exact absurd h1 (by decide)

theorem noInclude_append {a b : List Text} (ha : NoInclude a) (hb : NoInclude b) : NoInclude (a ++ b) := fun row h =>
  (List.mem_append.mp h).elim (ha row) (hb row)

/-- the rows of a load are its object -/
theorem load_block (hk : Numbers shown flt) (hx : ComplexNumbers showCx cpx) {l : WLoad K} (hn : ∀ n, l.name = some n → Token ('n' :: n))
    (he : ∀ e, l.element = some e → Token ('n' :: e)) {cs : List Char} (hp : List.Forall₂ WritablePhase l.phaseLoads cs) :
    ∃ block, loadRows shown showCx l = .ok (block ++ [[]]) ∧ Block block (loadDecl shown showCx l) ∧ NoInclude block := by
  obtain ⟨r1, a1, b1, c1⟩ := phases_body hk hx hp
  obtain ⟨b2, c2⟩ := head_body hk hn he
  refine ⟨"object load {".toList :: ((loadHeadRows shown l ++ r1) ++ ["};".toList]), ?_, ?_, ?_⟩
  · unfold loadRows
    rw [a1]
    simp
  · exact ⟨_, _, _, rfl, ⟨by change ':' ∉ "load".toList; decide, _, splits_of rfl⟩, body_append b2 b1, Or.inr (splits_of rfl)⟩
  · exact noInclude_append (a := ["object load {".toList]) (by unfold NoInclude; decide)
      (noInclude_append (indented_plain (indented_append c2 c1)) (by unfold NoInclude; decide))

theorem loads_lay (hk : Numbers shown flt) (hx : ComplexNumbers showCx cpx) {ls : List (WLoad K)} {names : List Text}
    (h : List.Forall₂ WritableLoad ls names) :
    ∃ rows, writeLoadRows shown showCx ls = .ok rows ∧ Lays rows (ls.map (loadDecl shown showCx)) ∧ NoInclude rows := by
  induction h with
  | nil => exact ⟨[], rfl, Lays.nil, (fun _ h => by cases h)⟩
  | @cons l name ls names hl _ ih =>
    obtain ⟨cs, hcs, -⟩ := hl.phases
    obtain ⟨block, a1, b1, c1⟩ := load_block hk hx (l := l) (fun n hn => by rw [hl.named] at hn; cases hn; exact hl.token) hl.element hcs
    obtain ⟨rows, a2, b2, c2⟩ := ih
    refine ⟨block ++ [[]] ++ rows, ?_, ?_, noInclude_append (noInclude_append c1 (by unfold NoInclude; decide)) c2⟩
    · unfold writeLoadRows
      rw [a1, a2]
    · rw [List.append_assoc]
      exact Lays.block b1 (Lays.outside (Or.inl (Or.inl (splits_of rfl))) b2)

/-! ### what the statements say -/

theorem lastValue_unique {l : List (Text × Text)} {k v : Text} (h : (k, v) ∈ l) (hu : ∀ v', (k, v') ∈ l → v' = v) : lastValue l k = some v := by
  unfold lastValue
  cases hf : l.reverse.find? fun p => p.1 = k with
  | none =>
    rw [List.find?_eq_none] at hf
    exact absurd (hf (k, v) (List.mem_reverse.mpr h)) (by simp)
  | some p =>
    have h1 := List.find?_some hf
    have h2 := List.mem_reverse.mp (List.mem_of_find?_eq_some hf)
    obtain ⟨k', v'⟩ := p
    simp only [decide_eq_true_eq] at h1
    subst h1
    rw [hu v' h2]
    rfl

theorem lastValue_none {l : List (Text × Text)} {k : Text} (h : ∀ p ∈ l, p.1 ≠ k) : lastValue l k = none := by
  unfold lastValue
  rw [List.find?_eq_none.mpr]
  · rfl
  · intro p hp
    simpa using h p (List.mem_reverse.mp hp)

theorem ofPhase_inj {k k' : Text} {c c' : Char} (h : ofPhase k c = ofPhase k' c') : k = k' ∧ c = c' := by
  unfold ofPhase at h
  obtain ⟨h1, h2⟩ := List.append_inj' h rfl
  injection h2 with _ h2
  injection h2 with h2 _
  exact ⟨h1, h2⟩

/-- the attributes of a phase that are written -/
def writtenKeys : List Text := ["constant_power".toList, "base_power".toList] ++ zipAttrs

omit [DecidableEq K] in
theorem fraction_keys {kind : Text} (hkind : kind ∈ ["current".toList, "power".toList, "impedance".toList]) {c : Char} {p q : Option K}
    {st : Text × Text} (h : st ∈ fractionSts shown kind c p q) : ∃ k ∈ writtenKeys, st.1 = ofPhase k c := by
  have hw : ∀ s ∈ ["_fraction".toList, "_pf".toList], kind ++ s ∈ writtenKeys := by
    simp only [List.mem_cons, List.not_mem_nil, or_false] at hkind
    rcases hkind with rfl | rfl | rfl <;> decide
  cases p with
  | none => cases h
  | some a =>
    cases q with
    | none => cases h
    | some b =>
      rcases List.mem_cons.mp h with rfl | h
      · exact ⟨_, hw _ (by simp), rfl⟩
      · rw [List.mem_singleton.mp h]
        exact ⟨_, hw _ (by simp), rfl⟩

omit [DecidableEq K] in
theorem power_keys {text : Cx K → Text} {k : Text} {c : Char} {p q : Option K} {st : Text × Text} (h : st ∈ powerSts text k c p q) :
    st.1 = ofPhase k c := by
  cases p with
  | none => cases h
  | some a =>
    cases q with
    | none => cases h
    | some b => rw [List.mem_singleton.mp h]

omit [DecidableEq K] in
theorem phase_keys {j : WPhaseLoad K} {st : Text × Text} (h : st ∈ phaseSts shown showCx j) : ∃ k ∈ writtenKeys, st.1 = ofPhase k (letterOf j) := by
  unfold phaseSts at h
  split at h
  · rcases List.mem_append.mp h with h | h
    · rcases List.mem_append.mp h with h | h
      · rcases List.mem_append.mp h with h | h
        · exact fraction_keys (by simp) h
        · exact fraction_keys (by simp) h
      · exact fraction_keys (by simp) h
    · exact ⟨_, by unfold writtenKeys; simp, power_keys h⟩
  · exact ⟨_, by unfold writtenKeys; simp, power_keys h⟩

omit [DecidableEq K] in
/-- each attribute of a phase is written once -/
theorem phase_once {j : WPhaseLoad K} {c : Char} (hj : WritablePhase j c) {k v v' : Text} (h : (k, v) ∈ phaseSts shown showCx j)
    (h' : (k, v') ∈ phaseSts shown showCx j) : v' = v := by
  have hnd : ((phaseSts shown showCx j).map (·.1)).Nodup := by
    obtain ⟨p, hp⟩ := Option.isSome_iff_exists.mp hj.active
    obtain ⟨q, hq⟩ := Option.isSome_iff_exists.mp hj.reactive
    have hinj : Function.Injective fun k => ofPhase k (letterOf j) := fun a b h => (ofPhase_inj h).1
    unfold phaseSts
    rw [hp, hq]
    split
    · rename_i hz
      obtain ⟨⟨a1, b1, e1, f1, -⟩, ⟨a2, b2, e2, f2, -⟩, a3, b3, e3, f3, -⟩ := hj.shares hz
      rw [e1, f1, e2, f2, e3, f3]
      have : (["current_fraction".toList, "current_pf".toList, "power_fraction".toList, "power_pf".toList, "impedance_fraction".toList,
        "impedance_pf".toList, "base_power".toList] : List Text).Nodup := by decide
      have h := List.Nodup.map hinj this
      exact h
    · exact List.nodup_singleton _
  have := List.inj_on_of_nodup_map hnd h' h rfl
  injection this

omit [DecidableEq K] in
theorem head_keys {l : WLoad K} {st : Text × Text} (h : st ∈ headSts shown l) :
    st.1 ∈ ["name".toList, "nominal_voltage".toList, "parent".toList] := by
  have ho : ∀ {k : Text} {o : Option Text}, st ∈ optSts k o → st.1 = k := by
    intro k o h
    cases o with
    | none => cases h
    | some v => rw [List.mem_singleton.mp h]
  unfold headSts at h
  rcases List.mem_append.mp h with h | h
  · rcases List.mem_append.mp h with h | h
    · rw [ho h]; simp
    · rw [ho h]; simp
  · rw [ho h]; simp

omit [DecidableEq K] in
theorem load_keys {l : WLoad K} {st : Text × Text} (h : st ∈ loadSts shown showCx l) :
    st.1 ∈ ["name".toList, "nominal_voltage".toList, "parent".toList] ∨ ∃ j ∈ l.phaseLoads, st ∈ phaseSts shown showCx j ∧ ∃ k ∈ writtenKeys, st.1 = ofPhase k (letterOf j) := by
  unfold loadSts at h
  rcases List.mem_append.mp h with h | h
  · exact Or.inl (head_keys h)
  · obtain ⟨j, hj, h⟩ := List.mem_flatMap.mp h
    exact Or.inr ⟨j, hj, h, phase_keys h⟩

theorem ofPhase_ne {k k' : Text} {c : Char} (h : '_' ∉ k' ∨ k' = "nominal_voltage".toList) : ofPhase k c ≠ k' := by
  intro e
  rcases h with h | h
  · apply h; rw [← e]; simp [ofPhase]
  · rw [h] at e
    have h1 := congrArg (fun t : Text => t.reverse) e
    unfold ofPhase at h1
    rw [List.reverse_append] at h1
    have h2 : "nominal_voltage".toList.reverse = 'e' :: 'g' :: "atlov_lanimon".toList := by decide
    rw [h2] at h1
    have h3 : [c, '_'] ++ k.reverse = 'e' :: 'g' :: "atlov_lanimon".toList := h1
    injection h3 with _ h3
    injection h3 with h3 _
    exact absurd h3 (by decide)

omit [DecidableEq K] in
/-- name, voltage and parent are those at the beginning -/
theorem head_value {l : WLoad K} {k : Text} (hk : k ∈ ["name".toList, "nominal_voltage".toList, "parent".toList]) :
    lastValue (loadSts shown showCx l) k = lastValue (headSts shown l) k := by
  unfold loadSts
  rw [lastValue_append, lastValue_none, Option.none_or]
  intro p hp
  obtain ⟨j, -, hp⟩ := List.mem_flatMap.mp hp
  obtain ⟨k', -, e⟩ := phase_keys hp
  rw [e]
  apply ofPhase_ne
  simp only [List.mem_cons, List.not_mem_nil, or_false] at hk
  rcases hk with rfl | rfl | rfl
  · exact Or.inl (by decide)
  · exact Or.inr rfl
  · exact Or.inl (by decide)

theorem lastValue_opt (k : Text) (o : Option Text) (k' : Text) : lastValue (optSts k o) k' = if k = k' then o else none := by
  cases o with
  | none => rw [optSts]; split <;> rfl
  | some v => rw [optSts, lastValue_one]

omit [DecidableEq K] in
theorem head_name (l : WLoad K) : lastValue (headSts shown l) "name".toList = l.name.map ('n' :: ·) := by
  unfold headSts
  rw [lastValue_append, lastValue_append, lastValue_opt, lastValue_opt, lastValue_opt, if_neg (by decide), if_neg (by decide), if_pos rfl]
  rfl

omit [DecidableEq K] in
theorem head_voltage (l : WLoad K) : lastValue (headSts shown l) "nominal_voltage".toList = l.voltage.map shown := by
  unfold headSts
  rw [lastValue_append, lastValue_append, lastValue_opt, lastValue_opt, lastValue_opt, if_neg (by decide), if_pos rfl, if_neg (by decide)]
  cases l.voltage <;> rfl

omit [DecidableEq K] in
theorem head_parent (l : WLoad K) : lastValue (headSts shown l) "parent".toList = l.element.map ('n' :: ·) := by
  unfold headSts
  rw [lastValue_append, lastValue_append, lastValue_opt, lastValue_opt, lastValue_opt, if_pos rfl, if_neg (by decide), if_neg (by decide)]
  cases l.element <;> rfl

omit [DecidableEq K] in
theorem decl_name {l : WLoad K} {name : Text} (h : l.name = some name) : nameOf (loadDecl shown showCx l) = some ('n' :: name) := by
  unfold nameOf loadDecl
  dsimp only
  rw [head_value (by simp), head_name, h]
  rfl

omit [DecidableEq K] in
theorem written_phase {js : List (WPhaseLoad K)} {cs : List Char} (h : List.Forall₂ WritablePhase js cs) {j : WPhaseLoad K} (hj : j ∈ js) :
    ∃ c, WritablePhase j c := by
  induction h with
  | nil => cases hj
  | cons hx _ ih =>
    rcases List.mem_cons.mp hj with rfl | hj
    · exact ⟨_, hx⟩
    · exact ih hj

omit [DecidableEq K] in
/-- a statement of a phase is the value of the attribute -/
theorem phase_value {l : WLoad K} {cs : List Char} (hcs : List.Forall₂ WritablePhase l.phaseLoads cs) (hnd : cs.Nodup) {j : WPhaseLoad K}
    (hj : j ∈ l.phaseLoads) {c : Char} (hc : j.phase = some [c]) {k v : Text} (h : (ofPhase k c, v) ∈ phaseSts shown showCx j) :
    attrOf (loadDecl shown showCx l) (ofPhase k c) = some v := by
  have hletters : l.phaseLoads.map letterOf = cs := by
    have : List.Forall₂ (fun j c => letterOf j = c) l.phaseLoads cs := hcs.imp fun _ _ h => letter_of h.phase
    rw [← List.forall₂_eq_eq_eq, List.forall₂_map_left_iff]
    exact this
  unfold attrOf
  rw [if_neg (ofPhase_ne (Or.inl (by decide)))]
  refine lastValue_unique (List.mem_append_right _ (List.mem_flatMap.mpr ⟨j, hj, h⟩)) fun v' hv' => ?_
  rcases load_keys hv' with hk' | ⟨j', hj', hm, k', -, e⟩
  · exfalso
    simp only [List.mem_cons, List.not_mem_nil, or_false] at hk'
    rcases hk' with e | e | e
    · exact ofPhase_ne (Or.inl (by decide)) e
    · exact ofPhase_ne (Or.inr rfl) e
    · exact ofPhase_ne (Or.inl (by decide)) e
  · have hcc := (ofPhase_inj e).2
    have : j' = j := List.inj_on_of_nodup_map (hletters ▸ hnd) hj' hj (by rw [letter_of hc]; exact hcc.symm)
    subst this
    obtain ⟨c', hc'⟩ := written_phase hcs hj
    exact phase_once hc' h hm

omit [DecidableEq K] in
theorem fraction_says (hk : Numbers shown flt) {d : Decl} {kind : Text} {c : Char} {p q : Option K} (h : Fraction p q)
    (hd : ∀ k v, (ofPhase k c, v) ∈ fractionSts shown kind c p q → attrOf d (ofPhase k c) = some v) : FractionSays flt d kind c p q := by
  obtain ⟨a, b, rfl, rfl, hne⟩ := h
  refine ⟨a, b, a + b, a / (a + b), rfl, rfl, ⟨_, hd _ _ List.mem_cons_self, hk.inverse _⟩,
    ⟨_, hd _ _ (List.mem_cons_of_mem _ List.mem_cons_self), hk.inverse _⟩, rfl, ?_, ?_⟩
  · field_simp
  · field_simp
    ring

omit [DecidableEq K] in
/-- the object says what the load is -/
theorem decl_written (hk : Numbers shown flt) (hx : ComplexNumbers showCx cpx) {l : WLoad K} {name : Text} (h : WritableLoad l name) :
    LoadWritten flt cpx showCx l name (loadDecl shown showCx l) where
  cls := rfl
  name := decl_name h.named
  parent := by
    unfold attrOf
    rw [if_neg (by decide)]
    exact (head_value (by simp)).trans (head_parent l)
  voltage := by
    have e : attrOf (loadDecl shown showCx l) "nominal_voltage".toList = l.voltage.map shown := by
      unfold attrOf
      rw [if_neg (by decide)]
      exact (head_value (by simp)).trans (head_voltage l)
    cases hv : l.voltage with
    | none => rw [hv] at e; exact Or.inl ⟨rfl, e⟩
    | some v => rw [hv] at e; exact Or.inr ⟨v, rfl, _, e, hk.inverse v⟩
  phases := by
    intro j hj c hc
    obtain ⟨cs, hcs, hnd⟩ := h.phases
    obtain ⟨c', hw⟩ := written_phase hcs hj
    have hcc : c' = c := by
      have := hw.phase.symm.trans hc
      injection this with this
      injection this
    subst hcc
    have hval : ∀ k v, (ofPhase k c', v) ∈ phaseSts shown showCx j → attrOf (loadDecl shown showCx l) (ofPhase k c') = some v :=
      fun k v h => phase_value hcs hnd hj hc h
    obtain ⟨p, hp⟩ := Option.isSome_iff_exists.mp hw.active
    obtain ⟨q, hq⟩ := Option.isSome_iff_exists.mp hw.reactive
    refine ⟨fun hz => ?_, fun hz => ?_⟩
    · refine ⟨p, q, hp, hq, _, hval _ _ ?_, hx.inverse ⟨p, q⟩⟩
      unfold phaseSts
      rw [if_neg hz, hp, hq, letter_of hc]
      exact List.mem_singleton.mpr rfl
    · have hmem : ∀ {st : Text × Text}, st ∈ fractionSts shown "current".toList c' j.pcurrent j.qcurrent ++
          fractionSts shown "power".toList c' j.ppower j.qpower ++ fractionSts shown "impedance".toList c' j.pimpedance j.qimpedance ++
          powerSts showCx "base_power".toList c' j.p j.q → st ∈ phaseSts shown showCx j := by
        intro st hst
        unfold phaseSts
        rw [if_pos hz, letter_of hc]
        exact hst
      obtain ⟨s1, s2, s3⟩ := hw.shares hz
      refine ⟨fraction_says hk s1 fun k v hm => hval k v (hmem ?_), fraction_says hk s2 fun k v hm => hval k v (hmem ?_),
        fraction_says hk s3 fun k v hm => hval k v (hmem ?_), p, q, hp, hq, hval _ _ (hmem ?_)⟩
      · exact List.mem_append_left _ (List.mem_append_left _ (List.mem_append_left _ hm))
      · exact List.mem_append_left _ (List.mem_append_left _ (List.mem_append_right _ hm))
      · exact List.mem_append_left _ (List.mem_append_right _ hm)
      · refine List.mem_append_right _ ?_
        rw [hp, hq]
        exact List.mem_singleton.mpr rfl

/-- C87 (partial): for every list of loads the writer writes one object for each, in order, with its name, bus and voltage, and with the
constant power of each phase, or the fractions, power factors and base power of a ZIP load. -/
theorem C87_written_partial (hk : Numbers shown flt) (hx : ComplexNumbers showCx cpx) {ls : List (WLoad K)} {names : List Text}
    (h : List.Forall₂ WritableLoad ls names) :
    ∃ rows ds, writeLoadRows shown showCx ls = .ok rows ∧ Lays rows ds ∧ NoInclude rows ∧
      List.Forall₂ (fun (p : WLoad K × Text) d => LoadWritten flt cpx showCx p.1 p.2 d) (ls.zip names) ds := by
  obtain ⟨rows, h1, h2, h3⟩ := loads_lay hk hx h
  refine ⟨rows, _, h1, h2, h3, ?_⟩
  clear h1 h2 h3
  induction h with
  | nil => exact .nil
  | cons hl _ ih => exact .cons (decl_written hk hx hl) ih

/-! ### reading back -/

omit [DecidableEq K] in
theorem written_good {schema : Schema} (hs : LoadSchema schema) {l : WLoad K} {cs : List Char} (hcs : List.Forall₂ WritablePhase l.phaseLoads cs) :
    ∃ ps, schema "load".toList = some ps ∧ "name".toList ∈ ps ∧ ∀ p ∈ loadSts shown showCx l, p.1 ∈ ps := by
  obtain ⟨ps, h1, h2, h3⟩ := hs
  refine ⟨ps, h1, h2 _ (by simp), fun p hp => ?_⟩
  rcases load_keys hp with hk | ⟨j, hj, -, k, hk, e⟩
  · apply h2
    simp only [List.mem_cons, List.not_mem_nil, or_false] at hk ⊢
    rcases hk with h | h | h <;> simp [h]
  · obtain ⟨c, hc⟩ := written_phase hcs hj
    rw [e, letter_of hc.phase]
    exact h3 k hk c hc.letter

theorem lastNamed_append (a b : List Decl) (n : Text) : lastNamed (a ++ b) n = (lastNamed b n).or (lastNamed a n) := by
  unfold lastNamed
  rw [List.reverse_append, List.find?_append]

theorem lastNamed_none {ds : List Decl} {n : Text} (h : ∀ d ∈ ds, nameOf d ≠ some n) : lastNamed ds n = none := by
  unfold lastNamed
  rw [List.find?_eq_none]
  intro d hd
  simp [h d (List.mem_reverse.mp hd)]

omit [DecidableEq K] in
theorem named_load {ls : List (WLoad K)} {names : List Text} (h : List.Forall₂ WritableLoad ls names) (hn : names.Nodup) {l : WLoad K} {name : Text}
    (hl : (l, name) ∈ ls.zip names) : lastNamed (ls.map (loadDecl shown showCx)) ('n' :: name) = some (loadDecl shown showCx l) := by
  induction h with
  | nil => cases hl
  | @cons l' name' ls names hw h' ih =>
    rw [List.nodup_cons] at hn
    rw [List.map_cons, lastNamed_cons]
    rcases List.mem_cons.mp hl with e | hl
    · injection e with e1 e2
      subst e1 e2
      rw [lastNamed_none, Option.none_or, if_pos ⟨by change "load".toList ∉ leftOut; decide, decl_name hw.named⟩]
      intro d hd
      obtain ⟨l2, hl2, rfl⟩ := List.mem_map.mp hd
      have key : ∀ {ls : List (WLoad K)} {names : List Text}, List.Forall₂ WritableLoad ls names → l2 ∈ ls → ∃ m ∈ names, l2.name = some m := by
        intro ls names hf hm
        induction hf with
        | nil => cases hm
        | cons hx _ ih =>
          rcases List.mem_cons.mp hm with rfl | hm
          · exact ⟨_, List.mem_cons_self, hx.named⟩
          · obtain ⟨m, h1, h2⟩ := ih hm
            exact ⟨m, List.mem_cons_of_mem _ h1, h2⟩
      obtain ⟨m, hm, hl2'⟩ := key h' hl2
      rw [decl_name hl2']
      intro e
      injection e with e
      injection e with _ e
      exact hn.1 (e ▸ hm)
    · rw [ih hn.2 hl]
      rfl

omit [DecidableEq K] in
/-- no phases are written -/
theorem no_letters (l : WLoad K) : lettersOf (loadDecl shown showCx l) = [] := by
  unfold lettersOf
  have : attrOf (loadDecl shown showCx l) "phases".toList = none := by
    unfold attrOf
    rw [if_neg (by decide)]
    refine lastValue_none fun p hp => ?_
    rcases load_keys hp with hk | ⟨j, -, -, k, -, e⟩
    · intro e
      rw [e] at hk
      exact absurd hk (by decide)
    · rw [e]
      exact ofPhase_ne (Or.inl (by decide))
  rw [this]

variable [LinearOrder K] [IsStrictOrderedRing K]

/-- what is read for a written load -/
theorem says_back (hk : Numbers shown flt) (hx : ComplexNumbers showCx cpx) {l : WLoad K} {name : Text} (h : WritableLoad l name)
    {schedules : List (Text × Text)} {r : GReadLoad K × Option (GReadNode K)} (hr : LoadSays flt cpx schedules (loadDecl shown showCx l) r) :
    SamePlace l name r ∧ r.1.phaseLoads = [] := by
  have hw := decl_written hk hx h
  constructor
  · constructor
    · rcases hw.voltage with ⟨h1, h2⟩ | ⟨v, h1, h2⟩
      · rcases hr.voltage with ⟨-, h4⟩ | ⟨v, h3, -⟩
        · rw [h1, h4]
        · exact absurd h2 (value_missing h3)
      · rcases hr.voltage with ⟨h3, -⟩ | ⟨v', h3, h4⟩
        · exact absurd h3 (value_missing h2)
        · rw [h1, h4, value_unique h2 h3]
    · obtain ⟨n, hn, hp⟩ := hr.placed
      rw [hw.name] at hn
      cases hn
      rw [hw.parent] at hp
      cases he : l.element with
      | some e => rw [he] at hp; exact hp
      | none =>
        rw [he] at hp
        obtain ⟨h1, h2, h3⟩ := hp
        exact ⟨h1, h2, _, h3, rfl⟩
  · have := hr.phases
    rw [no_letters] at this
    exact List.forall₂_nil_left_iff.mp this

/-- C87 violated: all phases and all power of all loads are lost when the file is read again, since the writer writes no phases. Name, bus and
voltage are kept, apart from the letter before the names. This is so whatever other objects are in the file. -/
theorem C87_back_violated (hk : Numbers shown flt) (hx : ComplexNumbers showCx cpx) {schema : Schema} (hs : LoadSchema schema)
    (due : List Text → Py Bool) (files : Text → Option (List Text)) {ls : List (WLoad K)} {names : List Text}
    (h : List.Forall₂ WritableLoad ls names) (hn : names.Nodup) {pre post : List Text} {before after : List Decl} (hpre : Lays pre before)
    (hpost : Lays post after) (hi : NoInclude pre) (hi' : NoInclude post) (hg : ∀ d ∈ before ++ after, Good schema d)
    (hnl : ∀ d ∈ before ++ after, d.cls ≠ "load".toList) (hclash : ∀ d ∈ after, ∀ name ∈ names, nameOf d ≠ some ('n' :: name)) :
    ∃ rows back, writeLoadRows shown showCx ls = .ok rows ∧ readLoadFile schema due files flt cpx [] (pre ++ rows ++ post) = .ok back ∧
      back.length = ls.length ∧ (∀ p ∈ ls.zip names, ∃ r ∈ back, SamePlace p.1 p.2 r) ∧ ∀ r ∈ back, r.1.phaseLoads = [] := by
  obtain ⟨rows, h1, h2, h3⟩ := loads_lay hk hx h
  have hlen := h.length_eq
  have hlays : Lays (pre ++ rows ++ post) (before ++ ls.map (loadDecl shown showCx) ++ after) := lays_append (lays_append hpre h2) hpost
  have hzip : ∀ l ∈ ls, ∃ name, (l, name) ∈ ls.zip names ∧ WritableLoad l name := by
    clear h1 h2 h3 hlays hlen hn hclash
    induction h with
    | nil => intro l hl; cases hl
    | @cons l name ls names hx _ ih =>
      intro l' hl'
      rcases List.mem_cons.mp hl' with rfl | hl'
      · exact ⟨name, List.mem_cons_self, hx⟩
      · obtain ⟨m, a, b⟩ := ih l' hl'
        exact ⟨m, List.mem_cons_of_mem _ a, b⟩
  have hgood : ∀ d ∈ before ++ ls.map (loadDecl shown showCx) ++ after, Good schema d := by
    intro d hd
    rcases List.mem_append.mp hd with hd | hd
    · rcases List.mem_append.mp hd with hd | hd
      · exact hg d (List.mem_append_left _ hd)
      · obtain ⟨l, hl, rfl⟩ := List.mem_map.mp hd
        obtain ⟨name, -, hw⟩ := hzip l hl
        obtain ⟨cs, hcs, -⟩ := hw.phases
        obtain ⟨ps, a, b, c⟩ := written_good (shown := shown) (showCx := showCx) hs hcs
        exact Or.inr ⟨ps, a, b, c, by rw [decl_name hw.named]; rfl⟩
    · exact hg d (List.mem_append_right _ hd)
  obtain ⟨s, hr, hh⟩ := C71_objects_partial due files hlays (noInclude_append (noInclude_append hi h3) hi') hgood []
  have hof : ∀ {n : Text} {d : Decl}, lastNamed (before ++ ls.map (loadDecl shown showCx) ++ after) n = some d → d.cls = "load".toList →
      ∃ p ∈ ls.zip names, WritableLoad p.1 p.2 ∧ d = loadDecl shown showCx p.1 ∧ n = 'n' :: p.2 := by
    intro n d hd hc
    have hm := List.mem_reverse.mp (List.mem_of_find?_eq_some hd)
    have hname := lastNamed_name hd
    rcases List.mem_append.mp hm with hm | hm
    · rcases List.mem_append.mp hm with hm | hm
      · exact absurd hc (hnl d (List.mem_append_left _ hm))
      · obtain ⟨l, hl, rfl⟩ := List.mem_map.mp hm
        obtain ⟨name, hz, hw⟩ := hzip l hl
        refine ⟨(l, name), hz, hw, rfl, ?_⟩
        rw [decl_name hw.named] at hname
        injection hname with e
        exact e.symm
    · exact absurd hc (hnl d (List.mem_append_right _ hm))
  have hat : ∀ p ∈ ls.zip names, lastNamed (before ++ ls.map (loadDecl shown showCx) ++ after) ('n' :: p.2) = some (loadDecl shown showCx p.1) := by
    intro p hp
    rw [lastNamed_append, lastNamed_append, lastNamed_none fun d hd => hclash d hd p.2 (List.of_mem_zip hp).2, Option.none_or, named_load h hn hp]
    rfl
  obtain ⟨back, hb⟩ := C86_succeeds (flt := flt) (cpx := cpx) hr hh (by
    intro n d hd hc
    obtain ⟨p, hp, hw, rfl, -⟩ := hof hd hc
    have hn0 := no_letters (shown := shown) (showCx := showCx) p.1
    refine ⟨?_, ?_, ?_, ?_⟩
    · intro t ht
      rcases (decl_written hk hx hw).voltage with ⟨-, h2⟩ | ⟨v, -, t', h2, h3⟩
      · rw [h2] at ht; cases ht
      · rw [h2] at ht; cases ht; rw [h3]; rfl
    · intro c hc; rw [hn0] at hc; cases hc
    · intro c hc; rw [hn0] at hc; cases hc
    · intro c hc; rw [hn0] at hc; cases hc)
  obtain ⟨ns, hnd, hmem, hall⟩ := C86_loads_partial hr hh hb
  refine ⟨rows, back, h1, hb, ?_, ?_, ?_⟩
  · rw [← hall.length_eq, hlen, ← List.length_map (f := ('n' :: ·)) (as := names)]
    refine List.Perm.length_eq ((List.perm_ext_iff_of_nodup hnd (hn.map fun a b e => by injection e)).mpr fun n => ?_)
    rw [hmem]
    constructor
    · rintro ⟨d, hd, hc⟩
      obtain ⟨p, hp, -, -, rfl⟩ := hof hd hc
      exact List.mem_map.mpr ⟨p.2, (List.of_mem_zip hp).2, rfl⟩
    · intro hm
      obtain ⟨name, hname, rfl⟩ := List.mem_map.mp hm
      obtain ⟨i, hi, rfl⟩ := List.mem_iff_getElem.mp hname
      have hp : (ls[i]'(by omega), names[i]) ∈ ls.zip names := by
        rw [List.mem_iff_getElem]
        exact ⟨i, by rw [List.length_zip]; omega, List.getElem_zip⟩
      exact ⟨_, hat _ hp, rfl⟩
  · intro p hp
    have hz := hat p hp
    have hw : WritableLoad p.1 p.2 := by
      obtain ⟨i, hi, e⟩ := List.mem_iff_getElem.mp hp
      rw [List.getElem_zip] at e
      rw [List.length_zip] at hi
      have := (List.forall₂_iff_get.mp h).2 i (by omega) (by omega)
      rw [← e]
      exact this
    obtain ⟨r, h4, h5⟩ := load_found hr hh hb hz rfl
    exact ⟨r, h4, (says_back hk hx hw h5).1⟩
  · intro r hr'
    obtain ⟨i, hi, rfl⟩ := List.mem_iff_getElem.mp hr'
    have hlen' := hall.length_eq
    obtain ⟨d, hd, hsays⟩ := (List.forall₂_iff_get.mp hall).2 i (by omega) hi
    have hin : ns[i]'(by omega) ∈ ns := List.getElem_mem _
    obtain ⟨d', hd', hc'⟩ := (hmem _).mp hin
    rw [List.get_eq_getElem] at hd
    rw [hd] at hd'
    cases hd'
    obtain ⟨p, hp, hw, rfl, -⟩ := hof hd hc'
    exact (says_back hk hx hw hsays).2

omit [LinearOrder K] [IsStrictOrderedRing K] in
/-- C87 violated: a load without name is written without one, and the file cannot be read, whatever else is in it -/
theorem C87_unnamed_violated (hk : Numbers shown flt) (hx : ComplexNumbers showCx cpx) {schema : Schema} (hs : LoadSchema schema)
    (due : List Text → Py Bool) (files : Text → Option (List Text)) {ls : List (WLoad K)} {names : List Text}
    (h : List.Forall₂ WritableLoad ls names) {pre post : List Text} {before : List Decl} (hpre : Lays pre before)
    (hi : NoInclude pre) (hi' : NoInclude post) (hg : ∀ d ∈ before, Good schema d) {l : WLoad K} (hname : l.name = none)
    (he : ∀ e, l.element = some e → Token ('n' :: e)) {cs : List Char} (hcs : List.Forall₂ WritablePhase l.phaseLoads cs) :
    ∃ rows, writeLoadRows shown showCx (ls ++ [l]) = .ok rows ∧
      readLoadFile schema due files flt cpx [] (pre ++ rows ++ post) = .error .attributeError := by
  obtain ⟨rows, h1, h2, h3⟩ := loads_lay hk hx h
  obtain ⟨block, a1, b1, c1⟩ := load_block hk hx (l := l) (fun n hn => by rw [hname] at hn; cases hn) he hcs
  have happ : ∀ {ls : List (WLoad K)} {rows : List Text}, writeLoadRows shown showCx ls = .ok rows →
      writeLoadRows shown showCx (ls ++ [l]) = .ok (rows ++ (block ++ [[]])) := by
    intro ls
    induction ls with
    | nil => intro rows hr; cases hr; rw [List.nil_append, writeLoadRows, a1]; exact congrArg Except.ok (List.append_nil _)
    | cons l' ls ih =>
      intro rows hr
      rw [writeLoadRows] at hr
      rw [List.cons_append, writeLoadRows]
      cases e1 : loadRows shown showCx l' with
      | error e => rw [e1] at hr; cases hr
      | ok a =>
        rw [e1] at hr
        dsimp only at hr ⊢
        cases e2 : writeLoadRows shown showCx ls with
        | error e => rw [e2] at hr; cases hr
        | ok b =>
          rw [e2] at hr
          cases hr
          rw [ih e2]
          dsimp only
          rw [List.append_assoc]
  refine ⟨_, happ h1, ?_⟩
  obtain ⟨ps, g1, g2, g3⟩ := written_good (shown := shown) (showCx := showCx) hs hcs
  have hgood : ∀ d ∈ before ++ ls.map (loadDecl shown showCx), Good schema d := by
    intro d hd
    rcases List.mem_append.mp hd with hd' | hd'
    · exact hg d hd'
    · obtain ⟨l', hl', ed⟩ := List.mem_map.mp hd'
      rw [← ed]
      have hw : ∃ name, WritableLoad l' name := by
        clear h1 h2 h3 hd hd' ed
        induction h with
        | nil => cases hl'
        | cons hx _ ih =>
          rcases List.mem_cons.mp hl' with rfl | hl'
          · exact ⟨_, hx⟩
          · exact ih hl'
      obtain ⟨name, hw⟩ := hw
      obtain ⟨cs', hcs', -⟩ := hw.phases
      obtain ⟨ps, a, b, c⟩ := written_good (shown := shown) (showCx := showCx) hs hcs'
      exact Or.inr ⟨ps, a, b, c, by rw [decl_name hw.named]; rfl⟩
  have hnone : nameOf (loadDecl shown showCx l) = none := by
    have hno : ∀ k ∈ ["from".toList, "to".toList], lastValue (loadSts shown showCx l) k = none := by
      intro k hk
      refine lastValue_none fun p hp e => ?_
      rcases load_keys hp with hk' | ⟨j, -, -, k', -, e'⟩
      · rw [e] at hk'
        simp only [List.mem_cons, List.not_mem_nil, or_false] at hk
        rcases hk with rfl | rfl <;> exact absurd hk' (by decide)
      · rw [e'] at e
        refine ofPhase_ne (Or.inl ?_) e
        simp only [List.mem_cons, List.not_mem_nil, or_false] at hk
        rcases hk with rfl | rfl <;> decide
    have hn0 : lastValue (loadSts shown showCx l) "name".toList = none := by
      rw [head_value (by simp), head_name, hname]
      rfl
    unfold nameOf loadDecl
    dsimp only
    rw [hn0, hno _ (by simp), hno _ (by simp)]
  have hcat : pre ++ (rows ++ (block ++ [[]])) ++ post = (pre ++ rows) ++ block ++ ([[]] ++ post) := by simp
  unfold readLoadFile
  rw [hcat, C71_unnamed_violated due files (lays_append hpre h2) hgood [] (noInclude_append (noInclude_append (noInclude_append hi h3) c1)
    (noInclude_append (a := [[]]) (by unfold NoInclude; decide) hi')) b1 (by change "load".toList ∉ leftOut; decide) g1 g2 g3 hnone]

omit [LinearOrder K] [IsStrictOrderedRing K] in
theorem phases_ok_append {js js' : List (WPhaseLoad K)} {rows : List Text} (h : phaseLoadsRows shown showCx (js ++ js') = .ok rows) :
    ∃ a b, phaseLoadsRows shown showCx js = .ok a ∧ phaseLoadsRows shown showCx js' = .ok b ∧ rows = a ++ b := by
  induction js generalizing rows with
  | nil => exact ⟨[], rows, rfl, h, rfl⟩
  | cons j js ih =>
    rw [List.cons_append, phaseLoadsRows] at h
    cases e1 : phaseLoadRows shown showCx j with
    | error e => rw [e1] at h; cases h
    | ok a =>
      rw [e1] at h
      dsimp only at h
      cases e2 : phaseLoadsRows shown showCx (js ++ js') with
      | error e => rw [e2] at h; cases h
      | ok b =>
        rw [e2] at h
        cases h
        obtain ⟨x, y, h1, h2, rfl⟩ := ih e2
        refine ⟨a ++ x, y, ?_, h2, by rw [List.append_assoc]⟩
        rw [phaseLoadsRows, e1, h1]

omit [LinearOrder K] [IsStrictOrderedRing K] in
/-- C87 violated: a phase other than A, B and C, such as the phase s1 of a house, is written with an attribute that the schema does not have, and
the file cannot be read -/
theorem C87_phase_violated (hk : Numbers shown flt) (hx : ComplexNumbers showCx cpx) {schema : Schema} (hs : LoadSchema schema)
    (due : List Text → Py Bool) (files : Text → Option (List Text)) {pre post : List Text} {before : List Decl} (hpre : Lays pre before)
    (hi : NoInclude pre) (hg : ∀ d ∈ before, Good schema d) {l : WLoad K} (hname : ∀ n, l.name = some n → Token ('n' :: n))
    (he : ∀ e, l.element = some e → Token ('n' :: e)) {js more : List (WPhaseLoad K)} {j : WPhaseLoad K} (hl : l.phaseLoads = js ++ j :: more)
    {cs : List Char} (hcs : List.Forall₂ WritablePhase js cs) {ph : Text} (hph : j.phase = some ph) (hw : ∀ c ∈ ph, c.isWhitespace = false)
    {z : Int} (hz : j.useZip = some z) (hz1 : z ≠ 1) {p q : K} (hp : j.p = some p) (hq : j.q = some q)
    (hno : ∀ ps, schema "load".toList = some ps → "constant_power_".toList ++ ph ∉ ps) {rows : List Text}
    (hrows : writeLoadRows shown showCx [l] = .ok rows) (hi' : NoInclude (rows ++ post)) :
    readLoadFile schema due files flt cpx [] (pre ++ rows ++ post) = .error .attributeError := by
  have hone : ∃ block, loadRows shown showCx l = .ok block ∧ rows = block := by
    rw [writeLoadRows] at hrows
    cases e1 : loadRows shown showCx l with
    | error e => rw [e1] at hrows; cases hrows
    | ok a =>
      rw [e1] at hrows
      cases hrows
      exact ⟨a, rfl, List.append_nil a⟩
  obtain ⟨block, hb, hrb⟩ := hone
  rw [hrb] at hi' ⊢
  unfold loadRows at hb
  rw [hl] at hb
  cases e1 : phaseLoadsRows shown showCx (js ++ j :: more) with
  | error e => rw [e1] at hb; cases hb
  | ok all =>
    rw [e1] at hb
    dsimp only at hb
    obtain ⟨a, b, h1, h2, rfl⟩ := phases_ok_append e1
    obtain ⟨a', g1, g2, g3⟩ := phases_body hk hx hcs
    rw [h1] at g1
    cases g1
    have hj : phaseLoadRows shown showCx j = .ok [entryRow four ("constant_power_".toList ++ ph) (stripParens (showCx ⟨p, q⟩))] := by
      unfold phaseLoadRows
      rw [hph]
      dsimp only
      rw [hz]
      dsimp only
      rw [if_neg hz1, hp, hq]
      rfl
    rw [phaseLoadsRows, hj] at h2
    dsimp only at h2
    cases e2 : phaseLoadsRows shown showCx more with
    | error e => rw [e2] at h2; cases h2
    | ok m =>
      rw [e2] at h2
      cases h2
      obtain ⟨ps, f1, f2, f3⟩ := hs
      obtain ⟨k1, k2⟩ := head_body hk hname he
      have hcat : block = "object load {".toList :: ((loadHeadRows shown l ++ a) ++
          [entryRow four ("constant_power_".toList ++ ph) (stripParens (showCx ⟨p, q⟩))]) ++ (m ++ ["};".toList, []]) := by
        cases hb
        simp
      have hcat' : pre ++ block ++ post = pre ++ ("object load {".toList :: ((loadHeadRows shown l ++ a) ++
          [entryRow four ("constant_power_".toList ++ ph) (stripParens (showCx ⟨p, q⟩))])) ++ ((m ++ ["};".toList, []]) ++ post) := by
        rw [hcat]
        simp
      have hword : Word ("constant_power_".toList ++ ph) := by
        refine ⟨by simp, fun c hc => ?_⟩
        rcases List.mem_append.mp hc with hc | hc
        · exact (by decide : ∀ c ∈ "constant_power_".toList, c.isWhitespace = false) c hc
        · exact hw c hc
      have hplain : Plain ("constant_power_".toList ++ ph) := by
        refine ⟨fun e => ?_, fun e => ?_, ?_⟩
        · have : '_' ∈ "object".toList := by rw [← e]; simp
          exact absurd this (by decide)
        · have : '_' ∈ "schedule".toList := by rw [← e]; simp
          exact absurd this (by decide)
        · rintro ⟨t, ht⟩
          have h1 : "constant_power_".toList = 'c' :: "onstant_power_".toList := by decide
          rw [h1] at ht
          injection ht with ht _
          exact absurd ht (by decide)
      unfold readLoadFile
      have hni : NoInclude (pre ++ block ++ post) := by rw [List.append_assoc]; exact noInclude_append hi hi'
      rw [hcat'] at hni ⊢
      rw [C71_attribute_violated due files hpre hg [] (d := ⟨"load".toList, none, headSts shown l ++ js.flatMap (phaseSts shown showCx)⟩) hni
        ⟨by change ':' ∉ "load".toList; decide, _, splits_of rfl⟩ (body_append k1 g2)
        (entry_statement four_blank hword hplain (hx.stripped _)) (by change "load".toList ∉ leftOut; decide) f1 (f2 _ (by simp)) ?_ (hno ps f1)]
      intro st hst
      rcases List.mem_append.mp hst with hst | hst
      · apply f2
        have := head_keys hst
        simp only [List.mem_cons, List.not_mem_nil, or_false] at this ⊢
        rcases this with h | h | h <;> simp [h]
      · obtain ⟨j', hj', hst⟩ := List.mem_flatMap.mp hst
        obtain ⟨k, hk', e⟩ := phase_keys hst
        obtain ⟨c, hc⟩ := written_phase hcs hj'
        rw [e, letter_of hc.phase]
        exact f3 k hk' c hc.letter

/-! ### errors -/

omit [LinearOrder K] [IsStrictOrderedRing K] in
theorem fraction_kinds {kind ph : Text} {p q : Option K} {e : PyErr} (h : fractionRows shown kind ph p q = .error e) :
    e = .typeError ∨ e = .zeroDivisionError := by
  unfold fractionRows at h
  split at h
  · split at h
    · cases h; exact Or.inr rfl
    · cases h
  · cases h; exact Or.inl rfl

omit [LinearOrder K] [IsStrictOrderedRing K] in
theorem phaseRows_kinds {j : WPhaseLoad K} {e : PyErr} (h : phaseLoadRows shown showCx j = .error e) : e = .typeError ∨ e = .zeroDivisionError := by
  unfold phaseLoadRows at h
  split at h
  · cases h
  · split at h
    · cases h
    · split at h
      · unfold zipRows at h
        split at h
        · rename_i h1; cases h; exact fraction_kinds h1
        · split at h
          · rename_i h1; cases h; exact fraction_kinds h1
          · split at h
            · rename_i h1; cases h; exact fraction_kinds h1
            · split at h
              · rename_i h1
                cases h
                unfold baseRow at h1
                split at h1
                · cases h1
                · cases h1; exact Or.inl rfl
              · cases h
      · cases h

omit [LinearOrder K] [IsStrictOrderedRing K] in
theorem phaseLoadsRows_kinds {js : List (WPhaseLoad K)} {e : PyErr} (h : phaseLoadsRows shown showCx js = .error e) :
    e = .typeError ∨ e = .zeroDivisionError := by
  induction js with
  | nil => cases h
  | cons j js ih =>
    rw [phaseLoadsRows] at h
    cases e1 : phaseLoadRows shown showCx j with
    | error e' => rw [e1] at h; cases h; exact phaseRows_kinds e1
    | ok a =>
      rw [e1] at h
      dsimp only at h
      cases e2 : phaseLoadsRows shown showCx js with
      | error e' => rw [e2] at h; cases h; exact ih e2
      | ok b => rw [e2] at h; cases h

omit [LinearOrder K] [IsStrictOrderedRing K] in
/-- C87: the only errors of the writing are those of missing numbers and of fractions that are zero -/
theorem C87_error_kinds {ls : List (WLoad K)} {e : PyErr} (h : writeLoadRows shown showCx ls = .error e) :
    e = .typeError ∨ e = .zeroDivisionError := by
  induction ls with
  | nil => cases h
  | cons l ls ih =>
    rw [writeLoadRows] at h
    cases e1 : loadRows shown showCx l with
    | error e' =>
      rw [e1] at h
      cases h
      unfold loadRows at e1
      cases e2 : phaseLoadsRows shown showCx l.phaseLoads with
      | error e' => rw [e2] at e1; cases e1; exact phaseLoadsRows_kinds e2
      | ok a => rw [e2] at e1; cases e1
    | ok a =>
      rw [e1] at h
      dsimp only at h
      cases e2 : writeLoadRows shown showCx ls with
      | error e' => rw [e2] at h; cases h; exact ih e2
      | ok b => rw [e2] at h; cases h

omit [LinearOrder K] [IsStrictOrderedRing K] in
/-- C87 violated: a ZIP load without a part of constant current, constant power or constant impedance aborts the writing of the whole file -/
theorem C87_zero_share_violated {ls : List (WLoad K)} {l : WLoad K} (hl : l ∈ ls) {j : WPhaseLoad K} (hj : j ∈ l.phaseLoads) (hph : j.phase ≠ none)
    (hz : j.useZip = some 1) (h0 : ∃ p q, p + q = 0 ∧ ((j.pcurrent = some p ∧ j.qcurrent = some q) ∨ (j.ppower = some p ∧ j.qpower = some q) ∨
      (j.pimpedance = some p ∧ j.qimpedance = some q))) : ∃ e, writeLoadRows shown showCx ls = .error e := by
  cases hw : writeLoadRows shown showCx ls with
  | error e => exact ⟨e, rfl⟩
  | ok rows =>
    exfalso
    have h1 : ∃ rows, loadRows shown showCx l = .ok rows := by
      clear hj
      induction ls generalizing rows with
      | nil => cases hl
      | cons l' ls ih =>
        rw [writeLoadRows] at hw
        cases e1 : loadRows shown showCx l' with
        | error e => rw [e1] at hw; cases hw
        | ok a =>
          rw [e1] at hw
          dsimp only at hw
          rcases List.mem_cons.mp hl with rfl | hl
          · exact ⟨a, e1⟩
          · cases e2 : writeLoadRows shown showCx ls with
            | error e => rw [e2] at hw; cases hw
            | ok b => exact ih hl b e2
    obtain ⟨rows', h1⟩ := h1
    unfold loadRows at h1
    cases e1 : phaseLoadsRows shown showCx l.phaseLoads with
    | error e => rw [e1] at h1; cases h1
    | ok all =>
      obtain ⟨pre, post, e2⟩ := List.append_of_mem hj
      rw [e2] at e1
      obtain ⟨a, b, -, h2, -⟩ := phases_ok_append e1
      rw [phaseLoadsRows] at h2
      obtain ⟨ph, hph⟩ := Option.ne_none_iff_exists'.mp hph
      have herr : ∃ e, phaseLoadRows shown showCx j = .error e := by
        cases hr : phaseLoadRows shown showCx j with
        | error e => exact ⟨e, rfl⟩
        | ok r =>
          exfalso
          unfold phaseLoadRows at hr
          rw [hph] at hr
          dsimp only at hr
          rw [hz] at hr
          dsimp only at hr
          rw [if_pos rfl] at hr
          obtain ⟨p, q, hpq, h0⟩ := h0
          have hf : ∀ kind, fractionRows shown kind ph (some p) (some q) = .error .zeroDivisionError := by
            intro kind
            unfold fractionRows
            dsimp only
            rw [if_pos hpq]
          unfold zipRows at hr
          split at hr
          · cases hr
          · rename_i r1 w1
            split at hr
            · cases hr
            · rename_i r2 w2
              split at hr
              · cases hr
              · rename_i r3 w3
                rcases h0 with ⟨x, y⟩ | ⟨x, y⟩ | ⟨x, y⟩
                · rw [x, y, hf] at w1; cases w1
                · rw [x, y, hf] at w2; cases w2
                · rw [x, y, hf] at w3; cases w3
      obtain ⟨e, herr⟩ := herr
      rw [herr] at h2
      cases h2

/-! ### names -/

omit [LinearOrder K] [IsStrictOrderedRing K] [Field K] [DecidableEq K] in
theorem nodes_from {l : List (Text × GldObj)} {rs : List (GReadNode K)} (h : readGldNodes flt l = .ok rs) {r : GReadNode K} (hr : r ∈ rs) :
    ∃ p ∈ l, r.name = readName p.2 ∧ p.2.cls ∈ ["node".toList, "meter".toList, "triplex_node".toList, "triplex_meter".toList] := by
  induction l generalizing rs with
  | nil => cases h; cases hr
  | cons p l ih =>
    obtain ⟨k, o⟩ := p
    rw [readGldNodes] at h
    cases e1 : readNode flt o with
    | error e => rw [e1] at h; cases h
    | ok a =>
      rw [e1] at h
      dsimp only at h
      cases e2 : readGldNodes flt l with
      | error e => rw [e2] at h; cases h
      | ok b =>
        rw [e2] at h
        cases h
        rcases List.mem_append.mp hr with hr | hr
        · refine ⟨(k, o), List.mem_cons_self, ?_⟩
          unfold readNode at e1
          split at e1
          · rename_i hc
            split at e1
            · cases e1
            · cases e1
              rw [List.mem_singleton.mp hr]
              exact ⟨rfl, by rcases hc with h | h <;> simp [h]⟩
          · split at e1
            · rename_i hc
              split at e1
              · cases e1
              · cases e1
                rw [List.mem_singleton.mp hr]
                exact ⟨rfl, by rcases hc with h | h <;> simp [h]⟩
            · cases e1
              cases hr
        · obtain ⟨p, h1, h2⟩ := ih e2 hr
          exact ⟨p, List.mem_cons_of_mem _ h1, h2⟩

omit [LinearOrder K] [IsStrictOrderedRing K] in
/-- C87 violated: nodes and loads get their names in the same way, so that a node is lost if a load has the same name: whatever nodes are written
before the loads, no node with the name of a load is read -/
theorem C87_name_clash_violated (hk : Numbers shown flt) (hx : ComplexNumbers showCx cpx) {schema : Schema}
    (due : List Text → Py Bool) (files : Text → Option (List Text)) {ls : List (WLoad K)} {names : List Text}
    (h : List.Forall₂ WritableLoad ls names) (hn : names.Nodup) {pre rows : List Text} {before : List Decl} (hpre : Lays pre before)
    (hi : NoInclude pre) (hs : LoadSchema schema) (hg : ∀ d ∈ before, Good schema d) (hrows : writeLoadRows shown showCx ls = .ok rows)
    {nodes : List (GReadNode K)} (hnodes : readNodeFile schema due files flt [] (pre ++ rows) = .ok nodes) {name : Text} (hname : name ∈ names) :
    ∀ r ∈ nodes, r.name ≠ 'n' :: name := by
  obtain ⟨rows', h1, h2, h3⟩ := loads_lay hk hx h
  rw [hrows] at h1
  cases h1
  have hall : ∀ l ∈ ls, ∃ name, WritableLoad l name := by
    intro l hl
    clear hrows h2 h3 hnodes hn hname
    induction h with
    | nil => cases hl
    | cons hx _ ih =>
      rcases List.mem_cons.mp hl with rfl | hl
      · exact ⟨_, hx⟩
      · exact ih hl
  obtain ⟨s, hr, hh⟩ := C71_objects_partial due files (lays_append hpre h2) (noInclude_append hi h3) (schema := schema) (by
    intro d hd
    rcases List.mem_append.mp hd with hd | hd
    · exact hg d hd
    · obtain ⟨l, hl, rfl⟩ := List.mem_map.mp hd
      obtain ⟨name, hw⟩ := hall l hl
      obtain ⟨cs, hcs, -⟩ := hw.phases
      obtain ⟨ps, a, b, c⟩ := written_good (shown := shown) (showCx := showCx) hs hcs
      exact Or.inr ⟨ps, a, b, c, by rw [decl_name hw.named]; rfl⟩) []
  unfold readNodeFile at hnodes
  rw [hr] at hnodes
  intro r hrm he
  obtain ⟨⟨k, o⟩, hp, e1, e2⟩ := nodes_from hnodes hrm
  obtain ⟨d, hd, hst⟩ := holds_mem hh (glm_once hr) hp
  have hkn : k = 'n' :: name := by
    have hnm := lastNamed_name hd
    have : readName o = k := by
      unfold readName
      rw [stored_get hst, attr_name, hnm]
    rw [← this, ← e1, he]
  obtain ⟨i, hi', rfl⟩ := List.mem_iff_getElem.mp hname
  have hlen := h.length_eq
  have hz : (ls[i]'(by omega), names[i]) ∈ ls.zip names := by
    rw [List.mem_iff_getElem]
    exact ⟨i, by rw [List.length_zip]; omega, List.getElem_zip⟩
  have hl := named_load (shown := shown) (showCx := showCx) h hn hz
  rw [lastNamed_append, hkn, hl] at hd
  cases hd
  have hc := hst.1
  rw [hc] at e2
  exact absurd e2 (by change "load".toList ∉ _; decide)

end numbers

/-! ### an example -/

/-- numbers as strokes -/
def exStrokes (x : ℚ) : Text := List.replicate (Encodable.encode x) '1'

/-- reading strokes -/
def exUnstroke (t : Text) : Option ℚ := Encodable.decode t.length

/-- complex numbers as strokes in parentheses -/
def exCxStrokes (z : Cx ℚ) : Text := '(' :: List.replicate (Encodable.encode (z.re, z.im)) '1' ++ [')']

/-- reading strokes as complex numbers -/
def exCxUnstroke (t : Text) : Option (Cx ℚ) := (Encodable.decode (α := ℚ × ℚ) t.length).map fun p => ⟨p.1, p.2⟩

theorem strokes_token (n : Nat) : Token (List.replicate n '1') := by
  refine ⟨fun c hc => ?_, fun h => ?_⟩
  · rw [List.eq_of_mem_replicate hc]; decide
  · have := List.eq_of_mem_replicate (List.mem_of_getLast? h)
    revert this; decide

theorem ex_strokes : Numbers exStrokes exUnstroke :=
  ⟨fun x => by unfold exStrokes exUnstroke; rw [List.length_replicate, Encodable.encodek], fun x => strokes_token _⟩

theorem drop_strokes (n : Nat) (t : Text) (ht : t = [] ∨ t = [')']) :
    ((List.replicate n '1' ++ t).reverse.dropWhile fun c => c = '(' ∨ c = ')').reverse = List.replicate n '1' := by
  have h : ∀ n, (List.replicate n '1').dropWhile (fun c => decide (c = '(' ∨ c = ')')) = List.replicate n '1' := by
    intro n
    cases n with
    | zero => rfl
    | succ n => rw [List.replicate_succ, List.dropWhile_cons_of_neg (by decide)]
  rcases ht with rfl | rfl
  · rw [List.append_nil, List.reverse_replicate, h, List.reverse_replicate]
  · rw [List.reverse_append, List.reverse_replicate, List.reverse_singleton, List.singleton_append, List.dropWhile_cons_of_pos (by decide), h,
      List.reverse_replicate]

theorem strip_strokes (n : Nat) : stripParens ('(' :: List.replicate n '1' ++ [')']) = List.replicate n '1' := by
  unfold stripParens
  rw [List.cons_append, List.dropWhile_cons_of_pos (by decide)]
  cases n with
  | zero => decide
  | succ n =>
    have h := drop_strokes (n + 1) [')'] (Or.inr rfl)
    rw [List.replicate_succ] at h ⊢
    rw [List.cons_append, List.dropWhile_cons_of_neg (by decide)]
    exact h

theorem ex_cxStrokes : ComplexNumbers exCxStrokes exCxUnstroke := by
  refine ⟨fun z => ?_, fun z => ?_, fun z => ?_⟩
  · unfold exCxStrokes exCxUnstroke
    rw [strip_strokes, List.length_replicate, Encodable.encodek]
    rfl
  · unfold exCxStrokes
    refine ⟨fun c hc => ?_, by rw [List.getLast?_concat]; decide⟩
    simp only [List.cons_append, List.mem_cons, List.mem_append, List.not_mem_nil, or_false] at hc
    rcases hc with rfl | hc | rfl
    · decide
    · rw [List.eq_of_mem_replicate hc]; decide
    · decide
  · unfold exCxStrokes
    rw [strip_strokes]
    exact strokes_token _

/-- two loads: one with a phase of constant power and one ZIP phase, and one at no bus -/
def exWLoads : List (WLoad ℚ) :=
  [⟨some "l1".toList, some 7200, some "b1".toList,
    [{ phase := some ['A'], p := some 10, q := some 5 },
      { phase := some ['C'], p := some 4, q := some 3, useZip := some 1, pcurrent := some (1 / 4), qcurrent := some (1 / 4), ppower := some (1 / 8),
        qpower := some (1 / 8), pimpedance := some (1 / 4), qimpedance := some 0 }]⟩,
    ⟨some "l2".toList, none, none, [{ phase := some ['B'], p := some 1, q := some 0 }]⟩]

theorem ex_writableLoads : List.Forall₂ WritableLoad exWLoads ["l1".toList, "l2".toList] := by
  refine .cons ⟨rfl, by unfold Token; decide, ?_, ['A', 'C'], .cons ⟨rfl, by decide, rfl, rfl, rfl, ?_⟩ (.cons ⟨rfl, by decide, rfl, rfl, rfl, ?_⟩ .nil),
    by decide⟩ (.cons ⟨rfl, by unfold Token; decide, (fun e h => by cases h), ['B'], .cons ⟨rfl, by decide, rfl, rfl, rfl, ?_⟩ .nil, by decide⟩ .nil)
  · intro e h
    injection h with h
    subst h
    unfold Token
    decide
  · intro h
    exact absurd h (by decide)
  · intro _
    exact ⟨⟨1 / 4, 1 / 4, rfl, rfl, by decide +kernel⟩, ⟨1 / 8, 1 / 8, rfl, rfl, by decide +kernel⟩, ⟨1 / 4, 0, rfl, rfl, by decide +kernel⟩⟩
  · intro h
    exact absurd h (by decide)

theorem ex_writeSchema : LoadSchema exLoadSchema :=
  ⟨_, rfl, by decide, by decide +kernel⟩

example : ∃ rows ds, writeLoadRows exStrokes exCxStrokes exWLoads = .ok rows ∧ Lays rows ds ∧ NoInclude rows ∧
    List.Forall₂ (fun (p : WLoad ℚ × Text) d => LoadWritten exUnstroke exCxUnstroke exCxStrokes p.1 p.2 d)
      (exWLoads.zip ["l1".toList, "l2".toList]) ds :=
  C87_written_partial ex_strokes ex_cxStrokes ex_writableLoads

example : ∃ rows back, writeLoadRows exStrokes exCxStrokes exWLoads = .ok rows ∧
    readLoadFile exLoadSchema (fun _ => .ok true) (fun _ => none) exUnstroke exCxUnstroke [] ([] ++ rows ++ []) = .ok back ∧
      back.length = 2 ∧ (∀ p ∈ exWLoads.zip ["l1".toList, "l2".toList], ∃ r ∈ back, SamePlace p.1 p.2 r) ∧ ∀ r ∈ back, r.1.phaseLoads = [] :=
  C87_back_violated ex_strokes ex_cxStrokes ex_writeSchema _ _ ex_writableLoads (by decide) (.nil) (.nil) (by unfold NoInclude; decide)
    (by unfold NoInclude; decide) (fun d h => by cases h) (fun d h => by cases h) (fun d h => by cases h)

example : ∃ rows, writeLoadRows exStrokes exCxStrokes (exWLoads ++ [⟨none, some 1, none, []⟩]) = .ok rows ∧
    readLoadFile exLoadSchema (fun _ => .ok true) (fun _ => none) exUnstroke exCxUnstroke [] ([] ++ rows ++ []) = .error .attributeError :=
  C87_unnamed_violated ex_strokes ex_cxStrokes ex_writeSchema _ _ ex_writableLoads .nil (by unfold NoInclude; decide) (by unfold NoInclude; decide)
    (fun d h => by cases h) rfl (fun e h => by cases h) .nil

/-- a load of a house -/
def exHouse : WLoad ℚ := ⟨some "h".toList, none, none, [{ phase := some "s1".toList, p := some 1, q := some 1 }]⟩

theorem ex_house_rows : writeLoadRows exStrokes exCxStrokes [exHouse] = .ok ["object load {".toList, "    name nh;".toList,
    "    constant_power_s1 ".toList ++ List.replicate (Encodable.encode ((1 : ℚ), (1 : ℚ))) '1' ++ [';'], "};".toList, []] := by
  have h : phaseLoadsRows exStrokes exCxStrokes exHouse.phaseLoads =
      .ok ["    constant_power_s1 ".toList ++ List.replicate (Encodable.encode ((1 : ℚ), (1 : ℚ))) '1' ++ [';']] := by
    change (Except.ok [entryRow four ("constant_power_s1".toList) (stripParens ('(' :: List.replicate (Encodable.encode ((1 : ℚ), (1 : ℚ))) '1' ++ [')']))] : Py _) = _
    rw [strip_strokes]
    rfl
  unfold writeLoadRows loadRows
  rw [h]
  rfl

example : readLoadFile exLoadSchema (fun _ => .ok true) (fun _ => none) exUnstroke exCxUnstroke [] ([] ++ ["object load {".toList, "    name nh;".toList,
    "    constant_power_s1 ".toList ++ List.replicate (Encodable.encode ((1 : ℚ), (1 : ℚ))) '1' ++ [';'], "};".toList, []] ++ []) =
      .error .attributeError := by
  refine C87_phase_violated ex_strokes ex_cxStrokes ex_writeSchema _ _ .nil (by unfold NoInclude; decide) (fun d h => by cases h) (l := exHouse)
    ?_ (fun e h => by cases h) (js := []) (more := []) rfl .nil rfl (by decide) rfl (by decide) rfl rfl ?_ ex_house_rows ?_
  · intro n h
    injection h with h
    subst h
    unfold Token
    decide
  · intro ps h
    injection h with h
    subst h
    decide +kernel
  · intro row hrow
    simp only [List.append_nil, List.mem_cons, List.not_mem_nil, or_false] at hrow
    rcases hrow with rfl | rfl | rfl | rfl | rfl
    · decide
    · decide
    · rintro ⟨t, ht⟩
      rw [show "    constant_power_s1 ".toList = ' ' :: "   constant_power_s1 ".toList by decide] at ht
      injection ht with ht _
      exact absurd ht (by decide)
    · decide
    · decide

/-- a ZIP load without part of constant current -/
def exNoCurrent : WLoad ℚ := ⟨some "z".toList, none, none,
  [{ phase := some ['A'], p := some 1, q := some 1, useZip := some 1, pcurrent := some 0, qcurrent := some 0, ppower := some (1 / 2),
      qpower := some (1 / 2), pimpedance := some 0, qimpedance := some 0 }]⟩

example : ∃ e, writeLoadRows exStrokes exCxStrokes [exNoCurrent] = .error e :=
  C87_zero_share_violated (l := exNoCurrent) (List.mem_cons_self) (List.mem_cons_self) (by decide) rfl ⟨0, 0, by decide +kernel, Or.inl ⟨rfl, rfl⟩⟩

/-- a node with the name of a load -/
def exClashNode : List Text := ["object node {".toList, "    name nl;".toList, "    phases ABCN;".toList, "};".toList, []]

/-- a schema with nodes and loads -/
def exBothSchema : Schema := fun c => if c = "node".toList then some ["name".toList, "phases".toList] else exLoadSchema c

/-- a load with the name of a node -/
def exClashLoad : WLoad ℚ := ⟨some "l".toList, none, none, []⟩

theorem ex_clash_decl : Lays exClashNode [⟨"node".toList, none, [("name".toList, "nl".toList), ("phases".toList, "ABCN".toList)]⟩] := by
  have hst : ∀ {k v : Text}, Word k → Plain k → Token v → Statement (entryRow four k v) k v := fun h1 h2 h3 => entry_statement four_blank h1 h2 h3
  refine Lays.block (block := ["object node {".toList, entryRow four "name".toList "nl".toList, entryRow four "phases".toList "ABCN".toList, "};".toList])
    ⟨_, [entryRow four "name".toList "nl".toList, entryRow four "phases".toList "ABCN".toList], _, rfl,
      ⟨by change ':' ∉ "node".toList; decide, _, splits_of rfl⟩, ?_, Or.inr (splits_of rfl)⟩ (Lays.outside (Or.inl (Or.inl (splits_of rfl))) .nil)
  exact Body.statement (hst (word_lit (by decide)) (plain_lit (by decide)) (by unfold Token; decide))
    (Body.statement (hst (word_lit (by decide)) (plain_lit (by decide)) (by unfold Token; decide)) Body.nil)

example : ∀ r ∈ ([] : List (GReadNode ℚ)), r.name ≠ 'n' :: "l".toList :=
  C87_name_clash_violated ex_strokes ex_cxStrokes (schema := exBothSchema) (fun _ => .ok true) (fun _ => none) (ls := [exClashLoad])
    (names := ["l".toList])
    (.cons ⟨rfl, by unfold Token; decide, (fun e h => by cases h), [], .nil, by decide⟩ .nil) (by decide) ex_clash_decl
    (by unfold NoInclude; decide) ⟨_, rfl, by decide, by decide +kernel⟩
    (by
      intro d hd
      obtain rfl := List.mem_singleton.mp hd
      refine Or.inr ⟨_, rfl, by decide, ?_, rfl⟩
      intro p hp
      simp only [List.mem_cons, List.not_mem_nil, or_false] at hp
      rcases hp with rfl | rfl
      · change "name".toList ∈ _; decide
      · change "phases".toList ∈ _; decide)
    (rows := ["object load {".toList, "    name nl;".toList, "};".toList, []]) rfl (by decide +kernel) (by decide)

end Ditto.Glm
