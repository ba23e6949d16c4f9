import Verif.Props.GlmWritten

/-! C89: capacitors in the GridLAB-D writer, and reading them again. -/
namespace Ditto.Glm
open Ditto Glm.Spec

section numbers
variable {K : Type} [Field K] {shown : K → Text} {flt : Text → Option K}

/-! ### the attributes -/

/-- the attributes of a phase -/
def phasePairs (shown : K → Text) (j : WPhaseCap K) : List (Text × Option Text) :=
  match j.phase with
  | none => []
  | some ph => [("capacitor_".toList ++ ph, j.var.map fun v => shown (v / 1000000)), ("switch".toList ++ ph, j.var.map fun _ => switchText j.switch)]

/-- the attributes before the phases -/
def capHead (shown : K → Text) (c : WCap K) : List (Text × Option Text) :=
  [("name".toList, c.name.map ('n' :: ·)), ("nominal_voltage".toList, c.voltage.map shown), ("time_dela".toList, c.delay.map shown),
    ("control".toList, c.mode), ("voltage_set_low".toList, c.low.map shown), ("voltage_set_high".toList, c.low.map fun _ => formatOpt shown c.high),
    ("pt_phase".toList, c.ptPhase), ("parent".toList, c.element.map ('n' :: ·))]

/-- all attributes -/
def capPairs (shown : K → Text) (c : WCap K) : List (Text × Option Text) :=
  capHead shown c ++ c.phases.flatMap (phasePairs shown) ++ [("phases".toList, if capPhases c.phases = [] then none else some (capPhases c.phases))]

theorem phase_flat (j : WPhaseCap K) : flatEntries (phasePairs shown j) = phaseCapEntries shown j := by
  unfold phasePairs phaseCapEntries
  cases j.phase with
  | none => rfl
  | some ph => cases j.var <;> rfl

theorem phases_flat (js : List (WPhaseCap K)) : flatEntries (js.flatMap (phasePairs shown)) = js.flatMap (phaseCapEntries shown) := by
  induction js with
  | nil => rfl
  | cons j js ih => rw [List.flatMap_cons, List.flatMap_cons, flat_append, phase_flat, ih]

theorem cap_flat (c : WCap K) : capEntries shown c = flatEntries (capPairs shown c) := by
  unfold capPairs capEntries
  rw [flat_append, flat_append, phases_flat]
  have h1 : capPhaseEntry (capPhases c.phases) =
      flatEntries [("phases".toList, if capPhases c.phases = [] then none else some (capPhases c.phases))] := by
    unfold capPhaseEntry
    split <;> rfl
  rw [h1]
  congr 1
  congr 1
  unfold capHead flatEntries
  simp only [List.flatMap_cons, List.flatMap_nil, List.append_nil, List.append_assoc]

/-- the keys of a phase -/
def capKeys (ch : Char) : List Text := ["capacitor_".toList ++ [ch], "switch".toList ++ [ch]]

/-- the letters of the phases -/
def Letters (js : List (WPhaseCap K)) (cs : List Char) : Prop :=
  List.Forall₂ (fun (j : WPhaseCap K) ch => j.phase = some [ch] ∧ ch ∈ ['A', 'B', 'C']) js cs

omit [Field K] in
theorem letters_mem {js : List (WPhaseCap K)} {cs : List Char} (h : Letters js cs) : ∀ ch ∈ cs, ch ∈ ['A', 'B', 'C'] := by
  unfold Letters at h
  induction h with
  | nil => intro ch h; cases h
  | cons h _ ih =>
    intro ch hc
    rcases List.mem_cons.mp hc with rfl | hc
    · exact h.2
    · exact ih ch hc

theorem letters_keys {js : List (WPhaseCap K)} {cs : List Char} (h : Letters js cs) :
    (js.flatMap (phasePairs shown)).map (·.1) = cs.flatMap capKeys := by
  unfold Letters at h
  induction h with
  | nil => rfl
  | cons h _ ih =>
    rw [List.flatMap_cons, List.flatMap_cons, List.map_append, ih]
    unfold phasePairs
    rw [h.1]
    rfl

omit [Field K] in
theorem letters_text {js : List (WPhaseCap K)} {cs : List Char} (h : Letters js cs) : capPhases js = cs := by
  unfold Letters at h
  induction h with
  | nil => rfl
  | @cons j ch js cs h _ ih =>
    obtain ⟨ph, v, s⟩ := j
    obtain ⟨h1, -⟩ := h
    have h1 : ph = some [ch] := h1
    subst h1
    rw [capPhases, ih]
    rfl

theorem keys_last {ch : Char} {k : Text} (h : k ∈ capKeys ch) : k.getLast? = some ch := by
  simp only [capKeys, List.mem_cons, List.not_mem_nil, or_false] at h
  rcases h with rfl | rfl <;> exact List.getLast?_concat

/-- the other keys -/
def capHeadKeys : List Text :=
  ["name".toList, "nominal_voltage".toList, "time_dela".toList, "control".toList, "voltage_set_low".toList, "voltage_set_high".toList,
    "pt_phase".toList, "parent".toList]

theorem cap_keys {c : WCap K} {cs : List Char} (h : Letters c.phases cs) :
    (capPairs shown c).map (·.1) = capHeadKeys ++ cs.flatMap capKeys ++ ["phases".toList] := by
  unfold capPairs
  rw [List.map_append, List.map_append, letters_keys h]
  rfl

theorem cap_nodup {c : WCap K} {cs : List Char} (h : Letters c.phases cs) (hn : cs.Nodup) : ((capPairs shown c).map (·.1)).Nodup := by
  rw [cap_keys h]
  have hl := letters_mem h
  have hu : ∀ k ∈ cs.flatMap capKeys, k ∉ capHeadKeys ++ ["phases".toList] := by
    intro k hk
    obtain ⟨ch, hc, hk⟩ := List.mem_flatMap.mp hk
    have := hl ch hc
    simp only [List.mem_cons, List.not_mem_nil, or_false] at this
    rcases this with rfl | rfl | rfl <;> exact (show ∀ k ∈ capKeys _, k ∉ capHeadKeys ++ ["phases".toList] by decide) k hk
  have h1 : (cs.flatMap capKeys).Nodup := by
    rw [List.nodup_flatMap]
    refine ⟨fun ch hc => ?_, ?_⟩
    · have := hl ch hc
      simp only [List.mem_cons, List.not_mem_nil, or_false] at this
      rcases this with rfl | rfl | rfl <;> decide
    · refine hn.imp fun hne => ?_
      intro k hk hk'
      have := (keys_last hk).symm.trans (keys_last hk')
      injection this with this
      exact hne this
  rw [List.append_assoc, List.nodup_append]
  refine ⟨by decide, ?_, ?_⟩
  · rw [List.nodup_append]
    refine ⟨h1, by decide, ?_⟩
    rintro a ha b hb rfl
    exact hu a ha (List.mem_append_right _ hb)
  · rintro a ha b hb rfl
    rcases List.mem_append.mp hb with hb | hb
    · exact hu a hb (List.mem_append_left _ ha)
    · revert ha
      rw [List.mem_singleton.mp hb]
      decide

/-- a capacitor as an object of a file -/
def capDecl (shown : K → Text) (c : WCap K) : Decl := ⟨"capacitor".toList, none, capEntries shown c⟩

theorem cap_value {c : WCap K} {cs : List Char} (h : Letters c.phases cs) (hn : cs.Nodup) {k : Text} {o : Option Text} (hk : (k, o) ∈ capPairs shown c) :
    lastValue (capEntries shown c) k = o := by
  rw [cap_flat]
  exact flat_value (cap_nodup h hn) hk

theorem cap_out {c : WCap K} {cs : List Char} (h : Letters c.phases cs) {k : Text} (hk : k ∉ capHeadKeys ++ cs.flatMap capKeys ++ ["phases".toList]) :
    lastValue (capEntries shown c) k = none := by
  rw [cap_flat]
  exact flat_out (by rw [cap_keys h]; exact hk)

theorem head_pair {c : WCap K} {p : Text × Option Text} (h : p ∈ capHead shown c) : p ∈ capPairs shown c :=
  List.mem_append_left _ (List.mem_append_left _ h)

theorem cap_name {c : WCap K} {name : Text} (h : WritableCap c name) : nameOf (capDecl shown c) = some ('n' :: name) := by
  obtain ⟨cs, hl, hn⟩ := h.phases
  unfold nameOf capDecl
  dsimp only
  rw [cap_value hl hn (head_pair (shown := shown) (p := ("name".toList, c.name.map ('n' :: ·))) (by simp [capHead])), h.named]
  rfl

theorem cap_attr {c : WCap K} {k : Text} (hk : k ≠ "name".toList) : attrOf (capDecl shown c) k = lastValue (capEntries shown c) k := by
  unfold attrOf
  rw [if_neg hk]
  rfl

theorem head_attr {c : WCap K} {name : Text} (h : WritableCap c name) {k : Text} {o : Option Text} (hk : (k, o) ∈ capHead shown c)
    (hne : k ≠ "name".toList) : attrOf (capDecl shown c) k = o := by
  obtain ⟨cs, hl, hn⟩ := h.phases
  rw [cap_attr hne, cap_value hl hn (head_pair hk)]

theorem optional_map (hk : Numbers shown flt) {d : Decl} {k : Text} {o : Option K} (h : attrOf d k = o.map shown) : Optional flt d k o := by
  cases o with
  | none => exact h
  | some v => exact ⟨shown v, h, hk.inverse v⟩

theorem letters_of {js : List (WPhaseCap K)} {cs : List Char} (h : Letters js cs) {j : WPhaseCap K} (hj : j ∈ js) : ∃ ch ∈ cs, j.phase = some [ch] := by
  obtain ⟨ch, h1, h2, -⟩ := found_right h hj
  exact ⟨ch, h1, h2⟩

theorem cap_phases {c : WCap K} {name : Text} (h : WritableCap c name) :
    attrOf (capDecl shown c) "phases".toList = if c.phases = [] then none else some (c.phases.flatMap fun j => j.phase.toList.flatten) := by
  obtain ⟨cs, hl, hn⟩ := h.phases
  have hf : c.phases.flatMap (fun j => j.phase.toList.flatten) = cs := by
    have : ∀ {js : List (WPhaseCap K)} {cs : List Char}, Letters js cs → js.flatMap (fun j => j.phase.toList.flatten) = cs := by
      intro js cs hl
      unfold Letters at hl
      induction hl with
      | nil => rfl
      | cons h _ ih => rw [List.flatMap_cons, ih, h.1]; rfl
    exact this hl
  rw [cap_attr (by decide), cap_value hl hn (o := if capPhases c.phases = [] then none else some (capPhases c.phases)) (by simp [capPairs]), hf,
    letters_text hl]
  have hi : cs = [] ↔ c.phases = [] := by
    have := List.Forall₂.length_eq hl
    rw [← List.length_eq_zero_iff, ← List.length_eq_zero_iff, this]
  simp only [hi]

variable [CharZero K]

theorem million : (1000000 : K) ≠ 0 := by norm_num

/-- the object of a written capacitor says what the capacitor is -/
theorem cap_written (hk : Numbers shown flt) {c : WCap K} {name : Text} (h : WritableCap c name) : CapWritten flt c name (capDecl shown c) := by
  obtain ⟨cs, hl, hn⟩ := id h.phases
  refine ⟨rfl, cap_name h, optional_map hk (head_attr h (by simp [capHead]) (by decide)), head_attr h (by simp [capHead]) (by decide),
    optional_map hk (head_attr h (by simp [capHead]) (by decide)), ?_, head_attr h (by simp [capHead]) (by decide),
    head_attr h (by simp [capHead]) (by decide), cap_phases h, ?_, ?_⟩
  · intro hb
    have h1 := head_attr (shown := shown) h (k := "voltage_set_high".toList) (o := c.low.map fun _ => formatOpt shown c.high) (by simp [capHead]) (by decide)
    refine optional_map hk (h1.trans ?_)
    unfold BothLimits at hb
    cases hlow : c.low with
    | none =>
      rw [hlow] at hb
      cases hhigh : c.high with
      | none => rfl
      | some x => rw [hhigh] at hb; cases hb
    | some y =>
      rw [hlow] at hb
      cases hhigh : c.high with
      | none => rw [hhigh] at hb; cases hb
      | some x => rfl
  · intro j hj ch hp
    have hpair : ∀ p ∈ phasePairs shown j, p ∈ capPairs shown c := fun p hp =>
      List.mem_append_left _ (List.mem_append_right _ (List.mem_flatMap.mpr ⟨j, hj, hp⟩))
    have hne : ∀ k ∈ capKeys ch, k ≠ "name".toList := by
      intro k hk e
      have h1 := keys_last hk
      rw [e] at h1
      have hm : ch ∈ ['A', 'B', 'C'] := by
        obtain ⟨ch', h1, h2⟩ := letters_of hl hj
        rw [hp] at h2
        cases h2
        exact letters_mem hl _ h1
      have : ch = 'e' := by
        have h3 : ("name".toList).getLast? = some 'e' := by decide
        rw [h3] at h1
        injection h1 with h1
        exact h1.symm
      rw [this] at hm
      exact absurd hm (by decide)
    have e1 : ("capacitor_".toList ++ [ch]) = ofPhase "capacitor".toList ch := by
      unfold ofPhase
      rw [show "capacitor_".toList = "capacitor".toList ++ ['_'] by decide, List.append_assoc]
      rfl
    have hv : ∀ {k : Text} {o : Option Text}, (k, o) ∈ phasePairs shown j → k ∈ capKeys ch → attrOf (capDecl shown c) k = o := by
      intro k o h1 h2
      rw [cap_attr (hne k h2), cap_value hl hn (hpair _ h1)]
    have h1 := hv (k := "capacitor_".toList ++ [ch]) (o := j.var.map fun v => shown (v / 1000000)) (by simp [phasePairs, hp]) (by simp [capKeys])
    have h2 := hv (k := "switch".toList ++ [ch]) (o := j.var.map fun _ => switchText j.switch) (by simp [phasePairs, hp]) (by simp [capKeys])
    rw [e1] at h1
    cases hvar : j.var with
    | none =>
      rw [hvar] at h1 h2
      exact Or.inl ⟨rfl, h1, h2⟩
    | some v =>
      rw [hvar] at h1 h2
      refine Or.inr ⟨v, v / 1000000, rfl, ⟨_, h1, hk.inverse _⟩, ?_, ?_⟩
      · have := million (K := K)
        rw [show (10 : K) ^ 6 = 1000000 by norm_num, div_mul_cancel₀ _ this]
      · rw [h2]; rfl
  · intro ch hch hno
    have hcs : ch ∉ cs := by
      intro hc
      obtain ⟨j, hj, h1, -⟩ := found_left hl hc
      exact hno j hj h1
    have hout : ∀ k ∈ capKeys ch, k ∉ capHeadKeys ++ cs.flatMap capKeys ++ ["phases".toList] := by
      intro k hk hm
      have h0 : k ∉ capHeadKeys ++ ["phases".toList] := by
        simp only [List.mem_cons, List.not_mem_nil, or_false] at hch
        rcases hch with rfl | rfl | rfl <;> exact (show ∀ k ∈ capKeys _, k ∉ capHeadKeys ++ ["phases".toList] by decide) k hk
      rcases List.mem_append.mp hm with hm | hm
      · rcases List.mem_append.mp hm with hm | hm
        · exact h0 (List.mem_append_left _ hm)
        · obtain ⟨ch', h1, h2⟩ := List.mem_flatMap.mp hm
          have := (keys_last hk).symm.trans (keys_last h2)
          injection this with this
          exact hcs (this ▸ h1)
      · exact h0 (List.mem_append_right _ hm)
    have hne : ∀ k ∈ capKeys ch, k ≠ "name".toList := by
      intro k hk e
      exact hout k hk (List.mem_append_left _ (List.mem_append_left _ (by rw [e]; decide)))
    have e1 : ("capacitor_".toList ++ [ch]) = ofPhase "capacitor".toList ch := by
      unfold ofPhase
      rw [show "capacitor_".toList = "capacitor".toList ++ ['_'] by decide, List.append_assoc]
      rfl
    refine ⟨?_, ?_⟩
    · rw [← e1, cap_attr (hne _ (by simp [capKeys])), cap_out hl (hout _ (by simp [capKeys]))]
    · rw [cap_attr (hne _ (by simp [capKeys])), cap_out hl (hout _ (by simp [capKeys]))]

/-! ### the rows -/

omit [CharZero K] in
theorem cap_rows (hk : Numbers shown flt) {c : WCap K} {name : Text} (h : WritableCap c name) :
    ∀ p ∈ capEntries shown c, Word p.1 ∧ Plain p.1 ∧ Token p.2 := by
  obtain ⟨cs, hl, hn⟩ := id h.phases
  rintro ⟨k, v⟩ hp
  rw [cap_flat] at hp
  have hm := mem_flat.mp hp
  have hkey : k ∈ capHeadKeys ++ cs.flatMap capKeys ++ ["phases".toList] := by
    rw [← cap_keys (shown := shown) hl]
    exact List.mem_map.mpr ⟨_, hm, rfl⟩
  have hwp : Word k ∧ Plain k := by
    have hcheck : ∀ l : List Text, (∀ k ∈ l, (k ≠ [] ∧ ∀ c ∈ k, c.isWhitespace = false) ∧
        (k ≠ "object".toList ∧ k ≠ "schedule".toList ∧ ¬['/', '/'] <+: k)) → ∀ k ∈ l, Word k ∧ Plain k := fun l hl k hk =>
      ⟨word_lit (hl k hk).1, plain_lit (hl k hk).2⟩
    rcases List.mem_append.mp hkey with hm | hm
    · rcases List.mem_append.mp hm with hm | hm
      · exact hcheck capHeadKeys (by decide) k hm
      · obtain ⟨ch, h1, h2⟩ := List.mem_flatMap.mp hm
        have := letters_mem hl ch h1
        simp only [List.mem_cons, List.not_mem_nil, or_false] at this
        rcases this with rfl | rfl | rfl
        · exact hcheck (capKeys 'A') (by decide) k h2
        · exact hcheck (capKeys 'B') (by decide) k h2
        · exact hcheck (capKeys 'C') (by decide) k h2
    · exact hcheck ["phases".toList] (by decide) k hm
  refine ⟨hwp.1, hwp.2, ?_⟩
  have hmap : ∀ {o : Option K}, some v = o.map shown → Token v := by
    intro o ho
    cases o with
    | none => cases ho
    | some x => injection ho with ho; rw [ho]; exact hk.token x
  have hmapn : ∀ {o : Option Text}, (∀ n, o = some n → Token ('n' :: n)) → some v = o.map ('n' :: ·) → Token v := by
    intro o h ho
    cases o with
    | none => cases ho
    | some x => injection ho with ho; rw [ho]; exact h x rfl
  unfold capPairs at hm
  rcases List.mem_append.mp hm with hm | hm
  · rcases List.mem_append.mp hm with hm | hm
    · simp only [capHead, List.mem_cons, List.not_mem_nil, or_false, Prod.mk.injEq] at hm
      rcases hm with ⟨-, e⟩ | ⟨-, e⟩ | ⟨-, e⟩ | ⟨-, e⟩ | ⟨-, e⟩ | ⟨-, e⟩ | ⟨-, e⟩ | ⟨-, e⟩
      · exact hmapn (fun n hn => by rw [h.named] at hn; cases hn; exact h.token) e
      · exact hmap e
      · exact hmap e
      · exact h.mode v e.symm
      · exact hmap e
      · cases hlow : c.low with
        | none => rw [hlow] at e; cases e
        | some x =>
          rw [hlow] at e
          injection e with e
          rw [e]
          cases c.high with
          | none => show Token "None".toList; unfold Token; decide
          | some y => exact hk.token y
      · exact h.ptPhase v e.symm
      · exact hmapn h.element e
    · obtain ⟨j, hj, hm⟩ := List.mem_flatMap.mp hm
      unfold phasePairs at hm
      split at hm
      · cases hm
      · simp only [List.mem_cons, List.not_mem_nil, or_false, Prod.mk.injEq] at hm
        cases hvar : j.var with
        | none => rw [hvar] at hm; rcases hm with ⟨-, e⟩ | ⟨-, e⟩ <;> cases e
        | some x =>
          rw [hvar] at hm
          rcases hm with ⟨-, e⟩ | ⟨-, e⟩
          · injection e with e; rw [e]; exact hk.token _
          · injection e with e
            rw [e]
            unfold switchText
            split
            · show Token "OPEN".toList; unfold Token; decide
            · show Token "CLOSED".toList; unfold Token; decide
  · rw [List.mem_singleton, letters_text hl] at hm
    injection hm with _ hm
    split at hm
    · cases hm
    · injection hm with hm
      rw [hm]
      refine ⟨fun c hc => ?_, fun e => ?_⟩
      · have := letters_mem hl c hc
        simp only [List.mem_cons, List.not_mem_nil, or_false] at this
        rcases this with rfl | rfl | rfl <;> decide
      · exact absurd (letters_mem hl _ (List.mem_of_getLast? e)) (by decide)

/-- C89 (partial): the file has one object for each capacitor, with the name, the voltage, the control, the limits, the bus and the reactive powers -/
theorem C89_written_partial (hk : Numbers shown flt) {cs : List (WCap K)} {names : List Text} (h : List.Forall₂ WritableCap cs names) :
    ∃ ds, Lays (writeCapRows shown cs) ds ∧ NoInclude (writeCapRows shown cs) ∧
      List.Forall₂ (fun (p : WCap K × Text) d => CapWritten flt p.1 p.2 d) (cs.zip names) ds := by
  have hall : ∀ c ∈ cs, ∀ p ∈ capEntries shown c, Word p.1 ∧ Plain p.1 ∧ Token p.2 := by
    intro c hc
    obtain ⟨name, -, hw⟩ := found_right h hc
    exact cap_rows hk hw
  obtain ⟨a, b⟩ := entries_lay (cls := "capacitor".toList) (by decide) (by decide) hall
  refine ⟨_, a, b, ?_⟩
  clear a b hall
  induction h with
  | nil => exact .nil
  | cons hl _ ih => exact .cons (cap_written hk hl) ih

/-! ### reading again -/

omit [CharZero K] in
theorem cap_good {schema : Schema} (hs : CapSchema schema) {c : WCap K} {name : Text} (h : WritableCap c name) : Good schema (capDecl shown c) := by
  obtain ⟨cs, hl, hn⟩ := id h.phases
  obtain ⟨ps, h1, h2, h3⟩ := hs
  refine Or.inr ⟨ps, h1, h2 _ (by simp), ?_, by rw [cap_name h]; rfl⟩
  rintro ⟨k, v⟩ hp
  have hm := mem_flat.mp (by rw [← cap_flat]; exact hp : (k, v) ∈ flatEntries (capPairs shown c))
  unfold capPairs at hm
  dsimp only
  rcases List.mem_append.mp hm with hm | hm
  · rcases List.mem_append.mp hm with hm | hm
    · simp only [capHead, List.mem_cons, List.not_mem_nil, or_false, Prod.mk.injEq] at hm
      rcases hm with ⟨e, -⟩ | ⟨e, -⟩ | ⟨-, e⟩ | ⟨e, -⟩ | ⟨e, -⟩ | ⟨e, -⟩ | ⟨e, -⟩ | ⟨e, -⟩
      · rw [e]; exact h2 _ (by simp)
      · rw [e]; exact h2 _ (by simp)
      · rw [h.delay] at e; cases e
      · rw [e]; exact h2 _ (by simp)
      · rw [e]; exact h2 _ (by simp)
      · rw [e]; exact h2 _ (by simp)
      · rw [e]; exact h2 _ (by simp)
      · rw [e]; exact h2 _ (by simp)
    · have hk : k ∈ (c.phases.flatMap (phasePairs shown)).map (·.1) := List.mem_map.mpr ⟨_, hm, rfl⟩
      rw [letters_keys hl] at hk
      obtain ⟨ch, hc, hk⟩ := List.mem_flatMap.mp hk
      obtain ⟨a, b⟩ := h3 ch (letters_mem hl ch hc)
      simp only [capKeys, List.mem_cons, List.not_mem_nil, or_false] at hk
      rcases hk with rfl | rfl
      · rw [show "capacitor_".toList = "capacitor".toList ++ ['_'] by decide, List.append_assoc]
        exact a
      · exact b
  · have := List.mem_singleton.mp hm
    injection this with e _
    rw [e]
    exact h2 _ (by simp)

omit [CharZero K] in
/-- attributes that the reader looks for and that are not written -/
theorem cap_absent {c : WCap K} {name : Text} (h : WritableCap c name) {k : Text}
    (hk : k ∈ ["time_delay".toList, "VAr_set_high".toList, "VAr_set_low".toList, "switch_A".toList, "switch_B".toList, "switch_C".toList]) :
    attrOf (capDecl shown c) k = none := by
  obtain ⟨cs, hl, hn⟩ := id h.phases
  have hne : k ≠ "name".toList := by
    rintro rfl
    revert hk
    decide
  rw [cap_attr hne, cap_out hl]
  intro hm
  rcases List.mem_append.mp hm with hm | hm
  · rcases List.mem_append.mp hm with hm | hm
    · exact (show ∀ k ∈ ["time_delay".toList, "VAr_set_high".toList, "VAr_set_low".toList, "switch_A".toList, "switch_B".toList, "switch_C".toList],
        k ∉ capHeadKeys by decide) k hk hm
    · obtain ⟨ch, h1, h2⟩ := List.mem_flatMap.mp hm
      have := letters_mem hl ch h1
      simp only [List.mem_cons, List.not_mem_nil, or_false] at this
      rcases this with rfl | rfl | rfl
      · exact (show ∀ k ∈ capKeys 'A', k ∉ ["time_delay".toList, "VAr_set_high".toList, "VAr_set_low".toList, "switch_A".toList, "switch_B".toList,
          "switch_C".toList] by decide) k h2 hk
      · exact (show ∀ k ∈ capKeys 'B', k ∉ ["time_delay".toList, "VAr_set_high".toList, "VAr_set_low".toList, "switch_A".toList, "switch_B".toList,
          "switch_C".toList] by decide) k h2 hk
      · exact (show ∀ k ∈ capKeys 'C', k ∉ ["time_delay".toList, "VAr_set_high".toList, "VAr_set_low".toList, "switch_A".toList, "switch_B".toList,
          "switch_C".toList] by decide) k h2 hk
  · rw [List.mem_singleton.mp hm] at hk
    revert hk
    decide

theorem optional_unique {d : Decl} {k : Text} {a b : Option K} (h : Optional flt d k a) (h' : Optional flt d k b) : a = b := by
  cases a with
  | none =>
    cases b with
    | none => rfl
    | some y => exact (value_missing h' h).elim
  | some x =>
    cases b with
    | none => exact (value_missing h h').elim
    | some y => rw [value_unique h h']

theorem optional_isSome {d : Decl} {k : Text} {a : Option K} (h : Optional flt d k a) : (attrOf d k).isSome = a.isSome := by
  cases a with
  | none => rw [show attrOf d k = none from h]; rfl
  | some x => obtain ⟨t, h1, -⟩ := h; rw [h1]; rfl

/-- the numbers of a written capacitor can be read -/
theorem written_clean (hk : Numbers shown flt) {c : WCap K} {name : Text} (h : WritableCap c name) (hb : c.low.isSome → c.high.isSome) :
    CleanCap flt (capDecl shown c) ∧ ∀ ch ∈ ['A', 'B', 'C'], attrOf (capDecl shown c) (ofPhase "switch".toList ch) = none := by
  have hw := cap_written hk h
  have hopt : ∀ {k : Text} {o : Option K}, Optional flt (capDecl shown c) k o → Clean flt (capDecl shown c) k := by
    intro k o ho t ht
    cases o with
    | none => rw [show attrOf (capDecl shown c) k = none from ho] at ht; cases ht
    | some v =>
      obtain ⟨t', h1, h2⟩ := ho
      rw [ht] at h1
      cases h1
      rw [h2]
      rfl
  have habs : ∀ {k : Text}, attrOf (capDecl shown c) k = none → Clean flt (capDecl shown c) k := by
    intro k ho t ht
    rw [ho] at ht
    cases ht
  have hch : ∀ ch ∈ ['A', 'B', 'C'], Clean flt (capDecl shown c) (ofPhase "capacitor".toList ch) := by
    intro ch hch
    by_cases hj : ∃ j ∈ c.phases, j.phase = some [ch]
    · obtain ⟨j, hj, hp⟩ := hj
      rcases hw.vars j hj ch hp with ⟨-, h1, -⟩ | ⟨v, m, -, h1, -⟩
      · exact habs h1
      · exact hopt (o := some m) h1
    · exact habs (hw.others ch hch fun j hj' hp => hj ⟨j, hj', hp⟩).1
  refine ⟨?_, ?_⟩
  · intro k hkm
    simp only [List.mem_cons, List.not_mem_nil, or_false] at hkm
    rcases hkm with rfl | rfl | rfl | rfl | rfl | rfl | rfl | rfl | rfl
    · exact hopt hw.voltage
    · exact habs (cap_absent h (by simp))
    · exact habs (cap_absent h (by simp))
    · exact habs (cap_absent h (by simp))
    · have h1 := head_attr (shown := shown) h (k := "voltage_set_high".toList) (o := c.low.map fun _ => formatOpt shown c.high) (by simp [capHead])
        (by decide)
      cases hlow : c.low with
      | none => rw [hlow] at h1; exact habs h1
      | some x =>
        obtain ⟨y, hy⟩ := Option.isSome_iff_exists.mp (hb (by rw [hlow]; rfl))
        rw [hlow, hy] at h1
        exact hopt (o := some y) ⟨_, h1, hk.inverse y⟩
    · exact hopt hw.low
    · exact hch 'A' (by decide)
    · exact hch 'B' (by decide)
    · exact hch 'C' (by decide)
  · intro ch hch
    apply cap_absent h
    simp only [List.mem_cons, List.not_mem_nil, or_false] at hch
    rcases hch with rfl | rfl | rfl
    · show ofPhase "switch".toList 'A' ∈ _; decide
    · show ofPhase "switch".toList 'B' ∈ _; decide
    · show ofPhase "switch".toList 'C' ∈ _; decide

/-- the capacitor that is read is the one that was written -/
theorem cap_same (hk : Numbers shown flt) {c : WCap K} {name : Text} (h : WritableCap c name) (hb : BothLimits c) {r : GReadCap K}
    (hr : CapSays flt (capDecl shown c) r) : SameCap c name r := by
  have hw := cap_written hk h
  have hv1 : attrOf (capDecl shown c) "VAr_set_high".toList = none := cap_absent h (by simp)
  have hlow : attrOf (capDecl shown c) "voltage_set_high".toList = none ∨ attrOf (capDecl shown c) "voltage_set_low".toList = none → c.low = none := by
    intro ho
    rcases ho with ho | ho
    · have h1 := optional_isSome (hw.high hb)
      unfold BothLimits at hb
      rw [ho, ← hb] at h1
      cases hl : c.low with
      | none => rfl
      | some x => rw [hl] at h1; cases h1
    · exact optional_unique hw.low (b := none) ho
  refine ⟨?_, optional_unique hr.voltage hw.voltage, ?_, ?_, hr.ptPhase.trans hw.ptPhase, ?_, ?_⟩
  · have := hr.name
    rw [hw.name] at this
    injection this with this
    exact this.symm
  · by_cases ho : attrOf (capDecl shown c) "voltage_set_high".toList = none ∨ attrOf (capDecl shown c) "voltage_set_low".toList = none
    · rw [hr.limits.low_none ho hv1, hlow ho]
    · have h1 := hw.low
      rw [not_or] at ho
      cases hl : c.low with
      | none => rw [hl] at h1; exact absurd h1 ho.2
      | some x =>
        rw [hl] at h1
        exact hr.limits.low_volt x (Option.isSome_iff_ne_none.mpr ho.1) h1
  · have h1 := hw.high hb
    cases hh : c.high with
    | none =>
      rw [hh] at h1
      exact optional_unique (hr.limits.high_var h1) (b := none) hv1
    | some x =>
      rw [hh] at h1
      exact hr.limits.high_volt x h1
  · intro ch v
    constructor
    · rintro ⟨p, hp, hc, hpv⟩
      obtain ⟨ch', hm, he, m, h1, h2⟩ := found_left hr.phases hp
      rw [hc] at he
      rw [hpv] at h2
      subst he
      have hm' := List.mem_filter.mp hm
      by_cases hj : ∃ j ∈ c.phases, j.phase = some [ch]
      · obtain ⟨j, hj, hph⟩ := hj
        rcases hw.vars j hj ch hph with ⟨-, h3, -⟩ | ⟨w, m', h3, h4, h5, -⟩
        · exact (value_missing h1 h3).elim
        · refine ⟨j, hj, hph, ?_⟩
          rw [h3, h5, h2, value_unique h1 h4]
      · exact (value_missing h1 (hw.others ch hm'.1 fun j hj' hp => hj ⟨j, hj', hp⟩).1).elim
    · rintro ⟨j, hj, hph, hvar⟩
      rcases hw.vars j hj ch hph with ⟨h3, -⟩ | ⟨w, m, h3, h4, h5, -⟩
      · rw [hvar] at h3; cases h3
      · rw [hvar] at h3
        cases h3
        have hin : ch ∈ capLetters (capDecl shown c) := by
          obtain ⟨cs, hl, -⟩ := h.phases
          obtain ⟨ch', h6, h7⟩ := letters_of hl hj
          rw [hph] at h7
          cases h7
          obtain ⟨t, ht, -⟩ := id h4
          exact List.mem_filter.mpr ⟨letters_mem hl _ h6, by simp only [ht, Option.isSome_some]⟩
        obtain ⟨p, hp, h6, m', h7, h8⟩ := found_right hr.phases hin
        exact ⟨p, hp, h6, by rw [h8, h5, value_unique h7 h4]⟩
  · have : r.phases.map (·.phase) = capLetters (capDecl shown c) := by
      have := hr.phases
      generalize capLetters (capDecl shown c) = l at this
      generalize r.phases = q at this
      induction this with
      | nil => rfl
      | cons h _ ih => rw [List.map_cons, ih, h.1]
    rw [this]
    exact (show ['A', 'B', 'C'].Nodup by decide).sublist List.filter_sublist

/-- what holds for all written capacitors together -/
theorem caps_back (hk : Numbers shown flt) {schema : Schema} (hs : CapSchema schema) (due : List Text → Py Bool) (files : Text → Option (List Text))
    {cs : List (WCap K)} {names : List Text} (h : List.Forall₂ WritableCap cs names) (hn : names.Nodup) {pre post : List Text}
    {before after : List Decl} (hpre : Lays pre before) (hpost : Lays post after) (hi : NoInclude pre) (hi' : NoInclude post)
    (hg : ∀ d ∈ before ++ after, Good schema d) (hnc : ∀ d ∈ before ++ after, d.cls ≠ "capacitor".toList)
    (hclash : ∀ d ∈ after, ∀ name ∈ names, nameOf d ≠ some ('n' :: name)) :
    ∃ s ds, readGlm schema due files [] (pre ++ writeCapRows shown cs ++ post) = .ok s ∧ Holds s.objects [] ds ∧
      (∀ p ∈ cs.zip names, WritableCap p.1 p.2 ∧ lastNamed ds ('n' :: p.2) = some (capDecl shown p.1)) ∧
      (∀ n d, lastNamed ds n = some d → d.cls = "capacitor".toList → ∃ p ∈ cs.zip names, d = capDecl shown p.1 ∧ n = 'n' :: p.2) ∧
      ∀ ns : List Text, ns.Nodup → (∀ n, n ∈ ns ↔ ∃ d, lastNamed ds n = some d ∧ d.cls = "capacitor".toList) → ns.length = cs.length := by
  have hall : ∀ c ∈ cs, ∀ p ∈ capEntries shown c, Word p.1 ∧ Plain p.1 ∧ Token p.2 := by
    intro c hc
    obtain ⟨name, -, hw⟩ := found_right h hc
    exact cap_rows hk hw
  obtain ⟨a, b⟩ := entries_lay (cls := "capacitor".toList) (by decide) (by decide) hall
  have hlen := h.length_eq
  have hw : ∀ p ∈ cs.zip names, WritableCap p.1 p.2 := by
    intro p hp
    obtain ⟨i, hi, e⟩ := List.mem_iff_getElem.mp hp
    rw [List.getElem_zip] at e
    rw [List.length_zip] at hi
    have := (List.forall₂_iff_get.mp h).2 i (by omega) (by omega)
    rw [← e]
    exact this
  have hd : ∀ p ∈ cs.zip names, (capDecl shown p.1).cls = "capacitor".toList ∧ nameOf (capDecl shown p.1) = some ('n' :: p.2) := fun p hp =>
    ⟨rfl, cap_name (hw p hp)⟩
  obtain ⟨s, ds, h1, h2, h3, h4⟩ := objects_back (cls := "capacitor".toList) (decl := capDecl shown) (schema := schema) (by decide) hd hlen hn
    (rows := writeCapRows shown cs) a b hpre hpost hi hi' hg (by
      intro c hc
      obtain ⟨name, -, hw⟩ := found_right h hc
      exact cap_good hs hw) hnc hclash due files
  exact ⟨s, ds, h1, h2, fun p hp => ⟨hw p hp, h3 p hp⟩, h4, fun ns hnd hmem => back_length hlen hn hnd hd h3 h4 hmem⟩

/-- the capacitors that are read are those that were written -/
theorem caps_found (hk : Numbers shown flt) {schema : Schema} (hs : CapSchema schema) (due : List Text → Py Bool) (files : Text → Option (List Text))
    {cs : List (WCap K)} {names : List Text} (h : List.Forall₂ WritableCap cs names) (hb : ∀ c ∈ cs, c.low.isSome → c.high.isSome)
    (hn : names.Nodup) {pre post : List Text}
    {before after : List Decl} (hpre : Lays pre before) (hpost : Lays post after) (hi : NoInclude pre) (hi' : NoInclude post)
    (hg : ∀ d ∈ before ++ after, Good schema d) (hnc : ∀ d ∈ before ++ after, d.cls ≠ "capacitor".toList)
    (hclash : ∀ d ∈ after, ∀ name ∈ names, nameOf d ≠ some ('n' :: name)) :
    ∃ back, readCapFile flt schema due files [] (pre ++ writeCapRows shown cs ++ post) = .ok back ∧ back.length = cs.length ∧
      (∀ p ∈ cs.zip names, ∃ r ∈ back, CapSays flt (capDecl shown p.1) r) ∧
      ∀ r ∈ back, r.element = none ∧ ∀ p ∈ r.phases, p.switch = none := by
  obtain ⟨s, ds, h1, h2, h3, h4, h5⟩ := caps_back hk hs due files h hn hpre hpost hi hi' hg hnc hclash
  obtain ⟨back, hback⟩ := C88_succeeds (flt := flt) h1 h2 (by
    intro n d hd hc
    obtain ⟨p, hp, rfl, -⟩ := h4 n d hd hc
    exact written_clean hk (h3 p hp).1 (hb _ (List.of_mem_zip hp).1))
  refine ⟨back, hback, ?_, fun p hp => cap_found h1 h2 hback (h3 p hp).2 rfl, caps_bare h1 h2 hback⟩
  obtain ⟨ns, h6, h7, h8⟩ := C88_capacitors_partial h1 h2 hback
  rw [← h8.length_eq]
  exact h5 ns h6 h7

/-- C89 (partial): the capacitors that were written are read back with the same name, voltage, limits and reactive powers. -/
theorem C89_capacitors_partial (hk : Numbers shown flt) {schema : Schema} (hs : CapSchema schema) (due : List Text → Py Bool)
    (files : Text → Option (List Text)) {cs : List (WCap K)} {names : List Text} (h : List.Forall₂ WritableCap cs names)
    (hb : ∀ c ∈ cs, BothLimits c) (hn : names.Nodup) {pre post : List Text} {before after : List Decl} (hpre : Lays pre before)
    (hpost : Lays post after) (hi : NoInclude pre) (hi' : NoInclude post) (hg : ∀ d ∈ before ++ after, Good schema d)
    (hnc : ∀ d ∈ before ++ after, d.cls ≠ "capacitor".toList) (hclash : ∀ d ∈ after, ∀ name ∈ names, nameOf d ≠ some ('n' :: name)) :
    ∃ back, readCapFile flt schema due files [] (pre ++ writeCapRows shown cs ++ post) = .ok back ∧ back.length = cs.length ∧
      ∀ p ∈ cs.zip names, ∃ r ∈ back, SameCap p.1 p.2 r ∧ ModeSays p.1.mode r.mode := by
  obtain ⟨back, h1, h2, h3, -⟩ := caps_found hk hs due files h (fun c hc hl => by have := hb c hc; unfold BothLimits at this; rw [← this]; exact hl)
    hn hpre hpost hi hi' hg hnc hclash
  refine ⟨back, h1, h2, fun p hp => ?_⟩
  obtain ⟨r, hr, hsay⟩ := h3 p hp
  have hw : WritableCap p.1 p.2 := by
    obtain ⟨i, hi, e⟩ := List.mem_iff_getElem.mp hp
    rw [List.getElem_zip] at e
    rw [List.length_zip] at hi
    have := (List.forall₂_iff_get.mp h).2 i (by omega) (by omega)
    rw [← e]
    exact this
  refine ⟨r, hr, cap_same hk hw (hb _ (List.of_mem_zip hp).1) hsay, ?_⟩
  have := hsay.mode
  rw [(cap_written hk hw).control] at this
  exact this

/-- C89 violated: no capacitor keeps its bus, and it is not read back whether its phases are switched in -/
theorem C89_element_violated (hk : Numbers shown flt) {schema : Schema} (hs : CapSchema schema) (due : List Text → Py Bool)
    (files : Text → Option (List Text)) {cs : List (WCap K)} {names : List Text} (h : List.Forall₂ WritableCap cs names)
    (hb : ∀ c ∈ cs, BothLimits c) (hn : names.Nodup) {pre post : List Text} {before after : List Decl} (hpre : Lays pre before)
    (hpost : Lays post after) (hi : NoInclude pre) (hi' : NoInclude post) (hg : ∀ d ∈ before ++ after, Good schema d)
    (hnc : ∀ d ∈ before ++ after, d.cls ≠ "capacitor".toList) (hclash : ∀ d ∈ after, ∀ name ∈ names, nameOf d ≠ some ('n' :: name)) :
    ∃ back, readCapFile flt schema due files [] (pre ++ writeCapRows shown cs ++ post) = .ok back ∧ back.length = cs.length ∧
      ∀ r ∈ back, r.element = none ∧ ∀ p ∈ r.phases, p.switch = none := by
  obtain ⟨back, h1, h2, -, h4⟩ := caps_found hk hs due files h (fun c hc hl => by have := hb c hc; unfold BothLimits at this; rw [← this]; exact hl)
    hn hpre hpost hi hi' hg hnc hclash
  exact ⟨back, h1, h2, h4⟩

/-- C89 violated: no control mode of the models, as given in ditto/models/capacitor.py:38-42, is read back -/
theorem C89_mode_violated {t : Text} (ht : t ∈ ["voltage".toList, "activePower".toList, "reactivePower".toList, "currentFlow".toList,
    "admittance".toList, "timeScheduled".toList, "none".toList]) {m : Option Text} (hm : ModeSays (some t) m) : m = none := by
  cases hm with
  | volt h => exact absurd h ((show ∀ t ∈ ["voltage".toList, "activePower".toList, "reactivePower".toList, "currentFlow".toList,
      "admittance".toList, "timeScheduled".toList, "none".toList], t.map Char.toUpper ≠ "VOLT".toList by decide) t ht)
  | var h => exact absurd h ((show ∀ t ∈ ["voltage".toList, "activePower".toList, "reactivePower".toList, "currentFlow".toList,
      "admittance".toList, "timeScheduled".toList, "none".toList], t.map Char.toUpper ≠ "VAR".toList by decide) t ht)
  | manual h => exact absurd h ((show ∀ t ∈ ["voltage".toList, "activePower".toList, "reactivePower".toList, "currentFlow".toList,
      "admittance".toList, "timeScheduled".toList, "none".toList], t.map Char.toUpper ≠ "MANUAL".toList by decide) t ht)
  | other => rfl

/-- C89 violated: a phase that is switched in is written as open, and all others as closed -/
theorem C89_switch_violated (hk : Numbers shown flt) {c : WCap K} {name : Text} (h : WritableCap c name) {j : WPhaseCap K} (hj : j ∈ c.phases)
    {ch : Char} (hp : j.phase = some [ch]) {v : K} (hv : j.var = some v) :
    ∃ d, Lays (writeCapRows shown [c]) [d] ∧
      (j.switch = some 1 → attrOf d ("switch".toList ++ [ch]) = some "OPEN".toList) ∧
      (j.switch ≠ some 1 → attrOf d ("switch".toList ++ [ch]) = some "CLOSED".toList) := by
  have hall : ∀ c' ∈ [c], ∀ p ∈ capEntries shown c', Word p.1 ∧ Plain p.1 ∧ Token p.2 := by
    intro c' hc
    obtain rfl := List.mem_singleton.mp hc
    exact cap_rows hk h
  refine ⟨capDecl shown c, (entries_lay (cls := "capacitor".toList) (by decide) (by decide) hall).1, ?_⟩
  rcases (cap_written hk h).vars j hj ch hp with ⟨h1, -⟩ | ⟨w, m, -, -, -, h2⟩
  · rw [hv] at h1; cases h1
  · exact ⟨fun e => by rw [h2, if_pos e], fun e => by rw [h2, if_neg e]⟩

/-- C89 violated: a high limit without a low one is lost -/
theorem C89_high_only_violated (hk : Numbers shown flt) {schema : Schema} (hs : CapSchema schema) (due : List Text → Py Bool)
    (files : Text → Option (List Text)) {c : WCap K} {name : Text} (h : WritableCap c name) (hlow : c.low = none) :
    ∃ r, readCapFile flt schema due files [] (writeCapRows shown [c]) = .ok [r] ∧ r.name = 'n' :: name ∧ r.high = none := by
  obtain ⟨back, h1, h2, h3, -⟩ := caps_found hk hs due files (cs := [c]) (names := [name]) (.cons h .nil)
    (fun c' hc hl => by obtain rfl := List.mem_singleton.mp hc; rw [hlow] at hl; cases hl) (List.nodup_singleton _)
    (pre := []) (post := []) (before := []) (after := []) .nil .nil (by intro r hr; cases hr) (by intro r hr; cases hr) (by simp) (by simp) (by simp)
  obtain ⟨r, rfl⟩ := List.length_eq_one_iff.mp h2
  obtain ⟨r', hr, hsay⟩ := h3 (c, name) (by simp)
  obtain rfl := List.mem_singleton.mp hr
  refine ⟨r', by simpa using h1, ?_, ?_⟩
  · have := hsay.name
    rw [cap_name h] at this
    injection this with this
    exact this.symm
  · have h4 := head_attr (shown := shown) h (k := "voltage_set_high".toList) (o := c.low.map fun _ => formatOpt shown c.high) (by simp [capHead])
      (by decide)
    rw [hlow] at h4
    exact optional_unique (hsay.limits.high_var h4) (b := none) (cap_absent h (by simp))

/-- C89 violated: with a low limit but no high one, a file is written that cannot be read -/
theorem C89_low_only_violated (hk : Numbers shown flt) (hnone : flt "None".toList = none) {schema : Schema} (hs : CapSchema schema)
    (due : List Text → Py Bool) (files : Text → Option (List Text)) {c : WCap K} {name : Text} (h : WritableCap c name) {x : K}
    (hlow : c.low = some x) (hhigh : c.high = none) :
    ∃ e, readCapFile flt schema due files [] (writeCapRows shown [c]) = .error e := by
  obtain ⟨s, ds, h1, h2, h3, -⟩ := caps_back hk hs due files (cs := [c]) (names := [name]) (.cons h .nil) (List.nodup_singleton _)
    (pre := []) (post := []) (before := []) (after := []) .nil .nil (by intro r hr; cases hr) (by intro r hr; cases hr) (by simp) (by simp) (by simp)
  rw [List.nil_append, List.append_nil] at h1
  have h4 := head_attr (shown := shown) h (k := "voltage_set_high".toList) (o := c.low.map fun _ => formatOpt shown c.high) (by simp [capHead])
    (by decide)
  rw [hlow, hhigh] at h4
  obtain ⟨hw, hd⟩ := h3 (c, name) (by simp)
  obtain ⟨o, hm, hst⟩ := holds_find h2 (glm_once h1) hd
  rw [cap_file h1]
  cases hres : readCap flt o with
  | ok r =>
    have := cap_high hst hres h4
    change (flt "None".toList).isSome = true at this
    rw [hnone] at this
    cases this
  | error e => exact class_fails hm hst.1 hres

/-- C89 violated: a file with a capacitor with a delay cannot be read, since the attribute of the delay is misspelt -/
theorem C89_delay_violated (hk : Numbers shown flt) {schema : Schema} (hs : CapSchema schema)
    (hno : ∀ ps, schema "capacitor".toList = some ps → "time_dela".toList ∉ ps) (due : List Text → Py Bool) (files : Text → Option (List Text))
    {c : WCap K} {name : Text} (h : WritableCap { c with delay := none } name) {x : K} (hx : c.delay = some x) {pre post : List Text}
    {before : List Decl} (hpre : Lays pre before) (hi : NoInclude pre) (hi' : NoInclude post) (hg : ∀ d ∈ before, Good schema d) :
    readCapFile flt schema due files [] (pre ++ writeCapRows shown [c] ++ post) = .error .attributeError := by
  obtain ⟨ps, h1, h2, -⟩ := id hs
  obtain ⟨b, hb⟩ : ∃ b, capEntries shown c = (optEntry "name".toList (c.name.map ('n' :: ·)) ++
      optEntry "nominal_voltage".toList (c.voltage.map shown)) ++ ("time_dela".toList, shown x) :: b ∧
      capEntries shown { c with delay := none } = (optEntry "name".toList (c.name.map ('n' :: ·)) ++
      optEntry "nominal_voltage".toList (c.voltage.map shown)) ++ b := by
    unfold capEntries
    rw [hx]
    simp only [List.append_assoc, Option.map_some, Option.map_none, optEntry, List.cons_append, List.nil_append]
    exact ⟨_, rfl, rfl⟩
  have hrows := cap_rows hk h
  rw [hb.2] at hrows
  have hcat : writeCapRows shown [c] = entryRows "capacitor".toList (capEntries shown c) := by
    unfold writeCapRows
    rw [List.flatMap_cons, List.flatMap_nil, List.append_nil]
  unfold readCapFile
  rw [hcat, hb.1, unknown_entry (schema := schema) (by decide) (by decide) (by decide) h1 (h2 _ (by simp)) ?_ ?_ (hno ps h1) hpre hi hi' hg due files]
  · intro p hp
    rcases List.mem_append.mp hp with hp | hp
    · exact hrows p (List.mem_append_left _ hp)
    · rcases List.mem_cons.mp hp with rfl | hp
      · exact ⟨word_lit (k := "time_dela".toList) (by decide), plain_lit (k := "time_dela".toList) (by decide), hk.token x⟩
      · exact hrows p (List.mem_append_right _ hp)
  · intro p hp
    rcases List.mem_append.mp hp with hp | hp
    · cases hn : c.name with
      | none => rw [hn] at hp; cases hp
      | some n =>
        rw [hn] at hp
        rw [List.mem_singleton.mp hp]
        exact h2 _ (by simp)
    · cases hn : c.voltage with
      | none => rw [hn] at hp; cases hp
      | some n =>
        rw [hn] at hp
        rw [List.mem_singleton.mp hp]
        exact h2 _ (by simp)

end numbers

/-! ### an example -/

theorem ex_capSchema : CapSchema exCapSchema := ⟨_, rfl, by decide, by decide⟩

/-- a capacitor with both limits -/
def exBoth : WCap ℚ where
  name := some "c1".toList
  voltage := some 7200
  delay := none
  mode := some "voltage".toList
  low := some 3
  high := some 6
  ptPhase := some "A".toList
  element := some "b1".toList
  phases := [⟨some ['A'], some 500000, some 1⟩, ⟨some ['C'], some 250000, none⟩]

/-- a capacitor with a high limit only -/
def exFixed : WCap ℚ where
  name := some "c2".toList
  voltage := none
  delay := none
  mode := some "volt".toList
  low := none
  high := some 6
  ptPhase := none
  element := none
  phases := [⟨some ['B'], none, none⟩]

theorem ex_both : WritableCap exBoth "c1".toList where
  named := rfl
  token := by unfold Token; decide
  delay := rfl
  mode := fun t ht => by cases ht; unfold Token; decide
  ptPhase := fun t ht => by cases ht; unfold Token; decide
  element := fun t ht => by cases ht; unfold Token; decide
  phases := ⟨['A', 'C'], .cons ⟨rfl, by decide⟩ (.cons ⟨rfl, by decide⟩ .nil), by decide⟩

theorem ex_fixed : WritableCap exFixed "c2".toList where
  named := rfl
  token := by unfold Token; decide
  delay := rfl
  mode := fun t ht => by cases ht; unfold Token; decide
  ptPhase := fun t ht => by cases ht
  element := fun t ht => by cases ht
  phases := ⟨['B'], .cons ⟨rfl, by decide⟩ .nil, by decide⟩

/-- a capacitor without limits -/
def exFree : WCap ℚ := { exFixed with high := none }

theorem ex_free : WritableCap exFree "c2".toList := ⟨rfl, ex_fixed.token, rfl, ex_fixed.mode, ex_fixed.ptPhase, ex_fixed.element, ex_fixed.phases⟩

example : ∃ back, readCapFile exUnstroke exCapSchema (fun _ => .ok true) (fun _ => none) []
    ([] ++ writeCapRows exStrokes [exBoth, exFree] ++ []) = .ok back ∧ back.length = 2 ∧
      ∀ p ∈ [exBoth, exFree].zip ["c1".toList, "c2".toList], ∃ r ∈ back, SameCap p.1 p.2 r ∧ ModeSays p.1.mode r.mode :=
  C89_capacitors_partial ex_strokes ex_capSchema _ _ (.cons ex_both (.cons ex_free .nil)) (by unfold BothLimits; decide) (by decide) .nil .nil (by unfold NoInclude; decide)
    (by unfold NoInclude; decide) (fun d h => by cases h) (fun d h => by cases h) (fun d h => by cases h)

example : ∃ back, readCapFile exUnstroke exCapSchema (fun _ => .ok true) (fun _ => none) [] ([] ++ writeCapRows exStrokes [exBoth] ++ []) = .ok back ∧
    back.length = 1 ∧ ∀ r ∈ back, r.element = none ∧ ∀ p ∈ r.phases, p.switch = none :=
  C89_element_violated ex_strokes ex_capSchema _ _ (.cons ex_both .nil) (by unfold BothLimits; decide) (by decide) .nil .nil
    (by unfold NoInclude; decide) (by unfold NoInclude; decide) (fun d h => by cases h) (fun d h => by cases h) (fun d h => by cases h)

example : ∃ d, Lays (writeCapRows exStrokes [exBoth]) [d] ∧
    ((some 1 : Option Int) = some 1 → attrOf d ("switch".toList ++ ['A']) = some "OPEN".toList) ∧
      ((some 1 : Option Int) ≠ some 1 → attrOf d ("switch".toList ++ ['A']) = some "CLOSED".toList) :=
  C89_switch_violated ex_strokes ex_both (j := ⟨some ['A'], some 500000, some 1⟩) (by decide) rfl rfl

example : ∃ r, readCapFile exUnstroke exCapSchema (fun _ => .ok true) (fun _ => none) [] (writeCapRows exStrokes [exFixed]) = .ok [r] ∧
    r.name = "nc2".toList ∧ r.high = none :=
  C89_high_only_violated ex_strokes ex_capSchema _ _ ex_fixed rfl

/-- as `exUnstroke`, but only for strokes -/
def exUnstrokes (t : Text) : Option ℚ := if t = "None".toList then none else exUnstroke t

theorem ex_unstrokes : Numbers exStrokes exUnstrokes := by
  refine ⟨fun x => ?_, ex_strokes.token⟩
  unfold exUnstrokes
  rw [if_neg, ex_strokes.inverse]
  intro h
  have : 'N' ∈ exStrokes x := by rw [h]; decide
  unfold exStrokes at this
  exact absurd (List.eq_of_mem_replicate this) (by decide)

example : ∃ e, readCapFile exUnstrokes exCapSchema (fun _ => .ok true) (fun _ => none) [] (writeCapRows exStrokes [{ exBoth with high := none }]) = .error e :=
  C89_low_only_violated ex_unstrokes (by unfold exUnstrokes; rw [if_pos rfl]) ex_capSchema _ _ (name := "c1".toList)
    ⟨rfl, ex_both.token, rfl, ex_both.mode, ex_both.ptPhase, ex_both.element, ex_both.phases⟩ (x := 3) rfl rfl

example : readCapFile exUnstroke exCapSchema (fun _ => .ok true) (fun _ => none) [] ([] ++ writeCapRows exStrokes [{ exBoth with delay := some 5 }] ++ []) =
    .error .attributeError :=
  C89_delay_violated ex_strokes ex_capSchema (fun ps h => by cases h; decide) _ _ (name := "c1".toList)
    ⟨rfl, ex_both.token, rfl, ex_both.mode, ex_both.ptPhase, ex_both.element, ex_both.phases⟩ (x := 5) rfl .nil (by unfold NoInclude; decide)
    (by unfold NoInclude; decide) (fun d h => by cases h)

example : ∀ m, ModeSays (some "voltage".toList) m → m = none := fun _ h => C89_mode_violated (by decide) h

end Ditto.Glm
