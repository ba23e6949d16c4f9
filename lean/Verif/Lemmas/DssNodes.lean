import Verif.Spec.DssNodes
import Verif.Props.OpenClose
import Verif.Props.DssFiles
import Verif.Lemmas.DssRegs
import Mathlib.Data.List.TakeWhile

namespace Ditto.Dss
open Ditto Ditto.Spec

/-! ### The dictionary -/

theorem lookup_putBus (k k' : Option String) (v : BusRec) (bs : Buses) : (putBus k v bs).lookup k' = if k' = k then some v else bs.lookup k' := by
  induction bs with
  | nil =>
    rw [putBus, List.lookup_cons]
    by_cases h : k' = k
    · simp [h]
    · have : (k' == k) = false := by simpa using h
      simp [h, this]
  | cons e es ih =>
    obtain ⟨a, r⟩ := e
    rw [putBus]
    by_cases h : a = k
    · subst h
      simp only [if_true, List.lookup_cons]
      by_cases h' : k' = a
      · simp [h']
      · have : (k' == a) = false := by simpa using h'
        simp [h', this]
    · simp only [if_neg h, List.lookup_cons, ih]
      by_cases h' : k' = a
      · subst h'
        simp [h]
      · have : (k' == a) = false := by simpa using h'
        simp [this]

theorem putBus_keys (k : Option String) (v : BusRec) (bs : Buses) :
    (putBus k v bs).map (·.1) = if k ∈ bs.map (·.1) then bs.map (·.1) else bs.map (·.1) ++ [k] := by
  induction bs with
  | nil => simp [putBus]
  | cons e es ih =>
    rw [putBus]
    by_cases h : e.1 = k
    · simp [h]
    · rw [if_neg h, List.map_cons, ih]
      have : k ≠ e.1 := fun h' => h h'.symm
      by_cases h' : k ∈ es.map (·.1)
      · rw [if_pos h', if_pos (by rw [List.map_cons]; exact List.mem_cons_of_mem _ h'), List.map_cons]
      · rw [if_neg h', if_neg, List.map_cons, List.cons_append]
        rw [List.map_cons, List.mem_cons]
        exact fun hh => hh.elim this h'

theorem putBus_nodup (k : Option String) (v : BusRec) {bs : Buses} (h : (bs.map (·.1)).Nodup) : ((putBus k v bs).map (·.1)).Nodup := by
  rw [putBus_keys]
  by_cases h' : k ∈ bs.map (·.1)
  · rw [if_pos h']; exact h
  · rw [if_neg h']
    exact List.nodup_append.2 ⟨h, List.nodup_singleton _, fun a ha b hb => by
      rw [List.mem_singleton] at hb
      subst hb
      exact fun heq => h' (heq ▸ ha)⟩

theorem bus_mem_lookup {bs : Buses} (h : (bs.map (·.1)).Nodup) {k : Option String} {r : BusRec} : (k, r) ∈ bs ↔ bs.lookup k = some r := by
  induction bs with
  | nil => simp
  | cons e es ih =>
    obtain ⟨a, r'⟩ := e
    rw [List.map_cons, List.nodup_cons] at h
    rw [List.mem_cons, List.lookup_cons, ih h.2]
    by_cases hk : k = a
    · subst hk
      simp only [beq_self_eq_true, Prod.mk.injEq, true_and, Option.some.injEq]
      constructor
      · rintro (hr | hr)
        · exact hr.symm
        · refine absurd ?_ h.1
          exact List.mem_map.2 ⟨(k, r), (ih h.2).2 hr, rfl⟩
      · intro hr; exact Or.inl hr.symm
    · have : (k == a) = false := by simpa using hk
      simp [hk, this]

theorem mem_unique {k : Nat} {l : List Nat} : k ∈ unique l ↔ k ∈ l := by
  unfold unique
  rw [List.mem_insertionSort, List.mem_dedup]

theorem nodup_unique (l : List Nat) : (unique l).Nodup := by
  unfold unique
  exact (List.perm_insertionSort _ _).nodup_iff.2 (List.nodup_dedup l)

/-! ### Coordinates -/

theorem addCoord_lookup (bs : Buses) (c : Option String × Coord × Coord) (k : Option String) :
    (addCoord bs c).lookup k = if k = c.1 then some { positions := some c.2, phases := (bs.lookup k).bind (·.phases) } else bs.lookup k := by
  unfold addCoord
  cases h : bs.lookup c.1 with
  | none =>
    simp only [lookup_putBus]
    by_cases hk : k = c.1
    · subst hk; simp [h]
    · simp [hk]
  | some r =>
    simp only [lookup_putBus]
    by_cases hk : k = c.1
    · subst hk; simp [h]
    · simp [hk]

theorem addCoord_nodup {bs : Buses} (h : (bs.map (·.1)).Nodup) (c : Option String × Coord × Coord) : ((addCoord bs c).map (·.1)).Nodup := by
  unfold addCoord
  split <;> exact putBus_nodup _ _ h

/-- after the lines `cs` of the file -/
theorem coords_lookup (cs : List (Option String × Coord × Coord)) (k : Option String) :
    (cs.foldl addCoord []).lookup k = ((cs.reverse.find? fun c => decide (c.1 = k)).map (·.2)).map fun p => { positions := some p, phases := none } := by
  induction cs using List.reverseRecOn with
  | nil => rfl
  | append_singleton cs c ih =>
    rw [List.foldl_append, List.foldl_cons, List.foldl_nil, addCoord_lookup, ih, List.reverse_append, List.reverse_singleton, List.singleton_append,
      List.find?_cons]
    by_cases hk : k = c.1
    · subst hk
      simp only [if_true, decide_true, Option.map_some]
      cases hc : cs.reverse.find? fun c' => decide (c'.1 = c.1) <;> simp
    · have : ¬ c.1 = k := fun h => hk h.symm
      simp [hk, this]

theorem coords_nodup (cs : List (Option String × Coord × Coord)) : ((cs.foldl addCoord []).map (·.1)).Nodup := by
  induction cs using List.reverseRecOn with
  | nil => simp
  | append_singleton cs c ih =>
    rw [List.foldl_append, List.foldl_cons, List.foldl_nil]
    exact addCoord_nodup ih c

theorem readCoords_lookup (flt : List Char → Option ℚ) (d : Char) (file : Option (List (List Char))) (k : Option String) :
    (readCoords flt d file).lookup k = (lastLine flt d file k).map fun p => { positions := some p, phases := none } := by
  cases file with
  | none => rfl
  | some ls => exact coords_lookup _ k

theorem readCoords_nodup (flt : List Char → Option ℚ) (d : Char) (file : Option (List (List Char))) : ((readCoords flt d file).map (·.1)).Nodup := by
  cases file with
  | none => simp [readCoords]
  | some ls => exact coords_nodup _

/-! ### Loops -/

theorem forPy_append {σ α : Type} (f : σ → α → Py σ) : ∀ (l l' : List α) (s : σ),
    forPy f s (l ++ l') = match forPy f s l with | .error e => .error e | .ok s' => forPy f s' l' := by
  intro l
  induction l with
  | nil => intro l' s; rfl
  | cons a l ih =>
    intro l' s
    rw [List.cons_append, forPy, forPy]
    cases f s a with
    | error e => rfl
    | ok s' => exact ih l' s'

/-- an update of the dictionary -/
abbrev Upd := Option String × Option (List Nat)

def upd (bs : Buses) (u : Upd) : Py Buses := addPhases bs u.1 u.2

theorem addEnds_eq (three : Bool) : ∀ (rs : List BusRef) (bs : Buses), addEnds three bs rs = forPy upd bs (rs.map (softEnd three)) := by
  intro rs
  induction rs with
  | nil => intro bs; rfl
  | cons r rs ih =>
    intro bs
    rw [addEnds, List.map_cons, forPy]
    show (match upd bs (softEnd three r) with | .error e => _ | .ok bs' => _) = _
    cases upd bs (softEnd three r) with
    | error e => rfl
    | ok bs' => exact ih bs'

theorem forEnds_eq : ∀ (ts : List Ends) (bs : Buses),
    forPy (fun s t => addEnds t.three s t.buses) bs ts = forPy upd bs (ts.flatMap fun t => t.buses.map (softEnd t.three)) := by
  intro ts
  induction ts with
  | nil => intro bs; rfl
  | cons t ts ih =>
    intro bs
    rw [forPy, List.flatMap_cons, forPy_append, addEnds_eq]
    cases forPy upd bs (t.buses.map (softEnd t.three)) with
    | error e => rfl
    | ok bs' => exact ih bs'

theorem lineEnd_ok {three : Bool} {r : BusRef} (h : ReadableEnd three r) : ∃ ns, lineEnd three r = .ok (r.1, ns) ∧ softEnd three r = (some r.1, some ns) := by
  obtain ⟨b, o⟩ := r
  obtain ⟨h1, h2⟩ := h
  cases o with
  | some ns =>
    refine ⟨ns, ?_, rfl⟩
    unfold lineEnd
    simp only
    rw [if_pos (List.all_eq_true.2 fun n hn => decide_eq_true (h2 ns rfl n hn))]
  | none =>
    have ht : three = true := h1.resolve_left (fun h => h rfl)
    subst ht
    exact ⟨_, rfl, rfl⟩

theorem lineEnd_bad {three : Bool} {r : BusRef} (h : ¬ ReadableEnd three r) : lineEnd three r = .error .valueError := by
  obtain ⟨b, o⟩ := r
  cases o with
  | some ns =>
    unfold lineEnd
    simp only
    rw [if_neg]
    intro hall
    refine h ⟨Or.inl (by simp), fun ns' hns k hk => ?_⟩
    cases hns
    exact of_decide_eq_true (List.all_eq_true.1 hall k hk)
  | none =>
    unfold lineEnd
    simp only
    rw [if_neg]
    intro ht
    exact h ⟨Or.inr ht, fun ns' hns => by cases hns⟩

def lineUpds (l : LineEnds) : List Upd := [softEnd l.three l.bus1, softEnd l.three l.bus2]

theorem addLine_good {l : LineEnds} (h : ReadableEnd l.three l.bus1 ∧ ReadableEnd l.three l.bus2) (bs : Buses) : addLine bs l = forPy upd bs (lineUpds l) := by
  obtain ⟨n1, e1, s1⟩ := lineEnd_ok h.1
  obtain ⟨n2, e2, s2⟩ := lineEnd_ok h.2
  unfold addLine lineUpds
  rw [e1, e2, s1, s2]
  simp only [forPy, upd]
  cases addPhases bs (some l.bus1.1) (some n1) with
  | error e => rfl
  | ok bs' =>
    simp only
    cases addPhases bs' (some l.bus2.1) (some n2) <;> rfl

theorem addLine_bad {l : LineEnds} (h : ¬ (ReadableEnd l.three l.bus1 ∧ ReadableEnd l.three l.bus2)) (bs : Buses) : addLine bs l = .error .valueError := by
  unfold addLine
  by_cases h1 : ReadableEnd l.three l.bus1
  · obtain ⟨n1, e1, -⟩ := lineEnd_ok h1
    rw [e1, lineEnd_bad fun h2 => h ⟨h1, h2⟩]
  · rw [lineEnd_bad h1]

theorem forLines_good : ∀ (ls : List LineEnds) (bs : Buses), (∀ l ∈ ls, ReadableEnd l.three l.bus1 ∧ ReadableEnd l.three l.bus2) →
    forPy addLine bs ls = forPy upd bs (ls.flatMap lineUpds) := by
  intro ls
  induction ls with
  | nil => intro bs _; rfl
  | cons l ls ih =>
    intro bs h
    rw [forPy, List.flatMap_cons, forPy_append, addLine_good (h l List.mem_cons_self)]
    cases forPy upd bs (lineUpds l) with
    | error e => rfl
    | ok bs' => exact ih bs' fun l' hl' => h l' (List.mem_cons_of_mem _ hl')

/-- all updates -/
def updates (q : Equipment) : List Upd :=
  q.lines.flatMap lineUpds ++ ((q.trafos.flatMap fun t => t.buses.map (softEnd t.three)) ++ q.loads.flatMap fun t => t.buses.map (softEnd t.three))

theorem readBusDict_good (flt : List Char → Option ℚ) (d : Char) (file : Option (List (List Char))) {q : Equipment} (h : ReadableLines q) :
    readBusDict flt d file q = forPy upd (readCoords flt d file) (updates q) := by
  unfold readBusDict updates
  rw [forPy_append, forLines_good _ _ h]
  cases forPy upd (readCoords flt d file) (q.lines.flatMap lineUpds) with
  | error e => rfl
  | ok bs =>
    simp only
    rw [forPy_append, forEnds_eq]
    cases forPy upd bs (q.trafos.flatMap fun t => t.buses.map (softEnd t.three)) with
    | error e => rfl
    | ok bs' => exact forEnds_eq _ _

/-! ### Phases -/

/-- no entry has `None` as phases -/
def NoNone (bs : Buses) : Prop := ∀ k r, bs.lookup k = some r → r.phases ≠ some none

theorem readCoords_noNone (flt : List Char → Option ℚ) (d : Char) (file : Option (List (List Char))) : NoNone (readCoords flt d file) := by
  intro k r h
  rw [readCoords_lookup] at h
  obtain ⟨p, -, rfl⟩ := Option.map_eq_some_iff.1 h
  simp

/-- the numbers known of a bus -/
def numbers (bs : Buses) (k : Option String) : List Nat := ((bs.lookup k).bind (·.phases)).elim [] fun o => o.getD []

theorem upd_spec {bs bs' : Buses} {u : Upd} (h : upd bs u = .ok bs') :
    ((bs.map (·.1)).Nodup → (bs'.map (·.1)).Nodup) ∧
    (∀ k, (bs'.lookup k).bind (·.positions) = (bs.lookup k).bind (·.positions)) ∧
    (∀ k, (bs'.lookup k).isSome = true ↔ (bs.lookup k).isSome = true ∨ u.1 = k) ∧
    (∀ k n, n ∈ numbers bs' k ↔ n ∈ numbers bs k ∨ (u.1 = k ∧ n ∈ u.2.getD [])) ∧
    (∀ k, (numbers bs k).Nodup → (u.2.getD []).Nodup → (numbers bs' k).Nodup) := by
  obtain ⟨nm, phs⟩ := u
  unfold upd addPhases at h
  simp only at h
  have key : ∀ v : BusRec, bs' = putBus nm v bs → v.positions = (bs.lookup nm).bind (·.positions) →
      (∀ n, n ∈ v.phases.elim [] (fun o => o.getD []) ↔ n ∈ numbers bs nm ∨ n ∈ phs.getD []) →
      ((numbers bs nm).Nodup → (phs.getD []).Nodup → (v.phases.elim [] (fun o => o.getD [])).Nodup) → 
      ((bs.map (·.1)).Nodup → (bs'.map (·.1)).Nodup) ∧
      (∀ k, (bs'.lookup k).bind (·.positions) = (bs.lookup k).bind (·.positions)) ∧
      (∀ k, (bs'.lookup k).isSome = true ↔ (bs.lookup k).isSome = true ∨ nm = k) ∧
      (∀ k n, n ∈ numbers bs' k ↔ n ∈ numbers bs k ∨ (nm = k ∧ n ∈ phs.getD [])) ∧
      (∀ k, (numbers bs k).Nodup → (phs.getD []).Nodup → (numbers bs' k).Nodup) := by
    intro v hbs hpos hph hnd
    subst hbs
    refine ⟨fun hn => putBus_nodup _ _ hn, fun k => ?_, fun k => ?_, fun k n => ?_, fun k => ?_⟩
    · rw [lookup_putBus]
      by_cases hk : k = nm
      · subst hk; simp [hpos]
      · simp [hk]
    · rw [lookup_putBus]
      by_cases hk : k = nm
      · subst hk; simp
      · simp [hk, Ne.symm hk]
    · unfold numbers
      rw [lookup_putBus]
      by_cases hk : k = nm
      · subst hk
        simp only [if_true, Option.bind_some, true_and]
        exact hph n
      · simp [hk, Ne.symm hk]
    · unfold numbers
      rw [lookup_putBus]
      by_cases hk : k = nm
      · subst hk
        simp only [if_true, Option.bind_some]
        exact hnd
      · simp only [hk, if_false]
        exact fun h _ => h
  cases hl : bs.lookup nm with
  | none =>
    rw [hl] at h
    cases nm with
    | none => exact absurd h (by simp)
    | some n =>
      simp only [Except.ok.injEq] at h
      refine key _ h.symm (by simp [hl]) (fun m => ?_) (fun _ h => h)
      simp [numbers, hl]
  | some r =>
    rw [hl] at h
    simp only at h
    cases hp : r.phases with
    | none =>
      rw [hp] at h
      simp only [Except.ok.injEq] at h
      refine key _ h.symm (by simp [hl]) (fun m => ?_) (fun _ h => h)
      simp [numbers, hl, hp]
    | some o =>
      rw [hp] at h
      cases o with
      | none => exact absurd h (by simp)
      | some old =>
        cases phs with
        | none => exact absurd h (by simp)
        | some new =>
          simp only [Except.ok.injEq] at h
          refine key _ h.symm (by simp [hl]) (fun m => ?_) (fun _ _ => nodup_unique _)
          simp [numbers, hl, hp, mem_unique]

theorem forUpd_spec : ∀ (us : List Upd) {bs bs' : Buses}, forPy upd bs us = .ok bs' →
    ((bs.map (·.1)).Nodup → (bs'.map (·.1)).Nodup) ∧
    (∀ k, (bs'.lookup k).bind (·.positions) = (bs.lookup k).bind (·.positions)) ∧
    (∀ k, (bs'.lookup k).isSome = true ↔ (bs.lookup k).isSome = true ∨ ∃ u ∈ us, u.1 = k) ∧
    (∀ k n, n ∈ numbers bs' k ↔ n ∈ numbers bs k ∨ ∃ u ∈ us, u.1 = k ∧ n ∈ u.2.getD []) ∧
    (∀ k, (numbers bs k).Nodup → (∀ u ∈ us, (u.2.getD []).Nodup) → (numbers bs' k).Nodup) := by
  intro us
  induction us with
  | nil =>
    intro bs bs' h
    cases h
    simp
  | cons u us ih =>
    intro bs bs' h
    rw [forPy] at h
    cases hu : upd bs u with
    | error e => rw [hu] at h; exact absurd h (by simp)
    | ok b =>
      rw [hu] at h
      obtain ⟨a1, a2, a3, a4, a5⟩ := upd_spec hu
      obtain ⟨b1, b2, b3, b4, b5⟩ := ih h
      refine ⟨fun hn => b1 (a1 hn), fun k => (b2 k).trans (a2 k), fun k => ?_, fun k n => ?_, fun k hn hu => ?_⟩
      · rw [b3, a3]
        simp only [List.mem_cons, exists_eq_or_imp, or_assoc]
      · rw [b4, a4]
        simp only [List.mem_cons, exists_eq_or_imp, or_assoc]
      · exact b5 k (a5 k hn (hu u List.mem_cons_self)) fun u' hu' => hu u' (List.mem_cons_of_mem _ hu')

/-- updates with name and phases never fail -/
theorem forUpd_ok : ∀ (us : List Upd) (bs : Buses), NoNone bs → (∀ u ∈ us, ∃ b ns, u = (some b, some ns)) →
    ∃ bs', forPy upd bs us = .ok bs' ∧ NoNone bs' := by
  intro us
  induction us with
  | nil => intro bs h _; exact ⟨bs, rfl, h⟩
  | cons u us ih =>
    intro bs h hu
    obtain ⟨b, ns, rfl⟩ := hu u List.mem_cons_self
    have : ∃ v, upd bs (some b, some ns) = .ok (putBus (some b) v bs) ∧ v.phases ≠ some none := by
      unfold upd addPhases
      simp only
      cases hl : bs.lookup (some b) with
      | none => exact ⟨_, rfl, by simp⟩
      | some r =>
        have hr := h _ _ hl
        simp only
        cases hp : r.phases with
        | none => exact ⟨_, rfl, by simp⟩
        | some o =>
          cases o with
          | none => exact absurd hp hr
          | some old => exact ⟨_, rfl, by simp⟩
    obtain ⟨v, hv, hvp⟩ := this
    rw [forPy, hv]
    refine ih _ (fun k r hk => ?_) fun u' hu' => hu u' (List.mem_cons_of_mem _ hu')
    rw [lookup_putBus] at hk
    by_cases hkb : k = some b
    · rw [if_pos hkb] at hk
      cases hk
      exact hvp
    · rw [if_neg hkb] at hk
      exact h k r hk

/-- a first update without a name stops the reader -/
theorem forUpd_keyError (us us' : List Upd) {bs : Buses} (h : NoNone bs) (hu : ∀ u ∈ us, ∃ b ns, u = (some b, some ns)) (hn : bs.lookup none = none) :
    forPy upd bs (us ++ (none, none) :: us') = .error .keyError := by
  obtain ⟨bs', h', -⟩ := forUpd_ok us bs h hu
  rw [forPy_append, h']
  simp only [forPy]
  obtain ⟨-, -, h3, -⟩ := forUpd_spec us h'
  have : bs'.lookup none = none := by
    have := (h3 none).not
    rw [hn] at this
    have h4 : ¬ (bs'.lookup none).isSome = true := this.2 (by
      rintro (h5 | ⟨u, hu', h5⟩)
      · exact absurd h5 (by simp)
      · obtain ⟨b, ns, rfl⟩ := hu u hu'
        cases h5)
    rw [Option.isSome_iff_ne_none, not_not] at h4
    exact h4
  unfold upd addPhases
  simp [this]

theorem softEnd_specified {three : Bool} {r : BusRef} (h : Specified three r) : ∃ ns, softEnd three r = (some r.1, some ns) := by
  obtain ⟨b, o⟩ := r
  cases o with
  | some ns => exact ⟨ns, rfl⟩
  | none =>
    have ht : three = true := h.resolve_left (fun h => h rfl)
    subst ht
    exact ⟨_, rfl⟩

theorem softEnd_unspecified {three : Bool} {r : BusRef} (h : ¬ Specified three r) : softEnd three r = (none, none) := by
  obtain ⟨b, o⟩ := r
  cases o with
  | some ns => exact absurd (Or.inl (by simp)) h
  | none =>
    cases three with
    | true => exact absurd (Or.inr rfl) h
    | false => rfl

theorem softEnd_mem {three : Bool} {r : BusRef} {b : String} {k : Nat} :
    ((softEnd three r).1 = some b ∧ k ∈ (softEnd three r).2.getD []) ↔ Connects three r b k := by
  obtain ⟨a, o⟩ := r
  cases o with
  | some ns => simp [softEnd, Connects]
  | none => cases three <;> simp [softEnd, Connects]

theorem softEnd_name {three : Bool} {r : BusRef} {b : String} : (softEnd three r).1 = some b ↔ r.1 = b ∧ Specified three r := by
  obtain ⟨a, o⟩ := r
  cases o with
  | some ns => simp [softEnd, Specified]
  | none => cases three <;> simp [softEnd, Specified]

theorem mem_updates {q : Equipment} {u : Upd} : u ∈ updates q ↔
    (∃ l ∈ q.lines, u = softEnd l.three l.bus1 ∨ u = softEnd l.three l.bus2) ∨ (∃ t ∈ q.trafos, ∃ r ∈ t.buses, u = softEnd t.three r) ∨
      ∃ t ∈ q.loads, ∃ r ∈ t.buses, u = softEnd t.three r := by
  unfold updates lineUpds
  simp only [List.mem_append, List.mem_flatMap, List.mem_cons, List.not_mem_nil, or_false, List.mem_map, @eq_comm _ u]

theorem updates_touches {q : Equipment} {b : String} {k : Nat} : (∃ u ∈ updates q, u.1 = some b ∧ k ∈ u.2.getD []) ↔ Touches q b k := by
  unfold Touches
  constructor
  · rintro ⟨u, hu, h⟩
    rcases mem_updates.1 hu with ⟨l, hl, rfl | rfl⟩ | ⟨t, ht, r, hr, rfl⟩ | ⟨t, ht, r, hr, rfl⟩
    · exact Or.inl ⟨l, hl, Or.inl (softEnd_mem.1 h)⟩
    · exact Or.inl ⟨l, hl, Or.inr (softEnd_mem.1 h)⟩
    · exact Or.inr (Or.inl ⟨t, ht, r, hr, softEnd_mem.1 h⟩)
    · exact Or.inr (Or.inr ⟨t, ht, r, hr, softEnd_mem.1 h⟩)
  · rintro (⟨l, hl, h | h⟩ | ⟨t, ht, r, hr, h⟩ | ⟨t, ht, r, hr, h⟩)
    · exact ⟨_, mem_updates.2 (Or.inl ⟨l, hl, Or.inl rfl⟩), softEnd_mem.2 h⟩
    · exact ⟨_, mem_updates.2 (Or.inl ⟨l, hl, Or.inr rfl⟩), softEnd_mem.2 h⟩
    · exact ⟨_, mem_updates.2 (Or.inr (Or.inl ⟨t, ht, r, hr, rfl⟩)), softEnd_mem.2 h⟩
    · exact ⟨_, mem_updates.2 (Or.inr (Or.inr ⟨t, ht, r, hr, rfl⟩)), softEnd_mem.2 h⟩

theorem updates_mentions {q : Equipment} (hq : ReadableLines q) {b : String} : (∃ u ∈ updates q, u.1 = some b) ↔ Mentions q b := by
  unfold Mentions
  constructor
  · rintro ⟨u, hu, h⟩
    rcases mem_updates.1 hu with ⟨l, hl, rfl | rfl⟩ | ⟨t, ht, r, hr, rfl⟩ | ⟨t, ht, r, hr, rfl⟩
    · exact Or.inl ⟨l, hl, Or.inl (softEnd_name.1 h).1⟩
    · exact Or.inl ⟨l, hl, Or.inr (softEnd_name.1 h).1⟩
    · exact Or.inr (Or.inl ⟨t, ht, r, hr, softEnd_name.1 h⟩)
    · exact Or.inr (Or.inr ⟨t, ht, r, hr, softEnd_name.1 h⟩)
  · rintro (⟨l, hl, h | h⟩ | ⟨t, ht, r, hr, h⟩ | ⟨t, ht, r, hr, h⟩)
    · exact ⟨_, mem_updates.2 (Or.inl ⟨l, hl, Or.inl rfl⟩), softEnd_name.2 ⟨h, (hq l hl).1.1⟩⟩
    · exact ⟨_, mem_updates.2 (Or.inl ⟨l, hl, Or.inr rfl⟩), softEnd_name.2 ⟨h, (hq l hl).2.1⟩⟩
    · exact ⟨_, mem_updates.2 (Or.inr (Or.inl ⟨t, ht, r, hr, rfl⟩)), softEnd_name.2 h⟩
    · exact ⟨_, mem_updates.2 (Or.inr (Or.inr ⟨t, ht, r, hr, rfl⟩)), softEnd_name.2 h⟩

/-! ### Unreadable lines -/

theorem forLines_bad : ∀ (ls : List LineEnds) (bs : Buses), NoNone bs → (∃ l ∈ ls, ¬ (ReadableEnd l.three l.bus1 ∧ ReadableEnd l.three l.bus2)) →
    forPy addLine bs ls = .error .valueError := by
  intro ls
  induction ls with
  | nil => rintro bs _ ⟨l, hl, -⟩; exact absurd hl List.not_mem_nil
  | cons l ls ih =>
    rintro bs hbs ⟨l', hl', h'⟩
    rw [forPy]
    by_cases h : ReadableEnd l.three l.bus1 ∧ ReadableEnd l.three l.bus2
    · rw [addLine_good h]
      obtain ⟨bs', h1, h2⟩ := forUpd_ok (lineUpds l) bs hbs (by
        intro u hu
        obtain ⟨n1, -, s1⟩ := lineEnd_ok h.1
        obtain ⟨n2, -, s2⟩ := lineEnd_ok h.2
        unfold lineUpds at hu
        rw [s1, s2] at hu
        simp only [List.mem_cons, List.not_mem_nil, or_false] at hu
        rcases hu with rfl | rfl
        · exact ⟨_, _, rfl⟩
        · exact ⟨_, _, rfl⟩)
      rw [h1]
      refine ih bs' h2 ?_
      rcases List.mem_cons.1 hl' with rfl | hl'
      · exact absurd h h'
      · exact ⟨l', hl', h'⟩
    · rw [addLine_bad h]

theorem readBusDict_bad (flt : List Char → Option ℚ) (d : Char) (file : Option (List (List Char))) {q : Equipment} (h : ¬ ReadableLines q) :
    readBusDict flt d file q = .error .valueError := by
  unfold readBusDict
  rw [forLines_bad _ _ (readCoords_noNone flt d file)]
  unfold ReadableLines at h
  push Not at h
  obtain ⟨l, hl, h1⟩ := h
  exact ⟨l, hl, fun h2 => h1 h2.1 h2.2⟩

/-! ### The text of the file -/

theorem cleanChars_mem : ∀ {l : List Char} {b : Bool} {c : Char}, c ∈ cleanChars b l → c = '_' ∨ (c ∈ l ∧ c.isAlphanum = true) := by
  intro l
  induction l with
  | nil => intro b c h; exact absurd h (by simp [cleanChars])
  | cons a l ih =>
    intro b c h
    rw [cleanChars] at h
    by_cases ha : a.isAlphanum = true
    · rw [if_pos ha, List.mem_cons] at h
      rcases h with rfl | h
      · exact Or.inr ⟨List.mem_cons_self, ha⟩
      · exact (ih h).imp id fun h => ⟨List.mem_cons_of_mem _ h.1, h.2⟩
    · rw [if_neg ha] at h
      cases b with
      | true => exact (ih (by simpa using h)).imp id fun h => ⟨List.mem_cons_of_mem _ h.1, h.2⟩
      | false =>
        rw [if_neg (by simp), List.mem_cons] at h
        rcases h with rfl | h
        · exact Or.inl rfl
        · exact (ih h).imp id fun h => ⟨List.mem_cons_of_mem _ h.1, h.2⟩

theorem cleanLower_mem {s : String} {c : Char} (h : c ∈ (cleanLower s).toList) : c = '_' ∨ (c.isAlphanum = true ∧ c.toLower = c) := by
  unfold cleanLower cleanName pyLower at h
  rw [String.toList_ofList, String.toList_ofList] at h
  rcases cleanChars_mem h with h | ⟨h, h'⟩
  · exact Or.inl h
  · obtain ⟨a, -, rfl⟩ := List.mem_map.1 h
    exact Or.inr ⟨h', charLower_idem a⟩

theorem cleanLower_lower (s : String) : pyLower (cleanLower s) = cleanLower s := by
  unfold pyLower
  have : (cleanLower s).toList.map Char.toLower = (cleanLower s).toList := by
    conv_rhs => rw [← List.map_id (cleanLower s).toList]
    refine List.map_congr_left fun c hc => ?_
    rcases cleanLower_mem hc with rfl | h
    · decide
    · exact h.2
  rw [this, String.ofList_toList]

theorem alnum_notBlank {c : Char} (h : c.isAlphanum = true) : c.isWhitespace = false := by
  by_contra hw
  have hw : c.isWhitespace = true := by simpa using hw
  unfold Char.isWhitespace at hw
  simp only [Bool.or_eq_true, decide_eq_true_eq] at hw
  rcases hw with ((rfl | rfl) | rfl) | rfl <;> exact absurd h (by decide)

theorem cleanLower_notBlank {s : String} {c : Char} (h : c ∈ (cleanLower s).toList) : c.isWhitespace = false := by
  rcases cleanLower_mem h with rfl | h
  · decide
  · exact alnum_notBlank h.1

theorem pyStrip_ne_nil {l : List Char} {c : Char} (h : c ∈ l) (hc : c.isWhitespace = false) : Net.pyStrip l ≠ [] := by
  unfold Net.pyStrip
  intro he
  rw [List.reverse_eq_nil_iff, List.dropWhile_eq_nil_iff] at he
  have hm : c ∈ l.dropWhile Char.isWhitespace := by
    have := List.takeWhile_append_dropWhile (p := Char.isWhitespace) (l := l)
    rw [← this, List.mem_append] at h
    rcases h with h | h
    · exact absurd (List.mem_takeWhile_imp h) (by simp [hc])
    · exact h
  exact absurd (he c (List.mem_reverse.2 hm)) (by simp [hc])

theorem readCoord_text {shown : ℚ → List Char} {flt : List Char → Option ℚ} {d : Char} (hp : Printable shown flt d) (s : String) (p : ℚ × ℚ) :
    readCoord flt d (coordText shown d (cleanLower s, p)) = some (some (cleanLower s), .num p.1, .num p.2) := by
  have hs : d ∉ (cleanLower s).toList := by
    intro h
    rcases cleanLower_mem h with h | h
    · exact hp.names.2.1 h
    · rw [hp.names.1] at h; exact absurd h.1 (by simp)
  have hne : Net.pyStrip (coordText shown d (cleanLower s, p)) ≠ [] := by
    obtain ⟨c, hc⟩ := List.exists_mem_of_ne_nil _ (hp.nonempty p.1)
    refine pyStrip_ne_nil (c := c) ?_ (hp.blanks _ c hc)
    unfold coordText
    simp [hc]
  have hsplit : Net.splitCh d (coordText shown d (cleanLower s, p)) = [(cleanLower s).toList, shown p.1, shown p.2 ++ ['\n']] := by
    unfold coordText
    rw [Net.splitCh_append hs, Net.splitCh_append (hp.delimiter _), Net.splitCh_not_mem]
    rw [List.mem_append, List.mem_singleton]
    exact fun h => h.elim (hp.delimiter _) hp.names.2.2
  unfold readCoord
  rw [if_neg hne, hsplit]
  simp only [List.map_cons, List.map_nil]
  rw [Net.pyStrip_plain fun c hc => cleanLower_notBlank hc, Net.pyStrip_plain (hp.blanks _), Net.pyStrip_newline (hp.blanks _)]
  unfold coordFields castCoords
  simp only [hp.reads]
  rw [String.ofList_toList, cleanLower_lower]

end Ditto.Dss
