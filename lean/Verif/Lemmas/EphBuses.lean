import Verif.Spec.EphBuses
import Verif.Lemmas.Carson
import Verif.Lemmas.GroupVoltages
import Verif.Lemmas.GlmCaps
import Mathlib.Data.List.Dedup

/-! Lemmas about the sheets Switch, Bus and Vsource of the ePHASOR writer. -/
namespace Ditto.Eph
open Ditto Ditto.Eph.Spec
open Ditto.Glm (Text)

theorem forall₂_append_inv {α β : Type} {R : α → β → Prop} {a b : List α} : ∀ {l : List β}, List.Forall₂ R (a ++ b) l →
    ∃ x y, l = x ++ y ∧ List.Forall₂ R a x ∧ List.Forall₂ R b y := by
  induction a with
  | nil => intro l h; exact ⟨[], l, rfl, .nil, h⟩
  | cons c a ih =>
    intro l h
    cases h with
    | cons h1 h2 =>
      obtain ⟨x, y, rfl, hx, hy⟩ := ih h2
      exact ⟨_ :: x, y, rfl, .cons h1 hx, hy⟩

theorem mapM_flatten {α β γ : Type} {f : α → Py (List β)} {g : α → List γ} {R : γ → β → Prop} (h : ∀ a l, f a = .ok l ↔ List.Forall₂ R (g a) l) (as : List α) :
    ∀ l, (as.mapM f).map List.flatten = .ok l ↔ List.Forall₂ R (as.flatMap g) l := by
  induction as with
  | nil =>
    intro l
    simp only [List.mapM_nil, pure, Except.pure, Except.map, List.flatMap_nil, List.forall₂_nil_left_iff, List.flatten_nil, Except.ok.injEq]
    exact eq_comm
  | cons a as ih =>
    intro l
    rw [List.mapM_cons, List.flatMap_cons]
    cases ha : f a with
    | error e =>
      simp only [bind, Except.bind, Except.map]
      refine ⟨(fun x => by cases x), fun x => ?_⟩
      obtain ⟨u, y, -, hx, -⟩ := forall₂_append_inv x
      
      rw [(h a u).mpr hx] at ha; cases ha
    | ok r =>
      cases hs : as.mapM f with
      | error e =>
        simp only [bind, Except.bind, Except.map]
        refine ⟨(fun x => by cases x), fun x => ?_⟩
        obtain ⟨x, y, -, -, hy⟩ := forall₂_append_inv x
        have := (ih y).mpr hy
        rw [hs] at this; cases this
      | ok rs =>
        simp only [bind, Except.bind, Except.map, pure, Except.pure, List.flatten_cons, Except.ok.injEq]
        have h1 := (h a r).mp ha
        have h2 := (ih rs.flatten).mp (by rw [hs]; rfl)
        constructor
        · rintro rfl; exact List.rel_append h1 h2
        · intro x
          obtain ⟨u, y, rfl, hx, hy⟩ := forall₂_append_inv x
          have e1 := (h a u).mpr hx
          have e2 := (ih y).mpr hy
          rw [ha] at e1; rw [hs] at e2
          cases e1; cases e2; rfl

theorem switchWire_ok {l : EphSwitch} {w : EphWire} {s t : Text} (hs : l.source = some s) (ht : l.sink = some t) (o : Option SwitchRow) :
    switchWire s t l.name w = .ok o ↔ List.Forall₂ PoleSays ((if conducts w then [(l, w)] else [] : List _)) o.toList := by
  unfold switchWire
  cases hp : w.phase with
  | none =>
    have hc : conducts w = false := by simp [conducts, hp]
    rw [hc]
    cases o <;> simp
  | some p =>
    by_cases hn : p = ['N']
    · have hc : conducts w = false := by simp [conducts, hp, hn]
      rw [hc]
      simp only [hn, if_true]
      cases o <;> simp
    · have hc : conducts w = true := by simp [conducts, hp, hn]
      rw [hc]
      simp only [hn, if_false, if_true]
      cases hl : l.name with
      | none =>
        refine ⟨(fun h => by cases h), fun h => ?_⟩
        cases o with
        | none => cases h
        | some r =>
          cases h with
          | cons h _ => obtain ⟨_, _, n, _, _, _, hn, _⟩ := h; simp only [hl] at hn; cases hn
      | some n =>
        cases o with
        | none => exact ⟨(fun h => by cases h), (fun h => by cases h)⟩
        | some r =>
          simp only [Except.ok.injEq, Option.some.injEq, Option.toList]
          constructor
          · rintro rfl
            refine .cons ⟨s, t, n, p, hs, ht, hl, hp, by simp [BusOf, busName, lowered], by simp [BusOf, busName, lowered], by simp [BusOf, busName, lowered], ?_, ?_⟩ .nil
            · intro h; exact if_pos h
            · intro h; exact if_neg h
          · intro h
            cases h with
            | cons h _ =>
              obtain ⟨s', t', n', p', h1, h2, h3, h4, h5, h6, h7, h8, h9⟩ := h
              simp only at h1 h2 h3 h4 h8 h9
              rw [hs] at h1; rw [ht] at h2; rw [hl] at h3; rw [hp] at h4
              cases h1; cases h2; cases h3; cases h4
              obtain ⟨a, b, c, d⟩ := r
              simp only [BusOf] at h5 h6 h7
              subst h5 h6 h7
              have hd : (if w.isOpen = some true then ['0'] else ['1']) = d := by
                by_cases ho : w.isOpen = some true
                · rw [if_pos ho]; exact (h8 ho).symm
                · rw [if_neg ho]; exact (h9 ho).symm
              rw [hd]
              simp [busName, lowered]

theorem switchRows_ok (l : EphSwitch) (rs : List SwitchRow) : switchRows l = .ok rs ↔ List.Forall₂ PoleSays (polesOf l) rs := by
  unfold switchRows polesOf
  by_cases hi : l.isSwitch = some true
  · rw [if_pos hi]
    cases hs : l.source with
    | none =>
      have hc : connects l = false := by simp [connects, hs]
      rw [hc]; simp [eq_comm]
    | some s =>
      cases ht : l.sink with
      | none =>
        have hc : connects l = false := by simp [connects, ht]
        rw [hc]; simp [eq_comm]
      | some t =>
        have hc : connects l = true := by simp [connects, hs, ht, hi]
        rw [hc]
        simp only [if_true]
        have key := mapM_flatten (f := fun w => (switchWire s t l.name w).map Option.toList) (g := fun w => (if conducts w then [(l, w)] else [] : List _))
          (R := PoleSays) (fun w r => by
            cases hw : switchWire s t l.name w with
            | error e =>
              refine ⟨(fun h => by cases h), fun h => ?_⟩
              by_cases hcw : conducts w
              · simp only [hcw, if_true] at h
                cases h with
                | cons h1 h2 =>
                  rename_i b l2
                  have h3 : List.Forall₂ PoleSays (if conducts w then [(l, w)] else [] : List _) (some b).toList := by
                    simp only [hcw, if_true]; exact .cons h1 .nil
                  rw [(switchWire_ok hs ht _).mpr h3] at hw; cases hw
              · simp only [hcw] at h
                have h3 : List.Forall₂ PoleSays (if conducts w then [(l, w)] else [] : List _) (none : Option SwitchRow).toList := by
                  simp only [hcw]; exact .nil
                rw [(switchWire_ok hs ht _).mpr h3] at hw; cases hw
            | ok o =>
              simp only [Except.map, Except.ok.injEq]
              have h0 := (switchWire_ok hs ht o).mp hw
              constructor
              · rintro rfl; exact h0
              · intro h
                by_cases hcw : conducts w
                · simp only [hcw, if_true] at h h0
                  cases h with
                  | cons h1 h2 =>
                    cases h2
                    rename_i b
                    have h3 : List.Forall₂ PoleSays (if conducts w then [(l, w)] else [] : List _) (some b).toList := by
                      simp only [hcw, if_true]; exact .cons h1 .nil
                    have h4 := (switchWire_ok hs ht (some b)).mpr h3
                    rw [hw] at h4; cases h4; rfl
                · simp only [hcw] at h h0
                  cases h
                  cases o with
                  | none => rfl
                  | some _ => cases h0) l.wires rs
        have e1 : (l.wires.mapM (switchWire s t l.name)).map (·.filterMap id) =
            (l.wires.mapM (fun w => (switchWire s t l.name w).map Option.toList)).map List.flatten := by
          generalize l.wires = ws
          have : ∀ ws : List EphWire, (ws.mapM (fun w => (switchWire s t l.name w).map Option.toList)) =
              (ws.mapM (switchWire s t l.name)).map (·.map Option.toList) := by
            intro ws
            induction ws with
            | nil => rfl
            | cons w ws ih =>
              rw [List.mapM_cons, List.mapM_cons, ih]
              cases switchWire s t l.name w with
              | error e => rfl
              | ok o =>
                cases ws.mapM (switchWire s t l.name) with
                | error e => rfl
                | ok os => rfl
          rw [this]
          cases ws.mapM (switchWire s t l.name) with
          | error e => rfl
          | ok os =>
            simp only [Except.map, Except.ok.injEq]
            induction os with
            | nil => rfl
            | cons o os ih =>
              cases o with
              | none => simpa using ih
              | some r =>
                have : List.filterMap id (some r :: os) = r :: List.filterMap id os := rfl
                rw [this, ih]; rfl
        have e2 : l.wires.flatMap (fun w => (if conducts w then [(l, w)] else [] : List _)) = (l.wires.filter conducts).map fun w => (l, w) := by
          induction l.wires with
          | nil => rfl
          | cons w ws ih =>
            rw [List.flatMap_cons, ih, List.filter_cons]
            cases conducts w <;> rfl
        rw [e1, key, e2]
  · rw [if_neg hi]
    have hc : connects l = false := by simp [connects, hi]
    rw [hc]; simp [eq_comm]

theorem letterPhases_eq (phases : List (Option Text)) : letterPhases phases = lettersOf phases := by
  unfold letterPhases lettersOf
  refine List.filter_congr fun p _ => ?_
  simp [letters]

theorem letterPhases_letters {phases : List (Option Text)} {p : Text} (h : p ∈ lettersOf phases) : p ∈ letters := by
  have := (List.mem_filter.mp h).2
  exact of_decide_eq_true this

theorem lowered_letter {p : Text} (h : p ∈ letters) : lowered p = p := by
  fin_cases h <;> rfl

theorem busAngles_eq (l : List Text) : busAngles l = (letters.filter (· ∈ l)).map angleOf := by
  unfold busAngles letters
  by_cases ha : ['a'] ∈ l <;> by_cases hb : ['b'] ∈ l <;> by_cases hc : ['c'] ∈ l <;> simp [ha, hb, hc, List.filter_cons, angleOf]

theorem kept_length {l : List Text} (h : ∀ p ∈ l, p ∈ letters) : (letters.filter (· ∈ l)).length ≤ l.length ∧
    ((letters.filter (· ∈ l)).length = l.length ↔ l.Nodup) := by
  have hn : (letters.filter (· ∈ l)).Nodup := List.Nodup.filter _ (by decide)
  have hs : l.dedup.Perm (letters.filter (· ∈ l)) := by
    refine (List.perm_ext_iff_of_nodup (List.nodup_dedup l) hn).mpr fun p => ?_
    rw [List.mem_dedup, List.mem_filter]
    exact ⟨fun hp => ⟨h p hp, decide_eq_true hp⟩, fun hp => of_decide_eq_true hp.2⟩
  rw [← hs.length_eq]
  refine ⟨(List.dedup_sublist l).length_le, fun e => ?_, fun e => by rw [e.dedup]⟩
  have := (List.dedup_sublist l).eq_of_length e
  rw [← this]; exact List.nodup_dedup l

theorem kept_sublist (l : List Text) : l = letters.filter (· ∈ l) ↔ l.Sublist letters := by
  constructor
  · intro h; rw [h]; exact List.filter_sublist
  · intro h
    have key : ∀ l ∈ letters.sublists', l = letters.filter (· ∈ l) := by decide +kernel
    exact key l (List.mem_sublists'.mpr h)

theorem angles_inj {a b : List Text} (ha : ∀ p ∈ a, p ∈ letters) (hb : ∀ p ∈ b, p ∈ letters) : a.map angleOf = b.map angleOf ↔ a = b := by
  constructor
  · intro h
    induction a generalizing b with
    | nil => cases b with
      | nil => rfl
      | cons _ _ => cases h
    | cons x a ih =>
      cases b with
      | nil => cases h
      | cons y b =>
        rw [List.map_cons, List.map_cons, List.cons.injEq] at h
        have key : ∀ x ∈ letters, ∀ y ∈ letters, angleOf x = angleOf y → x = y := by decide
        rw [key x (ha x List.mem_cons_self) y (hb y List.mem_cons_self) h.1, ih (fun p hp => ha p (List.mem_cons_of_mem _ hp)) (fun p hp => hb p (List.mem_cons_of_mem _ hp)) h.2]
  · rintro rfl; rfl

section numbers
variable {K : Type} [Field K]

theorem places_length (nodes : List (EphNode K)) : (nodes.flatMap fun n => busAngles (letterPhases n.phases)).length ≤ (places nodes).length ∧
    ((nodes.flatMap fun n => busAngles (letterPhases n.phases)).length = (places nodes).length ↔ ∀ n ∈ nodes, (lettersOf n.phases).Nodup) := by
  induction nodes with
  | nil => exact ⟨le_refl _, (fun _ n hn => by cases hn), fun _ => rfl⟩
  | cons n nodes ih =>
    have h1 := kept_length (l := lettersOf n.phases) (fun p hp => letterPhases_letters hp)
    have e : (busAngles (letterPhases n.phases)).length = (letters.filter (· ∈ lettersOf n.phases)).length := by
      rw [letterPhases_eq, busAngles_eq, List.length_map]
    unfold places at ih ⊢
    rw [List.flatMap_cons, List.flatMap_cons, List.length_append, List.length_append, List.length_map, e]
    refine ⟨by omega, ?_⟩
    rw [List.forall_mem_cons, ← h1.2, ← ih.2]
    omega

theorem nodeCells_ok (root : K) (n : EphNode K) (cs : List (BusCells K)) : nodeCells root n = .ok cs ↔
    List.Forall₂ (fun q c => BusSays root q ⟨c, 0⟩) ((lettersOf n.phases).map fun p => (n, p)) cs := by
  unfold nodeCells
  rw [letterPhases_eq, List.forall₂_map_left_iff]
  have hl : ∀ p ∈ lettersOf n.phases, p ∈ letters := fun p hp => letterPhases_letters hp
  revert hl
  generalize lettersOf n.phases = l
  intro hl
  cases hm : n.name with
  | none =>
    cases l with
    | nil => simp [pure, Except.pure, eq_comm]
    | cons p l =>
      rw [List.mapM_cons]
      have : busCells root n p = .error .typeError := by unfold busCells; rw [hm]
      rw [this]
      refine ⟨(fun h => by cases h), fun h => ?_⟩
      cases h with
      | cons h _ => obtain ⟨m, hm', _⟩ := h; simp only [hm] at hm'; cases hm'
  | some m =>
    have hc : ∀ p ∈ l, ∀ c, (busCells root n p = .ok c ↔ BusSays root (n, p) ⟨c, 0⟩) := by
      intro p hp c
      unfold busCells
      rw [hm]
      simp only [Except.ok.injEq]
      constructor
      · rintro rfl
        refine ⟨m, hm, by simp [BusOf, busName, lowered], rfl, ?_, ?_⟩
        · intro h; exact if_pos h
        · intro h; exact if_neg h
      · rintro ⟨m', h1, h2, h3, h4, h5⟩
        simp only at h1 h2 h3 h4 h5
        rw [hm] at h1; cases h1
        obtain ⟨a, b, t⟩ := c
        simp only [BusOf] at h2 h3
        subst h2 h3
        have : (if lowered m = "sourcebus".toList then "SLACK".toList else "PQ".toList) = t := by
          by_cases h : lowered m = "sourcebus".toList
          · rw [if_pos h]; exact (h4 h).symm
          · rw [if_neg h]; exact (h5 h).symm
        rw [this]
        simp [busName, lowered]
    have hok : ∀ p ∈ l, ∃ c, busCells root n p = .ok c := fun p _ => by unfold busCells; rw [hm]; exact ⟨_, rfl⟩
    constructor
    · intro h
      have := Net.mapM_forall₂ h
      clear h
      induction this with
      | nil => exact .nil
      | cons h1 h2 ih =>
        exact .cons ((hc _ List.mem_cons_self _).mp h1) (ih (fun p hp => hl p (List.mem_cons_of_mem _ hp)) (fun p hp => hc p (List.mem_cons_of_mem _ hp))
          (fun p hp => hok p (List.mem_cons_of_mem _ hp)))
    · intro h
      induction h with
      | nil => rfl
      | cons h1 h2 ih =>
        rw [List.mapM_cons, (hc _ List.mem_cons_self _).mpr h1, ih (fun p hp => hl p (List.mem_cons_of_mem _ hp)) (fun p hp => hc p (List.mem_cons_of_mem _ hp))
          (fun p hp => hok p (List.mem_cons_of_mem _ hp))]
        rfl

theorem cells_ok (root : K) (nodes : List (EphNode K)) (cs : List (BusCells K)) : (nodes.mapM (nodeCells root)).map List.flatten = .ok cs ↔
    List.Forall₂ (fun q c => BusSays root q ⟨c, 0⟩) (places nodes) cs := mapM_flatten (nodeCells_ok root) nodes cs

theorem cells_exist (root : K) (nodes : List (EphNode K)) : (∃ cs, nodes.mapM (nodeCells root) = .ok cs) ↔ ∀ n ∈ nodes, lettersOf n.phases ≠ [] → n.name ≠ none := by
  constructor
  · rintro ⟨cs, h⟩ n hn hl hm
    obtain ⟨c, -, hc⟩ := Glm.found_right (Net.mapM_forall₂ h) hn
    have := (nodeCells_ok root n c).mp hc
    cases he : lettersOf n.phases with
    | nil => exact hl he
    | cons p l =>
      rw [he] at this
      cases this with
      | cons h _ => obtain ⟨m, hm', _⟩ := h; simp only [hm] at hm'; cases hm'
  · intro h
    have : ∀ n ∈ nodes, ∃ c, nodeCells root n = .ok c := by
      intro n hn
      cases he : lettersOf n.phases with
      | nil => exact ⟨[], (nodeCells_ok root n []).mpr (by rw [he]; exact .nil)⟩
      | cons p l =>
        cases hm : n.name with
        | none => exact absurd hm (h n hn (by rw [he]; exact List.cons_ne_nil _ _))
        | some m =>
          unfold nodeCells
          refine ⟨(letterPhases n.phases).map fun p => ⟨busName m p, n.voltage.map (· / root), if lowered m = "sourcebus".toList then "SLACK".toList else "PQ".toList⟩,
            Carson.mapM_ok fun p _ => ?_⟩
          unfold busCells; rw [hm]
    clear h
    induction nodes with
    | nil => exact ⟨[], rfl⟩
    | cons n nodes ih =>
      obtain ⟨c, hc⟩ := this n List.mem_cons_self
      obtain ⟨cs, hcs⟩ := ih fun n hn => this n (List.mem_cons_of_mem _ hn)
      exact ⟨c :: cs, by rw [List.mapM_cons, hc, hcs]; rfl⟩

theorem cells_length {root : K} {nodes : List (EphNode K)} {cs : List (List (BusCells K))} (h : nodes.mapM (nodeCells root) = .ok cs) :
    cs.flatten.length = (places nodes).length :=
  ((cells_ok root nodes cs.flatten).mp (by rw [h]; rfl)).length_eq.symm

theorem busSheet_ok {root : K} {nodes : List (EphNode K)} {rows : List (BusRow K)} (h : busSheet root nodes = .ok rows) :
    ∃ cs, nodes.mapM (nodeCells root) = .ok cs ∧ cs.flatten.length = (nodes.flatMap fun n => busAngles (letterPhases n.phases)).length ∧
      rows = List.zipWith BusRow.mk cs.flatten (nodes.flatMap fun n => busAngles (letterPhases n.phases)) := by
  unfold busSheet at h
  cases hc : nodes.mapM (nodeCells root) with
  | error e => rw [hc] at h; cases h
  | ok cs =>
    rw [hc] at h
    simp only at h
    by_cases hl : cs.flatten.length = (nodes.flatMap fun n => busAngles (letterPhases n.phases)).length
    · rw [if_pos hl] at h; cases h; exact ⟨cs, rfl, hl, rfl⟩
    · rw [if_neg hl] at h; cases h

omit [Field K] in
theorem zip_cells {cs : List (BusCells K)} {as : List Int} (h : cs.length = as.length) : (List.zipWith BusRow.mk cs as).map (·.cells) = cs ∧
    (List.zipWith BusRow.mk cs as).map (·.angle) = as := by
  induction cs generalizing as with
  | nil => cases as with
    | nil => exact ⟨rfl, rfl⟩
    | cons _ _ => cases h
  | cons c cs ih =>
    cases as with
    | nil => cases h
    | cons a as =>
      obtain ⟨h1, h2⟩ := ih (Nat.succ.inj h)
      exact ⟨by rw [List.zipWith_cons_cons, List.map_cons, h1], by rw [List.zipWith_cons_cons, List.map_cons, h2]⟩

omit [Field K] in
theorem angles_flat {nodes : List (EphNode K)} (hn : ∀ n ∈ nodes, (lettersOf n.phases).Nodup) :
    (places nodes).map (fun q => angleOf q.2) = (nodes.flatMap fun n => busAngles (letterPhases n.phases)) ↔ ∀ n ∈ nodes, (lettersOf n.phases).Sublist letters := by
  induction nodes with
  | nil => exact ⟨(fun _ n hn => by cases hn), fun _ => rfl⟩
  | cons n nodes ih =>
    unfold places at ih ⊢
    rw [List.flatMap_cons, List.flatMap_cons, List.map_append, List.map_map, List.forall_mem_cons, ← ih fun n h => hn n (List.mem_cons_of_mem _ h)]
    have hl : ∀ p ∈ lettersOf n.phases, p ∈ letters := fun p hp => letterPhases_letters hp
    have e1 : List.map ((fun q : EphNode K × Text => angleOf q.2) ∘ fun p => (n, p)) (lettersOf n.phases) = (lettersOf n.phases).map angleOf := rfl
    rw [e1, letterPhases_eq, busAngles_eq, ← kept_sublist, ← angles_inj hl (fun p hp => List.mem_of_mem_filter hp)]
    constructor
    · intro h
      refine List.append_inj h ?_
      rw [List.length_map, List.length_map]
      exact ((kept_length hl).2.mpr (hn n List.mem_cons_self)).symm
    · rintro ⟨h1, h2⟩; rw [h1, h2]

omit [Field K] in
theorem sourcePhase_same {e : Option Text} {r r' : SourceRow K} {p : Option Text} (h : sourcePhase e r p = .ok r') :
    (r'.name = r.name ∧ r'.voltage = r.voltage ∧ r'.angle = r.angle ∧ r'.short1 = r.short1 ∧ r'.short3 = r.short3) ∧
      (r'.rPos = r.rPos ∧ r'.xPos = r.xPos ∧ r'.rZero = r.rZero ∧ r'.xZero = r.xZero) := by
  unfold sourcePhase at h
  cases p with
  | none => cases h
  | some p =>
    simp only at h
    split at h
    · cases e with
      | none => cases h
      | some e =>
        simp only [Except.ok.injEq] at h
        subst h
        split
        · exact ⟨⟨rfl, rfl, rfl, rfl, rfl⟩, rfl, rfl, rfl, rfl⟩
        · split <;> exact ⟨⟨rfl, rfl, rfl, rfl, rfl⟩, rfl, rfl, rfl, rfl⟩
    · cases h; exact ⟨⟨rfl, rfl, rfl, rfl, rfl⟩, rfl, rfl, rfl, rfl⟩

omit [Field K] in
theorem lettersOf_cons (p : Text) (ps : List (Option Text)) : lettersOf (some p :: ps) = if lowered p ∈ letters then lowered p :: lettersOf ps else lettersOf ps := by
  unfold lettersOf
  rw [List.filterMap_cons]
  simp only [Option.map_some]
  rw [List.filter_cons]
  change (if decide (lowered p ∈ letters) = true then _ else _) = _
  by_cases h : lowered p ∈ letters
  · rw [if_pos h, if_pos (decide_eq_true h)]; rfl
  · rw [if_neg h, if_neg (fun x => h (of_decide_eq_true x))]

omit [Field K] in
theorem lowered_lowered {p : Text} (h : lowered p ∈ letters) (e : Text) : busName e p = e ++ "_".toList ++ (lowered p).map Char.toLower := by
  have := lowered_letter h
  unfold lowered at this h ⊢
  unfold busName lowered
  rw [this]; simp

omit [Field K] in
theorem sourcePhase_letter {e : Text} {r r' : SourceRow K} {p : Text} (hp : lowered p ∈ letters) (h : sourcePhase (some e) r (some p) = .ok r') :
    busOfLetter r' (lowered p) = some (busName e p) ∧ ∀ q ∈ letters, q ≠ lowered p → busOfLetter r' q = busOfLetter r q := by
  unfold sourcePhase at h
  have hc : lowered p = ['a'] ∨ lowered p = ['b'] ∨ lowered p = ['c'] := by simpa [letters] using hp
  simp only at h
  rw [if_pos hc] at h
  cases h
  rcases hc with hc | hc | hc <;> rw [hc] <;> refine ⟨rfl, fun q hq hne => ?_⟩ <;> fin_cases hq <;> first | exact absurd rfl hne | rfl

omit [Field K] in
theorem sourcePhase_other {e : Option Text} {r : SourceRow K} {p : Text} (hp : lowered p ∉ letters) : sourcePhase e r (some p) = .ok r := by
  unfold sourcePhase
  have hc : ¬(lowered p = ['a'] ∨ lowered p = ['b'] ∨ lowered p = ['c']) := by simpa [letters] using hp
  simp only
  rw [if_neg hc]

omit [Field K] in
theorem source_fold {e : Option Text} : ∀ {ps : List (Option Text)} {r r' : SourceRow K}, ps.foldlM (sourcePhase e) r = .ok r' →
    (r'.name = r.name ∧ r'.voltage = r.voltage ∧ r'.angle = r.angle ∧ r'.short1 = r.short1 ∧ r'.short3 = r.short3) ∧
      (r'.rPos = r.rPos ∧ r'.xPos = r.xPos ∧ r'.rZero = r.rZero ∧ r'.xZero = r.xZero) ∧
      ∀ p ∈ letters, (p ∈ lettersOf ps → ∃ x b, e = some x ∧ busOfLetter r' p = some b ∧ BusOf x p b) ∧ (p ∉ lettersOf ps → busOfLetter r' p = busOfLetter r p)
  | [], r, r', h => by
    simp only [List.foldlM_nil, pure, Except.pure, Except.ok.injEq] at h
    subst h
    exact ⟨⟨rfl, rfl, rfl, rfl, rfl⟩, ⟨rfl, rfl, rfl, rfl⟩, fun p _ => ⟨fun hp => (by cases hp), fun _ => rfl⟩⟩
  | o :: ps, r, r', h => by
    rw [List.foldlM_cons] at h
    cases ho : sourcePhase e r o with
    | error x => rw [ho] at h; cases h
    | ok s =>
      rw [ho] at h
      obtain ⟨⟨a1, a2, a3, a4, a5⟩, b1, b2, b3, b4⟩ := sourcePhase_same ho
      obtain ⟨⟨c1, c2, c3, c4, c5⟩, ⟨d1, d2, d3, d4⟩, hl⟩ := source_fold (r := s) h
      refine ⟨⟨c1.trans a1, c2.trans a2, c3.trans a3, c4.trans a4, c5.trans a5⟩, ⟨d1.trans b1, d2.trans b2, d3.trans b3, d4.trans b4⟩, fun p hp => ?_⟩
      cases o with
      | none => cases ho
      | some t =>
        rw [lettersOf_cons]
        by_cases ht : lowered t ∈ letters
        · rw [if_pos ht]
          cases e with
          | none =>
            unfold sourcePhase at ho
            have hc : lowered t = ['a'] ∨ lowered t = ['b'] ∨ lowered t = ['c'] := by simpa [letters] using ht
            simp only at ho
            rw [if_pos hc] at ho; cases ho
          | some x =>
            obtain ⟨e1, e2⟩ := sourcePhase_letter ht ho
            by_cases hin : p ∈ lettersOf ps
            · exact ⟨fun _ => (hl p hp).1 hin, fun hn => absurd (List.mem_cons_of_mem _ hin) hn⟩
            · have e3 := (hl p hp).2 hin
              by_cases heq : p = lowered t
              · subst heq
                exact ⟨fun _ => ⟨x, busName x t, rfl, e3.trans e1, lowered_lowered ht x⟩, fun hn => absurd List.mem_cons_self hn⟩
              · exact ⟨fun hm => (List.mem_cons.mp hm).elim (fun h => absurd h heq) fun h => absurd h hin, fun _ => e3.trans (e2 p hp heq)⟩
        · rw [if_neg ht]
          have := sourcePhase_other (e := e) (r := r) ht
          rw [this] at ho; cases ho
          exact hl p hp

omit [Field K] in
theorem source_fold_exists {e : Option Text} : ∀ {ps : List (Option Text)} (r : SourceRow K), none ∉ ps → (lettersOf ps ≠ [] → e ≠ none) →
    ∃ r', ps.foldlM (sourcePhase e) r = .ok r'
  | [], r, _, _ => ⟨r, rfl⟩
  | none :: ps, r, h, _ => absurd List.mem_cons_self h
  | some p :: ps, r, h, he => by
    rw [List.foldlM_cons]
    rw [lettersOf_cons] at he
    have hn : none ∉ ps := fun x => h (List.mem_cons_of_mem _ x)
    by_cases hp : lowered p ∈ letters
    · rw [if_pos hp] at he
      cases e with
      | none => exact absurd rfl (he (List.cons_ne_nil _ _))
      | some x =>
        have hc : lowered p = ['a'] ∨ lowered p = ['b'] ∨ lowered p = ['c'] := by simpa [letters] using hp
        have : ∃ s, sourcePhase (some x) r (some p) = .ok s := by unfold sourcePhase; simp only; rw [if_pos hc]; exact ⟨_, rfl⟩
        obtain ⟨s, hs⟩ := this
        rw [hs]
        exact source_fold_exists s hn fun _ => Option.some_ne_none _
    · rw [if_neg hp] at he
      rw [sourcePhase_other hp]
      exact source_fold_exists r hn he

end numbers
end Ditto.Eph
