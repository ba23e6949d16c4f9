import Verif.Lemmas.EphTrafos
import Verif.Props.EphLines

/-! C110: the sheet Multiphase Transformer of an ePHASOR file. -/
namespace Ditto.Eph
open Ditto Ditto.Eph.Spec
open Ditto.Glm (Text)

variable {K : Type} [Field K] [DecidableEq K] {round2 : K → K} {root : K}

theorem trafo_rows {ts : List (EphTrafo K)} {rows : List (TrafoRow K)} {dict : TrafoDict K} (h : trafoSheet round2 root [] ts = .ok (rows, dict)) (hk : (singleKeys ts).Nodup) :
    fillAll round2 root none ts = .ok rows := by
  obtain ⟨s, hs, -⟩ := sheet_ok.mp h
  have := sheet_fresh round2 root hk (first_all hs)
  rw [h] at this
  exact this.symm

/-- C110: the first file of a writer has a row for each transformer, in order, with its name, the number of phases, and for two windings the buses of the phases,
kV, kVA, the resistance as a fraction and the connection. Missing: single phase transformers for which node and name, joined, are the same text; transformers with
one winding and those with three; the reactance stays in percent; the taps are those of the second winding. -/
theorem C110_trafos_partial {ts : List (EphTrafo K)} {rows : List (TrafoRow K)} {dict : TrafoDict K} (h : trafoSheet round2 root [] ts = .ok (rows, dict))
    (hk : (singleKeys ts).Nodup) : List.Forall₂ (fun t r => ∀ w1 w2 ws, t.windings = w1 :: w2 :: ws → TrafoSays t w1 w2 r) ts rows :=
  (fillAll_ok (trafo_rows h hk)).imp fun _ _ ⟨_, hr⟩ _ _ _ hw => (fill_ok hw hr).1

/-- C110: the sheet can be written just if each transformer has a reactance and two windings with power, voltage, resistance, at most three phases and their node. -/
theorem C110_written_partial (ts : List (EphTrafo K)) (hk : (singleKeys ts).Nodup) (hw : ∀ t ∈ ts, 2 ≤ t.windings.length) :
    (∃ out, trafoSheet round2 root [] ts = .ok out) ↔ ∀ t ∈ ts, TrafoOk t := by
  have two : ∀ t ∈ ts, ∃ w1 w2 ws, t.windings = w1 :: w2 :: ws := by
    intro t ht
    have := hw t ht
    match hws : t.windings with
    | [] => rw [hws] at this; simp at this
    | [w] => rw [hws] at this; simp at this
    | w1 :: w2 :: ws => exact ⟨w1, w2, ws, rfl⟩
  constructor
  · rintro ⟨⟨rows, dict⟩, h⟩ t ht
    obtain ⟨w1, w2, ws, hws⟩ := two t ht
    obtain ⟨r, -, b, hr⟩ := Glm.found_right (fillAll_ok (trafo_rows h hk)) ht
    obtain ⟨-, hx, h1, h2, -⟩ := fill_ok hws hr
    refine ⟨hx, fun hs hn => ?_, w1, w2, ws, hws, h1, h2⟩
    obtain ⟨s, hs', -⟩ := sheet_ok.mp h
    apply (first_all hs' t ht).2 hs
    unfold keyOf
    rw [if_pos hs, hn]
    cases t.source <;> rfl
  · intro h
    have hall : ∀ t ∈ ts, t.windings ≠ [] ∧ (isSingle t = true → keyOf t ≠ none) := by
      intro t ht
      obtain ⟨-, hn, w1, w2, ws, hws, h1, -⟩ := h t ht
      refine ⟨by rw [hws]; simp, fun hs hkn => ?_⟩
      obtain ⟨n, hn⟩ := Option.ne_none_iff_exists'.mp (hn hs)
      have hp : w1.phases ≠ [] := by
        rw [isSingle_cons hws] at hs
        intro he
        rw [he] at hs; cases hs
      obtain ⟨pw, hpw⟩ := List.exists_mem_of_ne_nil _ hp
      obtain ⟨e, he⟩ := Option.ne_none_iff_exists'.mp (h1.2.2.2.2 pw hpw).1
      unfold keyOf at hkn
      rw [if_pos hs, hn, he] at hkn
      cases hkn
    obtain ⟨rows, hr⟩ := fillAll_exists round2 root none h
    have := sheet_fresh round2 root hk hall
    rw [hr] at this
    cases hs : trafoSheet round2 root [] ts with
    | error e => rw [hs] at this; cases this
    | ok out => exact ⟨out, rfl⟩

/-- C110: the number of rows: one for each transformer with more phases, and one for each new text of node and name of the others. -/
theorem C110_count_partial {dict : TrafoDict K} {ts : List (EphTrafo K)} {rows : List (TrafoRow K)} {dict' : TrafoDict K}
    (h : trafoSheet round2 root dict ts = .ok (rows, dict')) :
    rows.length = (ts.filter fun t => !isSingle t).length + (((singleKeys ts).filter (· ∉ dict.map (·.1))).dedup).length := by
  obtain ⟨s, hs, -, s', hs', rfl⟩ := sheet_ok.mp h
  have a := (first_fold hs).2.1
  rw [newKeys_length] at a
  have b := (second_fold_length hs').1
  rw [List.length_replicate] at b
  rw [b, a]
  simp

omit [Field K] [DecidableEq K] in
theorem filter_parts (ts : List (EphTrafo K)) : ts.length = (ts.filter fun t => !isSingle t).length + (ts.filter fun t => isSingle t).length := by
  induction ts with
  | nil => rfl
  | cons t ts ih =>
    rw [List.filter_cons, List.filter_cons, List.length_cons, ih]
    cases isSingle t <;> simp <;> omega

/-- C110: if two single phase transformers have the same text of node and name, then at least one of the transformers is lost. -/
theorem C110_merged_violated {ts : List (EphTrafo K)} {rows : List (TrafoRow K)} {dict : TrafoDict K} (h : trafoSheet round2 root [] ts = .ok (rows, dict))
    (hk : ¬ (singleKeys ts).Nodup) : rows.length < ts.length := by
  have h1 := C110_count_partial h
  obtain ⟨s, hs, -⟩ := sheet_ok.mp h
  have h2 := (first_fold hs).2.2
  have h3 : ((singleKeys ts).dedup).length < (singleKeys ts).length := by
    refine lt_of_le_of_ne (List.dedup_sublist _).length_le fun he => hk ?_
    have := (List.dedup_sublist (singleKeys ts)).eq_of_length he
    rw [← this]
    exact List.nodup_dedup _
  have h4 : (singleKeys ts).filter (fun k => decide (k ∉ ([] : TrafoDict K).map (·.1))) = singleKeys ts := by simp
  rw [h4] at h1
  have := filter_parts ts
  omega

/-- C110: the transformer after two such transformers is written over another one: if there is one of more phases between the two, then it is lost, and the last
row is blank. -/
theorem C110_overwritten_violated {t1 t2 t3 t4 : EphTrafo K} {rows : List (TrafoRow K)} {dict : TrafoDict K} {key n : Text}
    (h : trafoSheet round2 root [] [t1, t2, t3, t4] = .ok (rows, dict)) (h1 : keyOf t1 = some key) (h2 : isSingle t2 = false) (h3 : keyOf t3 = some key)
    (h4 : keyOf t4 ≠ some key) (hn : t4.name = some n) : ∃ r1 r2, rows = [r1, r2, {}] ∧ r2.id = some n := by
  obtain ⟨s, hs, -, s', hs', rfl⟩ := sheet_ok.mp h
  have hall := first_all hs
  have a1 := hall t1 (.head _)
  have a2 := hall t2 (.tail _ (.head _))
  have a4 := hall t4 (.tail _ (.tail _ (.tail _ (.head _))))
  have k2 : keyOf t2 = none := by unfold keyOf; rw [h2]; rfl
  obtain ⟨w, ws, hw⟩ := List.exists_cons_of_ne_nil a1.1
  have e1 : entriesFrom 0 [t1] = [(key, ⟨false, 0, w.voltage, w.power⟩)] := by rw [entriesFrom, entriesFrom, h1, hw]; rfl
  have e2 : entriesFrom 1 [t2] = [] := by rw [entriesFrom, entriesFrom, k2]; rfl
  have f1 := firstStep_fresh { count := 0, next := 0, dict := [] } t1 rfl (fun k _ hk => by cases hk) a1.1 a1.2
  have f2 := firstStep_fresh { count := 1, next := 1, dict := [(key, ⟨false, 0, w.voltage, w.power⟩)] } t2 rfl (fun k hk => by rw [k2] at hk; cases hk) a2.1 a2.2
  simp only [List.nil_append, Nat.zero_add, e1, e2, List.append_nil] at f1 f2
  rw [List.foldlM_cons, f1] at hs
  change List.foldlM firstStep _ [t2, t3, t4] = _ at hs
  rw [List.foldlM_cons, f2] at hs
  change List.foldlM firstStep _ [t3, t4] = _ at hs
  rw [List.foldlM_cons] at hs
  cases g3 : firstStep { count := 1 + 1, next := 1 + 1, dict := [(key, ⟨false, 0, w.voltage, w.power⟩)] } t3 with
  | error e => rw [g3] at hs; cases hs
  | ok s3 =>
    rw [g3] at hs
    obtain ⟨e3, he3, rfl⟩ := firstStep_found (e := ⟨false, 0, w.voltage, w.power⟩) h3 (by simp) g3
    change List.foldlM firstStep _ [t4] = _ at hs
    simp only [List.map_cons, List.map_nil, if_true] at hs
    have key4 : s.count = 3 ∧ (∃ D, s.dict = (key, e3) :: D) ∧ ∀ k : Nat, k = 1 → ∃ kv1 kva, trafoPlace s.dict k t4 = .ok (1, kv1, kva) := by
      rw [List.foldlM_cons] at hs
      cases g4 : firstStep { count := 1 + 1, next := 0 + 1, dict := [(key, e3)] } t4 with
      | error e => rw [g4] at hs; cases hs
      | ok s4 =>
        rw [g4] at hs
        cases hs
        cases hs4 : isSingle t4 with
        | false =>
          unfold firstStep at g4
          obtain ⟨w4, ws4, hw4⟩ := List.exists_cons_of_ne_nil a4.1
          rw [hw4] at g4
          simp only at g4
          rw [isSingle_cons hw4] at hs4
          rw [if_neg (of_decide_eq_false hs4)] at g4
          cases g4
          refine ⟨rfl, ⟨[], rfl⟩, ?_⟩
          rintro k rfl
          exact ⟨_, _, place_other (by rw [isSingle_cons hw4]; exact hs4) a4.1⟩
        | true =>
          obtain ⟨key4, hk4⟩ := Option.ne_none_iff_exists'.mp (a4.2 hs4)
          have hne : key ≠ key4 := fun he => h4 (by rw [hk4, he])
          unfold firstStep at g4
          obtain ⟨w4, ws4, hw4⟩ := List.exists_cons_of_ne_nil a4.1
          rw [hw4] at g4
          simp only at g4
          have hs4' := hs4
          rw [isSingle_cons hw4] at hs4'
          rw [if_pos (of_decide_eq_true hs4')] at g4
          have hkk : trafoKey t4 = .ok key4 := by
            unfold keyOf at hk4
            rw [if_pos hs4] at hk4
            unfold trafoKey
            cases he : t4.source <;> cases hn : t4.name <;> rw [he, hn] at hk4 <;> cases hk4
            rfl
          rw [hkk] at g4
          simp only [firstSingle] at g4
          rw [List.find?_cons_of_neg (by simpa using hne), List.find?_nil] at g4
          cases g4
          refine ⟨rfl, ⟨_, rfl⟩, ?_⟩
          intro k _
          refine ⟨w4.voltage, w4.power, ?_⟩
          rw [place_single (e := ⟨false, 1, w4.voltage, w4.power⟩) hk4]
          simp [hne]
    obtain ⟨hc, ⟨D, hD⟩, hp4⟩ := key4
    have hfind : s.dict.find? (·.1 = key) = some (key, e3) := by rw [hD]; simp
    rw [hc] at hs'
    rw [List.foldlM_cons] at hs'
    cases q1 : secondStep round2 root s.dict { rows := List.replicate 3 {}, next := 0, phases := none } t1 with
    | error e => rw [q1] at hs'; cases hs'
    | ok u1 =>
      rw [q1] at hs'
      obtain ⟨r1, b1, c1, -⟩ := second_step (place_single h1 hfind) q1
      change List.foldlM (secondStep round2 root s.dict) u1 [t2, t3, t4] = _ at hs'
      rw [List.foldlM_cons] at hs'
      cases q2 : secondStep round2 root s.dict u1 t2 with
      | error e => rw [q2] at hs'; cases hs'
      | ok u2 =>
        rw [q2] at hs'
        obtain ⟨r2, b2, c2, -⟩ := second_step (place_other h2 a2.1) q2
        change List.foldlM (secondStep round2 root s.dict) u2 [t3, t4] = _ at hs'
        rw [List.foldlM_cons] at hs'
        cases q3 : secondStep round2 root s.dict u2 t3 with
        | error e => rw [q3] at hs'; cases hs'
        | ok u3 =>
          rw [q3] at hs'
          obtain ⟨r3, b3, c3, -⟩ := second_step (place_single h3 hfind) q3
          change List.foldlM (secondStep round2 root s.dict) u3 [t4] = _ at hs'
          rw [List.foldlM_cons] at hs'
          cases q4 : secondStep round2 root s.dict u3 t4 with
          | error e => rw [q4] at hs'; cases hs'
          | ok u4 =>
            rw [q4] at hs'
            cases hs'
            simp only at he3
            rw [he3] at b1 c1 b3 c3
            obtain ⟨kv1, kva, hp⟩ := hp4 u3.next (by rw [c3])
            obtain ⟨r4, b4, -, hid⟩ := second_step hp q4
            rw [c1] at b2
            refine ⟨r3, r4, ?_, hid n hn⟩
            rw [b4, b3, b2, b1]
            rfl

/-- C110: a writer that writes a model with single phase transformers a second time does not write them again; if there are no others, then it fails. -/
theorem C110_again_violated {dict : TrafoDict K} {ts : List (EphTrafo K)} {rows : List (TrafoRow K)} {dict' : TrafoDict K}
    (h : trafoSheet round2 root dict ts = .ok (rows, dict')) :
    (∀ rows' dict'', trafoSheet round2 root dict' ts = .ok (rows', dict'') → rows'.length = (ts.filter fun t => !isSingle t).length) ∧
      ((∀ t ∈ ts, isSingle t = true) → ts ≠ [] → ∀ out, trafoSheet round2 root dict' ts ≠ .ok out) := by
  have first : ∀ rows' dict'', trafoSheet round2 root dict' ts = .ok (rows', dict'') → rows'.length = (ts.filter fun t => !isSingle t).length := by
    intro rows' dict'' h'
    have h1 := C110_count_partial h'
    obtain ⟨s, hs, rfl, -⟩ := sheet_ok.mp h
    have a := (first_fold hs).1
    have : (singleKeys ts).filter (fun k => decide (k ∉ s.dict.map (·.1))) = [] := by
      rw [List.filter_eq_nil_iff]
      intro k hk hn
      have hn := of_decide_eq_true hn
      apply hn
      rw [a, List.mem_append]
      by_cases hd : k ∈ dict.map (·.1)
      · exact .inl hd
      · exact .inr ((newKeys_mem _ _ _).mpr ⟨hk, hd⟩)
    rw [this] at h1
    simpa using h1
  refine ⟨first, fun hall hne out h' => ?_⟩
  obtain ⟨rows', dict''⟩ := out
  have h1 := first rows' dict'' h'
  have : (ts.filter fun t => !isSingle t) = [] := by
    rw [List.filter_eq_nil_iff]
    intro t ht
    rw [hall t ht]; decide
  rw [this] at h1
  obtain ⟨s, hs, -, s', hs', rfl⟩ := sheet_ok.mp h'
  have b := second_fold_length hs'
  apply b.2 hne
  apply List.eq_nil_of_length_eq_zero
  rw [← b.1, h1]; rfl

/-- C110: a third winding is not written: the transformer with its first two windings gives the same rows. -/
theorem C110_third_violated (dict : TrafoDict K) (ts : List (EphTrafo K)) :
    trafoSheet round2 root dict (ts.map fun t => { t with windings := t.windings.take 2 }) = trafoSheet round2 root dict ts := by
  have h1 : ∀ s, (fun (s : FirstState K) t => firstStep s { t with windings := t.windings.take 2 }) s = firstStep s := by
    intro s
    funext t
    unfold firstStep
    match hw : t.windings with
    | [] => simp [hw]
    | [w] => simp [hw]; rfl
    | w1 :: w2 :: ws => simp [hw]; rfl
  have h2 : ∀ (D : TrafoDict K) s, (fun (s : SecondState K) t => secondStep round2 root D s { t with windings := t.windings.take 2 }) s = secondStep round2 root D s := by
    intro D s
    funext t
    unfold secondStep trafoPlace trafoFill trafoWindings phaseCount
    match hw : t.windings with
    | [] => simp [hw]
    | [w] => simp [hw]; rfl
    | w1 :: w2 :: ws => simp [hw]; rfl
  unfold trafoSheet
  simp only [List.foldlM_map]
  rw [show (fun (s : FirstState K) t => firstStep s { t with windings := t.windings.take 2 }) = firstStep from funext h1]
  congr 1
  funext s
  rw [show (fun (s' : SecondState K) t => secondStep round2 root s.dict s' { t with windings := t.windings.take 2 }) = secondStep round2 root s.dict from funext (h2 s.dict)]

/-- C110: the column X (pu) has the reactance in percent, not the fraction, as the columns of the resistances have it. -/
theorem C110_reactance_violated {ts : List (EphTrafo K)} {rows : List (TrafoRow K)} {dict : TrafoDict K} (h : trafoSheet round2 root [] ts = .ok (rows, dict))
    (hk : (singleKeys ts).Nodup) (h100 : (100 : K) ≠ 0) (h99 : (99 : K) ≠ 0) :
    List.Forall₂ (fun t r => 2 ≤ t.windings.length → ∀ x, t.reactances.head? = some x → x ≠ 0 → r.x ≠ some (x / 100)) ts rows := by
  refine (C110_trafos_partial h hk).imp fun t r hs hw x hx h0 he => ?_
  match hws : t.windings with
  | [] => rw [hws] at hw; simp at hw
  | [w] => rw [hws] at hw; simp at hw
  | w1 :: w2 :: ws =>
    obtain ⟨-, -, -, -, -, x', hx', hrx⟩ := hs w1 w2 ws hws
    rw [hx] at hx'; cases hx'
    rw [hrx] at he
    have he : x = x / 100 := Option.some.inj he
    have h1 : x * 100 = x := (eq_div_iff h100).mp he
    apply h99
    have h2 : x * 99 = 0 := by linear_combination h1
    exact (mul_eq_zero.mp h2).resolve_left h0

/-- C110: the tap of a phase of the first winding is not written, if the second winding has that phase and another tap. -/
theorem C110_taps_violated {ts : List (EphTrafo K)} {rows : List (TrafoRow K)} {dict : TrafoDict K} (h : trafoSheet round2 root [] ts = .ok (rows, dict))
    (hk : (singleKeys ts).Nodup) : List.Forall₂ (fun t r => ∀ w1 w2 ws, t.windings = w1 :: w2 :: ws → ∀ i < 3, ∀ pw1 pw2, w1.phases[i]? = some pw1 → w2.phases[i]? = some pw2 →
      tapOf pw1 ≠ tapOf pw2 → r.taps[i]? ≠ some (some (tapOf pw1))) ts rows := by
  refine (C110_trafos_partial h hk).imp fun t r hs w1 w2 ws hws i hi pw1 pw2 h1 h2 hne he => ?_
  obtain ⟨-, -, -, -, ht, -⟩ := hs w1 w2 ws hws
  rw [ht i hi, h2] at he
  have := Option.some.inj he
  simp only [Option.map_some, Option.some_or, Option.some.injEq] at this
  exact hne this.symm

/-- C110: a transformer with one winding has the number of phases of the transformer before it; if it is the first one, then nothing is written. -/
theorem C110_winding_violated (t t' : EphTrafo K) (ts : List (EphTrafo K)) (w : EphWinding K) (ht' : t'.windings = [w]) (hk' : (singleKeys (t' :: ts)).Nodup) :
    (∀ out, trafoSheet round2 root [] (t' :: ts) ≠ .ok out) ∧ ((singleKeys (t :: t' :: ts)).Nodup → 2 ≤ t.windings.length → ∀ rows dict,
      trafoSheet round2 root [] (t :: t' :: ts) = .ok (rows, dict) → ∃ r r' rs, rows = r :: r' :: rs ∧ r'.phases = r.phases) := by
  have hp : ∀ before r, trafoFill round2 root none before t' {} = .ok r → r.phases = before ∧ before ≠ none := by
    intro before r hr
    unfold trafoFill trafoWindings phaseCount at hr
    rw [ht'] at hr
    cases before with
    | none => cases hr
    | some n => cases hr; exact ⟨rfl, by simp⟩
  constructor
  · rintro ⟨rows, dict⟩ h
    have hf := trafo_rows h hk'
    unfold fillAll at hf
    cases h1 : trafoFill round2 root none none t' {} with
    | error e => rw [h1] at hf; cases hf
    | ok r => exact (hp _ _ h1).2 rfl
  · intro hk hw rows dict h
    have hf := trafo_rows h hk
    unfold fillAll at hf
    cases h1 : trafoFill round2 root none none t {} with
    | error e => rw [h1] at hf; cases hf
    | ok r =>
      rw [h1] at hf
      simp only at hf
      cases h2 : fillAll round2 root (phaseCount t none) (t' :: ts) with
      | error e => rw [h2] at hf; cases hf
      | ok rs =>
        rw [h2] at hf
        cases hf
        unfold fillAll at h2
        cases h3 : trafoFill round2 root none (phaseCount t none) t' {} with
        | error e => rw [h3] at h2; cases h2
        | ok r' =>
          rw [h3] at h2
          simp only at h2
          cases h4 : fillAll round2 root (phaseCount t' (phaseCount t none)) ts with
          | error e => rw [h4] at h2; cases h2
          | ok rs' =>
            rw [h4] at h2
            cases h2
            refine ⟨r, r', rs', rfl, ?_⟩
            rw [(hp _ _ h3).1]
            match hws : t.windings with
            | [] => rw [hws] at hw; simp at hw
            | [w] => rw [hws] at hw; simp at hw
            | w1 :: w2 :: ws =>
              rw [(fill_ok hws h1).1.2.1]
              unfold phaseCount
              rw [hws]

/-- C110: all transformers with more phases, but without a name, have the same ID, the text None; and losses, leakages and the range of taps are the same for all. -/
theorem C110_unnamed_violated {ts : List (EphTrafo K)} {rows : List (TrafoRow K)} {dict : TrafoDict K} (h : trafoSheet round2 root [] ts = .ok (rows, dict))
    (hk : (singleKeys ts).Nodup) : List.Forall₂ (fun t r => 2 ≤ t.windings.length → (t.name = none → r.id = some "None".toList) ∧
      r.constants = some [0, -16, 16, 10, 10, 0, 0, 0, 0, 0]) ts rows := by
  refine (fillAll_ok (trafo_rows h hk)).imp fun t r ⟨b, hr⟩ hw => ?_
  match hws : t.windings with
  | [] => rw [hws] at hw; simp at hw
  | [w] => rw [hws] at hw; simp at hw
  | w1 :: w2 :: ws => exact ⟨(fill_ok hws hr).2.2.2.2.2, (fill_ok hws hr).2.2.2.2.1⟩

/-- C110: if the model has the nodes of all windings with their phases, then all buses of the sheet are in the sheet Bus. -/
theorem C110_listed_partial {root3 : K} {nodes : List (EphNode K)} {buses : List (BusRow K)} (hb : busSheet root3 nodes = .ok buses) {ts : List (EphTrafo K)}
    {rows : List (TrafoRow K)} {dict : TrafoDict K} (h : trafoSheet round2 root [] ts = .ok (rows, dict)) (hk : (singleKeys ts).Nodup)
    (hw : ∀ t ∈ ts, 2 ≤ t.windings.length) (hn : TrafosHaveNodes nodes ts) :
    ∀ r ∈ rows, ∀ c ∈ [r.first, r.second], ∀ b, some b ∈ c.buses → b ∈ buses.map (·.cells.bus) := by
  intro r hr c hc b hbc
  obtain ⟨t, ht, hs⟩ := Glm.found_left (C110_trafos_partial h hk) hr
  have hw := hw t ht
  match hws : t.windings with
  | [] => rw [hws] at hw; simp at hw
  | [w] => rw [hws] at hw; simp at hw
  | w1 :: w2 :: ws =>
    obtain ⟨-, -, h1, h2, -⟩ := hs w1 w2 ws hws
    have key : ∀ e w, (e, w) ∈ [(t.source, w1), (t.sink, w2)] → BusesSay e w c.buses → b ∈ buses.map (·.cells.bus) := by
      intro e w hew hbs
      obtain ⟨i, hi, hbi⟩ := List.mem_iff_getElem.mp hbc
      have hbi : c.buses[i]? = some (some b) := by rw [List.getElem?_eq_getElem hi, hbi]
      have hi3 : i < 3 := by rw [← hbs.1]; exact hi
      cases hpw : w.phases[i]? with
      | none =>
        rw [(hbs.2 i hi3).2 hpw] at hbi; cases hbi
      | some pw =>
        obtain ⟨m, p, b', he, hp, hb', hbo⟩ := (hbs.2 i hi3).1 pw hpw
        rw [hb'] at hbi
        cases hbi
        obtain ⟨n, hnn, hnm, hnp⟩ := hn t ht w1 w2 ws hws e w hew pw (List.mem_of_getElem? hpw) p hp m he
        exact bus_listed hb hnn hnm hnp hbo
    rcases List.mem_cons.mp hc with rfl | hc
    · exact key _ _ (.head _) h1.1
    · rw [List.mem_singleton.mp hc] at key
      rw [List.mem_singleton] at hc
      subst hc
      exact key _ _ (.tail _ (.head _)) h2.1

/-- a winding of one phase -/
def exOnePhase : EphWinding ℚ := ⟨some ['Y'], some 7200, some 25000, some 1, [⟨some ['A'], some (1 / 2)⟩]⟩
/-- a winding of two phases -/
def exTwoPhases : EphWinding ℚ := ⟨some ['D'], some 480, some 50000, some 2, [⟨some ['B'], none⟩, ⟨some ['C'], some 3⟩]⟩
/-- a transformer of one phase -/
def exSingleTrafo : EphTrafo ℚ := ⟨some "t1".toList, some "n1".toList, some "n2".toList, [4], [exOnePhase, exOnePhase, exOnePhase]⟩
/-- another one, with the same text of node and name -/
def exSingleTrafo' : EphTrafo ℚ := ⟨some "1t1".toList, some "n".toList, some "n3".toList, [5], [exOnePhase, exOnePhase]⟩
/-- a transformer of two phases -/
def exDoubleTrafo : EphTrafo ℚ := ⟨some "t2".toList, some "n2".toList, some "n3".toList, [4], [exTwoPhases, exTwoPhases]⟩
/-- a transformer with one winding -/
def exHalfTrafo : EphTrafo ℚ := ⟨some "t3".toList, some "n2".toList, some "n3".toList, [4], [exTwoPhases]⟩
/-- the row of the transformer of two phases -/
def exDoubleRow : TrafoRow ℚ where
  id := some "t2".toList
  phases := some 2
  first := { buses := [some "n2_b".toList, some "n2_c".toList, none], voltage := some (480 / 1000), power := some 50, resistance := some (1 / 50), connection := some "delta".toList }
  second := { buses := [some "n3_b".toList, some "n3_c".toList, none], voltage := some (480 / 1000), power := some 50, resistance := some (1 / 50), connection := some "delta".toList }
  taps := [some 0, some 3, none]
  x := some 4
  constants := some trafoConstants

example : (trafoSheet id (2 : ℚ) [] [exDoubleTrafo]).map (·.1) = .ok [exDoubleRow] := by decide +kernel
example : (singleKeys [exSingleTrafo, exDoubleTrafo]).Nodup ∧ ∀ t ∈ [exSingleTrafo, exDoubleTrafo], 2 ≤ t.windings.length := by decide +kernel
example : (trafoSheet id (2 : ℚ) [] [exSingleTrafo, exDoubleTrafo]).map (·.1.length) = .ok 2 := by decide +kernel
example : (trafoSheet id (2 : ℚ) [] [exSingleTrafo, exDoubleTrafo, exSingleTrafo']).map (·.1.length) = .ok 2 ∧ ¬ (singleKeys [exSingleTrafo, exSingleTrafo']).Nodup := by decide +kernel
example : (trafoSheet id (2 : ℚ) [] [exSingleTrafo, exDoubleTrafo, exSingleTrafo', exDoubleTrafo]).map (fun out => out.1.map (·.id)) =
    .ok [some "1t1".toList, some "t2".toList, none] := by decide +kernel
example : keyOf exSingleTrafo = keyOf exSingleTrafo' ∧ keyOf exSingleTrafo = some "n1t1".toList ∧ isSingle exDoubleTrafo = false := by decide +kernel
example : ((trafoSheet id (2 : ℚ) [] [exSingleTrafo]).bind fun out => trafoSheet id (2 : ℚ) out.2 [exSingleTrafo]) = .error .indexError := by decide +kernel
example : ∀ t ∈ [exSingleTrafo], isSingle t = true := by decide +kernel
example : (trafoSheet id (2 : ℚ) [] [exHalfTrafo]) = .error .unboundLocalError := by decide +kernel
example : (trafoSheet id (2 : ℚ) [] [exDoubleTrafo, exHalfTrafo]).map (fun out => out.1.map (·.phases)) = .ok [some 2, some 2] := by decide +kernel
example : TrafoOk exSingleTrafo := by
  refine ⟨by decide +kernel, by decide +kernel, exOnePhase, exOnePhase, [exOnePhase], rfl, ?_, ?_⟩ <;> (unfold WindingOk; decide +kernel)
example : TrafosHaveNodes [⟨some "n1".toList, some 4, [some ['A']]⟩, ⟨some "n2".toList, some 4, [some ['A']]⟩] [exSingleTrafo] := by
  intro t ht w1 w2 ws hws e w hew pw hpw p hp m hm
  rw [List.mem_singleton.mp ht] at hws hew
  cases hws
  have : ∀ q ∈ [(exSingleTrafo.source, exOnePhase), (exSingleTrafo.sink, exOnePhase)], ∀ pw ∈ q.2.phases, ∀ p ∈ pw.phase.toList, ∀ m ∈ q.1.toList,
      ∃ n ∈ ([⟨some "n1".toList, some 4, [some ['A']]⟩, ⟨some "n2".toList, some 4, [some ['A']]⟩] : List (EphNode ℚ)), n.name = some m ∧ p.map Char.toLower ∈ lettersOf n.phases := by
    decide +kernel
  exact this (e, w) hew pw hpw p (by simpa using hp) m (by simpa using hm)

end Ditto.Eph
