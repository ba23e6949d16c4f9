import Verif.Spec.CymeLineCodes
import Verif.Lemmas.DssCodes
import Verif.Props.CymeOverlaps
import Mathlib.Data.List.Forall2
import Mathlib.Data.List.Nodup
import Mathlib.Algebra.Field.Rat
import Mathlib.Algebra.Order.Field.Rat

/-! C121: the equipment of lines in the CYME writer. -/
namespace Ditto.Cyme
open Ditto Glm Spec Ditto.Spec

section
variable {K D : Type} [DecidableEq K]

/-! ### dictionaries -/

theorem codeOf_iff {codes : List (K × D)} (h : (codes.map (·.1)).Nodup) (k : K) (d : D) : codeOf k codes = some d ↔ (k, d) ∈ codes := by
  induction codes with
  | nil => exact ⟨fun h => (nomatch h), fun h => (List.not_mem_nil h).elim⟩
  | cons e l ih =>
    rw [List.map_cons, List.nodup_cons] at h
    rw [codeOf]
    by_cases he : e.1 = k
    · rw [if_pos he]
      constructor
      · intro hd
        rw [← he, ← Option.some.inj hd]
        exact .head _
      · intro hm
        rcases List.mem_cons.mp hm with hm | hm
        · rw [← hm]
        · exact (h.1 (List.mem_map.mpr ⟨_, hm, he.symm⟩)).elim
    · rw [if_neg he, ih h.2]
      refine ⟨.tail _, fun hm => ?_⟩
      rcases List.mem_cons.mp hm with hm | hm
      · exact (he (by rw [← hm])).elim
      · exact hm

theorem codeOf_none_iff {codes : List (K × D)} (k : K) : codeOf k codes = none ↔ k ∉ codes.map (·.1) := by
  induction codes with
  | nil => exact ⟨fun _ => List.not_mem_nil, fun _ => rfl⟩
  | cons e l ih =>
    rw [codeOf, List.map_cons, List.mem_cons, not_or]
    by_cases he : e.1 = k
    · rw [if_pos he]
      exact ⟨fun h => (nomatch h), fun h => (h.1 he.symm).elim⟩
    · rw [if_neg he, ih]
      exact ⟨fun h => ⟨fun h' => he h'.symm, h⟩, fun h => h.2⟩

theorem codeOf_put (k n : K) (d : D) (codes : List (K × D)) : codeOf n (putCode k d codes) = if n = k then some d else codeOf n codes := by
  induction codes with
  | nil =>
    show (if k = n then some d else none) = if n = k then some d else none
    by_cases h : k = n
    · rw [if_pos h, if_pos h.symm]
    · rw [if_neg h, if_neg (fun h' => h h'.symm)]
  | cons e l ih =>
    rw [putCode]
    by_cases he : e.1 = k
    · rw [if_pos he, codeOf, codeOf]
      by_cases h : k = n
      · rw [if_pos h, if_pos h.symm]
      · rw [if_neg h, if_neg (fun h' => h h'.symm), if_neg (by rw [he]; exact h)]
    · rw [if_neg he, codeOf, codeOf, ih]
      by_cases h : e.1 = n
      · rw [if_pos h, if_pos h, if_neg (fun h' => he (h.trans h'))]
      · rw [if_neg h, if_neg h]

theorem keys_put (k : K) (d : D) (codes : List (K × D)) :
    (putCode k d codes).map (·.1) = if k ∈ codes.map (·.1) then codes.map (·.1) else codes.map (·.1) ++ [k] := by
  induction codes with
  | nil => rfl
  | cons e l ih =>
    rw [putCode]
    by_cases he : e.1 = k
    · rw [if_pos he, List.map_cons, List.map_cons, if_pos (by rw [he]; exact .head _), he]
    · rw [if_neg he, List.map_cons, List.map_cons, ih]
      by_cases hm : k ∈ l.map (·.1)
      · rw [if_pos hm, if_pos (.tail _ hm)]
      · rw [if_neg hm, if_neg (fun h => (List.mem_cons.mp h).elim (fun h' => he h'.symm) hm), List.cons_append]

theorem nodup_put {codes : List (K × D)} (h : (codes.map (·.1)).Nodup) (k : K) (d : D) : ((putCode k d codes).map (·.1)).Nodup := by
  rw [keys_put]
  by_cases hm : k ∈ codes.map (·.1)
  · rw [if_pos hm]; exact h
  · rw [if_neg hm]
    exact h.append (List.nodup_singleton _) fun x hx hx' => hm (by rw [← List.mem_singleton.mp hx']; exact hx)

/-- the table has the data of these pairs and nothing else -/
def Registered (codes done : List (K × D)) : Prop := (codes.map (·.1)).Nodup ∧ ∀ e, e ∈ codes ↔ e ∈ done

theorem registered_put {codes done : List (K × D)} (h : Registered codes done) {k : K} {d : D} (hc : ∀ d', (k, d') ∈ done → d' = d) :
    Registered (putCode k d codes) (done ++ [(k, d)]) := by
  refine ⟨nodup_put h.1 k d, fun e => ?_⟩
  obtain ⟨n, x⟩ := e
  rw [← codeOf_iff (nodup_put h.1 k d), codeOf_put, List.mem_append, List.mem_singleton]
  by_cases hn : n = k
  · subst hn
    rw [if_pos rfl]
    constructor
    · intro hx
      rw [Option.some.inj hx]
      exact .inr rfl
    · rintro (hx | hx)
      · rw [hc x hx]
      · rw [Prod.mk.inj hx |>.2]
  · rw [if_neg hn, codeOf_iff h.1, h.2]
    exact ⟨.inl, fun hx => hx.resolve_right fun hx => hn (Prod.mk.inj hx).1⟩

theorem registered_same {codes done : List (K × D)} (h : Registered codes done) {k : K} {d : D} (hm : (k, d) ∈ codes) :
    Registered codes (done ++ [(k, d)]) := by
  refine ⟨h.1, fun e => ?_⟩
  rw [List.mem_append, List.mem_singleton, ← h.2]
  exact ⟨.inl, fun hx => hx.elim _root_.id fun hx => hx ▸ hm⟩

theorem registered_data {codes done : List (K × D)} (h : Registered codes done) {k : K} {d : D} (hm : (k, d) ∈ done) : HasData codes k d := by
  have h1 : (k, d) ∈ codes := (h.2 _).mpr hm
  exact ⟨h1, fun d' h2 => Option.some.inj (((codeOf_iff h.1 k d').mpr h2).symm.trans ((codeOf_iff h.1 k d).mpr h1))⟩

end

/-! ### devices -/

section
variable {N : Type} [Field N] [DecidableEq N]

theorem deviceStep_rated (whole : N → Text) (codes : List (Text × N × N)) {l : DeviceLine N} {n : Text} {v a : N} (h : RatedDevice l n v a) :
    deviceStep whole codes l = .ok (deviceCode codes (n ++ '_' :: whole v ++ '_' :: whole a) (a, v / 1000)) := by
  obtain ⟨h1, h2, h3, rest, h4⟩ := h
  unfold deviceStep
  rw [h1, h3, h4]
  dsimp only
  rw [if_neg h2]
  rfl

theorem deviceStep_default (whole : N → Text) (codes : List (Text × N × N)) {l : DeviceLine N} (h : ∀ n v a, ¬RatedDevice l n v a)
    (hw : ∀ n, l.name = some n → n ≠ [] → l.amps ≠ []) : deviceStep whole codes l = .ok (["DEFAULT".toList], codes) := by
  unfold deviceStep
  cases hn : l.name with
  | none => rfl
  | some n =>
    dsimp only
    by_cases he : n = []
    · rw [if_pos he]
    · rw [if_neg he]
      cases ha : l.amps with
      | nil => exact (hw n hn he ha).elim
      | cons a rest =>
        dsimp only
        cases a with
        | none => rfl
        | some a =>
          cases hv : l.voltage with
          | none => rfl
          | some v => exact (h n v a ⟨hn, he, hv, rest, ha⟩).elim

theorem deviceCode_same {D : Type} [DecidableEq D] {codes done : List (Text × D)} (h : Registered codes done) {k : Text} {d : D} (hc : ∀ d', (k, d') ∈ done → d' = d) :
    ∃ codes', deviceCode codes k d = ([k], codes') ∧ Registered codes' (done ++ [(k, d)]) := by
  unfold deviceCode
  cases hk : codeOf k codes with
  | none => exact ⟨_, rfl, registered_put h hc⟩
  | some d' =>
    have hm := (codeOf_iff h.1 k d').mp hk
    have hd := hc d' ((h.2 _).mp hm)
    subst hd
    dsimp only
    rw [if_neg (fun hh => hh rfl)]
    exact ⟨codes, rfl, registered_same h hm⟩

/-- the name and data of a rated device -/
def ratingOf (whole : N → Text) (l : DeviceLine N) : Option (Text × N × N) :=
  match l.name, l.voltage, l.amps with
  | some n, some v, some a :: _ => if n = [] then none else some (n ++ '_' :: whole v ++ '_' :: whole a, a, v / 1000)
  | _, _, _ => none

theorem ratingOf_iff (whole : N → Text) (l : DeviceLine N) (p : Text × N × N) :
    ratingOf whole l = some p ↔ ∃ n v a, RatedDevice l n v a ∧ p = (n ++ '_' :: whole v ++ '_' :: whole a, a, v / 1000) := by
  constructor
  · intro h
    unfold ratingOf at h
    split at h
    · rename_i n v a rest h1 h2 h3
      by_cases he : n = []
      · rw [if_pos he] at h; cases h
      · rw [if_neg he] at h
        exact ⟨n, v, a, ⟨h1, he, h2, rest, h3⟩, (Option.some.inj h).symm⟩
    · cases h
  · rintro ⟨n, v, a, ⟨h1, h2, h3, rest, h4⟩, rfl⟩
    unfold ratingOf
    rw [h1, h3, h4]
    dsimp only
    rw [if_neg h2]

theorem deviceLoop_of (whole : N → Text) : ∀ (ls : List (DeviceLine N)) (codes done : List (Text × N × N)), Registered codes done →
    (∀ p ∈ done ++ ls.filterMap (ratingOf whole), ∀ q ∈ done ++ ls.filterMap (ratingOf whole), p.1 = q.1 → p.2 = q.2) →
    (∀ l ∈ ls, ∀ n, l.name = some n → n ≠ [] → l.amps ≠ []) →
    ∃ cols codes', deviceLoop whole codes ls = .ok (cols, codes') ∧ Registered codes' (done ++ ls.filterMap (ratingOf whole)) ∧
      List.Forall₂ (fun l c => c = match ratingOf whole l with | none => ["DEFAULT".toList] | some p => [p.1]) ls cols := by
  intro ls
  induction ls with
  | nil =>
    intro codes done h _ _
    refine ⟨[], codes, rfl, ?_, .nil⟩
    rw [List.filterMap_nil, List.append_nil]
    exact h
  | cons l ls ih =>
    intro codes done h hc hw
    rw [deviceLoop]
    cases hr : ratingOf whole l with
    | none =>
      have hn : ∀ n v a, ¬RatedDevice l n v a := fun n v a hh => by
        rw [(ratingOf_iff whole l _).mpr ⟨n, v, a, hh, rfl⟩] at hr
        cases hr
      rw [deviceStep_default whole codes hn (hw l (.head _))]
      rw [List.filterMap_cons_none hr] at hc ⊢
      obtain ⟨cols, codes', h1, h2, h3⟩ := ih codes done h hc fun x hx => hw x (.tail _ hx)
      dsimp only
      rw [h1]
      exact ⟨_, codes', rfl, h2, .cons (by rw [hr]) h3⟩
    | some p =>
      obtain ⟨n, v, a, h1, rfl⟩ := (ratingOf_iff whole l p).mp hr
      rw [List.filterMap_cons_some hr] at hc ⊢
      rw [deviceStep_rated whole codes h1]
      obtain ⟨codes₁, h2, h3⟩ := deviceCode_same h (k := n ++ '_' :: whole v ++ '_' :: whole a) (d := (a, v / 1000))
        fun d' hd => hc (_, d') (List.mem_append_left _ hd) _ (List.mem_append_right _ (.head _)) rfl
      rw [h2]
      dsimp only
      obtain ⟨cols, codes', h4, h5, h6⟩ := ih codes₁ _ h3 (by rw [List.append_assoc]; exact hc) fun x hx => hw x (.tail _ hx)
      rw [h4]
      rw [List.append_assoc] at h5
      exact ⟨_, codes', rfl, h5, .cons (by rw [hr]) h6⟩

/-- **C121**, devices: a switch, fuse, recloser or breaker with a name, voltage and current refers to the row of the equipment file with its current and
voltage, others to the default one, if no two devices with the same name, voltage and current in whole numbers differ. There are no other rows. -/
theorem C121_devices_partial (whole : N → Text) (ls : List (DeviceLine N)) (hs : SameRatings whole ls)
    (hw : ∀ l ∈ ls, ∀ n, l.name = some n → n ≠ [] → l.amps ≠ []) :
    ∃ cols codes, deviceLoop whole [] ls = .ok (cols, codes) ∧ List.Forall₂ (DeviceRef whole codes) ls cols ∧ (codes.map (·.1)).Nodup ∧
      ∀ e ∈ codes, ∃ l ∈ ls, ∃ n v a, RatedDevice l n v a ∧ e = (n ++ '_' :: whole v ++ '_' :: whole a, a, v / 1000) := by
  have h0 : Registered ([] : List (Text × N × N)) [] := ⟨List.nodup_nil, fun _ => Iff.rfl⟩
  obtain ⟨cols, codes, h1, h2, h3⟩ := deviceLoop_of whole ls [] [] h0 (by
    rw [List.nil_append]
    intro p hp q hq he
    obtain ⟨l, hl, hlp⟩ := List.mem_filterMap.mp hp
    obtain ⟨l', hl', hlq⟩ := List.mem_filterMap.mp hq
    obtain ⟨n, v, a, hr, rfl⟩ := (ratingOf_iff whole l p).mp hlp
    obtain ⟨n', v', a', hr', rfl⟩ := (ratingOf_iff whole l' q).mp hlq
    obtain ⟨rfl, rfl⟩ := hs l hl l' hl' n v a n' v' a' hr hr' he
    rfl) hw
  rw [List.nil_append] at h2
  refine ⟨cols, codes, h1, ?_, h2.1, fun e he => ?_⟩
  · have hmem : ∀ l ∈ ls, ∀ p, ratingOf whole l = some p → p ∈ ls.filterMap (ratingOf whole) := fun l hl p hp => List.mem_filterMap.mpr ⟨l, hl, hp⟩
    clear h1 hs hw
    generalize ls.filterMap (ratingOf whole) = done at h2 hmem
    induction h3 with
    | nil => exact .nil
    | @cons l c ls cs hc _ ih =>
      refine .cons ?_ (ih fun x hx => hmem x (.tail _ hx))
      cases hr : ratingOf whole l with
      | none =>
        rw [hr] at hc
        rw [hc]
        refine .default fun n v a hh => ?_
        rw [(ratingOf_iff whole l _).mpr ⟨n, v, a, hh, rfl⟩] at hr
        cases hr
      | some p =>
        rw [hr] at hc
        rw [hc]
        have hp := hmem l (.head _) p hr
        obtain ⟨n, v, a, hh, rfl⟩ := (ratingOf_iff whole l p).mp hr
        exact .rated hh (registered_data h2 hp)
  · obtain ⟨l, hl, hlp⟩ := List.mem_filterMap.mp ((h2.2 e).mp he)
    obtain ⟨n, v, a, hr, rfl⟩ := (ratingOf_iff whole l e).mp hlp
    exact ⟨l, hl, n, v, a, hr, rfl⟩

/-- **C121**, devices that differ less than in whole numbers: the row of the first one gets the data of the second one. -/
theorem C121_device_violated (whole : N → Text) {l l' : DeviceLine N} {n : Text} {v a v' a' : N} (h : RatedDevice l n v a) (h' : RatedDevice l' n v' a')
    (hv : whole v = whole v') (ha : whole a = whole a') (hd : (a, v / 1000) ≠ (a', v' / 1000)) :
    deviceLoop whole [] [l, l'] = .ok ([[n ++ '_' :: whole v ++ '_' :: whole a], [n ++ '_' :: whole v ++ '_' :: whole a]],
      [(n ++ '_' :: whole v ++ '_' :: whole a, a', v' / 1000)]) := by
  rw [deviceLoop, deviceStep_rated whole [] h]
  dsimp only
  rw [deviceLoop, deviceStep_rated whole _ h', ← hv, ← ha]
  generalize n ++ '_' :: whole v ++ '_' :: whole a = k
  have h1 : deviceCode ([] : List (Text × N × N)) k (a, v / 1000) = ([k], [(k, a, v / 1000)]) := rfl
  rw [h1]
  have h2 : deviceCode [(k, a, v / 1000)] k (a', v' / 1000) = ([k], [(k, a', v' / 1000)]) := by
    unfold deviceCode
    rw [codeOf, if_pos rfl]
    dsimp only
    rw [if_pos hd]
    have : keysOf (a', v' / 1000) [(k, a, v / 1000)] = [] := by
      unfold keysOf
      rw [List.filter_cons_of_neg (p := fun e : Text × N × N => decide (e.2 = (a', v' / 1000))) (fun hh => hd (of_decide_eq_true hh)), List.filter_nil]
      rfl
    rw [this]
    dsimp only
    rw [putCode, if_pos rfl]
  dsimp only
  rw [h2, deviceLoop]

/-- a device with a name and without wires -/
theorem C121_errors (whole : N → Text) (codes : List (Text × N × N)) {l : DeviceLine N} {n : Text} (hn : l.name = some n) (he : n ≠ []) (hw : l.amps = []) :
    deviceStep whole codes l = .error .indexError := by
  unfold deviceStep
  rw [hn, hw]
  dsimp only
  rw [if_neg he]

end

/-! ### conductors -/

section
variable {D : Type} [DecidableEq D]

/-- pairs with the same name have the same data -/
def Functional (all : List (Text × D)) : Prop := ∀ p ∈ all, ∀ q ∈ all, p.1 = q.1 → p.2 = q.2

theorem conductorStep_named {s : Conductors D} {all done : List (Text × D)} (hall : Functional all) (hs : Registered s.codes done) (hd : done ⊆ all)
    {w : CodeWire D} {n : Text} (hn : w.name = some n) (he : n ≠ []) (hm : (n, w.data) ∈ all) :
    (conductorStep s w).1 = n ∧ Registered (conductorStep s w).2.codes (done ++ [(n, w.data)]) := by
  have hc : ∀ d', (n, d') ∈ done → d' = w.data := fun d' h => hall _ (hd h) _ hm rfl
  unfold conductorStep
  rw [hn]
  dsimp only
  rw [if_neg he]
  cases hk : codeOf n s.codes with
  | none => exact ⟨rfl, registered_put hs hc⟩
  | some d' =>
    have hm' := (codeOf_iff hs.1 n d').mp hk
    have := hc d' ((hs.2 _).mp hm')
    rw [this] at hm'
    exact ⟨rfl, registered_same hs hm'⟩

theorem conductorLoop_of {all : List (Text × D)} (hall : Functional all) : ∀ (ws : List (CodeWire D)) (s : Conductors D) (refs : List (Text × Text))
    (done : List (Text × D)), Registered s.codes done → done ⊆ all → (∀ w ∈ ws, ∃ n, w.name = some n ∧ n ≠ [] ∧ (n, w.data) ∈ all) →
    ∃ done', Registered (conductorLoop s refs ws).2.codes done' ∧ done ⊆ done' ∧ done' ⊆ all ∧
      (∀ w ∈ ws, ∀ n, w.name = some n → (n, w.data) ∈ done') ∧
      ∀ p, ((∀ w ∈ ws, w.phase ≠ p) ∧ codeOf p (conductorLoop s refs ws).1 = codeOf p refs) ∨
        ∃ before w after, ws = before ++ w :: after ∧ w.phase = p ∧ (∀ x ∈ after, x.phase ≠ p) ∧ codeOf p (conductorLoop s refs ws).1 = w.name := by
  intro ws
  induction ws with
  | nil =>
    intro s refs done hs hd _
    exact ⟨done, hs, fun _ h => h, hd, fun w hw => (List.not_mem_nil hw).elim, fun p => .inl ⟨fun w hw => (List.not_mem_nil hw).elim, rfl⟩⟩
  | cons w ws ih =>
    intro s refs done hs hd hw
    obtain ⟨n, hn, he, hm⟩ := hw w (.head _)
    obtain ⟨h1, h2⟩ := conductorStep_named hall hs hd hn he hm
    rw [conductorLoop]
    obtain ⟨done', h3, h4, h5, h6, h7⟩ := ih (conductorStep s w).2 (putCode w.phase (conductorStep s w).1 refs) (done ++ [(n, w.data)]) h2
      (List.append_subset.mpr ⟨hd, List.cons_subset.mpr ⟨hm, List.nil_subset _⟩⟩) (fun x hx => hw x (.tail _ hx))
    refine ⟨done', h3, fun x hx => h4 (List.mem_append_left _ hx), h5, ?_, ?_⟩
    · intro x hx m hxm
      rcases List.mem_cons.mp hx with rfl | hx
      · rw [hn] at hxm
        rw [← Option.some.inj hxm]
        exact h4 (List.mem_append_right _ (.head _))
      · exact h6 x hx m hxm
    · intro p
      rcases h7 p with ⟨h8, h9⟩ | ⟨before, x, after, h8, h9, h10, h11⟩
      · rw [codeOf_put] at h9
        by_cases hp : p = w.phase
        · rw [if_pos hp] at h9
          exact .inr ⟨[], w, ws, rfl, hp.symm, h8, (h9.trans (congrArg some h1)).trans hn.symm⟩
        · rw [if_neg hp] at h9
          refine .inl ⟨fun x hx => ?_, h9⟩
          rcases List.mem_cons.mp hx with rfl | hx
          · exact fun h => hp h.symm
          · exact h8 x hx
      · exact .inr ⟨w :: before, x, after, by rw [h8]; rfl, h9, h10, h11⟩

omit [DecidableEq D] in
theorem spacing_column (n : Nat) : (if n = 1 then ["N_ABOVE_1PH".toList] else if n = 2 then ["N_ABOVE_2PH".toList]
    else if n = 3 then ["N_ABOVE_3PH".toList] else []) = if n = 0 ∨ 3 < n then [] else ["N_ABOVE_".toList ++ n.repr.toList ++ "PH".toList] := by
  rcases n with _ | _ | _ | _ | n
  · rfl
  · decide
  · decide
  · decide
  · rw [if_neg (by omega), if_neg (by omega), if_neg (by omega), if_pos (.inr (by omega))]

omit [DecidableEq D] in
theorem rowRefs_of {codes : List (Text × D)} {ws : List (CodeWire D)} {refs : List (Text × Text)} (id : Text) (n : Nat)
    (h : ∀ p, PhaseRef codes ws p (conductorColumn refs p)) (hnone : ∀ p, (∀ w ∈ ws, w.phase ≠ p) → conductorColumn refs p = "NONE".toList) :
    RowRefs codes ws id n (byPhaseColumns id refs n) := by
  constructor
  unfold byPhaseColumns
  dsimp only
  rw [spacing_column]
  by_cases h1 : conductorColumn refs "N1".toList ≠ "NONE".toList ∧ conductorColumn refs "N2".toList ≠ "NONE".toList
  · rw [if_pos h1]
    exact ⟨_, _, _, _, _, rfl, h _, h _, h _, h _, fun _ => h _, fun hh => (h1.1 (hnone _ hh)).elim⟩
  · rw [if_neg h1]
    by_cases h2 : conductorColumn refs "N".toList ≠ "NONE".toList
    · rw [if_pos h2]
      exact ⟨_, _, _, _, _, rfl, h _, h _, h _, h _, fun hh => (h2 (hnone _ hh)).elim, fun _ => h _⟩
    · rw [if_neg h2]
      refine ⟨_, _, _, _, _, rfl, h _, h _, h _, h _, fun _ => h _, fun hh => ?_⟩
      rw [hnone _ hh, ← not_ne_iff.mp h2]
      exact h _

theorem conductorLines_of {all : List (Text × D)} (hall : Functional all) : ∀ (lines : List (List (CodeWire D))) (s : Conductors D) (done : List (Text × D)),
    Registered s.codes done → done ⊆ all → (∀ ws ∈ lines, ∀ w ∈ ws, ∃ n, w.name = some n ∧ n ≠ [] ∧ (n, w.data) ∈ all) →
    ∃ done', Registered (codeLoop (fun s ws => conductorLoop s [] ws) s lines).2.codes done' ∧ done ⊆ done' ∧ done' ⊆ all ∧
      List.Forall₂ (fun ws refs => ∀ codes, Registered codes done' → ∀ id n, RowRefs codes ws id n (byPhaseColumns id refs n)) lines
        (codeLoop (fun s ws => conductorLoop s [] ws) s lines).1 := by
  intro lines
  induction lines with
  | nil =>
    intro s done hs hd _
    exact ⟨done, hs, fun _ h => h, hd, .nil⟩
  | cons ws lines ih =>
    intro s done hs hd hw
    obtain ⟨done₁, h1, h2, h3, h4, h5⟩ := conductorLoop_of hall ws s [] done hs hd (hw ws (.head _))
    obtain ⟨done', h6, h7, h8, h9⟩ := ih (conductorLoop s [] ws).2 done₁ h1 h3 fun x hx => hw x (.tail _ hx)
    rw [codeLoop]
    refine ⟨done', h6, fun x hx => h7 (h2 hx), h8, .cons (fun codes hc id n => ?_) h9⟩
    have hnone : ∀ p, (∀ w ∈ ws, w.phase ≠ p) → conductorColumn (conductorLoop s [] ws).1 p = "NONE".toList := by
      intro p hp
      rcases h5 p with ⟨-, h⟩ | ⟨before, w, after, h, hph, -, -⟩
      · unfold conductorColumn
        rw [h]
        rfl
      · exact (hp w (by rw [h]; exact List.mem_append_right _ (.head _)) hph).elim
    refine rowRefs_of id n (fun p => ?_) hnone
    rcases h5 p with ⟨hp, -⟩ | ⟨before, w, after, h, hph, haft, href⟩
    · exact .inl ⟨hp, hnone p hp⟩
    · have hmem : w ∈ ws := by rw [h]; exact List.mem_append_right _ (.head _)
      obtain ⟨m, hm, -, -⟩ := hw ws (.head _) w hmem
      have hcol : conductorColumn (conductorLoop s [] ws).1 p = m := by
        unfold conductorColumn
        rw [href, hm]
      rw [hcol]
      exact .inr ⟨before, w, after, h, hph, haft, hm, registered_data hc (h7 (h4 w hmem m hm))⟩

omit [DecidableEq D] in
theorem phaseRef_mono {codes codes' : List (Text × D)} {ws : List (CodeWire D)}
    (h : ∀ w ∈ ws, ∀ n, w.name = some n → HasData codes n w.data → HasData codes' n w.data) {p c : Text} (hp : PhaseRef codes ws p c) :
    PhaseRef codes' ws p c := by
  rcases hp with hp | ⟨before, w, after, h1, h2, h3, h4, h5⟩
  · exact .inl hp
  · exact .inr ⟨before, w, after, h1, h2, h3, h4, h w (by rw [h1]; exact List.mem_append_right _ (.head _)) c h4 h5⟩

omit [DecidableEq D] in
theorem rowRefs_mono {codes codes' : List (Text × D)} {ws : List (CodeWire D)}
    (h : ∀ w ∈ ws, ∀ n, w.name = some n → HasData codes n w.data → HasData codes' n w.data) {id : Text} {n : Nat} {cols : List Text}
    (hr : RowRefs codes ws id n cols) : RowRefs codes' ws id n cols := by
  obtain ⟨a, b, c, n₁, n₂, h1, h2, h3, h4, h5, h6, h7⟩ := hr.row
  exact ⟨a, b, c, n₁, n₂, h1, phaseRef_mono h h2, phaseRef_mono h h3, phaseRef_mono h h4, phaseRef_mono h h5, fun hh => phaseRef_mono h (h6 hh),
    fun hh => phaseRef_mono h (h7 hh)⟩

omit [DecidableEq D] in
theorem conductorRows_has (standard : D) {codes : List (Text × D)} {n : Text} {d : D} (hn : n ≠ "DEFAULT".toList) (h : HasData codes n d) :
    HasData (conductorRows standard codes) n d := by
  refine ⟨.tail _ (List.mem_filter.mpr ⟨h.1, decide_eq_true hn⟩), fun d' hd => ?_⟩
  rcases List.mem_cons.mp hd with hd | hd
  · exact (hn (Prod.mk.inj hd).1).elim
  · exact h.2 d' (List.mem_filter.mp hd).1

/-- **C121**, lines by phases: if all wires have names other than "DEFAULT" and wires with the same name have the same data, the columns of each line refer
to the rows of conductors with the data of its wires. There are no other rows but the one for "DEFAULT". -/
theorem C121_conductors_partial (standard : D) (lines : List (List (CodeWire D))) (h : WellNamed (lines.flatten.map fun w => (w.name, w.data)))
    (hdef : ∀ w ∈ lines.flatten, w.name ≠ some "DEFAULT".toList) :
    ∃ refs s, codeLoop (fun s ws => conductorLoop s [] ws) {} lines = (refs, s) ∧
      List.Forall₂ (fun ws r => ∀ id n, RowRefs (conductorRows standard s.codes) ws id n (byPhaseColumns id r n)) lines refs ∧
      ∀ e ∈ conductorRows standard s.codes, e = ("DEFAULT".toList, standard) ∨ ∃ w ∈ lines.flatten, w.name = some e.1 ∧ w.data = e.2 := by
  let all : List (Text × D) := lines.flatten.filterMap fun w => w.name.map fun n => (n, w.data)
  have mem : ∀ p : Text × D, p ∈ all ↔ ∃ w ∈ lines.flatten, w.name = some p.1 ∧ w.data = p.2 := by
    intro p
    rw [List.mem_filterMap]
    constructor
    · rintro ⟨w, hw, hp⟩
      obtain ⟨n, hn, rfl⟩ := Option.map_eq_some_iff.mp hp
      exact ⟨w, hw, hn, rfl⟩
    · rintro ⟨w, hw, h1, h2⟩
      exact ⟨w, hw, by rw [h1, h2]; rfl⟩
  have hall : Functional all := by
    intro p hp q hq he
    obtain ⟨w, hw, h1, h2⟩ := (mem p).mp hp
    obtain ⟨w', hw', h3, h4⟩ := (mem q).mp hq
    rw [← h2, ← h4]
    exact h.2 (w.name, w.data) (List.mem_map.mpr ⟨w, hw, rfl⟩) (w'.name, w'.data) (List.mem_map.mpr ⟨w', hw', rfl⟩) (by
      dsimp only
      rw [h1, h3, he])
  obtain ⟨done, h1, -, h3, h4⟩ := conductorLines_of hall lines {} [] ⟨List.nodup_nil, fun _ => Iff.rfl⟩ (List.nil_subset _) (fun ws hws w hw => by
    have hmem : w ∈ lines.flatten := List.mem_flatten.mpr ⟨ws, hws, hw⟩
    obtain ⟨n, hn, he⟩ := h.1 (w.name, w.data) (List.mem_map.mpr ⟨w, hmem, rfl⟩)
    exact ⟨n, hn, he, (mem _).mpr ⟨w, hmem, hn, rfl⟩⟩)
  refine ⟨_, _, rfl, ?_, fun e he => ?_⟩
  · have hall' : List.Forall₂ (fun ws r => ws ∈ lines ∧ ∀ codes, Registered codes done → ∀ id n, RowRefs codes ws id n (byPhaseColumns id r n)) lines
        (codeLoop (fun s ws => conductorLoop s [] ws) {} lines).1 := by
      rw [List.forall₂_and_left]
      exact ⟨fun _ hx => hx, h4⟩
    refine hall'.imp fun ws r ⟨hws, hr⟩ id n => rowRefs_mono (fun w hw m hm hh => ?_) (hr _ h1 id n)
    exact conductorRows_has standard (fun he => hdef w (List.mem_flatten.mpr ⟨ws, hws, hw⟩) (by rw [hm, he])) hh
  · rcases List.mem_cons.mp he with he | he
    · exact .inl he
    · exact .inr ((mem e).mp (h3 ((h1.2 e).mp (List.mem_filter.mp he).1)))

omit [DecidableEq D] in
/-- **C121**, conductors that are called "DEFAULT": their row has other data. -/
theorem C121_default_violated (standard : D) (codes : List (Text × D)) : HasData (conductorRows standard codes) "DEFAULT".toList standard := by
  refine ⟨.head _, fun d' hd => ?_⟩
  rcases List.mem_cons.mp hd with hd | hd
  · exact (Prod.mk.inj hd).2
  · exact (of_decide_eq_true (List.mem_filter.mp hd).2 rfl).elim

omit [DecidableEq D] in
theorem put_has {K : Type} [DecidableEq K] {codes : List (K × D)} (h : (codes.map (·.1)).Nodup) (k : K) (d : D) : HasData (putCode k d codes) k d := by
  have hn := nodup_put h k d
  have h1 : codeOf k (putCode k d codes) = some d := by rw [codeOf_put, if_pos rfl]
  exact ⟨(codeOf_iff hn k d).mp h1, fun d' h2 => Option.some.inj (((codeOf_iff hn k d').mpr h2).symm.trans h1)⟩

theorem keysOf_nil {K : Type} {codes : List (K × D)} {d : D} (h : ∀ e ∈ codes, e.2 ≠ d) : keysOf d codes = [] := by
  unfold keysOf
  rw [List.filter_eq_nil_iff.mpr (fun e he hh => h e he (of_decide_eq_true hh)), List.map_nil]

omit [DecidableEq D] in
theorem repr_no_underscore (n : Nat) (t : Text) : n.repr.toList ≠ '_' :: t := by
  intro h
  have := Dss.repr_alnum n '_' (by rw [h]; exact .head _)
  exact absurd this (by decide)

omit [DecidableEq D] in
theorem repr_no_letter (n : Nat) (t : Text) : n.repr.toList ≠ 'c' :: t ∧ n.repr.toList ≠ 'l' :: t := by
  have digit : ∀ c ∈ n.repr.toList, c.isDigit = true := by
    intro c hc
    rw [Nat.toList_repr] at hc
    exact Nat.isDigit_of_mem_toDigits (by decide) (by decide) hc
  constructor
  · intro h
    exact absurd (digit 'c' (by rw [h]; exact .head _)) (by decide)
  · intro h
    exact absurd (digit 'l' (by rw [h]; exact .head _)) (by decide)

/-- **C121**, wires without names: a new conductor is kept as "conductor_1", and the line refers to "1", which no row has. -/
theorem C121_conductor_violated (s : Conductors D) {w : CodeWire D} (hs : (s.codes.map (·.1)).Nodup) (hn : w.name = none ∨ w.name = some [])
    (hd : ∀ e ∈ s.codes, e.2 ≠ w.data) (h : (s.count + 1).repr.toList ∉ s.codes.map (·.1)) :
    (conductorStep s w).1 = (s.count + 1).repr.toList ∧ (conductorStep s w).1 ∉ (conductorStep s w).2.codes.map (·.1) ∧
      HasData (conductorStep s w).2.codes ("conductor_".toList ++ (s.count + 1).repr.toList) w.data := by
  have hstep : conductorStep s w = ((s.count + 1).repr.toList,
      { codes := putCode ("conductor_".toList ++ (s.count + 1).repr.toList) w.data s.codes, count := s.count + 1 }) := by
    unfold conductorStep
    rw [keysOf_nil hd]
    rcases hn with hn | hn <;> rw [hn] <;> rfl
  rw [hstep]
  refine ⟨rfl, ?_, put_has hs _ _⟩
  dsimp only
  rw [keys_put]
  split
  · exact h
  · intro hm
    rcases List.mem_append.mp hm with hm | hm
    · exact h hm
    · exact (repr_no_letter (s.count + 1) _).1 (List.mem_singleton.mp hm)

/-- **C121**, wires with the same name and different data: the second line refers to the data of the first one. -/
theorem C121_wire_violated {n : Text} (hn : n ≠ []) (p q : Text) (d d' : D) :
    codeLoop (fun s ws => conductorLoop s [] ws) {} [[{ phase := p, name := some n, data := d }], [{ phase := q, name := some n, data := d' }]] =
      ([[(p, n)], [(q, n)]], { codes := [(n, d)], count := 0 }) := by
  have h1 : conductorStep ({} : Conductors D) { phase := p, name := some n, data := d } = (n, { codes := [(n, d)], count := 0 }) := by
    unfold conductorStep
    dsimp only
    rw [if_neg hn]
    rfl
  have h2 : conductorStep ({ codes := [(n, d)], count := 0 } : Conductors D) { phase := q, name := some n, data := d' } =
      (n, { codes := [(n, d)], count := 0 }) := by
    unfold conductorStep
    dsimp only
    rw [if_neg hn, codeOf, if_pos rfl]
  have h3 : conductorLoop ({} : Conductors D) [] [{ phase := p, name := some n, data := d }] = ([(p, n)], { codes := [(n, d)], count := 0 }) := by
    rw [conductorLoop, h1]
    rfl
  have h4 : conductorLoop ({ codes := [(n, d)], count := 0 } : Conductors D) [] [{ phase := q, name := some n, data := d' }] =
      ([(q, n)], { codes := [(n, d)], count := 0 }) := by
    rw [conductorLoop, h2]
    rfl
  rw [codeLoop, codeLoop, codeLoop, h3]
  dsimp only
  rw [h4]

omit [DecidableEq D] in
/-- **C121**, neutral wires: with wires "N" and "N1" but none "N2", the conductor of "N1" is lost. -/
theorem C121_neutral_violated (id : Text) (refs : List (Text × Text)) (n : Nat) {r : Text} (h : codeOf "N".toList refs = some r) (hr : r ≠ "NONE".toList)
    (h2 : codeOf "N2".toList refs = none) : ((byPhaseColumns id refs n).drop 4).take 2 = [r, "NONE".toList] := by
  have c : conductorColumn refs "N".toList = r := by unfold conductorColumn; rw [h]
  have c2 : conductorColumn refs "N2".toList = "NONE".toList := by unfold conductorColumn; rw [h2]
  unfold byPhaseColumns
  dsimp only
  rw [if_neg (fun hh => hh.2 c2), if_pos (fun hh => hr (c.symm.trans hh)), c, c2]
  rfl

/-! ### cables -/

theorem cableStep_named (s : Cables D) {n : Text} (hn : n ≠ []) (d : D) : cableStep s (some n) d = ([n], { s with codes := putCode n d s.codes }) := by
  unfold cableStep
  dsimp only
  rw [if_neg hn]

theorem overheadStep_named (s : Overheads D) {n : Text} (hn : n ≠ []) (d : D) :
    overheadStep s (some n) d = ([n], { s with codes := putCode (.name n) d s.codes }) := by
  unfold overheadStep
  dsimp only
  rw [if_neg hn]

theorem cableLoop_named {all : List (Text × D)} (hall : Functional all) : ∀ (ls : List (Option Text × D)) (s : Cables D) (done : List (Text × D)),
    Registered s.codes done → done ⊆ all → (∀ p ∈ ls, ∃ n, p.1 = some n ∧ n ≠ [] ∧ (n, p.2) ∈ all) →
    ∃ done', Registered (codeLoop (fun s p => cableStep s p.1 p.2) s ls).2.codes done' ∧ done ⊆ done' ∧ done' ⊆ all ∧
      List.Forall₂ (fun p c => ∃ n, p.1 = some n ∧ c = [n] ∧ (n, p.2) ∈ done') ls (codeLoop (fun s p => cableStep s p.1 p.2) s ls).1 := by
  intro ls
  induction ls with
  | nil =>
    intro s done hs hd _
    exact ⟨done, hs, fun _ h => h, hd, .nil⟩
  | cons p ls ih =>
    intro s done hs hd hp
    obtain ⟨n, hn, he, hm⟩ := hp p (.head _)
    have hstep : cableStep s p.1 p.2 = ([n], { s with codes := putCode n p.2 s.codes }) := by
      rw [hn]
      exact cableStep_named s he p.2
    rw [codeLoop, hstep]
    obtain ⟨done', h1, h2, h3, h4⟩ := ih { s with codes := putCode n p.2 s.codes } (done ++ [(n, p.2)])
      (registered_put hs fun d' h => hall _ (hd h) _ hm rfl) (List.append_subset.mpr ⟨hd, List.cons_subset.mpr ⟨hm, List.nil_subset _⟩⟩)
      fun x hx => hp x (.tail _ hx)
    exact ⟨done', h1, fun x hx => h2 (List.mem_append_left _ hx), h3, .cons ⟨n, hn, rfl, h2 (List.mem_append_right _ (.head _))⟩ h4⟩

omit [DecidableEq D] in
/-- all the pairs of names and data -/
theorem wellNamed_all {ls : List (Option Text × D)} (h : WellNamed ls) :
    ∃ all : List (Text × D), Functional all ∧ (∀ p ∈ ls, ∃ n, p.1 = some n ∧ n ≠ [] ∧ (n, p.2) ∈ all) ∧ ∀ e ∈ all, (some e.1, e.2) ∈ ls := by
  let all : List (Text × D) := ls.filterMap fun p => p.1.map fun n => (n, p.2)
  have mem : ∀ p : Text × D, p ∈ all ↔ (some p.1, p.2) ∈ ls := by
    intro p
    rw [List.mem_filterMap]
    constructor
    · rintro ⟨⟨o, d⟩, hw, hp⟩
      obtain ⟨n, hn, rfl⟩ := Option.map_eq_some_iff.mp hp
      dsimp only at hn
      rw [hn] at hw
      exact hw
    · intro hp
      exact ⟨_, hp, rfl⟩
  refine ⟨all, ?_, ?_, fun e he => (mem e).mp he⟩
  · intro p hp q hq he
    exact h.2 _ ((mem p).mp hp) _ ((mem q).mp hq) (congrArg some he)
  · intro p hp
    obtain ⟨n, hn, he⟩ := h.1 p hp
    refine ⟨n, hn, he, (mem _).mpr ?_⟩
    rw [← hn]
    exact hp

/-- **C121**, cables: if the first wires of all underground lines have names and those with the same name have the same data, each line refers to the row
with its data. There are no other rows. -/
theorem C121_cables_partial (ls : List (Option Text × D)) (h : WellNamed ls) :
    ∃ cols s, codeLoop (fun s p => cableStep s p.1 p.2) {} ls = (cols, s) ∧
      List.Forall₂ (fun p c => ∃ n, p.1 = some n ∧ c = [n] ∧ HasData s.codes n p.2) ls cols ∧ (s.codes.map (·.1)).Nodup ∧
      ∀ e ∈ s.codes, (some e.1, e.2) ∈ ls := by
  obtain ⟨all, hall, h1, h2⟩ := wellNamed_all h
  obtain ⟨done, h3, -, h5, h6⟩ := cableLoop_named hall ls {} [] ⟨List.nodup_nil, fun _ => Iff.rfl⟩ (List.nil_subset _) h1
  exact ⟨_, _, rfl, h6.imp fun p c ⟨n, hn, hc, hm⟩ => ⟨n, hn, hc, registered_data h3 hm⟩, h3.1, fun e he => h2 e (h5 ((h3.2 e).mp he))⟩

theorem cableStep_unnamed {s : Cables D} {o : Option Text} (ho : o = none ∨ o = some []) (d : D)
    (hs : ∀ k ∈ s.codes.map (·.1), ∃ m : Nat, k = "cable".toList ++ m.repr.toList) :
    (∀ c ∈ (cableStep s o d).1, ∃ t, c = "cable_".toList ++ t) ∧ (cableStep s o d).1 ≠ [] ∧
      ∀ k ∈ (cableStep s o d).2.codes.map (·.1), ∃ m : Nat, k = "cable".toList ++ m.repr.toList := by
  have fresh : ∀ k ∈ (putCode ("cable".toList ++ (s.count + 1).repr.toList) d s.codes).map (·.1), ∃ m : Nat, k = "cable".toList ++ m.repr.toList := by
    intro k hk
    rw [keys_put] at hk
    split at hk
    · exact hs k hk
    · rcases List.mem_append.mp hk with hk | hk
      · exact hs k hk
      · exact ⟨_, List.mem_singleton.mp hk⟩
  have hn : cableStep s o d = cableStep s none d := by
    rcases ho with rfl | rfl <;> rfl
  rw [hn]
  unfold cableStep
  dsimp only
  by_cases he : s.codes = []
  · rw [if_pos he]
    exact ⟨fun c hc => ⟨_, List.mem_singleton.mp hc⟩, List.cons_ne_nil _ _, fresh⟩
  · rw [if_neg he]
    cases hk : keysOf d s.codes with
    | nil => exact ⟨fun c hc => ⟨_, List.mem_singleton.mp hc⟩, List.cons_ne_nil _ _, fresh⟩
    | cons k ks =>
      refine ⟨fun c hc => ?_, fun hh => (nomatch hh), hs⟩
      obtain ⟨x, -, hx⟩ := List.mem_map.mp hc
      exact ⟨x, hx.symm⟩

/-- **C121**, cables without names: each line refers to a row that is not there. -/
theorem C121_cable_violated (ls : List (Option Text × D)) (h : ∀ p ∈ ls, p.1 = none ∨ p.1 = some []) :
    ∃ cols s, codeLoop (fun s p => cableStep s p.1 p.2) {} ls = (cols, s) ∧
      List.Forall₂ (fun _ c => c ≠ [] ∧ ∀ k ∈ c, k ∉ s.codes.map (·.1)) ls cols := by
  have main : ∀ (ls : List (Option Text × D)) (s : Cables D), (∀ p ∈ ls, p.1 = none ∨ p.1 = some []) →
      (∀ k ∈ s.codes.map (·.1), ∃ m : Nat, k = "cable".toList ++ m.repr.toList) →
      (∀ k ∈ (codeLoop (fun s (p : Option Text × D) => cableStep s p.1 p.2) s ls).2.codes.map (·.1), ∃ m : Nat, k = "cable".toList ++ m.repr.toList) ∧
        List.Forall₂ (fun _ c => c ≠ [] ∧ ∀ k ∈ c, ∃ t, k = "cable_".toList ++ t) ls
          (codeLoop (fun s (p : Option Text × D) => cableStep s p.1 p.2) s ls).1 := by
    intro ls
    induction ls with
    | nil => intro s _ hs; exact ⟨hs, .nil⟩
    | cons p ls ih =>
      intro s hp hs
      obtain ⟨h1, h2, h3⟩ := cableStep_unnamed (hp p (.head _)) p.2 hs
      obtain ⟨h4, h5⟩ := ih (cableStep s p.1 p.2).2 (fun x hx => hp x (.tail _ hx)) h3
      rw [codeLoop]
      exact ⟨h4, .cons ⟨h2, h1⟩ h5⟩
  obtain ⟨h1, h2⟩ := main ls {} h fun k hk => (List.not_mem_nil hk).elim
  refine ⟨_, _, rfl, h2.imp fun _ c ⟨hc, ht⟩ => ⟨hc, fun k hk hm => ?_⟩⟩
  obtain ⟨m, hm⟩ := h1 k hm
  obtain ⟨t, hk⟩ := ht k hk
  rw [hk] at hm
  exact repr_no_underscore m t (List.append_cancel_left (as := "cable".toList) (show "cable".toList ++ '_' :: t = _ from hm)).symm

/-- **C121**, cables with the same name and different data: the first line refers to the data of the second one. -/
theorem C121_renamed_violated {n : Text} (hn : n ≠ []) (d d' : D) :
    codeLoop (fun s (p : Option Text × D) => cableStep s p.1 p.2) {} [(some n, d), (some n, d')] = ([[n], [n]], { codes := [(n, d')], count := 0 }) ∧
      codeLoop (fun s (p : Option Text × D) => overheadStep s p.1 p.2) {} [(some n, d), (some n, d')] =
        ([[n], [n]], { codes := [(.name n, d')], count := 0 }) := by
  have hc : putCode n d' [(n, d)] = [(n, d')] := by rw [putCode, if_pos rfl]
  have ho : putCode (CodeKey.name n) d' [(CodeKey.name n, d)] = [(CodeKey.name n, d')] := by rw [putCode, if_pos rfl]
  constructor
  · rw [codeLoop, codeLoop, codeLoop, cableStep_named _ hn]
    dsimp only
    rw [cableStep_named _ hn]
    show (_, ({ codes := putCode n d' [(n, d)], count := 0 } : Cables D)) = _
    rw [hc]
  · rw [codeLoop, codeLoop, codeLoop, overheadStep_named _ hn]
    dsimp only
    rw [overheadStep_named _ hn]
    show (_, ({ codes := putCode (.name n) d' [(.name n, d)], count := 0 } : Overheads D)) = _
    rw [ho]

/-! ### overhead lines -/

omit [DecidableEq D] in
theorem functional_names {all : List (Text × D)} (h : Functional all) {n : Text} {d d' : D} (hd : (n, d) ∈ all) (hd' : (n, d') ∈ all) : d' = d :=
  h _ hd' _ hd rfl

theorem overheadLoop_named {all : List (Text × D)} (hall : Functional all) : ∀ (ls : List (Option Text × D)) (s : Overheads D) (done : List (Text × D)),
    Registered s.codes (done.map fun e => (CodeKey.name e.1, e.2)) → done ⊆ all → (∀ p ∈ ls, ∃ n, p.1 = some n ∧ n ≠ [] ∧ (n, p.2) ∈ all) →
    ∃ done', Registered (codeLoop (fun s p => overheadStep s p.1 p.2) s ls).2.codes (done'.map fun e => (CodeKey.name e.1, e.2)) ∧ done ⊆ done' ∧ done' ⊆ all ∧
      List.Forall₂ (fun p c => ∃ n, p.1 = some n ∧ c = [n] ∧ (n, p.2) ∈ done') ls (codeLoop (fun s p => overheadStep s p.1 p.2) s ls).1 := by
  intro ls
  induction ls with
  | nil =>
    intro s done hs hd _
    exact ⟨done, hs, fun _ h => h, hd, .nil⟩
  | cons p ls ih =>
    intro s done hs hd hp
    obtain ⟨n, hn, he, hm⟩ := hp p (.head _)
    have hstep : overheadStep s p.1 p.2 = ([n], { s with codes := putCode (.name n) p.2 s.codes }) := by
      rw [hn]
      exact overheadStep_named s he p.2
    rw [codeLoop, hstep]
    have hput := registered_put hs (k := CodeKey.name n) (d := p.2) fun d' h => by
      obtain ⟨e, hm', heq⟩ := List.mem_map.mp h
      obtain ⟨h1, h2⟩ := Prod.mk.inj heq
      obtain ⟨a, b⟩ := e
      dsimp only at h1 h2
      cases h1
      rw [← h2]
      exact functional_names hall hm (hd hm')
    obtain ⟨done', h1, h2, h3, h4⟩ := ih { s with codes := putCode (.name n) p.2 s.codes } (done ++ [(n, p.2)])
      (by rw [List.map_append]; exact hput) (List.append_subset.mpr ⟨hd, List.cons_subset.mpr ⟨hm, List.nil_subset _⟩⟩)
      fun x hx => hp x (.tail _ hx)
    exact ⟨done', h1, fun x hx => h2 (List.mem_append_left _ hx), h3, .cons ⟨n, hn, rfl, h2 (List.mem_append_right _ (.head _))⟩ h4⟩

/-- **C121**, overhead lines: if all of them have names and those with the same name have the same data, each line refers to the row with its data. There
are no other rows. -/
theorem C121_overheads_partial (ls : List (Option Text × D)) (h : WellNamed ls) :
    ∃ cols s, codeLoop (fun s p => overheadStep s p.1 p.2) {} ls = (cols, s) ∧
      List.Forall₂ (fun p c => ∃ n, p.1 = some n ∧ c = [n] ∧ HasData (overheadRows s.codes) n p.2) ls cols ∧
      ∀ e ∈ overheadRows s.codes, (some e.1, e.2) ∈ ls := by
  obtain ⟨all, hall, h1, h2⟩ := wellNamed_all h
  obtain ⟨done, h3, -, h5, h6⟩ := overheadLoop_named hall ls {} [] ⟨List.nodup_nil, fun _ => Iff.rfl⟩ (List.nil_subset _) h1
  have rows : ∀ e, e ∈ overheadRows (codeLoop (fun s (p : Option Text × D) => overheadStep s p.1 p.2) {} ls).2.codes ↔ e ∈ done := by
    intro e
    unfold overheadRows
    rw [List.mem_map]
    constructor
    · rintro ⟨k, hk, rfl⟩
      obtain ⟨x, hx, rfl⟩ := List.mem_map.mp ((h3.2 k).mp hk)
      exact hx
    · intro he
      exact ⟨(.name e.1, e.2), (h3.2 _).mpr (List.mem_map.mpr ⟨e, he, rfl⟩), rfl⟩
  refine ⟨_, _, rfl, h6.imp fun p c ⟨n, hn, hc, hm⟩ => ⟨n, hn, hc, (rows _).mpr hm, fun d' hd => ?_⟩, fun e he => h2 e (h5 ((rows e).mp he))⟩
  exact functional_names hall (h5 hm) (h5 ((rows _).mp hd))

/-- what holds after some overhead lines without names -/
structure Numbered (s : Overheads D) : Prop where
  data : (s.codes.map (·.2)).Nodup
  ids : ((overheadRows s.codes).map (·.1)).Nodup
  keys : ∀ e ∈ s.codes, e.1 = .number 1 ∨ ∃ i, 2 ≤ i ∧ i ≤ s.count ∧ e.1 = .name ("line_".toList ++ i.repr.toList)
  some_line : s.codes ≠ []
  pos : 1 ≤ s.count

theorem put_new {K : Type} [DecidableEq K] (k : K) (d : D) : ∀ {codes : List (K × D)}, k ∉ codes.map (·.1) → putCode k d codes = codes ++ [(k, d)] := by
  intro codes
  induction codes with
  | nil => intro _; rfl
  | cons e l ih =>
    intro h
    rw [List.map_cons, List.mem_cons, not_or] at h
    rw [putCode, if_neg (fun hh => h.1 hh.symm), ih h.2, List.cons_append]

theorem keysOf_one {K : Type} {codes : List (K × D)} (h : (codes.map (·.2)).Nodup) {k : K} {d : D} (hm : (k, d) ∈ codes) : keysOf d codes = [k] := by
  unfold keysOf
  induction codes with
  | nil => cases hm
  | cons e l ih =>
    rw [List.map_cons, List.nodup_cons] at h
    rcases List.mem_cons.mp hm with rfl | hm
    · rw [List.filter_cons_of_pos (p := fun e : K × D => decide (e.2 = d)) (decide_eq_true rfl), List.filter_eq_nil_iff.mpr]
      · rfl
      · intro x hx hh
        exact h.1 (List.mem_map.mpr ⟨x, hx, of_decide_eq_true hh⟩)
    · have hne : e.2 ≠ d := fun hh => h.1 (List.mem_map.mpr ⟨_, hm, hh.symm⟩)
      rw [List.filter_cons_of_neg (p := fun e : K × D => decide (e.2 = d)) (fun hh => hne (of_decide_eq_true hh))]
      exact ih h.2 hm

theorem overheadStep_numbered {s : Overheads D} (hs : Numbered s) {o : Option Text} (ho : o = none ∨ o = some []) (d : D) :
    ∃ k, (overheadStep s o d).1 = [k] ∧ (k, d) ∈ overheadRows (overheadStep s o d).2.codes ∧ s.codes ⊆ (overheadStep s o d).2.codes ∧
      Numbered (overheadStep s o d).2 := by
  have hn : overheadStep s o d = overheadStep s none d := by rcases ho with rfl | rfl <;> rfl
  rw [hn]
  unfold overheadStep
  dsimp only
  rw [if_neg hs.some_line]
  by_cases hm : ∃ k, (k, d) ∈ s.codes
  · obtain ⟨k, hm⟩ := hm
    rw [keysOf_one hs.data hm]
    exact ⟨k.text, rfl, List.mem_map.mpr ⟨_, hm, rfl⟩, fun _ h => h, hs⟩
  · have hd : ∀ e ∈ s.codes, e.2 ≠ d := fun e he hh => hm ⟨e.1, by rw [← hh]; exact he⟩
    rw [keysOf_nil hd]
    dsimp only
    have hk : CodeKey.name ("line_".toList ++ (s.count + 1).repr.toList) ∉ s.codes.map (·.1) := by
      intro hh
      obtain ⟨e, he, hek⟩ := List.mem_map.mp hh
      rcases hs.keys e he with h1 | ⟨i, -, h2, h3⟩
      · rw [h1] at hek
        cases hek
      · rw [h3] at hek
        have := repr_inj (List.append_cancel_left (CodeKey.name.inj hek))
        omega
    rw [put_new _ _ hk]
    refine ⟨_, rfl, ?_, List.subset_append_left _ _, ?_, ?_, ?_, ?_, ?_⟩
    · exact List.mem_map.mpr ⟨_, List.mem_append_right _ (.head _), rfl⟩
    · dsimp only
      rw [List.map_append]
      refine hs.data.append (List.nodup_singleton _) fun x hx hx' => ?_
      obtain ⟨e, he, hed⟩ := List.mem_map.mp hx
      exact hd e he (hed.trans (List.mem_singleton.mp hx'))
    · dsimp only [overheadRows]
      rw [List.map_append, List.map_append]
      refine hs.ids.append (List.nodup_singleton _) fun x hx hx' => ?_
      obtain ⟨y, hy, hyx⟩ := List.mem_map.mp hx
      obtain ⟨e, he, hey⟩ := List.mem_map.mp hy
      have hx'' : x = "line_".toList ++ (s.count + 1).repr.toList := List.mem_singleton.mp hx'
      rw [← hyx, ← hey] at hx''
      dsimp only at hx''
      rcases hs.keys e he with h1 | ⟨i, -, h2, h3⟩
      · rw [h1, show (CodeKey.number 1).text = "1".toList by decide] at hx''
        exact absurd (show some '1' = some 'l' from congrArg List.head? hx'') (by decide)
      · rw [h3] at hx''
        have := repr_inj (List.append_cancel_left (show "line_".toList ++ i.repr.toList = _ from hx''))
        omega
    · intro e he
      rcases List.mem_append.mp he with he | he
      · rcases hs.keys e he with h1 | ⟨i, h1, h2, h3⟩
        · exact .inl h1
        · exact .inr ⟨i, h1, Nat.le_succ_of_le h2, h3⟩
      · rw [List.mem_singleton.mp he]
        exact .inr ⟨s.count + 1, Nat.succ_le_succ hs.pos, Nat.le_refl _, rfl⟩
    · exact List.append_ne_nil_of_left_ne_nil hs.some_line _
    · exact Nat.le_succ_of_le hs.pos

theorem overheadLoop_numbered : ∀ (ls : List (Option Text × D)) (s : Overheads D), Numbered s → (∀ p ∈ ls, p.1 = none ∨ p.1 = some []) →
    Numbered (codeLoop (fun s p => overheadStep s p.1 p.2) s ls).2 ∧ s.codes ⊆ (codeLoop (fun s p => overheadStep s p.1 p.2) s ls).2.codes ∧
      List.Forall₂ (fun p c => ∃ k, c = [k] ∧ (k, p.2) ∈ overheadRows (codeLoop (fun s p => overheadStep s p.1 p.2) s ls).2.codes) ls
        (codeLoop (fun s p => overheadStep s p.1 p.2) s ls).1 := by
  intro ls
  induction ls with
  | nil => intro s hs _; exact ⟨hs, fun _ h => h, .nil⟩
  | cons p ls ih =>
    intro s hs hp
    obtain ⟨k, h1, h2, h3, h4⟩ := overheadStep_numbered hs (hp p (.head _)) p.2
    obtain ⟨h5, h6, h7⟩ := ih (overheadStep s p.1 p.2).2 h4 fun x hx => hp x (.tail _ hx)
    rw [codeLoop]
    exact ⟨h5, fun x hx => h6 (h3 hx), .cons ⟨k, h1, List.map_subset _ h6 h2⟩ h7⟩

/-- **C121**, overhead lines without names: all but the first one refer to the row with their data, the first one refers to "line_1", which is not there:
its data have the identifier "1". -/
theorem C121_first_violated (p : Option Text × D) (ls : List (Option Text × D)) (h : ∀ q ∈ p :: ls, q.1 = none ∨ q.1 = some []) :
    ∃ cols s, codeLoop (fun s p => overheadStep s p.1 p.2) {} (p :: ls) = (["line_1".toList] :: cols, s) ∧
      "line_1".toList ∉ (overheadRows s.codes).map (·.1) ∧ HasData (overheadRows s.codes) "1".toList p.2 ∧
      List.Forall₂ (fun q c => ∃ k, c = [k] ∧ HasData (overheadRows s.codes) k q.2) ls cols := by
  have hfirst : overheadStep ({} : Overheads D) p.1 p.2 = (["line_1".toList], { codes := [(.number 1, p.2)], count := 1 }) := by
    have hn : overheadStep ({} : Overheads D) p.1 p.2 = overheadStep {} none p.2 := by rcases h p (.head _) with hp | hp <;> rw [hp] <;> rfl
    have hl : "line_".toList ++ (0 + 1).repr.toList = "line_1".toList := by decide
    rw [hn]
    show (["line_".toList ++ (0 + 1).repr.toList], ({ codes := [(.number 1, p.2)], count := 1 } : Overheads D)) = _
    rw [hl]
  have hs : Numbered ({ codes := [(.number 1, p.2)], count := 1 } : Overheads D) :=
    ⟨List.nodup_singleton _, List.nodup_singleton _, fun e he => .inl (by rw [List.mem_singleton.mp he]), List.cons_ne_nil _ _, Nat.le_refl 1⟩
  obtain ⟨h1, h2, h3⟩ := overheadLoop_numbered ls _ hs fun x hx => h x (.tail _ hx)
  have has : ∀ {k : Text} {d : D}, (k, d) ∈ overheadRows (codeLoop (fun s (p : Option Text × D) => overheadStep s p.1 p.2)
      { codes := [(.number 1, p.2)], count := 1 } ls).2.codes → HasData (overheadRows (codeLoop (fun s (p : Option Text × D) => overheadStep s p.1 p.2)
      { codes := [(.number 1, p.2)], count := 1 } ls).2.codes) k d := fun {k d} hm =>
    ⟨hm, fun d' hd => Option.some.inj (((codeOf_iff h1.ids k d').mpr hd).symm.trans ((codeOf_iff h1.ids k d).mpr hm))⟩
  rw [codeLoop, hfirst]
  refine ⟨_, _, rfl, ?_, has (List.mem_map.mpr ⟨_, h2 (.head _), rfl⟩), h3.imp fun q c ⟨k, hc, hm⟩ => ⟨k, hc, has hm⟩⟩
  intro hm
  obtain ⟨y, hy, hyx⟩ := List.mem_map.mp hm
  obtain ⟨e, he, hey⟩ := List.mem_map.mp hy
  rw [← hey] at hyx
  dsimp only at hyx
  rcases h1.keys e he with h4 | ⟨i, h4, -, h5⟩
  · rw [h4] at hyx
    exact absurd (congrArg List.head? hyx) (by decide)
  · rw [h5] at hyx
    have := repr_inj (List.append_cancel_left (show "line_".toList ++ i.repr.toList = "line_".toList ++ (1 : Nat).repr.toList from hyx))
    omega

/-- **C121**, one more column: a line without a name whose data two named lines have gets both identifiers, which moves all the columns that follow. -/
theorem C121_columns_violated {n m : Text} (hn : n ≠ []) (hm : m ≠ []) (hd : n ≠ m) (d : D) :
    (codeLoop (fun s (p : Option Text × D) => overheadStep s p.1 p.2) {} [(some n, d), (some m, d), (none, d)]).1 = [[n], [m], [n, m]] := by
  rw [codeLoop, codeLoop, codeLoop, codeLoop, overheadStep_named _ hn]
  dsimp only
  rw [overheadStep_named _ hm]
  dsimp only
  have hc : putCode (CodeKey.name m) d (putCode (CodeKey.name n) d []) = [(CodeKey.name n, d), (CodeKey.name m, d)] := by
    show putCode (CodeKey.name m) d [(CodeKey.name n, d)] = _
    rw [putCode, if_neg (fun hh => hd (CodeKey.name.inj hh))]
    rfl
  rw [hc]
  have hk : keysOf d [(CodeKey.name n, d), (CodeKey.name m, d)] = [.name n, .name m] := by
    unfold keysOf
    rw [List.filter_cons_of_pos (p := fun e : CodeKey × D => decide (e.2 = d)) (decide_eq_true rfl),
      List.filter_cons_of_pos (p := fun e : CodeKey × D => decide (e.2 = d)) (decide_eq_true rfl)]
    rfl
  unfold overheadStep
  dsimp only
  rw [if_neg (List.cons_ne_nil _ _), hk]
  rfl

end

/-! ### examples -/

def wholeText (q : ℚ) : Text := q.floor.toNat.repr.toList

/-- two switches of one kind, one without a current, one without a name -/
def someDevices : List (DeviceLine ℚ) :=
  [{ name := some "sw".toList, voltage := some 7200, amps := [some 400, none] }, { name := some "sw".toList, voltage := some 7200, amps := [none] },
    { name := some "sw".toList, voltage := some 7200, amps := [some 400] }, { name := none, voltage := none, amps := [] },
    { name := some "sw".toList, voltage := some 240, amps := [some 400] }]

example : (deviceLoop wholeText [] someDevices).toOption = some
    ([["sw_7200_400".toList], ["DEFAULT".toList], ["sw_7200_400".toList], ["DEFAULT".toList], ["sw_240_400".toList]],
      [("sw_7200_400".toList, 400, 36 / 5), ("sw_240_400".toList, 400, 6 / 25)]) := by decide +kernel

example : ∀ l ∈ someDevices, ∀ n ∈ l.name.toList, n ≠ [] → l.amps ≠ [] := by decide +kernel

/-- two devices that differ less than in whole numbers -/
example : wholeText (7200 : ℚ) = wholeText (14401 / 2 : ℚ) ∧ ((400 : ℚ), (7200 : ℚ) / 1000) ≠ (400, 14401 / 2 / 1000) := by decide +kernel

/-- a device whose name has other data and whose data have two names -/
example : deviceCode [("x".toList, 1), ("y".toList, 2), ("z".toList, 2)] "x".toList 2 = (["y".toList, "z".toList], [("x".toList, 1), ("y".toList, 2), ("z".toList, 2)]) := by
  decide +kernel

/-- wires of two lines -/
def namedWires : List (List (CodeWire Nat)) :=
  [[{ phase := "A".toList, name := some "acsr".toList, data := 1 }, { phase := "N".toList, name := some "cu".toList, data := 2 }],
    [{ phase := "B".toList, name := some "cu".toList, data := 2 }, { phase := "C".toList, name := some "al".toList, data := 3 },
      { phase := "N1".toList, name := some "cu".toList, data := 2 }, { phase := "N2".toList, name := some "acsr".toList, data := 1 }]]

example : WellNamed (namedWires.flatten.map fun w => (w.name, w.data)) := by
  refine ⟨?_, by decide +kernel⟩
  have h : ∀ p ∈ namedWires.flatten.map (fun w => (w.name, w.data)), p.1 ≠ none ∧ p.1 ≠ some [] := by decide +kernel
  intro p hp
  cases hn : p.1 with
  | none => exact ((h p hp).1 hn).elim
  | some n => exact ⟨n, rfl, fun he => (h p hp).2 (by rw [hn, he])⟩

example : ∀ w ∈ namedWires.flatten, w.name ≠ some "DEFAULT".toList := by decide +kernel

example : (codeLoop (fun s ws => conductorLoop s [] ws) {} namedWires).1.map (fun r => byPhaseColumns "s".toList r 2) =
    [["s".toList, "acsr".toList, "NONE".toList, "NONE".toList, "cu".toList, "NONE".toList, "N_ABOVE_2PH".toList],
      ["s".toList, "NONE".toList, "cu".toList, "al".toList, "cu".toList, "acsr".toList, "N_ABOVE_2PH".toList]] := by decide +kernel

/-- wires without names: the first use refers to "1", the second one to the row -/
example : codeLoop conductorStep ({} : Conductors Nat) [{ phase := "A".toList, name := none, data := 1 }, { phase := "B".toList, name := some [], data := 1 },
      { phase := "C".toList, name := none, data := 2 }] =
    (["1".toList, "conductor_1".toList, "2".toList], { codes := [("conductor_1".toList, 1), ("conductor_2".toList, 2)], count := 2 }) := by decide +kernel

/-- cables without names -/
example : codeLoop (fun s (p : Option Text × Nat) => cableStep s p.1 p.2) {} [(none, 1), (some [], 2), (none, 1)] =
    ([["cable_1".toList], ["cable_2".toList], ["cable_cable1".toList]], { codes := [("cable1".toList, 1), ("cable2".toList, 2)], count := 2 }) := by
  decide +kernel

/-- overhead lines with and without names -/
example : codeLoop (fun s (p : Option Text × Nat) => overheadStep s p.1 p.2) {} [(none, 1), (none, 2), (none, 1), (some "x".toList, 2), (some [], 2)] =
    ([["line_1".toList], ["line_2".toList], ["1".toList], ["x".toList], ["line_2".toList, "x".toList]],
      { codes := [(.number 1, 1), (.name "line_2".toList, 2), (.name "x".toList, 2)], count := 2 }) := by decide +kernel

example : WellNamed [(some "x".toList, 1), (some "y".toList, 2), (some "x".toList, 1)] := by
  refine ⟨?_, by decide⟩
  intro p hp
  rcases List.mem_cons.mp hp with rfl | hp
  · exact ⟨_, rfl, by decide⟩
  rcases List.mem_cons.mp hp with rfl | hp
  · exact ⟨_, rfl, by decide⟩
  rw [List.mem_singleton.mp hp]
  exact ⟨_, rfl, by decide⟩

/-- A wire without name takes the last of the codes with its data. -/
theorem C121_last {D : Type} [DecidableEq D] (s : Conductors D) (w : CodeWire D) (hn : w.name = none) (pre post : List (Text × D)) (k : Text)
    (h : s.codes = pre ++ (k, w.data) :: post) (hp : ∀ e ∈ post, e.2 ≠ w.data) : conductorStep s w = (k, s) := by
  have hlast : (keysOf w.data s.codes).getLast? = some k := by
    unfold keysOf
    rw [h, List.filter_append, List.filter_cons_of_pos (p := fun e : Text × D => decide (e.2 = w.data)) (decide_eq_true rfl),
      List.filter_eq_nil_iff.mpr fun e he hh => hp e he (of_decide_eq_true hh), List.map_append]
    exact List.getLast?_concat
  unfold conductorStep
  rw [hlast, hn]

example : conductorStep ⟨[("a".toList, 1), ("b".toList, 1), ("c".toList, 2)], 0⟩ ⟨['A'], none, 1⟩ = ("b".toList, ⟨[("a".toList, 1), ("b".toList, 1), ("c".toList, 2)], 0⟩) :=
  C121_last _ _ rfl [("a".toList, 1)] [("c".toList, 2)] _ rfl (by decide)

end Ditto.Cyme
