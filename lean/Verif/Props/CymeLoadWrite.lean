import Verif.Spec.CymeLoadWrite
import Verif.Lemmas.CymeRegWrite
import Mathlib.Tactic.Ring
import Mathlib.Algebra.Field.Rat
import Mathlib.Algebra.Order.Ring.Rat

/-! C82: the loads that the CYME writer writes. -/
namespace Ditto.Cyme
open Ditto Glm Spec

section numbers
variable {K : Type} [Field K]

theorem phasesOut_eq (l : LoadOut K) : phasesOut l = phaseLoadsOf l := rfl

theorem phaseText_eq (ps : List (PhaseOut K)) : phaseText ps = (ps.filterMap (·.phase)).flatten := by
  induction ps with
  | nil => rfl
  | cons p ps ih =>
    rw [phaseText, List.filterMap_cons]
    cases p.phase with
    | none => exact ih
    | some t => dsimp only; rw [ih, List.flatten_cons]

theorem totalKilo_sum {f : PhaseOut K → Option K} {ps : List (PhaseOut K)} (h : ∀ p ∈ ps, p.phase ≠ none) :
    totalKilo f ps = (ps.filterMap f).sum / 1000 := by
  have key : ∀ s, ps.foldl (addKilo f) s = s + (ps.filterMap f).sum / 1000 := by
    induction ps with
    | nil => intro s; rw [List.foldl_nil, List.filterMap_nil, List.sum_nil, zero_div, add_zero]
    | cons p ps ih =>
      intro s
      obtain ⟨t, ht⟩ := Option.ne_none_iff_exists'.mp (h p List.mem_cons_self)
      rw [List.foldl_cons, ih (fun x hx => h x (List.mem_cons_of_mem _ hx)), List.filterMap_cons]
      unfold addKilo
      rw [ht]
      cases f p with
      | none => rfl
      | some x => dsimp only; rw [List.sum_cons]; ring
  unfold totalKilo
  rw [key, zero_add]

theorem loadId_eq (hash : Text → Text) (l : LoadOut K) (e : Text) : sectionId hash e l.name = sectionOfLoad hash l e := by
  unfold sectionId sectionOfLoad
  rw [show e ++ "_".toList ++ l.name = e ++ '_' :: l.name by rw [List.append_assoc]; rfl]
  by_cases h : (e ++ '_' :: l.name).length ≤ 64
  · rw [if_neg (by omega), if_pos h]
  · rw [if_pos (by omega), if_neg h]

theorem connectionField_ok (l : LoadOut K) : IsLoadWiring l (connectionField l) := by
  unfold IsLoadWiring connectionField
  cases l.connection with
  | none => rfl
  | some c =>
    dsimp only
    cases l.tapped with
    | true => exact ⟨fun _ => rfl, fun h => nomatch h⟩
    | false =>
      refine ⟨(fun h => nomatch h), fun _ => ?_⟩
      show (c, rowValue (connectionCode c)) ∈ wiringCodes ∨ _ ∧ rowValue (connectionCode c) = []
      unfold connectionCode
      split_ifs with h1 h2 h3
      · rw [h1]; exact Or.inl (by decide)
      · rw [h2]; exact Or.inl (by decide)
      · rw [h3]; exact Or.inl (by decide)
      · refine Or.inr ⟨?_, rfl⟩
        intro w hw
        simp only [wiringCodes, List.mem_cons, List.not_mem_nil, or_false] at hw
        rcases hw with rfl | rfl | rfl
        · exact fun h => h1 h.symm
        · exact fun h => h2 h.symm
        · exact fun h => h3 h.symm

theorem customerType_eq (l : LoadOut K) : customerType l = typeOf l := by
  unfold customerType typeOf
  cases l.label with
  | none => rfl
  | some t =>
    dsimp only
    by_cases h : t = []
    · rw [if_pos h, if_pos (Or.inr (by rw [h]))]
    · rw [if_neg h, if_neg]
      · rfl
      · rintro (hc | hc)
        · cases hc
        · injection hc with hc; exact h hc

theorem powerField_eq (pr : K → Text) (l : LoadOut K) (x : K) : powerField pr l x = shown pr (untapped l x) := by
  unfold powerField untapped
  cases l.tapped <;> rfl

theorem tapFields_eq (pr : K → Text) {l : LoadOut K} (h : ∀ p ∈ phaseLoadsOf l, p.phase ≠ none) :
    tapFields pr l = [shown pr (ofTap l fun a _ => a * 100), shown pr (ofTap l fun _ b => b * 100), shown pr (ofTap l fun a _ => activeOf l * a),
      shown pr (ofTap l fun a _ => reactiveOf l * a), shown pr (ofTap l fun _ b => activeOf l * b), shown pr (ofTap l fun _ b => reactiveOf l * b)] := by
  unfold tapFields ofTap
  rw [phasesOut_eq, totalKilo_sum h, totalKilo_sum h]
  cases l.first <;> cases l.second <;> cases l.both <;> cases l.tapped <;> rfl

theorem loadLine_eq (hash : Text → Text) {l : LoadOut K} {e : Text} (h : Connected l e) :
    loadLine hash l = joinCells ((loadColumns hash l e (connectionField l)).map (·.2)) := by
  unfold loadLine loadStart
  rw [h.1]
  dsimp only
  rw [loadId_eq, List.append_assoc, List.cons_append, join_commas]
  rfl

theorem customerLine_eq (pr : K → Text) (hash : Text → Text) {l : LoadOut K} {e : Text} (h : Connected l e) :
    customerLine pr hash l = joinCells ((customerColumns pr hash l e).map (·.2)) := by
  unfold customerLine loadStart
  rw [h.1]
  dsimp only
  rw [loadId_eq, List.append_assoc, List.cons_append, join_commas, customerType_eq, powerField_eq, powerField_eq, tapFields_eq pr h.2, phaseText_eq,
    phasesOut_eq, totalKilo_sum h.2, totalKilo_sum h.2]
  rfl

theorem loads_format_eq : loadsFormat = "FORMAT_LOADS".toList ++ "=".toList ++ joinCells loadNames := by decide +kernel

theorem customers_format_eq : customersFormat = "FORMAT_CUSTOMERLOADS".toList ++ "=".toList ++ joinCells customerNames := by decide +kernel

theorem loads_file (pr : K → Text) (hash : Text → Text) (date : Text) {loads : List (LoadOut K)} {e : LoadOut K → Text}
    (h : ∀ l ∈ loads, Connected l (e l)) :
    (writeLoads pr hash date loads).1 = loadFileOf date (loads.map fun l => (loadColumns hash l (e l) (connectionField l)).map (·.2))
      (loads.map fun l => (customerColumns pr hash l (e l)).map (·.2)) := by
  unfold writeLoads loadFileOf tableLines
  dsimp only
  rw [loads_format_eq, customers_format_eq, List.map_map, List.map_map,
    List.map_congr_left (fun l hl => show loadLine hash l ++ ['\n'] = ((fun r => joinCells r ++ ['\n']) ∘ fun l =>
      (loadColumns hash l (e l) (connectionField l)).map (·.2)) l by rw [loadLine_eq hash (h l hl)]; rfl),
    List.map_congr_left (fun l hl => show customerLine pr hash l ++ ['\n'] = ((fun r => joinCells r ++ ['\n']) ∘ fun l =>
      (customerColumns pr hash l (e l)).map (·.2)) l by rw [customerLine_eq pr hash (h l hl)]; rfl)]
  simp only [List.append_assoc, List.cons_append, List.nil_append]
  rfl

theorem deltaSection_ok (head : Text) {l : LoadOut K} (h : ∀ p ∈ phaseLoadsOf l, p.phase ≠ none) :
    ∃ t, IsOnPhases l t ∧ deltaSection (head ++ loadLetters l) l = head ++ t := by
  unfold deltaSection
  rw [phasesOut_eq]
  have hother : ∀ hne : ¬(l.connection = some "D".toList ∧ (phaseLoadsOf l).length = 1 ∧ ∃ w ∈ deltaPairs, w.1 = loadLetters l),
      IsOnPhases l (loadLetters l) := by
    intro hne
    unfold IsOnPhases
    rw [if_neg hne]
  split
  · rename_i p hp
    obtain ⟨t, ht⟩ := Option.ne_none_iff_exists'.mp (h p (by rw [hp]; exact List.mem_singleton.mpr rfl))
    have hl : loadLetters l = t := by
      unfold loadLetters
      rw [hp, List.filterMap_cons, ht]
      exact List.append_nil t
    rw [ht]
    have hmem : nextPhase (some t) = none → ¬∃ w ∈ deltaPairs, w.1 = loadLetters l := by
      rintro hn ⟨w, hw, he⟩
      rw [hl] at he
      rw [← he] at hn
      simp only [deltaPairs, List.mem_cons, List.not_mem_nil, or_false] at hw
      rcases hw with rfl | rfl | rfl <;> exact absurd hn (by decide)
    split
    · rename_i hn
      exact ⟨loadLetters l, hother fun hc => hmem hn hc.2.2, rfl⟩
    · rename_i c hc
      have hcase : (t = "A".toList ∧ c = 'B') ∨ (t = "B".toList ∧ c = 'C') ∨ (t = "C".toList ∧ c = 'A') := by
        unfold nextPhase at hc
        split_ifs at hc with h1 h2 h3
        · injection h1 with h1; injection hc with hc; exact Or.inl ⟨h1, hc.symm⟩
        · injection h2 with h2; injection hc with hc; exact Or.inr (Or.inl ⟨h2, hc.symm⟩)
        · injection h3 with h3; injection hc with hc; exact Or.inr (Or.inr ⟨h3, hc.symm⟩)
      by_cases hd : l.connection = some "D".toList
      · rw [if_pos hd]
        have cut : ∀ x : Char, (head ++ [x]).dropLast = head ∧ (head ++ [x]).drop ((head ++ [x]).length - 1) = [x] := by
          intro x
          refine ⟨List.dropLast_concat, ?_⟩
          rw [List.length_append, List.length_singleton, Nat.add_sub_cancel, List.drop_left]
        have hlen : (phaseLoadsOf l).length = 1 := by rw [hp]; rfl
        unfold IsOnPhases
        rw [hl]
        rcases hcase with ⟨rfl, rfl⟩ | ⟨rfl, rfl⟩ | ⟨rfl, rfl⟩
        · refine ⟨"AB".toList, ?_, ?_⟩
          · rw [if_pos ⟨hd, hlen, by decide⟩]; decide
          · rw [show "A".toList = ['A'] from rfl, (cut 'A').1, (cut 'A').2]; rfl
        · refine ⟨"BC".toList, ?_, ?_⟩
          · rw [if_pos ⟨hd, hlen, by decide⟩]; decide
          · rw [show "B".toList = ['B'] from rfl, (cut 'B').1, (cut 'B').2]; rfl
        · refine ⟨"AC".toList, ?_, ?_⟩
          · rw [if_pos ⟨hd, hlen, by decide⟩]; decide
          · rw [show "C".toList = ['C'] from rfl, (cut 'C').1, (cut 'C').2]; rfl
      · rw [if_neg hd]
        exact ⟨loadLetters l, hother fun hc => hd hc.1, rfl⟩
  · rename_i hne
    refine ⟨loadLetters l, hother ?_, rfl⟩
    rintro ⟨-, hlen, -⟩
    obtain ⟨p, hp⟩ := List.length_eq_one_iff.mp hlen
    exact hne p hp

theorem section_eq (hash : Text → Text) {l : LoadOut K} {e : Text} (h : Connected l e) :
    ∃ t, IsOnPhases l t ∧ loadSection hash l = some (joinCells [sectionOfLoad hash l e, e, "0".toList, l.name, "0".toList, t]) := by
  have hj : ∀ t, joinCells [sectionOfLoad hash l e, e, "0".toList, l.name, "0".toList, t] =
      joinCells [sectionOfLoad hash l e, e, "0".toList, l.name, "0".toList] ++ ',' :: t := by
    intro t
    simp only [joinCells, List.append_assoc, List.cons_append, List.nil_append]
  obtain ⟨t, h1, h2⟩ := deltaSection_ok (joinCells [sectionOfLoad hash l e, e, "0".toList, l.name, "0".toList] ++ [',']) h.2
  refine ⟨t, h1, ?_⟩
  unfold loadSection
  rw [h.1]
  dsimp only
  rw [loadId_eq, join_commas, phaseText_eq, phasesOut_eq, hj]
  rw [List.append_assoc, List.append_assoc, List.singleton_append, List.singleton_append] at h2
  rw [hj, ← h2]
  rfl

/-- C82. Each load gets a row among the loads with its connection, a row among the customer loads with its phases and its powers, and a section from its
node to itself; all of them are in the columns that are named. Missing are phase loads without phase (`C82_unphased_violated`), loads without node
(`C82_no_element_violated`), center taps without shares (`C82_tap_violated`), and reading back (`C82_back_violated`). -/
theorem C82_loads_partial (pr : K → Text) (hash : Text → Text) (date : Text) {loads : List (LoadOut K)} (h : ∀ l ∈ loads, ∃ e, Connected l e) :
    ∃ rows customers sections, writeLoads pr hash date loads = (loadFileOf date rows customers, sections) ∧
      List.Forall₂ (fun l row => ∃ e code, Connected l e ∧ IsLoadWiring l code ∧ HasColumns loadNames (loadColumns hash l e code) row) loads rows ∧
      List.Forall₂ (fun l row => ∃ e, Connected l e ∧ HasColumns customerNames (customerColumns pr hash l e) row) loads customers ∧
      List.Forall₂ (fun l line => ∃ e t, Connected l e ∧ IsOnPhases l t ∧
        line = joinCells [sectionOfLoad hash l e, e, "0".toList, l.name, "0".toList, t]) loads sections := by
  have hw : ∀ l : LoadOut K, ∃ e, l ∈ loads → Connected l e := by
    intro l
    by_cases hl : l ∈ loads
    · obtain ⟨e, he⟩ := h l hl
      exact ⟨e, fun _ => he⟩
    · exact ⟨[], fun hc => absurd hc hl⟩
  choose e he using hw
  refine ⟨_, _, (writeLoads pr hash date loads).2, Prod.ext (loads_file pr hash date he) rfl, ?_, ?_, ?_⟩
  · rw [List.forall₂_map_right_iff, List.forall₂_same]
    exact fun l hl => ⟨e l, _, he l hl, connectionField_ok l, rfl, rfl⟩
  · rw [List.forall₂_map_right_iff, List.forall₂_same]
    exact fun l hl => ⟨e l, he l hl, rfl, rfl⟩
  · unfold writeLoads
    dsimp only
    clear h
    induction loads with
    | nil => exact .nil
    | cons l loads ih =>
      obtain ⟨t, h1, h2⟩ := section_eq hash (he l List.mem_cons_self)
      rw [List.filterMap_cons, h2]
      exact .cons ⟨e l, t, he l List.mem_cons_self, h1, rfl⟩ (ih fun l hl => he l (List.mem_cons_of_mem _ hl))

/-- The powers of center taps without shares are not written: another load with the same phases has the same rows. -/
theorem C82_tap_violated (pr : K → Text) (hash : Text → Text) {l l' : LoadOut K} (ht : l.tapped = true)
    (hs : l.first = none ∨ l.second = none ∨ l.both = none) {ps : List (PhaseOut K)} (hp : ps.map (fun p => (p.phase, p.drop)) = l.phases.map fun p => (p.phase, p.drop))
    (hl : l' = { l with phases := ps }) : customerLine pr hash l' = customerLine pr hash l ∧ loadLine hash l' = loadLine hash l := by
  subst hl
  refine ⟨?_, rfl⟩
  have htext : phaseText (phasesOut { l with phases := ps }) = phaseText (phasesOut l) := by
    unfold phasesOut
    dsimp only
    generalize l.phases = qs at hp
    induction ps generalizing qs with
    | nil => cases qs with
      | nil => rfl
      | cons q qs => cases hp
    | cons p ps ih =>
      cases qs with
      | nil => cases hp
      | cons q qs =>
        rw [List.map_cons, List.map_cons] at hp
        injection hp with h1 h2
        injection h1 with h1 h3
        rw [List.filter_cons, List.filter_cons, h3]
        have := ih qs h2
        split
        · rw [phaseText, phaseText, h1, this]
        · exact this
  have htap : ∀ x : LoadOut K, (x.first = none ∨ x.second = none ∨ x.both = none) → tapFields pr x = [[], [], [], [], [], []] := by
    intro x hx
    unfold tapFields
    rcases hx with h | h | h <;> rw [h]
    · cases x.first <;> rfl
    · cases x.first <;> cases x.second <;> rfl
  unfold customerLine
  rw [htext, htap l hs, htap { l with phases := ps } hs]
  unfold powerField
  dsimp only
  rw [if_pos ht, if_pos ht, if_pos ht, if_pos ht]
  rfl

/-- A phase load without phase is not in the row. -/
theorem C82_unphased_violated (pr : K → Text) (hash : Text → Text) (l : LoadOut K) {ps qs : List (PhaseOut K)} {p : PhaseOut K} (hp : p.phase = none)
    (hl : l.phases = ps ++ p :: qs) : customerLine pr hash l = customerLine pr hash { l with phases := ps ++ qs } := by
  have hsplit : phasesOut l = ps.filter (fun p => p.drop = false) ++ (p :: qs).filter fun p => p.drop = false := by
    unfold phasesOut
    rw [hl, List.filter_append]
  have hsplit' : phasesOut { l with phases := ps ++ qs } = ps.filter (fun p => p.drop = false) ++ qs.filter fun p => p.drop = false :=
    List.filter_append ..
  have htext : phaseText (phasesOut l) = phaseText (phasesOut { l with phases := ps ++ qs }) := by
    rw [hsplit, hsplit', phaseText_eq, phaseText_eq, List.filterMap_append, List.filterMap_append, List.filter_cons]
    split
    · rw [List.filterMap_cons, hp]
    · rfl
  have htotal : ∀ f : PhaseOut K → Option K, totalKilo f (phasesOut l) = totalKilo f (phasesOut { l with phases := ps ++ qs }) := by
    intro f
    unfold totalKilo
    rw [hsplit, hsplit', List.foldl_append, List.foldl_append, List.filter_cons]
    split
    · rw [List.foldl_cons]
      congr 1
      unfold addKilo
      rw [hp]
    · rfl
  unfold customerLine tapFields
  rw [htext, htotal, htotal]
  rfl

end numbers

end Ditto.Cyme
