import Verif.Lemmas.Along

/-! The loops of `check_transformer_phase_path` on devices. -/
namespace Ditto.Net
open Ditto Ditto.Search Ditto.Spec

/-- lines have their wires -/
def LineWires (ds : List Dev) : Prop := ∀ d ∈ ds, d.net.cls = "Line" → d.net.isLine = true

theorem LineWires.tail {d : Dev} {ds : List Dev} (h : LineWires (d :: ds)) : LineWires ds :=
  fun x hx => h x (List.mem_cons_of_mem _ hx)

theorem sameSet_iff {α : Type} [DecidableEq α] (a b : List α) : sameSet a b = true ↔ ∀ x, x ∈ a ↔ x ∈ b := by
  unfold sameSet
  simp only [Bool.and_eq_true, List.all_eq_true, decide_eq_true_eq]
  constructor
  · rintro ⟨h1, h2⟩ x; exact ⟨h1 x, h2 x⟩
  · intro h; exact ⟨fun x => (h x).1, fun x => (h x).2⟩

theorem line_not_distribution {d : Dev} (h : d.net.cls = "Line") : ¬ Distribution d := by
  unfold Distribution; rw [h]; simp

open Classical in
theorem lowLoop_eq (low : List (Option String)) (t : Dev) (ht : Distribution t) (rest : List Element) (pre : List Dev)
    (hl : LineWires pre) (hpre : ∀ d ∈ pre, ¬ Distribution d) :
    lowLoop low (pre.map elementOf ++ elementOf t :: rest) =
      .ok (decide (∀ d ∈ pre, d.net.cls = "Line" → ∀ x, x ∈ livePhases d ↔ x ∈ low)) := by
  induction pre with
  | nil =>
    rw [List.map_nil, List.nil_append, lowLoop, isTransformer_elementOf]
    simp [ht]
  | cons d pre ih =>
    have ih' := ih hl.tail fun x hx => hpre x (by simp [hx])
    rw [List.map_cons, List.cons_append, lowLoop, isTransformer_elementOf]
    simp only [hpre d (by simp), decide_false]
    by_cases hline : d.net.cls = "Line"
    · have hw : (elementOf d).wires = some d.wirePhases := by simp [elementOf, hl d (by simp) hline]
      rw [if_pos (by simp [elementOf, hline]), hw]
      simp only
      by_cases hs : sameSet (linePhases d.wirePhases) low
      · rw [if_pos hs, ih']
        rw [sameSet_iff] at hs
        congr 1
        rw [decide_eq_decide]
        simp only [List.mem_cons, forall_eq_or_imp]
        constructor
        · intro h; exact ⟨fun _ => hs, h⟩
        · intro h; exact h.2
      · rw [if_neg hs]
        rw [sameSet_iff] at hs
        congr 1
        symm
        rw [decide_eq_false_iff_not]
        intro h
        exact hs (h d (by simp) hline)
    · rw [if_neg (by simp [elementOf, hline]), ih']
      congr 1
      rw [decide_eq_decide]
      simp [hline]

theorem phaseCounts_cons_line {d : Dev} {ds : List Dev} (h : d.net.cls = "Line") :
    phaseCounts (d :: ds) = (livePhases d).length :: phaseCounts ds := by simp [phaseCounts, h]

theorem phaseCounts_cons_other {d : Dev} {ds : List Dev} (h : d.net.cls ≠ "Line") :
    phaseCounts (d :: ds) = phaseCounts ds := by simp [phaseCounts, h]

open Classical in
theorem highLoop_eq (high : List (Option String)) (t : Dev) (ht : Distribution t) (rest : List Element) (pre : List Dev)
    (hl : LineWires pre) (hpre : ∀ d ∈ pre, ¬ Distribution d) : ∀ prev,
    highLoop high prev (pre.map elementOf ++ elementOf t :: rest) =
      .ok (decide ((∀ d ∈ pre, d.net.cls = "Line" → ∀ x ∈ high, x ∈ livePhases d) ∧
        (prev :: phaseCounts pre).IsChain (· ≥ ·))) := by
  induction pre with
  | nil =>
    intro prev
    rw [List.map_nil, List.nil_append, highLoop, isTransformer_elementOf]
    simp [ht, phaseCounts]
  | cons d pre ih =>
    intro prev
    have ih' := ih hl.tail fun x hx => hpre x (by simp [hx])
    rw [List.map_cons, List.cons_append, highLoop, isTransformer_elementOf]
    simp only [hpre d (by simp), decide_false]
    by_cases hline : d.net.cls = "Line"
    · have hw : (elementOf d).wires = some d.wirePhases := by simp [elementOf, hl d (by simp) hline]
      rw [if_pos (by simp [elementOf, hline]), hw, phaseCounts_cons_line hline]
      simp only
      by_cases hs : ∀ x ∈ high, x ∈ livePhases d
      · rw [if_neg (by simpa [livePhases, linePhases] using hs)]
        by_cases hc : (linePhases d.wirePhases).length > prev
        · rw [if_pos hc]
          congr 1
          symm
          rw [decide_eq_false_iff_not, List.isChain_cons_cons]
          rintro ⟨_, h, _⟩
          unfold livePhases at h
          unfold linePhases at hc
          omega
        · rw [if_neg hc, ih']
          congr 1
          rw [decide_eq_decide, List.isChain_cons_cons]
          simp only [List.mem_cons, forall_eq_or_imp]
          have hc' : prev ≥ (livePhases d).length := by
            unfold livePhases; unfold linePhases at hc; omega
          constructor
          · rintro ⟨h1, h2⟩; exact ⟨⟨fun _ => hs, h1⟩, hc', h2⟩
          · rintro ⟨⟨_, h1⟩, _, h2⟩; exact ⟨h1, h2⟩
      · rw [if_pos (by simpa [livePhases, linePhases] using hs)]
        congr 1
        symm
        rw [decide_eq_false_iff_not]
        rintro ⟨h, _⟩
        exact hs (h d (by simp) hline)
    · rw [if_neg (by simp [elementOf, hline]), ih', phaseCounts_cons_other hline]
      congr 1
      rw [decide_eq_decide]
      simp [hline]

open Classical in
theorem plainLoop_eq (ds : List Dev) (hl : LineWires ds) : ∀ prev,
    plainLoop prev (ds.map elementOf) = .ok (decide ((prev :: phaseCounts ds).IsChain (· ≥ ·))) := by
  induction ds with
  | nil => intro prev; simp [plainLoop, phaseCounts]
  | cons d ds ih =>
    intro prev
    have ih' := ih hl.tail
    have he : (elementOf d).equip = some d.net.cls := rfl
    rw [List.map_cons, plainLoop, he]
    simp only
    by_cases hline : d.net.cls = "Line"
    · have hw : (elementOf d).wires = some d.wirePhases := by simp [elementOf, hl d (by simp) hline]
      rw [if_pos hline, hw, phaseCounts_cons_line hline]
      simp only
      by_cases hc : (linePhases d.wirePhases).length > prev
      · rw [if_pos hc]
        congr 1
        symm
        rw [decide_eq_false_iff_not, List.isChain_cons_cons]
        rintro ⟨h, _⟩
        unfold livePhases at h
        unfold linePhases at hc
        omega
      · rw [if_neg hc, ih']
        congr 1
        rw [decide_eq_decide, List.isChain_cons_cons]
        have hc' : prev ≥ (livePhases d).length := by
          unfold livePhases; unfold linePhases at hc; omega
        constructor
        · intro h; exact ⟨hc', h⟩
        · exact fun h => h.2
    · rw [if_neg hline, ih', phaseCounts_cons_other hline]

/-- nodes on the side of the source of the devices that are no transformers -/
def sides (l : List (Dev × String)) : List String := (l.filter fun x => x.1.net.cls ≠ "PowerTransformer").map (·.2)

theorem scanUp_names (l : List (Dev × String)) : ∀ names low, names ≠ [] →
    scanUp (l.map fun x => (elementOf x.1, x.2)) names low =
      .ok (names ++ ((l.map (·.1)).filter fun d => Distribution d).map (·.net.name), low) := by
  induction l with
  | nil => intro names low _; simp [scanUp]
  | cons x l ih =>
    intro names low hne
    rw [List.map_cons, scanUp, isTransformer_elementOf]
    by_cases h : Distribution x.1
    · have hn : (elementOf x.1).name = some x.1.net.name := rfl
      simp only [h, decide_true, hn]
      rw [ih _ _ (by simp)]
      simp [h]
    · simp only [h, decide_false]
      rw [if_neg fun h => hne h.1, ih _ _ hne]
      simp [h]

theorem scanUp_append (l : List (Dev × String)) (h : ∀ x ∈ l, ¬ Distribution x.1) (m : List (Element × String)) : ∀ low,
    scanUp ((l.map fun x => (elementOf x.1, x.2)) ++ m) [] low = scanUp m [] ((sides l).getLast?.or low) := by
  induction l with
  | nil => intro low; simp [sides]
  | cons x l ih =>
    intro low
    rw [List.map_cons, List.cons_append, scanUp, isTransformer_elementOf]
    simp only [h x (by simp), decide_false]
    rw [ih fun y hy => h y (by simp [hy])]
    by_cases hc : x.1.net.cls = "PowerTransformer"
    · rw [if_neg (by simp [elementOf, hc])]
      simp [sides, hc]
    · rw [if_pos (by simp [elementOf, hc])]
      congr 1
      simp only [sides, List.filter_cons, ne_eq, hc, not_false_eq_true, decide_true, if_true, List.map_cons]
      rw [List.getLast?_cons]
      cases hl : (List.map (fun x => x.2) (List.filter (fun x => !decide (x.1.net.cls = "PowerTransformer")) l)).getLast? <;>
        simp_all

theorem sides_head (down : List Dev) : ∀ (q : List String), down.length ≤ q.length → ∀ x,
    (sides (down.zip q)).head? = some x ↔ ∃ subs d rest, down = subs ++ d :: rest ∧
      (∀ y ∈ subs, y.net.cls = "PowerTransformer") ∧ d.net.cls ≠ "PowerTransformer" ∧ q[subs.length]? = some x := by
  induction down with
  | nil => intro q _ x; simp [sides]
  | cons d down ih =>
    intro q hq x
    cases q with
    | nil => simp at hq
    | cons y q =>
      simp only [List.length_cons, Nat.add_le_add_iff_right] at hq
      by_cases hc : d.net.cls = "PowerTransformer"
      · have : sides ((d :: down).zip (y :: q)) = sides (down.zip q) := by simp [sides, hc]
        rw [this, ih q hq]
        constructor
        · rintro ⟨subs, e, rest, rfl, h1, h2, h3⟩
          refine ⟨d :: subs, e, rest, rfl, ?_, h2, by simpa using h3⟩
          intro z hz
          rcases List.mem_cons.1 hz with rfl | hz
          · exact hc
          · exact h1 z hz
        · rintro ⟨subs, e, rest, heq, h1, h2, h3⟩
          cases subs with
          | nil =>
            simp only [List.nil_append, List.cons.injEq] at heq
            exact absurd (heq.1 ▸ hc) h2
          | cons b subs =>
            simp only [List.cons_append, List.cons.injEq] at heq
            exact ⟨subs, e, rest, heq.2, fun z hz => h1 z (by simp [hz]), h2, by simpa using h3⟩
      · have : (sides ((d :: down).zip (y :: q))).head? = some y := by simp [sides, hc]
        rw [this]
        constructor
        · intro h
          exact ⟨[], d, down, rfl, by simp, hc, by simpa using h⟩
        · rintro ⟨subs, e, rest, heq, h1, h2, h3⟩
          cases subs with
          | nil => simpa using h3
          | cons b subs =>
            simp only [List.cons_append, List.cons.injEq] at heq
            exact absurd (heq.1 ▸ h1 b (by simp)) hc

/-- the last element with a property -/
theorem exists_last {α : Type} (P : α → Prop) [DecidablePred P] (l : List α) (h : ∃ x ∈ l, P x) :
    ∃ pre x post, l = pre ++ x :: post ∧ P x ∧ ∀ y ∈ post, ¬ P y := by
  induction l with
  | nil => simp at h
  | cons a l ih =>
    by_cases hl : ∃ x ∈ l, P x
    · obtain ⟨pre, x, post, rfl, h1, h2⟩ := ih hl
      exact ⟨a :: pre, x, post, rfl, h1, h2⟩
    · obtain ⟨x, hx, hp⟩ := h
      rcases List.mem_cons.1 hx with rfl | hx
      · exact ⟨[], x, l, rfl, hp, fun y hy hpy => hl ⟨y, hy, hpy⟩⟩
      · exact absurd ⟨x, hx, hp⟩ hl

theorem scan_eq {up down : List Dev} {t : Dev} {p : List String} (ht : Distribution t) (hd : ∀ d ∈ down, ¬ Distribution d)
    (hlen : p.length = (up ++ t :: down).length + 1) :
    scanUp ((((up ++ t :: down).map elementOf).zip p).reverse) [] none =
      .ok (t.net.name :: (up.reverse.filter fun d => Distribution d).map (·.net.name),
        (sides (down.zip (p.drop (up.length + 1)))).head?) := by
  simp only [List.length_append, List.length_cons] at hlen
  have hsplit : p = p.take up.length ++ p[up.length]'(by omega) :: p.drop (up.length + 1) := by
    rw [List.getElem_cons_drop, List.take_append_drop]
  have hz : ((up ++ t :: down).map elementOf).zip p =
      ((up.zip (p.take up.length)).map fun x => (elementOf x.1, x.2)) ++
        (elementOf t, p[up.length]'(by omega)) :: ((down.zip (p.drop (up.length + 1))).map fun x => (elementOf x.1, x.2)) := by
    conv_lhs => rw [hsplit]
    rw [List.map_append, List.zip_append (by simp; omega), List.map_cons, List.zip_cons_cons]
    congr 1
    · rw [List.zip_map_left]; rfl
    · rw [List.zip_map_left]; rfl
  rw [hz, List.reverse_append, List.reverse_cons, List.append_assoc, ← List.map_reverse, ← List.map_reverse,
    scanUp_append]
  · rw [List.singleton_append, scanUp, isTransformer_elementOf]
    have hn : (elementOf t).name = some t.net.name := rfl
    simp only [ht, decide_true, hn]
    rw [scanUp_names _ _ _ (by simp)]
    have h1 : (up.zip (p.take up.length)).reverse.map (·.1) = up.reverse := by
      rw [List.map_reverse, List.map_fst_zip]
      simp; omega
    have h2 : sides (down.zip (p.drop (up.length + 1))).reverse = (sides (down.zip (p.drop (up.length + 1)))).reverse := by
      unfold sides
      rw [List.filter_reverse, List.map_reverse]
    rw [h1, h2]
    simp
  · intro x hx
    rw [List.mem_reverse] at hx
    exact hd _ (List.of_mem_zip hx).1

theorem scan_none {ds : List Dev} {p : List String} (hd : ∀ d ∈ ds, ¬ Distribution d) :
    ∃ low, scanUp (((ds.map elementOf).zip p).reverse) [] none = .ok ([], low) := by
  have : (ds.map elementOf).zip p = (ds.zip p).map fun x => (elementOf x.1, x.2) := by rw [List.zip_map_left]; rfl
  rw [this, ← List.map_reverse, ← List.append_nil ((ds.zip p).reverse.map _), scanUp_append]
  · exact ⟨_, rfl⟩
  · intro x hx
    rw [List.mem_reverse] at hx
    exact hd _ (List.of_mem_zip hx).1

open Classical in
theorem checkPath_eq {needs : Bool} {devs : List Dev} (hT : Tidy devs) (hw : ∀ t ∈ devs, Distribution t → 2 ≤ t.windings.length)
    {d : List Edge} {g : Graph} {p : List String} {ds : List Dev} (ha : Along devs p ds)
    (hels : pathElements d g devs p = ds.map elementOf) :
    checkPath needs devs d g p = .ok (decide (PathOk needs p ds)) := by
  have hlen := ha.length
  have hlw : LineWires ds := fun x hx h => (hT.lines x (ha.mem x hx)).2 h
  unfold checkPath
  simp only [hels]
  by_cases hex : ∃ x ∈ ds, Distribution x
  · obtain ⟨up, t, down, rfl, ht, hdown⟩ := exists_last Distribution ds hex
    rw [scan_eq ht hdown hlen]
    have hfilt : (up ++ t :: down).filter (fun d => Distribution d) = up.filter (fun d => Distribution d) ++ [t] := by
      rw [List.filter_append, List.filter_cons, if_pos (by simpa using ht)]
      rw [List.filter_eq_nil_iff (l := down) |>.2 (by simpa using hdown)]
    by_cases hup : ∀ x ∈ up, ¬ Distribution x
    · have hn : up.reverse.filter (fun d => Distribution d) = [] := by
        rw [List.filter_eq_nil_iff]; simpa using hup
      rw [hn]
      simp only [List.map_nil]
      have htm : t ∈ devs := ha.mem t (by simp)
      unfold oneTransformer
      have hfirst : ∃ nm, firstName ((up ++ t :: down).map elementOf) = .ok nm := by
        cases up with
        | nil => exact ⟨_, rfl⟩
        | cons a up => exact ⟨_, rfl⟩
      obtain ⟨nm, hfirst⟩ := hfirst
      rw [hfirst, devNamed_of_mem hT htm]
      simp only
      obtain ⟨w0, w1, rest, hwin⟩ : ∃ w0 w1 rest, t.windings = w0 :: w1 :: rest := by
        have := hw t htm ht
        match hh : t.windings with
        | [] => simp [hh] at this
        | [_] => simp [hh] at this
        | a :: b :: r => exact ⟨a, b, r, rfl⟩
      rw [hwin]
      simp only
      have hlow : lowLoop w1.phases ((up ++ t :: down).map elementOf).reverse =
          .ok (decide (∀ d ∈ down, d.net.cls = "Line" → ∀ x, x ∈ livePhases d ↔ x ∈ w1.phases)) := by
        rw [List.map_append, List.map_cons, List.reverse_append, List.reverse_cons, List.append_assoc, ← List.map_reverse,
          List.singleton_append, lowLoop_eq _ t ht]
        · simp
        · intro x hx h; exact hlw x (by simp at hx; simp [hx]) h
        · intro x hx; exact hdown x (by simpa using hx)
      have hhigh : highLoop w0.phases 3 ((up ++ t :: down).map elementOf) =
          .ok (decide ((∀ d ∈ up, d.net.cls = "Line" → ∀ x ∈ w0.phases, x ∈ livePhases d) ∧
            (3 :: phaseCounts up).IsChain (· ≥ ·))) := by
        rw [List.map_append, List.map_cons, highLoop_eq _ t ht]
        · intro x hx h; exact hlw x (by simp [hx]) h
        · exact hup
      rw [hlow, hhigh]
      simp only
      congr 1
      -- the `to_element`
      have hto : t.net.toEl ≠ none := by
        have gen : ∀ {p ds}, Along devs p ds → ∀ x ∈ ds, x.net.toEl ≠ none := by
          intro p ds h
          induction h with
          | single => simp
          | cons _ htt _ ih =>
            intro x hx
            rcases List.mem_cons.1 hx with rfl | hx
            · rcases htt with ⟨_, h⟩ | ⟨_, h⟩ <;> simp [h]
            · exact ih x hx
        exact gen ha t (by simp)
      have hside : t.net.toEl = (sides (down.zip (p.drop (up.length + 1)))).head? ↔
          ∃ subs d rest, down = subs ++ d :: rest ∧ (∀ x ∈ subs, x.net.cls = "PowerTransformer") ∧
            d.net.cls ≠ "PowerTransformer" ∧ t.net.toEl ≠ none ∧ t.net.toEl = p[up.length + 1 + subs.length]? := by
        obtain ⟨x, hx⟩ := Option.ne_none_iff_exists'.1 hto
        rw [hx, eq_comm, sides_head down _ (by simp at hlen ⊢; omega)]
        simp only [List.getElem?_drop, ne_eq, reduceCtorEq, not_false_eq_true, true_and]
        simp only [eq_comm]
      rw [Bool.eq_iff_iff]
      simp only [Bool.and_eq_true, decide_eq_true_eq, hside]
      unfold PathOk
      constructor
      · rintro ⟨⟨h1, h2⟩, h3, h4⟩
        exact .inr (.inl ⟨up, t, down, rfl, ht, hup, hdown, h1, ⟨w0, w1, rest, hwin, h2, h3⟩, h4⟩)
      · rintro (⟨h, _⟩ | ⟨up', t', down', heq, ht', hup', hdown', h1, ⟨w0', w1', rest', hwin', h2, h3⟩, h4⟩ | h)
        · exact absurd ht (h t (by simp))
        · have key : up = up' ∧ t = t' ∧ down = down' := by
            rcases List.append_eq_append_iff.1 heq with ⟨as, ha1, ha2⟩ | ⟨as, ha1, ha2⟩
            · cases as with
              | nil => simp_all
              | cons a as =>
                simp only [List.cons_append, List.cons.injEq] at ha2
                exact absurd ht (hup' t (by rw [ha1, ha2.1]; simp))
            · cases as with
              | nil => simp_all
              | cons a as =>
                simp only [List.cons_append, List.cons.injEq] at ha2
                exact absurd ht' (hup t' (by rw [ha1, ha2.1]; simp))
          obtain ⟨rfl, rfl, rfl⟩ := key
          rw [hwin] at hwin'
          simp only [List.cons.injEq] at hwin'
          obtain ⟨rfl, rfl, rfl⟩ := hwin'
          exact ⟨⟨h1, h2⟩, h3, h4⟩
        · rw [hfilt, List.filter_eq_nil_iff.2 (by simpa using hup)] at h
          simp at h
    · have hne : up.reverse.filter (fun d => Distribution d) ≠ [] := by
        intro h
        rw [List.filter_eq_nil_iff] at h
        exact hup (by simpa using h)
      have hcount : (up.reverse.filter fun d => Distribution d).length = (up.filter fun d => Distribution d).length := by
        rw [List.filter_reverse, List.length_reverse]
      obtain ⟨a, as, hcons⟩ := List.exists_cons_of_ne_nil hne
      rw [hcons] at hcount ⊢
      simp only [List.map_cons]
      congr 1
      rw [decide_eq_decide]
      unfold PathOk
      rw [hfilt]
      simp only [List.length_cons, List.length_map, List.length_append, List.length_nil] at hcount ⊢
      constructor
      · intro h; exact .inr (.inr (by omega))
      · rintro (⟨h, _⟩ | ⟨up', t', down', heq, ht', hup', hdown', _⟩ | h)
        · exact absurd ht (h t (by simp))
        · exfalso
          have h1 : (up ++ t :: down).filter (fun d => Distribution d) = [t'] := by
            rw [heq, List.filter_append, List.filter_cons, if_pos (by simpa using ht'),
              List.filter_eq_nil_iff.2 (by simpa using hup'), List.filter_eq_nil_iff.2 (by simpa using hdown')]
            rfl
          rw [hfilt] at h1
          have := congrArg List.length h1
          simp only [List.length_append, List.length_cons, List.length_nil] at this
          omega
        · omega
  · have hno : ∀ x ∈ ds, ¬ Distribution x := fun x hx h => hex ⟨x, hx, h⟩
    obtain ⟨low, hs⟩ := scan_none (p := p) hno
    rw [hs]
    simp only
    rw [plainLoop_eq ds hlw]
    simp only
    congr 1
    rw [Bool.eq_iff_iff]
    simp only [Bool.and_eq_true, Bool.not_eq_true', decide_eq_true_eq]
    unfold PathOk NoneOk
    constructor
    · intro h; exact .inl ⟨hno, h⟩
    · rintro (⟨_, h⟩ | ⟨up', t', down', rfl, ht', _⟩ | h)
      · exact h
      · exact absurd ht' (hno t' (by simp))
      · rw [List.filter_eq_nil_iff.2 (by simpa using hno)] at h
        simp at h

end Ditto.Net
