import Verif.Model.Terminals
import Verif.Props.TrafoLoads

/-! C58: `terminals_to_phases`. -/
namespace Ditto.Net
open Ditto

open Classical in
/-- the phases of the loads fed by the transformer `t`, load by load -/
noncomputable def fedPhases (n : Network) (s : String) (ls : List TermLoad) (t : Option String) : List (List (Option String)) :=
  (ls.filter fun l => FeedsLoad n s t l.net).map (·.phases)

/-- only the secondary winding may be changed -/
def SameButSecondary (ws ws' : List (List (Option String))) : Prop :=
  ws'.length = ws.length ∧ ∀ i, i ≠ 1 → ws'[i]? = ws[i]?

theorem matchWindings_same (ws : List (List (Option String))) (ps : List (Option String)) :
    SameButSecondary ws (matchWindings ws ps) := by
  unfold matchWindings SameButSecondary
  split
  · refine ⟨rfl, fun i hi => ?_⟩
    match i, hi with
    | 0, _ => rfl
    | i + 2, _ => rfl
  · refine ⟨rfl, fun i hi => ?_⟩
    match i, hi with
    | 0, _ => rfl
    | i + 2, _ => rfl
  · exact ⟨rfl, fun _ _ => rfl⟩

theorem termLoad_ok {objs : List NetObj} {s : String} {n : Network} (hb : build objs s = .ok n) {trs trs' : List TermTrafo}
    (hn : ∀ tr ∈ trs, tr.name ≠ none) {l l' : TermLoad} (h : termLoad n trs l = some (.ok (l', trs'))) :
    (l'.net = l.net ∧ l'.phases = l.phases ∧ (∀ t : String, FeedsLoad n s (some t) l.net → l'.upstream = some t) ∧
      ((∀ t : String, ¬ FeedsLoad n s (some t) l.net) → l' = l)) ∧
    List.Forall₂ (fun tr tr' => tr'.name = tr.name ∧
      tr'.windings = (fedPhases n s [l] tr.name).foldl matchWindings tr.windings) trs trs' := by
  classical
  obtain ⟨r, hr, hspec⟩ := mapUp_spec hb l.net
  have hmap : ∀ (f : TermTrafo → TermTrafo) (R : TermTrafo → TermTrafo → Prop) (l : List TermTrafo), (∀ x ∈ l, R x (f x)) →
      List.Forall₂ R l (l.map f) := by
    intro f R l
    induction l with
    | nil => intro _; exact .nil
    | cons a l ih => intro h; exact .cons (h a List.mem_cons_self) (ih fun x hx => h x (List.mem_cons_of_mem _ hx))
  have hfed : ∀ t : String, r = some (some t) → ∀ nm, fedPhases n s [l] nm = if nm = some t then [l.phases] else [] := by
    intro t ht nm
    unfold fedPhases
    by_cases hnm : nm = some t
    · rw [if_pos hnm, List.filter_cons_of_pos (by rw [decide_eq_true_eq, ← hspec nm, ht, hnm])]
      rfl
    · rw [if_neg hnm, List.filter_cons_of_neg]
      · rfl
      · rw [decide_eq_true_eq, ← hspec nm, ht]
        intro h
        exact hnm (Option.some.inj h).symm
  have hnofed : (∀ t : String, r ≠ some (some t)) → ∀ nm, nm ≠ none → fedPhases n s [l] nm = [] := by
    intro ht nm hnm
    unfold fedPhases
    rw [List.filter_cons_of_neg]
    · rfl
    · rw [decide_eq_true_eq, ← hspec nm]
      cases nm with
      | none => exact absurd rfl hnm
      | some t => exact ht t
  unfold termLoad at h
  rw [hr] at h
  rcases r with _ | _ | t
  · simp only [Option.some.injEq, Except.ok.injEq, Prod.mk.injEq] at h
    obtain ⟨rfl, rfl⟩ := h
    refine ⟨⟨rfl, rfl, fun t ht => ?_, fun _ => rfl⟩, ?_⟩
    · rw [← hspec] at ht; cases ht
    · have := hmap id (fun tr tr' => tr'.name = tr.name ∧
        tr'.windings = (fedPhases n s [l] tr.name).foldl matchWindings tr.windings) trs fun x hx =>
          ⟨rfl, by rw [hnofed (by simp) _ (hn x hx)]; rfl⟩
      rwa [List.map_id] at this
  · simp only [Option.some.injEq, Except.ok.injEq, Prod.mk.injEq] at h
    obtain ⟨rfl, rfl⟩ := h
    refine ⟨⟨rfl, rfl, fun t ht => ?_, fun _ => rfl⟩, ?_⟩
    · rw [← hspec] at ht; cases ht
    · have := hmap id (fun tr tr' => tr'.name = tr.name ∧
        tr'.windings = (fedPhases n s [l] tr.name).foldl matchWindings tr.windings) trs fun x hx =>
          ⟨rfl, by rw [hnofed (by simp) _ (hn x hx)]; rfl⟩
      rwa [List.map_id] at this
  · simp only [matchTrafo] at h
    split at h
    · cases h
    · rename_i trs1 hm
      split at hm
      · cases hm
        cases h
        refine ⟨⟨rfl, rfl, fun t' ht' => ?_, fun ht => ?_⟩, ?_⟩
        · rw [← hspec] at ht'
          cases ht'
          rfl
        · exact absurd ((hspec (some t)).1 rfl) (ht t)
        · refine hmap _ _ _ fun x hx => ?_
          rw [hfed t rfl]
          by_cases hx : x.name = some t
          · rw [if_pos hx, if_pos hx]; exact ⟨rfl, rfl⟩
          · rw [if_neg hx, if_neg hx]; exact ⟨rfl, rfl⟩
      · cases hm

theorem fedPhases_cons (n : Network) (s : String) (l : TermLoad) (ls : List TermLoad) (t : Option String) :
    fedPhases n s (l :: ls) t = fedPhases n s [l] t ++ fedPhases n s ls t := by
  unfold fedPhases
  rw [← List.map_append, ← List.filter_append]
  rfl

/-- Every load gets the name of the transformer that feeds it. The phases of the loads are laid over those of the secondary winding of
their transformer, one load after the other. -/
theorem C58_effect {objs : List NetObj} {s : String} {n : Network} (hb : build objs s = .ok n) {trs trs' : List TermTrafo}
    {ls ls' : List TermLoad} (hn : ∀ tr ∈ trs, tr.name ≠ none) (h : terminalsToPhases n ls trs = some (.ok (ls', trs'))) :
    List.Forall₂ (fun l l' => l'.net = l.net ∧ l'.phases = l.phases ∧
      (∀ t : String, FeedsLoad n s (some t) l.net → l'.upstream = some t) ∧
      ((∀ t : String, ¬ FeedsLoad n s (some t) l.net) → l' = l)) ls ls' ∧
    List.Forall₂ (fun tr tr' => tr'.name = tr.name ∧
      tr'.windings = (fedPhases n s ls tr.name).foldl matchWindings tr.windings) trs trs' := by
  induction ls generalizing trs trs' ls' with
  | nil =>
    unfold terminalsToPhases at h
    cases h
    refine ⟨.nil, ?_⟩
    rw [List.forall₂_same]
    intro x _
    exact ⟨rfl, rfl⟩
  | cons l ls ih =>
    unfold terminalsToPhases at h
    split at h
    · cases h
    · cases h
    · rename_i l1 trs1 h1
      split at h
      · cases h
      · cases h
      · rename_i ls2 trs2 h2
        cases h
        obtain ⟨hl, hf⟩ := termLoad_ok hb hn h1
        have hn1 : ∀ tr ∈ trs1, tr.name ≠ none := by
          intro tr htr
          clear h1 h2 ih
          induction hf with
          | nil => cases htr
          | cons hxy _ ih =>
            rcases List.mem_cons.1 htr with rfl | htr
            · rw [hxy.1]; exact hn _ List.mem_cons_self
            · exact ih (fun z hz => hn z (List.mem_cons_of_mem _ hz)) htr
        obtain ⟨hl', hf'⟩ := ih hn1 h2
        refine ⟨.cons hl hl', ?_⟩
        clear h1 h2 ih hn hn1 hl hl'
        induction hf generalizing trs' with
        | nil => cases hf'; exact .nil
        | cons hxy _ ih =>
          cases hf' with
          | cons hyz hrest =>
            refine .cons ⟨by rw [hyz.1, hxy.1], ?_⟩ (ih hrest)
            rw [fedPhases_cons, List.foldl_append, ← hxy.2, ← hxy.1, hyz.2]

theorem foldl_same (pss : List (List (Option String))) : ∀ ws, SameButSecondary ws (pss.foldl matchWindings ws) := by
  induction pss with
  | nil => intro ws; exact ⟨rfl, fun _ _ => rfl⟩
  | cons ps pss ih =>
    intro ws
    obtain ⟨h1, h2⟩ := matchWindings_same ws ps
    obtain ⟨h3, h4⟩ := ih (matchWindings ws ps)
    exact ⟨by rw [List.foldl_cons, h3, h1], fun i hi => by rw [List.foldl_cons, h4 i hi, h2 i hi]⟩

/-- the names of the transformers and all their windings but the secondary stay -/
theorem C58_frame {objs : List NetObj} {s : String} {n : Network} (hb : build objs s = .ok n) {trs trs' : List TermTrafo}
    {ls ls' : List TermLoad} (hn : ∀ tr ∈ trs, tr.name ≠ none) (h : terminalsToPhases n ls trs = some (.ok (ls', trs'))) :
    List.Forall₂ (fun tr tr' => tr'.name = tr.name ∧ SameButSecondary tr.windings tr'.windings ∧
      ((∀ l ∈ ls, ¬ FeedsLoad n s tr.name l.net) ∨ tr.windings.length ≠ 2 ∧ tr.windings.length ≠ 3 → tr' = tr)) trs trs' := by
  classical
  refine (C58_effect hb hn h).2.imp fun tr tr' hx => ⟨hx.1, by rw [hx.2]; exact foldl_same _ _, fun hc => ?_⟩
  have hw : tr'.windings = tr.windings := by
    rw [hx.2]
    rcases hc with hc | hc
    · have : fedPhases n s ls tr.name = [] := by
        unfold fedPhases
        rw [List.map_eq_nil_iff, List.filter_eq_nil_iff]
        intro l hl h
        exact hc l hl (of_decide_eq_true h)
      rw [this]
      rfl
    · have : ∀ ps, matchWindings tr.windings ps = tr.windings := by
        intro ps
        unfold matchWindings
        split
        · rename_i he; rw [he] at hc; simp at hc
        · rename_i he; rw [he] at hc; simp at hc
        · rfl
      generalize fedPhases n s ls tr.name = pss
      induction pss with
      | nil => rfl
      | cons ps pss ih => rw [List.foldl_cons, this, ih]
  cases tr; cases tr'
  simp only [TermTrafo.mk.injEq]
  exact ⟨hx.1, hw⟩

theorem overlay_le : ∀ (b ps : List (Option String)), b.length ≤ ps.length → overlay b ps = ps.take b.length
  | [], ps, _ => by cases ps <;> rfl
  | _ :: b, [], h => by simp at h
  | _ :: b, p :: ps, h => by
    rw [overlay, overlay_le b ps (by simpa using h)]
    rfl

theorem overlay_length : ∀ (b ps : List (Option String)), (overlay b ps).length = b.length
  | [], ps => by cases ps <;> rfl
  | _ :: b, [] => rfl
  | _ :: b, p :: ps => by rw [overlay, List.length_cons, overlay_length b ps, List.length_cons]

/-- with two windings, when the loads below have the same phases, as many as the secondary winding, the secondary winding gets them.
Missing: loads on different phases (C58_last_violated). -/
theorem C58_two_partial {objs : List NetObj} {s : String} {n : Network} (hb : build objs s = .ok n) {trs trs' : List TermTrafo}
    {ls ls' : List TermLoad} (hn : ∀ tr ∈ trs, tr.name ≠ none) (h : terminalsToPhases n ls trs = some (.ok (ls', trs'))) :
    List.Forall₂ (fun tr tr' => ∀ a b ps, tr.windings = [a, b] → (∃ l ∈ ls, FeedsLoad n s tr.name l.net) →
      (∀ l ∈ ls, FeedsLoad n s tr.name l.net → l.phases = ps) → ps.length = b.length → tr'.windings = [a, ps]) trs trs' := by
  classical
  refine (C58_effect hb hn h).2.imp fun tr tr' hx a b ps hw hex hall hlen => ?_
  rw [hx.2, hw]
  have hm : ∀ qs ∈ fedPhases n s ls tr.name, qs = ps := by
    intro qs hq
    unfold fedPhases at hq
    obtain ⟨l, hl, rfl⟩ := List.mem_map.1 hq
    rw [List.mem_filter] at hl
    exact hall l hl.1 (of_decide_eq_true hl.2)
  have hne : fedPhases n s ls tr.name ≠ [] := by
    obtain ⟨l, hl, hf⟩ := hex
    have : l.phases ∈ fedPhases n s ls tr.name := List.mem_map.2 ⟨l, List.mem_filter.2 ⟨hl, decide_eq_true hf⟩, rfl⟩
    intro h
    rw [h] at this
    cases this
  have hstep : ∀ b : List (Option String), b.length = ps.length → matchWindings [a, b] ps = [a, ps] := by
    intro b hb
    simp only [matchWindings]
    rw [overlay_le b ps (by omega), hb, List.take_length]
  have key : ∀ (pss : List (List (Option String))) (b : List (Option String)), (∀ qs ∈ pss, qs = ps) → b.length = ps.length →
      pss ≠ [] → pss.foldl matchWindings [a, b] = [a, ps] := by
    intro pss
    induction pss with
    | nil => intro b _ _ h; exact absurd rfl h
    | cons qs pss ih =>
      intro b hm hb _
      rw [List.foldl_cons, hm qs List.mem_cons_self, hstep b hb]
      cases pss with
      | nil => rfl
      | cons q pss => exact ih ps (fun x hx => hm x (List.mem_cons_of_mem _ hx)) rfl (by simp)
  exact key _ b hm hlen.symm hne

/-- with three windings and one load below, with one phase more than the secondary winding, that winding gets the phases of the load -/
theorem C58_three_partial {objs : List NetObj} {s : String} {n : Network} (hb : build objs s = .ok n) {trs trs' : List TermTrafo}
    {ls ls' : List TermLoad} (hn : ∀ tr ∈ trs, tr.name ≠ none) (h : terminalsToPhases n ls trs = some (.ok (ls', trs'))) :
    List.Forall₂ (fun tr tr' => ∀ a b c ps, tr.windings = [a, b, c] → fedPhases n s ls tr.name = [ps] → ps.length = b.length + 1 →
      tr'.windings = [a, ps, c]) trs trs' := by
  refine (C58_effect hb hn h).2.imp fun tr tr' hx a b c ps hw hf hlen => ?_
  rw [hx.2, hw, hf]
  simp only [List.foldl_cons, List.foldl_nil, matchWindings]
  rw [overlay_le _ _ (by simp; omega), List.length_append, List.length_singleton, ← hlen, List.take_length]

/-- with two windings the last load alone decides, if it has enough phases: what the other loads have is lost -/
theorem C58_last_violated {objs : List NetObj} {s : String} {n : Network} (hb : build objs s = .ok n) {trs trs' : List TermTrafo}
    {ls ls' : List TermLoad} (hn : ∀ tr ∈ trs, tr.name ≠ none) (h : terminalsToPhases n ls trs = some (.ok (ls', trs'))) :
    List.Forall₂ (fun tr tr' => ∀ a b pss ps, tr.windings = [a, b] → fedPhases n s ls tr.name = pss ++ [ps] → b.length ≤ ps.length →
      tr'.windings = [a, ps.take b.length]) trs trs' := by
  refine (C58_effect hb hn h).2.imp fun tr tr' hx a b pss ps hw hf hlen => ?_
  rw [hx.2, hw, hf, List.foldl_append]
  have key : ∀ (pss : List (List (Option String))) (b : List (Option String)), ∃ b', pss.foldl matchWindings [a, b] = [a, b'] ∧
      b'.length = b.length := by
    intro pss
    induction pss with
    | nil => intro b; exact ⟨b, rfl, rfl⟩
    | cons qs pss ih =>
      intro b
      obtain ⟨b', h1, h2⟩ := ih (overlay b qs)
      exact ⟨b', by rw [List.foldl_cons]; exact h1, by rw [h2, overlay_length]⟩
  obtain ⟨b', h1, h2⟩ := key pss b
  rw [h1]
  simp only [List.foldl_cons, List.foldl_nil, matchWindings]
  rw [overlay_le _ _ (by omega), h2]

/-- with three windings the secondary winding grows by one phase for each load -/
theorem C58_grows_violated {objs : List NetObj} {s : String} {n : Network} (hb : build objs s = .ok n) {trs trs' : List TermTrafo}
    {ls ls' : List TermLoad} (hn : ∀ tr ∈ trs, tr.name ≠ none) (h : terminalsToPhases n ls trs = some (.ok (ls', trs'))) :
    List.Forall₂ (fun tr tr' => ∀ a b c, tr.windings = [a, b, c] → ∃ b', tr'.windings = [a, b', c] ∧
      b'.length = b.length + (fedPhases n s ls tr.name).length) trs trs' := by
  refine (C58_effect hb hn h).2.imp fun tr tr' hx a b c hw => ?_
  rw [hx.2, hw]
  generalize fedPhases n s ls tr.name = pss
  induction pss generalizing b with
  | nil => exact ⟨b, rfl, rfl⟩
  | cons qs pss ih =>
    have : ∃ b', pss.foldl matchWindings [a, overlay (b ++ [none]) qs, c] = [a, b', c] ∧
        b'.length = (overlay (b ++ [none]) qs).length + pss.length := by
      clear hw hx ih
      generalize overlay (b ++ [none]) qs = b
      induction pss generalizing b with
      | nil => exact ⟨b, rfl, rfl⟩
      | cons qs pss ih =>
        obtain ⟨b', h1, h2⟩ := ih (overlay (b ++ [none]) qs)
        refine ⟨b', by rw [List.foldl_cons]; exact h1, ?_⟩
        rw [h2, overlay_length]
        simp only [List.length_append, List.length_cons, List.length_nil]
        omega
    obtain ⟨b', h1, h2⟩ := this
    refine ⟨b', by rw [List.foldl_cons]; exact h1, ?_⟩
    rw [h2, overlay_length]
    simp only [List.length_append, List.length_cons, List.length_nil]
    omega

/-- it ends without exception, if the transformers of the network are in the model -/
theorem C58_succeeds {objs : List NetObj} {s : String} {n : Network} (hb : build objs s = .ok n) (ls : List TermLoad) :
    ∀ (trs : List TermTrafo), (∀ l ∈ ls, ∀ t, FeedsLoad n s t l.net → t ∈ trs.map (·.name)) →
    ∃ ls' trs', terminalsToPhases n ls trs = some (.ok (ls', trs')) := by
  induction ls with
  | nil => intro trs _; exact ⟨[], trs, rfl⟩
  | cons l ls ih =>
    intro trs ht
    obtain ⟨r, hr, hspec⟩ := mapUp_spec hb l.net
    have h1 : ∃ l' trs', termLoad n trs l = some (.ok (l', trs')) ∧ trs'.map (·.name) = trs.map (·.name) := by
      unfold termLoad
      rw [hr]
      rcases r with _ | _ | t
      · exact ⟨_, _, rfl, rfl⟩
      · exact ⟨_, _, rfl, rfl⟩
      · have hm := ht l List.mem_cons_self (some t) ((hspec (some t)).1 rfl)
        have hany : trs.any (fun tr => tr.name = some t) = true := by
          obtain ⟨tr, h1, h2⟩ := List.mem_map.1 hm
          exact List.any_eq_true.2 ⟨tr, h1, by simpa using h2⟩
        simp only [matchTrafo, hany, if_true]
        refine ⟨_, _, rfl, ?_⟩
        rw [List.map_map]
        apply List.map_congr_left
        intro x _
        simp only [Function.comp]
        split <;> rfl
    obtain ⟨l', trs1, h1, h2⟩ := h1
    obtain ⟨ls', trs', h3⟩ := ih trs1 (fun l hl t hf => by rw [h2]; exact ht l (List.mem_cons_of_mem _ hl) t hf)
    exact ⟨l' :: ls', trs', by simp only [terminalsToPhases, h1, h3]⟩

/-! ### examples -/

/-- a transformer `t` from `s` to `a`, and two loads at `a` -/
def termObjs : List NetObj :=
  [{ cls := "PowerTransformer", name := some "t", fromEl := some "s", toEl := some "a" },
    { cls := "Load", name := some "l1", connecting := some "a" }, { cls := "Load", name := some "l2", connecting := some "a" }]

def termNet : Network where
  graph := ⟨["a", "s", "l1", "l2"], [⟨"s", "a", some ("PowerTransformer", some "t"), some 0⟩, ⟨"a", "l1", none, none⟩,
    ⟨"a", "l2", none, none⟩]⟩
  digraph := [⟨"s", "a", some ("PowerTransformer", some "t"), none⟩, ⟨"a", "l1", none, none⟩, ⟨"a", "l2", none, none⟩]

theorem termNet_build : build termObjs "s" = .ok termNet := by decide +kernel

def termLoads (p q : List (Option String)) : List TermLoad :=
  [⟨{ cls := "Load", name := some "l1", connecting := some "a" }, p, none⟩,
    ⟨{ cls := "Load", name := some "l2", connecting := some "a" }, q, none⟩]

/-- loads on the same phase -/
example : terminalsToPhases termNet (termLoads [some "B"] [some "B"]) [⟨some "t", [[some "A"], [some "A"]]⟩] =
    some (.ok ((termLoads [some "B"] [some "B"]).map fun l => { l with upstream := some "t" },
      [⟨some "t", [[some "A"], [some "B"]]⟩])) := by decide +kernel

/-- loads on different phases of a transformer with two windings: the first is lost -/
example : terminalsToPhases termNet (termLoads [some "A"] [some "B"]) [⟨some "t", [[some "A"], [some "A"]]⟩] =
    some (.ok ((termLoads [some "A"] [some "B"]).map fun l => { l with upstream := some "t" },
      [⟨some "t", [[some "A"], [some "B"]]⟩])) := by decide +kernel

/-- two loads below a center tap: three phases in the secondary winding, one of them unknown -/
example : terminalsToPhases termNet (termLoads [some "A", some "B"] [some "A", some "B"])
    [⟨some "t", [[some "A"], [some "A"], [some "A"]]⟩] =
    some (.ok ((termLoads [some "A", some "B"] [some "A", some "B"]).map fun l => { l with upstream := some "t" },
      [⟨some "t", [[some "A"], [some "A", some "B", none], [some "A"]]⟩])) := by decide +kernel

end Ditto.Net
