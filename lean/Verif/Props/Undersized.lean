import Verif.Lemmas.Undersized
import Verif.Props.PhasePath
import Mathlib.Algebra.BigOperators.Group.List.Basic

/-! C28: `fix_undersized_transformers`. -/
namespace Ditto.Net
open Ditto Ditto.Search Ditto.Spec

/-! ### What can happen to an object -/

/-- The windings keep their phases; either nothing changes, or all windings get one catalogue size above the rating of the first. -/
def Upsized (ws ws' : List Winding) : Prop :=
  ws' = ws ∨ ∃ w0 rest r sz, ws = w0 :: rest ∧ w0.rated = some r ∧ sz ∈ catalogue ∧ r < sz * 1000 ∧
    ws' = ws.map fun w => { w with rated := some (sz * 1000) }

theorem Upsized.trans {a b c : List Winding} (h : Upsized a b) (h' : Upsized b c) : Upsized a c := by
  rcases h with rfl | ⟨w0, rest, r, sz, rfl, hr, hsz, hlt, rfl⟩
  · exact h'
  · rcases h' with rfl | ⟨w0', rest', r', sz', heq, hr', hsz', hlt', rfl⟩
    · exact .inr ⟨w0, rest, r, sz, rfl, hr, hsz, hlt, rfl⟩
    · refine .inr ⟨w0, rest, r, sz', rfl, hr, hsz', ?_, by simp [List.map_map, Function.comp_def]⟩
      rw [List.map_cons, List.cons.injEq] at heq
      rw [← heq.1] at hr'
      simp only [Option.some.injEq] at hr'
      rw [← hr'] at hlt'
      exact hlt.trans hlt'

theorem Resized.upsized {total : ℚ} {ws ws' : List Winding} (h : Resized total ws ws') : Upsized ws ws' := by
  obtain ⟨w0, rest, r, rfl, hr, ⟨_, rfl⟩ | ⟨hlt, sz, hsz, hlt', _, rfl⟩⟩ := h
  · exact .inl rfl
  · refine .inr ⟨w0, rest, r, sz, rfl, hr, hsz, ?_, rfl⟩
    have h1 : r / 1000 < sz := hlt.trans hlt'
    rwa [div_lt_iff₀ (by norm_num)] at h1

/-- what can happen to an object -/
def DevUpsized (d d' : Dev) : Prop := d' = { d with windings := d'.windings } ∧ Upsized d.windings d'.windings

theorem DevUpsized.refl (d : Dev) : DevUpsized d d := ⟨rfl, .inl rfl⟩

theorem forall₂_trans {α : Type} {R : α → α → Prop} (ht : ∀ a b c, R a b → R b c → R a c) {x y z : List α}
    (h : List.Forall₂ R x y) (h' : List.Forall₂ R y z) : List.Forall₂ R x z := by
  induction h generalizing z with
  | nil => cases h'; exact .nil
  | cons h1 _ ih => cases h' with | cons h2 h3 => exact .cons (ht _ _ _ h1 h2) (ih h3)

theorem devUpsized_trans (a b c : Dev) (h : DevUpsized a b) (h' : DevUpsized b c) : DevUpsized a c := by
  refine ⟨?_, h.2.trans h'.2⟩
  rw [h'.1, h.1]

theorem resizeStep_upsized {devs devs' : List Dev} {e : Option String × List (Option String)}
    (h : resizeStep devs e = .ok devs') : List.Forall₂ DevUpsized devs devs' := by
  unfold resizeStep at h
  split at h
  · simp at h
  · rename_i t ht
    split at h
    · simp at h
    · rename_i total htot
      split at h
      · simp at h
      · rename_i ws hws
        simp only [Except.ok.injEq] at h
        subst h
        have hup := (resize_resized hws).upsized
        have hlast : (devs.filter fun d => d.net.name = e.1).getLast? = some t := by
          unfold devNamed at ht
          split at ht
          · simp at ht
          · split at ht
            · simp at ht
            · rename_i hl
              simp only [Except.ok.injEq] at ht
              rw [← ht]; exact hl
        clear ht hws htot
        have hrefl : ∀ l : List Dev, List.Forall₂ DevUpsized l l := fun l => List.forall₂_same.2 fun d _ => .refl d
        induction devs with
        | nil => exact .nil
        | cons d devs ih =>
          unfold setWindings
          split
          · rename_i hany
            refine .cons (.refl d) (ih ?_)
            rw [List.any_eq_true] at hany
            obtain ⟨x, hx, hc⟩ := hany
            rw [List.filter_cons] at hlast
            split at hlast
            · rw [List.getLast?_cons] at hlast
              have hne : devs.filter (fun d => d.net.name = e.1) ≠ [] := List.ne_nil_of_mem (List.mem_filter.2 ⟨hx, hc⟩)
              obtain ⟨y, hy⟩ := Option.isSome_iff_exists.1 (List.getLast?_isSome.2 hne)
              rw [hy] at hlast ⊢
              simpa using hlast
            · exact hlast
          · rename_i hany
            split
            · rename_i hd
              refine .cons ⟨rfl, ?_⟩ (hrefl _)
              rw [List.filter_cons, if_pos (by simpa using hd), List.filter_eq_nil_iff.2] at hlast
              · obtain rfl : d = t := by simpa using hlast
                exact hup
              · intro x hx hc
                exact hany (List.any_eq_true.2 ⟨x, hx, hc⟩)
            · exact hrefl _

theorem foldlM_upsized {α : Type} (f : List Dev → α → Py (List Dev))
    (hf : ∀ devs a devs', f devs a = .ok devs' → List.Forall₂ DevUpsized devs devs') (l : List α) (devs devs' : List Dev)
    (h : l.foldlM f devs = .ok devs') : List.Forall₂ DevUpsized devs devs' := by
  induction l generalizing devs with
  | nil =>
    simp only [List.foldlM_nil, pure, Except.pure, Except.ok.injEq] at h
    subst h
    exact List.forall₂_same.2 fun d _ => .refl d
  | cons a l ih =>
    rw [List.foldlM_cons] at h
    cases h1 : f devs a with
    | error e => rw [h1] at h; simp [bind, Except.bind] at h
    | ok d1 =>
      rw [h1] at h
      exact forall₂_trans devUpsized_trans (hf _ _ _ h1) (ih d1 h)

/-- For every model: nothing but ratings of windings changes, and where they change all windings of the transformer get a catalogue
size that is larger than the rating of the first one. -/
theorem C28_upsized (devs ls devs' : List Dev) (h : fixUndersized devs ls = .ok devs') :
    List.Forall₂ (fun d d' => d' = { d with windings := d'.windings } ∧ Upsized d.windings d'.windings) devs devs' := by
  unfold fixUndersized at h
  split at h
  · simp at h
  · rename_i m ds hfold
    simp only [Except.ok.injEq] at h
    subst h
    suffices hs : ∀ (srcs : List Dev) (st st' : LoadMap × List Dev), srcs.foldlM (fixSource ls) st = .ok st' →
        List.Forall₂ DevUpsized st.2 st'.2 from hs _ _ _ hfold
    intro srcs
    induction srcs with
    | nil =>
      intro st st' h
      simp only [List.foldlM_nil, pure, Except.pure, Except.ok.injEq] at h
      subst h
      exact List.forall₂_same.2 fun d _ => .refl d
    | cons src srcs ih =>
      intro st st' h
      rw [List.foldlM_cons] at h
      cases h1 : fixSource ls st src with
      | error e => rw [h1] at h; simp [bind, Except.bind] at h
      | ok st1 =>
        rw [h1] at h
        refine forall₂_trans devUpsized_trans ?_ (ih st1 st' h)
        unfold fixSource at h1
        split at h1
        · simp only [Except.ok.injEq] at h1; subst h1; exact List.forall₂_same.2 fun d _ => .refl d
        · split at h1
          · simp at h1
          · split at h1
            · simp at h1
            · split at h1
              · simp at h1
              · rename_i hres
                simp only [Except.ok.injEq] at h1
                subst h1
                exact foldlM_upsized _ (fun _ _ _ h => resizeStep_upsized h) _ _ _ hres

/-- The rating of the first winding never decreases. -/
theorem C28_never_decreases (devs ls devs' : List Dev) (h : fixUndersized devs ls = .ok devs') :
    List.Forall₂ (fun d d' => ∀ w rest r, d.windings = w :: rest → w.rated = some r →
      ∃ w' rest' r', d'.windings = w' :: rest' ∧ w'.rated = some r' ∧ r ≤ r') devs devs' := by
  refine (C28_upsized devs ls devs' h).imp ?_
  rintro d d' ⟨_, h | ⟨w0, rest0, r0, sz, h1, h2, _, h3, h4⟩⟩ w rest r hw hr
  · exact ⟨w, rest, r, by rw [h, hw], hr, le_refl r⟩
  · rw [h1] at hw h4
    simp only [List.cons.injEq] at hw
    obtain ⟨rfl, rfl⟩ := hw
    rw [h2] at hr
    simp only [Option.some.injEq] at hr
    subst hr
    exact ⟨_, _, sz * 1000, by rw [h4, List.map_cons], rfl, h3.le⟩

/-! ### One source -/

theorem Serves.unique {devs : List Dev} (hT : Tidy devs) (hloop : ¬ HasLoop (ClosedLink (netList devs))) {s : String} {t t' l : Dev}
    (h : Serves devs s t l) (h' : Serves devs s t' l) : t = t' := by
  obtain ⟨c, p, ds, h1, h2, h3, h4⟩ := h
  obtain ⟨c', p', ds', h1', h2', h3', h4'⟩ := h'
  rw [h1] at h1'
  simp only [Option.some.injEq] at h1'
  subst h1'
  obtain rfl := simplePath_unique (fun _ _ h => ClosedLink.symm h) hloop h2 h2'
  obtain rfl := Along.unique hT.parallel h3 h3'
  rw [h4] at h4'
  simpa using h4'

theorem Serves.mem {devs : List Dev} {s : String} {t l : Dev} (h : Serves devs s t l) : t ∈ devs ∧ Distribution t := by
  obtain ⟨c, p, ds, _, _, h3, h4⟩ := h
  have : t ∈ ds.filter (fun d => Distribution d) := by rw [h4]; simp
  rw [List.mem_filter] at this
  exact ⟨h3.mem t this.1, by simpa using this.2⟩

open Classical in
/-- the name of the transformer that serves the load -/
noncomputable def server (devs : List Dev) (s : String) (l : Dev) : Option (Option String) :=
  if h : ∃ t, Serves devs s t l then some h.choose.net.name else none

theorem server_eq {devs : List Dev} (hT : Tidy devs) (hloop : ¬ HasLoop (ClosedLink (netList devs))) {s : String} {t l : Dev}
    (h : Serves devs s t l) : server devs s l = some t.net.name := by
  unfold server
  have hex : ∃ t, Serves devs s t l := ⟨t, h⟩
  rw [dif_pos hex, Serves.unique hT hloop hex.choose_spec h]

theorem server_none {devs : List Dev} {s : String} {l : Dev} (h : ¬ ∃ t, Serves devs s t l) : server devs s l = none := by
  unfold server
  rw [dif_neg h]

theorem server_iff {devs : List Dev} (hT : Tidy devs) (hloop : ¬ HasLoop (ClosedLink (netList devs))) {s : String} {t l : Dev}
    (ht : t ∈ devs) : server devs s l = some t.net.name ↔ Serves devs s t l := by
  refine ⟨fun h => ?_, server_eq hT hloop⟩
  by_cases hex : ∃ t, Serves devs s t l
  · obtain ⟨t', ht'⟩ := hex
    rw [server_eq hT hloop ht', Option.some.injEq] at h
    obtain rfl := List.inj_on_of_nodup_map hT.names ht'.mem.1 ht h
    exact ht'
  · rw [server_none hex] at h; simp at h

theorem mapLoad_eq {devs : List Dev} (hT : Tidy devs) (hloop : ¬ HasLoop (ClosedLink (netList devs))) {l : Dev} {s : String}
    {n n' : Network} (hb : build (netList devs) s = .ok n) (hr : removeOpenSwitches n (netList devs) = .ok n')
    (hc : ClosedNet (netList devs) s n'.graph) (hroute : Routed devs s l) (m : LoadMap) :
    mapLoad devs n.digraph n'.graph (shortestPaths n'.graph s) m l =
      .ok (match server devs s l with | some t => appendLoad m t l.net.name | none => m) := by
  unfold mapLoad
  cases hl : l.net.connecting with
  | none =>
    rw [server_none]
    rintro ⟨t, c, p, ds, h, _⟩
    simp [hl] at h
  | some c =>
    obtain ⟨h1, h2⟩ := shortestPaths_spec hc c
    simp only
    cases hp : (shortestPaths n'.graph s).lookup c with
    | none =>
      rw [server_none]
      rintro ⟨t, c', p, ds, h3, h4, _⟩
      rw [hl] at h3
      simp only [Option.some.injEq] at h3
      subst h3
      exact h2.1 hp h4.reach'
    | some p =>
      have hsp := (h1 p hp).1
      obtain ⟨ds, ha, hels⟩ := routed_elements hT hb hr hc hroute hl hsp
      simp only [hels, ← List.map_reverse, transformerNames_eq]
      by_cases hex : ∃ t, Serves devs s t l
      · obtain ⟨t, ht⟩ := hex
        rw [server_eq hT hloop ht]
        obtain ⟨c', p', ds', h3, h4, h5, h6⟩ := ht
        rw [hl] at h3
        simp only [Option.some.injEq] at h3
        subst h3
        obtain rfl := simplePath_unique (fun _ _ h => ClosedLink.symm h) hloop hsp h4
        obtain rfl := Along.unique hT.parallel ha h5
        rw [List.filter_reverse, h6]
        rfl
      · rw [server_none hex]
        have hlen : ∀ t, ds.filter (fun d => Distribution d) ≠ [t] := fun t ht => hex ⟨t, c, p, ds, hl, hsp, ha, ht⟩
        rw [List.filter_reverse]
        generalize ds.filter (fun d => Distribution d) = f at hlen
        match f, hlen with
        | [], _ => rfl
        | [t], h => exact absurd rfl (h t)
        | a :: b :: f, _ =>
          simp only [List.reverse_cons, List.append_assoc, List.map_append, List.map_cons, List.map_nil]
          cases f.reverse with
          | nil => rfl
          | cons x xs => simp

theorem perm_sum {l l' : List ℚ} (h : l.Perm l') : l.sum = l'.sum := h.sum_eq

open Classical in
/-- Part of the property, for one source, no loops, definite devices along the paths, loads with numbers and transformers with a
rating: every object keeps everything but its windings; a transformer that is the only distribution transformer on the way to
some load is resized for the sum of these loads, every other object keeps its windings.
Missing: several sources (`C28_sources_violated`) and the ratings of other windings (`C28_winding_violated`). -/
theorem C28_effect_partial (devs ls : List Dev) (hT : Tidy devs) (hls : ls.Perm (devLoads devs))
    (hloop : ¬ HasLoop (ClosedLink (netList devs))) (src : Dev) (s : String) (hsrc : devSources devs = [src])
    (hs : src.net.connecting = some s) (hroute : ∀ l ∈ devLoads devs, Routed devs s l)
    (hp : ∀ l ∈ devLoads devs, ∀ x ∈ l.phaseLoads, x ≠ none)
    (hr : ∀ t ∈ devs, Distribution t → ∃ w0 rest r, t.windings = w0 :: rest ∧ w0.rated = some r) :
    ∃ devs', fixUndersized devs ls = .ok devs' ∧ List.Forall₂ (fun d d' => d' = { d with windings := d'.windings } ∧
      ((∃ l ∈ devLoads devs, Serves devs s d l) →
        Resized (((devLoads devs).filter fun l => Serves devs s d l).map demand).sum d.windings d'.windings) ∧
      ((¬ ∃ l ∈ devLoads devs, Serves devs s d l) → d'.windings = d.windings)) devs devs' := by
  obtain ⟨s', n, n', hs', hb, hrm, hsn, hcn⟩ := sourceNetwork_ok hT (src := src) (by rw [hsrc]; simp)
  rw [hs] at hs'
  simp only [Option.some.injEq] at hs'
  subst hs'
  have hmem : ∀ l ∈ ls, l ∈ devs := fun l hl => (List.mem_filter.1 (hls.mem_iff.1 hl)).1
  obtain ⟨m, hm, hg⟩ := mapLoad_fold (server devs s) ls
    (fun l hl m => mapLoad_eq hT hloop hb hrm hcn (hroute l (hls.mem_iff.1 hl)) m) [] [] ⟨by simp, by simp, by simp⟩
  rw [List.nil_append] at hg
  -- the loads of an entry
  have hval : ∀ t ∈ devs, ∀ e ∈ m, e.1 = t.net.name →
      e.2 = (ls.filter fun l => Serves devs s t l).map (·.net.name) := by
    intro t ht e he hk
    rw [hg.value e he, hk]
    clear hg hm hmem hls
    induction ls with
    | nil => rfl
    | cons l ls ih =>
      rw [List.filterMap_cons, List.filter_cons]
      cases hsv : server devs s l with
      | none =>
        have : ¬ Serves devs s t l := fun h => by rw [server_eq hT hloop h] at hsv; simp at hsv
        simp only [Option.map_none, this, decide_false]
        exact ih
      | some nm =>
        simp only [Option.map_some, List.filter_cons]
        by_cases h : Serves devs s t l
        · rw [server_eq hT hloop h, Option.some.injEq] at hsv
          subst hsv
          simp only [h, decide_true, if_true, List.map_cons]
          rw [ih]
        · have : nm ≠ t.net.name := by
            rintro rfl
            exact h ((server_iff hT hloop ht).1 hsv)
          simp only [this, h, decide_false]
          exact ih
  have hkey : ∀ t ∈ devs, t.net.name ∈ m.map (·.1) ↔ ∃ l ∈ devLoads devs, Serves devs s t l := by
    intro t ht
    rw [hg.key]
    constructor
    · rintro ⟨p, hpm, hpk⟩
      obtain ⟨l, hl, heq⟩ := List.mem_filterMap.1 hpm
      obtain ⟨nm, hnm, rfl⟩ := Option.map_eq_some_iff.1 heq
      simp only at hpk
      subst hpk
      exact ⟨l, hls.mem_iff.1 hl, (server_iff hT hloop ht).1 hnm⟩
    · rintro ⟨l, hl, hsv⟩
      exact ⟨(t.net.name, l.net.name), List.mem_filterMap.2 ⟨l, hls.mem_iff.2 hl, by rw [server_eq hT hloop hsv]; rfl⟩, rfl⟩
  have hentry : ∀ e ∈ m, ∃ t ∈ devs, t.net.name = e.1 ∧ Distribution t := by
    intro e he
    obtain ⟨p, hpm, hpk⟩ := (hg.key e.1).1 (List.mem_map_of_mem he)
    obtain ⟨l, hl, heq⟩ := List.mem_filterMap.1 hpm
    obtain ⟨nm, hnm, rfl⟩ := Option.map_eq_some_iff.1 heq
    by_cases hex : ∃ t, Serves devs s t l
    · obtain ⟨t, ht⟩ := hex
      rw [server_eq hT hloop ht, Option.some.injEq] at hnm
      exact ⟨t, ht.mem.1, hnm.trans hpk, ht.mem.2⟩
    · rw [server_none hex] at hnm; simp at hnm
  obtain ⟨devs', h1, h2⟩ := resize_fold m devs hT.named hT.names hg.keys
    (fun k => ((ls.filter fun l => ∃ t, t.net.name = k ∧ Serves devs s t l).map demand).sum)
    (by
      intro e he
      obtain ⟨t, ht, hk, _⟩ := hentry e he
      rw [hval t ht e he hk.symm, totalLoad_eq hT]
      · congr 3
        apply List.filter_congr
        intro l hl
        rw [decide_eq_decide]
        constructor
        · intro h; exact ⟨t, hk, h⟩
        · rintro ⟨t', hk', h⟩
          obtain rfl := List.inj_on_of_nodup_map hT.names h.mem.1 ht (hk'.trans hk.symm)
          exact h
      · intro l hl; exact hmem l (List.mem_filter.1 hl).1
      · intro l hl; exact hp l (hls.mem_iff.1 (List.mem_filter.1 hl).1))
    (by
      intro e he
      obtain ⟨t, ht, hk, hd⟩ := hentry e he
      exact ⟨t, ht, hk, hr t ht hd⟩)
  refine ⟨devs', ?_, ?_⟩
  · unfold fixUndersized
    rw [hsrc, List.foldlM_cons]
    have : fixSource ls ([], devs) src = .ok (m, devs') := by
      unfold fixSource
      simp only [hs, hsn, hm, h1]
    rw [this]
    rfl
  · have h3 := List.forall₂_iff_zip.1 h2
    refine List.forall₂_iff_zip.2 ⟨h3.1, fun {d d'} hz => ?_⟩
    obtain ⟨g1, g2, g3⟩ := h3.2 hz
    have hd : d ∈ devs := (List.of_mem_zip hz).1
    refine ⟨g1, fun hex => ?_, fun hex => ?_⟩
    · have := g2 ((hkey d hd).2 hex)
      have hsum : ((ls.filter fun l => ∃ t, t.net.name = d.net.name ∧ Serves devs s t l).map demand).sum =
          (((devLoads devs).filter fun l => Serves devs s d l).map demand).sum := by
        refine (perm_sum ((hls.filter _).map _)).trans ?_
        congr 2
        apply List.filter_congr
        intro l hl
        rw [decide_eq_decide]
        constructor
        · rintro ⟨t', hk', h⟩
          obtain rfl := List.inj_on_of_nodup_map hT.names h.mem.1 hd hk'
          exact h
        · intro h; exact ⟨d, rfl, h⟩
      rw [hsum] at this
      exact this
    · rw [g3 fun h => hex ((hkey d hd).1 h)]

/-! ### Cases -/

example : ∃ src, devSources (exFeeder ["A"] ["A"] ["A"] ["A"]) = [src] ∧ src.net.connecting = some "a" ∧
    (∀ l ∈ devLoads (exFeeder ["A"] ["A"] ["A"] ["A"]), Routed (exFeeder ["A"] ["A"] ["A"] ["A"]) "a" l) ∧
    (∀ l ∈ devLoads (exFeeder ["A"] ["A"] ["A"] ["A"]), ∀ x ∈ l.phaseLoads, x ≠ none) ∧
    (∀ t ∈ exFeeder ["A"] ["A"] ["A"] ["A"], Distribution t → ∃ w0 rest r, t.windings = w0 :: rest ∧ w0.rated = some r) := by
  refine ⟨_, by rfl, rfl, ?_, by decide +kernel, ?_⟩
  · intro l hl
    exact routed_of_plain (exFeeder_tidy _ _ _ _) (exFeeder_plain _ _ _ _) (exFeeder_radial _ _ _ _) (src := { net := { cls := "PowerSource", name := some "src", connecting := some "a" } })
      (by decide +kernel) (List.mem_filter.1 hl).1 rfl
  · simp [exFeeder, Distribution]

/-- 18 kW behind a transformer of 10 kVA: the next size is 25 kVA -/
example : (fixUndersized (exFeeder ["A"] ["A"] ["A"] ["A"]) (devLoads (exFeeder ["A"] ["A"] ["A"] ["A"]))).map
    (fun ds => ds.map fun d => d.windings.map (·.rated)) = .ok [[], [], [some 25000, some 25000], [], []] := by decide +kernel

/-- a transformer whose second winding has a larger rating than the first one -/
def exWinding : List Dev := [
  { net := { cls := "PowerSource", name := some "src", connecting := some "a" } },
  { net := { cls := "PowerTransformer", name := some "t", fromEl := some "a", toEl := some "b" },
    windings := [⟨some 10000, [some "A"]⟩, ⟨some 100000, [some "A"]⟩] },
  { net := { cls := "Load", name := some "x", connecting := some "b" }, phaseLoads := [some 18000] }]

/-- The property is violated: the rating of the second winding decreases from 100 to 25 kVA. -/
theorem C28_winding_violated : (fixUndersized exWinding (devLoads exWinding)).map
    (fun ds => ds.map fun d => d.windings.map (·.rated)) = .ok [[], [some 25000, some 25000], []] := by decide +kernel

/-- two sources on one feeder -/
def exTwoSources : List Dev := [
  { net := { cls := "PowerSource", name := some "src", connecting := some "a" } },
  { net := { cls := "PowerSource", name := some "src2", connecting := some "a" } },
  { net := { cls := "PowerTransformer", name := some "t", fromEl := some "a", toEl := some "b" },
    windings := [⟨some 25000, [some "A"]⟩, ⟨some 25000, [some "A"]⟩] },
  { net := { cls := "Load", name := some "x", connecting := some "b" }, phaseLoads := [some 18000] }]

/-- The property is violated: with two sources the load counts twice, and a transformer of 25 kVA for 18 kW is changed to 50 kVA. -/
theorem C28_sources_violated : (fixUndersized exTwoSources (devLoads exTwoSources)).map
    (fun ds => ds.map fun d => d.windings.map (·.rated)) = .ok [[], [], [some 50000, some 50000], []] := by decide +kernel

end Ditto.Net
