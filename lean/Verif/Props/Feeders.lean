import Verif.Spec.Feeders
import Verif.Lemmas.Named
import Verif.Props.Downstream

/-! C33: `feeder_preprocessing`. -/
namespace Ditto.Net
open Ditto Ditto.Spec

theorem isSet_iff {s : Option String} : isSet s = true ↔ ∃ x, s = some x ∧ x ≠ "" := by
  cases s <;> simp [isSet]

theorem Kept.refl (d : FeedDev) : Kept d d := ⟨rfl, rfl, rfl, fun _ h _ => h, fun _ h _ => h⟩

theorem Kept.trans {a b c : FeedDev} (h1 : Kept a b) (h2 : Kept b c) : Kept a c :=
  ⟨h2.net.trans h1.net, h2.isSub.trans h1.isSub, h2.hasNames.trans h1.hasNames,
    fun x hx hne => h2.substation x (h1.substation x hx hne) hne, fun x hx hne => h2.feeder x (h1.feeder x hx hne) hne⟩

theorem kept_refl (l : List FeedDev) : List.Forall₂ Kept l l := List.forall₂_same.2 fun d _ => Kept.refl d

theorem kept_trans {a b c : List FeedDev} (h1 : List.Forall₂ Kept a b) (h2 : List.Forall₂ Kept b c) : List.Forall₂ Kept a c := by
  induction h1 generalizing c with
  | nil => cases h2; exact .nil
  | cons hab _ ih => cases h2 with | cons hbc h => exact .cons (hab.trans hbc) (ih h)

theorem updateNamed_any {α : Type} {name : α → Option String} {f : α → α} (hf : ∀ o, name (f o) = name o) (nm nm' : Option String)
    (l : List α) : (updateNamed name nm f l).any (fun o => name o = nm') = l.any (fun o => name o = nm') := by
  induction l with
  | nil => rfl
  | cons a l ih =>
    unfold updateNamed
    split
    · rw [List.any_cons, List.any_cons, ih]
    · split
      · rw [List.any_cons, List.any_cons, hf]
      · rfl

theorem updateNamed_twice {α : Type} {name : α → Option String} {f g : α → α} (hf : ∀ o, name (f o) = name o)
    (nm : Option String) (l : List α) :
    updateNamed name nm g (updateNamed name nm f l) = updateNamed name nm (g ∘ f) l := by
  induction l with
  | nil => rfl
  | cons a l ih =>
    conv_lhs => rw [updateNamed]
    conv_rhs => rw [updateNamed]
    by_cases hany : (l.any fun o' => name o' = nm) = true
    · rw [if_pos hany, if_pos hany]
      conv_lhs => rw [updateNamed]
      rw [updateNamed_any hf, if_pos hany, ih]
    · rw [if_neg hany, if_neg hany]
      by_cases hn : name a = nm
      · rw [if_pos hn, if_pos hn]
        conv_lhs => rw [updateNamed]
        rw [if_neg hany, hf, if_pos hn]
        rfl
      · rw [if_neg hn, if_neg hn]
        conv_lhs => rw [updateNamed]
        rw [if_neg hany, if_neg hn]

/-- both assignments -/
theorem assign_both (key sub feeder : Option String) (devs : List FeedDev) :
    updateNamed (fun d : FeedDev => d.net.name) key (fun d => { d with feeder := feeder })
      (updateNamed (fun d : FeedDev => d.net.name) key (fun d => { d with substation := sub }) devs) =
    updateNamed (fun d : FeedDev => d.net.name) key (fun d => { d with substation := sub, feeder := feeder }) devs :=
  updateNamed_twice (name := fun d : FeedDev => d.net.name) (f := fun d => { d with substation := sub })
    (g := fun d => { d with feeder := feeder }) (fun _ => rfl) key devs

theorem assignFeeder_kept (elt : FeedDev) (key : Option String) (devs : List FeedDev) :
    List.Forall₂ Kept devs (assignFeeder elt key devs).state := by
  unfold assignFeeder
  split
  · exact kept_refl _
  · rename_i d hd
    split
    · split
      · exact kept_refl _
      · rename_i hs
        have hsub : List.Forall₂ Kept devs (updateNamed (·.net.name) key (fun d => { d with substation := elt.net.name }) devs) := by
          refine updateNamed_rel Kept.refl fun o _ _ hnd => ?_
          rw [hd] at hnd
          simp only [Except.ok.injEq] at hnd
          subst hnd
          exact ⟨rfl, rfl, rfl, fun x hx hne => absurd (isSet_iff.2 ⟨x, hx, hne⟩) hs, fun _ h _ => h⟩
        simp only
        split
        · exact hsub
        · rename_i hf
          split
          · exact hsub
          · simp only
            rw [assign_both]
            refine updateNamed_rel Kept.refl fun o _ _ hnd => ?_
            rw [hd] at hnd
            simp only [Except.ok.injEq] at hnd
            subst hnd
            exact ⟨rfl, rfl, rfl, fun x hx hne => absurd (isSet_iff.2 ⟨x, hx, hne⟩) hs,
              fun x hx hne => absurd (isSet_iff.2 ⟨x, hx, hne⟩) hf⟩
    · exact kept_refl _

theorem assignFeeders_kept (elt : FeedDev) (keys : List (Option String)) :
    ∀ devs, List.Forall₂ Kept devs (assignFeeders elt keys devs).state := by
  induction keys with
  | nil => exact kept_refl
  | cons key keys ih =>
    intro devs
    have h1 := assignFeeder_kept elt key devs
    unfold assignFeeders
    split
    · rename_i devs1 e heq; rw [heq] at h1; exact h1
    · rename_i devs1 heq; rw [heq] at h1; exact kept_trans h1 (ih devs1)

theorem feederOf_kept (n : Network) (elt : FeedDev) (devs : List FeedDev) : List.Forall₂ Kept devs (feederOf n elt devs).state := by
  unfold feederOf
  split
  · exact kept_refl _
  · split
    · exact kept_refl _
    · split
      · exact kept_refl _
      · exact assignFeeders_kept _ _ _

/-- C33: no name that was set is changed, neither on success nor if an exception ends the method. Nothing but these names changes. -/
theorem C33_keeps (n : Network) (devs : List FeedDev) : List.Forall₂ Kept devs (feederPreprocessing n devs).state := by
  have key : ∀ elts devs, List.Forall₂ Kept devs (feedersOf n elts devs).state := by
    intro elts
    induction elts with
    | nil => exact kept_refl
    | cons elt elts ih =>
      intro devs
      have h1 := feederOf_kept n elt devs
      unfold feedersOf
      split
      · rename_i devs1 e heq; rw [heq] at h1; exact h1
      · rename_i devs1 heq; rw [heq] at h1; exact kept_trans h1 (ih devs1)
  exact key _ _

/-! ### Distinct names -/

/-- the object after the assignments `F` -/
def putF (F : String → Option String) (d : FeedDev) : FeedDev :=
  match d.net.name.bind F with
  | none => d
  | some nm => d.onFeeder nm

theorem putF_net (F : String → Option String) (d : FeedDev) : (putF F d).net = d.net := by
  unfold putF; split <;> rfl

theorem putF_name (F : String → Option String) (d : FeedDev) : (putF F d).net.name = d.net.name := by rw [putF_net]

theorem putF_isSub (F : String → Option String) (d : FeedDev) : (putF F d).isSub = d.isSub := by
  unfold putF; split <;> rfl

theorem putF_hasNames (F : String → Option String) (d : FeedDev) : (putF F d).hasNames = d.hasNames := by
  unfold putF; split <;> rfl

theorem putF_none (devs : List FeedDev) : devs.map (putF fun _ => none) = devs := by
  rw [List.map_congr_left (g := id), List.map_id]
  intro d _
  unfold putF
  cases d.net.name <;> rfl

/-- one more assignment -/
def updF (F : String → Option String) (x nm : String) : String → Option String := fun z => if z = x then some nm else F z

theorem downstreamKeys_put (n : Network) (F : String → Option String) (devs : List FeedDev) (t : String) :
    downstreamKeys n (devs.map (putF F)) t = downstreamKeys n devs t := by
  unfold downstreamKeys
  congr 1
  funext key
  rw [List.any_map]
  simp only [Function.comp_def, putF_name]

theorem subAt_put (F : String → Option String) (devs : List FeedDev) : subAt (devs.map (putF F)) = subAt devs := by
  funext key
  unfold subAt
  rw [named_map (name := fun d : FeedDev => d.net.name) (f := putF F) (putF_name F)]
  cases named (fun d : FeedDev => d.net.name) devs key with
  | error e => rfl
  | ok d => exact putF_isSub F d

theorem feeder_isSet (nm : String) : isSet (some ("Feeder_" ++ nm)) = true := by
  rw [isSet_iff]
  refine ⟨_, rfl, fun h => ?_⟩
  have := congrArg String.toList h
  simp at this

theorem assignFeeder_iff {devs : List FeedDev} (h : (devs.filterMap (·.net.name)).Nodup) (F : String → Option String)
    {elt : FeedDev} {nm x : String} (hnm : elt.net.name = some nm) :
    (F x = none ∧ Free devs x ∧ assignFeeder elt (some x) (devs.map (putF F)) = ⟨devs.map (putF (updF F x nm)), none⟩) ∨
    (¬ (F x = none ∧ Free devs x) ∧ (assignFeeder elt (some x) (devs.map (putF F))).err ≠ none) := by
  have hnd : ((devs.map (putF F)).filterMap (fun d : FeedDev => d.net.name)).Nodup := by
    rw [filterMap_name_map (name := fun d : FeedDev => d.net.name) (putF_name F)]; exact h
  by_cases hex : ∃ d ∈ devs, d.net.name = some x
  · obtain ⟨d, hd, hn⟩ := hex
    have hfree : Free devs x ↔ d.hasNames = true ∧ isSet d.substation = false ∧ isSet d.feeder = false := by
      constructor
      · rintro ⟨d', hd', hn', h1⟩
        rw [name_inj (name := fun d : FeedDev => d.net.name) h hd' hd hn' hn] at h1
        exact h1
      · intro h1; exact ⟨d, hd, hn, h1⟩
    have hlook := named_eq hnd (List.mem_map_of_mem (f := putF F) hd) (x := x) (by rw [putF_name]; exact hn)
    cases hF : F x with
    | some m =>
      right
      refine ⟨by simp, ?_⟩
      have hput : putF F d = d.onFeeder m := by unfold putF; simp [hn, hF]
      unfold assignFeeder
      rw [hlook, hput]
      simp only
      split
      · split
        · simp
        · rw [if_pos]
          · simp
          · exact feeder_isSet m
      · simp
    | none =>
      have hput : putF F d = d := by unfold putF; simp [hn, hF]
      rw [hput] at hlook
      unfold assignFeeder
      rw [hlook]
      simp only
      rw [hfree]
      by_cases h1 : d.hasNames = true
      · rw [if_pos h1]
        by_cases h2 : isSet d.substation = true
        · right; rw [if_pos h2]; simp [h2]
        · rw [if_neg h2]
          by_cases h3 : isSet d.feeder = true
          · right; rw [if_pos h3]; simp [h3]
          · left
            rw [if_neg h3]
            refine ⟨by first | rfl | trivial, ⟨h1, by simpa using h2, by simpa using h3⟩, ?_⟩
            rw [hnm]
            simp only
            rw [assign_both, updateNamed_eq hnd, List.map_map]
            congr 1
            apply List.map_congr_left
            intro d' hd'
            simp only [Function.comp_apply, putF_name]
            by_cases hx : d'.net.name = some x
            · rw [if_pos hx]
              obtain rfl := name_inj (name := fun d : FeedDev => d.net.name) h hd' hd hx hn
              rw [hput]
              unfold putF updF FeedDev.onFeeder
              simp [hx]
            · rw [if_neg hx]
              unfold putF updF
              cases hn' : d'.net.name with
              | none => rfl
              | some z =>
                have : z ≠ x := fun hz => hx (by rw [hn', hz])
                simp [this]
      · right; rw [if_neg h1]; simp [h1]
  · right
    have hno : ¬ Free devs x := fun ⟨d, hd, hn, _⟩ => hex ⟨d, hd, hn⟩
    refine ⟨fun h => hno h.2, ?_⟩
    unfold assignFeeder
    rw [named_missing]
    · simp
    · intro o ho hn
      obtain ⟨d, hd, rfl⟩ := List.mem_map.1 ho
      rw [putF_name] at hn
      exact hex ⟨d, hd, hn⟩

theorem assignFeeders_iff {devs : List FeedDev} (h : (devs.filterMap (·.net.name)).Nodup) {elt : FeedDev} {nm : String}
    (hnm : elt.net.name = some nm) (xs : List String) (hxs : xs.Nodup) :
    ∀ F : String → Option String, 
    ((∀ x ∈ xs, F x = none ∧ Free devs x) ∧ ∃ F', assignFeeders elt (xs.map some) (devs.map (putF F)) = ⟨devs.map (putF F'), none⟩ ∧
        ∀ x, F' x = if x ∈ xs then some nm else F x) ∨
    (¬ (∀ x ∈ xs, F x = none ∧ Free devs x) ∧ (assignFeeders elt (xs.map some) (devs.map (putF F))).err ≠ none) := by
  induction xs with
  | nil => intro F; exact .inl ⟨by simp, F, rfl, by simp⟩
  | cons x xs ih =>
    intro F
    rw [List.nodup_cons] at hxs
    simp only [List.map_cons]
    unfold assignFeeders
    rcases assignFeeder_iff h F hnm (x := x) with ⟨h1, h2, h3⟩ | ⟨h1, h2⟩
    · rw [h3]
      simp only
      rcases ih hxs.2 (updF F x nm) with ⟨g1, F', g2, g3⟩ | ⟨g1, g2⟩
      · left
        refine ⟨fun z hz => ?_, F', g2, fun z => ?_⟩
        · rcases List.mem_cons.1 hz with rfl | hz
          · exact ⟨h1, h2⟩
          · have := g1 z hz
            unfold updF at this
            rw [if_neg (fun hzx : z = x => hxs.1 (hzx ▸ hz))] at this
            exact this
        · rw [g3 z]
          unfold updF
          simp only [List.mem_cons]
          by_cases hz : z = x
          · subst hz; simp
          · simp [hz]
      · right
        refine ⟨fun hall => g1 fun z hz => ?_, g2⟩
        unfold updF
        rw [if_neg (fun hzx : z = x => hxs.1 (hzx ▸ hz))]
        exact hall z (by simp [hz])
    · right
      refine ⟨fun hall => h1 (hall x (by simp)), ?_⟩
      split
      · simp
      · rename_i heq
        rw [heq] at h2
        exact absurd rfl h2

/-! ### The names below a node -/

theorem lookupAll_self {devs : List FeedDev} {l keys : List (Option String)}
    (h : lookupAll (fun key => if devs.any (fun d => d.net.name = key) then some key else none) l = .ok keys) : keys = l := by
  have := lookupAll_ok _ _ _ h
  clear h
  induction this with
  | nil => rfl
  | cons hab _ ih =>
    rw [ih]
    split at hab
    · simp only [Option.some.injEq] at hab; rw [hab]
    · simp at hab

theorem feeds_of_reach {n : Network} {t u v : String} (hr : Reach (Directed n) t u) (hd : Directed n u v) :
    ∃ y, Directed n t y := by
  rcases Relation.ReflTransGen.cases_head hr with rfl | ⟨y, hy, _⟩
  · exact ⟨v, hd⟩
  · exact ⟨y, hy⟩

/-- what `get_all_elements_downstream` finds below a node that feeds something -/
theorem mem_downstreamKeys {objs : List NetObj} {s : String} {n : Network} (h : build objs s = .ok n) {devs : List FeedDev}
    {t : String} {keys : List (Option String)} (hk : downstreamKeys n devs t = .ok keys) (x : String) :
    some x ∈ keys ↔ (∃ y, Directed n t y) ∧ Below n t x := by
  unfold downstreamKeys elementsDownstream at hk
  split at hk
  · simp at hk
  · rename_i l hl
    rw [lookupAll_self hk, List.mem_dedup]
    rw [C20_names objs s n h t l hl]
    constructor
    · rintro ⟨u, v, hr, hd, hx⟩
      refine ⟨feeds_of_reach hr hd, ?_⟩
      rcases hx with hx | hx | ⟨ty, hx⟩
      · obtain rfl : x = u := by simpa using hx
        exact .inl hr
      · obtain rfl : x = v := by simpa using hx
        exact .inl (hr.tail hd)
      · exact .inr ⟨u, v, ty, hr, hd, hx⟩
    · rintro ⟨⟨y, hy⟩, hr | ⟨u, v, ty, hr, hd, hx⟩⟩
      · rcases Relation.ReflTransGen.cases_tail hr with rfl | ⟨u, hu, hd⟩
        · exact ⟨_, y, .refl, hy, .inl rfl⟩
        · exact ⟨u, x, hu, hd, .inr (.inl rfl)⟩
      · exact ⟨u, v, hr, hd, .inr (.inr ⟨ty, hx⟩)⟩

theorem downstreamKeys_nodup {n : Network} {devs : List FeedDev} {t : String} {keys : List (Option String)}
    (hk : downstreamKeys n devs t = .ok keys) : keys.Nodup := by
  unfold downstreamKeys elementsDownstream at hk
  split at hk
  · simp at hk
  · rw [lookupAll_self hk]
    exact List.nodup_dedup _

theorem downstreamKeys_mem {n : Network} {devs : List FeedDev} {t : String} {keys : List (Option String)}
    (hk : downstreamKeys n devs t = .ok keys) {key : Option String} (hkey : key ∈ keys) : ∃ d ∈ devs, d.net.name = key := by
  unfold downstreamKeys elementsDownstream at hk
  split at hk
  · simp at hk
  · have hf := lookupAll_ok _ _ _ hk
    clear hk
    generalize List.dedup (α := Option String) _ = l' at hf
    induction hf with
    | nil => simp at hkey
    | cons hab _ ih =>
      rcases List.mem_cons.1 hkey with rfl | hkey
      · split at hab
        · rename_i hany
          obtain ⟨d, hd, hn⟩ := List.any_eq_true.1 hany
          simp only [Option.some.injEq] at hab
          exact ⟨d, hd, by rw [← hab]; simpa using hn⟩
        · simp at hab
      · exact ih hkey

theorem downstreamKeys_ok_iff {objs : List NetObj} {s : String} {n : Network} (h : build objs s = .ok n) (devs : List FeedDev)
    (t : String) : (∃ keys, downstreamKeys n devs t = .ok keys) ↔ (∃ y, Directed n t y ∨ Directed n y t) ∧
      ∀ u v, Reach (Directed n) t u → Directed n u v → (∃ d ∈ devs, d.net.name = some u) ∧ (∃ d ∈ devs, d.net.name = some v) ∧
        ∀ ty nm, n.graph.equipOf u v = some (ty, nm) → ∃ d ∈ devs, d.net.name = nm := by
  have herr := C20_error_iff objs s n h t (fun key => if devs.any (fun d => d.net.name = key) then some key else none)
  have hdi : t ∈ diNodes n.digraph ↔ ∃ y, Directed n t y ∨ Directed n y t := by
    unfold diNodes Directed
    rw [List.mem_flatMap]
    constructor
    · rintro ⟨e, he, ht⟩
      simp only [List.mem_cons, List.not_mem_nil, or_false] at ht
      rcases ht with rfl | rfl
      · exact ⟨e.v, .inl ⟨e, he, rfl, rfl⟩⟩
      · exact ⟨e.u, .inr ⟨e, he, rfl, rfl⟩⟩
    · rintro ⟨y, ⟨e, he, rfl, _⟩ | ⟨e, he, _, rfl⟩⟩
      · exact ⟨e, he, by simp⟩
      · exact ⟨e, he, by simp⟩
  have hnone : ∀ nm : Option String, (if devs.any (fun d => d.net.name = nm) then some nm else none) = none ↔
      ¬ ∃ d ∈ devs, d.net.name = nm := by
    intro nm
    simp
  have hval : (∃ keys, downstreamKeys n devs t = .ok keys) ↔ downstreamKeys n devs t ≠ .error .valueError := by
    constructor
    · rintro ⟨keys, hk⟩; rw [hk]; simp
    · intro hne
      unfold downstreamKeys elementsDownstream downstreamNames at hne ⊢
      split
      · rename_i e he
        split at he
        · simp at he
        · simp only [Except.error.injEq] at he
          subst he
          rw [if_neg (by assumption)] at hne
          simp at hne
      · rename_i l hl
        rw [hl] at hne
        simp only at hne
        have gen : ∀ (names : Option String → Option (Option String)) (l : List (Option String)),
            lookupAll names l ≠ .error .valueError → ∃ keys, lookupAll names l = .ok keys := by
          intro names l
          induction l with
          | nil => intro _; exact ⟨_, rfl⟩
          | cons a l ih =>
            unfold lookupAll
            split
            · simp
            · split
              · rename_i e he
                intro hne
                obtain ⟨keys, hk⟩ := ih (by rw [he]; exact hne)
                rw [hk] at he
                simp at he
              · intro _; exact ⟨_, rfl⟩
        exact gen _ _ hne
  rw [hval]
  unfold downstreamKeys
  rw [Ne, herr, not_or, not_not, hdi]
  refine and_congr_right fun _ => ?_
  constructor
  · intro hno u v hr hd
    refine ⟨?_, ?_, fun ty nm he => ?_⟩
    · by_contra hc
      exact hno ⟨u, v, some u, hr, hd, .inl rfl, (hnone _).2 hc⟩
    · by_contra hc
      exact hno ⟨u, v, some v, hr, hd, .inr (.inl rfl), (hnone _).2 hc⟩
    · by_contra hc
      exact hno ⟨u, v, nm, hr, hd, .inr (.inr ⟨ty, he⟩), (hnone _).2 hc⟩
  · rintro hall ⟨u, v, nm, hr, hd, hx, hn⟩
    obtain ⟨h1, h2, h3⟩ := hall u v hr hd
    rw [hnone] at hn
    rcases hx with rfl | rfl | ⟨ty, he⟩
    · exact hn h1
    · exact hn h2
    · exact hn (h3 ty nm he)

/-! ### One substation -/

theorem subAt_iff {devs : List FeedDev} (h : (devs.filterMap (·.net.name)).Nodup) {x : String} (hex : ∃ d ∈ devs, d.net.name = some x) :
    subAt devs (some x) = false ↔ ∀ d ∈ devs, d.net.name = some x → d.isSub = false := by
  obtain ⟨d, hd, hn⟩ := hex
  unfold subAt
  rw [named_eq h hd hn]
  simp only
  constructor
  · intro hs d' hd' hn'
    rw [name_inj (name := fun d : FeedDev => d.net.name) h hd' hd hn' hn]
    exact hs
  · intro hall; exact hall d hd hn

/-- the condition for the iteration for one substation to succeed after the assignments `F` -/
def StepOk (n : Network) (devs : List FeedDev) (F : String → Option String) (elt : FeedDev) : Prop :=
  (∃ t, elt.net.toEl = some t ∧ ∃ keys, downstreamKeys n devs t = .ok keys) ∧
    ∀ nm t, FeederHead n devs elt nm t → ∀ x, Below n t x → F x = none ∧ Free devs x

/-- the iteration for one substation: just what is below a head changes -/
theorem feederOf_step {objs : List NetObj} {s : String} {n : Network} (hb : build objs s = .ok n) {devs : List FeedDev}
    (h : (devs.filterMap (·.net.name)).Nodup) (hall : ∀ d ∈ devs, d.net.name ≠ none) (F : String → Option String)
    {elt : FeedDev} (hmem : elt ∈ substations devs) :
    (StepOk n devs F elt ∧ ∃ F', feederOf n elt (devs.map (putF F)) = ⟨devs.map (putF F'), none⟩ ∧
      ∀ x, (∀ nm t, FeederHead n devs elt nm t → Below n t x → F' x = some nm) ∧
        ((∃ nm t, FeederHead n devs elt nm t ∧ Below n t x) ∨ F' x = F x)) ∨
    (¬ StepOk n devs F elt ∧ (feederOf n elt (devs.map (putF F))).err ≠ none) := by
  unfold substations at hmem
  simp only [List.mem_filter, Bool.and_eq_true, decide_eq_true_eq] at hmem
  obtain ⟨hmem, hcls, hsub⟩ := hmem
  obtain ⟨nm, hnm⟩ := Option.ne_none_iff_exists'.1 (hall elt hmem)
  unfold feederOf
  split
  · rename_i ht
    right
    refine ⟨fun hc => ?_, by simp⟩
    obtain ⟨t, ht', _⟩ := hc.1
    rw [ht] at ht'
    simp at ht'
  · rename_i t ht
    rw [downstreamKeys_put, subAt_put]
    split
    · rename_i e he
      right
      refine ⟨fun hc => ?_, by simp⟩
      obtain ⟨t', ht', keys, hk⟩ := hc.1
      obtain rfl : t = t' := by rw [ht] at ht'; simpa using ht'
      rw [hk] at he
      simp at he
    · rename_i keys hk
      have hmk := mem_downstreamKeys hb hk
      have hhead : ∀ nm' t', FeederHead n devs elt nm' t' → nm' = nm ∧ t' = t := by
        intro nm' t' hh
        have h1 := hh.name; rw [hnm] at h1
        have h2 := hh.toEl; rw [ht] at h2
        exact ⟨by simpa using h1.symm, by simpa using h2.symm⟩
      obtain ⟨xs, rfl⟩ : ∃ xs : List String, keys = xs.map some := by
        have : ∀ key ∈ keys, key ≠ none := by
          intro key hkey
          obtain ⟨d, hd, hn⟩ := downstreamKeys_mem hk hkey
          rw [← hn]; exact hall d hd
        clear hk hmk
        induction keys with
        | nil => exact ⟨[], rfl⟩
        | cons a l ih =>
          obtain ⟨xs, rfl⟩ := ih fun key hkey => this key (by simp [hkey])
          obtain ⟨x, rfl⟩ := Option.ne_none_iff_exists'.1 (this a (by simp))
          exact ⟨x :: xs, rfl⟩
      have hxs : xs.Nodup := List.Nodup.of_map _ (downstreamKeys_nodup hk)
      have hmx : ∀ x, x ∈ xs ↔ (∃ y, Directed n t y) ∧ Below n t x := by
        intro x
        rw [← hmk x]
        simp
      by_cases hany : (xs.map some).any (subAt devs) = true
      · rw [if_pos hany]
        left
        have hno : ∀ nm t, ¬ FeederHead n devs elt nm t := by
          intro nm' t' hh
          obtain ⟨rfl, rfl⟩ := hhead nm' t' hh
          obtain ⟨key, hkey, hs⟩ := List.any_eq_true.1 hany
          obtain ⟨d, hd, hn⟩ := downstreamKeys_mem hk hkey
          obtain ⟨x, hx, rfl⟩ := List.mem_map.1 hkey
          have := (subAt_iff h ⟨d, hd, hn⟩).2 fun d' hd' hn' => hh.lowest d' hd' x hn' ((hmx x).1 hx).2
          rw [this] at hs
          simp at hs
        exact ⟨⟨⟨t, ht, _, hk⟩, fun nm t hh => absurd hh (hno nm t)⟩, F, rfl,
          fun x => ⟨fun nm t hh => absurd hh (hno nm t), .inr rfl⟩⟩
      · rw [if_neg hany]
        have hlow : ∀ d ∈ devs, ∀ x, d.net.name = some x → x ∈ xs → d.isSub = false := by
          intro d hd x hn hx
          have : subAt devs (some x) = false := by
            cases hs : subAt devs (some x) with
            | false => rfl
            | true => exact absurd (List.any_eq_true.2 ⟨some x, List.mem_map_of_mem hx, hs⟩) hany
          exact (subAt_iff h ⟨d, hd, hn⟩).1 this d hd hn
        have hiff : ∀ x, x ∈ xs ↔ ∃ nm t, FeederHead n devs elt nm t ∧ Below n t x := by
          intro x
          constructor
          · intro hx
            obtain ⟨hy, hx'⟩ := (hmx x).1 hx
            exact ⟨nm, t, ⟨hmem, hcls, hsub, hnm, ht, hy, fun d hd z hn hz => hlow d hd z hn ((hmx z).2 ⟨hy, hz⟩)⟩, hx'⟩
          · rintro ⟨nm', t', hh, hx⟩
            obtain ⟨rfl, rfl⟩ := hhead nm' t' hh
            exact (hmx x).2 ⟨hh.feeds, hx⟩
        have hstep : StepOk n devs F elt ↔ ∀ x ∈ xs, F x = none ∧ Free devs x := by
          constructor
          · intro hc x hx
            obtain ⟨nm', t', hh, hx'⟩ := (hiff x).1 hx
            exact hc.2 nm' t' hh x hx'
          · intro hf
            exact ⟨⟨t, ht, _, hk⟩, fun nm' t' hh x hx => hf x ((hiff x).2 ⟨nm', t', hh, hx⟩)⟩
        rw [hstep]
        rcases assignFeeders_iff h hnm xs hxs F with ⟨h1, F', h2, h3⟩ | h2
        · left
          refine ⟨h1, F', h2, fun x => ⟨fun nm' t' hh hx => ?_, ?_⟩⟩
          · rw [h3, if_pos ((hiff x).2 ⟨nm', t', hh, hx⟩), (hhead nm' t' hh).1]
          · by_cases hx : x ∈ xs
            · exact .inl ((hiff x).1 hx)
            · right; rw [h3, if_neg hx]
        · exact .inr h2

/-! ### All substations -/

/-- what the assignments `F` are after the substations `P` -/
structure FeedInv (n : Network) (devs P : List FeedDev) (F : String → Option String) : Prop where
  only : ∀ x m, F x = some m → ∃ elt ∈ P, ∃ t, FeederHead n devs elt m t ∧ Below n t x
  all : ∀ elt ∈ P, ∀ nm t, FeederHead n devs elt nm t → ∀ x, Below n t x → F x = some nm ∧ Free devs x
  known : ∀ elt ∈ P, ∃ t, elt.net.toEl = some t ∧ ∃ keys, downstreamKeys n devs t = .ok keys
  disjoint : ∀ elt ∈ P, ∀ elt' ∈ P, ∀ nm nm' t t', FeederHead n devs elt nm t → FeederHead n devs elt' nm' t' →
    ∀ x, Below n t x → Below n t' x → elt = elt'

theorem FeedInv.step {n : Network} {devs P : List FeedDev} {F F' : String → Option String} {elt : FeedDev}
    (hinv : FeedInv n devs P F) (hok : StepOk n devs F elt)
    (hF : ∀ x, (∀ nm t, FeederHead n devs elt nm t → Below n t x → F' x = some nm) ∧
        ((∃ nm t, FeederHead n devs elt nm t ∧ Below n t x) ∨ F' x = F x)) : FeedInv n devs (P ++ [elt]) F' where
  only := by
    intro x m hm
    rcases (hF x).2 with ⟨nm, t, hh, hx⟩ | heq
    · have := (hF x).1 nm t hh hx
      rw [hm] at this
      obtain rfl : m = nm := by simpa using this
      exact ⟨elt, by simp, t, hh, hx⟩
    · rw [heq] at hm
      obtain ⟨elt', he, t, hh, hx⟩ := hinv.only x m hm
      exact ⟨elt', by simp [he], t, hh, hx⟩
  all := by
    intro elt' he nm t hh x hx
    rcases List.mem_append.1 he with he | he
    · obtain ⟨h1, h2⟩ := hinv.all elt' he nm t hh x hx
      refine ⟨?_, h2⟩
      rcases (hF x).2 with ⟨nm', t', hh', hx'⟩ | heq
      · have := (hok.2 nm' t' hh' x hx').1
        rw [h1] at this
        simp at this
      · rw [heq]; exact h1
    · obtain rfl : elt' = elt := by simpa using he
      exact ⟨(hF x).1 nm t hh hx, (hok.2 nm t hh x hx).2⟩
  known := by
    intro elt' he
    rcases List.mem_append.1 he with he | he
    · exact hinv.known elt' he
    · obtain rfl : elt' = elt := by simpa using he
      exact hok.1
  disjoint := by
    have cross : ∀ elt1 ∈ P, ∀ nm nm' t t', FeederHead n devs elt1 nm t → FeederHead n devs elt nm' t' →
        ∀ x, Below n t x → Below n t' x → False := by
      intro elt1 he nm nm' t t' h1 h2 x hx hx'
      have := (hok.2 nm' t' h2 x hx').1
      rw [(hinv.all elt1 he nm t h1 x hx).1] at this
      simp at this
    intro e1 he1 e2 he2 nm nm' t t' h1 h2 x hx hx'
    rcases List.mem_append.1 he1 with he1' | he1' <;> rcases List.mem_append.1 he2 with he2' | he2'
    · exact hinv.disjoint e1 he1' e2 he2' nm nm' t t' h1 h2 x hx hx'
    · obtain rfl : e2 = elt := by simpa using he2'
      exact (cross e1 he1' _ _ _ _ h1 h2 x hx hx').elim
    · obtain rfl : e1 = elt := by simpa using he1'
      exact (cross e2 he2' _ _ _ _ h2 h1 x hx' hx).elim
    · rw [List.mem_singleton.1 he1', List.mem_singleton.1 he2']

theorem feedersOf_run {objs : List NetObj} {s : String} {n : Network} (hb : build objs s = .ok n) {devs : List FeedDev}
    (h : (devs.filterMap (·.net.name)).Nodup) (hall : ∀ d ∈ devs, d.net.name ≠ none) :
    ∀ (elts P : List FeedDev) (F : String → Option String), (∀ e ∈ elts, e ∈ substations devs) → FeedInv n devs P F →
      (feedersOf n elts (devs.map (putF F))).err = none →
      ∃ F', (feedersOf n elts (devs.map (putF F))).state = devs.map (putF F') ∧ FeedInv n devs (P ++ elts) F' := by
  intro elts
  induction elts with
  | nil => intro P F _ hinv _; exact ⟨F, rfl, by simpa using hinv⟩
  | cons elt elts ih =>
    intro P F hsub hinv herr
    rcases feederOf_step hb h hall F (hsub elt (by simp)) with ⟨hok, F', heq, hF⟩ | ⟨_, hne⟩
    · unfold feedersOf at herr ⊢
      rw [heq] at herr ⊢
      simp only at herr ⊢
      obtain ⟨F'', h1, h2⟩ := ih (P ++ [elt]) F' (fun e he => hsub e (by simp [he])) (hinv.step hok hF) herr
      exact ⟨F'', h1, by simpa using h2⟩
    · exfalso
      unfold feedersOf at herr
      split at herr
      · simp at herr
      · rename_i heq
        rw [heq] at hne
        exact hne rfl

theorem feedersOf_ok {objs : List NetObj} {s : String} {n : Network} (hb : build objs s = .ok n) {devs : List FeedDev}
    (h : (devs.filterMap (·.net.name)).Nodup) (hall : ∀ d ∈ devs, d.net.name ≠ none) (hfeed : Feedable n devs) :
    ∀ (elts P : List FeedDev) (F : String → Option String), (∀ e ∈ elts, e ∈ substations devs) → (P ++ elts).Nodup →
      FeedInv n devs P F → (feedersOf n elts (devs.map (putF F))).err = none := by
  intro elts
  induction elts with
  | nil => intro P F _ _ _; rfl
  | cons elt elts ih =>
    intro P F hsub hnd hinv
    have hes := hsub elt (by simp)
    have hok : StepOk n devs F elt := by
      refine ⟨?_, fun nm t hh x hx => ⟨?_, hfeed.free elt nm t hh x hx⟩⟩
      · unfold substations at hes
        simp only [List.mem_filter, Bool.and_eq_true, decide_eq_true_eq] at hes
        obtain ⟨t, ht, hk⟩ := hfeed.known elt hes.1 hes.2.1 hes.2.2
        exact ⟨t, ht, (downstreamKeys_ok_iff hb devs t).2 hk⟩
      · cases hF : F x with
        | none => rfl
        | some m =>
          obtain ⟨elt', he', t', hh', hx'⟩ := hinv.only x m hF
          have := hfeed.disjoint elt elt' nm m t t' hh hh' x hx hx'
          subst this
          exact (List.disjoint_of_nodup_append hnd he' (by simp)).elim
    rcases feederOf_step hb h hall F hes with ⟨_, F', heq, hF⟩ | ⟨hne, _⟩
    · unfold feedersOf
      rw [heq]
      simp only
      exact ih (P ++ [elt]) F' (fun e he => hsub e (by simp [he])) (by simpa using hnd) (hinv.step hok hF)
    · exact absurd hok hne

theorem feedInv_nil (n : Network) (devs : List FeedDev) : FeedInv n devs [] fun _ => none where
  only := by simp
  all := by simp
  known := by simp
  disjoint := by simp

theorem substations_nodup {devs : List FeedDev} (h : (devs.filterMap (·.net.name)).Nodup) (hall : ∀ d ∈ devs, d.net.name ≠ none) :
    (substations devs).Nodup := by
  refine List.Nodup.filter _ ?_
  induction devs with
  | nil => simp
  | cons d devs ih =>
    obtain ⟨x, hx⟩ := Option.ne_none_iff_exists'.1 (hall d (by simp))
    rw [List.filterMap_cons_some (f := fun d : FeedDev => d.net.name) hx, List.nodup_cons] at h
    refine List.nodup_cons.2 ⟨fun hd => h.1 (List.mem_filterMap.2 ⟨d, hd, hx⟩), ih h.2 fun d hd => hall d (by simp [hd])⟩

theorem mem_substations {devs : List FeedDev} {d : FeedDev} :
    d ∈ substations devs ↔ d ∈ devs ∧ d.net.cls = "PowerTransformer" ∧ d.isSub = true := by
  unfold substations
  simp

/-- C33: if the method succeeds, what is below the head of a feeder has the names of that feeder, and all else is unchanged. -/
theorem C33_effect_partial (objs : List NetObj) (s : String) (n : Network) (hb : build objs s = .ok n) (devs : List FeedDev)
    (hnames : (devs.filterMap (·.net.name)).Nodup) (hall : ∀ d ∈ devs, d.net.name ≠ none)
    (hok : (feederPreprocessing n devs).err = none) :
    List.Forall₂ (fun d d' =>
      (∀ elt nm t x, FeederHead n devs elt nm t → d.net.name = some x → Below n t x → d' = d.onFeeder nm) ∧
      ((∃ elt nm t x, FeederHead n devs elt nm t ∧ d.net.name = some x ∧ Below n t x) ∨ d' = d))
      devs (feederPreprocessing n devs).state := by
  unfold feederPreprocessing at hok ⊢
  have key := feedersOf_run hb hnames hall (substations devs) [] (fun _ => none) (fun e he => he) (feedInv_nil n devs)
  rw [putF_none] at key
  obtain ⟨F, hst, hinv⟩ := key hok
  rw [hst, List.forall₂_map_right_iff, List.forall₂_same]
  intro d hd
  obtain ⟨x, hx⟩ := Option.ne_none_iff_exists'.1 (hall d hd)
  constructor
  · intro elt nm t x' hh hx' hbelow
    obtain rfl : x = x' := by rw [hx] at hx'; simpa using hx'
    have := (hinv.all elt (by simpa using mem_substations.2 ⟨hh.mem, hh.cls, hh.sub⟩) nm t hh x hbelow).1
    unfold putF
    simp [hx, this]
  · cases hF : F x with
    | none => right; unfold putF; simp [hx, hF]
    | some m =>
      obtain ⟨elt, _, t, hh, hbelow⟩ := hinv.only x m hF
      exact .inl ⟨elt, m, t, x, hh, hx, hbelow⟩

/-- C33: the method succeeds iff the feeders do not overlap, no name below their heads is set, and everything below the substations is
in the model. -/
theorem C33_succeeds_iff (objs : List NetObj) (s : String) (n : Network) (hb : build objs s = .ok n) (devs : List FeedDev)
    (hnames : (devs.filterMap (·.net.name)).Nodup) (hall : ∀ d ∈ devs, d.net.name ≠ none) :
    (feederPreprocessing n devs).err = none ↔ Feedable n devs := by
  unfold feederPreprocessing
  constructor
  · intro hok
    have key := feedersOf_run hb hnames hall (substations devs) [] (fun _ => none) (fun e he => he) (feedInv_nil n devs)
    rw [putF_none] at key
    obtain ⟨F, _, hinv⟩ := key hok
    rw [List.nil_append] at hinv
    have hm : ∀ {elt nm t}, FeederHead n devs elt nm t → elt ∈ substations devs :=
      fun hh => mem_substations.2 ⟨hh.mem, hh.cls, hh.sub⟩
    refine ⟨fun elt he hc hs => ?_, fun elt nm t hh x hx => (hinv.all elt (hm hh) nm t hh x hx).2,
      fun elt elt' nm nm' t t' hh hh' x hx hx' => hinv.disjoint elt (hm hh) elt' (hm hh') nm nm' t t' hh hh' x hx hx'⟩
    obtain ⟨t, ht, hk⟩ := hinv.known elt (mem_substations.2 ⟨he, hc, hs⟩)
    exact ⟨t, ht, (downstreamKeys_ok_iff hb devs t).1 hk⟩
  · intro hfeed
    have key := feedersOf_ok hb hnames hall hfeed (substations devs) [] (fun _ => none) (fun e he => he)
      (by simpa using substations_nodup hnames hall) (feedInv_nil n devs)
    rw [putF_none] at key
    exact key

theorem kept_exists {devs devs' : List FeedDev} (h : List.Forall₂ Kept devs devs') {key : Option String}
    (hex : ∃ d ∈ devs, d.net.name = key) : ∃ d ∈ devs', d.net.name = key := by
  induction h with
  | nil => simp at hex
  | cons hab _ ih =>
    obtain ⟨d, hd, hn⟩ := hex
    rcases List.mem_cons.1 hd with rfl | hd
    · exact ⟨_, List.mem_cons_self, by rw [hab.net]; exact hn⟩
    · obtain ⟨d', hd', hn'⟩ := ih ⟨d, hd, hn⟩
      exact ⟨d', by simp [hd'], hn'⟩

theorem kept_hasNames {devs devs' : List FeedDev} (h : List.Forall₂ Kept devs devs') (hall : ∀ d ∈ devs, d.hasNames = true) :
    ∀ d ∈ devs', d.hasNames = true := by
  induction h with
  | nil => simp
  | cons hab _ ih =>
    intro d hd
    rcases List.mem_cons.1 hd with rfl | hd
    · rw [hab.hasNames]; exact hall _ (by simp)
    · exact ih (fun d hd => hall d (by simp [hd])) d hd

/-- C33: for substations with a name and a `to_element` and objects that have the attributes, the only exception is `ValueError`. -/
theorem C33_valueError (n : Network) (devs : List FeedDev) (hnames : ∀ d ∈ devs, d.hasNames = true)
    (hsub : ∀ d ∈ devs, d.net.cls = "PowerTransformer" → d.isSub = true → d.net.name ≠ none ∧ d.net.toEl ≠ none) :
    ∀ e ∈ (feederPreprocessing n devs).err, e = .valueError := by
  have hassign : ∀ elt : FeedDev, elt.net.name ≠ none → ∀ keys devs, (∀ d ∈ devs, d.hasNames = true) →
      (∀ key ∈ keys, ∃ d ∈ devs, d.net.name = key) → ∀ e ∈ (assignFeeders elt keys devs).err, e = .valueError := by
    intro elt helt keys
    obtain ⟨nm, hnm⟩ := Option.ne_none_iff_exists'.1 helt
    induction keys with
    | nil => intro devs _ _ e he; simp [assignFeeders] at he
    | cons key keys ih =>
      intro devs hn hk e he
      have hkept := assignFeeder_kept elt key devs
      unfold assignFeeders at he
      split at he
      · rename_i devs1 e1 heq
        have herr : (assignFeeder elt key devs).err = some e1 := by rw [heq]
        obtain rfl : e = e1 := by simpa using he.symm
        obtain ⟨d, hd, hdn⟩ := hk key (by simp)
        unfold assignFeeder at herr
        split at herr
        · rename_i e2 he2
          obtain ⟨o, ho⟩ := named_of_mem (name := fun d : FeedDev => d.net.name) hd
          rw [hdn] at ho
          rw [ho] at he2
          simp at he2
        · rename_i o ho
          obtain ⟨ho, _⟩ := named_mem ho
          rw [if_pos (hn o ho)] at herr
          split at herr
          · simpa using herr.symm
          · simp only at herr
            split at herr
            · simpa using herr.symm
            · rw [hnm] at herr
              simp at herr
      · rename_i devs1 heq
        rw [heq] at hkept
        exact ih devs1 (kept_hasNames hkept hn) (fun k hk' => kept_exists hkept (hk k (by simp [hk']))) e he
  have key : ∀ elts devs, (∀ d ∈ devs, d.hasNames = true) → (∀ d ∈ elts, d.net.name ≠ none ∧ d.net.toEl ≠ none) →
      ∀ e ∈ (feedersOf n elts devs).err, e = .valueError := by
    intro elts
    induction elts with
    | nil => intro devs _ _ e he; simp [feedersOf] at he
    | cons elt elts ih =>
      intro devs hn hs e he
      have hkept := feederOf_kept n elt devs
      unfold feedersOf at he
      split at he
      · rename_i devs1 e1 heq
        have herr : (feederOf n elt devs).err = some e1 := by rw [heq]
        obtain rfl : e = e1 := by simpa using he.symm
        obtain ⟨hs1, hs2⟩ := hs elt (by simp)
        obtain ⟨t, ht⟩ := Option.ne_none_iff_exists'.1 hs2
        unfold feederOf at herr
        rw [ht] at herr
        simp only at herr
        split at herr
        · rename_i e2 he2
          obtain rfl : e2 = e := by simpa using herr
          unfold downstreamKeys elementsDownstream downstreamNames at he2
          split at he2
          · rename_i e3 he3
            split at he3
            · simp at he3
            · simp only [Except.error.injEq] at he2 he3
              rw [← he2, he3]
          · have gen : ∀ (names : Option String → Option (Option String)) (l : List (Option String)) e,
                lookupAll names l = .error e → e = .valueError := by
              intro names l
              induction l with
              | nil => intro e h; simp [lookupAll] at h
              | cons a l ih =>
                intro e h
                unfold lookupAll at h
                split at h
                · simpa using h.symm
                · split at h
                  · rename_i e' he'
                    simp only [Except.error.injEq] at h
                    subst h
                    exact ih _ he'
                  · simp at h
            exact gen _ _ _ he2
        · rename_i keys hk
          split at herr
          · simp at herr
          · exact hassign elt hs1 keys devs hn (fun key hkey => downstreamKeys_mem hk hkey) e herr
      · rename_i devs1 heq
        rw [heq] at hkept
        exact ih devs1 (kept_hasNames hkept hn) (fun d hd => hs d (by simp [hd])) e he
  refine key _ _ hnames fun d hd => ?_
  obtain ⟨h1, h2, h3⟩ := mem_substations.1 hd
  exact hsub d h1 h2 h3

/-! ### Examples -/

/-- a node -/
def exFNode (x : String) : FeedDev where
  net := { cls := "Node", name := some x }

/-- a line -/
def exFLine (x f t : String) : FeedDev where
  net := { cls := "Line", name := some x, fromEl := some f, toEl := some t, isLine := true }

/-- a substation transformer -/
def exFSub (x f t : String) : FeedDev where
  net := { cls := "PowerTransformer", name := some x, fromEl := some f, toEl := some t }
  isSub := true

/-- two substations `s1`, `s2` below the substation `s0`, with the lines `l1` and `l2` below them -/
def exFeed : List FeedDev :=
  [exFSub "s0" "src" "a", exFNode "src", exFNode "a", exFSub "s1" "a" "b", exFNode "b", exFLine "l1" "b" "c", exFNode "c",
   exFSub "s2" "a" "d", exFNode "d", exFLine "l2" "e" "d", exFNode "e"]

/-- the network of `exFeed` -/
def exFeedNet : Network :=
  ⟨⟨["a", "src", "b", "c", "d", "e"],
    [⟨"src", "a", some ("PowerTransformer", some "s0"), some 0⟩, ⟨"a", "b", some ("PowerTransformer", some "s1"), some 0⟩,
     ⟨"b", "c", some ("Line", some "l1"), some 0⟩, ⟨"a", "d", some ("PowerTransformer", some "s2"), some 0⟩,
     ⟨"e", "d", some ("Line", some "l2"), some 0⟩]⟩,
   [⟨"src", "a", some ("PowerTransformer", some "s0"), none⟩, ⟨"a", "b", some ("PowerTransformer", some "s1"), none⟩,
    ⟨"a", "d", some ("PowerTransformer", some "s2"), none⟩, ⟨"b", "c", some ("Line", some "l1"), none⟩,
    ⟨"d", "e", some ("Line", some "l2"), none⟩]⟩

theorem exFeed_build : build (exFeed.map (·.net)) "src" = .ok exFeedNet := by decide +kernel

theorem exFeed_head : FeederHead exFeedNet exFeed (exFSub "s1" "a" "b") "s1" "b" where
  mem := by decide +kernel
  cls := rfl
  sub := rfl
  name := rfl
  toEl := rfl
  feeds := ⟨"c", ⟨"b", "c", some ("Line", some "l1"), none⟩, by decide +kernel, rfl, rfl⟩
  lowest := by
    intro d hd x hn hx
    have hk : downstreamKeys exFeedNet exFeed "b" = .ok [some "b", some "c", some "l1"] := by decide +kernel
    have := (mem_downstreamKeys exFeed_build hk x).2 ⟨⟨"c", ⟨"b", "c", some ("Line", some "l1"), none⟩, by decide +kernel, rfl, rfl⟩, hx⟩
    rw [← hn] at this
    clear hx hn
    revert d
    decide +kernel

/-- the hypotheses of `C33_effect_partial` and `C33_succeeds_iff` -/
example : build (exFeed.map (·.net)) "src" = .ok exFeedNet ∧ (exFeed.filterMap (·.net.name)).Nodup ∧
    (∀ d ∈ exFeed, d.net.name ≠ none) ∧ (feederPreprocessing exFeedNet exFeed).err = none := by decide +kernel

/-- the hypotheses of `C33_valueError` -/
example : (∀ d ∈ exFeed, d.hasNames = true) ∧
    ∀ d ∈ exFeed, d.net.cls = "PowerTransformer" → d.isSub = true → d.net.name ≠ none ∧ d.net.toEl ≠ none := by decide +kernel

/-- the model can be fed -/
example : Feedable exFeedNet exFeed :=
  (C33_succeeds_iff _ _ _ exFeed_build _ (by decide +kernel) (by decide +kernel)).1 (by decide +kernel)

example : (feederPreprocessing exFeedNet exFeed).state.map (fun d => (d.net.name, d.substation, d.feeder)) =
    [(some "s0", none, none), (some "src", none, none), (some "a", none, none), (some "s1", none, none),
     (some "b", some "s1", some "Feeder_s1"), (some "l1", some "s1", some "Feeder_s1"), (some "c", some "s1", some "Feeder_s1"),
     (some "s2", none, none), (some "d", some "s2", some "Feeder_s2"), (some "l2", some "s2", some "Feeder_s2"),
     (some "e", some "s2", some "Feeder_s2")] := by decide +kernel

/-- a second run does not overwrite the names -/
example : (feederPreprocessing exFeedNet (feederPreprocessing exFeedNet exFeed).state).err = some .valueError := by decide +kernel

/-! ### Where the code differs -/

/-- A substation with just one node below, its `to_element`: the node gets no feeder, see `C20_leaf_violated`. -/
theorem C33_leaf_violated : ∃ devs n, build (devs.map (·.net)) "src" = .ok n ∧ (devs.filterMap (·.net.name)).Nodup ∧
    exFSub "s1" "src" "b" ∈ devs ∧ feederPreprocessing n devs = ⟨devs, none⟩ ∧ exFNode "b" ∈ devs :=
  ⟨[exFSub "s1" "src" "b", exFNode "src", exFNode "b"],
   ⟨⟨["b", "src"], [⟨"src", "b", some ("PowerTransformer", some "s1"), some 0⟩]⟩,
    [⟨"src", "b", some ("PowerTransformer", some "s1"), none⟩]⟩, by decide +kernel⟩

/-- a generator at `c`, a `PowerSource`: this class has neither of the attributes -/
def exFGen : FeedDev where
  net := { cls := "PowerSource", name := some "g", connecting := some "c" }
  hasNames := false

/-- With a generator below the substation the method ends with `AttributeError`, after some objects got the names. -/
theorem C33_source_violated : ∃ devs n, build (devs.map (·.net)) "src" = .ok n ∧ (devs.filterMap (·.net.name)).Nodup ∧
    (feederPreprocessing n devs).err = some .attributeError ∧
    (feederPreprocessing n devs).state.map (fun d => (d.net.name, d.feeder)) =
      [(some "s1", none), (some "src", none), (some "b", some "Feeder_s1"), (some "l1", some "Feeder_s1"),
       (some "c", some "Feeder_s1"), (some "g", none)] :=
  ⟨[exFSub "s1" "src" "b", exFNode "src", exFNode "b", exFLine "l1" "b" "c", exFNode "c", exFGen],
   ⟨⟨["b", "src", "c", "g"], [⟨"src", "b", some ("PowerTransformer", some "s1"), some 0⟩, ⟨"b", "c", some ("Line", some "l1"), some 0⟩,
      ⟨"c", "g", none, none⟩]⟩,
    [⟨"src", "b", some ("PowerTransformer", some "s1"), none⟩, ⟨"b", "c", some ("Line", some "l1"), none⟩,
     ⟨"c", "g", none, none⟩]⟩, by decide +kernel⟩

end Ditto.Net
