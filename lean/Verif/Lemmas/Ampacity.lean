import Verif.Spec.Ampacity
import Mathlib.Data.List.Forall2
import Mathlib.Order.Defs.LinearOrder
import Mathlib.Algebra.Order.Ring.Rat

/-! Lemmas on `set_switching_devices_ampacity`. -/
namespace Ditto.Net
open Ditto

theorem firstAmp_some {ls : List AmpLine} {nm : Option String} {q : ℚ} (h : firstAmp ls nm = some q) :
    ∃ l0 ∈ ls, l0.name = nm ∧ l0.wires.head? = some (.val q) := by
  unfold firstAmp at h
  split at h
  · cases h
  · rename_i l hl
    have hm := List.mem_of_find?_eq_some hl
    have hn := List.find?_some hl
    split at h
    · rename_i ws hw
      cases h
      exact ⟨l, hm, by simpa using hn, by rw [hw]; rfl⟩
    · cases h

theorem edgeAmp_some {g : Graph} {ls : List AmpLine} {a b : String} {q : ℚ} (h : edgeAmp g ls a b = some q) :
    ∃ ty, ∃ l0 ∈ ls, g.equipOf a b = some (ty, l0.name) ∧ l0.wires.head? = some (.val q) := by
  unfold edgeAmp edgeName at h
  split at h
  · cases h
  · rename_i nm hn
    split at hn
    · obtain ⟨l0, hl, he, hw⟩ := firstAmp_some h
      simp only [Option.map_eq_some_iff] at hn
      obtain ⟨⟨ty, nm'⟩, h1, h2⟩ := hn
      simp only at h2
      subst h2
      exact ⟨ty, l0, hl, by rw [h1, he], hw⟩
    · cases hn

theorem mem_sideOf {g : Graph} {x o y : String} (h : y ∈ sideOf g x o) : g.Adj x y := by
  unfold sideOf Graph.neighbors at h
  rw [List.mem_filter, List.mem_filterMap] at h
  obtain ⟨⟨e, he, hy⟩, _⟩ := h
  refine ⟨e, he, ?_⟩
  unfold Edge.joins
  split at hy
  · exact Or.inl ⟨‹_›, by cases hy; rfl⟩
  · split at hy
    · exact Or.inr ⟨by cases hy; rfl, ‹_›⟩
    · cases hy

theorem pick_mem {l : List String} {idx : Option Nat} {y : String} (h : pick l idx = .ok y) : y ∈ l := by
  unfold pick at h
  split at h
  · cases h
  · split at h
    · cases h
    · cases h
      exact List.mem_of_getElem? ‹_›

/-- what a step of the search finds or goes to -/
theorem ampStep_ok {g : Graph} {ls : List AmpLine} {dev f t : String} {r : Nat} {idx idx' : Option Nat} {v : ℚ ⊕ String}
    (h : ampStep g ls dev f t r idx = .ok (idx', v)) :
    match v with
    | .inl q => ∃ l0 ∈ ls, l0.wires.head? = some (.val q) ∧ (Reaches g f l0.name ∨ Reaches g t l0.name)
    | .inr y => g.Adj t y := by
  unfold ampStep at h
  split at h
  on_goal 2 => cases h
  split at h
  · cases h
  split at h
  · cases h
  rename_i i hi w hw
  split at h
  · cases h
  · rename_i q hq
    cases h
    simp only
    unfold toSide at hq
    split at hq
    · cases hq
      unfold fromSide at hw
      split at hw
      · cases hw
      split at hw
      · cases hw
      rename_i y hy
      simp only [Except.ok.injEq] at hw
      split at hw
      · obtain ⟨ty, l0, hl, he, hv⟩ := edgeAmp_some hw
        exact ⟨l0, hl, hv, Or.inl ⟨y, f, ty, Linked.refl.step (mem_sideOf (pick_mem hy)), he⟩⟩
      · cases hw
    · split at hq
      · cases hq
      split at hq
      · cases hq
      rename_i y hy
      simp only [Except.ok.injEq] at hq
      obtain ⟨ty, l0, hl, he, hv⟩ := edgeAmp_some hq
      exact ⟨l0, hl, hv, Or.inr ⟨t, y, ty, Linked.refl, he⟩⟩
  · split at h
    · cases h
    · rename_i y hy
      cases h
      exact mem_sideOf (pick_mem hy)

theorem Linked.trans {g : Graph} {a b c : String} (h : Linked g a b) (h' : Linked g b c) : Linked g a c := by
  induction h' with
  | refl => exact h
  | step _ ha ih => exact ih.step ha

theorem Reaches.of_linked {g : Graph} {a b : String} {nm : Option String} (h : Linked g a b) (hr : Reaches g b nm) : Reaches g a nm := by
  obtain ⟨x, y, ty, h1, h2⟩ := hr
  exact ⟨x, y, ty, h.trans h1, h2⟩

theorem ampSearch_ok {g : Graph} {ls : List AmpLine} {dev : String} {rs : Nat → Nat} {k : Nat} :
    ∀ {f t : String} {idx idx' : Option Nat} {q : ℚ}, ampSearch g ls dev rs k f t idx = some (.ok (idx', q)) →
    ∃ l0 ∈ ls, l0.wires.head? = some (.val q) ∧ (Reaches g f l0.name ∨ Reaches g t l0.name) := by
  induction k with
  | zero => intro f t idx idx' q h; cases h
  | succ k ih =>
    intro f t idx idx' q h
    unfold ampSearch at h
    split at h
    · cases h
    · rename_i hs
      cases h
      exact ampStep_ok hs
    · rename_i i y hs
      have ha : g.Adj t y := ampStep_ok hs
      obtain ⟨l0, hl, hv, hr⟩ := ih h
      exact ⟨l0, hl, hv, Or.inr (by rcases hr with hr | hr <;> exact hr.of_linked (Linked.refl.step ha))⟩

theorem mem_validAmps {ws : List Amp} {q : ℚ} : q ∈ validAmps ws ↔ .val q ∈ ws := by
  unfold validAmps
  rw [List.mem_filterMap]
  constructor
  · rintro ⟨w, hw, he⟩
    split at he
    · cases he; exact hw
    · cases he
  · intro h
    exact ⟨_, h, rfl⟩

theorem maxFrom_mem (qs : List ℚ) : ∀ q, maxFrom q qs ∈ q :: qs := by
  induction qs with
  | nil => intro q; simp [maxFrom]
  | cons p qs ih =>
    intro q
    have := ih (max q p)
    unfold maxFrom at this ⊢
    rw [List.foldl_cons]
    rcases List.mem_cons.1 this with h | h
    · rw [h]
      rcases max_choice q p with h' | h' <;> rw [h'] <;> simp
    · exact List.mem_cons_of_mem _ (List.mem_cons_of_mem _ h)

theorem le_maxFrom (qs : List ℚ) : ∀ q, ∀ p ∈ q :: qs, p ≤ maxFrom q qs := by
  induction qs with
  | nil => intro q p hp; simp [maxFrom] at hp ⊢; exact hp.le
  | cons a qs ih =>
    intro q p hp
    have := ih (max q a)
    unfold maxFrom at this ⊢
    rw [List.foldl_cons]
    simp only [List.mem_cons] at hp
    rcases hp with rfl | rfl | hp
    · exact le_trans (le_max_left _ _) (this _ List.mem_cons_self)
    · exact le_trans (le_max_right _ _) (this _ List.mem_cons_self)
    · exact this _ (List.mem_cons_of_mem _ hp)

theorem setAll_allAmp (l : AmpLine) (q : ℚ) : AllAmp l (l.setAll q) q := by
  unfold AllAmp AmpLine.setAll
  congr 1
  exact List.map_const' ..

/-- one line -/
theorem ampDevice_ok {g : Graph} {ls orig out : List AmpLine} {rs : Nat → Nat} {fuel : Nat} {l l' : AmpLine} {idx idx' : Option Nat}
    (h : ampDevice g ls rs fuel l idx = some (.ok (idx', l')))
    (hs : ∀ x ∈ ls, x ∈ orig ∨ x ∈ out) (hv : ∀ x ∈ ls, ∀ q, .val q ∈ x.wires → HasAmp orig q) :
    (l.isDev = true → .unset ∉ l.wires) ∧ AmpFixed g orig out l l' := by
  unfold ampDevice at h
  by_cases hd : l.isDev = true
  · rw [if_pos hd] at h
    split at h
    · cases h
    rename_i hu
    refine ⟨fun _ => hu, ?_⟩
    split at h
    · rename_i hn
      split at h
      · rename_i q qs hq
        cases h
        have hmem : ∀ p, .val p ∈ l.wires ↔ p ∈ q :: qs := fun p => by rw [← hq, mem_validAmps]
        refine ⟨fun h => absurd h (by rw [hd]; exact Bool.noConfusion), fun h => absurd hn h, fun _ _ _ _ => ?_, fun _ _ h => ?_⟩
        · exact ⟨_, setAll_allAmp _ _, (hmem _).2 (maxFrom_mem _ _), fun p hp => le_maxFrom _ _ _ ((hmem _).1 hp)⟩
        · exact absurd ((hmem q).2 List.mem_cons_self) (h q)
      · rename_i hq
        have hno : ∀ q, .val q ∉ l.wires := fun q hm => by rw [← mem_validAmps, hq] at hm; cases hm
        split at h
        · rename_i f t hf ht
          split at h
          · cases h
          · cases h
          · rename_i i q hsr
            cases h
            refine ⟨fun h => absurd h (by rw [hd]; exact Bool.noConfusion), fun h => absurd hn h, fun _ _ p hp => absurd hp (hno p),
              fun _ _ _ => ⟨fun f' t' hf' ht' => ?_, fun h => ?_⟩⟩
            · rw [hf] at hf'; rw [ht] at ht'
              cases hf'; cases ht'
              obtain ⟨l0, h0, h1, h2⟩ := ampSearch_ok hsr
              exact ⟨q, l0, setAll_allAmp _ _, hv l0 h0 q (List.mem_of_mem_head? h1), hs l0 h0, h1, h2⟩
            · rw [hf, ht] at h; rcases h with h | h <;> cases h
        · rename_i hft
          cases h
          refine ⟨fun _ => rfl, fun _ => rfl, fun _ _ p hp => absurd hp (hno p),
              fun _ _ _ => ⟨fun f' t' hf' ht' => absurd ht' (hft f' t' hf'), fun _ => rfl⟩⟩
    · rename_i hn
      cases h
      exact ⟨fun _ => rfl, fun _ => rfl, fun _ h => absurd h hn, fun _ h => absurd h hn⟩
  · rw [if_neg hd] at h
    cases h
    exact ⟨fun h => absurd h hd, fun _ => rfl, fun _ => rfl, fun h => absurd h hd, fun h => absurd h hd⟩

theorem ampDevice_val {g : Graph} {orig out : List AmpLine} {l l' : AmpLine} (h : AmpFixed g orig out l l')
    (hv : ∀ q, .val q ∈ l.wires → HasAmp orig q) : ∀ q, .val q ∈ l'.wires → HasAmp orig q := by
  intro q hq
  by_cases hd : l.isDev = true
  · by_cases hn : .nan ∈ l.wires
    · by_cases hx : ∃ p, .val p ∈ l.wires
      · obtain ⟨p, hp⟩ := hx
        obtain ⟨m, hm, h1, _⟩ := h.some_valid hd hn p hp
        unfold AllAmp at hm
        rw [hm] at hq
        have := List.eq_of_mem_replicate hq
        cases this
        exact hv _ h1
      · rw [not_exists] at hx
        obtain ⟨h1, h2⟩ := h.none_valid hd hn hx
        cases hf : l.fromEl with
        | none => rw [h2 (Or.inl hf)] at hq; exact hv _ hq
        | some f =>
          cases ht : l.toEl with
          | none => rw [h2 (Or.inr ht)] at hq; exact hv _ hq
          | some t =>
            obtain ⟨p, l0, hm, hA, _⟩ := h1 f t hf ht
            unfold AllAmp at hm
            rw [hm] at hq
            have := List.eq_of_mem_replicate hq
            cases this
            exact hA
    · rw [h.valid hn] at hq; exact hv _ hq
  · rw [h.other (by simpa using hd)] at hq; exact hv _ hq

/-- the loop extends the list of the visited lines -/
theorem ampLoop_prefix {g : Graph} {rs : Nat → Nat → Nat} {fuel : Nat} {rest : List AmpLine} :
    ∀ {done : List AmpLine} {idx : Option Nat} {out : List AmpLine}, ampLoop g rs fuel done rest idx = some (.ok out) →
    ∀ l ∈ done, l ∈ out := by
  induction rest with
  | nil =>
    intro done idx out h l hl
    unfold ampLoop at h
    cases h
    exact hl
  | cons x rest ih =>
    intro done idx out h l hl
    unfold ampLoop at h
    split at h
    · cases h
    · cases h
    · exact ih h l (List.mem_append_left _ hl)

theorem ampLoop_ok {g : Graph} {rs : Nat → Nat → Nat} {fuel : Nat} {orig : List AmpLine} {rest : List AmpLine} :
    ∀ {done : List AmpLine} {idx : Option Nat} {out : List AmpLine}, ampLoop g rs fuel done rest idx = some (.ok out) →
    (∀ l ∈ rest, l ∈ orig) → (∀ l ∈ done, ∀ q, .val q ∈ l.wires → HasAmp orig q) →
    ∃ rest', out = done ++ rest' ∧ List.Forall₂ (AmpFixed g orig out) rest rest' ∧ ∀ l ∈ rest, l.isDev = true → .unset ∉ l.wires := by
  induction rest with
  | nil =>
    intro done idx out h _ _
    unfold ampLoop at h
    cases h
    exact ⟨[], by simp, List.Forall₂.nil, by simp⟩
  | cons x rest ih =>
    intro done idx out h hr hd
    unfold ampLoop at h
    split at h
    · cases h
    · cases h
    rename_i i x' hx
    have hro : ∀ q, .val q ∈ x.wires → HasAmp orig q := fun q hq => ⟨x, hr x List.mem_cons_self, hq⟩
    obtain ⟨hu, hfix⟩ := ampDevice_ok (orig := orig) (out := out) hx (fun y hy => by
        rcases List.mem_append.1 hy with hy | hy
        · exact Or.inr (ampLoop_prefix h y (List.mem_append_left _ hy))
        · exact Or.inl (hr y hy)) (fun y hy q hq => by
        rcases List.mem_append.1 hy with hy | hy
        · exact hd y hy q hq
        · exact ⟨y, hr y hy, hq⟩)
    obtain ⟨rest', ho, hf, hu'⟩ := ih h (fun l hl => hr l (List.mem_cons_of_mem _ hl)) (fun l hl => by
        rcases List.mem_append.1 hl with hl | hl
        · exact hd l hl
        · rw [List.mem_singleton.1 hl]
          exact ampDevice_val hfix hro)
    refine ⟨x' :: rest', by rw [ho]; simp, List.Forall₂.cons hfix hf, fun l hl => ?_⟩
    rcases List.mem_cons.1 hl with rfl | hl
    · exact hu
    · exact hu' l hl

end Ditto.Net
