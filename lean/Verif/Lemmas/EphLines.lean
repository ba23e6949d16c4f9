import Verif.Lemmas.EphBuses
import Verif.Spec.EphLines

/-! Lemmas on the sheet Multiphase Line of the ePHASOR writer. -/
namespace Ditto.Eph
open Ditto Ditto.Eph.Spec
open Ditto.Glm (Text)

variable {K : Type}

theorem endBuses_ok {element : Option Text} {l : EphLine K} {cells : List Text} (h : endBuses element l.wires = .ok cells) : EndSays l element cells := by
  unfold endBuses at h
  cases element with
  | none => cases h; exact ⟨fun _ => rfl, fun e he => by cases he⟩
  | some e =>
    simp only at h
    split at h
    · cases h
      refine ⟨(fun hn => by cases hn), fun e' he' => ?_⟩
      cases he'
      rw [List.forall₂_map_right_iff]
      change List.Forall₂ _ (linePhases l) (linePhases l)
      rw [List.forall₂_same]
      intro p _
      unfold BusOf busName lowered
      rw [List.append_assoc]
      rfl
    · cases h

theorem endBuses_exists (element : Option Text) (l : EphLine K) : (∃ cells, endBuses element l.wires = .ok cells) ↔ (element ≠ none → (linePhases l).length ≤ 3) := by
  unfold endBuses
  cases element with
  | none => simp
  | some e =>
    simp only
    by_cases hl : ((l.wires.filterMap id).filter (· ≠ ['N'])).length ≤ 3
    · rw [if_pos hl]
      exact ⟨fun _ _ => hl, fun _ => ⟨_, rfl⟩⟩
    · rw [if_neg hl]
      exact ⟨(fun ⟨c, hc⟩ => by cases hc), fun h => absurd (h (by simp)) hl⟩

theorem mem_cells (m : List (List (K × K))) (i j : Nat) (z : K × K) : ((i, j), z) ∈ matrixCells m ↔ entryOf (some m) i j = some z := by
  unfold matrixCells entryOf
  simp only [List.mem_flatMap, List.mem_map, Option.bind_some, Option.bind_eq_some_iff]
  constructor
  · rintro ⟨⟨row, i'⟩, hr, ⟨elt, j'⟩, he, h⟩
    rw [List.mem_zipIdx_iff_getElem?] at hr he
    simp only [Prod.mk.injEq] at h hr he
    obtain ⟨⟨rfl, rfl⟩, rfl⟩ := h
    exact ⟨row, hr, he⟩
  · rintro ⟨row, hr, he⟩
    exact ⟨(row, i), List.mem_zipIdx_iff_getElem?.mpr hr, (z, j), List.mem_zipIdx_iff_getElem?.mpr he, rfl⟩

theorem cells_last (f : K × K → K) (m : List (List (K × K))) (i j : Nat) :
    ((((matrixCells m).filter fun c => (c.1.2 + 1, c.1.1 + 1) = (j + 1, i + 1)).getLast?).map fun c => f c.2) = (entryOf (some m) i j).map f := by
  have hmem : ∀ c, c ∈ (matrixCells m).filter (fun c => (c.1.2 + 1, c.1.1 + 1) = (j + 1, i + 1)) ↔ c.1 = (i, j) ∧ entryOf (some m) i j = some c.2 := by
    rintro ⟨⟨a, b⟩, z⟩
    rw [List.mem_filter, mem_cells]
    simp only [decide_eq_true_eq, Prod.mk.injEq]
    constructor
    · rintro ⟨h, h1, h2⟩
      obtain rfl : b = j := by omega
      obtain rfl : a = i := by omega
      exact ⟨⟨rfl, rfl⟩, h⟩
    · rintro ⟨⟨rfl, rfl⟩, h⟩
      exact ⟨h, rfl, rfl⟩
  cases hl : ((matrixCells m).filter fun c => (c.1.2 + 1, c.1.1 + 1) = (j + 1, i + 1)).getLast? with
  | none =>
    rw [List.getLast?_eq_none_iff] at hl
    cases he : entryOf (some m) i j with
    | none => rfl
    | some z =>
      have := (hmem ((i, j), z)).mpr ⟨rfl, he⟩
      rw [hl] at this; cases this
  | some c =>
    rw [((hmem c).mp (List.mem_of_getLast? hl)).2]
    rfl

theorem columns_cell (f : K × K → K) (m : Option (List (List (K × K)))) (k i j : Nat) (hk : validColumns[k]? = some (j + 1, i + 1)) :
    ((columnCells f m)[k]?).join = (entryOf m i j).map f := by
  unfold columnCells
  rw [List.getElem?_map, hk]
  cases m with
  | none => rfl
  | some m => exact cells_last f m i j

theorem columns_says (f : K × K → K) (m : Option (List (List (K × K)))) : MatrixSays f m (columnCells f m) := by
  refine ⟨by unfold columnCells validColumns; simp, ?_⟩
  intro i j hij hj
  apply columns_cell
  have : ∀ j < 3, ∀ i ≤ j, validColumns[j * (j + 1) / 2 + i]? = some (j + 1, i + 1) := by decide +kernel
  exact this j hj i hij

theorem columns_only (f g : K × K → K) {m m' : Option (List (List (K × K)))} (h : ∀ i j, i ≤ j → j < 3 → (entryOf m i j).map f = (entryOf m' i j).map g) :
    columnCells f m = columnCells g m' := by
  apply List.ext_getElem?
  intro k
  by_cases hk : k < 6
  · have key : ∀ k < 6, ∃ i < 3, ∃ j < 3, i ≤ j ∧ validColumns[k]? = some (j + 1, i + 1) := by decide +kernel
    obtain ⟨i, -, j, hj, hij, hc⟩ := key k hk
    have h1 := columns_cell f m k i j hc
    have h2 := columns_cell g m' k i j hc
    rw [h i j hij hj, ← h2] at h1
    have len : ∀ (f : K × K → K) (m : Option (List (List (K × K)))), ∃ x, (columnCells f m)[k]? = some x := fun f m => ⟨_, List.getElem?_eq_getElem (by rw [(columns_says f m).1]; exact hk)⟩
    obtain ⟨x, hx⟩ := len f m
    obtain ⟨y, hy⟩ := len g m'
    rw [hx, hy] at h1 ⊢
    exact congrArg some h1
  · rw [List.getElem?_eq_none (by rw [(columns_says f m).1]; omega), List.getElem?_eq_none (by rw [(columns_says g m').1]; omega)]

variable [Field K] [DecidableEq K] {mile pi : K}

theorem susceptance_eq (c : K × K) : susceptance mile pi c = 2 * pi * 60 * (c.1 / mile) / 1000 := by
  unfold susceptance
  split
  · next h => rw [h]; simp
  · rw [one_div, div_eq_mul_inv _ (1000 : K)]; ring

theorem lineRow_ok {l : EphLine K} {r : LineRow K} (h : lineRow mile pi l = .ok r) : LineSays mile pi l r ∧ (l.name = none → r.id = "None".toList) ∧
    r.r0 = none ∧ r.x0 = none ∧ r.r1 = none ∧ r.x1 = none ∧ r.b0 = none ∧ r.b1 = none := by
  unfold lineRow at h
  cases h1 : endBuses l.source l.wires with
  | error e => rw [h1] at h; cases h
  | ok source =>
    cases h2 : endBuses l.sink l.wires with
    | error e => rw [h1, h2] at h; cases h
    | ok sink =>
      rw [h1, h2] at h
      simp only at h
      split at h
      · cases h
      · cases h
        have hb : susceptance mile pi = fun c => 2 * pi * 60 * (c.1 / mile) / 1000 := funext susceptance_eq
        refine ⟨⟨?_, endBuses_ok h1, endBuses_ok h2, rfl, ?_, columns_says _ _, columns_says _ _, ?_⟩, ?_, rfl, rfl, rfl, rfl, rfl, rfl⟩
        · intro n hn
          simp only [Option.mem_def] at hn
          simp only [hn]
        · change Option.map _ l.length = Option.map _ l.length
          congr 1; funext x; exact mul_comm _ _
        · simp only [hb]; exact columns_says _ _
        · intro hn; simp only [hn]

theorem cells_nonempty (l : EphLine K) : (∃ m ∈ l.c, matrixCells m ≠ []) ↔ ∃ i j, entryOf l.c i j ≠ none := by
  constructor
  · rintro ⟨m, hm, hne⟩
    obtain ⟨⟨⟨i, j⟩, z⟩, hz⟩ := List.exists_mem_of_ne_nil _ hne
    refine ⟨i, j, ?_⟩
    rw [Option.mem_def.mp hm, (mem_cells m i j z).mp hz]
    simp
  · rintro ⟨i, j, h⟩
    cases hc : l.c with
    | none => rw [hc] at h; exact absurd rfl h
    | some m =>
      rw [hc] at h
      obtain ⟨z, hz⟩ := Option.ne_none_iff_exists'.mp h
      refine ⟨m, rfl, fun he => ?_⟩
      have := (mem_cells m i j z).mpr hz
      rw [he] at this; cases this

theorem lineRow_exists (l : EphLine K) : (∃ r, lineRow mile pi l = .ok r) ↔ LineOk l := by
  have e1 := endBuses_exists l.source l
  have e2 := endBuses_exists l.sink l
  unfold lineRow LineOk
  rw [← cells_nonempty]
  cases h1 : endBuses l.source l.wires with
  | error e =>
    refine ⟨(fun ⟨r, hr⟩ => by cases hr), fun ⟨h, _⟩ => ?_⟩
    obtain ⟨c, hc⟩ := e1.mpr (fun hs => h (.inl hs))
    rw [h1] at hc; cases hc
  | ok source =>
    cases h2 : endBuses l.sink l.wires with
    | error e =>
      refine ⟨(fun ⟨r, hr⟩ => by cases hr), fun ⟨h, _⟩ => ?_⟩
      obtain ⟨c, hc⟩ := e2.mpr (fun hs => h (.inr hs))
      rw [h2] at hc; cases hc
    | ok sink =>
      simp only
      have a1 := e1.mp ⟨_, h1⟩
      have a2 := e2.mp ⟨_, h2⟩
      by_cases hc : (∃ m ∈ l.c, matrixCells m ≠ []) ∧ l.length = none
      · rw [if_pos hc]
        exact ⟨(fun ⟨r, hr⟩ => by cases hr), fun ⟨_, h⟩ => absurd hc.2 (h hc.1)⟩
      · rw [if_neg hc]
        exact ⟨fun _ => ⟨fun h => h.elim a1 a2, fun h hn => hc ⟨h, hn⟩⟩, fun _ => ⟨_, rfl⟩⟩

end Ditto.Eph
