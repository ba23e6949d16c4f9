import Verif.Model.Matrix
import Mathlib.Data.Nat.Count
import Mathlib.Tactic.Linarith

/-! Lemmas on the double loop of `kron_reduction`: the four blocks are filled independently. -/
namespace Ditto.Mat
open Ditto

variable {K : Type}

/-- what the loop does to the zone of row class `R` and column class `C` -/
def zcell (R C : Nat → Bool) (m : Nat → Nat → K) (i : Nat) (z : Zone K) (j : Nat) : Py (Zone K) :=
  if R i ∧ C j then z.put (m i j) else .ok z

def zrow (R C : Nat → Bool) (m : Nat → Nat → K) (n : Nat) (z : Zone K) (i : Nat) : Py (Zone K) :=
  ((List.range n).foldlM (zcell R C m i) z).map Zone.endRow

abbrev cnt (C : Nat → Bool) (n : Nat) : Nat := Nat.count (fun j => C j = true) n

theorem cnt_succ (C : Nat → Bool) (n : Nat) : cnt C (n+1) = cnt C n + if C n = true then 1 else 0 :=
  Nat.count_succ _ _

theorem zfold_notR (R C : Nat → Bool) (m : Nat → Nat → K) (i : Nat) (h : ¬ R i = true) (z : Zone K) (t : Nat) :
    (List.range t).foldlM (zcell R C m i) z = .ok z := by
  induction t with
  | zero => rfl
  | succ t ih =>
    rw [List.range_succ, List.foldlM_append, ih]
    simp [zcell, h, bind, Except.bind, pure, Except.pure]

/-- a row of the zone's row class, from the left up to column `t` -/
theorem zfold_ok (R C : Nat → Bool) (m : Nat → Nat → K) (i : Nat) (hR : R i = true) (z : Zone K)
    (h0 : z.c0 = 0) (hch : z.changed = false) (t : Nat)
    (hc : cnt C t ≤ z.blk.rows) (hr : 0 < cnt C t → z.c1 < z.blk.cols) :
    ∃ z', (List.range t).foldlM (zcell R C m i) z = .ok z' ∧ z'.c0 = cnt C t ∧ z'.c1 = z.c1 ∧
      z'.blk.rows = z.blk.rows ∧ z'.blk.cols = z.blk.cols ∧ (z'.changed = true ↔ 0 < cnt C t) ∧
      (∀ j < t, C j = true → z'.blk.get (cnt C j) z.c1 = some (m i j)) ∧
      (∀ a b, b ≠ z.c1 → z'.blk.get a b = z.blk.get a b) := by
  induction t with
  | zero => exact ⟨z, rfl, by simp [cnt, h0], rfl, rfl, rfl, by simp [hch, cnt], by simp, by simp⟩
  | succ t ih =>
    rw [cnt_succ] at hc hr
    obtain ⟨z', hz, e0, e1, er, ec, ech, eg, eo⟩ := ih (by omega) (fun h => hr (by omega))
    rw [List.range_succ, List.foldlM_append, hz]
    by_cases hC : C t = true
    · simp only [hC, if_true] at hc hr
      have hw : z'.c0 < z'.blk.rows ∧ z'.c1 < z'.blk.cols := by
        refine ⟨by omega, ?_⟩
        rw [e1, ec]; exact hr (by omega)
      refine ⟨⟨⟨z'.blk.rows, z'.blk.cols,
          (fun r' c' => if r' = z'.c0 ∧ c' = z'.c1 then some (m i t) else z'.blk.get r' c')⟩,
          z'.c0 + 1, z'.c1, true⟩, ?_, ?_, e1, er, ec, ?_, ?_, ?_⟩
      · simp [zcell, hR, hC, Zone.put, Block.write, hw, bind, Except.bind, pure, Except.pure]
      · simp [cnt_succ, hC, e0]
      · simp [cnt_succ, hC]
      · intro j hj hCj
        by_cases hjt : j = t
        · subst hjt; simp [e0, e1]
        · have : cnt C j ≠ z'.c0 := by
            rw [e0]; intro h
            exact hjt (Nat.count_injective hCj hC h)
          simp only [this, false_and, if_false]
          exact eg j (by omega) hCj
      · intro a b hb
        have : ¬ (a = z'.c0 ∧ b = z'.c1) := by rintro ⟨_, h⟩; exact hb (h.trans e1)
        simp only [this, if_false]
        exact eo a b hb
    · refine ⟨z', ?_, ?_, e1, er, ec, ?_, ?_, eo⟩
      · simp [zcell, hC, bind, Except.bind, pure, Except.pure]
      · simp [cnt_succ, hC, e0]
      · simp [cnt_succ, hC, ech]
      · intro j hj hCj
        have : j ≠ t := by rintro rfl; exact hC hCj
        exact eg j (by omega) hCj

/-- if the writes of a row succeed there was room for them -/
theorem zfold_room (R C : Nat → Bool) (m : Nat → Nat → K) (i : Nat) (hR : R i = true) (z z' : Zone K)
    (h0 : z.c0 = 0) (t : Nat) (h : (List.range t).foldlM (zcell R C m i) z = .ok z') :
    z'.c0 = cnt C t ∧ z'.c1 = z.c1 ∧ z'.blk.rows = z.blk.rows ∧ z'.blk.cols = z.blk.cols ∧
    cnt C t ≤ z.blk.rows ∧ (0 < cnt C t → z.c1 < z.blk.cols ∧ z'.changed = true) := by
  induction t generalizing z' with
  | zero =>
    simp [pure, Except.pure] at h; subst h; simp [cnt, h0]
  | succ t ih =>
    rw [List.range_succ, List.foldlM_append] at h
    cases hz : (List.range t).foldlM (zcell R C m i) z with
    | error e => rw [hz] at h; simp [bind, Except.bind] at h
    | ok z1 =>
      obtain ⟨e0, e1, er, ec, hc, hr⟩ := ih z1 hz
      rw [hz] at h
      by_cases hC : C t = true
      · by_cases hw : z1.c0 < z1.blk.rows ∧ z1.c1 < z1.blk.cols
        · simp [zcell, hR, hC, Zone.put, Block.write, hw, bind, Except.bind, pure, Except.pure] at h
          subst h
          simp only [cnt_succ, hC, if_true]
          refine ⟨by omega, e1, er, ec, by omega, fun _ => ⟨?_, trivial⟩⟩
          rw [← e1, ← ec]; exact hw.2
        · simp [zcell, hR, hC, Zone.put, Block.write, hw, bind, Except.bind, pure, Except.pure] at h
      · simp [zcell, hC, bind, Except.bind, pure, Except.pure] at h
        subst h
        simp only [cnt_succ, hC]
        exact ⟨e0, e1, er, ec, hc, hr⟩

theorem zloop_ok (R C : Nat → Bool) (m : Nat → Nat → K) (n : Nat) (z : Zone K)
    (h0 : z.c0 = 0) (h1 : z.c1 = 0) (hch : z.changed = false) (t : Nat)
    (hc : cnt C n ≤ z.blk.rows) (hr : cnt R t ≤ z.blk.cols) :
    ∃ z', (List.range t).foldlM (zrow R C m n) z = .ok z' ∧ z'.c0 = 0 ∧ z'.changed = false ∧
      z'.blk.rows = z.blk.rows ∧ z'.blk.cols = z.blk.cols ∧ (0 < cnt C n → z'.c1 = cnt R t) ∧
      (∀ i < t, R i = true → ∀ j < n, C j = true → z'.blk.get (cnt C j) (cnt R i) = some (m i j)) := by
  induction t with
  | zero => exact ⟨z, rfl, h0, hch, rfl, rfl, by simp [h1, cnt], by simp⟩
  | succ t ih =>
    rw [cnt_succ] at hr
    obtain ⟨z', hz, e0, ech, er, ec, e1, eg⟩ := ih (by omega)
    rw [List.range_succ, List.foldlM_append, hz]
    by_cases hR : R t = true
    · simp only [hR, if_true] at hr
      obtain ⟨z2, hz2, f0, f1, fr, fc, fch, fg, fo⟩ := zfold_ok R C m t hR z' e0 ech n (by omega)
        (fun h => by rw [ec, e1 h]; omega)
      refine ⟨z2.endRow, ?_, ?_⟩
      · simp [zrow, hz2, Except.map, bind, Except.bind, pure, Except.pure]
      · have hblk : z2.endRow.blk = z2.blk := by unfold Zone.endRow; split <;> rfl
        rw [hblk]
        refine ⟨?_, ?_, fr.trans er, fc.trans ec, ?_, ?_⟩
        · unfold Zone.endRow; split
          · rfl
          · rename_i h; have := mt fch.2 h; simp only [f0]; omega
        · unfold Zone.endRow; split
          · rfl
          · rename_i h; simpa using h
        · intro hp
          have := fch.2 hp
          simp [Zone.endRow, this, f1, e1 hp, cnt_succ, hR]
        · intro i hi hRi j hj hCj
          have hpos : 0 < cnt C n := by
            have : cnt C j < cnt C (j+1) := by rw [cnt_succ]; simp [hCj]
            have : cnt C (j+1) ≤ cnt C n := Nat.count_monotone _ hj
            omega
          by_cases hit : i = t
          · subst hit
            rw [← e1 hpos]; exact fg j hj hCj
          · rw [fo]
            · exact eg i (by omega) hRi j hj hCj
            · rw [e1 hpos]; intro h
              exact hit (Nat.count_injective hRi hR h)
    · refine ⟨z', ?_, e0, ech, er, ec, ?_, ?_⟩
      · have : z'.endRow = z' := by simp [Zone.endRow, ech]
        simp [zrow, zfold_notR R C m t hR, Except.map, bind, Except.bind, pure, Except.pure, this]
      · intro h; rw [e1 h, cnt_succ]; simp [hR]
      · intro i hi hRi
        have : i ≠ t := by rintro rfl; exact hR hRi
        exact eg i (by omega) hRi

theorem zloop_room (R C : Nat → Bool) (m : Nat → Nat → K) (n : Nat) (z z' : Zone K)
    (h0 : z.c0 = 0) (h1 : z.c1 = 0) (hch : z.changed = false) (hpos : 0 < cnt C n) (t : Nat)
    (h : (List.range t).foldlM (zrow R C m n) z = .ok z') :
    z'.c0 = 0 ∧ z'.c1 = cnt R t ∧ z'.changed = false ∧ z'.blk.rows = z.blk.rows ∧ z'.blk.cols = z.blk.cols ∧
      (0 < cnt R t → cnt C n ≤ z.blk.rows) ∧ cnt R t ≤ z.blk.cols := by
  induction t generalizing z' with
  | zero => simp [pure, Except.pure] at h; subst h; simp [cnt, h0, h1, hch]
  | succ t ih =>
    rw [List.range_succ, List.foldlM_append] at h
    cases hz : (List.range t).foldlM (zrow R C m n) z with
    | error e => rw [hz] at h; simp [bind, Except.bind] at h
    | ok z1 =>
      obtain ⟨e0, e1, ech, er, ec, hr, hcl⟩ := ih z1 hz
      rw [hz] at h
      by_cases hR : R t = true
      · cases hz2 : (List.range n).foldlM (zcell R C m t) z1 with
        | error e => simp [zrow, hz2, Except.map, bind, Except.bind, pure, Except.pure] at h
        | ok z2 =>
          simp [zrow, hz2, Except.map, bind, Except.bind, pure, Except.pure] at h
          obtain ⟨f0, f1, fr, fc, fcap, fpos⟩ := zfold_room R C m t hR z1 z2 e0 n hz2
          obtain ⟨fl, fch⟩ := fpos hpos
          subst h
          simp only [Zone.endRow, fch, if_true, cnt_succ, hR, f1, e1]
          refine ⟨trivial, trivial, trivial, fr.trans er, fc.trans ec, fun _ => by rw [← er]; exact fcap, ?_⟩
          rw [ec, e1] at fl; omega
      · have he : z1.endRow = z1 := by simp [Zone.endRow, ech]
        simp [zrow, zfold_notR R C m t hR, Except.map, bind, Except.bind, pure, Except.pure, he] at h
        subst h
        simp only [cnt_succ, hR]
        exact ⟨e0, e1, ech, er, ec, hr, hcl⟩

/-- The four zones are updated independently: an `ok` run of `kronCell` over a list is an `ok` run on each zone. -/
theorem kronCells_split [Field K] (isN : Nat → Bool) (m : Nat → Nat → K) (i : Nat) (l : List Nat)
    (s s' : KronState K) :
    l.foldlM (kronCell isN m i) s = .ok s' ↔
      l.foldlM (zcell (fun x => !isN x) (fun x => !isN x) m i) s.zij = .ok s'.zij ∧
      l.foldlM (zcell (fun x => !isN x) isN m i) s.zin = .ok s'.zin ∧
      l.foldlM (zcell isN (fun x => !isN x) m i) s.znj = .ok s'.znj ∧
      l.foldlM (zcell isN isN m i) s.znn = .ok s'.znn := by
  induction l generalizing s with
  | nil =>
    simp only [List.foldlM_nil, pure, Except.pure, Except.ok.injEq]
    constructor
    · rintro rfl; exact ⟨rfl, rfl, rfl, rfl⟩
    · cases s; cases s'; rintro ⟨rfl, rfl, rfl, rfl⟩; rfl
  | cons j l ih =>
    simp only [List.foldlM_cons]
    by_cases hi : isN i = true <;> by_cases hj : isN j = true
    · cases hp : s.znn.put (m i j) <;>
        simp [kronCell, zcell, hi, hj, hp, bind, Except.bind, Except.map, ih]
    · cases hp : s.znj.put (m i j) <;>
        simp [kronCell, zcell, hi, hj, hp, bind, Except.bind, Except.map, ih]
    · cases hp : s.zin.put (m i j) <;>
        simp [kronCell, zcell, hi, hj, hp, bind, Except.bind, Except.map, ih]
    · cases hp : s.zij.put (m i j) <;>
        simp [kronCell, zcell, hi, hj, hp, bind, Except.bind, Except.map, ih]

theorem Except.map_eq_ok {ε α β : Type} {f : α → β} {x : Except ε α} {b : β} :
    x.map f = .ok b ↔ ∃ a, x = .ok a ∧ f a = b := by
  cases x <;> simp [Except.map]

theorem kronRows_split [Field K] (isN : Nat → Bool) (m : Nat → Nat → K) (n : Nat) (l : List Nat)
    (s s' : KronState K) :
    l.foldlM (kronRow isN m n) s = .ok s' ↔
      l.foldlM (zrow (fun x => !isN x) (fun x => !isN x) m n) s.zij = .ok s'.zij ∧
      l.foldlM (zrow (fun x => !isN x) isN m n) s.zin = .ok s'.zin ∧
      l.foldlM (zrow isN (fun x => !isN x) m n) s.znj = .ok s'.znj ∧
      l.foldlM (zrow isN isN m n) s.znn = .ok s'.znn := by
  induction l generalizing s with
  | nil =>
    simp only [List.foldlM_nil, pure, Except.pure, Except.ok.injEq]
    constructor
    · rintro rfl; exact ⟨rfl, rfl, rfl, rfl⟩
    · cases s; cases s'; rintro ⟨rfl, rfl, rfl, rfl⟩; rfl
  | cons i l ih =>
    simp only [List.foldlM_cons, bind, Except.bind]
    constructor
    · intro h
      cases hr : (List.range n).foldlM (kronCell isN m i) s with
      | error e => simp [kronRow, hr, Except.map] at h
      | ok s1 =>
        obtain ⟨a, b, c, d⟩ := (kronCells_split isN m i _ s s1).1 hr
        simp only [kronRow, hr, Except.map] at h
        simp only [zrow, a, b, c, d, Except.map]
        exact (ih _).1 h
    · rintro ⟨ha, hb, hc, hd⟩
      cases h1 : (List.range n).foldlM (zcell (fun x => !isN x) (fun x => !isN x) m i) s.zij with
      | error e => simp [zrow, h1, Except.map] at ha
      | ok z1 =>
      cases h2 : (List.range n).foldlM (zcell (fun x => !isN x) isN m i) s.zin with
      | error e => simp [zrow, h2, Except.map] at hb
      | ok z2 =>
      cases h3 : (List.range n).foldlM (zcell isN (fun x => !isN x) m i) s.znj with
      | error e => simp [zrow, h3, Except.map] at hc
      | ok z3 =>
      cases h4 : (List.range n).foldlM (zcell isN isN m i) s.znn with
      | error e => simp [zrow, h4, Except.map] at hd
      | ok z4 =>
        have := (kronCells_split isN m i (List.range n) s ⟨z1, z2, z3, z4⟩).2 ⟨h1, h2, h3, h4⟩
        simp only [zrow, h1, h2, h3, h4, Except.map] at ha hb hc hd
        simp only [kronRow, this, Except.map]
        exact (ih _).2 ⟨ha, hb, hc, hd⟩

theorem foldlM_error {α β ε : Type} (f : β → α → Except ε β) (P : ε → Prop) (hf : ∀ b a e, f b a = .error e → P e)
    (l : List α) (b : β) (e : ε) (h : l.foldlM f b = .error e) : P e := by
  induction l generalizing b with
  | nil => simp [pure, Except.pure] at h
  | cons a l ih =>
    simp only [List.foldlM_cons, bind, Except.bind] at h
    cases hfa : f b a with
    | error e' => rw [hfa] at h; simp at h; subst h; exact hf _ _ _ hfa
    | ok b' => rw [hfa] at h; exact ih _ h

theorem put_error (z : Zone K) (v : K) (e : PyErr) (h : z.put v = .error e) : e = .indexError := by
  unfold Zone.put Block.write at h
  by_cases hw : z.c0 < z.blk.rows ∧ z.c1 < z.blk.cols
  · simp [hw] at h
  · rw [if_neg hw] at h; simp at h; exact h.symm

/-- the only exception of the loop is `IndexError` -/
theorem kronLoop_error [Field K] (isN : Nat → Bool) (m : Nat → Nat → K) (n k : Nat) (e : PyErr)
    (h : kronLoop isN m n k = .error e) : e = .indexError := by
  unfold kronLoop at h
  refine foldlM_error _ (· = .indexError) ?_ _ _ _ h
  intro s i e he
  unfold kronRow at he
  cases hr : (List.range n).foldlM (kronCell isN m i) s with
  | ok s1 => simp [hr, Except.map] at he
  | error e' =>
    simp [hr, Except.map] at he
    subst he
    refine foldlM_error _ (· = .indexError) ?_ _ _ _ hr
    intro s j e he
    unfold kronCell at he
    split at he
    · cases hp : s.znn.put (m i j) with
      | ok => simp [hp, Except.map] at he
      | error e'' => simp [hp, Except.map] at he; subst he; exact put_error _ _ _ hp
    · split at he
      · cases hp : s.zij.put (m i j) with
        | ok => simp [hp, Except.map] at he
        | error e'' => simp [hp, Except.map] at he; subst he; exact put_error _ _ _ hp
      · split at he
        · cases hp : s.zin.put (m i j) with
          | ok => simp [hp, Except.map] at he
          | error e'' => simp [hp, Except.map] at he; subst he; exact put_error _ _ _ hp
        · cases hp : s.znj.put (m i j) with
          | ok => simp [hp, Except.map] at he
          | error e'' => simp [hp, Except.map] at he; subst he; exact put_error _ _ _ hp

/-! ### Enumeration of a class of indices -/

theorem length_filter_range (C : Nat → Bool) (n : Nat) : ((List.range n).filter C).length = cnt C n := by
  induction n with
  | zero => simp [cnt]
  | succ n ih =>
    rw [List.range_succ, List.filter_append, List.length_append, ih, cnt_succ]
    by_cases h : C n = true <;> simp [h]

theorem cnt_getElem (C : Nat → Bool) (n a j : Nat) (h : ((List.range n).filter C)[a]? = some j) :
    cnt C j = a ∧ j < n ∧ C j = true := by
  have hm : j ∈ (List.range n).filter C := List.mem_of_getElem? h
  rw [List.mem_filter, List.mem_range] at hm
  refine ⟨?_, hm.1, hm.2⟩
  induction n with
  | zero => simp at h
  | succ n ih =>
    rw [List.range_succ, List.filter_append] at h
    rw [List.getElem?_append] at h
    split at h
    · rename_i hlt
      have hm' : j ∈ (List.range n).filter C := List.mem_of_getElem? h
      rw [List.mem_filter, List.mem_range] at hm'
      exact ih h hm'
    · rename_i hge
      by_cases hC : C n = true
      · simp only [List.filter_cons, hC, if_true, List.filter_nil] at h
        have hlt := (List.getElem?_eq_some_iff.1 h).1
        simp only [List.length_cons, List.length_nil] at hlt
        have : a = ((List.range n).filter C).length := by omega
        rw [this] at h; simp at h; subst h
        rw [this, length_filter_range]
      · simp [hC] at h

end Ditto.Mat
