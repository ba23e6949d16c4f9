import Verif.Spec.CymeTable
import Verif.Lemmas.GlmParse
import Verif.Props.OpenClose
import Mathlib.Data.List.Infix
import Mathlib.Data.List.Perm.Subperm
import Mathlib.Data.List.Nodup

namespace Ditto.Cyme
open Ditto Glm Cyme.Spec

/-! ### texts -/

theorem inText_iff (x t : Text) : inText x t = true ↔ x <:+: t := by
  unfold inText
  rw [List.any_eq_true]
  constructor
  · rintro ⟨s, hs, hp⟩
    rw [List.mem_tails] at hs
    exact (List.isPrefixOf_iff_prefix.mp hp).isInfix.trans hs.isInfix
  · rintro ⟨a, b, rfl⟩
    exact ⟨x ++ b, by rw [List.mem_tails]; exact ⟨a, by simp⟩, List.isPrefixOf_iff_prefix.mpr ⟨b, rfl⟩⟩

theorem isHeader_iff (headers : List Text) (line : Text) : isHeader headers line = true ↔ Heads headers line := by
  unfold isHeader Heads
  rw [List.any_eq_true]
  simp only [inText_iff]

theorem toLower_eq {c d : Char} (hd : d.toNat < 65) (h : c.toLower = d) : c = d := by
  unfold Char.toLower at h
  split at h
  · rename_i hc
    exfalso
    have h2 : d.val.toNat = c.val.toNat + 32 := by
      rw [← h]
      have : c.val.toNat + 32 < 2 ^ 32 := by
        have := hc.2
        have : c.val.toNat ≤ 90 := this
        omega
      change (c.val + 32).toNat = _
      rw [UInt32.toNat_add]
      exact Nat.mod_eq_of_lt this
    have h3 : 65 ≤ c.val.toNat := hc.1
    have h4 : d.val.toNat < 65 := hd
    omega
  · exact h

theorem not_mem_lower {d : Char} (hd : d.toNat < 65) {t : Text} (h : d ∉ t) : d ∉ lower t := by
  intro hm
  obtain ⟨c, hc, he⟩ := List.mem_map.mp hm
  exact h (toLower_eq hd he ▸ hc)

theorem eol_blank {e : Text} (h : Eol e) : ∀ c ∈ e, c.isWhitespace = true := by
  rcases h with rfl | rfl | rfl <;> decide

theorem eol_lineEnd {e : Text} (h : Eol e) : ∀ c ∈ e, lineEnd c = true := by
  rcases h with rfl | rfl | rfl <;> decide

theorem eol_plain {e : Text} (h : Eol e) : ',' ∉ e ∧ '=' ∉ e := by
  rcases h with rfl | rfl | rfl <;> decide

theorem lower_eol {e : Text} (h : Eol e) : lower e = e := by
  rcases h with rfl | rfl | rfl <;> decide

theorem dropWhile_all {p : Char → Bool} {l : Text} (h : ∀ c ∈ l, p c = true) (m : Text) : (l ++ m).dropWhile p = m.dropWhile p := by
  induction l with
  | nil => rfl
  | cons c l ih =>
    rw [List.cons_append, List.dropWhile_cons, if_pos (h c List.mem_cons_self)]
    exact ih fun d hd => h d (List.mem_cons_of_mem _ hd)

theorem dropWhile_none {p : Char → Bool} {l : Text} (h : ∀ c ∈ l, p c = false) : l.dropWhile p = l := by
  cases l with
  | nil => rfl
  | cons c l => rw [List.dropWhile_cons, if_neg (by rw [h c List.mem_cons_self]; decide)]

theorem strip_blank {e : Text} (h : ∀ c ∈ e, c.isWhitespace = true) (c : Text) : Net.pyStrip (c ++ e) = Net.pyStrip c := by
  unfold Net.pyStrip
  by_cases hc : c.dropWhile Char.isWhitespace = []
  · have hall : ∀ x ∈ c, x.isWhitespace = true := by
      rw [List.dropWhile_eq_nil_iff] at hc; exact hc
    have : (c ++ e).dropWhile Char.isWhitespace = [] := by
      rw [List.dropWhile_eq_nil_iff]
      intro x hx
      rcases List.mem_append.mp hx with hx | hx
      exacts [hall x hx, h x hx]
    rw [this, hc]
  · have : (c ++ e).dropWhile Char.isWhitespace = c.dropWhile Char.isWhitespace ++ e := by
      rw [List.dropWhile_append]
      rw [if_neg (by simpa using hc)]
    rw [this, List.reverse_append, dropWhile_all (fun x hx => h x (List.mem_reverse.mp hx))]

theorem stripEol_eol {e c : Text} (h : Eol e) (hc : '\n' ∉ c ∧ '\r' ∉ c) : stripEol (c ++ e) = c := by
  have hcl : ∀ x ∈ c, lineEnd x = false := by
    intro x hx
    unfold lineEnd
    have h1 : x ≠ '\r' := by rintro rfl; exact hc.2 hx
    have h2 : x ≠ '\n' := by rintro rfl; exact hc.1 hx
    simp [h1, h2]
  unfold stripEol
  cases c with
  | nil =>
    rw [List.nil_append]
    have : e.dropWhile lineEnd = [] := by rw [List.dropWhile_eq_nil_iff]; exact eol_lineEnd h
    rw [this]; rfl
  | cons a c =>
    have : (a :: c ++ e).dropWhile lineEnd = a :: c ++ e := by
      rw [List.cons_append, List.dropWhile_cons, if_neg (by rw [hcl a List.mem_cons_self]; decide)]
    rw [this, List.reverse_append, dropWhile_all (fun x hx => eol_lineEnd h x (List.mem_reverse.mp hx)),
      dropWhile_none (fun x hx => hcl x (List.mem_reverse.mp hx)), List.reverse_reverse]

/-! ### cells -/

/-- cells with the end of the line after the last one -/
def endCells : List Text → Text → List Text
  | [], _ => []
  | [c], e => [c ++ e]
  | c :: d :: cs, e => c :: endCells (d :: cs) e

theorem split_cells {cells : List Text} {e : Text} (hne : cells ≠ []) (hc : ∀ c ∈ cells, ',' ∉ c) (he : ',' ∉ e) :
    Net.splitCh ',' (joinCells cells ++ e) = endCells cells e := by
  induction cells with
  | nil => exact absurd rfl hne
  | cons c cs ih =>
    cases cs with
    | nil =>
      exact Net.splitCh_not_mem (by
        rw [List.mem_append, not_or]; exact ⟨hc c List.mem_cons_self, he⟩)
    | cons d cs =>
      change Net.splitCh ',' (c ++ ',' :: joinCells (d :: cs) ++ e) = c :: endCells (d :: cs) e
      rw [List.append_assoc, List.cons_append, Net.splitCh_append (hc c List.mem_cons_self),
        ih (by simp) fun x hx => hc x (List.mem_cons_of_mem _ hx)]

theorem endCells_length (cells : List Text) (e : Text) : (endCells cells e).length = cells.length := by
  induction cells with
  | nil => rfl
  | cons c cs ih =>
    cases cs with
    | nil => rfl
    | cons d cs => change (endCells (d :: cs) e).length + 1 = _; rw [ih]; rfl

theorem endCells_map {f : Text → Text} {e : Text} (cells : List Text) (h : ∀ c ∈ cells, f (c ++ e) = f c) :
    (endCells cells e).map f = cells.map f := by
  induction cells with
  | nil => rfl
  | cons c cs ih =>
    cases cs with
    | nil => change [f (c ++ e)] = [f c]; rw [h c List.mem_cons_self]
    | cons d cs =>
      change f c :: (endCells (d :: cs) e).map f = _
      rw [ih fun x hx => h x (List.mem_cons_of_mem _ hx)]
      rfl

theorem endCells_same {e : Text} (he : Eol e) (cells : List Text) (i : Nat) :
    ((endCells cells e)[i]?).map Net.pyStrip = (cells[i]?).map Net.pyStrip := by
  rw [← List.getElem?_map, ← List.getElem?_map, endCells_map cells fun c _ => strip_blank (eol_blank he) c]

theorem endCells_head {e : Text} (he : Eol e) (cells : List Text) : rowId (endCells cells e) = keyOf cells := by
  cases cells with
  | nil => rfl
  | cons c cs =>
    cases cs with
    | nil => exact strip_blank (eol_blank he) c
    | cons d cs => rfl

/-! ### names of columns -/

theorem columnNames_format {line : Text} {cols : List Text} (h : FormatLine line cols) :
    columnNames line = some (cols.map lower) ∧ inText "format".toList (lower line) = true := by
  obtain ⟨hne, hc, name, e, he, hname, hf, rfl⟩ := h
  constructor
  · unfold columnNames
    have hrest : '=' ∉ joinCells cols ++ e := by
      have : ∀ cs : List Text, (∀ c ∈ cs, '=' ∉ c) → '=' ∉ joinCells cs := by
        intro cs
        induction cs with
        | nil => intro _; exact List.not_mem_nil
        | cons c cs ih =>
          intro hcs
          cases cs with
          | nil => exact hcs c List.mem_cons_self
          | cons d cs =>
            change '=' ∉ c ++ ',' :: joinCells (d :: cs)
            rw [List.mem_append, List.mem_cons, not_or, not_or]
            exact ⟨hcs c List.mem_cons_self, by decide, ih fun x hx => hcs x (List.mem_cons_of_mem _ hx)⟩
      rw [List.mem_append, not_or]
      exact ⟨this cols fun c hc' => (hc c hc').2.1, (eol_plain he).2⟩
    rw [Net.splitCh_append hname, Net.splitCh_not_mem hrest]
    dsimp only
    rw [split_cells hne (fun c hc' => (hc c hc').1) (eol_plain he).1]
    congr 1
    have hl : ∀ c ∈ cols, stripEol (lower c) = lower c := by
      intro c hc'
      have := stripEol_eol (e := []) (c := lower c) (Or.inl rfl)
        ⟨not_mem_lower (by decide) (hc c hc').2.2.1, not_mem_lower (by decide) (hc c hc').2.2.2⟩
      rwa [List.append_nil] at this
    rw [endCells_map]
    · exact List.map_congr_left hl
    · intro c hc'
      have : lower (c ++ e) = lower c ++ e := by
        unfold lower
        rw [List.map_append]
        exact congrArg _ (lower_eol he)
      rw [this, hl c hc']
      exact stripEol_eol he ⟨not_mem_lower (by decide) (hc c hc').2.2.1, not_mem_lower (by decide) (hc c hc').2.2.2⟩
  · rw [inText_iff]
    unfold lower
    rw [List.map_append]
    exact hf.trans (List.prefix_append _ _).isInfix

theorem positions_other {attrs names : List Text} {k : Text} (h : attrs.count k = 1 → k ∉ names) (i : Nat) (m : List (Text × Nat)) :
    getEntry k (positions attrs i names m) = getEntry k m := by
  induction names generalizing i m with
  | nil => rfl
  | cons x xs ih =>
    rw [positions, ih fun hc hk => h hc (List.mem_cons_of_mem _ hk)]
    split
    · rename_i hx
      rw [getEntry_setEntry, if_neg]
      rintro rfl
      exact h hx List.mem_cons_self
    · rfl

theorem positions_last {attrs names : List Text} {k : Text} (hk : attrs.count k = 1) {j : Nat} (hj : names[j]? = some k)
    (hl : ∀ j', j < j' → names[j']? ≠ some k) (i : Nat) (m : List (Text × Nat)) : getEntry k (positions attrs i names m) = some (i + j) := by
  induction names generalizing i m j with
  | nil => cases hj
  | cons x xs ih =>
    rw [positions]
    cases j with
    | zero =>
      obtain rfl : x = k := by injection hj
      rw [if_pos hk, positions_other, getEntry_setEntry, if_pos rfl]; · rfl
      intro _ hm
      obtain ⟨n, hn⟩ := List.mem_iff_getElem?.mp hm
      exact hl (n + 1) (Nat.succ_pos n) hn
    | succ j =>
      rw [ih (j := j) hj fun j' hj' => hl (j' + 1) (Nat.succ_lt_succ hj')]
      congr 1; omega

theorem last_column {names : List Text} {k : Text} (h : k ∈ names) : ∃ j : Nat, names[j]? = some k ∧ ∀ j', j < j' → names[j']? ≠ some k := by
  induction names with
  | nil => cases h
  | cons x xs ih =>
    by_cases hx : k ∈ xs
    · obtain ⟨j, h1, h2⟩ := ih hx
      refine ⟨j + 1, h1, ?_⟩
      intro j' hj'
      cases j' with
      | zero => omega
      | succ j' => exact h2 j' (by omega)
    · obtain rfl : k = x := by rcases List.mem_cons.mp h with h | h; exacts [h, absurd h hx]
      refine ⟨0, rfl, ?_⟩
      intro j' hj' he
      cases j' with
      | zero => omega
      | succ j' => exact hx (List.mem_iff_getElem?.mpr ⟨j', he⟩)

/-- the cell that is found for an attribute -/
theorem cellOf_iff {attrs cols : List Text} {line : Text} (hf : FormatLine line cols) {k : Text} (hk : attrs.count k = 1) (data : List Text) (v : Text) :
    cellOf (mappingOf attrs line) data k = some v ↔ Cell cols data k v := by
  have hm : mappingOf attrs line = positions attrs 0 (cols.map lower) [] := by
    unfold mappingOf; rw [(columnNames_format hf).1]
  have hcol : ∀ i, IsColumn cols k i ↔ (cols.map lower)[i]? = some k ∧ ∀ j', i < j' → (cols.map lower)[j']? ≠ some k := by
    intro i
    unfold IsColumn
    simp only [List.getElem?_map]
    rfl
  unfold cellOf
  rw [hm]
  constructor
  · intro h
    by_cases hmem : k ∈ cols.map lower
    · obtain ⟨j, h1, h2⟩ := last_column hmem
      rw [positions_last hk h1 h2] at h
      rw [Nat.zero_add] at h
      exact ⟨j, (hcol j).mpr ⟨h1, h2⟩, h⟩
    · rw [positions_other fun _ => hmem] at h
      cases h
  · rintro ⟨i, hi, hv⟩
    obtain ⟨h1, h2⟩ := (hcol i).mp hi
    rw [positions_last hk h1 h2, Nat.zero_add]
    exact hv

/-! ### values of a row -/

theorem cells_get (mapping : List (Text × Nat)) (data attrs : List Text) (k : Text) (r : Values) :
    getEntry k (attrs.foldl (addCell mapping data) r) = if k ∈ attrs then (cellOf mapping data k).or (getEntry k r) else getEntry k r := by
  induction attrs generalizing r with
  | nil => rfl
  | cons a attrs ih =>
    rw [List.foldl_cons, ih]
    have ha : getEntry k (addCell mapping data r a) = if k = a then (cellOf mapping data k).or (getEntry k r) else getEntry k r := by
      unfold addCell
      cases hc : cellOf mapping data a with
      | none =>
        dsimp only
        split
        · rename_i h; rw [h, hc]; rfl
        · rfl
      | some v =>
        dsimp only
        rw [getEntry_setEntry]
        split
        · rename_i h; rw [h, hc]; rfl
        · rfl
    rw [ha]
    by_cases h1 : k = a
    · subst h1
      rw [if_pos rfl, if_pos (show k ∈ k :: attrs from List.mem_cons_self)]
      cases cellOf mapping data k <;> simp
    · rw [if_neg h1]
      by_cases h2 : k ∈ attrs
      · rw [if_pos h2, if_pos (List.mem_cons_of_mem _ h2)]
      · rw [if_neg h2, if_neg (by rw [List.mem_cons, not_or]; exact ⟨h1, h2⟩)]

/-! ### keys -/

theorem freeKey_free {keys : List Text} {k : Text} (h : k ∉ keys) (n : Nat) : freeKey keys n k = k := by
  cases n with
  | zero => rfl
  | succ n => rw [freeKey, if_neg h]

theorem freeKey_bound {keys : List Text} (n : Nat) (k : Text) (h : freeKey keys n k ∈ keys) :
    ∀ j, j ≤ n → k ++ List.replicate j '*' ∈ keys := by
  induction n generalizing k with
  | zero => intro j hj; obtain rfl : j = 0 := by omega
            rw [List.replicate_zero, List.append_nil]; exact h
  | succ n ih =>
    rw [freeKey] at h
    split at h
    · rename_i hk
      intro j hj
      cases j with
      | zero => rw [List.replicate_zero, List.append_nil]; exact hk
      | succ j =>
        have := ih _ h j (by omega)
        rw [List.append_assoc] at this
        exact this
    · rename_i hk; exact absurd h hk

/-- the key that is found is free -/
theorem freeKey_fresh (keys : List Text) (k : Text) : freeKey keys keys.length k ∉ keys := by
  intro h
  have hall := freeKey_bound keys.length k h
  have hnd : ((List.range (keys.length + 1)).map fun j => k ++ List.replicate j '*').Nodup := by
    refine List.Nodup.map ?_ List.nodup_range
    intro a b hab
    have := congrArg List.length hab
    simpa using this
  have hsub : ((List.range (keys.length + 1)).map fun j => k ++ List.replicate j '*') ⊆ keys := by
    intro x hx
    obtain ⟨j, hj, rfl⟩ := List.mem_map.mp hx
    exact hall j (by rw [List.mem_range] at hj; omega)
  have := (List.subperm_of_subset hnd hsub).length_le
  simp at this
  omega

theorem updateAll_fresh {V : Type} (d e : List (Text × V)) (hn : (e.map (·.1)).Nodup) (h : ∀ p ∈ e, p.1 ∉ d.map (·.1)) :
    updateAll d e = d ++ e := by
  unfold updateAll
  induction e generalizing d with
  | nil => rw [List.append_nil]; rfl
  | cons p e ih =>
    rw [List.foldl_cons, setEntry_fresh (h p List.mem_cons_self)]
    rw [List.map_cons, List.nodup_cons] at hn
    rw [ih _ hn.2, List.append_assoc]; · rfl
    intro q hq hm
    rw [List.map_append, List.mem_append] at hm
    rcases hm with hm | hm
    · exact h q (List.mem_cons_of_mem _ hq) hm
    · rw [List.map_singleton, List.mem_singleton] at hm
      exact hn.1 (hm ▸ List.mem_map.mpr ⟨q, hq, rfl⟩)

end Ditto.Cyme
