import Verif.Spec.GlmParse
import Verif.Props.OpenClose
import Mathlib.Data.List.TakeWhile

namespace Ditto.Glm
open Ditto Glm.Spec

/-! ### words -/

theorem words_white {c : Char} (hc : c.isWhitespace = true) (l : Text) : words (c :: l) = words l := by
  rw [words.eq_def]; simp only [hc, if_true]

theorem words_cons_apart {c : Char} (hc : c.isWhitespace = false) {l : Text} (hl : Apart l) : words (c :: l) = [c] :: words l := by
  cases l with
  | nil => simp [words, hc]
  | cons d l =>
    have hd := hl d rfl
    rw [words.eq_def]
    simp only [hc, hd, Bool.false_eq_true, if_false, if_true]

theorem words_ne {c : Char} (hc : c.isWhitespace = false) (l : Text) : words (c :: l) ≠ [] := by
  rw [words.eq_def]
  simp only [hc, Bool.false_eq_true, if_false]
  cases l with
  | nil => simp
  | cons d l =>
    dsimp only
    split
    · simp
    · split <;> simp

theorem words_cons {c d : Char} (hc : c.isWhitespace = false) (hd : d.isWhitespace = false) (l : Text) :
    ∃ w ws, words (d :: l) = w :: ws ∧ words (c :: d :: l) = (c :: w) :: ws := by
  obtain ⟨w, ws, h⟩ := List.exists_cons_of_ne_nil (words_ne hd l)
  refine ⟨w, ws, h, ?_⟩
  rw [words.eq_def]
  simp only [hc, hd, Bool.false_eq_true, if_false, h]

theorem words_blank {s : Text} (hs : Blank s) (l : Text) : words (s ++ l) = words l := by
  induction s with
  | nil => rfl
  | cons c s ih =>
    rw [List.cons_append, words_white (hs c List.mem_cons_self)]
    exact ih fun x hx => hs x (List.mem_cons_of_mem _ hx)

theorem words_word {w : Text} (hw : Word w) {t : Text} (ht : Apart t) : words (w ++ t) = w :: words t := by
  induction w with
  | nil => exact absurd rfl hw.1
  | cons c w ih =>
    have hc := hw.2 c List.mem_cons_self
    cases w with
    | nil => exact words_cons_apart hc ht
    | cons d w =>
      have hd := hw.2 d (List.mem_cons_of_mem _ List.mem_cons_self)
      obtain ⟨a, as, h1, h2⟩ := words_cons hc hd (w ++ t)
      have := ih ⟨by simp, fun x hx => hw.2 x (List.mem_cons_of_mem _ hx)⟩
      rw [List.cons_append] at this
      rw [this, List.cons.injEq] at h1
      rw [List.cons_append, List.cons_append, h2, ← h1.1, ← h1.2]

theorem words_splits {row : Text} {ws : List Text} (h : Splits row ws) : words row = ws := by
  induction h with
  | nil hs => have := words_blank hs []; rw [List.append_nil] at this; rw [this]; rfl
  | cons hs hw ht _ ih => rw [List.append_assoc, words_blank hs, words_word hw ht, ih]

theorem words_append {a b : Text} (h : ∀ c, a.getLast? = some c → c.isWhitespace = true) : words (a ++ b) = words a ++ words b := by
  induction a with
  | nil => rfl
  | cons c a ih =>
    by_cases hc : c.isWhitespace = true
    · rw [List.cons_append, words_white hc, words_white hc]
      cases a with
      | nil => rfl
      | cons d a => exact ih fun x hx => h x (by rw [List.getLast?_cons_cons]; exact hx)
    · have hc' : c.isWhitespace = false := by simpa using hc
      cases a with
      | nil => exact absurd (h c rfl) hc
      | cons d a =>
        have ih' := ih fun x hx => h x (by rw [List.getLast?_cons_cons]; exact hx)
        by_cases hd : d.isWhitespace = true
        · have ha : Apart (d :: a) := by intro x hx; cases hx; exact hd
          have ha' : Apart (d :: a ++ b) := by intro x hx; cases hx; exact hd
          rw [List.cons_append, words_cons_apart hc' ha, words_cons_apart hc' ha', ih']
          rfl
        · have hd' : d.isWhitespace = false := by simpa using hd
          obtain ⟨w, ws, h1, h2⟩ := words_cons hc' hd' a
          obtain ⟨w', ws', h3, h4⟩ := words_cons hc' hd' (a ++ b)
          rw [List.cons_append, List.cons_append, h2, h4]
          rw [← List.cons_append, ih', h1, List.cons_append, List.cons.injEq] at h3
          rw [← h3.1, ← h3.2]
          rfl

theorem words_blank_end {s : Text} (hs : Blank s) : ∀ l : Text, words (l ++ s) = words l := by
  intro l
  induction l with
  | nil => rw [List.nil_append]; have := words_blank hs []; rw [List.append_nil] at this; exact this
  | cons c l ih =>
    by_cases hc : c.isWhitespace = true
    · rw [List.cons_append, words_white hc, words_white hc, ih]
    · have hc' : c.isWhitespace = false := by simpa using hc
      cases l with
      | nil =>
        have ha : Apart s := fun x hx => hs x (List.mem_of_mem_head? hx)
        have hb : Apart ([] : Text) := fun x hx => by cases hx
        rw [List.cons_append, List.nil_append, words_cons_apart hc' ha, words_cons_apart hc' hb]
        rw [List.nil_append] at ih
        rw [ih]
      | cons d l =>
        by_cases hd : d.isWhitespace = true
        · have ha : Apart (d :: l) := by intro x hx; cases hx; exact hd
          have ha' : Apart (d :: l ++ s) := by intro x hx; cases hx; exact hd
          rw [List.cons_append, words_cons_apart hc' ha, words_cons_apart hc' ha', ih]
        · have hd' : d.isWhitespace = false := by simpa using hd
          obtain ⟨w, ws, h1, h2⟩ := words_cons hc' hd' l
          obtain ⟨w', ws', h3, h4⟩ := words_cons hc' hd' (l ++ s)
          rw [List.cons_append, List.cons_append, h2, h4]
          rw [← List.cons_append, ih, h1, List.cons.injEq] at h3
          rw [← h3.1, ← h3.2]

/-! ### stripping -/

theorem takeWhile_blank (l : Text) : Blank (l.takeWhile Char.isWhitespace) := fun _ hc => List.mem_takeWhile_imp hc

/-- a row is its stripped text with blanks around it -/
theorem strip_parts (row : Text) : ∃ s s', Blank s ∧ Blank s' ∧ row = s ++ Net.pyStrip row ++ s' := by
  refine ⟨row.takeWhile Char.isWhitespace, ((row.dropWhile Char.isWhitespace).reverse.takeWhile Char.isWhitespace).reverse, takeWhile_blank _,
    ?_, ?_⟩
  · intro c hc
    exact takeWhile_blank _ c (List.mem_reverse.mp hc)
  · unfold Net.pyStrip
    rw [List.append_assoc, ← List.reverse_append, List.takeWhile_append_dropWhile, List.reverse_reverse, List.takeWhile_append_dropWhile]

theorem words_strip (row : Text) : words (Net.pyStrip row) = words row := by
  obtain ⟨s, s', hs, hs', he⟩ := strip_parts row
  conv_rhs => rw [he]
  rw [words_blank_end hs', words_blank hs]

theorem strip_last {row : Text} {c : Char} (h : (Net.pyStrip row).getLast? = some c) : c.isWhitespace = false := by
  unfold Net.pyStrip at h
  rw [List.getLast?_reverse] at h
  have := List.head?_dropWhile_not Char.isWhitespace (row.dropWhile Char.isWhitespace).reverse
  rw [h] at this
  simpa using this

theorem strip_head {row : Text} {c : Char} (h : (Net.pyStrip row).head? = some c) : c.isWhitespace = false := by
  unfold Net.pyStrip at h
  have h1 : ∀ (l : Text) (c : Char), (l.reverse.dropWhile Char.isWhitespace).reverse.head? = some c → l.head? = some c := by
    intro l c h
    rw [List.head?_reverse] at h
    have : (l.reverse.dropWhile Char.isWhitespace) <:+ l.reverse := List.dropWhile_suffix _
    obtain ⟨t, ht⟩ := this
    have h2 : l.reverse.getLast? = some c := by
      rw [← ht, List.getLast?_append, h]; rfl
    rwa [List.getLast?_reverse] at h2
  have h2 := h1 _ _ h
  have := List.head?_dropWhile_not Char.isWhitespace row
  rw [h2] at this
  simpa using this

/-- a text that ends with a letter ends with its last word -/
theorem last_word {l : Text} {c : Char} (h : l.getLast? = some c) (hc : c.isWhitespace = false) :
    ∃ pre w, l = pre ++ w ∧ Word w ∧ (∀ c, pre.getLast? = some c → c.isWhitespace = true) ∧ words l = words pre ++ [w] := by
  let p : Char → Bool := fun c => !c.isWhitespace
  have hl : l = (l.reverse.dropWhile p).reverse ++ (l.reverse.takeWhile p).reverse := by
    rw [← List.reverse_append, List.takeWhile_append_dropWhile, List.reverse_reverse]
  have hw : Word (l.reverse.takeWhile p).reverse := by
    constructor
    · rw [Ne, List.reverse_eq_nil_iff]
      rw [← List.head?_reverse] at h
      cases hr : l.reverse with
      | nil => rw [hr] at h; cases h
      | cons d t =>
        rw [hr] at h
        cases h
        rw [List.takeWhile_cons, if_pos (by simp [p, hc])]
        simp
    · intro x hx
      have := List.mem_takeWhile_imp (List.mem_reverse.mp hx)
      simpa [p] using this
  have hp : ∀ c, ((l.reverse.dropWhile p).reverse).getLast? = some c → c.isWhitespace = true := by
    intro x hx
    rw [List.getLast?_reverse] at hx
    have := List.head?_dropWhile_not p l.reverse
    rw [hx] at this
    simpa [p] using this
  refine ⟨_, _, hl, hw, hp, ?_⟩
  conv_lhs => rw [hl]
  rw [words_append hp]
  have := words_word hw (t := []) (fun _ h => by cases h)
  rw [List.append_nil] at this
  rw [this]
  rfl

theorem words_nil_strip {row : Text} (h : words row = []) : Net.pyStrip row = [] := by
  cases hl : (Net.pyStrip row) with
  | nil => rfl
  | cons c t =>
    have := words_ne (strip_head (row := row) (c := c) (by rw [hl]; rfl)) t
    rw [← hl, words_strip] at this
    exact absurd h this

theorem strip_ne_of_words {row w : Text} {ws : List Text} (h : words row = w :: ws) : ∃ c t, Net.pyStrip row = c :: t := by
  cases hl : (Net.pyStrip row) with
  | nil => have := words_strip row; rw [hl, h] at this; cases this
  | cons c t => exact ⟨c, t, rfl⟩

/-- the stripped row ends with its last word -/
theorem strip_last_word {row : Text} (h : words row ≠ []) :
    ∃ pre w, Net.pyStrip row = pre ++ w ∧ Word w ∧ (∀ c, pre.getLast? = some c → c.isWhitespace = true) ∧ (words row).getLast? = some w ∧
      words row = words pre ++ [w] := by
  obtain ⟨w0, ws0, hw0⟩ := List.exists_cons_of_ne_nil h
  obtain ⟨c, t, hct⟩ := strip_ne_of_words hw0
  have hlast : (Net.pyStrip row).getLast? = some ((c :: t).getLast (by simp)) := by rw [hct]; exact List.getLast?_eq_some_getLast _
  obtain ⟨pre, w, h1, h2, h3, h4⟩ := last_word hlast (strip_last hlast)
  rw [words_strip] at h4
  exact ⟨pre, w, h1, h2, h3, by rw [h4, List.getLast?_concat], h4⟩

/-- whether a row ends a block depends on its last word -/
theorem closes_iff {row w : Text} (h : (words row).getLast? = some w) : closes (Net.pyStrip row) = true ↔ EndsBlock w := by
  have hne : words row ≠ [] := by intro he; rw [he] at h; cases h
  obtain ⟨pre, w', h1, h2, h3, h4, -⟩ := strip_last_word hne
  obtain rfl : w' = w := by rw [h] at h4; exact (Option.some.inj h4).symm
  unfold closes EndsBlock
  rw [Bool.or_eq_true, decide_eq_true_iff, decide_eq_true_iff, h1]
  obtain ⟨w0, c, rfl⟩ : ∃ w0 c, w' = w0 ++ [c] := ⟨w'.dropLast, w'.getLast h2.1, (List.dropLast_append_getLast h2.1).symm⟩
  apply or_congr
  · rw [← List.append_assoc, List.getLast?_concat, Option.some.injEq]
    constructor
    · rintro rfl; exact List.suffix_append _ _
    · intro h
      obtain ⟨t, ht⟩ := h
      have := congrArg List.getLast? ht
      rw [List.getLast?_concat, List.getLast?_concat] at this
      exact (Option.some.inj this).symm
  · constructor
    · intro h
      rcases List.eq_nil_or_concat' w0 with rfl | ⟨w1, b, rfl⟩
      · rcases List.eq_nil_or_concat' pre with rfl | ⟨pre1, b, rfl⟩
        · have := congrArg List.length h
          simp at this
        · exfalso
          have hb := h3 b List.getLast?_concat
          have : (pre1 ++ [b] ++ ([] ++ [c])).drop ((pre1 ++ [b] ++ ([] ++ [c])).length - 2) = [b, c] := by
            have e : pre1 ++ [b] ++ ([] ++ [c]) = pre1 ++ [b, c] := by simp
            rw [e, List.drop_left' (by simp; try omega)]
          rw [this] at h
          injection h with hb' _
          rw [hb'] at hb
          revert hb; decide
      · have : (pre ++ (w1 ++ [b] ++ [c])).drop ((pre ++ (w1 ++ [b] ++ [c])).length - 2) = [b, c] := by
          have e : pre ++ (w1 ++ [b] ++ [c]) = (pre ++ w1) ++ [b, c] := by simp
          rw [e, List.drop_left' (by simp; try omega)]
        rw [this] at h
        refine ⟨w1, ?_⟩
        rw [← h]; simp
    · rintro ⟨t, ht⟩
      rw [← ht, ← List.append_assoc, List.drop_left' (by simp; try omega)]

theorem closes_nil {row : Text} (h : words row = []) : closes (Net.pyStrip row) = false := by
  rw [words_nil_strip h]; rfl

/-- whether a row is a comment depends on its first word -/
theorem comment_iff {row w : Text} {ws : List Text} (h : words row = w :: ws) : (Net.pyStrip row).take 2 = ['/', '/'] ↔ Comment w := by
  have hc0 : ('/' : Char).isWhitespace = false := by decide
  have hsp := words_strip row
  rw [h] at hsp
  obtain ⟨c, t, hct⟩ := strip_ne_of_words h
  have hc := strip_head (row := row) (c := c) (by rw [hct]; rfl)
  rw [hct] at hsp ⊢
  unfold Comment
  cases t with
  | nil =>
    rw [words_cons_apart hc (fun _ h => by cases h), List.cons.injEq] at hsp
    rw [← hsp.1]
    simp
  | cons d t =>
    by_cases hd : d.isWhitespace = true
    · rw [words_cons_apart hc (by intro x hx; cases hx; exact hd), List.cons.injEq] at hsp
      rw [← hsp.1]
      constructor
      · intro h
        simp only [List.take_succ_cons, List.take_zero, List.cons.injEq, and_true] at h
        rw [h.2, hc0] at hd; cases hd
      · rintro ⟨t, ht⟩
        simp at ht
    · have hd' : d.isWhitespace = false := by simpa using hd
      obtain ⟨a, as, h1, h2⟩ := words_cons hc hd' t
      rw [hsp, List.cons.injEq] at h2
      have hda : ∃ a', a = d :: a' := by
        cases t with
        | nil =>
          rw [words_cons_apart hd' (fun _ h => by cases h), List.cons.injEq] at h1
          exact ⟨[], h1.1.symm⟩
        | cons e t =>
          by_cases he : e.isWhitespace = true
          · rw [words_cons_apart hd' (by intro x hx; cases hx; exact he), List.cons.injEq] at h1
            exact ⟨[], h1.1.symm⟩
          · obtain ⟨b, bs, h3, h4⟩ := words_cons hd' (by simpa using he) t
            rw [h1, List.cons.injEq] at h4
            exact ⟨b, h4.1⟩
      obtain ⟨a', rfl⟩ := hda
      rw [h2.1]
      simp only [List.take_succ_cons, List.take_zero, List.cons.injEq, and_true, List.cons_prefix_cons, List.nil_prefix]
      constructor
      · rintro ⟨rfl, rfl⟩; exact ⟨rfl, rfl⟩
      · rintro ⟨h1, h2⟩; exact ⟨h1.symm, h2.symm⟩

/-! ### dictionaries -/

theorem getEntry_find {V : Type} (k : Text) (l : List (Text × V)) : getEntry k l = (l.find? fun p => p.1 = k).map (·.2) := by
  induction l with
  | nil => rfl
  | cons p l ih =>
    rw [getEntry]
    by_cases h : p.1 = k
    · rw [if_pos h, List.find?_cons_of_pos (by simpa using h)]; rfl
    · rw [if_neg h, List.find?_cons_of_neg (by simpa using h), ih]

theorem find_setEntry {V : Type} (k : Text) (v : V) (n : Text) (l : List (Text × V)) :
    (setEntry k v l).find? (fun p => p.1 = n) = if n = k then some (k, v) else l.find? fun p => p.1 = n := by
  induction l with
  | nil =>
    rw [setEntry]
    by_cases h : n = k
    · rw [if_pos h, List.find?_cons_of_pos (by simpa using h.symm)]
    · rw [if_neg h, List.find?_cons_of_neg (by simpa using fun e => h e.symm)]
  | cons p l ih =>
    obtain ⟨k', v'⟩ := p
    rw [setEntry]
    by_cases h : k' = k
    · rw [if_pos h]
      by_cases hn : n = k
      · rw [if_pos hn, List.find?_cons_of_pos (by simpa using hn.symm)]
      · rw [if_neg hn, List.find?_cons_of_neg (by simpa using fun e => hn e.symm),
          List.find?_cons_of_neg (by simpa using fun e => hn (e.symm.trans h))]
    · rw [if_neg h]
      by_cases hk : k' = n
      · rw [List.find?_cons_of_pos (by simpa using hk), List.find?_cons_of_pos (by simpa using hk), if_neg (fun e => h (hk.trans e))]
      · rw [List.find?_cons_of_neg (by simpa using hk), List.find?_cons_of_neg (by simpa using hk), ih]

theorem getEntry_setEntry {V : Type} (k : Text) (v : V) (n : Text) (l : List (Text × V)) :
    getEntry n (setEntry k v l) = if n = k then some v else getEntry n l := by
  rw [getEntry_find, getEntry_find, find_setEntry]
  split <;> rfl

theorem setEntry_fresh {V : Type} {k : Text} {v : V} {l : List (Text × V)} (h : k ∉ l.map (·.1)) : setEntry k v l = l ++ [(k, v)] := by
  induction l with
  | nil => rfl
  | cons p l ih =>
    obtain ⟨k', v'⟩ := p
    rw [List.map_cons, List.mem_cons, not_or] at h
    rw [setEntry, if_neg (fun e => h.1 e.symm), ih h.2]
    rfl

end Ditto.Glm
