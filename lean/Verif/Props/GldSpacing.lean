import Verif.Lemmas.GldSpacing

namespace Ditto.Gld
open Ditto Ditto.Gld.Spec

section
variable {g : Distances} {ws : List String} {earth : Bool} {P : String → ℝ × ℝ}

/-- the index of a phase -/
def ix (x : String) : Nat :=
  match letterIndex x with
  | .ok i => i
  | .error _ => 5

theorem ix_spec (hw : Wires ws P) {x : String} (hx : x ∈ ws) : ix x < 4 ∧ letter (ix x) = x ∧ letterIndex x = .ok (ix x) := by
  obtain ⟨i, hi, h1, h2⟩ := letter_of_phase (hw.phases x hx)
  have : ix x = i := by unfold ix; rw [h2]
  rw [this]
  exact ⟨hi, h1, h2⟩

theorem ix_letter {i : Nat} (hi : i < 4) : ix (letter i) = i := by
  interval_cases i <;> rfl

theorem indices_eq (hw : Wires ws P) : ws.mapM letterIndex = .ok (ws.map ix) :=
  Carson.mapM_ok fun _ hx => (ix_spec hw hx).2.2

theorem nodup_le {l l' : List String} (h : l.Nodup) (hs : ∀ x ∈ l, x ∈ l') : l.length ≤ l'.length :=
  (List.subperm_of_subset h hs).length_le

/-- a point with the coordinates of `p` along and across the line from `a` to `b` -/
def OnSide (a b p c : ℝ × ℝ) : Prop :=
  ∃ s : ℝ, s ^ 2 = (|across a b p| / gap a b) ^ 2 ∧ c = (s, -(along a b p / gap a b))

theorem across_left (a b : ℝ × ℝ) : across a b a = 0 := by unfold across; ring
theorem along_left (a b : ℝ × ℝ) : along a b a = 0 := by unfold along; ring
theorem across_right (a b : ℝ × ℝ) : across a b b = 0 := by unfold across; ring
theorem along_right (a b : ℝ × ℝ) : along a b b = gap a b ^ 2 := by rw [gap_sq]; unfold along; ring

theorem neg_along_right {a b : ℝ × ℝ} (hab : a ≠ b) : -(along a b b / gap a b) = 0 - gap a b := by
  have := gap_pos hab
  rw [along_right]; field_simp; ring

theorem onSide_left {a b : ℝ × ℝ} : OnSide a b a (0, 0) :=
  ⟨0, by rw [across_left]; simp, by rw [along_left]; simp⟩

theorem onSide_right {a b : ℝ × ℝ} (hab : a ≠ b) : OnSide a b b (0, 0 - gap a b) :=
  ⟨0, by rw [across_right]; simp, by rw [neg_along_right hab]⟩

theorem onSide_plus (a b p : ℝ × ℝ) : OnSide a b p (|across a b p| / gap a b, -(along a b p / gap a b)) := ⟨_, rfl, rfl⟩

theorem onSide_minus (a b p : ℝ × ℝ) : OnSide a b p (-1 * (|across a b p| / gap a b), -(along a b p / gap a b)) :=
  ⟨_, by ring, rfl⟩

theorem onSide_zero {a b c : ℝ × ℝ} (h : OnSide a b a c) : c = (0, 0) := by
  obtain ⟨s, hs, rfl⟩ := h
  rw [across_left] at hs
  have : s = 0 := by simpa using hs
  rw [this, along_left]; simp

theorem onSide_end {a b c : ℝ × ℝ} (hab : a ≠ b) (h : OnSide a b b c) : c = (0, 0 - gap a b) := by
  obtain ⟨s, hs, rfl⟩ := h
  rw [across_right] at hs
  have : s = 0 := by simpa using hs
  rw [this, neg_along_right hab]

/-- the distance from either end is right, on whichever side the point is -/
theorem gap_ends {a b p c d e : ℝ × ℝ} (hab : a ≠ b) (h : OnSide a b p c) (hd : OnSide a b a d) (he : OnSide a b b e) :
    gap c d = gap p a ∧ gap c e = gap p b := by
  rw [onSide_zero hd, onSide_end hab he]
  obtain ⟨s, hs, rfl⟩ := h
  exact gap_start hab hs

/-- C69 (one wire): with a distance to the earth the wire is at this height -/
theorem C69_one {w : String} (hd : Describes g [w] true P) (hw : Wires [w] P) :
    ∃ Q : String → ℝ × ℝ, computeSpacing g [w] = .ok (some ([w].map Q)) ∧ SameShape [w] P Q ∧ ∀ x ∈ [w], SameHeight P Q x := by
  refine ⟨fun x => meters (0, (P x).2), ?_, ?_, ?_⟩
  · unfold computeSpacing
    rw [wireCount_eq hd hw (Or.inr ⟨rfl, rfl⟩)]
    change (List.mapM (placeOne g 30) [w]).map some = _
    rw [Carson.mapM_ok (g := fun x => meters (0, (P x).2))]
    · rfl
    · intro x hx
      obtain ⟨h1, h2, h3⟩ := ix_spec hw hx
      unfold placeOne
      rw [hasEarth_eq hd hw (by simp), if_pos rfl, h3]
      change Except.ok (meters (0, table g (ix x) 4)) = _
      rw [table_earth hd hw h1 (by rw [h2]; exact hx), h2]
  · intro x hx y hy
    rw [List.mem_singleton] at hx hy
    subst hx; subst hy
    rw [gap_self, gap_self, zero_div]
  · intro x _
    simp [SameHeight, meters]

/-- the points after the rotation -/
noncomputable def turnBy (earth : Bool) (height : ℝ) (a b p : ℝ × ℝ) : ℝ × ℝ :=
  if earth then raised a.2 (rotate (Real.arccos ((a.2 - b.2) / gap a b)) p) else raised height (rotate (Real.pi / 2) p)

theorem gap_turnBy (earth : Bool) (height : ℝ) (a b p q : ℝ × ℝ) : gap (turnBy earth height a b p) (turnBy earth height a b q) = gap p q := by
  unfold turnBy
  split
  · rw [gap_raised, gap_rotate]
  · rw [gap_raised, gap_rotate]

theorem turned_eq (hd : Describes g ws earth P) (hw : Wires ws P) {f t : Nat} (hf : f < 4) (ht : t < 4) (hft : f ≠ t)
    (hx : letter f ∈ ws) (hy : letter t ∈ ws) (height : ℝ) (p : ℝ × ℝ) :
    turned g height (gap (P (letter f)) (P (letter t))) f t p = .ok (turnBy earth height (P (letter f)) (P (letter t)) p) := by
  unfold turned turnBy
  rw [hasEarth_eq hd hw (List.ne_nil_of_mem hx)]
  cases earth with
  | true =>
    rw [if_pos rfl, if_pos rfl, tilt_eq hd hw hf ht hft hx hy, table_earth hd hw hf hx]
    rfl
  | false => rfl

theorem height_turnBy {a b p : ℝ × ℝ} (hab : a ≠ b) (height x : ℝ) :
    (turnBy true height a b (x, -(along a b p / gap a b))).2 = footHeight a b p + |b.1 - a.1| * x / gap a b := by
  unfold turnBy
  rw [if_pos rfl]
  exact height_eq hab x

theorem foot_left (a b : ℝ × ℝ) : footHeight a b a = a.2 := by
  unfold footHeight; simp

theorem foot_right {a b : ℝ × ℝ} (hab : a ≠ b) : footHeight a b b = b.2 := by
  have h := true_height b hab
  rw [across_right] at h
  simp only [mul_zero, zero_div, sub_zero] at h
  exact h.symm

/-- the ends have the right height -/
theorem height_ends {a b c d : ℝ × ℝ} (hab : a ≠ b) (height : ℝ) (hc : OnSide a b a c) (hd : OnSide a b b d) :
    (turnBy true height a b c).2 = a.2 ∧ (turnBy true height a b d).2 = b.2 := by
  rw [onSide_zero hc, onSide_end hab hd]
  constructor
  · have h := height_turnBy (p := a) hab height 0
    rw [along_left, foot_left] at h
    simpa using h
  · have h := height_turnBy (p := b) hab height 0
    rw [neg_along_right hab, foot_right hab] at h
    simpa using h

/-- C69 (two wires): the wires are at their distance, and at their heights if these are given -/
theorem C69_two (hd : Describes g ws earth P) (hw : Wires ws P) (hl : ws.length = 2) :
    ∃ Q : String → ℝ × ℝ, computeSpacing g ws = .ok (some (ws.map Q)) ∧ SameShape ws P Q ∧
      (earth = true → ∀ x ∈ ws, SameHeight P Q x) := by
  obtain ⟨f, t, hft, ht, hx, hy, hlong, -⟩ := longest_eq hd hw (by omega)
  have hne : letter f ≠ letter t := fun h => by have := letter_inj (by omega) ht h; omega
  have hab : P (letter f) ≠ P (letter t) := hw.apart _ hx _ hy hne
  have hm := gap_pos hab
  have honly : ∀ x ∈ ws, x = letter f ∨ x = letter t := by
    intro x hxw
    by_contra hc
    rw [not_or] at hc
    have := nodup_le (l := [letter f, letter t, x]) (l' := ws) (by simp [hne, Ne.symm hc.1, Ne.symm hc.2])
      (by intro y hy'; simp only [List.mem_cons, List.not_mem_nil, or_false] at hy'; rcases hy' with rfl | rfl | rfl <;> assumption)
    simp at this
    omega
  have hc : ∀ x ∈ ws, start (gap (P (letter f)) (P (letter t))) f t (ix x) =
      .ok (if x = letter t then (0, 0 - gap (P (letter f)) (P (letter t))) else (0, 0)) := by
    intro x hxw
    unfold start
    rcases honly x hxw with rfl | rfl
    · rw [ix_letter (by omega), if_neg (by omega), if_pos rfl, if_neg hne]
    · rw [ix_letter ht, if_pos rfl, if_pos rfl]
  have hon : ∀ x ∈ ws, OnSide (P (letter f)) (P (letter t)) (P x)
      (if x = letter t then (0, 0 - gap (P (letter f)) (P (letter t))) else (0, 0)) := by
    intro x hxw
    rcases honly x hxw with rfl | rfl
    · rw [if_neg hne]; exact onSide_left
    · rw [if_pos rfl]; exact onSide_right hab
  generalize hcc : (fun x : String => if x = letter t then ((0, 0 - gap (P (letter f)) (P (letter t))) : ℝ × ℝ) else (0, 0)) = c
  have hc' : ∀ x ∈ ws, start (gap (P (letter f)) (P (letter t))) f t (ix x) = .ok (c x) := by subst hcc; exact hc
  have hon' : ∀ x ∈ ws, OnSide (P (letter f)) (P (letter t)) (P x) (c x) := by subst hcc; exact hon
  clear hc hon hcc
  have hshape : ∀ x ∈ ws, ∀ y ∈ ws, gap (c x) (c y) = gap (P x) (P y) := by
    intro x hxw y hyw
    rcases honly y hyw with rfl | rfl
    · exact (gap_ends hab (hon' x hxw) (hon' _ hx) (hon' _ hy)).1
    · exact (gap_ends hab (hon' x hxw) (hon' _ hx) (hon' _ hy)).2
  refine ⟨fun x => meters (if earth then turnBy true 30 (P (letter f)) (P (letter t)) (c x) else raised 30 (c x)), ?_, ?_, ?_⟩
  · unfold computeSpacing
    rw [wireCount_eq hd hw (Or.inl (by omega)), hl]
    change (placeTwos g 30 ws).map some = _
    unfold placeTwos
    rw [hlong]
    dsimp only
    rw [if_neg hm.ne', indices_eq hw]
    dsimp only
    rw [Carson.mapM_ok (g := fun i => meters (if earth then turnBy true 30 (P (letter f)) (P (letter t)) (c (letter i)) else raised 30 (c (letter i))))]
    · rw [List.map_map]
      change Except.ok (some _) = Except.ok (some _)
      congr 2
      apply List.map_congr_left
      intro x hxw
      simp only [Function.comp, (ix_spec hw hxw).2.1]
    · intro i hi
      obtain ⟨x, hxw, rfl⟩ := List.mem_map.mp hi
      rw [(ix_spec hw hxw).2.1]
      unfold placeTwo
      rw [hc' x hxw]
      dsimp only
      rw [hasEarth_eq hd hw (List.ne_nil_of_mem hx)]
      cases earth with
      | true =>
        rw [if_pos rfl, if_pos rfl, tilt_eq hd hw (by omega) ht (by omega) hx hy, table_earth hd hw (by omega) hx]
        rfl
      | false => rfl
  · intro x hxw y hyw
    dsimp only
    rw [gap_meters]
    cases earth with
    | true => rw [if_pos rfl, if_pos rfl, gap_turnBy, hshape x hxw y hyw]
    | false => simp only [Bool.false_eq_true, if_false]; rw [gap_raised, hshape x hxw y hyw]
  · rintro rfl x hxw
    unfold SameHeight
    simp only [if_true, meters]
    congr 1
    rcases honly x hxw with rfl | rfl
    · exact (height_ends hab 30 (hon' _ hx) (hon' _ hy)).1
    · exact (height_ends hab 30 (hon' _ hx) (hon' _ hy)).2

/-- the position of a wire between the ends, on the first side -/
noncomputable def plusSide (a b p : ℝ × ℝ) : ℝ × ℝ := (|across a b p| / gap a b, -(along a b p / gap a b))

/-- the candidate that is taken for a wire between the ends of three -/
noncomputable def middle (earth : Bool) (a b p : ℝ × ℝ) : ℝ × ℝ :=
  open Classical in
  if earth = false ∨ (turnBy earth 30 a b (plusSide a b p)).2 = p.2 then plusSide a b p
  else (-1 * (plusSide a b p).1, (plusSide a b p).2)

theorem onSide_middle (earth : Bool) (a b p : ℝ × ℝ) : OnSide a b p (middle earth a b p) := by
  unfold middle
  split
  · exact onSide_plus a b p
  · exact onSide_minus a b p

theorem height_middle {a b : ℝ × ℝ} (p : ℝ × ℝ) (hab : a ≠ b) : (turnBy true 30 a b (middle true a b p)).2 = p.2 := by
  unfold middle
  split
  · rename_i h
    rcases h with h | h
    · cases h
    · exact h
  · rename_i h
    rw [not_or] at h
    rcases height_cases p hab with h1 | h1
    · exact absurd (by rw [plusSide, height_turnBy hab]; exact h1.symm) h.2
    · simp only [plusSide]
      rw [height_turnBy hab]
      exact h1.symm

/-- the index of a wire that is not an end -/
theorem ix_ne (hw : Wires ws P) {x : String} (hx : x ∈ ws) {i : Nat} (hi : i < 4) (h : x ≠ letter i) : ix x ≠ i := by
  rintro rfl
  exact h (ix_spec hw hx).2.1.symm

theorem heron_wire (hd : Describes g ws earth P) (hw : Wires ws P) {f t : Nat} (hf : f < 4) (ht : t < 4) (hft : f ≠ t)
    (hx : letter f ∈ ws) (hy : letter t ∈ ws)
    (hmax : ∀ x ∈ ws, ∀ y ∈ ws, gap (P x) (P y) ≤ gap (P (letter f)) (P (letter t)))
    {x : String} (hxw : x ∈ ws) (h1 : x ≠ letter f) (h2 : x ≠ letter t) :
    heron (table g (ix x) f) (table g (ix x) t) (gap (P (letter f)) (P (letter t))) = .ok (plusSide (P (letter f)) (P (letter t)) (P x)) := by
  obtain ⟨hix, hlx, -⟩ := ix_spec hw hxw
  have hab : P (letter f) ≠ P (letter t) := hw.apart _ hx _ hy fun h => hft (letter_inj hf ht h)
  rw [table_pair hd (ix_ne hw hxw hf h1) hix hf (by rw [hlx]; exact hxw) hx,
    table_pair hd (ix_ne hw hxw ht h2) hix ht (by rw [hlx]; exact hxw) hy, hlx]
  exact heron_eq hab (hmax x hxw _ hy)

theorem zip_own_map {α β : Type} (f : α → β) : ∀ l : List α, l.zip (l.map f) = l.map fun i => (i, f i)
  | [] => rfl
  | a :: l => by rw [List.map_cons, List.zip_cons_cons, zip_own_map f l]; rfl

/-- C69 (three wires): the wires are at their distances, and at their heights if these are given -/
theorem C69_three (hd : Describes g ws earth P) (hw : Wires ws P) (hl : ws.length = 3) :
    ∃ Q : String → ℝ × ℝ, computeSpacing g ws = .ok (some (ws.map Q)) ∧ SameShape ws P Q ∧
      (earth = true → ∀ x ∈ ws, SameHeight P Q x) := by
  obtain ⟨f, t, hft, ht, hx, hy, hlong, hmax⟩ := longest_eq hd hw (by omega)
  have hf : f < 4 := by omega
  have hne : letter f ≠ letter t := fun h => by have := letter_inj hf ht h; omega
  have hab : P (letter f) ≠ P (letter t) := hw.apart _ hx _ hy hne
  have hm := gap_pos hab
  have honly : ∀ x ∈ ws, ∀ y ∈ ws, x = y ∨ x = letter f ∨ x = letter t ∨ y = letter f ∨ y = letter t := by
    intro x hxw y hyw
    by_contra hc
    simp only [not_or] at hc
    have := nodup_le (l := [letter f, letter t, x, y]) (l' := ws)
      (by simp [hne, Ne.symm hc.2.1, Ne.symm hc.2.2.1, Ne.symm hc.2.2.2.1, Ne.symm hc.2.2.2.2, hc.1])
      (by intro z hz; simp only [List.mem_cons, List.not_mem_nil, or_false] at hz; rcases hz with rfl | rfl | rfl | rfl <;> assumption)
    simp at this
    omega
  set a := P (letter f) with ha
  set b := P (letter t) with hb
  let c : String → ℝ × ℝ := fun x => if x = letter f then (0, 0) else if x = letter t then (0, 0 - gap a b) else middle earth a b (P x)
  have hcf : c (letter f) = (0, 0) := if_pos rfl
  have hct : c (letter t) = (0, 0 - gap a b) := by
    change (if letter t = letter f then _ else _) = _
    rw [if_neg hne.symm, if_pos rfl]
  have hon : ∀ x, OnSide a b (P x) (c x) := by
    intro x
    by_cases h1 : x = letter f
    · subst h1; rw [hcf]; exact onSide_left
    · by_cases h2 : x = letter t
      · subst h2; rw [hct]; exact onSide_right hab
      · have : c x = middle earth a b (P x) := by
          change (if x = letter f then _ else _) = _
          rw [if_neg h1, if_neg h2]
        rw [this]
        exact onSide_middle earth a b (P x)
  have hshape : ∀ x ∈ ws, ∀ y ∈ ws, gap (c x) (c y) = gap (P x) (P y) := by
    intro x hxw y hyw
    rcases honly x hxw y hyw with rfl | rfl | rfl | rfl | rfl
    · rw [gap_self, gap_self]
    · rw [gap_comm, gap_comm (P _)]; exact (gap_ends hab (hon y) (hon (letter f)) (hon (letter t))).1
    · rw [gap_comm, gap_comm (P _)]; exact (gap_ends hab (hon y) (hon (letter f)) (hon (letter t))).2
    · exact (gap_ends hab (hon x) (hon (letter f)) (hon (letter t))).1
    · exact (gap_ends hab (hon x) (hon (letter f)) (hon (letter t))).2
  have hcand : ∀ x ∈ ws, ∃ l, candidates g (gap a b) f t (ix x) = .ok l ∧
      choose g 30 (gap a b) f t (ix x) l = .ok (meters (turnBy earth 30 a b (c x))) := by
    intro x hxw
    by_cases h1 : x = letter f
    · subst h1
      refine ⟨[(0, 0)], ?_, ?_⟩
      · unfold candidates; rw [ix_letter hf, if_pos rfl]
      · unfold choose; rw [turned_eq hd hw hf ht (by omega) hx hy, hcf]; rfl
    · by_cases h2 : x = letter t
      · subst h2
        refine ⟨[(0, 0 - gap a b)], ?_, ?_⟩
        · unfold candidates; rw [ix_letter ht, if_neg (by omega), if_pos rfl]
        · unfold choose; rw [turned_eq hd hw hf ht (by omega) hx hy, hct]; rfl
      · have hcx : c x = middle earth a b (P x) := by
          change (if x = letter f then _ else _) = _
          rw [if_neg h1, if_neg h2]
        refine ⟨[plusSide a b (P x), (-1 * (plusSide a b (P x)).1, (plusSide a b (P x)).2)], ?_, ?_⟩
        · unfold candidates
          rw [if_neg (ix_ne hw hxw hf h1), if_neg (ix_ne hw hxw ht h2), heron_wire hd hw hf ht (by omega) hx hy hmax hxw h1 h2]
          rfl
        · unfold choose
          rw [turned_eq hd hw hf ht (by omega) hx hy, hcx, hasEarth_eq hd hw (List.ne_nil_of_mem hx)]
          dsimp only
          unfold middle
          have hiff : (earth = false ∨ (turnBy earth 30 a b (plusSide a b (P x))).2 = table g (ix x) 4) ↔
              (earth = false ∨ (turnBy earth 30 a b (plusSide a b (P x))).2 = (P x).2) := by
            cases earth with
            | false => simp
            | true =>
              obtain ⟨h3, h4, -⟩ := ix_spec hw hxw
              rw [table_earth hd hw h3 (by rw [h4]; exact hxw), h4]
          by_cases hcond : earth = false ∨ (turnBy earth 30 a b (plusSide a b (P x))).2 = (P x).2
          · rw [if_pos (hiff.mpr hcond), if_pos hcond]
          · rw [if_neg (fun h => hcond (hiff.mp h)), if_neg hcond]
            unfold choose
            rw [turned_eq hd hw hf ht (by omega) hx hy]
            rfl
  have hcand' : ∀ i ∈ ws.map ix, candidates g (gap a b) f t i =
      .ok (match candidates g (gap a b) f t i with | .ok l => l | .error _ => []) := by
    intro i hi
    obtain ⟨x, hxw, rfl⟩ := List.mem_map.mp hi
    obtain ⟨l, hl', -⟩ := hcand x hxw
    rw [hl']
  refine ⟨fun x => meters (turnBy earth 30 a b (c x)), ?_, ?_, ?_⟩
  · unfold computeSpacing
    rw [wireCount_eq hd hw (Or.inl (by omega)), hl]
    change Except.ok (some (orDefaults 30 ws (placeThrees g 30 ws))) = _
    unfold placeThrees
    rw [hlong]
    dsimp only
    rw [indices_eq hw]
    dsimp only
    rw [Carson.mapM_ok hcand']
    dsimp only
    rw [zip_own_map, Carson.mapM_ok (g := fun z => meters (turnBy earth 30 a b (c (letter z.1))))]
    · change Except.ok (some _) = Except.ok (some _)
      congr 2
      change List.map _ _ = _
      rw [List.map_map, List.map_map]
      apply List.map_congr_left
      intro x hxw
      simp only [Function.comp, (ix_spec hw hxw).2.1]
    · intro z hz
      obtain ⟨i, hi, rfl⟩ := List.mem_map.mp hz
      obtain ⟨x, hxw, rfl⟩ := List.mem_map.mp hi
      obtain ⟨l, hl', hch⟩ := hcand x hxw
      dsimp only
      rw [hl', (ix_spec hw hxw).2.1]
      exact hch
  · intro x hxw y hyw
    dsimp only
    rw [gap_meters, gap_turnBy, hshape x hxw y hyw]
  · rintro rfl x hxw
    unfold SameHeight
    simp only [meters]
    congr 1
    by_cases h1 : x = letter f
    · subst h1; exact (height_ends hab 30 (hon _) (hon (letter t))).1
    · by_cases h2 : x = letter t
      · subst h2; exact (height_ends hab 30 (hon (letter f)) (hon _)).2
      · have hcx : c x = middle true a b (P x) := by
          change (if x = letter f then _ else _) = _
          rw [if_neg h1, if_neg h2]
        rw [hcx]
        exact height_middle (P x) hab

/-- the position of a wire of four, where `u` is the first wire that is not an end -/
noncomputable def fourPos (g : Distances) (P : String → ℝ × ℝ) (f t : Nat) (u x : String) : ℝ × ℝ :=
  if x = letter f then (0, 0)
  else if x = letter t then (0, 0 - gap (P (letter f)) (P (letter t)))
  else if x = u then plusSide (P (letter f)) (P (letter t)) (P u)
  else sided g (plusSide (P (letter f)) (P (letter t)) (P u), ix u) (ix x) (plusSide (P (letter f)) (P (letter t)) (P x))

/-- the loop over the wires before the first one that is not an end -/
theorem four_before (hw : Wires ws P) {f t : Nat} (hf : f < 4) (ht : t < 4) (hft : f ≠ t) (u : String) :
    ∀ (l : List String), (∀ x ∈ l, x ∈ ws ∧ (x = letter f ∨ x = letter t)) → ∀ (map : List (Nat × ℝ × ℝ)),
    (l.map ix).foldlM (fourStep g (gap (P (letter f)) (P (letter t))) f t) { first := none, map := map } =
      .ok { first := none, map := (l.map fun x => (ix x, fourPos g P f t u x)).reverse ++ map }
  | [], _, map => rfl
  | x :: l, h, map => by
    have hne : letter t ≠ letter f := fun h => hft (letter_inj ht hf h).symm
    rw [List.map_cons, List.foldlM_cons]
    have hstep : fourStep g (gap (P (letter f)) (P (letter t))) f t { first := none, map := map } (ix x) =
        .ok { first := none, map := (ix x, fourPos g P f t u x) :: map } := by
      unfold fourStep fourPos
      rcases (h x List.mem_cons_self).2 with rfl | rfl
      · rw [ix_letter hf, if_pos rfl, if_pos rfl]
      · rw [ix_letter ht, if_neg (Ne.symm hft), if_pos rfl, if_neg hne, if_pos rfl]
    rw [hstep]
    change List.foldlM _ _ _ = _
    rw [four_before hw hf ht hft u l (fun y hy => h y (List.mem_cons_of_mem _ hy))]
    simp

/-- the loop over the wires after the first one that is not an end -/
theorem four_after (hd : Describes g ws earth P) (hw : Wires ws P) {f t : Nat} (hf : f < 4) (ht : t < 4) (hft : f ≠ t)
    (hx : letter f ∈ ws) (hy : letter t ∈ ws)
    (hmax : ∀ x ∈ ws, ∀ y ∈ ws, gap (P x) (P y) ≤ gap (P (letter f)) (P (letter t))) (u : String) :
    ∀ (l : List String), (∀ x ∈ l, x ∈ ws ∧ x ≠ u) → ∀ (map : List (Nat × ℝ × ℝ)),
    (l.map ix).foldlM (fourStep g (gap (P (letter f)) (P (letter t))) f t)
        { first := some (plusSide (P (letter f)) (P (letter t)) (P u), ix u), map := map } =
      .ok { first := some (plusSide (P (letter f)) (P (letter t)) (P u), ix u),
            map := (l.map fun x => (ix x, fourPos g P f t u x)).reverse ++ map }
  | [], _, map => rfl
  | x :: l, h, map => by
    have hne : letter t ≠ letter f := fun h => hft (letter_inj ht hf h).symm
    rw [List.map_cons, List.foldlM_cons]
    have hstep : fourStep g (gap (P (letter f)) (P (letter t))) f t
          { first := some (plusSide (P (letter f)) (P (letter t)) (P u), ix u), map := map } (ix x) =
        .ok { first := some (plusSide (P (letter f)) (P (letter t)) (P u), ix u), map := (ix x, fourPos g P f t u x) :: map } := by
      obtain ⟨hxw, hxu⟩ := h x List.mem_cons_self
      unfold fourStep fourPos
      by_cases h1 : x = letter f
      · subst h1; rw [ix_letter hf, if_pos rfl, if_pos rfl]
      · by_cases h2 : x = letter t
        · subst h2; rw [ix_letter ht, if_neg (Ne.symm hft), if_pos rfl, if_neg hne, if_pos rfl]
        · rw [if_neg (ix_ne hw hxw hf h1), if_neg (ix_ne hw hxw ht h2), heron_wire hd hw hf ht hft hx hy hmax hxw h1 h2,
            if_neg h1, if_neg h2, if_neg hxu]
          rfl
    rw [hstep]
    change List.foldlM _ _ _ = _
    rw [four_after hd hw hf ht hft hx hy hmax u l (fun y hy => h y (List.mem_cons_of_mem _ hy))]
    simp

theorem lookup_own_on {α β : Type} [BEq α] [LawfulBEq α] (f : String → α) (c : String → β) {x : String} :
    ∀ {l : List String}, (∀ y ∈ l, f x = f y → x = y) → x ∈ l → (l.map fun y => (f y, c y)).lookup (f x) = some (c x)
  | y :: l, hc, h => by
    rw [List.map_cons, List.lookup_cons]
    by_cases hxy : f x = f y
    · rw [hxy, beq_self_eq_true, hc y List.mem_cons_self hxy]
    · rw [beq_false_of_ne hxy]
      rcases List.mem_cons.mp h with rfl | h
      · exact absurd rfl hxy
      · exact lookup_own_on f c (fun z hz => hc z (List.mem_cons_of_mem _ hz)) h

/-- what is computed for four wires -/
theorem four_eq (hd : Describes g ws earth P) (hw : Wires ws P) (hl : ws.length = 4) {f t : Nat} (hf : f < 4) (ht : t < 4) (hft : f ≠ t)
    (hx : letter f ∈ ws) (hy : letter t ∈ ws) (hlong : longest g = some (gap (P (letter f)) (P (letter t)), f, t))
    (hmax : ∀ x ∈ ws, ∀ y ∈ ws, gap (P x) (P y) ≤ gap (P (letter f)) (P (letter t)))
    {u : String} {pre post : List String} (hws : ws = pre ++ u :: post) (hpre : ∀ x ∈ pre, x = letter f ∨ x = letter t)
    (hu1 : u ≠ letter f) (hu2 : u ≠ letter t) :
    computeSpacing g ws = .ok (some (ws.map fun x => meters (turnBy earth 30 (P (letter f)) (P (letter t)) (fourPos g P f t u x)))) := by
  have huw : u ∈ ws := by rw [hws]; simp
  have hupost : ∀ x ∈ post, x ∈ ws ∧ x ≠ u := by
    intro x hxp
    refine ⟨by rw [hws]; simp [hxp], ?_⟩
    rintro rfl
    have := hw.nodup
    rw [hws] at this
    have := (List.nodup_append.mp this).2.1
    simp [hxp] at this
  have hfold : (ws.map ix).foldlM (fourStep g (gap (P (letter f)) (P (letter t))) f t) {} =
      .ok { first := some (plusSide (P (letter f)) (P (letter t)) (P u), ix u),
            map := ws.reverse.map fun x => (ix x, fourPos g P f t u x) } := by
    have h1 := four_before (g := g) hw hf ht hft u pre (fun x hxp => ⟨by rw [hws]; simp [hxp], hpre x hxp⟩) []
    have h2 : fourStep g (gap (P (letter f)) (P (letter t))) f t
        { first := none, map := (pre.map fun x => (ix x, fourPos g P f t u x)).reverse ++ [] } (ix u) =
        .ok { first := some (plusSide (P (letter f)) (P (letter t)) (P u), ix u),
              map := (ix u, fourPos g P f t u u) :: ((pre.map fun x => (ix x, fourPos g P f t u x)).reverse ++ []) } := by
      unfold fourStep
      rw [if_neg (ix_ne hw huw hf hu1), if_neg (ix_ne hw huw ht hu2), heron_wire hd hw hf ht hft hx hy hmax huw hu1 hu2]
      have : fourPos g P f t u u = plusSide (P (letter f)) (P (letter t)) (P u) := by
        unfold fourPos; rw [if_neg hu1, if_neg hu2, if_pos rfl]
      rw [this]
      rfl
    have h3 := four_after hd hw hf ht hft hx hy hmax u post hupost
      ((ix u, fourPos g P f t u u) :: ((pre.map fun x => (ix x, fourPos g P f t u x)).reverse ++ []))
    conv_lhs => rw [hws]
    rw [List.map_append, List.foldlM_append, h1, List.map_cons]
    change (List.foldlM _ _ (_ :: _) : Py FourState) = _
    rw [List.foldlM_cons, h2]
    change List.foldlM _ _ _ = _
    rw [h3]
    conv_rhs => rw [hws]
    simp
  unfold computeSpacing
  rw [wireCount_eq hd hw (Or.inl (by omega)), hl]
  change Except.ok (some (orDefaults 30 ws (placeFours g 30 ws))) = _
  unfold placeFours
  rw [hlong]
  dsimp only
  rw [indices_eq hw]
  dsimp only
  rw [hfold]
  dsimp only
  rw [Carson.mapM_ok (g := fun i => meters (turnBy earth 30 (P (letter f)) (P (letter t)) (fourPos g P f t u (letter i))))]
  · change Except.ok (some _) = Except.ok (some _)
    congr 2
    change List.map _ _ = _
    rw [List.map_map]
    apply List.map_congr_left
    intro x hxw
    simp only [Function.comp, (ix_spec hw hxw).2.1]
  · intro i hi
    obtain ⟨x, hxw, rfl⟩ := List.mem_map.mp hi
    unfold fourPlace
    rw [lookup_own_on ix (fourPos g P f t u) (l := ws.reverse) _ (List.mem_reverse.mpr hxw)]
    · dsimp only
      unfold choose
      rw [turned_eq hd hw hf ht hft hx hy, (ix_spec hw hxw).2.1]
      rfl
    · intro y hyw hxy
      rw [List.mem_reverse] at hyw
      rw [← (ix_spec hw hxw).2.1, hxy, (ix_spec hw hyw).2.1]

theorem onSide_sided {a b p : ℝ × ℝ} (g : Distances) (first : (ℝ × ℝ) × Nat) (i : Nat) :
    OnSide a b p (sided g first i (plusSide a b p)) := by
  unfold sided
  split
  · have : (((plusSide a b p).1 * -1, (plusSide a b p).2) : ℝ × ℝ) = (-1 * (|across a b p| / gap a b), -(along a b p / gap a b)) := by
      unfold plusSide; rw [mul_comm]
    rw [this]
    exact onSide_minus a b p
  · exact onSide_plus a b p

/-- the second wire between the ends is at the right distance from the first one -/
theorem gap_sided {a b p q : ℝ × ℝ} (hab : a ≠ b) {i j : Nat} (h : table g i j = gap p q) :
    gap (sided g (plusSide a b q, j) i (plusSide a b p)) (plusSide a b q) = gap p q := by
  unfold sided
  rw [h]
  split
  · rename_i hne
    rcases sides_cases p q hab with h1 | h1
    · exfalso
      apply hne
      have := gap_sides hab h1
      rw [← this, gap_sq]
      rfl
    · exact gap_sides hab h1
  · rename_i heq
    rw [not_not] at heq
    exact gap_of_sq (gap_nonneg _ _) heq

theorem onSide_four (g : Distances) {f t : Nat} (hab : P (letter f) ≠ P (letter t)) (u x : String) :
    OnSide (P (letter f)) (P (letter t)) (P x) (fourPos g P f t u x) := by
  unfold fourPos
  split
  · rename_i h; rw [h]; exact onSide_left
  · split
    · rename_i h; rw [h]; exact onSide_right hab
    · split
      · rename_i h; rw [h]; exact onSide_plus _ _ _
      · exact onSide_sided g _ _

/-- there is a first wire that is not an end -/
theorem exists_first (hw : Wires ws P) (hl : ws.length = 4) (F T : String) :
    ∃ u pre post, ws = pre ++ u :: post ∧ (∀ x ∈ pre, x = F ∨ x = T) ∧ u ≠ F ∧ u ≠ T := by
  have hdec : ∀ l : List String, (∀ x ∈ l, x = F ∨ x = T) ∨ ∃ u pre post, l = pre ++ u :: post ∧ (∀ x ∈ pre, x = F ∨ x = T) ∧ u ≠ F ∧ u ≠ T := by
    intro l
    induction l with
    | nil => left; intro x hx; cases hx
    | cons y l ih =>
      by_cases hy : y = F ∨ y = T
      · rcases ih with ih | ⟨u, pre, post, h1, h2, h3⟩
        · left
          intro x hx
          rcases List.mem_cons.mp hx with rfl | hx
          · exact hy
          · exact ih x hx
        · right
          refine ⟨u, y :: pre, post, by rw [h1]; rfl, ?_, h3⟩
          intro x hx
          rcases List.mem_cons.mp hx with rfl | hx
          · exact hy
          · exact h2 x hx
      · right
        exact ⟨y, [], l, rfl, by simp, not_or.mp hy⟩
  rcases hdec ws with h | h
  · have := nodup_le (l' := [F, T]) hw.nodup (fun x hx => by rcases h x hx with rfl | rfl <;> simp)
    simp at this
    omega
  · exact h

/-- all distances are right -/
theorem four_shape (hd : Describes g ws earth P) (hw : Wires ws P) (hl : ws.length = 4) {f t : Nat} (hf : f < 4) (ht : t < 4) (hft : f ≠ t)
    (hx : letter f ∈ ws) (hy : letter t ∈ ws) {u : String} (huw : u ∈ ws) (hu1 : u ≠ letter f) (hu2 : u ≠ letter t) :
    ∀ x ∈ ws, ∀ y ∈ ws, gap (fourPos g P f t u x) (fourPos g P f t u y) = gap (P x) (P y) := by
  have hne : letter f ≠ letter t := fun h => hft (letter_inj hf ht h)
  have hab : P (letter f) ≠ P (letter t) := hw.apart _ hx _ hy hne
  have hcase : ∀ x ∈ ws, ∀ y ∈ ws, x = y ∨ x = letter f ∨ x = letter t ∨ y = letter f ∨ y = letter t ∨ x = u ∨ y = u := by
    intro x hxw y hyw
    by_contra hc
    simp only [not_or] at hc
    obtain ⟨h1, h2, h3, h4, h5, h6, h7⟩ := hc
    have := nodup_le (l := [letter f, letter t, x, y, u]) (l' := ws)
      (by simp [hne, Ne.symm h2, Ne.symm h3, Ne.symm h4, Ne.symm h5, h6, h7, h1, Ne.symm hu1, Ne.symm hu2])
      (by intro z hz; simp only [List.mem_cons, List.not_mem_nil, or_false] at hz; rcases hz with rfl | rfl | rfl | rfl | rfl <;> assumption)
    simp at this
    omega
  have hon := onSide_four (P := P) g hab u
  have hmid : ∀ x ∈ ws, x ≠ letter f → x ≠ letter t → x ≠ u → gap (fourPos g P f t u x) (fourPos g P f t u u) = gap (P x) (P u) := by
    intro x hxw h1 h2 h3
    have e1 : fourPos g P f t u u = plusSide (P (letter f)) (P (letter t)) (P u) := by
      unfold fourPos; rw [if_neg hu1, if_neg hu2, if_pos rfl]
    have e2 : fourPos g P f t u x = sided g (plusSide (P (letter f)) (P (letter t)) (P u), ix u) (ix x) (plusSide (P (letter f)) (P (letter t)) (P x)) := by
      unfold fourPos; rw [if_neg h1, if_neg h2, if_neg h3]
    rw [e1, e2]
    apply gap_sided hab
    obtain ⟨i1, i2, -⟩ := ix_spec hw hxw
    obtain ⟨j1, j2, -⟩ := ix_spec hw huw
    rw [table_pair hd _ i1 j1 (by rw [i2]; exact hxw) (by rw [j2]; exact huw), i2, j2]
    intro h
    apply h3
    rw [← i2, h, j2]
  intro x hxw y hyw
  by_cases hxf : x = letter f
  · rw [hxf, gap_comm, gap_comm (P _)]; exact (gap_ends hab (hon y) (hon (letter f)) (hon (letter t))).1
  by_cases hxt : x = letter t
  · rw [hxt, gap_comm, gap_comm (P _)]; exact (gap_ends hab (hon y) (hon (letter f)) (hon (letter t))).2
  by_cases hyf : y = letter f
  · rw [hyf]; exact (gap_ends hab (hon x) (hon (letter f)) (hon (letter t))).1
  by_cases hyt : y = letter t
  · rw [hyt]; exact (gap_ends hab (hon x) (hon (letter f)) (hon (letter t))).2
  by_cases hxy : x = y
  · rw [hxy, gap_self, gap_self]
  rcases hcase x hxw y hyw with h | h | h | h | h | h | h
  · exact absurd h hxy
  · exact absurd h hxf
  · exact absurd h hxt
  · exact absurd h hyf
  · exact absurd h hyt
  · rw [h, gap_comm, gap_comm (P _)]
    exact hmid y hyw hyf hyt (fun h' => hxy (h.trans h'.symm))
  · rw [h]
    exact hmid x hxw hxf hxt (fun h' => hxy (h'.trans h.symm))

/-- the two wires that are furthest apart are the ends that the code takes -/
theorem outermost_ends {f t : Nat} (hx : letter f ∈ ws) (hy : letter t ∈ ws) (hne : letter f ≠ letter t)
    (hmax : ∀ x ∈ ws, ∀ y ∈ ws, gap (P x) (P y) ≤ gap (P (letter f)) (P (letter t))) {F T : String} (h : Outermost ws P F T) :
    (letter f = F ∧ letter t = T) ∨ (letter f = T ∧ letter t = F) := by
  obtain ⟨hF, hT, -, hFT⟩ := h
  by_cases hc1 : letter f = F ∧ letter t = T
  · exact Or.inl hc1
  · by_cases hc2 : letter f = T ∧ letter t = F
    · exact Or.inr hc2
    · exact absurd (hmax F hF T hT) (not_le.mpr (hFT _ hx _ hy hne hc1 hc2))

/-- C69 (four wires, partial): all wires are at their distances, and the two that are furthest apart are at their heights if these are
given. What is missing: the heights of the other wires, see below. -/
theorem C69_four_partial (hd : Describes g ws earth P) (hw : Wires ws P) (hl : ws.length = 4) :
    ∃ Q : String → ℝ × ℝ, computeSpacing g ws = .ok (some (ws.map Q)) ∧ SameShape ws P Q ∧
      (earth = true → ∀ F T, Outermost ws P F T → SameHeight P Q F ∧ SameHeight P Q T) := by
  obtain ⟨f, t, hft, ht, hx, hy, hlong, hmax⟩ := longest_eq hd hw (by omega)
  have hf : f < 4 := by omega
  have hne : letter f ≠ letter t := fun h => by have := letter_inj hf ht h; omega
  have hab : P (letter f) ≠ P (letter t) := hw.apart _ hx _ hy hne
  obtain ⟨u, pre, post, hws, hpre, hu1, hu2⟩ := exists_first hw hl (letter f) (letter t)
  refine ⟨_, four_eq hd hw hl hf ht (by omega) hx hy hlong hmax hws hpre hu1 hu2, ?_, ?_⟩
  · intro x hxw y hyw
    rw [gap_meters, gap_turnBy, four_shape hd hw hl hf ht (by omega) hx hy (by rw [hws]; simp) hu1 hu2 x hxw y hyw]
  · rintro rfl F T hFT
    have hon := onSide_four (P := P) g hab u
    have hh := height_ends hab 30 (hon (letter f)) (hon (letter t))
    have h1 : SameHeight P (fun x => meters (turnBy true 30 (P (letter f)) (P (letter t)) (fourPos g P f t u x))) (letter f) := by
      unfold SameHeight; simp only [meters]; rw [hh.1]
    have h2 : SameHeight P (fun x => meters (turnBy true 30 (P (letter f)) (P (letter t)) (fourPos g P f t u x))) (letter t) := by
      unfold SameHeight; simp only [meters]; rw [hh.2]
    rcases outermost_ends hx hy hne hmax hFT with ⟨rfl, rfl⟩ | ⟨rfl, rfl⟩
    · exact ⟨h1, h2⟩
    · exact ⟨h2, h1⟩

/-- the lowest point of the nearest line does not depend on the order of its ends -/
theorem foot_comm {a b : ℝ × ℝ} (p : ℝ × ℝ) (hab : a ≠ b) : footHeight a b p = footHeight b a p := by
  have hm := gap_pos hab
  have h1 : (b.1 - a.1) ^ 2 + (b.2 - a.2) ^ 2 = gap a b ^ 2 := by rw [gap_sq]; ring
  have h2 : (a.1 - b.1) ^ 2 + (a.2 - b.2) ^ 2 = gap a b ^ 2 := by rw [gap_sq]
  have h3 : (b.1 - a.1) ^ 2 + (b.2 - a.2) ^ 2 ≠ 0 := by rw [h1]; positivity
  have h4 : (a.1 - b.1) ^ 2 + (a.2 - b.2) ^ 2 ≠ 0 := by rw [h2]; positivity
  unfold footHeight
  field_simp
  ring

/-- C69 violated: of four wires with given heights, the first one that is not one of the two that are furthest apart is never placed
under the line through these two. So if it is under that line its height is wrong. -/
theorem C69_four_below_violated (hd : Describes g ws true P) (hw : Wires ws P) (hl : ws.length = 4) {F T u : String}
    (hFT : Outermost ws P F T) {pre post : List String} (hws : ws = pre ++ u :: post) (hpre : ∀ x ∈ pre, x = F ∨ x = T)
    (hu1 : u ≠ F) (hu2 : u ≠ T) :
    ∃ Q : String → ℝ × ℝ, computeSpacing g ws = .ok (some (ws.map Q)) ∧ footHeight (P F) (P T) (P u) / 3.28084 ≤ (Q u).2 ∧
      ((P u).2 < footHeight (P F) (P T) (P u) → ¬SameHeight P Q u) := by
  obtain ⟨f, t, hft, ht, hx, hy, hlong, hmax⟩ := longest_eq hd hw (by omega)
  have hf : f < 4 := by omega
  have hne : letter f ≠ letter t := fun h => by have := letter_inj hf ht h; omega
  have hab : P (letter f) ≠ P (letter t) := hw.apart _ hx _ hy hne
  have hm := gap_pos hab
  have key : (∀ x ∈ pre, x = letter f ∨ x = letter t) ∧ u ≠ letter f ∧ u ≠ letter t ∧
      footHeight (P F) (P T) (P u) = footHeight (P (letter f)) (P (letter t)) (P u) := by
    rcases outermost_ends hx hy hne hmax hFT with ⟨rfl, rfl⟩ | ⟨rfl, rfl⟩
    · exact ⟨hpre, hu1, hu2, rfl⟩
    · exact ⟨fun x hx => (hpre x hx).symm, hu2, hu1, foot_comm _ hab.symm⟩
  obtain ⟨hpre', hu1', hu2', hfoot⟩ := key
  have hle : footHeight (P F) (P T) (P u) ≤ (turnBy true 30 (P (letter f)) (P (letter t)) (fourPos g P f t u u)).2 := by
    have e1 : fourPos g P f t u u = plusSide (P (letter f)) (P (letter t)) (P u) := by
      unfold fourPos; rw [if_neg hu1', if_neg hu2', if_pos rfl]
    rw [e1, plusSide, height_turnBy hab, hfoot]
    have : 0 ≤ |(P (letter t)).1 - (P (letter f)).1| * (|across (P (letter f)) (P (letter t)) (P u)| / gap (P (letter f)) (P (letter t))) /
        gap (P (letter f)) (P (letter t)) := by positivity
    linarith
  refine ⟨_, four_eq hd hw hl hf ht (by omega) hx hy hlong hmax hws hpre' hu1' hu2', ?_, ?_⟩
  · simp only [meters]
    exact div_le_div_of_nonneg_right hle (by norm_num)
  · intro hlt h
    unfold SameHeight at h
    simp only [meters] at h
    have := (div_left_inj' (by norm_num : (3.28084 : ℝ) ≠ 0)).mp h
    linarith

/-- C69 violated: if three of four wires are on a line, as the phases on a crossarm, the fourth one is never placed under this line. So a
neutral under the crossarm is placed over it. -/
theorem C69_crossarm_violated (hd : Describes g ws true P) (hw : Wires ws P) (hl : ws.length = 4) {F T u v : String}
    (hFT : Outermost ws P F T) {pre post : List String} (hws : ws = pre ++ u :: post) (hpre : ∀ x ∈ pre, x = F ∨ x = T)
    (hu1 : u ≠ F) (hu2 : u ≠ T) (hline : ((P u).1 - (P F).1) * ((P T).2 - (P F).2) = ((P u).2 - (P F).2) * ((P T).1 - (P F).1))
    (hv : v ∈ ws) (hv1 : v ≠ F) (hv2 : v ≠ T) (hvu : v ≠ u) :
    ∃ Q : String → ℝ × ℝ, computeSpacing g ws = .ok (some (ws.map Q)) ∧ footHeight (P F) (P T) (P v) / 3.28084 ≤ (Q v).2 ∧
      ((P v).2 < footHeight (P F) (P T) (P v) → ¬SameHeight P Q v) := by
  obtain ⟨f, t, hft, ht, hx, hy, hlong, hmax⟩ := longest_eq hd hw (by omega)
  have hf : f < 4 := by omega
  have hne : letter f ≠ letter t := fun h => by have := letter_inj hf ht h; omega
  have hab : P (letter f) ≠ P (letter t) := hw.apart _ hx _ hy hne
  have hm := gap_pos hab
  have huw : u ∈ ws := by rw [hws]; simp
  have key : (∀ x ∈ pre, x = letter f ∨ x = letter t) ∧ u ≠ letter f ∧ u ≠ letter t ∧ v ≠ letter f ∧ v ≠ letter t ∧
      footHeight (P F) (P T) (P v) = footHeight (P (letter f)) (P (letter t)) (P v) ∧ across (P (letter f)) (P (letter t)) (P u) = 0 := by
    rcases outermost_ends hx hy hne hmax hFT with ⟨rfl, rfl⟩ | ⟨rfl, rfl⟩
    · exact ⟨hpre, hu1, hu2, hv1, hv2, rfl, by unfold across; linarith⟩
    · exact ⟨fun x hx => (hpre x hx).symm, hu2, hu1, hv2, hv1, foot_comm _ hab.symm, by unfold across; linarith⟩
  obtain ⟨hpre', hu1', hu2', hv1', hv2', hfoot, hac⟩ := key
  have hle : footHeight (P F) (P T) (P v) ≤ (turnBy true 30 (P (letter f)) (P (letter t)) (fourPos g P f t u v)).2 := by
    have htab : table g (ix v) (ix u) = gap (P v) (P u) := by
      obtain ⟨i1, i2, -⟩ := ix_spec hw hv
      obtain ⟨j1, j2, -⟩ := ix_spec hw huw
      rw [table_pair hd _ i1 j1 (by rw [i2]; exact hv) (by rw [j2]; exact huw), i2, j2]
      intro h
      apply hvu
      rw [← i2, h, j2]
    have heq : (|across (P (letter f)) (P (letter t)) (P v)| / gap (P (letter f)) (P (letter t)) -
        |across (P (letter f)) (P (letter t)) (P u)| / gap (P (letter f)) (P (letter t))) ^ 2 * gap (P (letter f)) (P (letter t)) ^ 2 =
        (across (P (letter f)) (P (letter t)) (P v) - across (P (letter f)) (P (letter t)) (P u)) ^ 2 := by
      rw [hac, abs_zero, zero_div, sub_zero, sub_zero, div_pow, sq_abs]
      field_simp
    have e1 : fourPos g P f t u v = plusSide (P (letter f)) (P (letter t)) (P v) := by
      unfold fourPos; rw [if_neg hv1', if_neg hv2', if_neg hvu]
      unfold sided
      rw [if_neg]
      rw [not_not, htab, ← gap_sides hab heq, gap_sq]
      rfl
    rw [e1, plusSide, height_turnBy hab, hfoot]
    have : 0 ≤ |(P (letter t)).1 - (P (letter f)).1| * (|across (P (letter f)) (P (letter t)) (P v)| / gap (P (letter f)) (P (letter t))) /
        gap (P (letter f)) (P (letter t)) := by positivity
    linarith
  refine ⟨_, four_eq hd hw hl hf ht (by omega) hx hy hlong hmax hws hpre' hu1' hu2', ?_, ?_⟩
  · simp only [meters]
    exact div_le_div_of_nonneg_right hle (by norm_num)
  · intro hlt h
    unfold SameHeight at h
    simp only [meters] at h
    have := (div_left_inj' (by norm_num : (3.28084 : ℝ) ≠ 0)).mp h
    linarith

/-- C69 (four wires, heights): if the two other wires are not under the line through the two that are furthest apart, all heights are
right -/
theorem C69_four_above (hd : Describes g ws true P) (hw : Wires ws P) (hl : ws.length = 4) {F T : String} (hFT : Outermost ws P F T)
    (habove : ∀ x ∈ ws, footHeight (P F) (P T) (P x) ≤ (P x).2) :
    ∃ Q : String → ℝ × ℝ, computeSpacing g ws = .ok (some (ws.map Q)) ∧ SameShape ws P Q ∧ ∀ x ∈ ws, SameHeight P Q x := by
  obtain ⟨f, t, hft, ht, hx, hy, hlong, hmax⟩ := longest_eq hd hw (by omega)
  have hf : f < 4 := by omega
  have hne : letter f ≠ letter t := fun h => by have := letter_inj hf ht h; omega
  have hab : P (letter f) ≠ P (letter t) := hw.apart _ hx _ hy hne
  have hm := gap_pos hab
  obtain ⟨u, pre, post, hws, hpre, hu1, hu2⟩ := exists_first hw hl (letter f) (letter t)
  have hab' : ∀ x ∈ ws, footHeight (P (letter f)) (P (letter t)) (P x) ≤ (P x).2 := by
    rcases outermost_ends hx hy hne hmax hFT with ⟨rfl, rfl⟩ | ⟨rfl, rfl⟩
    · exact habove
    · intro x hxw; rw [foot_comm _ hab]; exact habove x hxw
  have huw : u ∈ ws := by rw [hws]; simp
  -- the side of a wire that is not under the line
  have hside : ∀ x ∈ ws, 0 ≤ -(((P (letter t)).1 - (P (letter f)).1) * across (P (letter f)) (P (letter t)) (P x)) := by
    intro x hxw
    have h1 := true_height (P x) hab
    have h2 := hab' x hxw
    have h3 : ((P (letter t)).1 - (P (letter f)).1) * across (P (letter f)) (P (letter t)) (P x) / gap (P (letter f)) (P (letter t)) ^ 2 ≤ 0 := by
      linarith
    have h4 : 0 < gap (P (letter f)) (P (letter t)) ^ 2 := by positivity
    have := (div_nonpos_iff.mp h3)
    rcases this with ⟨-, h⟩ | ⟨h, -⟩
    · linarith
    · linarith
  have hhp : ∀ x ∈ ws, (turnBy true 30 (P (letter f)) (P (letter t)) (plusSide (P (letter f)) (P (letter t)) (P x))).2 = (P x).2 := by
    intro x hxw
    rw [plusSide, height_turnBy hab]
    have h1 := true_height (P x) hab
    have h2 := hside x hxw
    have h3 : |(P (letter t)).1 - (P (letter f)).1| * |across (P (letter f)) (P (letter t)) (P x)| =
        -(((P (letter t)).1 - (P (letter f)).1) * across (P (letter f)) (P (letter t)) (P x)) := by
      rw [← abs_mul, abs_of_nonpos (by linarith)]
    have h4 : |(P (letter t)).1 - (P (letter f)).1| * (|across (P (letter f)) (P (letter t)) (P x)| / gap (P (letter f)) (P (letter t))) /
        gap (P (letter f)) (P (letter t)) =
        -(((P (letter t)).1 - (P (letter f)).1) * across (P (letter f)) (P (letter t)) (P x) / gap (P (letter f)) (P (letter t)) ^ 2) := by
      rw [← mul_div_assoc, h3]; field_simp
    linarith
  have hhv : ∀ x ∈ ws, x ≠ u → (turnBy true 30 (P (letter f)) (P (letter t))
      (sided g (plusSide (P (letter f)) (P (letter t)) (P u), ix u) (ix x) (plusSide (P (letter f)) (P (letter t)) (P x)))).2 = (P x).2 := by
    intro x hxw hxu
    obtain ⟨i1, i2, -⟩ := ix_spec hw hxw
    obtain ⟨j1, j2, -⟩ := ix_spec hw huw
    have htab : table g (ix x) (ix u) = gap (P x) (P u) := by
      rw [table_pair hd _ i1 j1 (by rw [i2]; exact hxw) (by rw [j2]; exact huw), i2, j2]
      intro h
      apply hxu
      rw [← i2, h, j2]
    by_cases hvert : (P (letter t)).1 - (P (letter f)).1 = 0
    · obtain ⟨s, -, hs⟩ := onSide_sided (a := P (letter f)) (b := P (letter t)) (p := P x) g
        (plusSide (P (letter f)) (P (letter t)) (P u), ix u) (ix x)
      rw [hs, height_turnBy hab, hvert]
      have h1 := true_height (P x) hab
      rw [hvert] at h1
      simp only [zero_mul, zero_div, sub_zero, abs_zero, add_zero] at h1 ⊢
      exact h1.symm
    · have heq : (|across (P (letter f)) (P (letter t)) (P x)| / gap (P (letter f)) (P (letter t)) -
          |across (P (letter f)) (P (letter t)) (P u)| / gap (P (letter f)) (P (letter t))) ^ 2 * gap (P (letter f)) (P (letter t)) ^ 2 =
          (across (P (letter f)) (P (letter t)) (P x) - across (P (letter f)) (P (letter t)) (P u)) ^ 2 := by
        have h1 := hside x hxw
        have h2 := hside u huw
        generalize across (P (letter f)) (P (letter t)) (P x) = p at *
        generalize across (P (letter f)) (P (letter t)) (P u) = q at *
        generalize (P (letter t)).1 - (P (letter f)).1 = v at *
        have e : (|p| / gap (P (letter f)) (P (letter t)) - |q| / gap (P (letter f)) (P (letter t))) ^ 2 * gap (P (letter f)) (P (letter t)) ^ 2
            = (|p| - |q|) ^ 2 := by field_simp
        rw [e]
        rcases lt_or_gt_of_ne hvert with hv | hv
        · have hp : 0 ≤ p := by by_contra h; nlinarith
          have hq : 0 ≤ q := by by_contra h; nlinarith
          rw [abs_of_nonneg hp, abs_of_nonneg hq]
        · have hp : p ≤ 0 := by by_contra h; nlinarith
          have hq : q ≤ 0 := by by_contra h; nlinarith
          rw [abs_of_nonpos hp, abs_of_nonpos hq]; ring
      have hno : sided g (plusSide (P (letter f)) (P (letter t)) (P u), ix u) (ix x) (plusSide (P (letter f)) (P (letter t)) (P x)) =
          plusSide (P (letter f)) (P (letter t)) (P x) := by
        unfold sided
        rw [if_neg]
        rw [not_not, htab, ← gap_sides hab heq, gap_sq]
        rfl
      rw [hno]
      exact hhp x hxw
  refine ⟨_, four_eq hd hw hl hf ht (by omega) hx hy hlong hmax hws hpre hu1 hu2, ?_, ?_⟩
  · intro x hxw y hyw
    rw [gap_meters, gap_turnBy, four_shape hd hw hl hf ht (by omega) hx hy huw hu1 hu2 x hxw y hyw]
  · intro x hxw
    unfold SameHeight
    simp only [meters]
    congr 1
    have hon := onSide_four (P := P) g hab u
    have hh := height_ends hab 30 (hon (letter f)) (hon (letter t))
    by_cases h1 : x = letter f
    · rw [h1]; exact hh.1
    · by_cases h2 : x = letter t
      · rw [h2]; exact hh.2
      · by_cases h3 : x = u
        · rw [h3]
          unfold fourPos
          rw [if_neg hu1, if_neg hu2, if_pos rfl]
          exact hhp u huw
        · unfold fourPos
          rw [if_neg h1, if_neg h2, if_neg h3]
          exact hhv x hxw h3

/-- C69 violated: a wire whose height is not given is not placed at all -/
theorem C69_single_violated {w : String} (hd : Describes g [w] false P) (hw : Wires [w] P) : computeSpacing g [w] = .ok none := by
  have hnone : ∀ i j, i ≠ j → i < 5 → j < 5 → distAttr g i j = none := by
    intro i j hij hi hj
    apply attr_none hd hw hij hi hj
    unfold present
    rintro ⟨h1, h2⟩
    split at h1
    · split at h2
      · rename_i h3 h4
        simp only [List.mem_singleton, decide_eq_true_eq] at h1 h2
        exact hij (letter_inj h3 h4 (h1.trans h2.symm))
      · cases h2
    · cases h1
  have hent : entries g = 0 := by
    unfold entries
    rw [List.length_eq_zero_iff, List.flatMap_eq_nil_iff]
    intro i hi
    rw [List.filter_eq_nil_iff]
    intro j hj
    rw [List.mem_range] at hi hj
    rw [decide_eq_true_iff, not_not]
    unfold table
    split
    · have : (List.range 5).any (fun k => k != i && (distAttr g i k).isSome) = false := by
        rw [List.any_eq_false]
        intro k hk
        by_cases hki : k = i
        · simp [hki]
        · rw [hnone i k (Ne.symm hki) hi (List.mem_range.mp hk)]; simp
      rw [this]; rfl
    · rename_i hij
      rw [hnone i j hij hi hj]
  unfold computeSpacing wireCount
  rw [hent, hasEarth_eq hd hw (by simp)]
  rfl

end

/-- C69 violated: three wires whose distances contradict the triangle inequality get default positions, at a height of 30 meters. The
default height for distances without heights is 30 feet. -/
theorem C69_infeasible_violated {g : Distances} {x y z : ℝ} (hx : 0 ≤ x) (hy : 0 ≤ y) (hz : x + y < z)
    (hg : ∀ a b, g a b = if (a, b) = ("A", "B") then some z else if (a, b) = ("A", "C") then some x
      else if (a, b) = ("B", "C") then some y else none) :
    computeSpacing g ["A", "B", "C"] = .ok (some [(0, 30), (2, 30), (4, 30)]) := by
  have h01 : distAttr g 0 1 = some z := by simp [distAttr, hg, letter]
  have h02 : distAttr g 0 2 = some x := by simp [distAttr, hg, letter]
  have h12 : distAttr g 1 2 = some y := by simp [distAttr, hg, letter]
  have hout : ∀ i < 5, 3 ≤ i → ∀ j < 5, i ≠ j → distAttr g i j = none := by
    intro i hi h3 j hj hij
    unfold distAttr
    split
    · rw [hg]
      interval_cases i <;> interval_cases j <;> first | omega | (simp [letter])
    · rw [hg]
      interval_cases i <;> interval_cases j <;> first | omega | (simp [letter])
  have hin : ∀ i < 3, ∀ j < 3, i ≠ j → ∃ d, distAttr g i j = some d ∧ 0 ≤ d := by
    intro i hi j hj hij
    rcases lt_or_gt_of_ne hij with h | h
    · interval_cases i <;> interval_cases j <;> first | omega | exact ⟨_, h01, by linarith⟩ | exact ⟨_, h02, hx⟩ | exact ⟨_, h12, hy⟩
    · rw [attr_comm g hij]
      interval_cases i <;> interval_cases j <;> first | omega | exact ⟨_, h01, by linarith⟩ | exact ⟨_, h02, hx⟩ | exact ⟨_, h12, hy⟩
  have hk : Known g fun i => decide (i < 3) := by
    constructor
    · intro i j hij _ _ h
      simp only [decide_eq_true_eq] at h
      exact hin i h.1 j h.2 hij
    · intro i j hij hi hj h
      simp only [decide_eq_true_eq] at h
      by_cases h3 : 3 ≤ i
      · exact hout i hi h3 j hj hij
      · rw [attr_comm g hij]
        exact hout j hj (by omega) i hi (Ne.symm hij)
  have hcount : wireCount g = 3 := by
    rw [wireCount_known hk (a := 0) (b := 1) (by omega) (by omega) (by omega) (by decide) (by decide)]
    decide
  have hlong : longest g = some (z, 0, 1) := by
    unfold longest pairs
    have h03 : distAttr g 0 3 = none := by rw [attr_comm g (by omega)]; exact hout 3 (by omega) (by omega) 0 (by omega) (by omega)
    have h13 : distAttr g 1 3 = none := by rw [attr_comm g (by omega)]; exact hout 3 (by omega) (by omega) 1 (by omega) (by omega)
    have h23 : distAttr g 2 3 = none := by rw [attr_comm g (by omega)]; exact hout 3 (by omega) (by omega) 2 (by omega) (by omega)
    simp only [List.foldl_cons, List.foldl_nil, maxStep, h01, h02, h03, h12, h13, h23]
    rw [if_pos (by linarith)]
    simp only
    rw [if_neg (by linarith)]
    simp only
    rw [if_neg (by linarith)]
  have hher : heron (table g 2 0) (table g 2 1) z = .error .valueError := by
    have h20 : table g 2 0 = x := by unfold table; rw [if_neg (by omega), attr_comm g (by omega), h02]
    have h21 : table g 2 1 = y := by unfold table; rw [if_neg (by omega), attr_comm g (by omega), h12]
    rw [h20, h21]
    unfold heron
    dsimp only
    rw [if_pos]
    have h1 : (x + y + z) / 2 - x > 0 := by linarith
    have h2 : (x + y + z) / 2 - y > 0 := by linarith
    have h3 : (x + y + z) / 2 - z < 0 := by linarith
    have h4 : (x + y + z) / 2 > 0 := by linarith
    exact mul_neg_of_pos_of_neg (by positivity) h3
  unfold computeSpacing
  rw [hcount]
  unfold placeThrees
  rw [hlong]
  have hidx : ["A", "B", "C"].mapM letterIndex = .ok [0, 1, 2] := rfl
  dsimp only
  rw [hidx]
  dsimp only
  have hcand : [0, 1, 2].mapM (candidates g z 0 1) = .error .valueError := by
    have h2 : candidates g z 0 1 2 = .error .valueError := by
      unfold candidates
      rw [if_neg (by omega), if_neg (by omega), hher]
      rfl
    rw [List.mapM_cons, List.mapM_cons, List.mapM_cons, h2]
    rfl
  rw [hcand]
  have hlow : pyLower "A" ≠ "n" ∧ pyLower "B" ≠ "n" ∧ pyLower "C" ≠ "n" := by decide
  change Except.ok (some (defaults 30 0 ["A", "B", "C"])) = _
  unfold defaults
  rw [if_neg hlow.1]
  unfold defaults
  rw [if_neg hlow.2.1]
  unfold defaults
  rw [if_neg hlow.2.2]
  unfold defaults
  norm_num

/-- C69 violated: two wires with the distance 0 are placed two meters apart, at a height of 30 meters -/
theorem C69_zero_violated {g : Distances} {F T : String} {f t : Nat} (hft : f < t) (ht : t < 4) (hF : letters[f]? = some F)
    (hT : letters[t]? = some T) (hg : ∀ a b, g a b = if (a, b) = (F, T) then some 0 else none) {ws : List String} (hl : ws.length = 2) :
    computeSpacing g ws = .ok (some [(0, 30), (0, 32)]) := by
  rw [letter_get (by omega), Option.some.injEq] at hF hT
  have hft' : distAttr g f t = some 0 := by unfold distAttr; rw [if_pos hft, hg, hF, hT, if_pos rfl]
  have hone : ∀ i j, i < j → j < 5 → distAttr g i j ≠ none → i = f ∧ j = t := by
    intro i j hij hj h
    unfold distAttr at h
    rw [if_pos hij, hg] at h
    split at h
    · rename_i he
      rw [Prod.mk.injEq, ← hF, ← hT] at he
      have hj4 : j < 4 := by
        by_contra hc
        obtain rfl : j = 4 := by omega
        exact letter_ne_E ht he.2.symm
      exact ⟨letter_inj (by omega) (by omega) he.1, letter_inj hj4 ht he.2⟩
    · exact absurd rfl h
  have hk : Known g fun i => decide (i = f ∨ i = t) := by
    constructor
    · intro i j hij _ _ h
      simp only [decide_eq_true_eq] at h
      refine ⟨0, ?_, le_refl _⟩
      rcases h.1 with rfl | rfl <;> rcases h.2 with rfl | rfl
      · exact absurd rfl hij
      · exact hft'
      · rw [attr_comm g hij]; exact hft'
      · exact absurd rfl hij
    · intro i j hij hi hj h
      simp only [decide_eq_true_eq] at h
      by_contra hc
      rcases lt_or_gt_of_ne hij with h' | h'
      · have := hone i j h' hj hc; omega
      · rw [attr_comm g hij] at hc; have := hone j i h' hi hc; omega
  have hcount : wireCount g = 2 := by
    rw [wireCount_known hk (a := f) (b := t) (by omega) (by omega) (by omega) (by simp) (by simp)]
    interval_cases t <;> interval_cases f <;> decide
  have hlong : longest g = some (0, f, t) := by
    have h := longest_fold g pairs (by
      rintro ⟨i, j⟩ hp d hd
      rw [mem_pairs] at hp
      have := hone i j hp.1 (by omega) (by rw [hd]; simp)
      rw [this.1, this.2, hft'] at hd
      cases hd
      norm_num)
    unfold longest
    cases hc : pairs.foldl (maxStep g) none with
    | none =>
      rw [hc] at h
      have := h (f, t) (mem_pairs.mpr ⟨hft, ht⟩)
      rw [hft'] at this
      cases this
    | some s =>
      obtain ⟨m, i, j⟩ := s
      rw [hc] at h
      obtain ⟨h1, h2, -⟩ := h
      rw [mem_pairs] at h1
      obtain ⟨rfl, rfl⟩ := hone i j h1.1 (by omega) (by rw [h2]; simp)
      rw [hft'] at h2
      cases h2
      rfl
  unfold computeSpacing
  rw [hcount]
  unfold placeTwos
  rw [hlong]
  dsimp only
  rw [if_pos rfl]
  match ws, hl with
  | [a, b], _ =>
    change Except.ok (some [((0 : ℝ), (30 : ℝ) + 2 * ((0 : Nat) : ℝ)), (0, 30 + 2 * ((1 : Nat) : ℝ))]) = _
    norm_num

/-! A case: wires A and C at the ends of a crossarm, B in between, and the neutral under it. -/

noncomputable def exPoints : String → ℝ × ℝ := fun x =>
  if x = "A" then (0, 30) else if x = "B" then (4, 30) else if x = "C" then (8, 30) else (4, 27)

/-- the distances of wires at given points -/
noncomputable def exDistances (ws : List String) (earth : Bool) (P : String → ℝ × ℝ) : Distances := fun x y =>
  if x ∈ ws ∧ y ∈ ws then some (gap (P x) (P y)) else if earth = true ∧ x ∈ ws ∧ y = "E" then some (P x).2 else none

theorem ex_describes (ws : List String) (earth : Bool) (P : String → ℝ × ℝ) : Describes (exDistances ws earth P) ws earth P :=
  fun _ _ _ _ _ _ _ => rfl

theorem exA : exPoints "A" = (0, 30) := by simp [exPoints]
theorem exB : exPoints "B" = (4, 30) := by simp [exPoints]
theorem exC : exPoints "C" = (8, 30) := by simp [exPoints]
theorem exN : exPoints "N" = (4, 27) := by simp [exPoints]

theorem ex_wires {ws : List String} (hs : ∀ x ∈ ws, x ∈ ["A", "B", "C", "N"]) (hn : ws.Nodup) : Wires ws exPoints where
  phases := hs
  nodup := hn
  apart := by
    intro x hx y hy hxy
    have hx := hs x hx
    have hy := hs y hy
    simp only [List.mem_cons, List.not_mem_nil, or_false] at hx hy
    rcases hx with rfl | rfl | rfl | rfl <;> rcases hy with rfl | rfl | rfl | rfl <;>
      first | exact absurd rfl hxy | (simp only [exA, exB, exC, exN]; norm_num)
  over := by
    intro x hx
    have hx := hs x hx
    simp only [List.mem_cons, List.not_mem_nil, or_false] at hx
    rcases hx with rfl | rfl | rfl | rfl <;> simp only [exA, exB, exC, exN] <;> norm_num

theorem gap_lt {p q r s : ℝ × ℝ} (h : (p.1 - q.1) ^ 2 + (p.2 - q.2) ^ 2 < (r.1 - s.1) ^ 2 + (r.2 - s.2) ^ 2) : gap p q < gap r s :=
  Real.sqrt_lt_sqrt (by positivity) h

theorem ex_outermost : Outermost ["A", "B", "C", "N"] exPoints "A" "C" := by
  refine ⟨by simp, by simp, by decide, ?_⟩
  intro x hx y hy hxy h1 h2
  simp only [List.mem_cons, List.not_mem_nil, or_false] at hx hy
  rcases hx with rfl | rfl | rfl | rfl <;> rcases hy with rfl | rfl | rfl | rfl <;>
    first | exact absurd rfl hxy | exact absurd ⟨rfl, rfl⟩ h1 | exact absurd ⟨rfl, rfl⟩ h2 |
      (apply gap_lt; simp only [exA, exB, exC, exN]; norm_num)

/-- the hypotheses of `C69_one`, `C69_two`, `C69_three` and `C69_four_partial` are met -/
example : Describes (exDistances ["N"] true exPoints) ["N"] true exPoints ∧ Wires ["N"] exPoints :=
  ⟨ex_describes _ _ _, ex_wires (by decide) (by decide)⟩

example : Describes (exDistances ["A", "N"] true exPoints) ["A", "N"] true exPoints ∧ Wires ["A", "N"] exPoints :=
  ⟨ex_describes _ _ _, ex_wires (by decide) (by decide)⟩

example : Describes (exDistances ["A", "N", "B"] true exPoints) ["A", "N", "B"] true exPoints ∧ Wires ["A", "N", "B"] exPoints :=
  ⟨ex_describes _ _ _, ex_wires (by decide) (by decide)⟩

example : Describes (exDistances ["A", "B", "C", "N"] true exPoints) ["A", "B", "C", "N"] true exPoints ∧ Wires ["A", "B", "C", "N"] exPoints :=
  ⟨ex_describes _ _ _, ex_wires (by decide) (by decide)⟩

/-- the neutral of the crossarm is placed at 30 feet or more instead of 27 -/
example : ∃ Q : String → ℝ × ℝ, computeSpacing (exDistances ["A", "B", "C", "N"] true exPoints) ["A", "B", "C", "N"] =
    .ok (some (["A", "B", "C", "N"].map Q)) ∧ ¬SameHeight exPoints Q "N" := by
  obtain ⟨Q, h1, -, h2⟩ := C69_crossarm_violated (ex_describes _ _ _) (ex_wires (by decide) (by decide)) rfl ex_outermost
    (u := "B") (v := "N") (pre := ["A"]) (post := ["C", "N"]) rfl (by simp) (by decide) (by decide)
    (by simp only [exA, exB, exC]; norm_num) (by decide) (by decide) (by decide) (by decide)
  exact ⟨Q, h1, h2 (by unfold footHeight; simp only [exA, exC, exN]; norm_num)⟩

/-- the same if the neutral is the first wire -/
example : ∃ Q : String → ℝ × ℝ, computeSpacing (exDistances ["N", "A", "B", "C"] true exPoints) ["N", "A", "B", "C"] =
    .ok (some (["N", "A", "B", "C"].map Q)) ∧ ¬SameHeight exPoints Q "N" := by
  have ho : Outermost ["N", "A", "B", "C"] exPoints "A" "C" := by
    have h := ex_outermost
    have hm : ∀ x : String, x ∈ ["N", "A", "B", "C"] → x ∈ ["A", "B", "C", "N"] := by intro x; simp; tauto
    exact ⟨by simp, by simp, h.2.2.1, fun x hx y hy => h.2.2.2 x (hm x hx) y (hm y hy)⟩
  obtain ⟨Q, h1, -, h2⟩ := C69_four_below_violated (ex_describes _ _ _) (ex_wires (by decide) (by decide)) rfl ho
    (u := "N") (pre := []) (post := ["A", "B", "C"]) rfl (by simp) (by decide) (by decide)
  exact ⟨Q, h1, h2 (by unfold footHeight; simp only [exA, exC, exN]; norm_num)⟩

/-- the hypotheses of `C69_four_above` are met: a neutral under the crossarm, whose phases A and C are not the wires furthest apart -/
example : ∃ Q : String → ℝ × ℝ, computeSpacing (exDistances ["A", "B", "C", "N"] true (fun x => if x = "N" then (20, 27) else exPoints x))
    ["A", "B", "C", "N"] = .ok (some (["A", "B", "C", "N"].map Q)) ∧
    ∀ x ∈ ["A", "B", "C", "N"], SameHeight (fun x => if x = "N" then (20, 27) else exPoints x) Q x := by
  generalize hP : (fun x : String => if x = "N" then ((20, 27) : ℝ × ℝ) else exPoints x) = P
  have eA : P "A" = (0, 30) := by subst hP; simp [exA]
  have eB : P "B" = (4, 30) := by subst hP; simp [exB]
  have eC : P "C" = (8, 30) := by subst hP; simp [exC]
  have eN : P "N" = (20, 27) := by subst hP; simp
  have hw : Wires ["A", "B", "C", "N"] P := by
    refine ⟨fun _ h => h, by decide, ?_, ?_⟩
    · intro x hx y hy hxy
      simp only [List.mem_cons, List.not_mem_nil, or_false] at hx hy
      rcases hx with rfl | rfl | rfl | rfl <;> rcases hy with rfl | rfl | rfl | rfl <;>
        first | exact absurd rfl hxy | (simp only [eA, eB, eC, eN]; norm_num)
    · intro x hx
      simp only [List.mem_cons, List.not_mem_nil, or_false] at hx
      rcases hx with rfl | rfl | rfl | rfl <;> simp only [eA, eB, eC, eN] <;> norm_num
  have ho : Outermost ["A", "B", "C", "N"] P "A" "N" := by
    refine ⟨by simp, by simp, by decide, ?_⟩
    intro x hx y hy hxy h1 h2
    simp only [List.mem_cons, List.not_mem_nil, or_false] at hx hy
    rcases hx with rfl | rfl | rfl | rfl <;> rcases hy with rfl | rfl | rfl | rfl <;>
      first | exact absurd rfl hxy | exact absurd ⟨rfl, rfl⟩ h1 | exact absurd ⟨rfl, rfl⟩ h2 |
        (apply gap_lt; simp only [eA, eB, eC, eN]; norm_num)
  obtain ⟨Q, h1, -, h2⟩ := C69_four_above (ex_describes ["A", "B", "C", "N"] true P) hw rfl ho (by
    intro x hx
    simp only [List.mem_cons, List.not_mem_nil, or_false] at hx
    rcases hx with rfl | rfl | rfl | rfl <;> unfold footHeight <;> simp only [eA, eB, eC, eN] <;> norm_num)
  exact ⟨Q, h1, h2⟩

end Ditto.Gld
