import Verif.Spec.CymeNodes
import Verif.Props.CymeTable

/-! Keys with stars, and files with one table. -/
namespace Ditto.Cyme
open Ditto Glm Cyme.Spec

theorem star_inj {k k' : Text} (h : '*' ∉ k) (h' : '*' ∉ k') {a b : Nat} (he : k ++ List.replicate a '*' = k' ++ List.replicate b '*') :
    k = k' ∧ a = b := by
  induction k generalizing k' with
  | nil =>
    cases k' with
    | nil =>
      have := congrArg List.length he
      simp only [List.nil_append, List.length_replicate] at this
      exact ⟨rfl, this⟩
    | cons c k' =>
      have : c ∈ List.replicate a '*' := by rw [List.nil_append] at he; rw [he]; simp
      rw [List.eq_of_mem_replicate this] at h'
      exact absurd List.mem_cons_self h'
  | cons c k ih =>
    cases k' with
    | nil =>
      have : c ∈ List.replicate b '*' := by rw [List.nil_append] at he; rw [← he]; simp
      rw [List.eq_of_mem_replicate this] at h
      exact absurd List.mem_cons_self h
    | cons c' k' =>
      rw [List.cons_append, List.cons_append, List.cons.injEq] at he
      obtain ⟨rfl, he⟩ := he
      obtain ⟨rfl, hab⟩ := ih (fun hm => h (List.mem_cons_of_mem _ hm)) (fun hm => h' (List.mem_cons_of_mem _ hm)) he
      exact ⟨rfl, hab⟩

theorem starred_append (done ks ks' : List Text) : starred done (ks ++ ks') = starred done ks ++ starred (done ++ ks) ks' := by
  induction ks generalizing done with
  | nil => rw [List.nil_append, List.append_nil]; rfl
  | cons k ks ih => rw [List.cons_append, starred, ih, starred, List.append_assoc]; rfl

theorem starred_length (done ks : List Text) : (starred done ks).length = ks.length := by
  induction ks generalizing done with
  | nil => rfl
  | cons k ks ih => rw [starred, List.length_cons, ih, List.length_cons]

theorem mem_starred {k : Text} (hk : '*' ∉ k) {ks : List Text} (hs : ∀ x ∈ ks, '*' ∉ x) : ∀ (done : List Text) (m : Nat),
    k ++ List.replicate m '*' ∈ starred done ks ↔ done.count k ≤ m ∧ m < done.count k + ks.count k := by
  induction ks with
  | nil =>
    intro done m
    constructor
    · intro h; cases h
    · rintro ⟨h1, h2⟩; simp at h2; omega
  | cons x ks ih =>
    intro done m
    rw [starred, List.mem_cons, ih (fun y hy => hs y (List.mem_cons_of_mem _ hy)), List.count_append,
      List.count_singleton, List.count_cons]
    by_cases hx : x = k
    · subst hx
      simp only [beq_self_eq_true, if_true]
      constructor
      · rintro (h | h)
        · have := (star_inj hk hk h).2; omega
        · omega
      · intro h
        by_cases hm : m = done.count x
        · exact Or.inl (by rw [hm])
        · exact Or.inr (by omega)
    · have hb : (x == k) = false := by simpa using hx
      rw [hb]
      simp only [Bool.false_eq_true, if_false, Nat.add_zero]
      constructor
      · rintro (h | h)
        · exact absurd (star_inj hk (hs x List.mem_cons_self) h).1.symm hx
        · exact h
      · exact Or.inr

theorem freeKey_starred {k : Text} (hk : '*' ∉ k) {ks : List Text} (hs : ∀ x ∈ ks, '*' ∉ x) : ∀ (n m : Nat), m ≤ ks.count k → ks.count k ≤ m + n →
    freeKey (starred [] ks) n (k ++ List.replicate m '*') = k ++ List.replicate (ks.count k) '*' := by
  intro n
  induction n with
  | zero => intro m h1 h2; rw [freeKey, show m = ks.count k by omega]
  | succ n ih =>
    intro m h1 h2
    rw [freeKey]
    have hm := mem_starred hk hs [] m
    rw [List.count_nil] at hm
    by_cases hc : m < ks.count k
    · rw [if_pos (hm.mpr (by omega)), List.append_assoc]
      have : List.replicate m '*' ++ ['*'] = List.replicate (m + 1) '*' := by rw [List.replicate_succ']
      rw [this]
      exact ih (m + 1) (by omega) (by omega)
    · rw [if_neg (fun h => hc (by have := hm.mp h; omega)), show m = ks.count k by omega]

theorem starred_nodup {ks : List Text} (hs : ∀ x ∈ ks, '*' ∉ x) : ∀ done, (starred done ks).Nodup := by
  induction ks with
  | nil => intro _; exact List.nodup_nil
  | cons k ks ih =>
    intro done
    rw [starred, List.nodup_cons]
    refine ⟨?_, ih (fun y hy => hs y (List.mem_cons_of_mem _ hy)) _⟩
    rw [mem_starred (hs k List.mem_cons_self) (fun y hy => hs y (List.mem_cons_of_mem _ hy)), List.count_append, List.count_singleton, beq_self_eq_true, if_pos rfl]
    omega

theorem starred_fresh {ks : List Text} (hn : ks.Nodup) : ∀ {done : List Text}, (∀ k ∈ ks, k ∉ done) → starred done ks = ks := by
  induction ks with
  | nil => intro _ _; rfl
  | cons k ks ih =>
    intro done hd
    rw [List.nodup_cons] at hn
    rw [starred, List.count_eq_zero_of_not_mem (hd k List.mem_cons_self), List.replicate_zero, List.append_nil, ih hn.2]
    intro x hx hm
    rcases List.mem_append.mp hm with hm | hm
    · exact hd x (List.mem_cons_of_mem _ hx) hm
    · rw [List.mem_singleton.mp hm] at hx; exact hn.1 hx

/-- the cells of the row, whatever the key is -/
def HasCells (attrs cols row : List Text) (p : Text × Values) : Prop := Entry attrs (cols, row) (keyOf row, p.2)

/-- the rows of a table, with the same key or not -/
theorem starred_rows {attrs more cols : List Text} {f : Text} (ha : attrs.Nodup) (hf : FormatLine f cols) {lines : List Text} {rows : List (List Text)}
    (h : List.Forall₂ RowLine lines rows) : ∀ (done : List (Text × Values)) (keys tail : List Text), done.map (·.1) = starred [] keys →
    (∀ k ∈ keys, '*' ∉ k) → (∀ r ∈ rows, '*' ∉ keyOf r) →
    ∃ new, List.Forall₂ (HasCells attrs cols) rows new ∧ (done ++ new).map (·.1) = starred [] (keys ++ rows.map keyOf) ∧
      tableRows [] { attrs := attrs, mapping := mappingOf attrs f, more := more, result := done } (lines ++ tail) =
        tableRows [] { attrs := attrs, mapping := mappingOf attrs f, more := more, result := done ++ new } tail := by
  induction h with
  | nil => intro done keys tail hd _ _; exact ⟨[], .nil, by rw [List.append_nil, hd, List.map_nil, List.append_nil], by rw [List.append_nil]; rfl⟩
  | @cons line row lines rows hl _ ih =>
    intro done keys tail hd hk hr
    obtain ⟨e, he, hstep⟩ := row_step hl { attrs := attrs, mapping := mappingOf attrs f, more := more, result := done } []
    have hlen : done.length = keys.length := by rw [← List.length_map (·.1), hd, starred_length]
    have hfree : freeKey (done.map (·.1)) done.length (keyOf row) = keyOf row ++ List.replicate (keys.count (keyOf row)) '*' := by
      have := freeKey_starred (hr row List.mem_cons_self) hk done.length 0 (Nat.zero_le _) (by rw [Nat.zero_add, hlen]; exact List.count_le_length)
      rw [List.replicate_zero, List.append_nil] at this
      rw [hd]
      exact this
    dsimp only at hstep
    rw [hfree] at hstep
    obtain ⟨new, h1, h2, h3⟩ := ih (done ++ [(keyOf row ++ List.replicate (keys.count (keyOf row)) '*',
        rowValues attrs (mappingOf attrs f) [] (endCells row e))]) (keys ++ [keyOf row]) tail
      (by rw [List.map_append, hd, starred_append, List.nil_append]; rfl)
      (by
        intro k hm
        rcases List.mem_append.mp hm with hm | hm
        · exact hk k hm
        · rw [List.mem_singleton.mp hm]; exact hr row List.mem_cons_self)
      (fun r hm => hr r (List.mem_cons_of_mem _ hm))
    refine ⟨(keyOf row ++ List.replicate (keys.count (keyOf row)) '*', rowValues attrs (mappingOf attrs f) [] (endCells row e)) :: new,
      .cons (entry_row ha hf he) h1, ?_, ?_⟩
    · have hsplit : keys ++ (row :: rows).map keyOf = (keys ++ [keyOf row]) ++ rows.map keyOf := by simp
      rw [hsplit, ← h2, List.append_assoc]
      rfl
    · rw [List.cons_append, tableRows, if_pos hl.2.2.1, hstep]
      rw [List.append_assoc] at h3
      exact h3

theorem after_format_more {q : Query} {f : Text} {cols : List Text} (hf : FormatLine f cols) {rest : List Text}
    (hr : rest ≠ []) : afterHeader q (f :: rest) = .ok (tableRows q.info { attrs := q.attrs, mapping := mappingOf q.attrs f, more := q.more } rest) := by
  cases rest with
  | nil => exact absurd rfl hr
  | cons next rest =>
    unfold afterHeader
    dsimp only
    rw [if_pos (columnNames_format hf).2]

theorem helper_header {q : Query} {h : Text} (hh : Heads q.headers h) {rest rest' : List Text} {s : TableState}
    (ha : afterHeader q rest = .ok (s, rest')) : parserHelper q h rest = .ok (s.result, rest') := by
  unfold parserHelper
  rw [if_pos ((isHeader_iff _ _).mpr hh), ha]

/-- a file with one table -/
theorem readTables_one {q : Query} {pre post : List Text} {h : Text} {tail : List Text} (hpre : ∀ l ∈ pre, ¬Heads q.headers l)
    (hpost : ∀ l ∈ post, ¬Heads q.headers l) {d : List (Text × Values)} (hd : (d.map (·.1)).Nodup)
    (hp : parserHelper q h tail = .ok (d, post)) : readTables q (pre ++ h :: tail) = .ok d := by
  unfold readTables
  rw [loop_other hpre (h :: tail) [] _ (by simp), List.length_append, Nat.add_sub_cancel_left, List.length_cons, readLoop, hp]
  dsimp only
  have hend : ∀ (l : List Text) (fuel : Nat) (e : List (Text × Values)), (∀ x ∈ l, ¬Heads q.headers x) → readLoop q fuel e l = .ok e := by
    intro l
    induction l with
    | nil => intro fuel e _; cases fuel <;> rfl
    | cons x l ih =>
      intro fuel e hx
      cases fuel with
      | zero => rfl
      | succ fuel =>
        rw [readLoop]
        unfold parserHelper
        rw [if_neg (by rw [isHeader_iff]; exact hx x List.mem_cons_self)]
        exact ih fuel e fun y hy => hx y (List.mem_cons_of_mem _ hy)
  rw [hend post _ _ hpost, updateAll_fresh [] d hd (fun _ _ hm => nomatch hm), List.nil_append]

theorem oneTable_read {q : Query} (hi : q.info = []) (ha : q.attrs.Nodup) {content cols : List Text} {rows : List (List Text)}
    (h : OneTable q.headers content cols rows) (hs : ∀ r ∈ rows, '*' ∉ keyOf r) :
    ∃ d, readTables q content = .ok d ∧ d.map (·.1) = starred [] (rows.map keyOf) ∧ List.Forall₂ (HasCells q.attrs cols) rows d := by
  obtain ⟨pre, hd, f, lines, blank, post, rfl, hpre, hh, hf, hl, hb, hpost⟩ := h
  obtain ⟨new, h1, h2, h3⟩ := starred_rows (more := q.more) ha hf hl [] [] (blank :: post) rfl (fun _ hm => nomatch hm) hs
  rw [List.nil_append, List.nil_append] at h2
  refine ⟨new, readTables_one hpre hpost ?_ (helper_header hh
    (s := { attrs := q.attrs, mapping := mappingOf q.attrs f, more := q.more, result := new }) ?_), h2, h1⟩
  · rw [h2]
    exact starred_nodup (by
      intro x hx
      obtain ⟨r, hr, rfl⟩ := List.mem_map.mp hx
      exact hs r hr) []
  · rw [after_format_more hf (by simp), hi, h3, tableRows, if_neg (by omega), List.nil_append]

theorem endTable_read {q : Query} (hi : q.info = []) (ha : q.attrs.Nodup) {content cols : List Text} {rows : List (List Text)}
    (h : EndTable q.headers content cols rows) (hs : ∀ r ∈ rows, '*' ∉ keyOf r) :
    ∃ d, readTables q content = .ok d ∧ d.map (·.1) = starred [] (rows.map keyOf) ∧ List.Forall₂ (HasCells q.attrs cols) rows d := by
  obtain ⟨hne, pre, hd, f, lines, rfl, hpre, hh, hf, hl⟩ := h
  obtain ⟨new, h1, h2, h3⟩ := starred_rows (more := q.more) ha hf hl [] [] [] rfl (fun _ hm => nomatch hm) hs
  rw [List.nil_append, List.nil_append] at h2
  refine ⟨new, readTables_one (post := []) hpre (fun _ hm => nomatch hm) ?_ (helper_header hh
    (s := { attrs := q.attrs, mapping := mappingOf q.attrs f, more := q.more, result := new }) ?_), h2, h1⟩
  · rw [h2]
    exact starred_nodup (by
      intro x hx
      obtain ⟨r, hr, rfl⟩ := List.mem_map.mp hx
      exact hs r hr) []
  · have hlne : lines ≠ [] := by
      rintro rfl
      cases hl
      exact hne rfl
    rw [List.append_nil] at h3
    rw [after_format_more hf hlne, hi, h3, tableRows, List.nil_append]

end Ditto.Cyme
