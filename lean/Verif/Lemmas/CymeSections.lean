import Verif.Spec.CymeSections
import Verif.Lemmas.CymeTable

namespace Ditto.Cyme
open Ditto Glm Cyme.Spec

/-- the name of a column -/
def colName (c : Text) : Text := Net.pyStrip (lower c)

theorem lower_blank (c : Char) : c.toLower.isWhitespace = c.isWhitespace := by
  by_cases h : c.toLower = c
  · rw [h]
  · have hu : 65 ≤ c.val.toNat ∧ c.val.toNat ≤ 90 := by
      unfold Char.toLower at h
      split at h
      · rename_i hc; exact ⟨hc.1, hc.2⟩
      · exact absurd rfl h
    have h2 : c.toLower.val.toNat = c.val.toNat + 32 := by
      unfold Char.toLower
      rw [dif_pos ⟨hu.1, hu.2⟩]
      change (c.val + 32).toNat = _
      rw [UInt32.toNat_add]
      exact Nat.mod_eq_of_lt (by change c.val.toNat + 32 < 2 ^ 32; omega)
    have hw : ∀ d : Char, 65 ≤ d.val.toNat → d.isWhitespace = false := by
      intro d hd
      unfold Char.isWhitespace
      have hne : ∀ e : Char, e.val.toNat < 65 → d ≠ e := by rintro e he rfl; omega
      simp only [decide_eq_false_iff_not.mpr (hne ' ' (by decide)), decide_eq_false_iff_not.mpr (hne '\t' (by decide)),
        decide_eq_false_iff_not.mpr (hne '\r' (by decide)), decide_eq_false_iff_not.mpr (hne '\n' (by decide)), Bool.or_false]
    rw [hw _ (by omega), hw _ hu.1]

theorem dropWhile_lower (t : Text) : (lower t).dropWhile Char.isWhitespace = lower (t.dropWhile Char.isWhitespace) := by
  induction t with
  | nil => rfl
  | cons c t ih =>
    change (c.toLower :: lower t).dropWhile _ = _
    rw [List.dropWhile_cons, List.dropWhile_cons, lower_blank]
    split
    · exact ih
    · rfl

theorem lower_strip (t : Text) : lower (Net.pyStrip t) = Net.pyStrip (lower t) := by
  unfold Net.pyStrip
  rw [dropWhile_lower]
  have hr : ∀ u : Text, lower u.reverse = (lower u).reverse := fun u => List.map_reverse ..
  rw [hr, ← dropWhile_lower, hr]

theorem lower_append (a b : Text) : lower (a ++ b) = lower a ++ lower b := List.map_append ..

theorem colName_eol {e : Text} (he : Eol e) (c : Text) : colName (c ++ e) = colName c := by
  unfold colName
  rw [lower_append, lower_eol he]
  exact strip_blank (eol_blank he) _

theorem strip_idem (t : Text) : Net.pyStrip (Net.pyStrip t) = Net.pyStrip t := by
  obtain ⟨a, b, ha, hb, ht⟩ := strip_parts t
  have h1 : ∀ u : Text, (∀ c, u.head? = some c → c.isWhitespace = false) → u.dropWhile Char.isWhitespace = u := by
    intro u hu
    cases u with
    | nil => rfl
    | cons c u => rw [List.dropWhile_cons, if_neg (by rw [hu c rfl]; decide)]
  change (((Net.pyStrip t).dropWhile Char.isWhitespace).reverse.dropWhile Char.isWhitespace).reverse = _
  rw [h1 (Net.pyStrip t) fun c hc => strip_head hc, h1 (Net.pyStrip t).reverse fun c hc => strip_last (by rw [List.head?_reverse] at hc; exact hc), List.reverse_reverse]

/-! ### `word=a,b,c` -/

theorem join_plain {cells : List Text} (h : ∀ c ∈ cells, '=' ∉ c) : '=' ∉ joinCells cells := by
  induction cells with
  | nil => exact List.not_mem_nil
  | cons c cs ih =>
    cases cs with
    | nil => exact h c List.mem_cons_self
    | cons d cs =>
      change '=' ∉ c ++ ',' :: joinCells (d :: cs)
      rw [List.mem_append, List.mem_cons, not_or, not_or]
      exact ⟨h c List.mem_cons_self, by decide, ih fun x hx => h x (List.mem_cons_of_mem _ hx)⟩

theorem assigns_after {line word : Text} {cells : List Text} (h : Assigns line word cells) :
    ∃ e, Eol e ∧ afterEquality line = .ok (joinCells cells ++ e) ∧ Net.splitCh ',' (joinCells cells ++ e) = endCells cells e := by
  obtain ⟨hne, hc, hw, e, he, rfl⟩ := h
  refine ⟨e, he, ?_, split_cells hne (fun c hc' => (hc c hc').1) (eol_plain he).1⟩
  unfold afterEquality
  rw [Net.splitCh_append hw, Net.splitCh_not_mem]
  rw [List.mem_append, not_or]
  exact ⟨join_plain fun c hc' => (hc c hc').2.1, (eol_plain he).2⟩

theorem assigns_columns {line word : Text} {cols : List Text} (h : Assigns line word cols) : sectionColumns line = .ok (cols.map colName) := by
  obtain ⟨e, he, h1, h2⟩ := assigns_after h
  unfold sectionColumns
  rw [h1]
  dsimp only
  rw [h2]
  congr 1
  exact endCells_map cols fun c _ => colName_eol he c

theorem assigns_prefix {line word : Text} {cells : List Text} (h : Assigns line word cells) : ∃ t, line = (word ++ ['=']) ++ t := by
  obtain ⟨_, _, _, e, _, rfl⟩ := h
  exact ⟨joinCells cells ++ e, by simp⟩

/-! ### values by names -/

theorem updateAll_get_other {V : Type} (d e : List (Text × V)) {k : Text} (h : k ∉ e.map (·.1)) : getEntry k (updateAll d e) = getEntry k d := by
  unfold updateAll
  induction e generalizing d with
  | nil => rfl
  | cons p e ih =>
    rw [List.map_cons, List.mem_cons, not_or] at h
    rw [List.foldl_cons, ih _ h.2, getEntry_setEntry, if_neg h.1]

theorem updateAll_get_last {V : Type} (d pre post : List (Text × V)) {k : Text} {v : V} (h : k ∉ post.map (·.1)) :
    getEntry k (updateAll d (pre ++ (k, v) :: post)) = some v := by
  unfold updateAll
  rw [List.foldl_append, List.foldl_cons]
  have := updateAll_get_other (setEntry k v (pre.foldl (fun d p => setEntry p.1 p.2 d) d)) post h
  unfold updateAll at this
  rw [this, getEntry_setEntry, if_pos rfl]

theorem zip_keys {a b : List Text} (h : a.length ≤ b.length) : (a.zip b).map (·.1) = a := List.map_fst_zip h

theorem record_none {names data : List Text} (hl : names.length = data.length) {k : Text} (h : k ∉ names) : getEntry k (record names data) = none := by
  unfold record
  rw [updateAll_get_other]; · rfl
  rw [zip_keys (by omega)]; exact h

theorem record_some {names data : List Text} (hl : names.length = data.length) {k x : Text} {i : Nat} (hi : names[i]? = some k)
    (hlast : ∀ j, i < j → names[j]? ≠ some k) (hx : data[i]? = some x) : getEntry k (record names data) = some x := by
  unfold record
  obtain ⟨hi', hik⟩ := List.getElem?_eq_some_iff.mp hi
  obtain ⟨hx', hxk⟩ := List.getElem?_eq_some_iff.mp hx
  have hz : i < (names.zip data).length := by rw [List.length_zip]; omega
  have hsplit : names.zip data = (names.zip data).take i ++ (k, x) :: (names.zip data).drop (i + 1) := by
    have := (List.take_append_drop i (names.zip data)).symm
    rw [List.drop_eq_getElem_cons hz, List.getElem_zip, hik, hxk] at this
    exact this
  rw [hsplit]
  refine updateAll_get_last _ _ _ ?_
  intro hm
  rw [List.map_drop, zip_keys (by omega)] at hm
  obtain ⟨n, hn⟩ := List.mem_iff_getElem?.mp hm
  rw [List.getElem?_drop] at hn
  exact hlast _ (by omega) hn

theorem record_mem {names data : List Text} (hl : names.length = data.length) {k x : Text} (h : getEntry k (record names data) = some x) : x ∈ data := by
  by_cases hk : k ∈ names
  · obtain ⟨i, h1, h2⟩ := last_column hk
    obtain ⟨hi, -⟩ := List.getElem?_eq_some_iff.mp h1
    have hd : data[i]? = some (data[i]'(by omega)) := List.getElem?_eq_getElem (by omega)
    rw [record_some hl h1 h2 hd] at h
    injection h with h
    rw [← h]
    exact List.getElem_mem _
  · rw [record_none hl hk] at h; cases h

theorem namedColumn_iff (cols : List Text) (k : Text) (i : Nat) :
    NamedColumn cols k i ↔ (cols.map colName)[i]? = some k ∧ ∀ j, i < j → (cols.map colName)[j]? ≠ some k := by
  unfold NamedColumn
  simp only [List.getElem?_map]
  rfl

theorem described_record {cols row data : List Text} (hl : row.length = cols.length) (hd : data.map Net.pyStrip = row.map Net.pyStrip) :
    Described cols row (record (cols.map colName) data) := by
  have hlen : data.length = row.length := by have := congrArg List.length hd; simpa using this
  have hcl : (cols.map colName).length = data.length := by rw [List.length_map]; omega
  have hcell : ∀ i : Nat, (data[i]?).map Net.pyStrip = (row[i]?).map Net.pyStrip := by
    intro i; rw [← List.getElem?_map, ← List.getElem?_map, hd]
  intro k
  by_cases hk : k ∈ cols.map colName
  · obtain ⟨i, h1, h2⟩ := last_column hk
    have hi : i < cols.length := by
      obtain ⟨h, -⟩ := List.getElem?_eq_some_iff.mp h1; simpa using h
    have hr : row[i]? = some (row[i]'(by omega)) := List.getElem?_eq_getElem (by omega)
    have hdd : data[i]? = some (data[i]'(by omega)) := List.getElem?_eq_getElem (by omega)
    have hs : Same (data[i]'(by omega)) (row[i]'(by omega)) := by
      have := hcell i; rw [hr, hdd] at this; injection this
    have hg := record_some hcl h1 h2 hdd
    refine ⟨fun x hx => ⟨row[i]'(by omega), ⟨i, (namedColumn_iff _ _ _).mpr ⟨h1, h2⟩, hr⟩, ?_⟩, ?_⟩
    · rw [hg] at hx; injection hx with hx; rw [← hx]; exact hs
    · rintro c ⟨j, hj, hc⟩
      obtain ⟨h3, h4⟩ := (namedColumn_iff _ _ _).mp hj
      obtain rfl : j = i := by
        rcases Nat.lt_trichotomy i j with h | h | h
        exacts [absurd h3 (h2 j h), h.symm, absurd h1 (h4 i h)]
      rw [hr] at hc
      injection hc with hc
      exact ⟨_, hg, by rw [← hc]; exact hs⟩
  · refine ⟨fun x hx => absurd hx (by rw [record_none hcl hk]; exact nofun), ?_⟩
    rintro c ⟨j, hj, -⟩
    exact absurd (List.mem_iff_getElem?.mpr ⟨j, ((namedColumn_iff _ _ _).mp hj).1⟩) hk

/-- the identification that is found -/
theorem columnValue_id {cols row data : List Text} {k : Text} (hc : Columns cols k) (hl : row.length = cols.length)
    (hd : data.map Net.pyStrip = row.map Net.pyStrip) :
    ∃ x c, columnValue (cols.map colName) data k = .ok x ∧ Value cols row k c ∧ Same x c := by
  have hlen : data.length = row.length := by have := congrArg List.length hd; simpa using this
  have hmem : k ∈ cols.map colName := hc.2
  obtain ⟨i, h1, h2⟩ := last_column hmem
  obtain ⟨hi, hik⟩ := List.getElem?_eq_some_iff.mp h1
  have hi' : i < cols.length := by simpa using hi
  have hidx : (cols.map colName).idxOf? k = some i := by
    rw [List.idxOf?_eq_some_iff]
    refine ⟨hi, hik, fun j hj he => ?_⟩
    have := (List.Nodup.getElem_inj_iff (show (cols.map colName).Nodup from hc.1) (hi := by omega) (hj := hi)).mp (he.trans hik.symm)
    omega
  unfold columnValue
  rw [hidx]
  dsimp only
  have hr : row[i]? = some (row[i]'(by omega)) := List.getElem?_eq_getElem (by omega)
  have hdd : data[i]? = some (data[i]'(by omega)) := List.getElem?_eq_getElem (by omega)
  have hs : Same (data[i]'(by omega)) (row[i]'(by omega)) := by
    have : (data[i]?).map Net.pyStrip = (row[i]?).map Net.pyStrip := by rw [← List.getElem?_map, ← List.getElem?_map, hd]
    rw [hr, hdd] at this; injection this
  rw [hdd]
  exact ⟨_, _, rfl, ⟨i, (namedColumn_iff _ _ _).mpr ⟨h1, h2⟩, hr⟩, hs⟩

theorem value_unique {cols row : List Text} {k c c' : Text} (h : Value cols row k c) (h' : Value cols row k c') : c = c' := by
  obtain ⟨i, hi, hc⟩ := h
  obtain ⟨j, hj, hc'⟩ := h'
  obtain rfl : j = i := by
    rcases Nat.lt_trichotomy i j with h | h | h
    exacts [absurd hj.1 (hi.2 j h), h.symm, absurd hi.1 (hj.2 i h)]
  rw [hc] at hc'
  injection hc'

theorem identifies_unique {cols row : List Text} {k a b : Text} (h : Identifies cols row k a) (h' : Identifies cols row k b) : a = b := by
  obtain ⟨c, hc, rfl⟩ := h
  obtain ⟨d, hd, rfl⟩ := h'
  rw [value_unique hc hd]

theorem forall₂_split {A B : Type} {R : A → B → Prop} {a b : List A} {l : List B} (h : List.Forall₂ R (a ++ b) l) :
    ∃ l1 l2, l = l1 ++ l2 ∧ List.Forall₂ R a l1 ∧ List.Forall₂ R b l2 := by
  induction a generalizing l with
  | nil => exact ⟨[], l, rfl, .nil, h⟩
  | cons x a ih =>
    cases h with
    | cons hx hr =>
      obtain ⟨l1, l2, rfl, h1, h2⟩ := ih hr
      exact ⟨_ :: l1, l2, rfl, .cons hx h1, h2⟩

theorem forall₂_left {A B : Type} {R : A → B → Prop} {a : List A} {l : List B} (h : List.Forall₂ R a l) {y : B} (hy : y ∈ l) : ∃ x ∈ a, R x y := by
  induction h with
  | nil => cases hy
  | cons hx _ ih =>
    rcases List.mem_cons.mp hy with rfl | hy
    · exact ⟨_, List.mem_cons_self, hx⟩
    · obtain ⟨x, hm, hr⟩ := ih hy
      exact ⟨x, List.mem_cons_of_mem _ hm, hr⟩

end Ditto.Cyme
