import Verif.Lemmas.GlmParse

/-! C71: objects of GridLAB-D files. -/
namespace Ditto.Glm
open Ditto Glm.Spec

/-! ### single rows -/

/-- the variables outside of schedules -/
def stOf (D : List (Text × GldObj)) (c : Option GldObj) (b : Bool) : GState := { objects := D, current := c, nested := b }

theorem comment_row {schema : Schema} {due : List Text → Py Bool} {row w : Text} {ws : List Text} (h : Splits row (w :: ws)) (hw : Comment w)
    (s : GState) : rowStep schema due s row = .ok s := by
  unfold rowStep
  rw [if_pos ((comment_iff (words_splits h)).mpr hw)]

theorem row_words {schema : Schema} {due : List Text → Py Bool} {row w : Text} {ws : List Text} (h : Splits row (w :: ws)) (hw : ¬Comment w)
    (s : GState) : rowStep schema due s row =
      if w = "object".toList then objectRow schema s ws else if w = "schedule".toList then scheduleRow s ws
      else otherRow schema due s (Net.pyStrip row) := by
  unfold rowStep
  rw [if_neg (fun he => hw ((comment_iff (words_splits h)).mp he))]
  unfold byWord
  rw [words_strip, words_splits h]

theorem other_none {schema : Schema} {due : List Text → Py Bool} (D : List (Text × GldObj)) (b : Bool) (row : Text) :
    otherRow schema due (stOf D none b) row = .ok (stOf D none b) := rfl

theorem other_some {schema : Schema} {due : List Text → Py Bool} (D : List (Text × GldObj)) (o : GldObj) (b : Bool) (row : Text) :
    otherRow schema due (stOf D (some o) b) row =
      match takeAttr schema o (words row) with
      | .error e => .error e
      | .ok o' => if closes row then closeObject schema (stOf D (some o) b) o' else .ok (stOf D (some o') b) := by
  unfold otherRow objectPart insideObject
  dsimp only [stOf]
  cases takeAttr schema o (words row) with
  | error e => rfl
  | ok o' =>
    dsimp only
    by_cases hc : closes row = true
    · rw [if_pos hc]
      unfold closeObject
      dsimp only
      cases b with
      | true => rfl
      | false =>
        simp only [Bool.false_eq_true, if_false]
        cases named schema o' <;> rfl
    · rw [if_neg hc]; rfl

theorem empty_row {schema : Schema} {due : List Text → Py Bool} {row : Text} (h : Empty row) (D : List (Text × GldObj)) (c : Option GldObj)
    (b : Bool) : rowStep schema due (stOf D c b) row = .ok (stOf D c b) := by
  rcases h with h | ⟨w, ws, h, hw⟩
  · have hw := words_splits h
    have hs := words_nil_strip hw
    unfold rowStep byWord
    rw [hs]
    change otherRow schema due (stOf D c b) [] = _
    cases c with
    | none => rfl
    | some o => rw [other_some]; rfl
  · exact comment_row h hw _

/-- a row with two or more words inside of an object -/
theorem taken_row {schema : Schema} {due : List Text → Py Bool} {row n w : Text} {rest : List Text} (h : Splits row (n :: w :: rest))
    (hn : Plain n) (hl : ∀ x, (w :: rest).getLast? = some x → ¬EndsBlock x) (D : List (Text × GldObj)) (o : GldObj) (b : Bool) :
    rowStep schema due (stOf D (some o) b) row = (setAttr schema o n (noSemicolon w)).map fun o' => stOf D (some o') b := by
  have hcl : closes (Net.pyStrip row) = false := by
    cases hg : (w :: rest).getLast? with
    | none => simp at hg
    | some x =>
      have h1 : (words row).getLast? = some x := by rw [words_splits h, List.getLast?_cons_cons]; exact hg
      cases hc : closes (Net.pyStrip row) with
      | false => rfl
      | true => exact absurd ((closes_iff h1).mp hc) (hl x hg)
  rw [row_words h hn.2.2, if_neg hn.1, if_neg hn.2.1, other_some, words_strip, words_splits h]
  change (match setAttr schema o n (noSemicolon w) with | .error e => _ | .ok o' => _) = _
  cases setAttr schema o n (noSemicolon w) with
  | error e => rfl
  | ok o' =>
    dsimp only
    rw [hcl]; rfl

theorem noSemicolon_snoc (v : Text) : noSemicolon (v ++ [';']) = v := by
  unfold noSemicolon
  rw [List.getLast?_concat, if_pos rfl, List.dropLast_concat]

theorem statement_row {schema : Schema} {due : List Text → Py Bool} {row n v : Text} (h : Statement row n v) (D : List (Text × GldObj))
    (o : GldObj) (b : Bool) : rowStep schema due (stOf D (some o) b) row = (setAttr schema o n v).map fun o' => stOf D (some o') b := by
  obtain ⟨rest, h1, h2, -, h3⟩ := h
  rw [taken_row h1 h2 h3, noSemicolon_snoc]

theorem outside_row {schema : Schema} {due : List Text → Py Bool} {row : Text} (h : Outside row) (D : List (Text × GldObj)) (b : Bool) :
    rowStep schema due (stOf D none b) row = .ok (stOf D none b) := by
  rcases h with h | ⟨w, ws, h, hw⟩
  · exact empty_row h D none b
  · rw [row_words h hw.2.2, if_neg hw.1, if_neg hw.2.1, other_none]

theorem statement_outside {row n v : Text} (h : Statement row n v) : Outside row := by
  obtain ⟨rest, h1, h2, -⟩ := h
  exact Or.inr ⟨n, _, h1, h2⟩

theorem end_word {row : Text} (h : End row) : ∃ w, Splits row [w] ∧ Plain w ∧ EndsBlock w := by
  rcases h with h | h
  · exact ⟨_, h, ⟨by decide, by decide, by unfold Comment; decide⟩, Or.inl (List.suffix_refl _)⟩
  · exact ⟨_, h, ⟨by decide, by decide, by unfold Comment; decide⟩, Or.inr (List.suffix_refl _)⟩

theorem end_outside {row : Text} (h : End row) : Outside row := by
  obtain ⟨w, h1, h2, -⟩ := end_word h
  exact Or.inr ⟨w, _, h1, h2⟩

theorem end_row {schema : Schema} {due : List Text → Py Bool} {row : Text} (h : End row) (D : List (Text × GldObj)) (o : GldObj) (b : Bool) :
    rowStep schema due (stOf D (some o) b) row =
      if b then .ok (stOf D (some o) false) else (named schema o).map fun p => stOf (setEntry p.1 p.2 D) none false := by
  obtain ⟨w, h1, h2, h3⟩ := end_word h
  have hw := words_splits h1
  have hcl : closes (Net.pyStrip row) = true := (closes_iff (by rw [hw]; rfl)).mpr h3
  rw [row_words h1 h2.2.2, if_neg h2.1, if_neg h2.2.1, other_some, words_strip, hw]
  change (if closes (Net.pyStrip row) = true then closeObject schema (stOf D (some o) b) o else _) = _
  rw [if_pos hcl]
  unfold closeObject
  cases b with
  | true => rfl
  | false =>
    dsimp only [stOf]
    simp only [Bool.false_eq_true, if_false]
    cases named schema o with
    | error e => rfl
    | ok p => rfl

theorem object_comment : ¬Comment "object".toList := by unfold Comment; decide

theorem header_row {schema : Schema} {due : List Text → Py Bool} {row word : Text} {rest : List Text}
    (h : Splits row ("object".toList :: word :: rest)) (D : List (Text × GldObj)) :
    rowStep schema due (stOf D none false) row = (newObject schema word).map fun o => stOf D o false := by
  rw [row_words h object_comment, if_pos rfl]
  unfold objectRow
  change (match newObject schema word with | .error e => _ | .ok o => _) = _
  cases newObject schema word with
  | error e => rfl
  | ok o => rfl

theorem header_nested {schema : Schema} {due : List Text → Py Bool} {row : Text} {rest : List Text}
    (h : Splits row ("object".toList :: rest)) (D : List (Text × GldObj)) (o : GldObj) (b : Bool) :
    rowStep schema due (stOf D (some o) b) row = .ok (stOf D (some o) true) := by
  rw [row_words h object_comment, if_pos rfl]
  rfl

/-! ### objects -/

theorem readRows_cons (schema : Schema) (due : List Text → Py Bool) (s : GState) (row : Text) (rows : List Text) :
    readRows schema due s (row :: rows) = (rowStep schema due s row).bind fun s' => readRows schema due s' rows := by
  unfold readRows
  rw [List.foldlM_cons]
  rfl

theorem readRows_append (schema : Schema) (due : List Text → Py Bool) (s : GState) (a b : List Text) :
    readRows schema due s (a ++ b) = (readRows schema due s a).bind fun s' => readRows schema due s' b := by
  unfold readRows
  rw [List.foldlM_append]
  rfl

/-- all statements, one after the other -/
def applyAll (attrs l : List (Text × Text)) : List (Text × Text) := l.foldl (fun a p => setEntry p.1 p.2 a) attrs

theorem applyAll_get (l : List (Text × Text)) : ∀ (attrs : List (Text × Text)) (k : Text),
    getEntry k (applyAll attrs l) = (lastValue l k).or (getEntry k attrs) := by
  induction l with
  | nil => intro attrs k; rfl
  | cons p l ih =>
    intro attrs k
    have h : applyAll attrs (p :: l) = applyAll (setEntry p.1 p.2 attrs) l := rfl
    rw [h, ih, getEntry_setEntry]
    unfold lastValue
    rw [List.reverse_cons, List.find?_append]
    cases hf : l.reverse.find? fun q => decide (q.1 = k) with
    | some q => rfl
    | none =>
      by_cases hk : p.1 = k
      · rw [if_pos hk.symm, List.find?_cons_of_pos (by simpa using hk)]; rfl
      · rw [if_neg (fun e => hk e.symm), List.find?_cons_of_neg (by simpa using hk)]; rfl

theorem body_rows {schema : Schema} {due : List Text → Py Bool} {rows : List Text} {l : List (Text × Text)} (h : Body rows l)
    (D : List (Text × GldObj)) (b : Bool) {ps : List Text} : ∀ o : GldObj, schema o.cls = some ps → (∀ p ∈ l, p.1 ∈ ps) →
    readRows schema due (stOf D (some o) b) rows = .ok (stOf D (some { o with attrs := applyAll o.attrs l }) b) := by
  induction h with
  | nil => intro o _ _; rfl
  | blank he _ ih =>
    intro o ho hl
    rw [readRows_cons, empty_row he]
    exact ih o ho hl
  | @statement row n v rows l hst _ ih =>
    intro o ho hl
    have hset : setAttr schema o n v = .ok { o with attrs := setEntry n v o.attrs } := by
      unfold setAttr
      rw [ho]
      dsimp only
      rw [if_pos (hl (n, v) List.mem_cons_self)]
    rw [readRows_cons, statement_row hst, hset]
    exact ih { o with attrs := setEntry n v o.attrs } ho fun p hp => hl p (List.mem_cons_of_mem _ hp)

/-- the rows of an object that is left out -/
theorem body_outside {schema : Schema} {due : List Text → Py Bool} {rows : List Text} {l : List (Text × Text)} (h : Body rows l)
    (D : List (Text × GldObj)) (b : Bool) : readRows schema due (stOf D none b) rows = .ok (stOf D none b) := by
  induction h with
  | nil => rfl
  | blank he _ ih => rw [readRows_cons, empty_row he]; exact ih
  | statement hst _ ih => rw [readRows_cons, outside_row (statement_outside hst)]; exact ih

/-- the attributes after the first row -/
def headAttrs (d : Decl) : List (Text × Text) :=
  match d.num with
  | none => []
  | some i => [("name".toList, d.cls ++ ':' :: i)]

theorem header_new {schema : Schema} {row : Text} {d : Decl} (h : Header row d) : ∃ word rest, Splits row ("object".toList :: word :: rest) ∧
    (d.cls ∈ leftOut → newObject schema word = .ok none) ∧
    ∀ ps, d.cls ∉ leftOut → schema d.cls = some ps → "name".toList ∈ ps → newObject schema word = .ok (some { cls := d.cls, attrs := headAttrs d }) := by
  obtain ⟨cls, num, st⟩ := d
  obtain ⟨hc, h⟩ := h
  dsimp only at *
  cases num with
  | none =>
    obtain ⟨rest, h⟩ := h
    refine ⟨cls, rest, h, ?_, ?_⟩
    · intro hs
      unfold newObject
      rw [Net.splitCh_not_mem hc]
      exact if_pos hs
    · intro ps hs hp _
      unfold newObject
      rw [Net.splitCh_not_mem hc]
      dsimp only
      rw [if_neg (show cls ∉ skipped from hs), hp]
      rfl
  | some i =>
    obtain ⟨hi, rest, h⟩ := h
    refine ⟨_, rest, h, ?_, ?_⟩
    · intro hs
      unfold newObject
      rw [Net.splitCh_append hc]
      exact if_pos hs
    · intro ps hs hp hn
      unfold newObject
      rw [Net.splitCh_append hc, Net.splitCh_not_mem hi]
      dsimp only
      rw [if_neg (show cls ∉ skipped from hs), hp]
      dsimp only
      unfold setAttr
      dsimp only
      rw [hp]
      dsimp only
      rw [if_pos hn]
      rfl

/-- the object at the end of its rows -/
def wholeOf (d : Decl) : GldObj := { cls := d.cls, attrs := applyAll (headAttrs d) d.statements }

theorem headAttrs_get (d : Decl) (k : Text) : getEntry k (headAttrs d) =
    if k = "name".toList then d.num.map fun i => d.cls ++ ':' :: i else none := by
  unfold headAttrs
  cases d.num with
  | none => dsimp only; split <;> rfl
  | some i =>
    dsimp only
    rw [getEntry]
    by_cases h : k = "name".toList
    · rw [if_pos h, if_pos h.symm]; rfl
    · rw [if_neg h, if_neg (fun e => h e.symm)]; rfl

theorem wholeOf_get (d : Decl) (k : Text) : getEntry k (wholeOf d).attrs =
    (lastValue d.statements k).or (if k = "name".toList then d.num.map fun i => d.cls ++ ':' :: i else none) := by
  unfold wholeOf
  rw [applyAll_get, headAttrs_get]

/-- the name at the end of an object -/
theorem named_whole {schema : Schema} {d : Decl} {ps : List Text} (hs : schema d.cls = some ps) (hp : "name".toList ∈ ps) :
    match nameOf d with
    | some n => ∃ o, named schema (wholeOf d) = .ok (n, o) ∧ Stored o d
    | none => named schema (wholeOf d) = .error .attributeError := by
  have hst : ∀ o : GldObj, o.cls = d.cls → (∀ k, getEntry k o.attrs = attrOf d k) → Stored o d := by
    intro o h1 h2
    exact ⟨h1, fun k => by rw [← getEntry_find]; exact h2 k⟩
  have hn := wholeOf_get d "name".toList
  rw [if_pos rfl] at hn
  have hf := wholeOf_get d "from".toList
  rw [if_neg (by decide), Option.or_none] at hf
  have ht := wholeOf_get d "to".toList
  rw [if_neg (by decide), Option.or_none] at ht
  -- with a name
  have hname : ∀ n, nameOf d = some n → getEntry "name".toList (wholeOf d).attrs = some n →
      ∃ o, named schema (wholeOf d) = .ok (n, o) ∧ Stored o d := by
    intro n h1 h2
    refine ⟨wholeOf d, ?_, hst _ rfl ?_⟩
    · unfold named getAttr; rw [h2]
    · intro k
      unfold attrOf
      by_cases hk : k = "name".toList
      · rw [if_pos hk, h1, hk, h2]
      · rw [if_neg hk, wholeOf_get, if_neg hk, Option.or_none]
  cases hv : lastValue d.statements "name".toList with
  | some n =>
    have h1 : nameOf d = some n := by unfold nameOf; rw [hv]
    rw [h1]
    exact hname n h1 (by rw [hn, hv]; rfl)
  | none =>
    cases hi : d.num with
    | some i =>
      have h1 : nameOf d = some (d.cls ++ ':' :: i) := by unfold nameOf; rw [hv, hi]
      rw [h1]
      exact hname _ h1 (by rw [hn, hv, hi]; rfl)
    | none =>
      have hno : getAttr (wholeOf d) "name".toList = .error .attributeError := by
        unfold getAttr; rw [hn, hv, hi]; rfl
      have hnm : named schema (wholeOf d) = nameFromEnds schema (wholeOf d) := by unfold named; rw [hno]
      have hga : ∀ k v, getEntry k (wholeOf d).attrs = some v → getAttr (wholeOf d) k = .ok v := by
        intro k v h; unfold getAttr; rw [h]
      have hgn : ∀ k, getEntry k (wholeOf d).attrs = none → getAttr (wholeOf d) k = .error .attributeError := by
        intro k h; unfold getAttr; rw [h]
      cases hvf : lastValue d.statements "from".toList with
      | none =>
        have h1 : nameOf d = none := by unfold nameOf; rw [hv, hi, hvf]
        rw [h1, hnm]
        unfold nameFromEnds
        rw [hgn _ (by rw [hf, hvf])]
      | some f =>
        cases hvt : lastValue d.statements "to".toList with
        | none =>
          have h1 : nameOf d = none := by unfold nameOf; rw [hv, hi, hvf, hvt]
          rw [h1, hnm]
          unfold nameFromEnds
          rw [hga _ f (by rw [hf, hvf]), hgn _ (by rw [ht, hvt])]
        | some t =>
          have h1 : nameOf d = some (f ++ '-' :: t) := by unfold nameOf; rw [hv, hi, hvf, hvt]
          rw [h1, hnm]
          refine ⟨{ wholeOf d with attrs := setEntry "name".toList (f ++ '-' :: t) (wholeOf d).attrs }, ?_, hst _ rfl ?_⟩
          · unfold nameFromEnds
            rw [hga _ f (by rw [hf, hvf]), hga _ t (by rw [ht, hvt])]
            dsimp only
            unfold setAttr
            have : schema (wholeOf d).cls = some ps := hs
            rw [this]
            dsimp only
            rw [if_pos hp]
            rfl
          · intro k
            dsimp only
            rw [getEntry_setEntry]
            unfold attrOf
            by_cases hk : k = "name".toList
            · rw [if_pos hk, if_pos hk, h1]
            · rw [if_neg hk, if_neg hk, wholeOf_get, if_neg hk, Option.or_none]

/-- the rows of an object -/
theorem block_rows {schema : Schema} {due : List Text → Py Bool} {rows : List Text} {d : Decl} (h : Block rows d) (hl : d.cls ∉ leftOut)
    {ps : List Text} (hs : schema d.cls = some ps) (hp : "name".toList ∈ ps) (hst : ∀ p ∈ d.statements, p.1 ∈ ps) (D : List (Text × GldObj)) :
    readRows schema due (stOf D none false) rows = (named schema (wholeOf d)).map fun p => stOf (setEntry p.1 p.2 D) none false := by
  obtain ⟨h, body, e, rfl, hh, hb, he⟩ := h
  obtain ⟨word, rest, h1, -, h3⟩ := header_new (schema := schema) hh
  rw [readRows_cons, header_row h1, h3 ps hl hs hp]
  change readRows schema due (stOf D (some _) false) _ = _
  rw [readRows_append, body_rows hb D false _ hs hst]
  change readRows schema due (stOf D (some (wholeOf d)) false) [e] = _
  rw [readRows_cons, end_row he]
  simp only [Bool.false_eq_true, if_false]
  cases named schema (wholeOf d) with
  | error e => rfl
  | ok p => rfl

theorem block_leftOut {schema : Schema} {due : List Text → Py Bool} {rows : List Text} {d : Decl} (h : Block rows d) (hl : d.cls ∈ leftOut)
    (D : List (Text × GldObj)) : readRows schema due (stOf D none false) rows = .ok (stOf D none false) := by
  obtain ⟨h, body, e, rfl, hh, hb, he⟩ := h
  obtain ⟨word, rest, h1, h2, -⟩ := header_new (schema := schema) hh
  rw [readRows_cons, header_row h1, h2 hl]
  change readRows schema due (stOf D none false) _ = _
  rw [readRows_append, body_outside hb]
  change readRows schema due (stOf D none false) [e] = _
  rw [readRows_cons, outside_row (end_outside he)]
  rfl

theorem lastNamed_cons (d : Decl) (ds : List Decl) (n : Text) : lastNamed (d :: ds) n =
    (lastNamed ds n).or (if d.cls ∉ leftOut ∧ nameOf d = some n then some d else none) := by
  unfold lastNamed
  rw [List.reverse_cons, List.find?_append]
  congr 1
  by_cases h : d.cls ∉ leftOut ∧ nameOf d = some n
  · rw [if_pos h, List.find?_cons_of_pos (by simp [h.1, h.2])]
  · rw [if_neg h, List.find?_cons_of_neg (by simpa using h)]; rfl

/-- all objects of a file -/
theorem lays_rows {schema : Schema} {due : List Text → Py Bool} {rows : List Text} {ds : List Decl} (h : Lays rows ds) :
    (∀ d ∈ ds, Good schema d) → ∀ D, ∃ D', readRows schema due (stOf D none false) rows = .ok (stOf D' none false) ∧ Holds D' D ds := by
  induction h with
  | nil => intro _ D; exact ⟨D, rfl, fun n => rfl⟩
  | outside ho _ ih =>
    intro hg D
    obtain ⟨D', h1, h2⟩ := ih hg D
    exact ⟨D', by rw [readRows_cons, outside_row ho]; exact h1, h2⟩
  | @block block rows d ds hb _ ih =>
    intro hg D
    have hgs := fun d' (hd' : d' ∈ ds) => hg d' (List.mem_cons_of_mem _ hd')
    rcases hg d List.mem_cons_self with hl | ⟨ps, hs, hp, hst, hn⟩
    · obtain ⟨D', h1, h2⟩ := ih hgs D
      refine ⟨D', by rw [readRows_append, block_leftOut hb hl]; exact h1, ?_⟩
      intro n
      rw [lastNamed_cons, if_neg (fun h => h.1 hl), Option.or_none]
      exact h2 n
    · by_cases hl : d.cls ∈ leftOut
      · obtain ⟨D', h1, h2⟩ := ih hgs D
        refine ⟨D', by rw [readRows_append, block_leftOut hb hl]; exact h1, ?_⟩
        intro n
        rw [lastNamed_cons, if_neg (fun h => h.1 hl), Option.or_none]
        exact h2 n
      · obtain ⟨n₀, hn₀⟩ := Option.isSome_iff_exists.mp hn
        have hnm := named_whole hs hp
        rw [hn₀] at hnm
        obtain ⟨o, ho, hstored⟩ := hnm
        obtain ⟨D', h1, h2⟩ := ih hgs (setEntry n₀ o D)
        refine ⟨D', ?_, ?_⟩
        · rw [readRows_append, block_rows hb hl hs hp hst, ho]
          exact h1
        · intro n
          have := h2 n
          rw [lastNamed_cons]
          cases hln : lastNamed ds n with
          | some d' => rw [hln] at this; exact this
          | none =>
            rw [hln] at this
            dsimp only at this
            rw [find_setEntry] at this
            by_cases hnn : n = n₀
            · rw [if_pos hnn] at this
              rw [if_pos ⟨hl, by rw [hn₀, hnn]⟩]
              exact ⟨o, by rw [this]; rfl, hstored⟩
            · rw [if_neg hnn] at this
              rw [if_neg (fun h => hnn (Option.some.inj (h.2.symm.trans hn₀)))]
              exact this

/-! ### whole files -/

theorem take_prefix {l row : Text} : row.take l.length = l ↔ l <+: row := by
  rw [List.prefix_iff_eq_take]
  exact eq_comm

theorem include_take {row : Text} : row.take 8 = "#include".toList ↔ "#include".toList <+: row := take_prefix (l := "#include".toList)

theorem noInclude {files : Text → Option (List Text)} {rows : List Text} (h : NoInclude rows) : allIncluded files rows = .ok [] := by
  induction rows with
  | nil => rfl
  | cons row rows ih =>
    have h1 : included files row = .ok [] := by
      unfold included
      rw [if_neg (fun e => h row List.mem_cons_self (include_take.mp e))]
    rw [allIncluded, h1]
    dsimp only
    rw [ih fun r hr => h r (List.mem_cons_of_mem _ hr)]
    rfl

theorem readGlm_plain {schema : Schema} {due : List Text → Py Bool} {files : Text → Option (List Text)} {before : List (Text × GldObj)}
    {rows : List Text} (h : NoInclude rows) : readGlm schema due files before rows = readRows schema due (stOf before none false) rows := by
  unfold readGlm
  rw [noInclude h]
  dsimp only
  rw [List.append_nil]
  rfl

/-- C71 (partial): reading a file whose objects are not nested, have known classes and attributes, names or two ends, and one word as
value, finds exactly these objects with their attributes. -/
theorem C71_objects_partial {schema : Schema} (due : List Text → Py Bool) (files : Text → Option (List Text)) {rows : List Text}
    {ds : List Decl} (h : Lays rows ds) (hi : NoInclude rows) (hg : ∀ d ∈ ds, Good schema d) (before : List (Text × GldObj)) :
    ∃ s, readGlm schema due files before rows = .ok s ∧ Holds s.objects before ds := by
  obtain ⟨D', h1, h2⟩ := lays_rows (due := due) h hg before
  exact ⟨_, by rw [readGlm_plain hi]; exact h1, h2⟩

/-- C71 violated: objects of a file that was read before in the same program are found again with the next file -/
theorem C71_kept_violated {schema : Schema} (due : List Text → Py Bool) (files : Text → Option (List Text)) {rows₁ rows₂ : List Text}
    {ds₁ ds₂ : List Decl} (h₁ : Lays rows₁ ds₁) (h₂ : Lays rows₂ ds₂) (hi₁ : NoInclude rows₁) (hi₂ : NoInclude rows₂)
    (hg₁ : ∀ d ∈ ds₁, Good schema d) (hg₂ : ∀ d ∈ ds₂, Good schema d) {n : Text} {d : Decl} (hd : lastNamed ds₁ n = some d)
    (hno : lastNamed ds₂ n = none) :
    ∃ s₁ s₂, readGlm schema due files [] rows₁ = .ok s₁ ∧ readGlm schema due files s₁.objects rows₂ = .ok s₂ ∧
      ∃ o, (s₂.objects.find? fun p => p.1 = n).map (·.2) = some o ∧ Stored o d := by
  obtain ⟨s₁, e₁, r₁⟩ := C71_objects_partial due files h₁ hi₁ hg₁ []
  obtain ⟨s₂, e₂, r₂⟩ := C71_objects_partial due files h₂ hi₂ hg₂ s₁.objects
  refine ⟨s₁, s₂, e₁, e₂, ?_⟩
  have h1 := r₁ n
  rw [hd] at h1
  have h2 := r₂ n
  rw [hno] at h2
  dsimp only at h2
  rw [h2]
  exact h1

/-- reading fails at an object if its rows fail after the objects before it -/
theorem fails_at {schema : Schema} (due : List Text → Py Bool) (files : Text → Option (List Text)) {pre : List Text}
    {ds : List Decl} (h : Lays pre ds) (hg : ∀ d ∈ ds, Good schema d) (before : List (Text × GldObj)) {rows rest : List Text}
    (hi : NoInclude (pre ++ rows ++ rest)) (hf : ∀ D, readRows schema due (stOf D none false) rows = .error .attributeError) :
    readGlm schema due files before (pre ++ rows ++ rest) = .error .attributeError := by
  obtain ⟨D', h1, -⟩ := lays_rows (due := due) h hg before
  rw [readGlm_plain hi, List.append_assoc, readRows_append, h1]
  change readRows schema due (stOf D' none false) _ = _
  rw [readRows_append, hf]
  rfl

/-- C71 violated: an object without name that has not two ends makes the reading fail, wherever it is -/
theorem C71_unnamed_violated {schema : Schema} (due : List Text → Py Bool) (files : Text → Option (List Text)) {pre : List Text}
    {ds : List Decl} (h : Lays pre ds) (hg : ∀ d ∈ ds, Good schema d) (before : List (Text × GldObj)) {block rest : List Text} {d : Decl}
    (hi : NoInclude (pre ++ block ++ rest)) (hb : Block block d) (hl : d.cls ∉ leftOut) {ps : List Text} (hs : schema d.cls = some ps)
    (hp : "name".toList ∈ ps) (hst : ∀ p ∈ d.statements, p.1 ∈ ps) (hn : nameOf d = none) :
    readGlm schema due files before (pre ++ block ++ rest) = .error .attributeError := by
  apply fails_at due files h hg before hi
  intro D
  rw [block_rows hb hl hs hp hst]
  have := named_whole hs hp
  rw [hn] at this
  rw [this]
  rfl

/-- C71 violated: an object of a class that is not in the schema makes the reading fail. A brace directly after the class is taken as a part
of it. -/
theorem C71_class_violated {schema : Schema} (due : List Text → Py Bool) (files : Text → Option (List Text)) {pre : List Text}
    {ds : List Decl} (h : Lays pre ds) (hg : ∀ d ∈ ds, Good schema d) (before : List (Text × GldObj)) {row cls : Text} {ws rest : List Text}
    (hi : NoInclude (pre ++ [row] ++ rest)) (hr : Splits row ("object".toList :: cls :: ws)) (hc : ':' ∉ cls) (hl : cls ∉ leftOut)
    (hs : schema cls = none) :
    readGlm schema due files before (pre ++ [row] ++ rest) = .error .attributeError := by
  apply fails_at due files h hg before hi
  intro D
  rw [readRows_cons, header_row hr]
  unfold newObject
  rw [Net.splitCh_not_mem hc]
  dsimp only
  rw [if_neg (show cls ∉ skipped from hl), hs]
  rfl

/-- an attribute that is not in the schema -/
theorem unknown_row {schema : Schema} {due : List Text → Py Bool} {row n v : Text} (hst : Statement row n v) {ps : List Text} {o : GldObj}
    (ho : schema o.cls = some ps) (hn : n ∉ ps) (D : List (Text × GldObj)) (b : Bool) (rest : List Text) :
    readRows schema due (stOf D (some o) b) (row :: rest) = .error .attributeError := by
  rw [readRows_cons, statement_row hst]
  unfold setAttr
  rw [ho]
  dsimp only
  rw [if_neg hn]
  rfl

/-- C71 violated: an attribute that is not in the schema makes the reading fail -/
theorem C71_attribute_violated {schema : Schema} (due : List Text → Py Bool) (files : Text → Option (List Text)) {pre : List Text}
    {ds : List Decl} (h : Lays pre ds) (hg : ∀ d ∈ ds, Good schema d) (before : List (Text × GldObj)) {h₀ row n v : Text}
    {body rest : List Text} {d : Decl} (hi : NoInclude (pre ++ (h₀ :: (body ++ [row])) ++ rest)) (hh : Header h₀ d) (hb : Body body d.statements)
    (hr : Statement row n v) (hl : d.cls ∉ leftOut) {ps : List Text} (hs : schema d.cls = some ps) (hp : "name".toList ∈ ps)
    (hst : ∀ p ∈ d.statements, p.1 ∈ ps) (hn : n ∉ ps) :
    readGlm schema due files before (pre ++ (h₀ :: (body ++ [row])) ++ rest) = .error .attributeError := by
  apply fails_at due files h hg before hi
  intro D
  obtain ⟨word, more, h1, -, h3⟩ := header_new (schema := schema) hh
  rw [readRows_cons, header_row h1, h3 ps hl hs hp]
  change readRows schema due (stOf D (some _) false) _ = _
  rw [readRows_append, body_rows hb D false _ hs hst]
  exact unknown_row hr hs hn D false []

/-- C71 violated: the statements of an object inside of another one are taken for the outer object, and the inner object is lost -/
theorem C71_nested_violated {schema : Schema} (due : List Text → Py Bool) (files : Text → Option (List Text)) (before : List (Text × GldObj))
    {h₀ h₁ e₁ e₀ : Text} {a b c : List Text} {inner : List Text} {d : Decl} {la lb lc : List (Text × Text)} (hh : Header h₀ d)
    (ha : Body a la) (hin : Splits h₁ ("object".toList :: inner)) (hb : Body b lb) (he₁ : End e₁) (hc : Body c lc) (he₀ : End e₀)
    (hd : d.statements = la ++ lb ++ lc) (hi : NoInclude (h₀ :: (a ++ h₁ :: (b ++ e₁ :: (c ++ [e₀])))))
    (hg : Good schema d) (hl : d.cls ∉ leftOut) :
    ∃ s, readGlm schema due files before (h₀ :: (a ++ h₁ :: (b ++ e₁ :: (c ++ [e₀])))) = .ok s ∧ Holds s.objects before [d] := by
  rcases hg with hl' | ⟨ps, hs, hp, hst, hn⟩
  · exact absurd hl' hl
  obtain ⟨word, more, h1, -, h3⟩ := header_new (schema := schema) hh
  obtain ⟨n₀, hn₀⟩ := Option.isSome_iff_exists.mp hn
  have hnm := named_whole hs hp
  rw [hn₀] at hnm
  obtain ⟨o, ho, hstored⟩ := hnm
  rw [hd] at hst
  refine ⟨stOf (setEntry n₀ o before) none false, ?_, ?_⟩
  · rw [readGlm_plain hi, readRows_cons, header_row h1, h3 ps hl hs hp]
    change readRows schema due (stOf before (some _) false) _ = _
    rw [readRows_append, body_rows ha before false _ hs fun p hp => hst p (List.mem_append_left _ (List.mem_append_left _ hp))]
    change readRows schema due (stOf before (some _) false) _ = _
    rw [readRows_cons, header_nested hin]
    change readRows schema due (stOf before (some _) true) _ = _
    rw [readRows_append, body_rows hb before true { cls := d.cls, attrs := applyAll (headAttrs d) la } hs
      fun p hp => hst p (List.mem_append_left _ (List.mem_append_right _ hp))]
    change readRows schema due (stOf before (some _) true) _ = _
    rw [readRows_cons, end_row he₁, if_pos rfl]
    change readRows schema due (stOf before (some _) false) _ = _
    rw [readRows_append, body_rows hc before false { cls := d.cls, attrs := applyAll (applyAll (headAttrs d) la) lb } hs
      fun p hp => hst p (List.mem_append_right _ hp)]
    have hw : ({ cls := d.cls, attrs := applyAll (applyAll (applyAll (headAttrs d) la) lb) lc } : GldObj) = wholeOf d := by
      unfold wholeOf applyAll
      rw [hd, List.foldl_append, List.foldl_append]
    change readRows schema due (stOf before (some ({ cls := d.cls, attrs := _ } : GldObj)) false) [e₀] = _
    rw [hw, readRows_cons, end_row he₀, ho]
    rfl
  · intro n
    rw [lastNamed_cons]
    change match ((none : Option Decl).or _) with | some d' => _ | none => _
    rw [Option.none_or]
    by_cases hnn : n = n₀
    · rw [if_pos ⟨hl, by rw [hn₀, hnn]⟩]
      refine ⟨o, ?_, hstored⟩
      change ((setEntry n₀ o before).find? _).map _ = _
      rw [find_setEntry, if_pos hnn]
      rfl
    · rw [if_neg (fun h => hnn (Option.some.inj (h.2.symm.trans hn₀)))]
      change (setEntry n₀ o before).find? _ = _
      rw [find_setEntry, if_neg hnn]

/-- C71 violated: units are ignored. With the row `n v unit;` the attribute has the value `v`, whatever the unit is. -/
theorem C71_units_violated {schema : Schema} (due : List Text → Py Bool) (files : Text → Option (List Text)) (before : List (Text × GldObj))
    {h₀ row e₀ n v unit : Text} {d : Decl} (hh : Header h₀ d) (hr : Splits row [n, v, unit ++ [';']]) (hn : Plain n)
    (hu : ¬EndsBlock (unit ++ [';'])) (hv : v.getLast? ≠ some ';') (he₀ : End e₀) (hd : d.statements = [(n, v)])
    (hi : NoInclude [h₀, row, e₀]) (hg : Good schema d) (hl : d.cls ∉ leftOut) :
    ∃ s, readGlm schema due files before [h₀, row, e₀] = .ok s ∧ Holds s.objects before [d] := by
  rcases hg with hl' | ⟨ps, hs, hp, hst, hnm⟩
  · exact absurd hl' hl
  obtain ⟨word, more, h1, -, h3⟩ := header_new (schema := schema) hh
  obtain ⟨n₀, hn₀⟩ := Option.isSome_iff_exists.mp hnm
  have hnm := named_whole hs hp
  rw [hn₀] at hnm
  obtain ⟨o, ho, hstored⟩ := hnm
  refine ⟨stOf (setEntry n₀ o before) none false, ?_, ?_⟩
  · have hset : setAttr schema { cls := d.cls, attrs := headAttrs d } n (noSemicolon v) = .ok (wholeOf d) := by
      unfold setAttr
      dsimp only
      rw [hs]
      dsimp only
      rw [if_pos (hst (n, v) (by rw [hd]; exact List.mem_cons_self))]
      unfold wholeOf applyAll noSemicolon
      rw [hd, if_neg hv]
      rfl
    rw [readGlm_plain hi, readRows_cons, header_row h1, h3 ps hl hs hp]
    change readRows schema due (stOf before (some _) false) _ = _
    rw [readRows_cons, taken_row hr hn (by intro x hx; cases hx; exact hu), hset]
    change readRows schema due (stOf before (some (wholeOf d)) false) [e₀] = _
    rw [readRows_cons, end_row he₀, ho]
    rfl
  · intro n
    rw [lastNamed_cons]
    change match ((none : Option Decl).or _) with | some d' => _ | none => _
    rw [Option.none_or]
    by_cases hnn : n = n₀
    · rw [if_pos ⟨hl, by rw [hn₀, hnn]⟩]
      refine ⟨o, ?_, hstored⟩
      change ((setEntry n₀ o before).find? _).map _ = _
      rw [find_setEntry, if_pos hnn]
      rfl
    · rw [if_neg (fun h => hnn (Option.some.inj (h.2.symm.trans hn₀)))]
      change (setEntry n₀ o before).find? _ = _
      rw [find_setEntry, if_neg hnn]

/-- C71 violated: of two objects without names between the same ends only the last one is kept -/
theorem C71_parallel_violated {schema : Schema} (due : List Text → Py Bool) (files : Text → Option (List Text)) {rows : List Text}
    {d₁ d₂ : Decl} (h : Lays rows [d₁, d₂]) (hi : NoInclude rows) (hg : ∀ d ∈ [d₁, d₂], Good schema d) (hl : d₂.cls ∉ leftOut)
    (hn₁ : nameOf d₁ = nameOf d₂) :
    ∃ s, readGlm schema due files [] rows = .ok s ∧ Holds s.objects [] [d₂] := by
  obtain ⟨s, h1, h2⟩ := C71_objects_partial due files h hi hg []
  refine ⟨s, h1, fun n => ?_⟩
  have := h2 n
  rw [lastNamed_cons] at this
  cases h3 : lastNamed [d₂] n with
  | some d => rw [h3] at this; exact this
  | none =>
    rw [h3, Option.none_or, if_neg] at this
    · exact this
    · rintro ⟨-, h4⟩
      rw [lastNamed_cons, if_pos ⟨hl, hn₁ ▸ h4⟩] at h3
      cases h3

/-! ### included files -/

theorem stripQuotes_quoted {name : Text} (h : '"' ∉ name) : stripQuotes ('"' :: (name ++ ['"'])) = name := by
  have hd : ∀ l : Text, '"' ∉ l → l.dropWhile (fun c => decide (c = '"')) = l := by
    intro l hl
    cases l with
    | nil => rfl
    | cons c l =>
      have : c ≠ '"' := fun e => hl (by rw [e]; exact List.mem_cons_self)
      rw [List.dropWhile_cons, if_neg (by simpa using this)]
  unfold stripQuotes
  cases name with
  | nil => rfl
  | cons c l =>
    have hc : c ≠ '"' := fun e => h (by rw [e]; exact List.mem_cons_self)
    rw [List.dropWhile_cons, if_pos (by simp), List.cons_append, List.dropWhile_cons, if_neg (by simpa using hc), ← List.cons_append,
      List.reverse_append, List.reverse_singleton, List.singleton_append, List.dropWhile_cons, if_pos (by simp), hd _ (by rwa [List.mem_reverse]),
      List.reverse_reverse]

theorem included_eq {files : Text → Option (List Text)} {row name : Text} (h : Includes row name) :
    included files row = match files name with | some rows => .ok rows | none => .error .genericException := by
  obtain ⟨h1, h2, h3⟩ := h
  unfold included
  rw [if_pos (include_take.mpr h1), words_splits h3]
  dsimp only
  rw [stripQuotes_quoted h2]
  cases files name <;> rfl

theorem allIncluded_append {files : Text → Option (List Text)} {a : List Text} (h : NoInclude a) (b : List Text) :
    allIncluded files (a ++ b) = allIncluded files b := by
  induction a with
  | nil => rfl
  | cons row rows ih =>
    have h1 : included files row = .ok [] := by
      unfold included
      rw [if_neg (fun e => h row List.mem_cons_self (include_take.mp e))]
    rw [List.cons_append, allIncluded, h1]
    dsimp only
    rw [ih fun r hr => h r (List.mem_cons_of_mem _ hr)]
    cases allIncluded files b <;> rfl

theorem lays_append {a b : List Text} {l m : List Decl} (h : Lays a l) (hb : Lays b m) : Lays (a ++ b) (l ++ m) := by
  induction h with
  | nil => exact hb
  | outside ho _ ih => exact Lays.outside ho ih
  | block hbl _ ih => rw [List.append_assoc]; exact Lays.block hbl ih

theorem includes_outside {row name : Text} (h : Includes row name) : Outside row :=
  Or.inr ⟨_, _, h.2.2, by decide, by decide, by unfold Comment; decide⟩

/-- C71 (included files): the objects of a file that is included are read like objects at the end of the file -/
theorem C71_include_partial {schema : Schema} (due : List Text → Py Bool) {files : Text → Option (List Text)} {pre post more : List Text}
    {row name : Text} {ds₁ ds₂ ds₃ : List Decl} (hpre : Lays pre ds₁) (hpost : Lays post ds₂) (hmore : Lays more ds₃) (hr : Includes row name)
    (hf : files name = some more) (hi₁ : NoInclude pre) (hi₂ : NoInclude post) (hg : ∀ d ∈ ds₁ ++ ds₂ ++ ds₃, Good schema d)
    (before : List (Text × GldObj)) :
    ∃ s, readGlm schema due files before (pre ++ row :: post) = .ok s ∧ Holds s.objects before (ds₁ ++ ds₂ ++ ds₃) := by
  have hlay : Lays (pre ++ row :: post ++ more) (ds₁ ++ ds₂ ++ ds₃) :=
    lays_append (lays_append hpre (Lays.outside (includes_outside hr) hpost)) hmore
  obtain ⟨D', h1, h2⟩ := lays_rows (due := due) hlay hg before
  refine ⟨stOf D' none false, ?_, h2⟩
  unfold readGlm
  rw [allIncluded_append hi₁, allIncluded, included_eq hr, hf]
  dsimp only
  rw [noInclude hi₂]
  change readRows schema due { objects := before } (pre ++ row :: post ++ (more ++ [])) = _
  rw [List.append_nil]
  exact h1

/-- C71 violated: a file that is included by an included file is not read, even if there is no such file -/
theorem C71_include_violated {schema : Schema} (due : List Text → Py Bool) {files : Text → Option (List Text)} {row row' name name' : Text}
    {more : List Text} {ds : List Decl} (hr : Includes row name) (hr' : Includes row' name') (hf : files name = some (row' :: more))
    (hmore : Lays more ds) (hg : ∀ d ∈ ds, Good schema d) (before : List (Text × GldObj)) :
    ∃ s, readGlm schema due files before [row] = .ok s ∧ Holds s.objects before ds := by
  have := C71_include_partial due (schema := schema) (pre := []) (post := []) Lays.nil Lays.nil (Lays.outside (includes_outside hr') hmore) hr hf
    (fun _ h => by cases h) (fun _ h => by cases h) hg before
  exact this

/-- C71 (included files): a missing file makes the reading fail -/
theorem C71_include_missing {schema : Schema} (due : List Text → Py Bool) {files : Text → Option (List Text)} {pre post : List Text}
    {row name : Text} (hr : Includes row name) (hf : files name = none) (hi₁ : NoInclude pre) (before : List (Text × GldObj)) :
    readGlm schema due files before (pre ++ row :: post) = .error .genericException := by
  unfold readGlm
  rw [allIncluded_append hi₁, allIncluded, included_eq hr, hf]

/-! ### schedules -/

/-- the variables inside of a schedule -/
def inSchedule (b : Nat) (D : List (Text × GldObj)) (S : List (Text × Text)) (n : Text) (found : Bool) : GState :=
  { objects := D, schedules := S, schedule := some n, brackets := (b : Int) + 1, found := found }

/-- the variables after a schedule -/
def afterSchedule (D : List (Text × GldObj)) (S : List (Text × Text)) : GState := { objects := D, schedules := S }

theorem word_head {c : Char} {l w : Text} {ws : List Text} (hc : c.isWhitespace = false) (h : words (c :: l) = w :: ws) :
    w.head? = some c := by
  cases l with
  | nil =>
    rw [words_cons_apart hc (fun _ h => by cases h), List.cons.injEq] at h
    rw [← h.1]; rfl
  | cons d l =>
    by_cases hd : d.isWhitespace = true
    · rw [words_cons_apart hc (by intro x hx; cases hx; exact hd), List.cons.injEq] at h
      rw [← h.1]; rfl
    · obtain ⟨a, as, -, h2⟩ := words_cons hc (by simpa using hd) l
      rw [h, List.cons.injEq] at h2
      rw [h2.1]; rfl

theorem strip_first {row w : Text} {ws : List Text} (h : words row = w :: ws) : (Net.pyStrip row).head? = w.head? := by
  obtain ⟨c, t, hct⟩ := strip_ne_of_words h
  have hc := strip_head (row := row) (c := c) (by rw [hct]; rfl)
  have hw := words_strip row
  rw [h, hct] at hw
  rw [hct, word_head hc hw]; rfl

theorem dropWhile_head {p : Char → Bool} {l : Text} (h : ∀ c, l.head? = some c → p c = false) : l.dropWhile p = l := by
  cases l with
  | nil => rfl
  | cons c l => rw [List.dropWhile_cons, if_neg (by rw [h c rfl]; decide)]

theorem stripSemicolons_snoc {l : Text} (h1 : l.head? ≠ some ';') (h2 : l.getLast? ≠ some ';') (hl : l ≠ []) :
    stripSemicolons (l ++ [';']) = l := by
  unfold stripSemicolons
  obtain ⟨c, t, rfl⟩ := List.exists_cons_of_ne_nil hl
  have hc : c ≠ ';' := fun e => h1 (by rw [e]; rfl)
  have ha : (c :: t ++ [';']).dropWhile (fun c => decide (c = ';')) = c :: t ++ [';'] :=
    dropWhile_head (by intro x hx; cases hx; simpa using hc)
  rw [ha, List.reverse_append, List.reverse_singleton, List.singleton_append, List.dropWhile_cons, if_pos (by simp)]
  have hb : (c :: t).reverse.dropWhile (fun c => decide (c = ';')) = (c :: t).reverse := by
    apply dropWhile_head
    intro x hx
    rw [List.head?_reverse] at hx
    rw [hx] at h2
    simpa using fun e : x = ';' => h2 (by rw [e])
  rw [hb, List.reverse_reverse]

theorem entry_row {schema : Schema} {due : List Text → Py Bool} {row v : Text} {time : List Text} (h : Entry row time v)
    (D : List (Text × GldObj)) (S : List (Text × Text)) (n : Text) (b : Nat) (found : Bool) :
    rowStep schema due (inSchedule b D S n found) row =
      if found then .ok (inSchedule b D S n true) else
        match due time with
        | .error e => .error e
        | .ok true => .ok (inSchedule b D (setEntry n v S) n true)
        | .ok false => .ok (inSchedule b D S n false) := by
  obtain ⟨h1, h2, hv, hv1, hv2, h3⟩ := h
  obtain ⟨w0, time', rfl⟩ : ∃ w0 t, time = w0 :: t := by
    cases time with
    | nil => simp at h2
    | cons w t => exact ⟨w, t, rfl⟩
  obtain ⟨hp, hs1, hs2⟩ := h3 w0 rfl
  have hws := words_splits h1
  have hrow := row_words (schema := schema) (due := due) (row := row) (w := w0) (ws := time' ++ [v ++ [';']]) h1 hp.2.2
    (inSchedule b D S n found)
  rw [hrow, if_neg hp.1, if_neg hp.2.1]
  obtain ⟨pre, w, e1, -, e3, e4, e5⟩ := strip_last_word (row := row) (by rw [hws]; simp)
  have hlast : (words row).getLast? = some (v ++ [';']) := by rw [hws, List.getLast?_concat]
  rw [hlast] at e4
  obtain rfl := Option.some.inj e4
  have hpre : words pre = w0 :: time' := by
    rw [hws] at e5
    exact (List.append_cancel_right e5).symm
  have hne : pre ++ v ≠ [] := by simp [hv]
  have hpne : pre ≠ [] := by rintro rfl; cases hpre
  obtain ⟨c, pre', rfl⟩ := List.exists_cons_of_ne_nil hpne
  have hhead : some c = w0.head? := by
    have := strip_first hws
    rw [e1] at this
    exact this
  have hgl : ∀ x, (c :: pre' ++ v).getLast? = some x → v.getLast? = some x := by
    intro x hx
    rw [List.getLast?_append] at hx
    cases hg : v.getLast? with
    | none => rw [List.getLast?_eq_none_iff] at hg; exact absurd hg hv
    | some y => rw [hg] at hx; exact hx
  have hss : stripSemicolons (Net.pyStrip row) = c :: pre' ++ v := by
    rw [e1, ← List.append_assoc]
    exact stripSemicolons_snoc (by rw [← hhead] at hs1; exact hs1) (fun e => hv1 (hgl _ e)) hne
  have hwv : words (c :: pre' ++ v) = w0 :: time' ++ [v] := by
    rw [words_append e3, hpre]
    have hvw : Word v := by
      refine ⟨hv, fun x hx => ?_⟩
      have : ∀ {row ws}, Splits row ws → ∀ w ∈ ws, Word w := by
        intro row ws h
        induction h with
        | nil _ => intro w hw; cases hw
        | cons _ hw' _ _ ih => intro w hw; rcases List.mem_cons.mp hw with rfl | hw; exacts [hw', ih w hw]
      exact (this h1 _ (List.mem_append_right _ List.mem_cons_self)).2 x (List.mem_append_left _ hx)
    have := words_word hvw (t := []) (fun _ h => by cases h)
    rw [List.append_nil] at this
    rw [this]; rfl
  have hend : ∀ s : GState, s.brackets = (b : Int) + 1 → scheduleEnd s (c :: pre' ++ v) = s := by
    intro s hb
    unfold scheduleEnd
    rw [if_neg (by simp)]
    have hbc : bracketCount s.brackets (c :: pre' ++ v) = (b : Int) + 1 := by
      unfold bracketCount
      rw [hb, if_neg (fun e => hv2 (hgl _ e)), if_neg (by rw [← hhead] at hs2; exact hs2)]
      omega
    rw [hbc, if_neg (by omega)]
    cases s
    dsimp only at hb
    rw [hb]
  unfold otherRow objectPart
  dsimp only [inSchedule]
  unfold schedulePart
  dsimp only
  unfold insideSchedule
  rw [hss, hwv]
  unfold scheduleEntry
  dsimp only
  have hlen : 5 < (w0 :: time' ++ [v]).length := by rw [List.length_append]; simp only [List.length_cons, List.length_nil] at h2 ⊢; omega
  cases found with
  | true =>
    rw [if_pos rfl]
    simp only [Bool.not_true, Bool.and_false, Bool.false_eq_true, if_false]
    rw [hend _ rfl]
  | false =>
    simp only [Bool.not_false, Bool.and_true, decide_eq_true hlen, if_true, Bool.false_eq_true, if_false]
    rw [List.dropLast_concat, List.getLast?_concat]
    cases due (w0 :: time') with
    | error e => rfl
    | ok b =>
      cases b with
      | true =>
        dsimp only
        rw [hend _ rfl]
      | false =>
        dsimp only
        rw [hend _ rfl]

theorem empty_schedule {schema : Schema} {due : List Text → Py Bool} {row : Text} (h : Empty row) (D : List (Text × GldObj))
    (S : List (Text × Text)) (n : Text) (b : Nat) (found : Bool) :
    rowStep schema due (inSchedule b D S n found) row = .ok (inSchedule b D S n found) := by
  rcases h with h | ⟨w, ws, h, hw⟩
  · have hs := words_nil_strip (words_splits h)
    unfold rowStep byWord
    rw [hs]
    change otherRow schema due (inSchedule b D S n found) [] = _
    rfl
  · exact comment_row h hw _

/-- a row with one brace only -/
theorem brace_row {schema : Schema} {due : List Text → Py Bool} {row : Text} {c : Char} (hc : c = '{' ∨ c = '}') (h : Splits row [[c]])
    (s : GState) : rowStep schema due s row = otherRow schema due s [c] := by
  have hw := words_splits h
  have hp : Plain [c] := by rcases hc with rfl | rfl <;> exact ⟨by decide, by decide, by unfold Comment; decide⟩
  obtain ⟨pre, w, e1, -, -, e4, e5⟩ := strip_last_word (row := row) (by rw [hw]; simp)
  rw [hw] at e4 e5
  obtain rfl := Option.some.inj e4
  have hpre : words pre = [] := (List.append_cancel_right (as := []) e5).symm
  have hstrip : Net.pyStrip row = [c] := by
    rw [e1]
    cases pre with
    | nil => rfl
    | cons c pre =>
      have hc := strip_head (row := row) (c := c) (by rw [e1]; rfl)
      exact absurd hpre (words_ne hc pre)
  rw [row_words h hp.2.2, if_neg hp.1, if_neg hp.2.1, hstrip]

theorem open_row {schema : Schema} {due : List Text → Py Bool} {row : Text} (h : Splits row [['{']]) (D : List (Text × GldObj))
    (S : List (Text × Text)) (n : Text) (b : Nat) (found : Bool) :
    rowStep schema due (inSchedule b D S n found) row = .ok (inSchedule (b + 1) D S n found) := by
  rw [brace_row (Or.inl rfl) h]
  unfold otherRow objectPart
  dsimp only [inSchedule]
  unfold schedulePart
  dsimp only
  unfold insideSchedule
  rw [show stripSemicolons ['{'] = ['{'] by decide, show words ['{'] = [['{']] by decide]
  unfold scheduleEntry
  rw [if_neg (by simp)]
  dsimp only
  unfold scheduleEnd
  rw [if_neg (by decide)]
  have hb : bracketCount ((b : Int) + 1) ['{'] = ((b + 1 : Nat) : Int) + 1 := by
    unfold bracketCount
    rw [if_neg (by decide), if_pos (by decide)]
    omega
  dsimp only
  rw [hb, if_neg (by omega)]

theorem close_row {schema : Schema} {due : List Text → Py Bool} {row : Text} (h : Splits row [['}']]) (D : List (Text × GldObj))
    (S : List (Text × Text)) (n : Text) (b : Nat) (found : Bool) :
    rowStep schema due (inSchedule b D S n found) row = .ok (match b with
      | 0 => afterSchedule D S
      | b + 1 => inSchedule b D S n found) := by
  rw [brace_row (Or.inr rfl) h]
  unfold otherRow objectPart
  dsimp only [inSchedule]
  unfold schedulePart
  dsimp only
  unfold insideSchedule
  rw [show stripSemicolons ['}'] = ['}'] by decide, show words ['}'] = [['}']] by decide]
  unfold scheduleEntry
  rw [if_neg (by simp)]
  dsimp only
  unfold scheduleEnd
  rw [if_neg (by decide)]
  have hb : bracketCount ((b : Int) + 1) ['}'] = (b : Int) := by
    unfold bracketCount
    rw [if_neg (show ¬(['}'] : Text).head? = some '{' by decide), if_pos (by decide)]
    omega
  dsimp only
  rw [hb]
  cases b with
  | zero => rw [if_pos (by rfl)]; rfl
  | succ b => rw [if_neg (by omega)]; rfl

theorem times_found {schema : Schema} {due : List Text → Py Bool} {rows : List Text} {l : List (List Text × Text)} (h : Times rows l)
    (D : List (Text × GldObj)) (S : List (Text × Text)) (n : Text) (b : Nat) :
    readRows schema due (inSchedule b D S n true) rows = .ok (inSchedule b D S n true) := by
  induction h generalizing b with
  | nil => rfl
  | blank he _ ih => rw [readRows_cons, empty_schedule he]; exact ih b
  | entry he _ ih => rw [readRows_cons, entry_row he, if_pos rfl]; exact ih b
  | group ho _ he _ ih1 ih2 =>
    rw [readRows_cons, open_row ho]
    change readRows schema due (inSchedule (b + 1) D S n true) _ = _
    rw [readRows_append, ih1]
    change readRows schema due (inSchedule (b + 1) D S n true) _ = _
    rw [readRows_cons, close_row he]
    exact ih2 b

theorem times_rows {schema : Schema} {due : List Text → Py Bool} {holds : List Text → Bool} (hdue : ∀ t, due t = .ok (holds t))
    {rows : List Text} {l : List (List Text × Text)} (h : Times rows l) (D : List (Text × GldObj)) (S : List (Text × Text)) (n : Text) (b : Nat) :
    readRows schema due (inSchedule b D S n false) rows = .ok (match l.find? fun p => holds p.1 with
      | some p => inSchedule b D (setEntry n p.2 S) n true
      | none => inSchedule b D S n false) := by
  induction h generalizing b with
  | nil => rfl
  | blank he _ ih => rw [readRows_cons, empty_schedule he]; exact ih b
  | @entry row v time rows l hen hrest ih =>
    rw [readRows_cons, entry_row hen, hdue]
    simp only [Bool.false_eq_true, if_false]
    cases hb : holds time with
    | true =>
      rw [List.find?_cons_of_pos (by exact hb)]
      exact times_found hrest D _ n b
    | false =>
      rw [List.find?_cons_of_neg (by simp [hb])]
      exact ih b
  | @group o e inner rows l m ho hin he hr ih1 ih2 =>
    rw [readRows_cons, open_row ho]
    change readRows schema due (inSchedule (b + 1) D S n false) _ = _
    rw [readRows_append, ih1, List.find?_append]
    cases hf : l.find? fun p => holds p.1 with
    | some p =>
      change readRows schema due (inSchedule (b + 1) D (setEntry n p.2 S) n true) _ = _
      rw [readRows_cons, close_row he]
      exact times_found hr D _ n b
    | none =>
      change readRows schema due (inSchedule (b + 1) D S n false) _ = _
      rw [readRows_cons, close_row he]
      exact ih2 b

/-- C71 (schedules): the value of a schedule is that of its first entry that holds at the time, in groups or not; without such an entry it has
none. -/
theorem C71_schedule {schema : Schema} {due : List Text → Py Bool} (holds : List Text → Bool) (hdue : ∀ t, due t = .ok (holds t)) {h e n : Text}
    {rest rows : List Text} {l : List (List Text × Text)} (hh : Splits h ("schedule".toList :: n :: rest)) (hr : Times rows l)
    (he : Splits e [['}']]) (D : List (Text × GldObj)) (S : List (Text × Text)) :
    readRows schema due (afterSchedule D S) (h :: (rows ++ [e])) = .ok (afterSchedule D
      (match l.find? fun p => holds p.1 with
        | some p => setEntry n p.2 S
        | none => S)) := by
  have hcom : ¬Comment "schedule".toList := by unfold Comment; decide
  have hstart : rowStep schema due (afterSchedule D S) h = .ok (inSchedule 0 D S n false) := by
    rw [row_words hh hcom, if_neg (by decide), if_pos rfl]
    rfl
  rw [readRows_cons, hstart]
  change readRows schema due (inSchedule 0 D S n false) (rows ++ [e]) = _
  rw [readRows_append, times_rows hdue hr]
  cases l.find? fun p => holds p.1 with
  | some p =>
    change readRows schema due (inSchedule 0 D (setEntry n p.2 S) n true) [e] = _
    rw [readRows_cons, close_row he]
    rfl
  | none =>
    change readRows schema due (inSchedule 0 D S n false) [e] = _
    rw [readRows_cons, close_row he]
    rfl

/-! ### cases that meet the hypotheses -/

theorem splits_blank {c : Char} (hc : c.isWhitespace = true) {l : Text} {ws : List Text} (h : Splits l ws) : Splits (c :: l) ws := by
  cases h with
  | nil hs => exact Splits.nil (by intro x hx; rcases List.mem_cons.mp hx with rfl | hx; exacts [hc, hs x hx])
  | @cons s w t ws hs hw ht h =>
    exact Splits.cons (s := c :: s) (by intro x hx; rcases List.mem_cons.mp hx with rfl | hx; exacts [hc, hs x hx]) hw ht h

theorem splits_letter {c d : Char} (hc : c.isWhitespace = false) (hd : d.isWhitespace = false) {l w : Text} {ws : List Text}
    (h : Splits (d :: l) (w :: ws)) : Splits (c :: d :: l) ((c :: w) :: ws) := by
  generalize hr : d :: l = row at h
  generalize hv : w :: ws = vs at h
  cases h with
  | nil hs => cases hv
  | @cons s w' t ws' hs hw ht h =>
    injection hv with h1 h2
    subst h1 h2
    cases s with
    | nil =>
      exact Splits.cons (s := []) (w := c :: w) (fun _ h => by cases h)
        ⟨by simp, by intro x hx; rcases List.mem_cons.mp hx with rfl | hx; exacts [hc, hw.2 x hx]⟩ ht h
    | cons e s =>
      injection hr with h1 h2
      have := hs e List.mem_cons_self
      rw [← h1, hd] at this
      cases this

/-- every row consists of its words -/
theorem splits_words (row : Text) : Splits row (words row) := by
  induction row with
  | nil => exact Splits.nil (fun _ h => by cases h)
  | cons c l ih =>
    by_cases hc : c.isWhitespace = true
    · rw [words_white hc]; exact splits_blank hc ih
    · have hc' : c.isWhitespace = false := by simpa using hc
      have hone : ∀ (_ : Apart l), Splits (c :: l) (words (c :: l)) := by
        intro ha
        rw [words_cons_apart hc' ha]
        exact Splits.cons (s := []) (w := [c]) (fun _ h => by cases h) ⟨by simp, by simpa using hc'⟩ ha ih
      cases l with
      | nil => exact hone (fun _ h => by cases h)
      | cons d l =>
        by_cases hd : d.isWhitespace = true
        · exact hone (by intro x hx; cases hx; exact hd)
        · have hd' : d.isWhitespace = false := by simpa using hd
          obtain ⟨w, ws, h1, h2⟩ := words_cons hc' hd' l
          rw [h2]
          rw [h1] at ih
          exact splits_letter hc' hd' ih

theorem splits_of {row : Text} {ws : List Text} (h : words row = ws) : Splits row ws := h ▸ splits_words row

/-- a file with two nodes, a house and a line without name -/
def exFile : List Text :=
  ["// a small feeder".toList, "module powerflow {".toList, "}".toList,
    "object node:1 {".toList, "  nominal_voltage 7200; // volts".toList, "}".toList,
    "object node {".toList, "  name n2;".toList, "".toList, "};".toList,
    "object house {".toList, "  name h;".toList, "}".toList,
    "object overhead_line {".toList, "  from node:1;".toList, "  to n2;".toList, "}".toList]

/-- its objects -/
def exDecls : List Decl :=
  [⟨"node".toList, some "1".toList, [("nominal_voltage".toList, "7200".toList)]⟩, ⟨"node".toList, none, [("name".toList, "n2".toList)]⟩,
    ⟨"house".toList, none, [("name".toList, "h".toList)]⟩,
    ⟨"overhead_line".toList, none, [("from".toList, "node:1".toList), ("to".toList, "n2".toList)]⟩]

def exSchema : Schema := fun c =>
  if c = "node".toList ∨ c = "overhead_line".toList then some ["name".toList, "from".toList, "to".toList, "nominal_voltage".toList] else none

theorem stmt_of {row n v : Text} (rest : List Text) (h : words row = n :: (v ++ [';']) :: rest)
    (hp : n ≠ "object".toList ∧ n ≠ "schedule".toList ∧ ¬(['/', '/'] <+: n))
    (hr : rest.head?.all fun w => decide (['/', '/'] <+: w))
    (hl : (((v ++ [';']) :: rest).getLast?.all fun w => decide (¬(['}'] <:+ w ∨ ['}', ';'] <:+ w))) = true) : Statement row n v := by
  refine ⟨rest, splits_of h, hp, ?_, ?_⟩
  · intro w hw
    rw [hw] at hr
    have : decide (['/', '/'] <+: w) = true := hr
    simpa [Comment] using this
  · intro w hw
    rw [hw] at hl
    have : decide (¬(['}'] <:+ w ∨ ['}', ';'] <:+ w)) = true := hl
    exact of_decide_eq_true (p := ¬(['}'] <:+ w ∨ ['}', ';'] <:+ w)) this

theorem ex_lays : Lays exFile exDecls := by
  refine Lays.outside (Or.inl (Or.inr ⟨"//".toList, _, splits_of rfl, List.prefix_refl _⟩)) ?_
  refine Lays.outside (Or.inr ⟨"module".toList, _, splits_of rfl, by decide, by decide, by unfold Comment; decide⟩) ?_
  refine Lays.outside (Or.inr ⟨"}".toList, _, splits_of rfl, by decide, by decide, by unfold Comment; decide⟩) ?_
  refine Lays.block (block := ["object node:1 {".toList, "  nominal_voltage 7200; // volts".toList, "}".toList])
    ⟨_, [_], _, rfl, ⟨by decide, by decide, _, splits_of rfl⟩,
      Body.statement (stmt_of ["//".toList, "volts".toList] (by decide +kernel) (by decide) (by decide) (by decide)) Body.nil, Or.inl (splits_of rfl)⟩ ?_
  refine Lays.block (block := ["object node {".toList, "  name n2;".toList, "".toList, "};".toList])
    ⟨_, [_, _], _, rfl, ⟨by decide, _, splits_of rfl⟩,
      Body.statement (stmt_of [] (by decide +kernel) (by decide) (by decide) (by decide)) (Body.blank (Or.inl (splits_of rfl)) Body.nil),
      Or.inr (splits_of rfl)⟩ ?_
  refine Lays.block (block := ["object house {".toList, "  name h;".toList, "}".toList])
    ⟨_, [_], _, rfl, ⟨by decide, _, splits_of rfl⟩,
      Body.statement (stmt_of [] (by decide +kernel) (by decide) (by decide) (by decide)) Body.nil, Or.inl (splits_of rfl)⟩ ?_
  refine Lays.block (block := ["object overhead_line {".toList, "  from node:1;".toList, "  to n2;".toList, "}".toList])
    ⟨_, [_, _], _, rfl, ⟨by decide, _, splits_of rfl⟩,
      Body.statement (stmt_of [] (by decide +kernel) (by decide) (by decide) (by decide))
        (Body.statement (stmt_of [] (by decide +kernel) (by decide) (by decide) (by decide)) Body.nil), Or.inl (splits_of rfl)⟩ ?_
  exact Lays.nil

theorem ex_good : ∀ d ∈ exDecls, Good exSchema d := by
  have h : ∀ d ∈ exDecls, d.cls ∈ leftOut ∨ (exSchema d.cls = some ["name".toList, "from".toList, "to".toList, "nominal_voltage".toList] ∧
      (∀ p ∈ d.statements, p.1 ∈ ["name".toList, "from".toList, "to".toList, "nominal_voltage".toList]) ∧ (nameOf d).isSome = true) := by
    decide +kernel
  intro d hd
  rcases h d hd with h | ⟨h1, h2, h3⟩
  · exact Or.inl h
  · exact Or.inr ⟨_, h1, by decide, h2, h3⟩

theorem ex_plain : NoInclude exFile := by unfold NoInclude; decide +kernel

example : ∃ s, readGlm exSchema (fun _ => .ok false) (fun _ => none) [] exFile = .ok s ∧ Holds s.objects [] exDecls :=
  C71_objects_partial _ _ ex_lays ex_plain ex_good []

example : (lastNamed exDecls "node:1-n2".toList).map (·.cls) = some "overhead_line".toList ∧
    (lastNamed exDecls "node:1".toList).map (·.cls) = some "node".toList ∧ (lastNamed exDecls "h".toList).isNone := by decide +kernel

example : readGlm exSchema (fun _ => .ok false) (fun _ => none) [] (exFile ++ ["object node{".toList] ++ ["name x;".toList, "}".toList]) =
    .error .attributeError :=
  C71_class_violated (cls := "node{".toList) (ws := []) _ _ ex_lays ex_good [] (by unfold NoInclude; decide +kernel) (splits_of rfl) (by decide)
    (by decide) (by decide)

/-- a node with a player inside, which is not an attribute of a node: the node gets the name of the inner object -/
example : ∃ s, readGlm exSchema (fun _ => .ok false) (fun _ => none) []
    ["object node {".toList, "name n;".toList, "object recorder {".toList, "name r;".toList, "}".toList, "}".toList] = .ok s ∧
    Holds s.objects [] [⟨"node".toList, none, [("name".toList, "n".toList), ("name".toList, "r".toList)]⟩] :=
  C71_nested_violated (la := [("name".toList, "n".toList)]) (lb := [("name".toList, "r".toList)]) (lc := []) (a := ["name n;".toList])
    (b := ["name r;".toList]) (c := []) _ _ [] ⟨by decide, _, splits_of rfl⟩
    (Body.statement (stmt_of [] (by decide +kernel) (by decide) (by decide) (by decide)) Body.nil) (splits_of rfl)
    (Body.statement (stmt_of [] (by decide +kernel) (by decide) (by decide) (by decide)) Body.nil) (Or.inl (splits_of rfl)) Body.nil
    (Or.inl (splits_of rfl)) rfl (by unfold NoInclude; decide +kernel)
    (Or.inr ⟨["name".toList, "from".toList, "to".toList, "nominal_voltage".toList], by decide +kernel, by decide, by decide +kernel, by decide +kernel⟩)
    (by decide)

/-- the second of three entries holds -/
example : readRows exSchema (fun t => .ok (t.head? == some "1".toList)) (afterSchedule [] [])
    ("schedule s {".toList :: (["  0 * * * * 5;".toList, "  1 * * * * 6;".toList, "  1 * * * * 7;".toList] ++ ["}".toList])) =
    .ok (afterSchedule [] [("s".toList, "6".toList)]) :=
  C71_schedule (fun t => t.head? == some "1".toList) (fun _ => rfl) (splits_of rfl)
    (l := [(["0".toList, "*".toList, "*".toList, "*".toList, "*".toList], "5".toList), (["1".toList, "*".toList, "*".toList, "*".toList, "*".toList],
      "6".toList), (["1".toList, "*".toList, "*".toList, "*".toList, "*".toList], "7".toList)])
    (Times.entry ⟨splits_of (by decide +kernel), by decide, by decide, by decide, by decide, by
        intro w hw; cases hw; exact ⟨⟨by decide, by decide, by unfold Comment; decide⟩, by decide, by decide⟩⟩
      (Times.entry ⟨splits_of (by decide +kernel), by decide, by decide, by decide, by decide, by
        intro w hw; cases hw; exact ⟨⟨by decide, by decide, by unfold Comment; decide⟩, by decide, by decide⟩⟩
      (Times.entry ⟨splits_of (by decide +kernel), by decide, by decide, by decide, by decide, by
        intro w hw; cases hw; exact ⟨⟨by decide, by decide, by unfold Comment; decide⟩, by decide, by decide⟩⟩ Times.nil)))
    (splits_of rfl) [] []

/-- a schedule with a group -/
example : readRows exSchema (fun t => .ok (t.head? == some "1".toList)) (afterSchedule [] [])
    ("schedule s {".toList :: ((" {".toList :: (["  0 * * * * 5;".toList] ++ " }".toList :: ["  1 * * * * 6;".toList])) ++ ["}".toList])) =
    .ok (afterSchedule [] [("s".toList, "6".toList)]) :=
  C71_schedule (fun t => t.head? == some "1".toList) (fun _ => rfl) (splits_of rfl)
    (l := [(["0".toList, "*".toList, "*".toList, "*".toList, "*".toList], "5".toList)] ++ [(["1".toList, "*".toList, "*".toList, "*".toList,
      "*".toList], "6".toList)])
    (Times.group (splits_of rfl)
      (Times.entry ⟨splits_of (by decide +kernel), by decide, by decide, by decide, by decide, by
        intro w hw; cases hw; exact ⟨⟨by decide, by decide, by unfold Comment; decide⟩, by decide, by decide⟩⟩ Times.nil)
      (splits_of rfl)
      (Times.entry ⟨splits_of (by decide +kernel), by decide, by decide, by decide, by decide, by
        intro w hw; cases hw; exact ⟨⟨by decide, by decide, by unfold Comment; decide⟩, by decide, by decide⟩⟩ Times.nil))
    (splits_of rfl) [] []

end Ditto.Glm
