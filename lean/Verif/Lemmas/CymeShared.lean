import Verif.Spec.CymeCaps
import Verif.Lemmas.CymeSources
import Verif.Props.CymeSources

/-! Tables of several kinds that are read into one dictionary. -/
namespace Ditto.Cyme
open Ditto Glm Spec

theorem sharedHelpers_none {qs : List Query} {line : Text} (h : ∀ q ∈ qs, ¬Heads q.headers line) (d : List (Text × Values)) (rest : List Text) :
    sharedHelpers qs d line rest = .ok (d, rest) := by
  induction qs with
  | nil => rfl
  | cons q qs ih =>
    have hp : parserHelper q line rest = .ok ([], rest) := by
      unfold parserHelper
      rw [if_neg (by rw [isHeader_iff]; exact h q List.mem_cons_self)]
    rw [sharedHelpers, hp]
    dsimp only
    exact ih fun x hx => h x (List.mem_cons_of_mem _ hx)

theorem sharedHelpers_one {q : Query} {r : List (Text × Values)} {pre post : List Query} {line : Text} {rest rest' : List Text}
    (hpre : ∀ s ∈ pre, ¬Heads s.headers line) (hpost : ∀ s ∈ post, ¬Heads s.headers line) (hp : parserHelper q line rest = .ok (r, rest'))
    (d : List (Text × Values)) : sharedHelpers (pre ++ q :: post) d line rest = .ok (updateAll d r, rest') := by
  induction pre with
  | nil => rw [List.nil_append, sharedHelpers, hp]; exact sharedHelpers_none hpost _ _
  | cons s pre ih =>
    have hp : parserHelper s line rest = .ok ([], rest) := by
      unfold parserHelper
      rw [if_neg (by rw [isHeader_iff]; exact hpre s List.mem_cons_self)]
    rw [List.cons_append, sharedHelpers, hp]
    exact ih fun x hx => hpre x (List.mem_cons_of_mem _ hx)

/-- A query reads the rows of its tables in the way that `R` says. -/
def ReadsRows (R : Query → List Text → List Text → Values → Prop) (q : Query) : Prop :=
  ∀ {h f : Text} {cols lines : List Text} {rows : List (List Text)}, Heads q.headers h → FormatLine f cols → List.Forall₂ RowLine lines rows →
    (∀ r ∈ rows, '*' ∉ keyOf r) →
    ∃ new, List.Forall₂ (fun r p => R q cols r p.2) rows new ∧ new.map (·.1) = starred [] (rows.map keyOf) ∧
      (∀ blank rest, blank.length ≤ 2 → parserHelper q h (f :: (lines ++ blank :: rest)) = .ok (new, rest)) ∧
      (rows ≠ [] → parserHelper q h (f :: lines) = .ok (new, []))

/-- what is read for one table -/
def PartReadBy (R : Query → List Text → List Text → Values → Prop) (qs : List Query) (t : List Text × Table) (n : List (Text × Values)) : Prop :=
  n.map (·.1) = starred [] (t.2.rows.map keyOf) ∧ ∃ q ∈ qs, q.headers = t.1 ∧ List.Forall₂ (fun r p => R q t.2.cols r p.2) t.2.rows n

/-- the values are those in the columns -/
abbrev Plain (q : Query) : List Text → List Text → Values → Prop := RowRead q.attrs

abbrev PartRead := PartReadBy Plain

theorem plain_reads {q : Query} (h : q.info = [] ∧ q.attrs.Nodup) : ReadsRows Plain q := fun hh hf hl hs => helper_table h.1 h.2 hh hf hl hs

/-- a dictionary after tables with any keys -/
theorem shared_loop_by {R : Query → List Text → List Text → Values → Prop} {qs : List Query} (hq : ∀ q ∈ qs, ReadsRows R q) (hnd : (qs.map (·.headers)).Nodup) {content : List Text}
    {ts : List (List Text × Table)} (hmix : Mixed (qs.map (·.headers)) content ts) :
    ∀ (fuel : Nat) (d : List (Text × Values)), content.length ≤ fuel → (∀ t ∈ ts, ∀ r ∈ t.2.rows, '*' ∉ keyOf r) →
    ∃ news, sharedLoop qs fuel d content = .ok (news.foldl updateAll d) ∧ List.Forall₂ (PartReadBy R qs) ts news := by
  have step : ∀ {hs : List Text} {h f : Text} {lines rest tail : List Text} {t : Table} {ts : List (List Text × Table)}
      (_ : hs ∈ qs.map (·.headers)) (_ : Heads hs h) (_ : ∀ hs' ∈ qs.map (·.headers), Heads hs' h → hs' = hs) (_ : FormatLine f t.cols)
      (_ : List.Forall₂ RowLine lines t.rows)
      (_ : (∃ blank, blank.length ≤ 2 ∧ tail = f :: (lines ++ blank :: rest)) ∨ (t.rows ≠ [] ∧ rest = [] ∧ tail = f :: lines))
      (_ : ∀ (fuel : Nat) (d : List (Text × Values)), rest.length ≤ fuel → (∀ t ∈ ts, ∀ r ∈ t.2.rows, '*' ∉ keyOf r) →
        ∃ news, sharedLoop qs fuel d rest = .ok (news.foldl updateAll d) ∧ List.Forall₂ (PartReadBy R qs) ts news)
      (fuel : Nat) (d : List (Text × Values)), (h :: tail).length ≤ fuel → (∀ t' ∈ (hs, t) :: ts, ∀ r ∈ t'.2.rows, '*' ∉ keyOf r) →
      ∃ news, sharedLoop qs fuel d (h :: tail) = .ok (news.foldl updateAll d) ∧ List.Forall₂ (PartReadBy R qs) ((hs, t) :: ts) news := by
    intro hs h f lines rest tail t ts hk hh huniq hf hl htail ih fuel d hfuel hstar
    cases fuel with
    | zero => simp at hfuel
    | succ fuel =>
      obtain ⟨q, hqm, rfl⟩ := List.mem_map.mp hk
      obtain ⟨pre, post, rfl⟩ := List.append_of_mem hqm
      have hnd' := hnd
      rw [List.map_append, List.map_cons, List.nodup_append, List.nodup_cons] at hnd'
      obtain ⟨-, ⟨hpost, -⟩, hpre⟩ := hnd'
      have hk1 : ∀ s ∈ pre, ¬Heads s.headers h := fun s hm hhh =>
        hpre _ (List.mem_map.mpr ⟨s, hm, rfl⟩) _ List.mem_cons_self (huniq _ (List.mem_map.mpr ⟨s, List.mem_append_left _ hm, rfl⟩) hhh)
      have hk2 : ∀ s ∈ post, ¬Heads s.headers h := fun s hm hhh =>
        hpost (List.mem_map.mpr ⟨s, hm, huniq _ (List.mem_map.mpr ⟨s, List.mem_append_right _ (List.mem_cons_of_mem _ hm), rfl⟩) hhh⟩)
      obtain ⟨new, e1, e2, e3, e4⟩ := hq _ hqm hh hf hl (hstar _ List.mem_cons_self)
      have hcall : parserHelper q h tail = .ok (new, rest) := by
        rcases htail with ⟨blank, hb, rfl⟩ | ⟨hne, rfl, rfl⟩
        · exact e3 blank rest hb
        · exact e4 hne
      have hlen : rest.length ≤ fuel := by
        rcases htail with ⟨blank, hb, rfl⟩ | ⟨hne, rfl, rfl⟩
        · simp only [List.length_cons, List.length_append] at hfuel; omega
        · exact Nat.zero_le _
      obtain ⟨news, e5, e6⟩ := ih fuel (updateAll d new) hlen fun t' hm => hstar t' (List.mem_cons_of_mem _ hm)
      refine ⟨new :: news, ?_, .cons ⟨e2, q, hqm, rfl, e1⟩ e6⟩
      rw [sharedLoop, sharedHelpers_one hk1 hk2 hcall]
      exact e5
  induction hmix with
  | nil => intro fuel d _ _; exact ⟨[], by cases fuel <;> rfl, .nil⟩
  | @other line rest ts hno _ ih =>
    intro fuel d hfuel hstar
    cases fuel with
    | zero => simp at hfuel
    | succ fuel =>
      obtain ⟨news, h1, h2⟩ := ih fuel d (by simpa using hfuel) hstar
      refine ⟨news, ?_, h2⟩
      rw [sharedLoop, sharedHelpers_none fun s hm => hno _ (List.mem_map.mpr ⟨s, hm, rfl⟩)]
      exact h1
  | @table hs h f blank lines rest t ts hk hh huniq hf hl hb _ ih => exact step hk hh huniq hf hl (Or.inl ⟨blank, hb, rfl⟩) ih
  | @last hs h f lines t hk hh huniq hf hl hne =>
    exact step hk hh huniq hf hl (Or.inr ⟨hne, rfl, rfl⟩) fun fuel d _ _ => ⟨[], by cases fuel <;> rfl, .nil⟩

theorem shared_loop {qs : List Query} (hq : ∀ q ∈ qs, q.info = [] ∧ q.attrs.Nodup) (hnd : (qs.map (·.headers)).Nodup) {content : List Text}
    {ts : List (List Text × Table)} (hmix : Mixed (qs.map (·.headers)) content ts) :
    ∀ (fuel : Nat) (d : List (Text × Values)), content.length ≤ fuel → (∀ t ∈ ts, ∀ r ∈ t.2.rows, '*' ∉ keyOf r) →
    ∃ news, sharedLoop qs fuel d content = .ok (news.foldl updateAll d) ∧ List.Forall₂ (PartRead qs) ts news :=
  shared_loop_by (fun q hm => plain_reads (hq q hm)) hnd hmix

theorem starred_base {ks : List Text} : ∀ (done : List Text) {x : Text}, x ∈ starred done ks → ∃ k ∈ ks, ∃ n, x = k ++ List.replicate n '*' := by
  induction ks with
  | nil => intro _ _ hx; cases hx
  | cons k ks ih =>
    intro done x hx
    rw [starred] at hx
    rcases List.mem_cons.mp hx with rfl | hx
    · exact ⟨k, List.mem_cons_self, _, rfl⟩
    · obtain ⟨k', hk, n, h⟩ := ih _ hx
      exact ⟨k', List.mem_cons_of_mem _ hk, n, h⟩

theorem part_keys {R : Query → List Text → List Text → Values → Prop} {qs : List Query} {t : List Text × Table} {n : List (Text × Values)} (h : PartReadBy R qs t n) {p : Text × Values} (hp : p ∈ n) :
    ∃ r ∈ t.2.rows, ∃ m, p.1 = keyOf r ++ List.replicate m '*' := by
  have : p.1 ∈ starred [] (t.2.rows.map keyOf) := by rw [← h.1]; exact List.mem_map.mpr ⟨p, hp, rfl⟩
  obtain ⟨k, hk, m, hm⟩ := starred_base _ this
  obtain ⟨r, hr, rfl⟩ := List.mem_map.mp hk
  exact ⟨r, hr, m, hm⟩

/-- tables with different keys are put one after the other -/
theorem parts_apart {R : Query → List Text → List Text → Values → Prop} {qs : List Query} {ts : List (List Text × Table)}
    {news : List (List (Text × Values))} (h : List.Forall₂ (PartReadBy R qs) ts news) :
    ∀ d : List (Text × Values), (∀ t ∈ ts, ∀ r ∈ t.2.rows, '*' ∉ keyOf r) → KeysApart ts →
    (∀ t ∈ ts, ∀ r ∈ t.2.rows, ∀ n, keyOf r ++ List.replicate n '*' ∉ d.map (·.1)) → news.foldl updateAll d = d ++ news.flatten := by
  induction h with
  | nil => intro d _ _ _; simp
  | @cons t n ts news hp _ ih =>
    intro d hstar hap hd
    unfold KeysApart at hap
    rw [List.pairwise_cons] at hap
    rw [List.foldl_cons, updateAll_fresh d n]
    · rw [ih (d ++ n) (fun t' hm => hstar t' (List.mem_cons_of_mem _ hm)) hap.2, List.flatten_cons, List.append_assoc]
      intro t' ht' r hr m hm
      rw [List.map_append] at hm
      rcases List.mem_append.mp hm with hm | hm
      · exact hd t' (List.mem_cons_of_mem _ ht') r hr m hm
      · obtain ⟨p, hpm, he⟩ := List.mem_map.mp hm
        obtain ⟨r', hr', m', hm'⟩ := part_keys hp hpm
        rw [he] at hm'
        exact hap.1 t' ht' r' hr' r hr (star_inj (hstar t' (List.mem_cons_of_mem _ ht') r hr) (hstar t List.mem_cons_self r' hr') hm').1.symm
    · rw [hp.1]
      refine starred_nodup ?_ []
      intro x hx
      obtain ⟨r, hr, rfl⟩ := List.mem_map.mp hx
      exact hstar _ List.mem_cons_self r hr
    · intro p hpm
      obtain ⟨r', hr', m', hm'⟩ := part_keys hp hpm
      rw [hm']
      exact hd t List.mem_cons_self r' hr' m'

/-- all tables of a file -/
theorem readShared_parts_by {R : Query → List Text → List Text → Values → Prop} {qs : List Query} (hq : ∀ q ∈ qs, ReadsRows R q)
    (hnd : (qs.map (·.headers)).Nodup) {content : List Text} {ts : List (List Text × Table)} (h : Mixed (qs.map (·.headers)) content ts)
    (hstar : ∀ t ∈ ts, ∀ r ∈ t.2.rows, '*' ∉ keyOf r) (hap : KeysApart ts) :
    ∃ news, readShared qs content = .ok news.flatten ∧ List.Forall₂ (PartReadBy R qs) ts news := by
  obtain ⟨news, h1, h2⟩ := shared_loop_by hq hnd h content.length [] (Nat.le_refl _) hstar
  refine ⟨news, ?_, h2⟩
  unfold readShared
  rw [h1, parts_apart h2 [] hstar hap (fun _ _ _ _ _ hm => nomatch hm), List.nil_append]

theorem readShared_parts {qs : List Query} (hq : ∀ q ∈ qs, q.info = [] ∧ q.attrs.Nodup) (hnd : (qs.map (·.headers)).Nodup) {content : List Text}
    {ts : List (List Text × Table)} (h : Mixed (qs.map (·.headers)) content ts) (hstar : ∀ t ∈ ts, ∀ r ∈ t.2.rows, '*' ∉ keyOf r)
    (hap : KeysApart ts) : ∃ news, readShared qs content = .ok news.flatten ∧ List.Forall₂ (PartRead qs) ts news :=
  readShared_parts_by (fun q hm => plain_reads (hq q hm)) hnd h hstar hap

/-- what is read for one row -/
def EntryReadBy (R : Query → List Text → List Text → Values → Prop) (qs : List Query) (r : List Text × List Text × List Text)
    (p : Text × Values) : Prop :=
  (∃ n, p.1 = keyOf r.2.2 ++ List.replicate n '*') ∧ ∃ q ∈ qs, q.headers = r.1 ∧ R q r.2.1 r.2.2 p.2

abbrev EntryRead := EntryReadBy Plain

theorem part_entries {R : Query → List Text → List Text → Values → Prop} {qs : List Query} {hs cols : List Text} {q : Query} (hq : q ∈ qs) (he : q.headers = hs) {rows : List (List Text)}
    {n : List (Text × Values)} (h : List.Forall₂ (fun r p => R q cols r p.2) rows n) : ∀ done : List Text,
    n.map (·.1) = starred done (rows.map keyOf) → List.Forall₂ (EntryReadBy R qs) (rows.map fun r => (hs, cols, r)) n := by
  induction h with
  | nil => intro _ _; exact .nil
  | @cons r p rows n hp _ ih =>
    intro done hd
    rw [List.map_cons, List.map_cons, starred, List.cons.injEq] at hd
    exact .cons ⟨⟨_, hd.1⟩, q, hq, he, hp⟩ (ih _ hd.2)

theorem parts_entries {R : Query → List Text → List Text → Values → Prop} {qs : List Query} {ts : List (List Text × Table)}
    {news : List (List (Text × Values))} (h : List.Forall₂ (PartReadBy R qs) ts news) : List.Forall₂ (EntryReadBy R qs) (fileRows ts) news.flatten := by
  induction h with
  | nil => exact .nil
  | @cons t n ts news hp _ ih =>
    obtain ⟨h1, q, h2, h3, h4⟩ := hp
    show List.Forall₂ _ ((t.2.rows.map fun r => (t.1, t.2.cols, r)) ++ fileRows ts) (n ++ news.flatten)
    exact List.rel_append (part_entries h2 h3 h4 [] h1) ih

theorem getEntry_append {V : Type} (k : Text) (a b : List (Text × V)) :
    getEntry k (a ++ b) = match getEntry k a with | some v => some v | none => getEntry k b := by
  induction a with
  | nil => rfl
  | cons p a ih =>
    obtain ⟨k', v⟩ := p
    rw [List.cons_append, getEntry, getEntry]
    split
    · rfl
    · exact ih

/-- the entry for a piece of equipment -/
theorem parts_find {qs : List Query} {ets : List (List Text × Table)} {news : List (List (Text × Values))} (h : List.Forall₂ (PartRead qs) ets news)
    (hstar : ∀ t ∈ ets, ∀ r ∈ t.2.rows, '*' ∉ keyOf r) (hap : KeysApart ets) {hs : List Text} {k : Text} {e : Option (List Text × List Text)}
    (he : EquipmentFor ets hs k e) :
    (e = none → getEntry k news.flatten = none) ∧
    (∀ cols row, e = some (cols, row) → ∃ v, getEntry k news.flatten = some v ∧ ∃ q ∈ qs, q.headers = hs ∧ RowRead q.attrs cols row v) := by
  induction h with
  | nil =>
    cases he with
    | found hm _ => cases hm
    | missing _ _ => exact ⟨fun _ => rfl, fun _ _ h => nomatch h⟩
  | @cons t n ts news hp _ ih =>
    unfold KeysApart at hap
    rw [List.pairwise_cons] at hap
    obtain ⟨h1, q, h2, h3, h4⟩ := hp
    have ih := ih (fun t' hm => hstar t' (List.mem_cons_of_mem _ hm)) hap.2
    rw [List.flatten_cons, getEntry_append]
    have later : (∀ r ∈ t.2.rows, keyOf r ≠ k) → '*' ∉ k → getEntry k n = none := fun hno hk =>
      (first_starred h4 hk (hstar t List.mem_cons_self) [] List.not_mem_nil h1).2 hno
    cases he with
    | @found t' row hm hfirst =>
      have hkey : keyOf row = k ∧ row ∈ t'.rows := ⟨by simpa using List.find?_some hfirst, List.mem_of_find?_eq_some hfirst⟩
      have hk : '*' ∉ k := by rw [← hkey.1]; exact hstar _ hm row hkey.2
      refine ⟨(fun h => nomatch h), fun cols row' he => ?_⟩
      injection he with he
      injection he with he1 he2
      subst he1 he2
      rcases List.mem_cons.mp hm with rfl | hm
      · obtain ⟨v, hv, hr⟩ := (first_starred h4 hk (hstar _ List.mem_cons_self) [] List.not_mem_nil h1).1 row hfirst
        exact ⟨v, by rw [hv], q, h2, h3, hr⟩
      · obtain ⟨v, hv, hr⟩ := (ih (.found hm hfirst)).2 _ _ rfl
        refine ⟨v, ?_, hr⟩
        rw [later (fun r hr => by rw [← hkey.1]; exact hap.1 _ hm r hr row hkey.2) hk]
        exact hv
    | missing hk hno =>
      refine ⟨fun _ => ?_, fun _ _ h => nomatch h⟩
      rw [later (hno t List.mem_cons_self) hk]
      exact (ih (.missing hk fun t' hm => hno t' (List.mem_cons_of_mem _ hm))).1 rfl

end Ditto.Cyme
