import Verif.Spec.CymeLines
import Verif.Lemmas.CymeTable
import Verif.Lemmas.CymeInfo
import Verif.Props.CymeCaps
import Mathlib.Tactic.Ring

/-! Lines of CYME files: lemmas. -/
namespace Ditto.Cyme
open Ditto Glm Spec

theorem rowSection_of {key sec : Text} (h : SectionOf key sec) : rowSection key = sec := by
  obtain ⟨k, n, hk, rfl, rfl⟩ := h
  unfold rowSection
  rw [stripStars_stars hk]
  rfl

theorem loadless {settings : Values} (h : Loadless settings) : isLoadSection settings = .ok false := by
  unfold isLoadSection
  rcases h with h | ⟨a, b, ha, hb, h1, h2⟩
  · rw [h]
  · rw [ha]
    dsimp only
    rw [if_neg (by rw [inText_iff]; exact h1), hb]
    dsimp only
    have : inText "load".toList (lower b) = false := by
      rw [Bool.eq_false_iff, Ne, inText_iff]
      exact h2
    rw [this]

theorem valueAt_in {N : Type} (num : Text → Option N) (d : Values) (k : Text) : valueAt num d k = numberIn num d k := by
  unfold valueAt floatAt numberIn
  cases getEntry k d with
  | none => rfl
  | some t =>
    dsimp only [Option.bind]
    cases num t <;> rfl

theorem thousandAt_in {N : Type} [Semiring N] (num : Text → Option N) (d : Values) (k : Text) :
    thousandAt num d k = (numberIn num d k).map fun x => 1000 * x := by
  unfold thousandAt floatAt numberIn thousand
  cases getEntry k d with
  | none => rfl
  | some t =>
    dsimp only [Option.bind]
    cases num t <;> rfl

theorem wire_of {N : Type} (num : Text → Option N) (data spacing : Values) (phase : Text) (device : Option Device) (o : Bool) :
    WireOf num data phase (configureWire num data spacing phase device o) :=
  ⟨rfl, rfl, valueAt_in num data _, valueAt_in num data _⟩

theorem entryOr_row (table : List (Text × Values)) (name : Option Text) : RowFor table name (entryOr name table) := by
  unfold entryOr
  cases name with
  | none => exact Or.inr ⟨(fun _ h => nomatch h), rfl⟩
  | some k =>
    dsimp only
    cases h : getEntry k table with
    | none =>
      refine Or.inr ⟨?_, rfl⟩
      intro k' hk'
      injection hk' with hk'
      rw [← hk', h]
    | some v => exact Or.inl ⟨k, rfl, h⟩

theorem rowFor_unique {table : List (Text × Values)} {name : Option Text} {a b : Values} (h : RowFor table name a) (h' : RowFor table name b) : a = b := by
  rcases h with ⟨k, rfl, ha⟩ | ⟨ha, rfl⟩ <;> rcases h' with ⟨k', hk, hb⟩ | ⟨hb, rfl⟩
  · injection hk with hk
    subst hk
    rw [ha] at hb
    injection hb
  · rw [hb k rfl] at ha
    cases ha
  · rw [ha k' hk] at hb
    cases hb
  · rfl

theorem deviceData_entry (table : List (Text × Values)) (settings : Values) : deviceData table settings = entryOr (getEntry "eqid".toList settings) table := by
  unfold deviceData entryOr
  cases getEntry "eqid".toList settings <;> rfl

/-! ### devices -/

theorem device_kind {settings : Values} {d : Device} (h : IsDevice settings d) : sectionKind settings = .device d := by
  obtain ⟨t, ht, h⟩ := h
  unfold sectionKind
  rw [h]
  have : ∀ p ∈ deviceTypes, inText "overhead".toList p.1.toList = false ∧ inText "underground".toList p.1.toList = false ∧
      (deviceKinds.find? fun q => inText q.1 p.1.toList).map (·.2) = some p.2 := by decide +kernel
  obtain ⟨h1, h2, h3⟩ := this _ ht
  dsimp only
  rw [h1, h2]
  dsimp only at h3
  cases hf : deviceKinds.find? fun q => inText q.1 t.toList with
  | none => rw [hf] at h3; cases h3
  | some q =>
    rw [hf] at h3
    injection h3 with h3
    rw [← h3]
    rfl

/-- what the reader takes for the phases that are closed -/
theorem closed_of {settings : Values} {closed : Text} (h : ClosedIn settings closed) : ∃ c, closedOf settings = .ok c ∧
    (∀ p, (p ∈ c ∧ lower c ≠ "none".toList) ↔ p ∈ closed) ∧ 'N' ∉ closed := by
  unfold closedOf
  rcases h with ⟨h, rfl⟩ | ⟨c, x, hm, h, rfl⟩
  · rw [h]
    exact ⟨_, rfl, fun p => ⟨fun hh => hh.1, fun hh => ⟨hh, by decide⟩⟩, by decide⟩
  · rw [h]
    have : ∀ p ∈ closedBy, (getEntry p.1.toList closedPhases = some p.2.toList ∧ lower p.2.toList ≠ "none".toList ∨
        getEntry p.1.toList closedPhases = some "none".toList ∧ p.2.toList = []) ∧ 'N' ∉ p.2.toList := by decide +kernel
    obtain ⟨h1, h2⟩ := this _ hm
    rcases h1 with ⟨h1, h3⟩ | ⟨h1, h3⟩
    · dsimp only at h1 ⊢
      rw [h1]
      exact ⟨_, rfl, fun p => ⟨fun hh => hh.1, fun hh => ⟨hh, h3⟩⟩, h2⟩
    · dsimp only at h1 h3 ⊢
      rw [h1, h3]
      exact ⟨_, rfl, fun p => ⟨fun hh => absurd (show lower "none".toList = "none".toList by decide) hh.2, fun hh => nomatch hh⟩, List.not_mem_nil⟩

theorem device_wires {N : Type} (num : Text → Option N) (d : Device) (data : Values) {c closed : Text}
    (hc : ∀ p, (p ∈ c ∧ lower c ≠ "none".toList) ↔ p ∈ closed) (hN : 'N' ∉ closed) : ∀ (phases : Text) (n : Nat), 'N' ∉ phases →
    ∃ (ws : List (LineWire N)) (w : LineWire N), deviceWires num d data c n (phases ++ ['N']) = ws ++ [w] ∧
      List.Forall₂ (fun p w => WireOf num data [p] w ∧ (w.isOpen = false ↔ p ∈ closed)) phases ws ∧
      WireOf num data "N".toList w ∧ (w.isOpen = false ↔ 1 ≤ n ∨ ∃ p ∈ phases, p ∈ closed) := by
  intro phases
  induction phases with
  | nil =>
    intro n _
    rw [List.nil_append, deviceWires, deviceWires, if_neg (fun h => hN ((hc 'N').mp h))]
    by_cases hn : 1 ≤ n
    · rw [if_pos ⟨rfl, hn⟩]
      refine ⟨[], _, rfl, .nil, wire_of .., ?_⟩
      exact ⟨fun _ => Or.inl hn, fun _ => rfl⟩
    · rw [if_neg fun h => hn h.2]
      refine ⟨[], _, rfl, .nil, wire_of .., ?_⟩
      constructor
      · intro h
        cases h
      · rintro (h | ⟨p, h, -⟩)
        · exact absurd h hn
        · cases h
  | cons p ps ih =>
    intro n hno
    have hp : p ≠ 'N' := fun h => hno (by rw [h]; exact List.mem_cons_self)
    have hps : 'N' ∉ ps := fun h => hno (List.mem_cons_of_mem _ h)
    rw [List.cons_append, deviceWires]
    by_cases hcl : p ∈ closed
    · obtain ⟨ws, w, h1, h2, h3, h4⟩ := ih (n + 1) hps
      rw [if_pos ((hc p).mpr hcl), h1]
      refine ⟨_ :: ws, w, rfl, .cons ⟨wire_of .., fun _ => hcl, fun _ => rfl⟩ h2, h3, h4.trans ?_⟩
      exact ⟨fun _ => Or.inr ⟨p, List.mem_cons_self, hcl⟩, fun _ => Or.inl (by omega)⟩
    · obtain ⟨ws, w, h1, h2, h3, h4⟩ := ih n hps
      rw [if_neg fun h => hcl ((hc p).mp h), if_neg fun h => hp h.1, h1]
      refine ⟨_ :: ws, w, rfl, .cons ⟨wire_of .., (fun h => by cases h), fun h => absurd h hcl⟩ h2, h3, h4.trans ?_⟩
      constructor
      · rintro (h | ⟨q, hq, hqc⟩)
        · exact Or.inl h
        · exact Or.inr ⟨q, List.mem_cons_of_mem _ hq, hqc⟩
      · rintro (h | ⟨q, hq, hqc⟩)
        · exact Or.inl h
        · rcases List.mem_cons.mp hq with rfl | hq
          · exact absurd hqc hcl
          · exact Or.inr ⟨q, hq, hqc⟩

theorem device_each {N : Type} (num : Text → Option N) (d : Device) (data : Values) (c : Text) : ∀ (phases : Text) (n : Nat),
    ∀ w ∈ deviceWires num d data c n phases, w.device = some d ∧ (d ≠ .switch → w.interrupting = numberIn num data "interruptingrating".toList) := by
  have one : ∀ (p : Text) (o : Bool), (configureWire num data [] p (some d) o).device = some d ∧
      (d ≠ .switch → (configureWire num data [] p (some d) o).interrupting = numberIn num data "interruptingrating".toList) := by
    intro p o
    refine ⟨rfl, fun hd => ?_⟩
    rw [← valueAt_in]
    cases d
    · exact absurd rfl hd
    all_goals rfl
  intro phases
  induction phases with
  | nil => intro _ _ h; cases h
  | cons p ps ih =>
    intro n w hw
    rw [deviceWires] at hw
    split_ifs at hw <;> rcases List.mem_cons.mp hw with rfl | hw
    · exact one ..
    · exact ih _ w hw
    · exact one ..
    · exact ih _ w hw
    · exact one ..
    · exact ih _ w hw

/-! ### lines -/

theorem laid_kind {settings : Values} {type : Text} (h : LaidIn settings type) : sectionKind settings = .line (some type) := by
  unfold sectionKind
  rcases h with ⟨h, rfl⟩ | ⟨h, rfl⟩
  · rcases List.mem_cons.mp h with h | h
    · rw [h]; decide +kernel
    · rw [List.mem_singleton.mp h]; decide +kernel
  · rw [h]; decide +kernel

theorem asBalanced_type (d : Values) : getEntry "type".toList (asBalanced d) = some "balanced_line".toList := by
  unfold asBalanced
  rw [getEntry_setEntry, if_pos rfl]

theorem asBalanced_other (d : Values) {k : Text} (h : k ≠ "type".toList) : getEntry k (asBalanced d) = getEntry k d := by
  unfold asBalanced
  rw [getEntry_setEntry, if_neg h]

/-- the data that the reader has for a balanced line -/
theorem balanced_data {t : LineTables} {settings : Values} {k : Text} {d : Values} (hk : getEntry "linecableid".toList settings = some k)
    (h : BalancedData t k d) : ∃ d', lineData t settings = some d' ∧ getEntry "type".toList d' = some "balanced_line".toList ∧
      ∀ k', k' ≠ "type".toList → getEntry k' d' = getEntry k' d := by
  unfold lineData
  rw [hk]
  dsimp only
  cases h with
  | line h1 h2 h3 h4 h5 =>
    rw [h1, h3, h4, h5]
    exact ⟨d, rfl, h2, fun _ _ => rfl⟩
  | concentric h1 h2 =>
    rw [h1, h2]
    exact ⟨asBalanced d, rfl, asBalanced_type d, fun k' hk' => asBalanced_other d hk'⟩
  | cable h1 =>
    rw [h1]
    exact ⟨asBalanced d, rfl, asBalanced_type d, fun k' hk' => asBalanced_other d hk'⟩

theorem unbalanced_data {t : LineTables} {settings : Values} {k : Text} {d : Values} (hk : getEntry "linecableid".toList settings = some k)
    (h : UnbalancedData t k d) : lineData t settings = some d := by
  unfold lineData
  rw [hk]
  dsimp only
  rw [h.row, h.others.1, h.others.2]
  rfl

theorem floatAt_in {N : Type} {num : Text → Option N} {d : Values} {k : Text} {x : N} (h : numberIn num d k = some x) : floatAt num d k = .ok x := by
  unfold numberIn at h
  unfold floatAt
  cases hg : getEntry k d with
  | none => rw [hg] at h; cases h
  | some t =>
    rw [hg] at h
    dsimp only
    rw [show num t = some x from h]

theorem impedanceAt_in {N : Type} [Field N] {num : Text → Option N} {d : Values} {a b : Text} {z : N × N} (h : ImpedanceIn num d a b z) :
    impedanceAt num d a b = .ok (z.1 / 1000, z.2 / 1000) := by
  unfold impedanceAt
  rw [floatAt_in h.1]
  dsimp only
  rw [floatAt_in h.2]

theorem numberIn_same {N : Type} (num : Text → Option N) {d d' : Values} {k : Text} (h : getEntry k d' = getEntry k d) :
    numberIn num d' k = numberIn num d k := by
  unfold numberIn
  rw [h]

theorem balanced_wires {N : Type} (num : Text → Option N) (t : LineTables) {d : Values} (h : getEntry "linecableid".toList d = none) (phases : Text) :
    ∃ ws n c cn, balancedWires num t d phases = .ok (ws ++ [n]) ∧ RowFor t.conductors (getEntry "phasecondid".toList d) c ∧
      RowFor t.conductors (getEntry "neutralcondid".toList d) cn ∧ List.Forall₂ (fun p w => WireOf num c [p] w) phases ws ∧
      WireOf num cn "N".toList n := by
  unfold balancedWires phaseConductor
  rw [h]
  refine ⟨_, _, _, _, rfl, entryOr_row .., entryOr_row .., ?_, wire_of ..⟩
  rw [List.forall₂_map_right_iff]
  exact List.forall₂_same.mpr fun p _ => wire_of ..

theorem balanced_entries {N : Type} [Field N] (z1 z0 : N × N) : balancedEntries (z1.1 / 1000, z1.2 / 1000) (z0.1 / 1000, z0.2 / 1000) =
    (((z0.1 + 2 * z1.1) / 3 / 1000, (z0.2 + 2 * z1.2) / 3 / 1000), ((z0.1 - z1.1) / 3 / 1000, (z0.2 - z1.2) / 3 / 1000)) := by
  unfold balancedEntries
  refine Prod.ext (Prod.ext ?_ ?_) (Prod.ext ?_ ?_) <;> dsimp only <;> ring

theorem balanced_matrix {N : Type} [Field N] {num : Text → Option N} {d : Values} {z1 z0 : N × N}
    (h1 : ImpedanceIn num d "r1".toList "x1".toList z1) (h0 : ImpedanceIn num d "r0".toList "x0".toList z0) {n : Nat} (hn : n = 2 ∨ n = 3) :
    balancedMatrix num d n = .ok (balancedIs z1 z0 n) := by
  unfold balancedMatrix
  rw [impedanceAt_in h0]
  dsimp only
  rw [if_neg (by omega), impedanceAt_in h1]
  dsimp only
  rw [balanced_entries]
  rcases hn with rfl | rfl
  · rw [if_pos rfl]; rfl
  · rw [if_neg (by decide)]; rfl

theorem balanced_single {N : Type} [Field N] {num : Text → Option N} {d : Values} {z0 : N × N}
    (h0 : ImpedanceIn num d "r0".toList "x0".toList z0) : balancedMatrix num d 1 = .ok [[(z0.1 / 3 / 1000, z0.2 / 3 / 1000)]] := by
  unfold balancedMatrix
  rw [impedanceAt_in h0]
  dsimp only
  rw [if_pos rfl]
  congr 4 <;> ring

/-! ### unbalanced lines -/

theorem nameAt_given (d : Values) (k x : Text) : nameAt d k = some x ↔ NameGiven d k x := by
  unfold nameAt NameGiven
  cases h : getEntry k d with
  | none => simp
  | some y =>
    dsimp only
    by_cases hy : lower y = "none".toList
    · rw [if_pos hy]
      refine ⟨(fun h => nomatch h), ?_⟩
      rintro ⟨h, hne⟩
      injection h with h
      subst h
      exact absurd hy hne
    · rw [if_neg hy]
      constructor
      · intro h
        injection h with h
        subst h
        exact ⟨rfl, hy⟩
      · rintro ⟨h, -⟩
        exact h

theorem conductorAt_known (t : LineTables) (d : Values) (k : Text) (c : Values) : conductorAt t d k = some c ↔ Known t d k c := by
  unfold conductorAt Known
  cases h : nameAt d k with
  | none =>
    refine ⟨(fun h => nomatch h), ?_⟩
    rintro ⟨x, hx, -⟩
    rw [(nameAt_given d k x).mpr hx] at h
    cases h
  | some x =>
    dsimp only
    refine ⟨fun hc => ⟨x, (nameAt_given d k x).mp h, hc⟩, ?_⟩
    rintro ⟨y, hy, hc⟩
    rw [(nameAt_given d k y).mpr hy] at h
    injection h with h
    rw [← h]
    exact hc

theorem conductorAt_unknown (t : LineTables) (d : Values) (k : Text) : conductorAt t d k = none ↔ ¬∃ c, Known t d k c := by
  rw [Option.eq_none_iff_forall_ne_some]
  constructor
  · rintro h ⟨c, hc⟩
    exact h c ((conductorAt_known t d k c).mpr hc)
  · intro h c hc
    exact h ⟨c, (conductorAt_known t d k c).mp hc⟩

theorem entry_conductor (t : LineTables) (d : Values) (k : Text) : ConductorIs t d k (entryOr (nameAt d k) t.conductors) := by
  have : entryOr (nameAt d k) t.conductors = match conductorAt t d k with | some c => c | none => [] := by
    unfold entryOr conductorAt
    cases nameAt d k with
    | none => rfl
    | some x =>
      dsimp only
      cases getEntry x t.conductors <;> rfl
  rw [this]
  cases h : conductorAt t d k with
  | none => exact Or.inr ⟨(conductorAt_unknown t d k).mp h, rfl⟩
  | some c => exact Or.inl ((conductorAt_known t d k c).mp h)

theorem neutrals_are {N : Type} (num : Text → Option N) (t : LineTables) (d spacing : Values) :
    NeutralsAre num t d (unbalancedNeutrals num t d spacing) := by
  unfold unbalancedNeutrals
  cases h1 : conductorAt t d "condid_n1".toList with
  | none =>
    dsimp only
    have hn1 := (conductorAt_unknown t d _).mp h1
    cases h : conductorAt t d "condid_n".toList with
    | none => exact .none ((conductorAt_unknown t d _).mp h) hn1
    | some c => exact .one (fun ⟨c1, _, hc, _⟩ => hn1 ⟨c1, hc⟩) ((conductorAt_known t d _ c).mp h) (wire_of ..)
  | some c1 =>
    have hk1 := (conductorAt_known t d _ c1).mp h1
    cases h2 : conductorAt t d "condid_n2".toList with
    | some c2 => exact .two hk1 ((conductorAt_known t d _ c2).mp h2) (wire_of ..) (wire_of ..)
    | none =>
      have hn2 := (conductorAt_unknown t d _).mp h2
      dsimp only
      cases h : conductorAt t d "condid_n".toList with
      | none => exact .first hn2 ((conductorAt_unknown t d _).mp h) hk1 (wire_of ..)
      | some c => exact .one (fun ⟨_, c2, _, hc⟩ => hn2 ⟨c2, hc⟩) ((conductorAt_known t d _ c).mp h) (wire_of ..)

theorem unbalanced_wires {N : Type} (num : Text → Option N) (t : LineTables) (d : Values) (phases : Text) :
    ∃ ws ns, unbalancedWires num t d phases = ws ++ ns ∧
      List.Forall₂ (fun p w => ∃ c, ConductorIs t d (conductorColumn p) c ∧ WireOf num c [p] w) phases ws ∧ NeutralsAre num t d ns := by
  refine ⟨_, _, rfl, ?_, neutrals_are ..⟩
  rw [List.forall₂_map_right_iff]
  exact List.forall₂_same.mpr fun p _ => ⟨_, entry_conductor t d (conductorColumn p), wire_of ..⟩

/-- the impedances that are read, by their columns -/
theorem own_in {N : Type} [Field N] {num : Text → Option N} {d : Values} {p : Char} {a b : String} {u : N × N} (ha : phaseKey "r".toList p = a.toList)
    (hb : phaseKey "x".toList p = b.toList) (h : ImpedanceIn num d a.toList b.toList u) : ownImpedance num d p = .ok (u.1 / 1000, u.2 / 1000) := by
  unfold ownImpedance
  rw [ha, hb]
  exact impedanceAt_in h

theorem mutual_in {N : Type} [Field N] {num : Text → Option N} {d : Values} {pair : Text} {a b : String} {u : N × N}
    (ha : "mutualresistance".toList ++ pair = a.toList) (hb : "mutualreactance".toList ++ pair = b.toList)
    (h : ImpedanceIn num d a.toList b.toList u) : mutualImpedance num d pair = .ok (u.1 / 1000, u.2 / 1000) := by
  unfold mutualImpedance
  rw [ha, hb]
  exact impedanceAt_in h

theorem twoMatrix_ok {N : Type} [Field N] {num : Text → Option N} {d : Values} {p q : Char} {pair : Text} {a m b : N × N}
    (h1 : ownImpedance num d p = .ok a) (h2 : mutualImpedance num d pair = .ok m) (h3 : ownImpedance num d q = .ok b) :
    twoMatrix num d p q pair = .ok [[a, m], [m, b]] := by
  unfold twoMatrix
  rw [h1, h2, h3]

theorem unbalanced_matrix {N : Type} [Field N] {num : Text → Option N} {d : Values} (hc : Complete num d) {phases : Text}
    (hp : phases ∈ ["AB".toList, "AC".toList, "BC".toList, "ABC".toList]) : ∃ m, unbalancedMatrix num d phases = .ok m ∧ UnbalancedIs num d phases m := by
  obtain ⟨a, ha⟩ := hc ('A', 'A', "ra", "xa") (by decide)
  obtain ⟨b, hb⟩ := hc ('B', 'B', "rb", "xb") (by decide)
  obtain ⟨c, hcc⟩ := hc ('C', 'C', "rc", "xc") (by decide)
  obtain ⟨ab, hab⟩ := hc ('A', 'B', "mutualresistanceab", "mutualreactanceab") (by decide)
  obtain ⟨bc, hbc⟩ := hc ('B', 'C', "mutualresistancebc", "mutualreactancebc") (by decide)
  obtain ⟨ca, hca⟩ := hc ('C', 'A', "mutualresistanceca", "mutualreactanceca") (by decide)
  have oa := own_in (num := num) (d := d) (p := 'a') (by decide) (by decide) ha
  have ob := own_in (num := num) (d := d) (p := 'b') (by decide) (by decide) hb
  have oc := own_in (num := num) (d := d) (p := 'c') (by decide) (by decide) hcc
  have mab := mutual_in (num := num) (d := d) (pair := "ab".toList) (by decide) (by decide) hab
  have mbc := mutual_in (num := num) (d := d) (pair := "bc".toList) (by decide) (by decide) hbc
  have mca := mutual_in (num := num) (d := d) (pair := "ca".toList) (by decide) (by decide) hca
  have pa : PairIs num d 'A' 'A' _ := ⟨"ra", "xa", a, by decide, ha, rfl⟩
  have pb : PairIs num d 'B' 'B' _ := ⟨"rb", "xb", b, by decide, hb, rfl⟩
  have pc : PairIs num d 'C' 'C' _ := ⟨"rc", "xc", c, by decide, hcc, rfl⟩
  have pab : PairIs num d 'A' 'B' _ := ⟨_, _, ab, by decide, hab, rfl⟩
  have pba : PairIs num d 'B' 'A' _ := ⟨_, _, ab, by decide, hab, rfl⟩
  have pbc : PairIs num d 'B' 'C' _ := ⟨_, _, bc, by decide, hbc, rfl⟩
  have pcb : PairIs num d 'C' 'B' _ := ⟨_, _, bc, by decide, hbc, rfl⟩
  have pca : PairIs num d 'C' 'A' _ := ⟨_, _, ca, by decide, hca, rfl⟩
  have pac : PairIs num d 'A' 'C' _ := ⟨_, _, ca, by decide, hca, rfl⟩
  have s1 : sortedPair ('A' : Char).toLower ('B' : Char).toLower = ('a', 'b') := by decide
  have s2 : sortedPair ('A' : Char).toLower ('C' : Char).toLower = ('a', 'c') := by decide
  have s3 : sortedPair ('B' : Char).toLower ('C' : Char).toLower = ('b', 'c') := by decide
  simp only [List.mem_cons, List.not_mem_nil, or_false] at hp
  rcases hp with rfl | rfl | rfl | rfl
  · refine ⟨_, ?_, .cons (.cons pa (.cons pab .nil)) (.cons (.cons pba (.cons pb .nil)) .nil)⟩
    show unbalancedMatrix num d ['A', 'B'] = _
    rw [unbalancedMatrix, s1, if_neg (by decide)]
    exact twoMatrix_ok oa mab ob
  · refine ⟨_, ?_, .cons (.cons pa (.cons pac .nil)) (.cons (.cons pca (.cons pc .nil)) .nil)⟩
    show unbalancedMatrix num d ['A', 'C'] = _
    rw [unbalancedMatrix, s2, if_pos rfl]
    exact twoMatrix_ok oa mca oc
  · refine ⟨_, ?_, .cons (.cons pb (.cons pbc .nil)) (.cons (.cons pcb (.cons pc .nil)) .nil)⟩
    show unbalancedMatrix num d ['B', 'C'] = _
    rw [unbalancedMatrix, s3, if_neg (by decide)]
    exact twoMatrix_ok ob mbc oc
  · refine ⟨_, ?_, .cons (.cons pa (.cons pab (.cons pac .nil))) (.cons (.cons pba (.cons pb (.cons pbc .nil)))
      (.cons (.cons pca (.cons pcb (.cons pc .nil))) .nil))⟩
    show unbalancedMatrix num d ['A', 'B', 'C'] = _
    rw [unbalancedMatrix]
    · rw [oa, ob, oc, mab, mbc, mca]
    · intro p h; simp at h
    · intro p q h; simp at h

end Ditto.Cyme
