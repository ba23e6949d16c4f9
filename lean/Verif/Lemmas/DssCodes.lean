import Verif.Spec.DssCodes
import Verif.Lemmas.Json
import Mathlib.Data.List.Nodup
import Mathlib.Data.Rat.Defs

/-! Helper lemmas for C50. -/
namespace Ditto.Dss
open Ditto Ditto.Spec Ditto.Json

/-! ### Numbered names -/

theorem not_digit_suffix {a b xs ys : List Char} {c : Char} (hx : c ∉ xs) (hy : c ∉ ys) (h : a ++ c :: xs = b ++ c :: ys) : xs = ys := by
  have := congrArg List.reverse h
  simp only [List.reverse_append, List.reverse_cons, List.append_assoc, List.singleton_append] at this
  have key : ∀ (u v r s : List Char), c ∉ u → c ∉ v → u ++ c :: r = v ++ c :: s → u = v := by
    intro u
    induction u with
    | nil =>
      intro v r s _ hv h
      cases v with
      | nil => rfl
      | cons d v =>
        simp only [List.nil_append, List.cons_append, List.cons.injEq] at h
        exact absurd (h.1 ▸ List.mem_cons_self) hv
    | cons d u ih =>
      intro v r s hu hv h
      cases v with
      | nil =>
        simp only [List.nil_append, List.cons_append, List.cons.injEq] at h
        exact absurd (h.1 ▸ List.mem_cons_self) hu
      | cons e v =>
        simp only [List.cons_append, List.cons.injEq] at h
        rw [h.1, ih v r s (fun hm => hu (List.mem_cons_of_mem _ hm)) (fun hm => hv (List.mem_cons_of_mem _ hm)) h.2]
  have h2 := key _ _ _ _ (by rwa [List.mem_reverse]) (by rwa [List.mem_reverse]) this
  exact List.reverse_injective h2

theorem digits_inj {m n : Nat} (h : Nat.toDigits 10 m = Nat.toDigits 10 n) : m = n := by
  have h1 := @Nat.ofDigitChars_toDigits 10 m (by decide) (by decide)
  have h2 := @Nat.ofDigitChars_toDigits 10 n (by decide) (by decide)
  rw [← h1, ← h2, h]

theorem not_mem_repr {c : Char} (hc : c.isDigit = false) (n : Nat) : c ∉ n.repr.toList := by
  intro h
  rw [Nat.toList_repr] at h
  have := Nat.isDigit_of_mem_toDigits (by decide) (by decide) h
  rw [hc] at this
  cases this

theorem numbered_inj {a b : String} {m n : Nat} (h : numbered a m = numbered b n) : m = n := by
  have h1 := congrArg String.toList h
  simp only [numbered, String.toList_append] at h1
  have hu : "_".toList = ['_'] := rfl
  rw [hu, List.append_assoc, List.append_assoc, List.singleton_append, List.singleton_append] at h1
  have h2 := not_digit_suffix (not_mem_repr (by decide) m) (not_mem_repr (by decide) n) h1
  rw [Nat.toList_repr, Nat.toList_repr] at h2
  exact digits_inj h2

/-! ### Dictionaries -/

theorem lookup_isSome_mem {α : Type} {d : List (String × α)} {k : String} {v : α} (h : d.lookup k = some v) : (k, v) ∈ d := by
  induction d with
  | nil => cases h
  | cons e es ih =>
    obtain ⟨k', v'⟩ := e
    rw [List.lookup_cons] at h
    split at h
    · rename_i heq
      have : k = k' := by simpa using heq
      subst this
      cases h
      exact List.mem_cons_self
    · exact List.mem_cons_of_mem _ (ih h)

theorem lookup_of_mem_nodup {α : Type} {d : List (String × α)} {k : String} {v : α} (hn : (d.map (·.1)).Nodup) (h : (k, v) ∈ d) : d.lookup k = some v := by
  induction d with
  | nil => cases h
  | cons e es ih =>
    obtain ⟨k', v'⟩ := e
    rw [List.map_cons, List.nodup_cons] at hn
    rw [List.lookup_cons]
    rcases List.mem_cons.1 h with heq | h'
    · cases heq; simp
    · have hne : k ≠ k' := by
        rintro rfl
        exact hn.1 (List.mem_map.2 ⟨(k, v), h', rfl⟩)
      have : (k == k') = false := by simpa using hne
      rw [this]
      exact ih hn.2 h'

theorem lookup_none_iff {α : Type} {d : List (String × α)} {k : String} : d.lookup k = none ↔ k ∉ d.map (·.1) := by
  induction d with
  | nil => simp
  | cons e es ih =>
    obtain ⟨k', v'⟩ := e
    rw [List.lookup_cons]
    by_cases hk : k = k'
    · subst hk; simp
    · have : (k == k') = false := by simpa using hk
      rw [this, List.map_cons, List.mem_cons, not_or]
      simp only [ih]
      exact ⟨fun h => ⟨hk, h⟩, fun h => h.2⟩

theorem mem_setKey_keys {α : Type} {k k' : String} {v : α} {d : List (String × α)} (h : k' ∈ (setKey k v d).map (·.1)) : k' = k ∨ k' ∈ d.map (·.1) := by
  rw [setKey_keys] at h
  split at h
  · exact .inr h
  · rcases List.mem_append.1 h with h | h
    · exact .inr h
    · exact .inl (List.mem_singleton.1 h)

theorem mem_setKey {α : Type} {k : String} {v : α} {d : List (String × α)} {e : String × α} (h : e ∈ setKey k v d) : e = (k, v) ∨ e ∈ d := by
  induction d with
  | nil => exact .inl (List.mem_singleton.1 h)
  | cons a as ih =>
    rw [setKey] at h
    split at h
    · rcases List.mem_cons.1 h with h | h
      · exact .inl h
      · exact .inr (List.mem_cons_of_mem _ h)
    · rcases List.mem_cons.1 h with h | h
      · exact .inr (h ▸ List.mem_cons_self)
      · rcases ih h with h | h
        · exact .inl h
        · exact .inr (List.mem_cons_of_mem _ h)

theorem findKey_some {P : Type} [DecidableEq P] {p : P} {d : List (String × P)} {k : String} (h : findKey p d = some k) : (k, p) ∈ d := by
  unfold findKey at h
  have := List.mem_of_getLast? h
  obtain ⟨e, he, hk⟩ := List.mem_map.1 this
  obtain ⟨h1, h2⟩ := List.mem_filter.1 he
  have h3 : e.2 = p := by simpa using h2
  rw [← hk, ← h3]
  exact h1

theorem findKey_none {P : Type} [DecidableEq P] {p : P} {d : List (String × P)} (h : findKey p d = none) : ∀ e ∈ d, e.2 ≠ p := by
  unfold findKey at h
  rw [List.getLast?_eq_none_iff, List.map_eq_nil_iff, List.filter_eq_nil_iff] at h
  intro e he
  simpa using h e he

/-! ### Loops with a state -/

theorem mapState_spec {σ α β : Type} {f : σ → α → σ × β} (I : σ → Prop) (R : σ → σ → Prop) (P : σ → α → β → Prop)
    (hrefl : ∀ s, R s s) (htrans : ∀ {a b c}, R a b → R b c → R a c) (hmono : ∀ {s t a b}, R s t → P s a b → P t a b) :
    ∀ (l : List α) (s : σ), (∀ s, I s → ∀ a ∈ l, I (f s a).1 ∧ R s (f s a).1 ∧ P (f s a).1 a (f s a).2) → I s →
      I (mapState f s l).1 ∧ R s (mapState f s l).1 ∧ List.Forall₂ (P (mapState f s l).1) l (mapState f s l).2 := by
  intro l
  induction l with
  | nil => intro s _ hI; exact ⟨hI, hrefl s, .nil⟩
  | cons a as ih =>
    intro s hstep hI
    obtain ⟨h1, h2, h3⟩ := hstep s hI a List.mem_cons_self
    obtain ⟨h4, h5, h6⟩ := ih (f s a).1 (fun s hs b hb => hstep s hs b (List.mem_cons_of_mem _ hb)) h1
    exact ⟨h4, htrans h2 h5, .cons (hmono h5 h3) h6⟩

theorem mapStatePy_spec {σ α β : Type} {f : σ → α → Py (σ × β)} (I : σ → Prop) (R : σ → σ → Prop) (P : σ → α → β → Prop)
    (hrefl : ∀ s, R s s) (htrans : ∀ {a b c}, R a b → R b c → R a c) (hmono : ∀ {s t a b}, R s t → P s a b → P t a b) :
    ∀ (l : List α) (s : σ), (∀ s, I s → ∀ a ∈ l, ∃ r, f s a = .ok r ∧ I r.1 ∧ R s r.1 ∧ P r.1 a r.2) → I s →
      ∃ r, mapStatePy f s l = .ok r ∧ I r.1 ∧ R s r.1 ∧ List.Forall₂ (P r.1) l r.2 := by
  intro l
  induction l with
  | nil => intro s _ hI; exact ⟨(s, []), rfl, hI, hrefl s, .nil⟩
  | cons a as ih =>
    intro s hstep hI
    obtain ⟨r, h0, h1, h2, h3⟩ := hstep s hI a List.mem_cons_self
    obtain ⟨rs, g0, h4, h5, h6⟩ := ih r.1 (fun s hs b hb => hstep s hs b (List.mem_cons_of_mem _ hb)) h1
    exact ⟨(rs.1, r.2 :: rs.2), by simp only [mapStatePy, h0, g0], h4, htrans h2 h5, .cons (hmono h5 h3) h6⟩

/-! ### Names -/

/-- the keys of a dictionary: given names, or numbered ones with numbers below the counter -/
structure NameInv {P : Type} (names : String → Prop) (pre : List String) (vals : P → Prop) (d : List (String × P)) (cnt : Nat) : Prop where
  nodup : (d.map (·.1)).Nodup
  keys : ∀ k ∈ d.map (·.1), names k ∨ ∃ b, (names b ∨ b ∈ pre) ∧ ∃ m < cnt, k = numbered b m
  vals : ∀ e ∈ d, vals e.2

theorem NameInv.mono {P : Type} {names : String → Prop} {pre : List String} {vals : P → Prop} {d : List (String × P)} {m n : Nat}
    (h : NameInv names pre vals d m) (hmn : m ≤ n) : NameInv names pre vals d n :=
  ⟨h.nodup, fun k hk => (h.keys k hk).imp id fun ⟨b, hb, i, hi, he⟩ => ⟨b, hb, i, lt_of_lt_of_le hi hmn, he⟩, h.vals⟩

/-- a new numbered name is not in a dictionary -/
theorem NameInv.fresh {P : Type} {names : String → Prop} {pre : List String} {vals : P → Prop} {d : List (String × P)} {cnt : Nat}
    (h : NameInv names pre vals d cnt) (hclash : ∀ n, names n → ∀ b m, n ≠ numbered b m ∨ ¬ names b ∧ b ∉ pre) {b : String}
    (hb : names b ∨ b ∈ pre) : numbered b cnt ∉ d.map (·.1) := by
  intro hmem
  rcases h.keys _ hmem with hn | ⟨b', _, m, hm, he⟩
  · rcases hclash _ hn b cnt with h | ⟨h1, h2⟩
    · exact h rfl
    · rcases hb with hb | hb
      · exact h1 hb
      · exact h2 hb
  · exact absurd (numbered_inj he) (by omega)

theorem noClash_fresh {names : String → Prop} {pre : List String} (h : NoClash names pre) :
    ∀ n, names n → ∀ b m, n ≠ numbered b m ∨ ¬ names b ∧ b ∉ pre := by
  intro n hn b m
  by_cases hb : names b ∨ b ∈ pre
  · exact .inl (h n hn b hb m)
  · rw [not_or] at hb; exact .inr hb

theorem NameInv.set {P : Type} {names : String → Prop} {pre : List String} {vals : P → Prop} {d : List (String × P)} {cnt : Nat}
    (h : NameInv names pre vals d cnt) {k : String} {p : P} (hv : vals p)
    (hk : names k ∨ ∃ b, (names b ∨ b ∈ pre) ∧ ∃ m < cnt, k = numbered b m) : NameInv names pre vals (setKey k p d) cnt := by
  refine ⟨setKey_nodup _ _ h.nodup, fun k' hk' => ?_, fun e he => ?_⟩
  · rcases mem_setKey_keys hk' with rfl | hk'
    · exact hk
    · exact h.keys _ hk'
  · rcases mem_setKey he with rfl | he
    · exact hv
    · exact h.vals e he

/-- all entries are still there -/
def Ext {P : Type} (d d' : List (String × P)) : Prop := ∀ k v, d.lookup k = some v → d'.lookup k = some v

theorem ext_setKey {P : Type} {d : List (String × P)} {k : String} {p : P} (h : d.lookup k = none) : Ext d (setKey k p d) := by
  intro k' v hv
  rw [lookup_setKey]
  by_cases hk : k' = k
  · subst hk; rw [h] at hv; cases hv
  · rw [if_neg hk]; exact hv

/-- naming an entry: it has its data under its name, the other entries are unchanged, and every new key is the name -/
theorem assignName_spec {P : Type} [DecidableEq P] {names : String → Prop} {pre : List String} {vals : P → Prop} {d : List (String × P)} {cnt : Nat}
    {pr : String} {p : P} {nc : Option String} (hclash : NoClash names pre) (h : NameInv names pre vals d cnt) (hpr : pr ∈ pre) (hv : vals p)
    (hnc : ∀ n, nc = some n → names n) {r : String × List (String × P) × Nat} (hr : assignName pr p nc d cnt = r) :
    r.2.1.lookup r.1 = some p ∧ Ext d r.2.1 ∧ NameInv names pre vals r.2.1 r.2.2 ∧ cnt ≤ r.2.2 ∧
      ∀ k ∈ r.2.1.map (·.1), k ∈ d.map (·.1) ∨ names k ∨ ∃ b, (names b ∨ b ∈ pre) ∧ k = numbered b cnt := by
  have new : ∀ b, (names b ∨ b ∈ pre) → (setKey (numbered b cnt) p d).lookup (numbered b cnt) = some p ∧ Ext d (setKey (numbered b cnt) p d) ∧
      NameInv names pre vals (setKey (numbered b cnt) p d) (cnt + 1) ∧ cnt ≤ cnt + 1 ∧
      ∀ k ∈ (setKey (numbered b cnt) p d).map (·.1), k ∈ d.map (·.1) ∨ names k ∨ ∃ b, (names b ∨ b ∈ pre) ∧ k = numbered b cnt := by
    intro b hb
    refine ⟨by rw [lookup_setKey, if_pos rfl], ext_setKey ?_, (h.mono (Nat.le_succ _)).set hv (.inr ⟨b, hb, cnt, Nat.lt_succ_self _, rfl⟩),
      Nat.le_succ _, fun k hk => ?_⟩
    · exact lookup_none_iff.2 (h.fresh (noClash_fresh hclash) hb)
    · rcases mem_setKey_keys hk with rfl | hk
      · exact .inr (.inr ⟨b, hb, rfl⟩)
      · exact .inl hk
  unfold assignName at hr
  cases nc with
  | some n =>
    simp only at hr
    cases hl : d.lookup n with
    | none =>
      rw [hl] at hr
      subst hr
      refine ⟨by rw [lookup_setKey, if_pos rfl], ext_setKey hl, h.set hv (.inl (hnc n rfl)), le_refl _, fun k hk => ?_⟩
      rcases mem_setKey_keys hk with rfl | hk
      · exact .inr (.inl (hnc _ rfl))
      · exact .inl hk
    | some q =>
      rw [hl] at hr
      simp only at hr
      by_cases hq : q ≠ p
      · rw [if_pos hq] at hr
        subst hr
        exact new n (.inl (hnc n rfl))
      · rw [if_neg hq] at hr
        subst hr
        exact ⟨by rw [hl, not_not.1 hq], fun _ _ h => h, h, le_refl _, fun k hk => .inl hk⟩
  | none =>
    simp only at hr
    cases hf : findKey p d with
    | some k =>
      rw [hf] at hr
      subst hr
      exact ⟨lookup_of_mem_nodup h.nodup (findKey_some hf), fun _ _ h => h, h, le_refl _, fun k hk => .inl hk⟩
    | none =>
      rw [hf] at hr
      subst hr
      exact new pr (.inr hpr)

/-! ### Wire data -/

theorem parseWire_nil {w : DWire} : parseWire w = [] ↔ ¬ HasData w := by
  obtain ⟨nc, ph, x, y, gmr, dia, amp, em, res, ins, a1, a2, a3, a4, a5⟩ := w
  unfold HasData parseWire
  cases gmr <;> cases dia <;> cases amp <;> cases em <;> cases res <;> simp [entry, entryUnit]

theorem parseCable_ne_nil (w : DWire) : parseCable w ≠ [] := by
  unfold parseCable
  intro h
  rw [List.append_eq_nil_iff] at h
  cases h.2

/-- what holds of the two dictionaries while wires are written -/
structure WireInv (ls : List DLine) (st : WireState) : Prop where
  wires : NameInv (WireName ls false) ["Wire", "CNCable"] (fun p => ∃ l ∈ ls, ¬ Underground l ∧ ∃ w ∈ l.wires, p = parseWire w) st.wires st.cnt
  cables : NameInv (WireName ls true) ["Wire", "CNCable"] (fun p => ∃ l ∈ ls, Underground l ∧ ∃ w ∈ l.wires, p = parseCable w) st.cables st.cnt
  disj : (∀ n, WireName ls false n → ¬ WireName ls true n) → ∀ k ∈ st.wires.map (·.1), k ∉ st.cables.map (·.1)

def WireExt (s t : WireState) : Prop := Ext s.wires t.wires ∧ Ext s.cables t.cables

theorem wireStep_spec {ls : List DLine} (hclash : NoClash (fun n => WireName ls false n ∨ WireName ls true n) ["Wire", "CNCable"])
    {l : DLine} (hl : l ∈ ls) {st : WireState} (hI : WireInv ls st) {w : DWire} (hw : w ∈ l.wires) :
    WireInv ls (wireStep (decide (l.lineType = some "underground")) st w).1 ∧
      WireExt st (wireStep (decide (l.lineType = some "underground")) st w).1 ∧
      WireRefers (wireStep (decide (l.lineType = some "underground")) st w).1 (decide (l.lineType = some "underground")) w
        (wireStep (decide (l.lineType = some "underground")) st w).2 := by
  have hclW : NoClash (WireName ls false) ["Wire", "CNCable"] := fun n hn b hb m => hclash n (.inl hn) b (hb.imp .inl id) m
  have hclC : NoClash (WireName ls true) ["Wire", "CNCable"] := fun n hn b hb m => hclash n (.inr hn) b (hb.imp .inr id) m
  by_cases hu : l.lineType = some "underground"
  · rw [decide_eq_true hu]
    unfold wireStep
    rw [if_neg (by decide), if_neg (parseCable_ne_nil w)]
    have hs := assignName_spec (pr := "CNCable") (p := parseCable w) (nc := w.nameclass) hclC hI.cables (by simp)
      (show ∃ l ∈ ls, Underground l ∧ ∃ w' ∈ l.wires, parseCable w = parseCable w' from ⟨l, hl, hu, w, hw, rfl⟩)
      (fun n hn => ⟨l, hl, ⟨fun _ => rfl, fun _ => hu⟩, w, hw, hn⟩) rfl
    obtain ⟨h1, h2, h3, h4, h5⟩ := hs
    refine ⟨⟨hI.wires.mono h4, h3, fun hd k hk hk' => ?_⟩, ⟨fun _ _ h => h, h2⟩, rfl, fun h => absurd h (by decide), fun _ => ⟨_, rfl, h1⟩⟩
    rcases h5 k hk' with h | h | ⟨b, hb, rfl⟩
    · exact hI.disj hd k hk h
    · rcases hI.wires.keys k hk with h' | ⟨b, hb, m, _, rfl⟩
      · exact hd k h' h
      · exact hclash _ (.inr h) b (hb.imp .inl id) m rfl
    · rcases hI.wires.keys _ hk with h' | ⟨b', hb', m, hm, he⟩
      · exact hclash _ (.inl h') b (hb.imp .inr id) _ rfl
      · exact absurd (numbered_inj he) (by omega)
  · rw [decide_eq_false hu]
    unfold wireStep
    rw [if_pos rfl]
    by_cases hp : parseWire w = []
    · rw [if_pos hp]
      exact ⟨hI, ⟨fun _ _ h => h, fun _ _ h => h⟩, rfl, fun _ => ⟨fun h => absurd h (parseWire_nil.1 hp), fun _ => rfl⟩, fun h => absurd h (by decide)⟩
    · rw [if_neg hp]
      have hs := assignName_spec (pr := "Wire") (p := parseWire w) (nc := w.nameclass) hclW hI.wires (by simp)
        (show ∃ l ∈ ls, ¬ Underground l ∧ ∃ w' ∈ l.wires, parseWire w = parseWire w' from ⟨l, hl, hu, w, hw, rfl⟩)
        (fun n hn => ⟨l, hl, ⟨fun h => absurd h hu, fun h => absurd h (by decide)⟩, w, hw, hn⟩) rfl
      obtain ⟨h1, h2, h3, h4, h5⟩ := hs
      refine ⟨⟨h3, hI.cables.mono h4, fun hd k hk hk' => ?_⟩, ⟨h2, fun _ _ h => h⟩, rfl,
        fun _ => ⟨fun _ => ⟨_, rfl, h1⟩, fun h => absurd (parseWire_nil.2 h) hp⟩, fun h => absurd h (by decide)⟩
      rcases h5 k hk with h | h | ⟨b, hb, rfl⟩
      · exact hI.disj hd k h hk'
      · rcases hI.cables.keys k hk' with h' | ⟨b, hb, m, _, rfl⟩
        · exact hd k h h'
        · exact hclash _ (.inl h) b (hb.imp .inr id) m rfl
      · rcases hI.cables.keys _ hk' with h' | ⟨b', hb', m, hm, he⟩
        · exact hclash _ (.inr h') b (hb.imp .inl id) _ rfl
        · exact absurd (numbered_inj he) (by omega)

theorem wireRefers_mono {s t : WireState} {c : Bool} {w w' : DWire} (h : WireExt s t) (hr : WireRefers s c w w') : WireRefers t c w w' :=
  ⟨hr.1, fun hc => ⟨fun hd => let ⟨n, h1, h2⟩ := (hr.2.1 hc).1 hd; ⟨n, h1, h.1 _ _ h2⟩, (hr.2.1 hc).2⟩,
    fun hc => let ⟨n, h1, h2⟩ := hr.2.2 hc; ⟨n, h1, h.2 _ _ h2⟩⟩

theorem wireExt_refl (s : WireState) : WireExt s s := ⟨fun _ _ h => h, fun _ _ h => h⟩

theorem wireExt_trans {a b c : WireState} (h : WireExt a b) (h' : WireExt b c) : WireExt a c :=
  ⟨fun _ _ hk => h'.1 _ _ (h.1 _ _ hk), fun _ _ hk => h'.2 _ _ (h.2 _ _ hk)⟩

theorem lineWires_spec {ls : List DLine} (hclash : NoClash (fun n => WireName ls false n ∨ WireName ls true n) ["Wire", "CNCable"])
    {l : DLine} (hl : l ∈ ls) {st : WireState} (hI : WireInv ls st) :
    WireInv ls (lineWires st l).1 ∧ WireExt st (lineWires st l).1 ∧ LineRefers (lineWires st l).1 l (lineWires st l).2 := by
  obtain ⟨h1, h2, h3⟩ := mapState_spec (f := wireStep (decide (l.lineType = some "underground"))) (WireInv ls) WireExt
    (fun st w w' => WireRefers st (decide (l.lineType = some "underground")) w w') wireExt_refl wireExt_trans wireRefers_mono
    l.wires st (fun s hs w hw => wireStep_spec hclash hl hs hw) hI
  exact ⟨h1, h2, rfl, decide (l.lineType = some "underground"), by simp [Underground], h3⟩

theorem wires_spec {ls : List DLine} (hclash : NoClash (fun n => WireName ls false n ∨ WireName ls true n) ["Wire", "CNCable"]) :
    WireInv ls (writeWiredata ls).1 ∧ List.Forall₂ (LineRefers (writeWiredata ls).1) ls (writeWiredata ls).2 := by
  obtain ⟨h1, -, h3⟩ := mapState_spec (f := lineWires) (WireInv ls) WireExt LineRefers wireExt_refl wireExt_trans
    (fun h ⟨h1, c, h2, h3⟩ => ⟨h1, c, h2, h3.imp fun _ _ => wireRefers_mono h⟩)
    ls {} (fun s hs l hl => lineWires_spec hclash hl hs)
    ⟨⟨List.nodup_nil, fun k hk => absurd hk List.not_mem_nil, fun e he => absurd he List.not_mem_nil⟩,
      ⟨List.nodup_nil, fun k hk => absurd hk List.not_mem_nil, fun e he => absurd he List.not_mem_nil⟩, fun _ k hk => absurd hk List.not_mem_nil⟩
  exact ⟨h1, h3⟩

/-! ### Geometries -/

theorem phaseCount_eq (l : DLine) : (l.wires.filter isPhase).length = phaseCount l := by
  unfold phaseCount
  rw [← List.countP_eq_length_filter]
  congr 1
  funext w
  unfold isPhase
  by_cases h1 : w.phase = some "A" <;> by_cases h2 : w.phase = some "B" <;> by_cases h3 : w.phase = some "C" <;> simp [h1, h2, h3]

theorem mapPy_forall {α β : Type} {f : α → Py β} {P : α → β → Prop} : ∀ {l : List α}, (∀ a ∈ l, ∃ b, f a = .ok b ∧ P a b) →
    ∃ bs, mapPy f l = .ok bs ∧ List.Forall₂ P l bs := by
  intro l
  induction l with
  | nil => intro _; exact ⟨[], rfl, .nil⟩
  | cons a as ih =>
    intro h
    obtain ⟨b, h1, h2⟩ := h a List.mem_cons_self
    obtain ⟨bs, h3, h4⟩ := ih fun c hc => h c (List.mem_cons_of_mem _ hc)
    exact ⟨b :: bs, by rw [mapPy, h1, h3], .cons h2 h4⟩

theorem forall2_right {α β : Type} {R : α → β → Prop} {l : List α} {m : List β} (h : List.Forall₂ R l m) {b : β} (hb : b ∈ m) : ∃ a ∈ l, R a b := by
  induction h with
  | nil => cases hb
  | cons h1 _ ih =>
    rcases List.mem_cons.1 hb with rfl | hb
    · exact ⟨_, List.mem_cons_self, h1⟩
    · obtain ⟨a, ha, h⟩ := ih hb
      exact ⟨a, List.mem_cons_of_mem _ ha, h⟩

theorem forall2_trans {α β γ : Type} {R : α → β → Prop} {S : β → γ → Prop} {T : α → γ → Prop} (hT : ∀ a b c, R a b → S b c → T a c) :
    ∀ {l : List α} {m : List β} {n : List γ}, List.Forall₂ R l m → List.Forall₂ S m n → List.Forall₂ T l n
  | _, _, _, .nil, .nil => .nil
  | _, _, _, .cons h1 h2, .cons h3 h4 => .cons (hT _ _ _ h1 h3) (forall2_trans hT h2 h4)

/-- a wire that refers to its data gives a conductor that describes it -/
theorem condOf_spec {ls : List DLine} {st : WireState} (hI : WireInv ls st) (hdisj : ∀ n, WireName ls false n → ¬ WireName ls true n)
    {c : Bool} {w w' : DWire} (h : WireRefers st c w w') (hd : c = false → HasData w) : ∃ r, condOf st w' = .ok r ∧ Describes st c w r := by
  have hx : w'.x = w.x := by rw [h.1]
  have hy : w'.y = w.y := by rw [h.1]
  have ha : w'.ampacity = w.ampacity := by rw [h.1]
  have he : w'.emergency = w.emergency := by rw [h.1]
  unfold condOf
  cases c with
  | false =>
    obtain ⟨n, h1, h2⟩ := (h.2.1 rfl).1 (hd rfl)
    rw [h1]
    refine ⟨⟨false, n, w'.x, w'.y, w'.ampacity, w'.emergency⟩, ?_, rfl, by simpa using h2, hx, hy, ha, he⟩
    simp only [h2, Option.isSome_some, if_true]
  | true =>
    obtain ⟨n, h1, h2⟩ := h.2.2 rfl
    rw [h1]
    have hno : st.wires.lookup n = none := by
      rw [lookup_none_iff]
      intro hmem
      exact hI.disj hdisj n hmem (List.mem_map.2 ⟨(n, _), lookup_isSome_mem h2, rfl⟩)
    refine ⟨⟨true, n, w'.x, w'.y, w'.ampacity, w'.emergency⟩, ?_, rfl, by simpa using h2, hx, hy, ha, he⟩
    simp only [hno, h2, Option.isSome_some, Option.isSome_none, if_true]
    rfl

theorem refers_phaseCount {st : WireState} {l l' : DLine} (h : LineRefers st l l') : phaseCount l' = phaseCount l ∧ l'.wires.length = l.wires.length := by
  obtain ⟨-, c, -, h2⟩ := h
  refine ⟨?_, h2.length_eq.symm⟩
  unfold phaseCount
  generalize l.wires = a at h2
  generalize l'.wires = b at h2
  induction h2 with
  | nil => rfl
  | @cons w w' _ _ h3 _ ih =>
    have : w'.phase = w.phase := by rw [h3.1]
    simp only [List.countP_cons, ih, this]

theorem parseGeometry_spec {ls : List DLine} {st : WireState} (hI : WireInv ls st) (hdisj : ∀ n, WireName ls false n → ¬ WireName ls true n)
    {l l' : DLine} (h : LineRefers st l l') (hd : ∀ w ∈ l.wires, HasData w) : ∃ g, parseGeometry st l' = .ok g ∧ DescribesLine st l g := by
  obtain ⟨hp, hn⟩ := refers_phaseCount h
  obtain ⟨h1, c, h2, h3⟩ := h
  have : ∃ cs, mapPy (condOf st) l'.wires = .ok cs ∧ List.Forall₂ (Describes st c) l.wires cs := by
    clear h1 hn hp
    generalize l.wires = a at h3 hd
    generalize l'.wires = b at h3
    induction h3 with
    | nil => exact ⟨[], rfl, .nil⟩
    | cons h4 _ ih =>
      obtain ⟨r, hr, hr'⟩ := condOf_spec hI hdisj h4 (fun _ => hd _ List.mem_cons_self)
      obtain ⟨cs, hc, hc'⟩ := ih fun w hw => hd w (List.mem_cons_of_mem _ hw)
      exact ⟨r :: cs, by rw [mapPy, hr, hc], .cons hr' hc'⟩
  obtain ⟨cs, hc, hc'⟩ := this
  refine ⟨_, by rw [parseGeometry, hc], ?_, ?_, c, h2, hc'⟩
  · exact (phaseCount_eq l').trans hp
  · have : phaseCount l ≤ l.wires.length := List.countP_le_length
    simp only [phaseCount_eq, hp, hn, decide_eq_true_eq]
    omega

/-- what holds of the dictionary of geometries -/
def GeoInv (ls : List DLine) (st : GeoState) : Prop := NameInv (LineName ls) ["Geometry"] (fun _ => True) st.geos st.cpt

theorem geometryStep_spec {ls : List DLine} {ws : WireState} (hclash : NoClash (LineName ls) ["Geometry"]) {st : GeoState} (hG : GeoInv ls st)
    {l : DLine} (hl : ∀ n, l.nameclass = some n → LineName ls n) (h : ∃ g, parseGeometry ws l = .ok g) :
    ∃ r, geometryStep ws st l = .ok r ∧ GeoInv ls r.1 ∧ Ext st.geos r.1.geos ∧
      (∃ n g, r.2 = { l with nameclass := some n } ∧ r.1.geos.lookup n = some g ∧ parseGeometry ws l = .ok g) := by
  obtain ⟨g, h1⟩ := h
  have hs := assignName_spec (pr := "Geometry") (p := g) (nc := l.nameclass) (vals := fun _ => True) hclash hG (by simp) trivial hl rfl
  obtain ⟨h3, h4, h5, -⟩ := hs
  refine ⟨(⟨(assignName "Geometry" g l.nameclass st.geos st.cpt).2.1, (assignName "Geometry" g l.nameclass st.geos st.cpt).2.2⟩,
    { l with nameclass := some (assignName "Geometry" g l.nameclass st.geos st.cpt).1 }), by rw [geometryStep, h1], h5, h4, _, g, rfl, h3, h1⟩

theorem geometries_spec {ls ls' : List DLine} {ws : WireState} (hclash : NoClash (LineName ls) ["Geometry"])
    (hl : ∀ l ∈ ls', ∀ n, l.nameclass = some n → LineName ls n) (h : ∀ l ∈ ls', ∃ g, parseGeometry ws l = .ok g) :
    ∃ gs ls'', writeGeometries ws ls' = .ok (gs, ls'') ∧ (gs.geos.map (·.1)).Nodup ∧
      List.Forall₂ (fun l l'' => ∃ n g, l'' = { l with nameclass := some n } ∧ gs.geos.lookup n = some g ∧ parseGeometry ws l = .ok g) ls' ls'' := by
  obtain ⟨r, h1, h2, -, h3⟩ := mapStatePy_spec (f := geometryStep ws) (GeoInv ls) (fun s t => Ext s.geos t.geos)
    (fun st l l'' => ∃ n g, l'' = { l with nameclass := some n } ∧ st.geos.lookup n = some g ∧ parseGeometry ws l = .ok g)
    (fun _ _ _ h => h) (fun h h' _ _ hk => h' _ _ (h _ _ hk)) (fun h ⟨n, g, h1, h2, h3⟩ => ⟨n, g, h1, h _ _ h2, h3⟩)
    ls' {} (fun s hs l hm => geometryStep_spec hclash hs (hl l hm) (h l hm))
    ⟨List.nodup_nil, fun k hk => absurd hk List.not_mem_nil, fun e he => absurd he List.not_mem_nil⟩
  exact ⟨r.1, r.2, h1, h2.nodup, h3⟩

theorem hasData_of_known {l : DLine} (h : GeometryKnown l) : ∀ w ∈ l.wires, HasData w := by
  intro w hw
  obtain ⟨-, -, ⟨g, hg⟩, -⟩ := h.2 w hw
  exact .inl (by rw [hg]; simp)

/-! ### Line codes -/

/-- the name of the code of a line with a nameclass -/
def userCode (l : DLine) (nc : String) : String := nc ++ "_" ++ (phaseCount l).repr

theorem userCode_inj {l l' : DLine} {n n' : String} (h : userCode l n = userCode l' n') : n = n' ∧ phaseCount l = phaseCount l' := by
  have h1 : phaseCount l = phaseCount l' := numbered_inj h
  refine ⟨?_, h1⟩
  unfold userCode at h
  rw [h1] at h
  exact String.append_left_inj _ |>.1 (String.append_left_inj _ |>.1 h)

theorem codeName_form (l : DLine) (m : Nat) : ∃ a, (codeName l m).toList = a ++ '_' :: ("Code".toList ++ m.repr.toList) := by
  unfold codeName
  simp only [String.toList_append]
  have h1 : "P_".toList = ['P', '_'] := rfl
  have h2 : "OH_".toList = ['O', 'H', '_'] := rfl
  have h3 : "UG_".toList = ['U', 'G', '_'] := rfl
  have h4 : "".toList = [] := rfl
  by_cases ho : l.lineType = some "overhead"
  · have hu : l.lineType ≠ some "underground" := by rw [ho]; decide
    rw [if_pos ho, if_neg hu, h1, h2, h4]
    exact ⟨(l.wires.filter isPhase).length.repr.toList ++ ['P', '_', 'O', 'H'], by simp⟩
  · by_cases hu : l.lineType = some "underground"
    · rw [if_neg ho, if_pos hu, h1, h3, h4]
      exact ⟨(l.wires.filter isPhase).length.repr.toList ++ ['P', '_', 'U', 'G'], by simp⟩
    · rw [if_neg ho, if_neg hu, h1, h4]
      exact ⟨(l.wires.filter isPhase).length.repr.toList ++ ['P'], by simp⟩

theorem not_mem_code (m : Nat) : '_' ∉ "Code".toList ++ m.repr.toList := by
  rw [List.mem_append, not_or]
  exact ⟨by decide, not_mem_repr (by decide) m⟩

theorem code_ne_digits (m k : Nat) : "Code".toList ++ m.repr.toList ≠ k.repr.toList := by
  intro h
  have : 'C' ∈ k.repr.toList := by rw [← h]; exact List.mem_append_left _ (by decide)
  exact not_mem_repr (by decide) k this

theorem codeName_ne_user (l l' : DLine) (n : String) (m : Nat) : userCode l n ≠ codeName l' m := by
  intro h
  obtain ⟨a, ha⟩ := codeName_form l' m
  have h1 := congrArg String.toList h
  rw [ha] at h1
  simp only [userCode, String.toList_append] at h1
  have hu : "_".toList = ['_'] := rfl
  rw [hu, List.append_assoc, List.singleton_append] at h1
  exact code_ne_digits m (phaseCount l) (not_digit_suffix (not_mem_repr (by decide) _) (not_mem_code m) h1).symm

theorem codeName_inj {l l' : DLine} {m m' : Nat} (h : codeName l m = codeName l' m') : m = m' := by
  obtain ⟨a, ha⟩ := codeName_form l m
  obtain ⟨b, hb⟩ := codeName_form l' m'
  have h1 := congrArg String.toList h
  rw [ha, hb] at h1
  have h2 := not_digit_suffix (not_mem_code m) (not_mem_code m') h1
  have h3 := List.append_cancel_left h2
  rw [Nat.toList_repr, Nat.toList_repr] at h3
  exact digits_inj h3

/-- what holds of the codes while they are written -/
structure CodeInv (ls : List DLine) (st : CodeState) : Prop where
  nodup : (st.all.map (·.1)).Nodup
  keys : ∀ k ∈ st.all.map (·.1), (∃ l ∈ ls, ∃ n, l.nameclass = some n ∧ k = userCode l n) ∨ ∃ l, ∃ m < st.cnt, k = codeName l m
  vals : ∀ l ∈ ls, ∀ n, l.nameclass = some n → ∀ q, st.all.lookup (userCode l n) = some q → q = parseLine l
  files : ∀ key txt, st.files.lookup key = some txt → (txt.map (·.1)).Nodup ∧ Ext txt st.all
  some : ∀ k v, st.all.lookup k = some v → ∃ key txt, st.files.lookup key = some txt ∧ txt.lookup k = some v

/-- all definitions are still there -/
def CodeExt (s t : CodeState) : Prop := Ext s.all t.all ∧ ∀ key txt, s.files.lookup key = some txt → ∃ txt', t.files.lookup key = some txt' ∧ Ext txt txt'

/-- `l'` is the line `l` with the name of a code with its own data; if it had a name already, in its own file -/
def CodeRefers (sf ss : Bool) (st : CodeState) (l l' : DLine) : Prop :=
  ∃ n, l' = { l with nameclass := some n } ∧ st.all.lookup n = some (parseLine l) ∧
    ((l.nameclass ≠ none ∨ (sf = false ∧ ss = false)) → ∃ txt, st.files.lookup (groupKey (groupOf sf ss l.feeder l.substation)) = some txt ∧
      txt.lookup n = some (parseLine l)) ∧
    ∀ nc, l.nameclass = some nc → n = userCode l nc

theorem codeExt_refl (s : CodeState) : CodeExt s s := ⟨fun _ _ h => h, fun _ txt h => ⟨txt, h, fun _ _ h => h⟩⟩

theorem codeExt_trans {a b c : CodeState} (h : CodeExt a b) (h' : CodeExt b c) : CodeExt a c :=
  ⟨fun _ _ hk => h'.1 _ _ (h.1 _ _ hk), fun key txt ht => by
    obtain ⟨t1, h1, h2⟩ := h.2 key txt ht
    obtain ⟨t2, h3, h4⟩ := h'.2 key t1 h1
    exact ⟨t2, h3, fun _ _ hk => h4 _ _ (h2 _ _ hk)⟩⟩

theorem codeRefers_mono {sf ss : Bool} {s t : CodeState} {l l' : DLine} (h : CodeExt s t) (hr : CodeRefers sf ss s l l') : CodeRefers sf ss t l l' := by
  obtain ⟨n, h1, h2, h3, h4⟩ := hr
  refine ⟨n, h1, h.1 _ _ h2, fun hc => ?_, h4⟩
  obtain ⟨txt, h5, h6⟩ := h3 hc
  obtain ⟨txt', h7, h8⟩ := h.2 _ _ h5
  exact ⟨txt', h7, h8 _ _ h6⟩

/-- the new file of a line: what can be added to a file -/
theorem files_set {ls : List DLine} {st : CodeState} (hI : CodeInv ls st) (key : String) {all : List (String × Params)} {txt : List (String × Params)}
    {cnt : Nat} (hall : Ext st.all all) (htxt : Ext ((st.files.lookup key).getD []) txt) (hsub : Ext txt all) (hnd : (txt.map (·.1)).Nodup)
    (hnew : ∀ k v, all.lookup k = some v → st.all.lookup k = some v ∨ txt.lookup k = some v) :
    (∀ key' t, (setKey key txt st.files).lookup key' = some t → (t.map (·.1)).Nodup ∧ Ext t all) ∧
      (∀ k v, all.lookup k = some v → ∃ key' t, (setKey key txt st.files).lookup key' = some t ∧ t.lookup k = some v) ∧
      CodeExt st ⟨all, setKey key txt st.files, cnt⟩ := by
  have hfile : ∀ key' t, st.files.lookup key' = some t → ∃ t', (setKey key txt st.files).lookup key' = some t' ∧ Ext t t' := by
    intro key' t ht
    by_cases hk : key' = key
    · subst hk
      rw [ht] at htxt
      exact ⟨txt, by rw [lookup_setKey, if_pos rfl], htxt⟩
    · exact ⟨t, by rw [lookup_setKey, if_neg hk]; exact ht, fun _ _ h => h⟩
  refine ⟨fun key' t ht => ?_, fun k v hv => ?_, hall, hfile⟩
  · rw [lookup_setKey] at ht
    by_cases hk : key' = key
    · rw [if_pos hk] at ht
      cases ht
      exact ⟨hnd, hsub⟩
    · rw [if_neg hk] at ht
      exact ⟨(hI.files _ _ ht).1, fun _ _ h => hall _ _ ((hI.files _ _ ht).2 _ _ h)⟩
  · rcases hnew k v hv with h | h
    · obtain ⟨key', t, h1, h2⟩ := hI.some k v h
      obtain ⟨t', h3, h4⟩ := hfile _ _ h1
      exact ⟨key', t', h3, h4 _ _ h2⟩
    · exact ⟨key, txt, by rw [lookup_setKey, if_pos rfl], h⟩

theorem file_inv {ls : List DLine} {st : CodeState} (hI : CodeInv ls st) (key : String) :
    (((st.files.lookup key).getD []).map (·.1)).Nodup ∧ Ext ((st.files.lookup key).getD []) st.all := by
  cases h : st.files.lookup key with
  | none => exact ⟨List.nodup_nil, fun k v hk => by cases hk⟩
  | some t => exact hI.files _ _ h

theorem ext_set_both {txt all : List (String × Params)} {n : String} {p : Params} (h : Ext txt all) : Ext (setKey n p txt) (setKey n p all) := by
  intro k v hv
  rw [lookup_setKey] at hv ⊢
  by_cases hk : k = n
  · rw [if_pos hk] at hv ⊢; exact hv
  · rw [if_neg hk] at hv ⊢; exact h _ _ hv

theorem ext_set_txt {txt all : List (String × Params)} {n : String} {p : Params} (h : Ext txt all) (hn : all.lookup n = some p) : Ext (setKey n p txt) all := by
  intro k v hv
  rw [lookup_setKey] at hv
  by_cases hk : k = n
  · rw [if_pos hk] at hv; rw [hk, hn]; exact hv
  · rw [if_neg hk] at hv; exact h _ _ hv

theorem none_of_ext {txt all : List (String × Params)} {n : String} (h : Ext txt all) (hn : all.lookup n = none) : txt.lookup n = none := by
  cases ht : txt.lookup n with
  | none => rfl
  | some v => rw [h _ _ ht] at hn; cases hn

theorem lookup_set_new {all txt : List (String × Params)} {n : String} {p : Params} :
    ∀ k v, (setKey n p all).lookup k = some v → all.lookup k = some v ∨ (setKey n p txt).lookup k = some v := by
  intro k v hv
  rw [lookup_setKey] at hv
  by_cases hk : k = n
  · right; rw [lookup_setKey, if_pos hk]; rwa [if_pos hk] at hv
  · left; rwa [if_neg hk] at hv

/-- all codes are in the only file -/
def OneFile (key : String) (st : CodeState) : Prop := ∀ k v, st.all.lookup k = some v → ∃ txt, st.files.lookup key = some txt ∧ txt.lookup k = some v

theorem linecodeStep_spec {ls : List DLine} (sf ss : Bool) (hcons : Consistent ls) {l : DLine} (hl : l ∈ ls) {st : CodeState} (hI : CodeInv ls st)
    (hone : sf = false ∧ ss = false → OneFile "DEFAULT_DEFAULT" st) :
    CodeInv ls (linecodeStep sf ss st l).1 ∧ (sf = false ∧ ss = false → OneFile "DEFAULT_DEFAULT" (linecodeStep sf ss st l).1) ∧
      CodeExt st (linecodeStep sf ss st l).1 ∧ CodeRefers sf ss (linecodeStep sf ss st l).1 l (linecodeStep sf ss st l).2 := by
  have hkey : sf = false ∧ ss = false → groupKey (groupOf sf ss l.feeder l.substation) = "DEFAULT_DEFAULT" := by
    rintro ⟨rfl, rfl⟩; rfl
  unfold linecodeStep codeStep CodeRefers
  simp only
  generalize groupKey (groupOf sf ss l.feeder l.substation) = key at hkey ⊢
  obtain ⟨hnd, hsub⟩ := file_inv hI key
  have hfile : ∀ {cnt all txt}, Ext st.all all → Ext ((st.files.lookup key).getD []) txt → Ext txt all → (txt.map (·.1)).Nodup →
      (∀ k v, all.lookup k = some v → st.all.lookup k = some v ∨ txt.lookup k = some v) →
      ((∀ key' t, (setKey key txt st.files).lookup key' = some t → (t.map (·.1)).Nodup ∧ Ext t all) ∧
      (∀ k v, all.lookup k = some v → ∃ key' t, (setKey key txt st.files).lookup key' = some t ∧ t.lookup k = some v) ∧
      CodeExt st ⟨all, setKey key txt st.files, cnt⟩) ∧
      (sf = false ∧ ss = false → OneFile "DEFAULT_DEFAULT" ⟨all, setKey key txt st.files, cnt⟩) := by
    intro cnt all txt h1 h2 h3 h4 h5
    refine ⟨files_set hI key h1 h2 h3 h4 h5, fun hc k v hv => ?_⟩
    have hk := hkey hc
    subst hk
    refine ⟨txt, by simp only [lookup_setKey, if_true], ?_⟩
    rcases h5 k v hv with h | h
    · obtain ⟨t, h6, h7⟩ := hone hc k v h
      rw [h6] at h2
      exact h2 _ _ h7
    · exact h
  have hself : ∀ {txt}, (setKey key txt st.files).lookup key = some txt := fun {txt} => by rw [lookup_setKey, if_pos rfl]
  cases hnc : l.nameclass with
  | some nc =>
    simp only [phaseCount_eq]
    have hu : nc ++ "_" ++ (phaseCount l).repr = userCode l nc := rfl
    rw [hu]
    have hkeys : ∀ k ∈ (setKey (userCode l nc) (parseLine l) st.all).map (·.1),
        (∃ l ∈ ls, ∃ n, l.nameclass = some n ∧ k = userCode l n) ∨ ∃ l, ∃ m < st.cnt, k = codeName l m := by
      intro k hk
      rcases mem_setKey_keys hk with rfl | hk
      · exact .inl ⟨l, hl, nc, hnc, rfl⟩
      · exact hI.keys k hk
    cases hlk : st.all.lookup (userCode l nc) with
    | none =>
      simp only
      obtain ⟨⟨h1, h2, h3⟩, h4⟩ := hfile (cnt := st.cnt) (ext_setKey (p := parseLine l) hlk)
        (ext_setKey (p := parseLine l) (none_of_ext hsub hlk)) (ext_set_both hsub) (setKey_nodup _ _ hnd) lookup_set_new
      refine ⟨⟨setKey_nodup _ _ hI.nodup, hkeys, fun l' hl' n hn q hq => ?_, h1, h2⟩, h4, h3,
        _, rfl, by simp only [lookup_setKey, if_true], fun _ => ⟨_, hself, by simp only [lookup_setKey, if_true]⟩, fun nc' h => by cases h; rfl⟩
      rw [lookup_setKey] at hq
      by_cases he : userCode l' n = userCode l nc
      · rw [if_pos he] at hq
        cases hq
        obtain ⟨he1, he2⟩ := userCode_inj he
        exact hcons l hl l' hl' nc hnc (he1 ▸ hn) he2.symm
      · rw [if_neg he] at hq
        exact hI.vals l' hl' n hn q hq
    | some q =>
      have hq : q = parseLine l := hI.vals l hl nc hnc q hlk
      subst hq
      simp only
      by_cases ht : (((st.files.lookup key).getD []).lookup (userCode l nc)).isNone = true
      · rw [if_pos ht]
        obtain ⟨⟨h1, h2, h3⟩, h4⟩ := hfile (cnt := st.cnt) (fun _ _ h => h) (ext_setKey (p := parseLine l) (Option.isNone_iff_eq_none.1 ht))
          (ext_set_txt hsub hlk) (setKey_nodup _ _ hnd) (fun _ _ h => .inl h)
        exact ⟨⟨hI.nodup, hI.keys, hI.vals, h1, h2⟩, h4, h3, _, rfl, hlk, fun _ => ⟨_, hself, by simp only [lookup_setKey, if_true]⟩,
          fun nc' h => by cases h; rfl⟩
      · rw [if_neg ht, if_neg (by simp)]
        obtain ⟨⟨h1, h2, h3⟩, h4⟩ := hfile (cnt := st.cnt) (fun _ _ h => h) (fun _ _ h => h) hsub hnd (fun _ _ h => .inl h)
        refine ⟨⟨hI.nodup, hI.keys, hI.vals, h1, h2⟩, h4, h3, _, rfl, hlk, fun _ => ⟨_, hself, ?_⟩, fun nc' h => by cases h; rfl⟩
        cases ht' : ((st.files.lookup key).getD []).lookup (userCode l nc) with
        | none => rw [ht'] at ht; simp at ht
        | some v => rw [← hlk]; exact (hsub _ _ ht').symm
  | none =>
    simp only
    cases hf : findKey (parseLine l) st.all with
    | some k =>
      simp only
      obtain ⟨⟨h1, h2, h3⟩, h4⟩ := hfile (cnt := st.cnt) (fun _ _ h => h) (fun _ _ h => h) hsub hnd (fun _ _ h => .inl h)
      have hk := lookup_of_mem_nodup hI.nodup (findKey_some hf)
      refine ⟨⟨hI.nodup, hI.keys, hI.vals, h1, h2⟩, h4, h3, k, rfl, hk, fun hc => ?_, fun nc' h => by cases h⟩
      rcases hc with hc | hc
      · exact absurd rfl hc
      · have := h4 hc k _ hk
        rwa [← hkey hc] at this
    | none =>
      simp only
      have hfresh : st.all.lookup (codeName l st.cnt) = none := by
        rw [lookup_none_iff]
        intro hmem
        rcases hI.keys _ hmem with ⟨l', _, n, _, he⟩ | ⟨l', m, hm, he⟩
        · exact codeName_ne_user l' l n _ he.symm
        · exact absurd (codeName_inj he) (by omega)
      obtain ⟨⟨h1, h2, h3⟩, h4⟩ := hfile (cnt := st.cnt + 1) (ext_setKey (p := parseLine l) hfresh)
        (ext_setKey (p := parseLine l) (none_of_ext hsub hfresh)) (ext_set_both hsub) (setKey_nodup _ _ hnd) lookup_set_new
      refine ⟨⟨setKey_nodup _ _ hI.nodup, fun k hk => ?_, fun l' hl' n hn q hq => ?_, h1, h2⟩, h4, h3,
        _, rfl, by simp only [lookup_setKey, if_true], fun _ => ⟨_, hself, by simp only [lookup_setKey, if_true]⟩, fun nc' h => by cases h⟩
      · rcases mem_setKey_keys hk with rfl | hk
        · exact .inr ⟨l, st.cnt, Nat.lt_succ_self _, rfl⟩
        · exact (hI.keys k hk).imp id fun ⟨l', m, hm, he⟩ => ⟨l', m, Nat.lt_succ_of_lt hm, he⟩
      · rw [lookup_setKey, if_neg (codeName_ne_user l' l n _)] at hq
        exact hI.vals l' hl' n hn q hq

theorem linecodes_spec {ls : List DLine} (sf ss : Bool) (hcons : Consistent ls) :
    CodeInv ls (writeLinecodes sf ss ls).1 ∧ List.Forall₂ (CodeRefers sf ss (writeLinecodes sf ss ls).1) ls (writeLinecodes sf ss ls).2 := by
  obtain ⟨h1, -, h3⟩ := mapState_spec (f := linecodeStep sf ss)
    (fun st => CodeInv ls st ∧ (sf = false ∧ ss = false → OneFile "DEFAULT_DEFAULT" st)) CodeExt (CodeRefers sf ss)
    codeExt_refl codeExt_trans codeRefers_mono ls {}
    (fun s hs l hl => let ⟨a, b, c, d⟩ := linecodeStep_spec sf ss hcons hl hs.1 hs.2; ⟨⟨a, b⟩, c, d⟩)
    ⟨⟨List.nodup_nil, fun k hk => absurd hk List.not_mem_nil, fun l _ n _ q hq => (by cases hq), fun key t ht => (by cases ht), fun k v hv => (by cases hv)⟩,
      fun _ k v hv => by cases hv⟩
  exact ⟨h1.1, h3⟩

/-! ### Cleaned names -/

theorem cleanChars_alnum : ∀ {xs : List Char}, (∀ c ∈ xs, c.isAlphanum = true) → ∀ ys b, xs ≠ [] → cleanChars b (xs ++ ys) = xs ++ cleanChars false ys := by
  intro xs
  induction xs with
  | nil => intro _ _ _ h; exact absurd rfl h
  | cons c cs ih =>
    intro h ys b _
    rw [List.cons_append, cleanChars, if_pos (h c List.mem_cons_self), List.cons_append]
    cases cs with
    | nil => rfl
    | cons d ds => rw [ih (fun e he => h e (List.mem_cons_of_mem _ he)) ys false (by simp)]

theorem cleanChars_self {xs : List Char} (h : ∀ c ∈ xs, c.isAlphanum = true) (b : Bool) : cleanChars b xs = xs := by
  cases xs with
  | nil => rfl
  | cons c cs =>
    have := cleanChars_alnum h [] b (by simp)
    rw [List.append_nil] at this
    rw [this]
    exact List.append_nil _

theorem cleanChars_skip {ds : List Char} (h : ∀ c ∈ ds, c.isAlphanum = true) :
    ∀ (b : Bool) (xs : List Char), (b = true ∧ cleanChars b (xs ++ '_' :: ds) = ds) ∨ ∃ a, cleanChars b (xs ++ '_' :: ds) = a ++ '_' :: ds := by
  intro b xs
  induction xs generalizing b with
  | nil =>
    rw [List.nil_append, cleanChars, if_neg (by decide), cleanChars_self h]
    cases b with
    | true => exact .inl ⟨rfl, if_pos rfl⟩
    | false => exact .inr ⟨[], if_neg (by decide)⟩
  | cons c cs ih =>
    rw [List.cons_append, cleanChars]
    by_cases hc : c.isAlphanum = true
    · rw [if_pos hc]
      rcases ih false with h1 | ⟨a, h1⟩
      · exact absurd h1.1 (by decide)
      · exact .inr ⟨c :: a, by rw [h1]; rfl⟩
    · rw [if_neg hc]
      cases b with
      | true =>
        rw [if_pos rfl]
        exact ih true
      | false =>
        rw [if_neg (by decide)]
        rcases ih true with ⟨-, h1⟩ | ⟨a, h1⟩
        · exact .inr ⟨[], by rw [h1]; rfl⟩
        · exact .inr ⟨'_' :: a, by rw [h1]; rfl⟩

theorem repr_alnum (n : Nat) : ∀ c ∈ n.repr.toList, c.isAlphanum = true := by
  intro c hc
  rw [Nat.toList_repr] at hc
  have := Nat.isDigit_of_mem_toDigits (by decide) (by decide) hc
  rw [Char.isAlphanum, this, Bool.or_true]

theorem clean_user (l : DLine) (n : String) : ∃ a, (cleanName (userCode l n)).toList = a ++ '_' :: (phaseCount l).repr.toList := by
  unfold cleanName userCode
  rw [String.toList_ofList, String.toList_append, String.toList_append]
  have hu : "_".toList = ['_'] := rfl
  rw [hu, List.append_assoc, List.singleton_append]
  rcases cleanChars_skip (repr_alnum (phaseCount l)) false n.toList with h | h
  · exact absurd h.1 (by decide)
  · exact h

theorem clean_code (l : DLine) (m : Nat) : cleanName (codeName l m) = codeName l m := by
  have key : ∀ (d : Nat) (mid : List Char), (mid = [] ∨ mid = ['O', 'H', '_'] ∨ mid = ['U', 'G', '_']) →
      cleanChars false (d.repr.toList ++ (['P', '_'] ++ (mid ++ ("Code".toList ++ m.repr.toList)))) =
        d.repr.toList ++ (['P', '_'] ++ (mid ++ ("Code".toList ++ m.repr.toList))) := by
    intro d mid hmid
    have hd : d.repr.toList ≠ [] := by rw [Nat.toList_repr]; exact Nat.toDigits_ne_nil
    have hcode : ∀ b, cleanChars b ("Code".toList ++ m.repr.toList) = "Code".toList ++ m.repr.toList := fun b =>
      cleanChars_self (fun c hc => by
        rcases List.mem_append.1 hc with hc | hc
        · exact (by decide : ∀ c ∈ "Code".toList, c.isAlphanum = true) c hc
        · exact repr_alnum m c hc) b
    rw [cleanChars_alnum (repr_alnum d) _ _ hd]
    congr 1
    rw [List.cons_append, cleanChars, if_pos (by decide), List.cons_append, cleanChars, if_neg (by decide), if_neg (by decide), List.nil_append]
    congr 2
    rcases hmid with rfl | rfl | rfl
    · exact hcode true
    all_goals
      simp only [List.cons_append, List.nil_append]
      rw [cleanChars, if_pos (by decide), cleanChars, if_pos (by decide), cleanChars, if_neg (by decide), if_neg (by decide), hcode true]
  unfold cleanName
  have h1 : (codeName l m).toList = (phaseCount l).repr.toList ++ (['P', '_'] ++
      (((if l.lineType = some "overhead" then ['O', 'H', '_'] else []) ++ (if l.lineType = some "underground" then ['U', 'G', '_'] else [])) ++
        ("Code".toList ++ m.repr.toList))) := by
    unfold codeName
    rw [phaseCount_eq]
    simp only [String.toList_append]
    have h1 : "P_".toList = ['P', '_'] := rfl
    have h2 : (if l.lineType = some "overhead" then "OH_" else "").toList = if l.lineType = some "overhead" then ['O', 'H', '_'] else [] := by
      split <;> rfl
    have h3 : (if l.lineType = some "underground" then "UG_" else "").toList = if l.lineType = some "underground" then ['U', 'G', '_'] else [] := by
      split <;> rfl
    rw [h1, h2, h3]
    simp only [List.append_assoc]
  rw [h1, key, ← h1, String.ofList_toList]
  by_cases ho : l.lineType = some "overhead"
  · have hu : l.lineType ≠ some "underground" := by rw [ho]; decide
    rw [if_pos ho, if_neg hu]; exact .inr (.inl rfl)
  · by_cases hu : l.lineType = some "underground"
    · rw [if_neg ho, if_pos hu]; exact .inr (.inr rfl)
    · rw [if_neg ho, if_neg hu]; exact .inl rfl

/-- the cleaned names of the codes are different -/
theorem clean_inj {ls : List DLine} {st : CodeState} (hI : CodeInv ls st) (hclean : CleanDistinct ls) {k k' : String} (hk : k ∈ st.all.map (·.1))
    (hk' : k' ∈ st.all.map (·.1)) (h : cleanName k = cleanName k') : k = k' := by
  rcases hI.keys k hk with ⟨l, hl, n, hn, rfl⟩ | ⟨l, m, hm, rfl⟩ <;> rcases hI.keys k' hk' with ⟨l', hl', n', hn', rfl⟩ | ⟨l', m', hm', rfl⟩
  · exact hclean l hl l' hl' n n' hn hn' h
  · obtain ⟨a, ha⟩ := clean_user l n
    obtain ⟨b, hb⟩ := codeName_form l' m'
    rw [clean_code] at h
    rw [h, hb] at ha
    exact absurd (not_digit_suffix (not_mem_code m') (not_mem_repr (by decide) _) ha) (code_ne_digits _ _)
  · obtain ⟨a, ha⟩ := clean_user l' n'
    obtain ⟨b, hb⟩ := codeName_form l m
    rw [clean_code] at h
    rw [← h, hb] at ha
    exact absurd (not_digit_suffix (not_mem_code m) (not_mem_repr (by decide) _) ha) (code_ne_digits _ _)
  · rw [clean_code, clean_code] at h
    exact h

end Ditto.Dss
