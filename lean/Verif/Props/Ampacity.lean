import Verif.Lemmas.Ampacity
import Mathlib.Tactic.FinCases

/-! C56: `set_switching_devices_ampacity`. -/
namespace Ditto.Net
open Ditto

/-- When it ends without exception, every device with a missing ampacity has on all its wires the greatest of its own ampacities, or that
of the first wire of a line to which it is connected, and nothing else is changed, whatever the random numbers. Missing: it need not end
(C56_endless_violated), and raises for some devices although a neighbour has an ampacity. -/
theorem C56_ampacity_partial {g : Graph} {rs : Nat → Nat → Nat} {fuel : Nat} {ls ls' : List AmpLine}
    (h : setAmpacities g rs fuel ls = some (.ok ls')) : List.Forall₂ (AmpFixed g ls ls') ls ls' := by
  obtain ⟨rest', ho, hf, _⟩ := ampLoop_ok (orig := ls) h (fun _ hl => hl) (by simp)
  rw [List.nil_append] at ho
  subst ho
  exact hf

/-- no ampacity is invented -/
theorem C56_from_model {g : Graph} {rs : Nat → Nat → Nat} {fuel : Nat} {ls ls' : List AmpLine}
    (h : setAmpacities g rs fuel ls = some (.ok ls')) {q : ℚ} (hq : HasAmp ls' q) : HasAmp ls q := by
  have hf := C56_ampacity_partial h
  obtain ⟨l', hl', hw⟩ := hq
  have key : ∀ {a b : List AmpLine}, List.Forall₂ (AmpFixed g ls ls') a b → (∀ x ∈ a, x ∈ ls) → l' ∈ b → HasAmp ls q := by
    intro a b hab
    induction hab with
    | nil => intro _ h; cases h
    | cons hx _ ih =>
      rename_i x _ _ _ _
      intro ha hm
      rcases List.mem_cons.1 hm with rfl | hm
      · exact ampDevice_val hx (fun q hq => ⟨x, ha x List.mem_cons_self, hq⟩) q hw
      · exact ih (fun z hz => ha z (List.mem_cons_of_mem _ hz)) hm
  exact key hf (fun _ h => h) hl'

/-- the default ampacity is `None`: if a device has it on one of its wires, the method never succeeds -/
theorem C56_unset_violated (g : Graph) (rs : Nat → Nat → Nat) (fuel : Nat) (ls : List AmpLine) (l : AmpLine) (hl : l ∈ ls)
    (hd : l.isDev = true) (hu : .unset ∈ l.wires) (ls' : List AmpLine) : setAmpacities g rs fuel ls ≠ some (.ok ls') := by
  intro h
  obtain ⟨_, _, _, hn⟩ := ampLoop_ok (orig := ls) h (fun _ hl => hl) (by simp)
  exact hn l hl hd hu

/-- lines that are no devices are passed over -/
theorem ampLoop_skip {g : Graph} {rs : Nat → Nat → Nat} {fuel : Nat} {pre : List AmpLine} (hp : ∀ x ∈ pre, x.isDev = false) :
    ∀ (done rest : List AmpLine) (idx : Option Nat),
    ampLoop g rs fuel done (pre ++ rest) idx = ampLoop g rs fuel (done ++ pre) rest idx := by
  induction pre with
  | nil => intro done rest idx; simp
  | cons x pre ih =>
    intro done rest idx
    rw [List.cons_append, ampLoop]
    have : ampDevice g (done ++ x :: (pre ++ rest)) (rs done.length) fuel x idx = some (.ok (idx, x)) := by
      unfold ampDevice
      rw [if_neg (by rw [hp x List.mem_cons_self]; exact Bool.noConfusion)]
    rw [this]
    simp only
    rw [ih (fun y hy => hp y (List.mem_cons_of_mem _ hy))]
    simp

/-- a device without any ampacity between two nodes of the graph -/
structure Blank (g : Graph) (l : AmpLine) (f t : String) : Prop where
  dev : l.isDev = true
  from_el : l.fromEl = some f
  to_el : l.toEl = some t
  from_mem : f ∈ g.nodes
  to_mem : t ∈ g.nodes
  nan : .nan ∈ l.wires
  all_nan : ∀ w ∈ l.wires, w = .nan

theorem Blank.first_step {g : Graph} {l : AmpLine} {f t : String} (hb : Blank g l f t) {pre : List AmpLine}
    (hp : ∀ x ∈ pre, x.isDev = false) (rs : Nat → Nat → Nat) (fuel : Nat) (rest : List AmpLine) {e : PyErr}
    (he : ∀ ls r, ampStep g ls f f t r none = .error e) :
    setAmpacities g rs (fuel + 1) (pre ++ l :: rest) = some (.error e) := by
  have hu : .unset ∉ l.wires := fun h => by cases hb.all_nan _ h
  have hv : validAmps l.wires = [] := by
    rw [List.eq_nil_iff_forall_not_mem]
    intro q hq
    rw [mem_validAmps] at hq
    cases hb.all_nan _ hq
  unfold setAmpacities
  rw [ampLoop_skip hp, List.nil_append, ampLoop]
  simp only [ampDevice, if_pos hb.dev, if_neg hu, if_pos hb.nan, hv, hb.from_el, hb.to_el, ampSearch, he]

/-- a device at the end of the network: the draw from an empty range raises `ValueError`, although there are lines on the other side -/
theorem C56_dead_end_violated {g : Graph} {l : AmpLine} {f t : String} (hb : Blank g l f t) (pre : List AmpLine)
    (hp : ∀ x ∈ pre, x.isDev = false) (rest : List AmpLine) (rs : Nat → Nat → Nat) (fuel : Nat)
    (hf : sideOf g f t ≠ []) (ht : sideOf g t f = []) :
    setAmpacities g rs (fuel + 1) (pre ++ l :: rest) = some (.error .valueError) := by
  refine hb.first_step hp rs fuel rest fun ls r => ?_
  simp only [ampStep, if_pos (And.intro hb.from_mem hb.to_mem), drawIdx, if_neg hf, ht, if_true]

/-- the first device is at the source: the index of the neighbours was never drawn, and the method raises although there are lines on
the other side -/
theorem C56_source_violated {g : Graph} {l : AmpLine} {f t : String} (hb : Blank g l f t) (pre : List AmpLine)
    (hp : ∀ x ∈ pre, x.isDev = false) (rest : List AmpLine) (rs : Nat → Nat → Nat) (fuel : Nat)
    (hf : sideOf g f t = []) (ht : sideOf g t f ≠ []) :
    setAmpacities g rs (fuel + 1) (pre ++ l :: rest) = some (.error .unboundLocalError) := by
  refine hb.first_step hp rs fuel rest fun ls r => ?_
  simp only [ampStep, if_pos (And.intro hb.from_mem hb.to_mem), drawIdx, hf, if_true, fromSide, toSide, if_neg ht, pick]

/-- an end of the device is not in the network: the method raises -/
theorem C56_missing {g : Graph} {l : AmpLine} {f t : String} (hd : l.isDev = true) (hf : l.fromEl = some f) (ht : l.toEl = some t)
    (hn : .nan ∈ l.wires) (ha : ∀ w ∈ l.wires, w = .nan) (hm : f ∉ g.nodes ∨ t ∉ g.nodes) (pre : List AmpLine)
    (hp : ∀ x ∈ pre, x.isDev = false) (rest : List AmpLine) (rs : Nat → Nat → Nat) (fuel : Nat) :
    setAmpacities g rs (fuel + 1) (pre ++ l :: rest) = some (.error .valueError) := by
  have hu : .unset ∉ l.wires := fun h => by cases ha _ h
  have hv : validAmps l.wires = [] := by
    rw [List.eq_nil_iff_forall_not_mem]
    intro q hq
    rw [mem_validAmps] at hq
    cases ha _ hq
  have he : ∀ ls r, ampStep g ls f f t r none = .error .valueError := by
    intro ls r
    unfold ampStep
    rw [if_neg (fun h => hm.elim (fun h' => h' h.1) (fun h' => h' h.2))]
  unfold setAmpacities
  rw [ampLoop_skip hp, List.nil_append, ampLoop]
  simp only [ampDevice, if_pos hd, if_neg hu, if_pos hn, hv, hf, ht, ampSearch, he]

/-- whatever is drawn, it is an index of both lists of neighbours -/
theorem pick_draw {nf nt : List String} (hf : nf ≠ []) (ht : nt ≠ []) (r : Nat) (idx : Option Nat) :
    ∃ i yf yt, drawIdx nf nt r idx = .ok (some i) ∧ pick nf (some i) = .ok yf ∧ pick nt (some i) = .ok yt := by
  have h1 : 0 < nf.length := List.length_pos_iff.2 hf
  have h2 : 0 < nt.length := List.length_pos_iff.2 ht
  have h3 : r % min nf.length nt.length < min nf.length nt.length := Nat.mod_lt _ (by omega)
  refine ⟨r % min nf.length nt.length, nf[r % min nf.length nt.length]'(by omega), nt[r % min nf.length nt.length]'(by omega), ?_, ?_, ?_⟩
  · rw [drawIdx, if_neg hf, if_neg ht]
  · simp only [pick]
    rw [List.getElem?_eq_getElem (by omega)]
  · simp only [pick]
    rw [List.getElem?_eq_getElem (by omega)]

/-- A single device with neighbours on both sides: if all the lines at its far end have an ampacity, the method succeeds, whatever the
random numbers. -/
theorem C56_succeeds {g : Graph} {l : AmpLine} {f t : String} (hb : Blank g l f t) (pre rest : List AmpLine)
    (hp : ∀ x ∈ pre, x.isDev = false) (hr : ∀ x ∈ rest, x.isDev = false) (rs : Nat → Nat → Nat) (fuel : Nat)
    (hf : sideOf g f t ≠ []) (ht : sideOf g t f ≠ [])
    (hl : ∀ y ∈ sideOf g t f, ∃ q, edgeAmp g (pre ++ l :: rest) t y = some q) :
    ∃ q, setAmpacities g rs (fuel + 1) (pre ++ l :: rest) = some (.ok (pre ++ l.setAll q :: rest)) := by
  have hu : .unset ∉ l.wires := fun h => by cases hb.all_nan _ h
  have hv : validAmps l.wires = [] := by
    rw [List.eq_nil_iff_forall_not_mem]
    intro q hq
    rw [mem_validAmps] at hq
    cases hb.all_nan _ hq
  have hs : ∃ i q, ampStep g (pre ++ l :: rest) f f t (rs pre.length fuel) none = .ok (i, .inl q) := by
    obtain ⟨i, yf, yt, h1, h2, h3⟩ := pick_draw hf ht (rs pre.length fuel) none
    obtain ⟨q, hq⟩ := hl yt (pick_mem h3)
    unfold ampStep
    rw [if_pos ⟨hb.from_mem, hb.to_mem⟩, h1]
    simp only [fromSide, if_neg hf, h2]
    cases hv : (if (edgeName g yf f).isSome = true then edgeAmp g (pre ++ l :: rest) yf f else none) with
    | some p => exact ⟨some i, p, by simp [toSide]⟩
    | none => exact ⟨some i, q, by simp [toSide, ht, h3, hq]⟩
  obtain ⟨i, q, hs⟩ := hs
  refine ⟨q, ?_⟩
  have hfin : ∀ done idx, ampLoop g rs (fuel + 1) done rest idx = some (.ok (done ++ rest)) := by
    intro done idx
    have := ampLoop_skip (g := g) (rs := rs) (fuel := fuel + 1) hr done [] idx
    rw [List.append_nil] at this
    rw [this, ampLoop]
  unfold setAmpacities
  rw [ampLoop_skip hp, List.nil_append, ampLoop]
  simp only [ampDevice, if_pos hb.dev, if_neg hu, if_pos hb.nan, hv, hb.from_el, hb.to_el, ampSearch, hs, hfin]
  simp

/-- if no line has an ampacity, and a device has missing ones, the method never succeeds -/
theorem C56_unknown_violated (g : Graph) (rs : Nat → Nat → Nat) (fuel : Nat) (ls : List AmpLine) (hno : ∀ q, ¬ HasAmp ls q)
    (l : AmpLine) (f t : String) (hl : l ∈ ls) (hd : l.isDev = true) (hn : .nan ∈ l.wires) (hf : l.fromEl = some f)
    (ht : l.toEl = some t) (ls' : List AmpLine) : setAmpacities g rs fuel ls ≠ some (.ok ls') := by
  intro h
  have key : ∀ {a b : List AmpLine}, List.Forall₂ (AmpFixed g ls ls') a b → l ∈ a → ∃ l', AmpFixed g ls ls' l l' := by
    intro a b hab
    induction hab with
    | nil => intro h; cases h
    | cons hx _ ih =>
      intro hm
      rcases List.mem_cons.1 hm with rfl | hm
      · exact ⟨_, hx⟩
      · exact ih hm
  obtain ⟨l', hx⟩ := key (C56_ampacity_partial h) hl
  obtain ⟨q, _, _, hq, _⟩ := (hx.none_valid hd hn (fun q hq => hno q ⟨l, hl, hq⟩)).1 f t hf ht
  exact hno q hq

/-! ### a ring without ampacities -/

/-- a ring of three lines, the first a switch -/
def ringGraph : Graph where
  nodes := ["a", "b", "c"]
  edges := [⟨"a", "b", some ("Line", some "sw"), none⟩, ⟨"b", "c", some ("Line", some "l1"), none⟩,
    ⟨"c", "a", some ("Line", some "l2"), none⟩]

def ringLines : List AmpLine :=
  [⟨some "sw", some "a", some "b", true, [.nan]⟩, ⟨some "l1", some "b", some "c", false, [.unset]⟩,
    ⟨some "l2", some "c", some "a", false, [.unset]⟩]

theorem ring_edgeAmp (a b : String) : edgeAmp ringGraph ringLines a b = none := by
  cases h : edgeAmp ringGraph ringLines a b with
  | none => rfl
  | some q =>
    obtain ⟨ty, l0, hl, _, hw⟩ := edgeAmp_some h
    fin_cases hl <;> cases hw

theorem ring_side (x : String) (hx : x ∈ ringGraph.nodes) :
    ∃ y z, sideOf ringGraph x x = [y, z] ∧ y ∈ ringGraph.nodes ∧ z ∈ ringGraph.nodes := by
  fin_cases hx
  · exact ⟨"b", "c", by decide, by decide, by decide⟩
  · exact ⟨"a", "c", by decide, by decide, by decide⟩
  · exact ⟨"b", "a", by decide, by decide, by decide⟩

theorem ring_search (rs : Nat → Nat) (k : Nat) : ∀ x ∈ ringGraph.nodes, ∀ idx,
    ampSearch ringGraph ringLines "a" rs k x x idx = none := by
  induction k with
  | zero => intro x _ idx; rfl
  | succ k ih =>
    intro x hx idx
    obtain ⟨y, z, hs, hy, hz⟩ := ring_side x hx
    have h2 : rs k % 2 = 0 ∨ rs k % 2 = 1 := by omega
    unfold ampSearch
    rcases h2 with h2 | h2
    · have : ampStep ringGraph ringLines "a" x x (rs k) idx = .ok (some 0, .inr y) := by
        simp [ampStep, hx, hs, drawIdx, h2, fromSide, toSide, pick, ring_edgeAmp]
      rw [this]
      exact ih y hy _
    · have : ampStep ringGraph ringLines "a" x x (rs k) idx = .ok (some 1, .inr z) := by
        simp [ampStep, hx, hs, drawIdx, h2, fromSide, toSide, pick, ring_edgeAmp]
      rw [this]
      exact ih z hz _

/-- in a ring where no line has an ampacity the search goes on for ever, whatever the random numbers -/
theorem C56_endless_violated (rs : Nat → Nat → Nat) (fuel : Nat) : setAmpacities ringGraph rs fuel ringLines = none := by
  have hs : ampSearch ringGraph ringLines "a" (rs 0) fuel "a" "b" none = none := by
    cases fuel with
    | zero => rfl
    | succ k =>
      have : ampStep ringGraph ringLines "a" "a" "b" (rs 0 k) none = .ok (some 0, .inr "c") := by
        have h1 : sideOf ringGraph "a" "b" = ["c"] := by decide
        have h2 : sideOf ringGraph "b" "a" = ["c"] := by decide
        have h3 : "a" ∈ ringGraph.nodes ∧ "b" ∈ ringGraph.nodes := by decide
        simp [ampStep, h1, h2, h3, drawIdx, fromSide, toSide, pick, ring_edgeAmp, Nat.mod_one]
      unfold ampSearch
      rw [this]
      exact ring_search _ _ _ (by decide) _
  unfold setAmpacities ringLines
  rw [ampLoop]
  simp only [ampDevice]
  rw [if_pos trivial, if_neg (by decide), if_pos (by decide)]
  have hv : validAmps [Amp.nan] = [] := rfl
  simp only [hv, List.nil_append, List.length_nil]
  have := hs
  unfold ringLines at this
  rw [this]

/-! ### examples -/

/-- a feeder of a line, two switches and a line -/
def feederGraph : Graph where
  nodes := ["s", "a", "b", "c", "d"]
  edges := [⟨"s", "a", some ("Line", some "l1"), none⟩, ⟨"a", "b", some ("Line", some "sw1"), none⟩,
    ⟨"b", "c", some ("Line", some "sw2"), none⟩, ⟨"c", "d", some ("Line", some "l2"), none⟩]

def feederLines : List AmpLine :=
  [⟨some "l1", some "s", some "a", false, [.val 400]⟩, ⟨some "sw1", some "a", some "b", true, [.nan, .nan]⟩,
    ⟨some "sw2", some "b", some "c", true, [.nan, .val 300, .val 350]⟩, ⟨some "l2", some "c", some "d", false, [.unset]⟩]

example : setAmpacities feederGraph (fun _ _ => 7) 10 feederLines = some (.ok
    [⟨some "l1", some "s", some "a", false, [.val 400]⟩, ⟨some "sw1", some "a", some "b", true, [.val 400, .val 400]⟩,
      ⟨some "sw2", some "b", some "c", true, [.val 350, .val 350, .val 350]⟩, ⟨some "l2", some "c", some "d", false, [.unset]⟩]) := by
  decide +kernel

/-- a search that goes on beyond the next line -/
example : setAmpacities feederGraph (fun _ _ => 7) 10
    [⟨some "l1", some "s", some "a", false, [.unset]⟩, ⟨some "sw1", some "a", some "b", true, [.nan]⟩,
      ⟨some "sw2", some "b", some "c", false, [.unset]⟩, ⟨some "l2", some "c", some "d", false, [.val 250]⟩] = some (.ok
    [⟨some "l1", some "s", some "a", false, [.unset]⟩, ⟨some "sw1", some "a", some "b", true, [.val 250]⟩,
      ⟨some "sw2", some "b", some "c", false, [.unset]⟩, ⟨some "l2", some "c", some "d", false, [.val 250]⟩]) := by
  decide +kernel

example : Blank feederGraph ⟨some "l2", some "c", some "d", true, [.nan]⟩ "c" "d" ∧ sideOf feederGraph "c" "d" ≠ [] ∧
    sideOf feederGraph "d" "c" = [] :=
  ⟨⟨rfl, rfl, rfl, by decide, by decide, by decide, by decide⟩, by decide, by decide⟩

example : Blank feederGraph ⟨some "l1", some "s", some "a", true, [.nan]⟩ "s" "a" ∧ sideOf feederGraph "s" "a" = [] ∧
    sideOf feederGraph "a" "s" ≠ [] :=
  ⟨⟨rfl, rfl, rfl, by decide, by decide, by decide, by decide⟩, by decide, by decide⟩

/-- two lines on one side and one on the other -/
def forkGraph : Graph where
  nodes := ["s", "r", "a", "b", "c"]
  edges := [⟨"s", "a", some ("Line", some "l1"), none⟩, ⟨"r", "a", some ("Line", some "l0"), none⟩,
    ⟨"a", "b", some ("Line", some "sw"), none⟩, ⟨"b", "c", some ("Line", some "l2"), none⟩]

example : Blank forkGraph ⟨some "sw", some "a", some "b", true, [.nan]⟩ "a" "b" ∧ sideOf forkGraph "a" "b" ≠ [] ∧
    sideOf forkGraph "b" "a" ≠ [] ∧ ∀ y ∈ sideOf forkGraph "b" "a", ∃ q, edgeAmp forkGraph
      ([⟨some "l1", some "s", some "a", false, [.unset]⟩, ⟨some "l0", some "r", some "a", false, [.unset]⟩] ++
        ⟨some "sw", some "a", some "b", true, [.nan]⟩ :: [⟨some "l2", some "b", some "c", false, [.val 250]⟩]) "b" y = some q := by
  refine ⟨⟨rfl, rfl, rfl, by decide, by decide, by decide, by decide⟩, by decide, by decide, fun y hy => ⟨250, ?_⟩⟩
  have : sideOf forkGraph "b" "a" = ["c"] := by decide
  rw [this, List.mem_singleton] at hy
  subst hy
  decide

end Ditto.Net
