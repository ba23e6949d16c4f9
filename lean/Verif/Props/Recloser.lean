import Verif.Spec.Recloser
import Verif.Props.Upstream
import Mathlib.Tactic.Linarith

/-! C57: `replace_kth_switch_with_recloser`. -/
namespace Ditto.Net
open Ditto

theorem closedSwitch_iff (o : SwObj) : o.closedSwitch = true ↔ o.isSwitch = some true ∧ o.wires.head? = some false := by
  unfold SwObj.closedSwitch
  rw [Bool.and_eq_true, decide_eq_true_eq]
  cases o.wires with
  | nil => simp
  | cons w ws => cases w <;> simp

/-- the name says which object is meant -/
theorem find_named {os : List SwObj} (hd : (os.map (·.name)).Nodup) {o : SwObj} (ho : o ∈ os) :
    os.find? (fun o' => o'.name = o.name) = some o := by
  induction os with
  | nil => cases ho
  | cons a os ih =>
    rw [List.map_cons, List.nodup_cons] at hd
    rw [List.find?_cons]
    by_cases h : a.name = o.name
    · rcases List.mem_cons.1 ho with rfl | ho
      · simp
      · exact absurd (List.mem_map_of_mem ho) (h ▸ hd.1)
    · rcases List.mem_cons.1 ho with rfl | ho
      · exact absurd rfl h
      · simp only [h, decide_false]
        exact ih hd.2 ho

/-- below the connection, the closed switch number `t + 1` on the way becomes a recloser, and nothing else is changed; nothing at all if
there are fewer. Missing: the case of an edge without equipment on the way (C57_stale_violated). -/
theorem C57_walk_partial {n : Network} {x : String} {ps : List (Option String)} (hp : FirstPath n x ps) {os : List SwObj}
    (hd : (os.map (·.name)).Nodup) (hos : ∀ nm ∈ ps, ∃ o ∈ os, o.name = nm) (t : Nat) :
    ∀ (fuel cnt : Nat) (name : Option (Option String)), ps.length < fuel → ∃ name', recloserWalk n (cnt + t + 1) fuel x name cnt os =
      some (name', os.map fun o => if (closedOn os ps)[t]? = some o.name then
        { o with isSwitch := some false, isRecloser := some true } else o) := by
  induction hp generalizing t with
  | stop hs =>
    intro fuel cnt name hf
    cases fuel with
    | zero => cases hf
    | succ k => exact ⟨name, by simp [recloserWalk, hs, closedOn]⟩
  | @step x y ty nm ys ps hs he _ ih =>
    intro fuel cnt name hf
    cases fuel with
    | zero => cases hf
    | succ k =>
      obtain ⟨o, ho, hn⟩ := hos nm List.mem_cons_self
      have hfind : os.find? (fun o' => o'.name = nm) = some o := hn ▸ find_named hd ho
      have hany : (os.any fun o' => o'.name = nm && o'.closedSwitch) = o.closedSwitch := by
        rw [Bool.eq_iff_iff, List.any_eq_true]
        constructor
        · rintro ⟨o', ho', h⟩
          rw [Bool.and_eq_true, decide_eq_true_eq] at h
          have := find_named hd ho'
          rw [h.1, hfind] at this
          cases this
          exact h.2
        · intro h
          exact ⟨o, ho, by simp [hn, h]⟩
      have hos' : ∀ m ∈ ps, ∃ o ∈ os, o.name = m := fun m hm => hos m (List.mem_cons_of_mem _ hm)
      simp only [List.length_cons] at hf
      have hk : ps.length < k := by omega
      cases hc : o.closedSwitch with
      | false =>
        have hco : closedOn os (nm :: ps) = closedOn os ps := by
          unfold closedOn
          rw [List.filter_cons_of_neg (by rw [hany, hc]; exact Bool.noConfusion)]
        obtain ⟨name', hw⟩ := ih hos' t k cnt (some nm) hk
        refine ⟨name', ?_⟩
        rw [hco, ← hw]
        simp [recloserWalk, keepName, hs, he, hfind, hc]
      | true =>
        have hco : closedOn os (nm :: ps) = nm :: closedOn os ps := by
          unfold closedOn
          rw [List.filter_cons_of_pos (by rw [hany, hc])]
        rw [hco]
        cases t with
        | zero =>
          refine ⟨some nm, ?_⟩
          simp only [recloserWalk, keepName, hs, he, hfind, hc, if_true, Nat.add_zero, List.getElem?_cons_zero, reclose, SwObj.toRecloser,
            Option.some.injEq, Prod.mk.injEq, true_and]
          apply List.map_congr_left
          intro o' _
          by_cases h : o'.name = nm
          · rw [if_pos h, if_pos h.symm]
          · rw [if_neg h, if_neg (Ne.symm h)]
        | succ t =>
          obtain ⟨name', hw⟩ := ih hos' t k (cnt + 1) (some nm) hk
          refine ⟨name', ?_⟩
          rw [List.getElem?_cons_succ, ← hw]
          have h1 : ¬ cnt + 1 = cnt + (t + 1) + 1 := by omega
          have h2 : cnt + (t + 1) + 1 = cnt + 1 + t + 1 := by omega
          simp only [recloserWalk, keepName, hs, he, hfind, hc, if_true, if_neg h1]
          rw [h2]

/-- `C57_walk_partial` for a feeder with one connection, below 69 kV -/
theorem C57_feeder_partial {n : Network} {c : ConnNode} {v : ℚ} (hc : c.isConn = true) (hv : c.voltage = some v) (hlt : v < 69000)
    {ps : List (Option String)} (hp : FirstPath n c.name ps) {os : List SwObj} (hd : (os.map (·.name)).Nodup)
    (hos : ∀ nm ∈ ps, ∃ o ∈ os, o.name = nm) (t fuel : Nat) (hf : ps.length < fuel) : replaceSwitches n fuel [c] [t + 1] os =
      some (.ok (os.map fun o => if (closedOn os ps)[t]? = some o.name then
        { o with isSwitch := some false, isRecloser := some true } else o)) := by
  obtain ⟨name', hw⟩ := C57_walk_partial hp hd hos t fuel 0 none hf
  rw [Nat.zero_add] at hw
  simp only [replaceSwitches, recloserLoop, if_pos hc, hv, if_pos hlt, hw]

/-- at or above 69 kV nothing is done -/
theorem C57_high (n : Network) (fuel : Nat) (cs : List ConnNode) (draws : List Nat) (os os' : List SwObj)
    (hv : ∀ c ∈ cs, c.isConn = true → ∃ v, c.voltage = some v ∧ 69000 ≤ v) (h : replaceSwitches n fuel cs draws os = some (.ok os')) :
    os' = os := by
  unfold replaceSwitches at h
  generalize (none : Option (Option String)) = name at h
  induction cs generalizing draws with
  | nil => cases h; rfl
  | cons c cs ih =>
    have hv' : ∀ c ∈ cs, c.isConn = true → ∃ v, c.voltage = some v ∧ 69000 ≤ v := fun c' hc' => hv c' (List.mem_cons_of_mem _ hc')
    unfold recloserLoop at h
    split at h
    · rename_i hc
      split at h
      · cases h
      · obtain ⟨v, h1, h2⟩ := hv c List.mem_cons_self hc
        simp only [h1, if_neg (not_lt.2 h2)] at h
        exact ih _ hv' h
    · exact ih _ hv' h

/-- every walk in a network that was built ends -/
theorem recloserWalk_ends {objs : List NetObj} {s : String} {n : Network} (hb : build objs s = .ok n) (target : Nat) (x : String)
    (name : Option (Option String)) (cnt : Nat) (os : List SwObj) :
    recloserWalk n target (n.digraph.length + 1) x name cnt os ≠ none := by
  obtain ⟨depth, ha⟩ := arbo_of_build hb
  by_cases hx : x ∈ diNodes n.digraph
  · obtain ⟨es, hes, _⟩ := C18_route objs s n hb x hx
    have key : ∀ (k : Nat) (x : String) (es : List Edge) (name : Option (Option String)) (cnt : Nat), Route n.digraph s es x →
        n.digraph.length + 1 ≤ k + es.length → recloserWalk n target k x name cnt os ≠ none := by
      intro k
      induction k with
      | zero =>
        intro x es name cnt hr hk
        have := hr.length_le ha
        omega
      | succ k ih =>
        intro x es name cnt hr hk
        simp only [recloserWalk]
        cases hs : successors n.digraph x with
        | nil => simp
        | cons y ys =>
          simp only
          have hy : y ∈ successors n.digraph x := by rw [hs]; exact List.mem_cons_self
          unfold successors at hy
          obtain ⟨e, he, rfl⟩ := List.mem_map.1 hy
          rw [List.mem_filter, decide_eq_true_eq] at he
          have hr' := hr.snoc he.1 he.2
          have hk' : n.digraph.length + 1 ≤ k + (es ++ [e]).length := by simp; omega
          generalize keepName (n.graph.equipOf x e.v) name = name1
          cases name1 with
          | none => simp
          | some nm =>
            simp only
            split
            · simp
            · split
              · split
                · simp
                · exact ih _ _ _ _ hr' hk'
              · exact ih _ _ _ _ hr' hk'
    exact key _ _ es _ _ hes (by omega)
  · have : successors n.digraph x = [] := by
      unfold successors
      rw [List.map_eq_nil_iff, List.filter_eq_nil_iff]
      intro e he h
      apply hx
      unfold diNodes
      exact List.mem_flatMap.2 ⟨e, he, by rw [decide_eq_true_eq] at h; rw [← h]; simp⟩
    simp [recloserWalk, this]

theorem Replaced.refl (k : Nat) (os : List SwObj) : Replaced k os os := by
  induction os with
  | nil => exact .nil k
  | cons o os ih => exact .same ih

theorem Replaced.mono {k k' : Nat} {os os' : List SwObj} (h : Replaced k os os') (hk : k ≤ k') : Replaced k' os os' := by
  induction h generalizing k' with
  | nil => exact .nil _
  | same _ ih => exact .same (ih hk)
  | @switch k o os os' h1 h2 _ ih =>
    cases k' with
    | zero => omega
    | succ k' => exact .switch h1 h2 (ih (by omega))

/-- the names stay -/
theorem Replaced.names {k : Nat} {os os' : List SwObj} (h : Replaced k os os') : os'.map (·.name) = os.map (·.name) := by
  induction h with
  | nil => rfl
  | same _ ih => simp [ih]
  | switch _ _ _ ih => simp [ih]

theorem Replaced.trans {k : Nat} {os os1 : List SwObj} (h : Replaced k os os1) : ∀ {k' : Nat} {os2 : List SwObj},
    Replaced k' os1 os2 → Replaced (k + k') os os2 := by
  induction h with
  | nil k =>
    intro k' os2 h'
    cases h'
    exact .nil _
  | @same k o os os1 h ih =>
    intro k' os2 h'
    cases h' with
    | same h' => exact .same (ih h')
    | switch h1 h2 h' => exact .switch h1 h2 (ih h')
  | @switch k o os os1 h1 h2 h ih =>
    intro k' os2 h'
    cases h' with
    | same h' =>
      have := Replaced.switch h1 h2 (ih h')
      exact this.mono (by omega)
    | switch h3 h4 h' => simp at h3

theorem reclose_replaced {os : List SwObj} (hd : (os.map (·.name)).Nodup) {nm : Option String} {o : SwObj}
    (hf : os.find? (fun o => o.name = nm) = some o) (hc : o.closedSwitch = true) : Replaced 1 os (reclose nm os) := by
  induction os with
  | nil => cases hf
  | cons a os ih =>
    rw [List.map_cons, List.nodup_cons] at hd
    unfold reclose
    rw [List.map_cons]
    by_cases h : a.name = nm
    · have : (List.map (fun o => if o.name = nm then o.toRecloser else o) os) = os := by
        conv_rhs => rw [← List.map_id os]
        apply List.map_congr_left
        intro b hb
        rw [if_neg]
        · rfl
        · intro hbn
          exact hd.1 (List.mem_map.2 ⟨b, hb, by rw [hbn, h]⟩)
      rw [this, if_pos h]
      rw [List.find?_cons_of_pos (by simp [h])] at hf
      cases hf
      have := (closedSwitch_iff _).1 hc
      exact .switch this.1 this.2 (Replaced.refl 0 os)
    · rw [if_neg h]
      rw [List.find?_cons_of_neg (by simp [h])] at hf
      exact .same (ih hd.2 hf)

theorem recloserWalk_replaced {n : Network} {target : Nat} {os : List SwObj} (hd : (os.map (·.name)).Nodup) (fuel : Nat) :
    ∀ (x : String) (name : Option (Option String)) (cnt : Nat) (name' : Option (Option String)) (os' : List SwObj),
    recloserWalk n target fuel x name cnt os = some (name', os') → Replaced 1 os os' := by
  induction fuel with
  | zero => intro x name cnt name' os' h; cases h
  | succ k ih =>
    intro x name cnt name' os' h
    simp only [recloserWalk] at h
    cases hs : successors n.digraph x with
    | nil => rw [hs] at h; cases h; exact Replaced.refl _ _
    | cons y ys =>
      rw [hs] at h
      simp only at h
      generalize keepName (n.graph.equipOf x y) name = name1 at h
      cases name1 with
      | none => cases h; exact Replaced.refl _ _
      | some nm =>
        simp only at h
        split at h
        · cases h; exact Replaced.refl _ _
        · rename_i o ho
          split at h
          · rename_i hc
            split at h
            · cases h; exact reclose_replaced hd ho hc
            · exact ih _ _ _ _ _ h
          · exact ih _ _ _ _ _ h

/-- the number of connections below 69 kV -/
def lowConns (cs : List ConnNode) : Nat := cs.countP fun c => c.isConn && c.voltage.any (· < 69000)

theorem recloserLoop_replaced {n : Network} {fuel : Nat} (cs : List ConnNode) : ∀ (draws : List Nat) (name : Option (Option String))
    (os os' : List SwObj), (os.map (·.name)).Nodup → recloserLoop n fuel cs draws name os = some (.ok os') →
    Replaced (lowConns cs) os os' := by
  induction cs with
  | nil => intro draws name os os' _ h; cases h; exact Replaced.refl _ _
  | cons c cs ih =>
    intro draws name os os' hd h
    have hle : lowConns cs ≤ lowConns (c :: cs) := by unfold lowConns; rw [List.countP_cons]; omega
    unfold recloserLoop at h
    split at h
    · rename_i hc
      split at h
      · cases h
      · split at h
        · cases h
        · rename_i v hv
          split at h
          · rename_i hlt
            split at h
            · cases h
            · rename_i name1 os1 hw
              have h1 := recloserWalk_replaced hd _ _ _ _ _ _ hw
              have h2 := ih _ _ _ _ (by rw [h1.names]; exact hd) h
              refine (h1.trans h2).mono ?_
              unfold lowConns
              rw [List.countP_cons_of_pos (by simp [hc, hv, hlt])]
              omega
          · exact (ih _ _ _ _ hd h).mono hle
    · exact (ih _ _ _ _ hd h).mono hle

/-- whatever depths are drawn, the only changes are that closed switches become reclosers, at most one for each connection of a
substation below 69 kV -/
theorem C57_only_switches (n : Network) (fuel : Nat) (cs : List ConnNode) (draws : List Nat) (os os' : List SwObj)
    (hd : (os.map (·.name)).Nodup) (h : replaceSwitches n fuel cs draws os = some (.ok os')) : Replaced (lowConns cs) os os' :=
  recloserLoop_replaced cs _ _ _ _ hd h

/-- in a network that was built it ends, without exception if the connections have voltages -/
theorem C57_succeeds (objs : List NetObj) (s : String) (n : Network) (hb : build objs s = .ok n) (cs : List ConnNode) (draws : List Nat)
    (hdr : cs.countP (·.isConn) ≤ draws.length) (hv : ∀ c ∈ cs, c.isConn = true → c.voltage ≠ none) (os : List SwObj) :
    ∃ os', replaceSwitches n (n.digraph.length + 1) cs draws os = some (.ok os') := by
  unfold replaceSwitches
  generalize (none : Option (Option String)) = name
  induction cs generalizing draws name os with
  | nil => exact ⟨os, rfl⟩
  | cons c cs ih =>
    have hv' : ∀ c ∈ cs, c.isConn = true → c.voltage ≠ none := fun c' hc' => hv c' (List.mem_cons_of_mem _ hc')
    unfold recloserLoop
    by_cases hc : c.isConn = true
    · rw [if_pos hc]
      rw [List.countP_cons_of_pos hc] at hdr
      cases draws with
      | nil => simp at hdr
      | cons d draws =>
        simp only [List.length_cons] at hdr
        cases hvo : c.voltage with
        | none => exact absurd hvo (hv c List.mem_cons_self hc)
        | some v =>
          simp only
          split
          · cases hw : recloserWalk n d (n.digraph.length + 1) c.name name 0 os with
            | none => exact absurd hw (recloserWalk_ends hb _ _ _ _ _)
            | some p => exact ih draws (Nat.le_of_succ_le_succ hdr) hv' _ _
          · exact ih draws (Nat.le_of_succ_le_succ hdr) hv' _ _
    · rw [if_neg hc]
      rw [List.countP_cons_of_neg hc] at hdr
      exact ih draws hdr hv' _ _

/-- a connection without voltage, and no walk before it fails to end: `TypeError` -/
theorem C57_voltage_violated (n : Network) (fuel : Nat) (c : ConnNode) (cs : List ConnNode) (draws : List Nat) (d : Nat) (os : List SwObj)
    (hc : c.isConn = true) (hv : c.voltage = none) :
    replaceSwitches n fuel (c :: cs) (d :: draws) os = some (.error .typeError) := by
  simp [replaceSwitches, recloserLoop, hc, hv]

/-! ### an edge without equipment -/

/-- a switch from the connection `h` to `a`, where a load is connected, a switch from `a` to `b` -/
def loadObjs : List NetObj :=
  [{ cls := "Line", name := some "sw1", fromEl := some "h", toEl := some "a", isLine := true },
    { cls := "Load", name := some "load", connecting := some "a" },
    { cls := "Line", name := some "sw2", fromEl := some "a", toEl := some "b", isLine := true }]

def loadNet : Network where
  graph := ⟨["a", "h", "load", "b"], [⟨"h", "a", some ("Line", some "sw1"), some 0⟩, ⟨"a", "load", none, none⟩,
    ⟨"a", "b", some ("Line", some "sw2"), some 0⟩]⟩
  digraph := [⟨"h", "a", some ("Line", some "sw1"), none⟩, ⟨"a", "load", none, none⟩, ⟨"a", "b", some ("Line", some "sw2"), none⟩]

theorem loadNet_build : build loadObjs "h" = .ok loadNet := by decide +kernel

def loadSwitches : List SwObj := [⟨some "sw1", some true, some false, [false]⟩, ⟨some "sw2", some true, some false, [false]⟩]

/-- The second switch is to be replaced, and there are two one after the other. The first edge at `a` is that of the load, which has no
equipment: the first switch is counted again, and replaced. -/
theorem C57_stale_violated : replaceSwitches loadNet 10 [⟨"h", true, some 7200⟩] [2] loadSwitches =
    some (.ok [⟨some "sw1", some false, some true, [false]⟩, ⟨some "sw2", some true, some false, [false]⟩]) := by decide +kernel

/-! ### examples -/

/-- three switches in a row, the second one open -/
def rowNet : Network where
  graph := ⟨["a", "h", "b", "c"], [⟨"h", "a", some ("Line", some "sw1"), some 0⟩, ⟨"a", "b", some ("Line", some "sw2"), some 0⟩,
    ⟨"b", "c", some ("Line", some "sw3"), some 0⟩]⟩
  digraph := [⟨"h", "a", some ("Line", some "sw1"), none⟩, ⟨"a", "b", some ("Line", some "sw2"), none⟩,
    ⟨"b", "c", some ("Line", some "sw3"), none⟩]

def rowSwitches : List SwObj :=
  [⟨some "sw1", some true, some false, [false]⟩, ⟨some "sw2", some true, some false, [true]⟩,
    ⟨some "sw3", some true, some false, [false]⟩]

example : FirstPath rowNet "h" [some "sw1", some "sw2", some "sw3"] :=
  .step (y := "a") (ty := "Line") (ys := []) (by decide) (by decide) (.step (y := "b") (ty := "Line") (ys := []) (by decide) (by decide)
    (.step (y := "c") (ty := "Line") (ys := []) (by decide) (by decide) (.stop (by decide))))

example : closedOn rowSwitches [some "sw1", some "sw2", some "sw3"] = [some "sw1", some "sw3"] := by decide

example : replaceSwitches rowNet 10 [⟨"h", true, some 7200⟩] [2] rowSwitches =
    some (.ok [⟨some "sw1", some true, some false, [false]⟩, ⟨some "sw2", some true, some false, [true]⟩,
      ⟨some "sw3", some false, some true, [false]⟩]) := by decide +kernel

end Ditto.Net
