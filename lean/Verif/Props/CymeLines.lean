import Verif.Lemmas.CymeLines
import Mathlib.Algebra.Field.Rat
import Mathlib.Tactic.LinearCombination
import Mathlib.Tactic.NormNum

/-! C115: lines and switching devices of CYME files. -/
namespace Ditto.Cyme
open Ditto Glm Spec

theorem base_on {N : Type} [Field N] (inp : LineInput N) {key sec feeder phases : Text} {ends settings : Values}
    (h : LineSection inp.secs inp.feeders key sec ends feeder phases) : LineOn inp.num inp.int sec ends feeder settings (lineBase inp sec feeder settings) := by
  have e : ∀ k, sectionEntry inp.secs sec k = getEntry k ends := by
    intro k
    unfold sectionEntry
    rw [h.section_]
  have i : ∀ k, sectionIndex inp.int inp.secs sec k = (getEntry k ends).bind inp.int := by
    intro k
    unfold sectionIndex
    rw [e]
    cases getEntry k ends <;> rfl
  refine ⟨rfl, e _, e _, i _, i _, rfl, ?_, rfl⟩
  intro x hx
  show (match valueAt inp.num settings "length".toList with | some x => x | none => 0) = x
  rw [valueAt_in, hx]

theorem on_other {N : Type} {num : Text → Option N} {int : Text → Option ℤ} {sec feeder : Text} {ends settings : Values} {l l' : ReadLine N}
    (h : LineOn num int sec ends feeder settings l) (h1 : l'.name = l.name) (h2 : l'.start = l.start) (h3 : l'.stop = l.stop)
    (h4 : l'.startIndex = l.startIndex) (h5 : l'.stopIndex = l.stopIndex) (h6 : l'.feeder = l.feeder) (h7 : l'.length = l.length)
    (h8 : l'.nameclass = l.nameclass) : LineOn num int sec ends feeder settings l' :=
  ⟨h1.trans h.name, h2.trans h.start, h3.trans h.stop, h4.trans h.startIndex, h5.trans h.stopIndex, h6.trans h.network,
    fun x hx => h7.trans (h.length x hx), h8.trans h.nameclass⟩

/-- the line of an entry, if there is one -/
def EntryLine {N : Type} [Field N] (inp : LineInput N) (p : Text × Values) (l : Option (ReadLine N)) : Prop :=
  ∃ sec ends feeder phases e, LineSection inp.secs inp.feeders p.1 sec ends feeder phases ∧ Describes inp.tables p.2 e ∧
    ((e = .nothing ∧ l = none) ∨ ∃ r, l = some r ∧ LineOn inp.num inp.int sec ends feeder p.2 r ∧ LineIs inp.num inp.tables phases r e)

/-- an entry that the reader can make a line of -/
def EntryOk {N : Type} (inp : LineInput N) (p : Text × Values) : Prop :=
  ∃ sec ends feeder phases e, LineSection inp.secs inp.feeders p.1 sec ends feeder phases ∧ 'N' ∉ phases ∧ Loadless p.2 ∧ Describes inp.tables p.2 e

theorem phases_of {secs : List (Text × Values)} {feeders : List (Text × Text)} {key sec feeder phases : Text} {ends : Values}
    (h : LineSection secs feeders key sec ends feeder phases) (old : Option Text) : phasesAfter secs sec old = some phases := by
  unfold phasesAfter sectionEntry
  rw [h.section_]
  dsimp only
  rw [h.phased]

theorem step_of {N : Type} [Field N] (inp : LineInput N) (p : Text × Values) (h : EntryOk inp p) (old : Option Text) :
    ∃ l ps, lineStep inp p.1 p.2 old = .ok (l, ps) ∧ EntryLine inp p l := by
  obtain ⟨sec, ends, feeder, phases, e, hs, hN, hl, hd⟩ := h
  unfold lineStep
  rw [loadless hl]
  dsimp only
  rw [rowSection_of hs.named, hs.network]
  dsimp only
  rw [phases_of hs]
  have hb := base_on inp (settings := p.2) hs
  have hd' := hd
  cases hd with
  | @device d data closed hdev hrow hcl =>
    rw [device_kind hdev]
    dsimp only
    obtain ⟨c, hc, hiff, hNc⟩ := closed_of hcl
    unfold switchLine
    rw [hc]
    dsimp only
    have hdata : deviceData (inp.tables.devices d) p.2 = data := by
      rw [deviceData_entry]
      exact rowFor_unique (entryOr_row ..) hrow
    rw [hdata]
    refine ⟨_, _, rfl, sec, ends, feeder, phases, _, hs, hd', Or.inr ⟨_, rfl, on_other hb rfl rfl rfl rfl rfl rfl rfl rfl, ?_⟩⟩
    obtain ⟨ws, w, h1, h2, h3, h4⟩ := device_wires inp.num d data hiff hNc phases 0 hN
    refine ⟨rfl, thousandAt_in .., ⟨ws, w, h1, h2, h3, h4.trans ?_⟩, fun w hw => device_each inp.num d data c _ _ w hw, rfl⟩
    constructor
    · rintro (h | h)
      · omega
      · exact h
    · exact Or.inr
  | @balanced type k d hlaid hk hdata hno =>
    rw [laid_kind hlaid]
    dsimp only
    unfold plainLine
    obtain ⟨d', h1, h2, h3⟩ := balanced_data hk hdata
    rw [h1]
    dsimp only
    unfold lineParts
    rw [h2]
    dsimp only
    rw [if_pos rfl]
    have hno' : getEntry "linecableid".toList d' = none := by rw [h3 _ (by decide)]; exact hno
    obtain ⟨ws, n, c, cn, h4, h5, h6, h7, h8⟩ := balanced_wires inp.num inp.tables hno' phases
    rw [h4]
    refine ⟨_, _, rfl, sec, ends, feeder, phases, _, hs, hd', Or.inr ⟨_, rfl, on_other hb rfl rfl rfl rfl rfl rfl rfl rfl, rfl, rfl, ?_⟩⟩
    rw [h3 _ (by decide)] at h5 h6
    refine ⟨⟨ws, n, c, cn, rfl, h5, h6, h7, h8⟩, ?_⟩
    intro z1 z0 hz1 hz0 hlen
    show matrixOr (balancedMatrix inp.num d' phases.length) = _
    rw [balanced_matrix (z1 := z1) (z0 := z0) _ _ hlen]
    · rfl
    · exact ⟨(numberIn_same inp.num (h3 _ (by decide))).trans hz1.1, (numberIn_same inp.num (h3 _ (by decide))).trans hz1.2⟩
    · exact ⟨(numberIn_same inp.num (h3 _ (by decide))).trans hz0.1, (numberIn_same inp.num (h3 _ (by decide))).trans hz0.2⟩
  | @unbalanced type k d hlaid hk hdata =>
    rw [laid_kind hlaid]
    dsimp only
    unfold plainLine
    rw [unbalanced_data hk hdata]
    dsimp only
    unfold lineParts
    rw [hdata.type]
    dsimp only
    rw [if_neg (by decide), if_pos rfl]
    refine ⟨_, _, rfl, sec, ends, feeder, phases, _, hs, hd', Or.inr ⟨_, rfl, on_other hb rfl rfl rfl rfl rfl rfl rfl rfl, rfl, rfl, ?_⟩⟩
    refine ⟨unbalanced_wires .., ?_⟩
    intro hc hp
    obtain ⟨m, h1, h2⟩ := unbalanced_matrix hc hp
    refine ⟨m, ?_, h2⟩
    show matrixOr (unbalancedMatrix inp.num d phases) = _
    rw [h1]
    rfl
  | nothing h1 h2 h3 =>
    have hk : sectionKind p.2 = .line none := by
      unfold sectionKind
      rw [h1]
    have hdata : lineData inp.tables p.2 = none := by
      unfold lineData
      rw [h2, h3]
    rw [hk]
    dsimp only
    unfold plainLine
    rw [hdata]
    exact ⟨_, _, rfl, sec, ends, feeder, phases, _, hs, hd', Or.inl ⟨rfl, rfl⟩⟩

/-- **C115** (partial): Every entry of the settings becomes a line between the nodes of its section, with its network, its length and the name of
its equipment. A switching device has one wire for each phase of the section, open exactly if the phase is not among those that are closed, and a
neutral, which is open exactly if all phases are; its wires have the data of its equipment. A line with sequence impedances has one wire for each
phase and a neutral, and with two or three phases the matrix of these impedances. A line with impedances of each phase has one wire for each phase
with its own conductor and the neutrals that are known, and with two or three phases (in the order of the alphabet) the matrix of these
impedances. Missing: matrices of lines with one phase (see `C115_single_violated`), and lines whose conductors are given by phases. -/
theorem C115_lines_partial {N : Type} [Field N] (inp : LineInput N) (settings : List (Text × Values)) (h : ∀ p ∈ settings, EntryOk inp p)
    (old : Option Text) : ∃ lines : List (Option (ReadLine N)), allLines inp settings old = .ok (lines.flatMap Option.toList) ∧
      List.Forall₂ (EntryLine inp) settings lines := by
  induction settings generalizing old with
  | nil => exact ⟨[], rfl, .nil⟩
  | cons p rest ih =>
    obtain ⟨l, ps, h1, h2⟩ := step_of inp p (h p List.mem_cons_self) old
    obtain ⟨lines, h3, h4⟩ := ih (fun q hq => h q (List.mem_cons_of_mem _ hq)) ps
    refine ⟨l :: lines, ?_, .cons h2 h4⟩
    rw [allLines, h1]
    dsimp only
    rw [h3]
    rfl

/-- **C115**: A line without an entry for its equipment whose device has the name of a concentric cable is read as a line with the sequence
impedances of this cable. -/
theorem C115_cables {N : Type} [Field N] (inp : LineInput N) (sec feeder : Text) (settings : Values) (type : Option Text) (k : Text) (d : Values)
    (phases : Text) (hl : getEntry "linecableid".toList settings = none) (hk : getEntry "devicenumber".toList settings = some k)
    (hd : getEntry k inp.tables.concentric = some d) (hno : getEntry "linecableid".toList d = none) :
    ∃ l, plainLine inp sec feeder settings type (some phases) = .ok (some l) ∧ l.lineType = type ∧ BalancedOk inp.num inp.tables d phases l := by
  have h3 : ∀ k', k' ≠ "type".toList → getEntry k' (asBalanced d) = getEntry k' d := fun k' hk' => asBalanced_other d hk'
  have hdata : lineData inp.tables settings = some (asBalanced d) := by
    unfold lineData
    rw [hl, hk]
    dsimp only
    rw [hd]
  unfold plainLine
  rw [hdata]
  dsimp only
  unfold lineParts
  rw [asBalanced_type d]
  dsimp only
  rw [if_pos rfl]
  obtain ⟨ws, n, c, cn, h4, h5, h6, h7, h8⟩ := balanced_wires inp.num inp.tables (d := asBalanced d) (by rw [h3 _ (by decide)]; exact hno) phases
  rw [h4]
  rw [h3 _ (by decide)] at h5 h6
  refine ⟨_, rfl, rfl, ⟨ws, n, c, cn, rfl, h5, h6, h7, h8⟩, ?_⟩
  intro z1 z0 hz1 hz0 hlen
  show matrixOr (balancedMatrix inp.num (asBalanced d) phases.length) = _
  rw [balanced_matrix (z1 := z1) (z0 := z0) _ _ hlen]
  · rfl
  · exact ⟨(numberIn_same inp.num (h3 _ (by decide))).trans hz1.1, (numberIn_same inp.num (h3 _ (by decide))).trans hz1.2⟩
  · exact ⟨(numberIn_same inp.num (h3 _ (by decide))).trans hz0.1, (numberIn_same inp.num (h3 _ (by decide))).trans hz0.2⟩

/-! ### where the code goes wrong -/

/-- **C115** (violated): A line with sequence impedances and one phase gets one third of the zero sequence impedance as its impedance; the positive
sequence impedance is not in it. It should be `(z0 + 2 z1) / 3`. -/
theorem C115_single_violated {N : Type} [Field N] [CharZero N] (num : Text → Option N) (byPhase) (t : LineTables) (settings d : Values) (p : Char)
    (z1 z0 : N × N) (hd : getEntry "type".toList d = some "balanced_line".toList) (hno : getEntry "linecableid".toList d = none)
    (h1 : ImpedanceIn num d "r1".toList "x1".toList z1) (h0 : ImpedanceIn num d "r0".toList "x0".toList z0) (hz : z1 ≠ 0) :
    ∃ ws m, lineParts num byPhase t settings d [p] = .ok (ws, some m) ∧ m = [[(z0.1 / 3 / 1000, z0.2 / 3 / 1000)]] ∧ m ≠ balancedIs z1 z0 1 := by
  unfold lineParts
  rw [hd]
  dsimp only
  rw [if_pos rfl]
  obtain ⟨ws, n, c, cn, h4, -⟩ := balanced_wires num t hno [p]
  rw [h4]
  dsimp only
  rw [show [p].length = 1 from rfl, balanced_single h0]
  refine ⟨_, _, rfl, rfl, ?_⟩
  intro h
  have h' : ((z0.1 / 3 / 1000, z0.2 / 3 / 1000) : N × N) = ((z0.1 + 2 * z1.1) / 3 / 1000, (z0.2 + 2 * z1.2) / 3 / 1000) := by
    have := List.cons.inj h
    exact (List.cons.inj this.1).1
  have e1 := congrArg Prod.fst h'
  have e2 := congrArg Prod.snd h'
  dsimp only at e1 e2
  have th : (3 : N) ≠ 0 := by norm_num
  have tt : (1000 : N) ≠ 0 := by norm_num
  have tw : (2 : N) ≠ 0 := by norm_num
  rw [div_left_inj' tt, div_left_inj' th] at e1 e2
  have f1 : z1.1 = 0 := by
    have : 2 * z1.1 = 0 := by linear_combination -e1
    exact (mul_eq_zero.mp this).resolve_left tw
  have f2 : z1.2 = 0 := by
    have : 2 * z1.2 = 0 := by linear_combination -e2
    exact (mul_eq_zero.mp this).resolve_left tw
  exact hz (Prod.ext f1 f2)

/-- **C115** (violated): A line with impedances of each phase and one phase gets a reactance that is too small by a factor of a thousand. -/
theorem C115_reactance_violated {N : Type} [Field N] [CharZero N] (num : Text → Option N) (byPhase) (t : LineTables) (settings d : Values)
    (p : Char) (a b : String) (u : N × N) (hd : getEntry "type".toList d = some "unbalanced_line".toList) (hp : (p, p, a, b) ∈ pairColumns)
    (h : ImpedanceIn num d a.toList b.toList u) (hu : u.2 ≠ 0) :
    ∃ ws z, lineParts num byPhase t settings d [p] = .ok (ws, some [[z]]) ∧ z.1 = u.1 / 1000 ∧ z.2 = u.2 / 1000 / 1000 ∧ z.2 ≠ u.2 / 1000 := by
  have hcol : ∀ c ∈ pairColumns, c.1 = c.2.1 → phaseKey "r".toList c.1 = c.2.2.1.toList ∧ phaseKey "x".toList c.1 = c.2.2.2.toList := by decide +kernel
  obtain ⟨k1, k2⟩ := hcol _ hp rfl
  unfold lineParts
  rw [hd]
  dsimp only
  rw [if_neg (by decide), if_pos rfl, unbalancedMatrix, own_in k1 k2 h]
  refine ⟨_, (u.1 / 1000, 1 / 1000 * (u.2 / 1000)), rfl, rfl, ?_, ?_⟩
  · dsimp only
    ring
  · dsimp only
    have tt : (1000 : N) ≠ 0 := by norm_num
    rw [one_div, inv_mul_eq_div, Ne, div_left_inj' tt, div_eq_iff tt]
    intro hh
    have : u.2 * 999 = 0 := by linear_combination -hh
    rcases mul_eq_zero.mp this with h | h
    · exact hu h
    · exact absurd h (by norm_num)

theorem wireX_none {N : Type} (spacing : Values) (phase : Text) : (wireX spacing phase : Option N) = none := by
  unfold wireX
  cases xColumn phase with
  | none => rfl
  | some k => dsimp only; cases getEntry k spacing <;> rfl

/-- **C115** (violated): No wire has a position, whatever the spacing table says. (The text of the cell is assigned to an attribute that takes
numbers, and for the second coordinate a name is used that is not defined.) -/
theorem C115_position_violated {N : Type} (num : Text → Option N) (conductor spacing : Values) (phase : Text) (device : Option Device) (o : Bool) :
    (configureWire num conductor spacing phase device o).x = none ∧ (configureWire num conductor spacing phase device o).y = none :=
  ⟨wireX_none spacing phase, rfl⟩

/-- **C115** (violated): The diameter and the geometric mean radius of a wire are the numbers of the file, which are in centimeters, though the
model has them in meters. -/
theorem C115_units_violated {N : Type} [Field N] [CharZero N] (num : Text → Option N) (conductor spacing : Values) (phase : Text)
    (device : Option Device) (o : Bool) (g dm : N) (hg : numberIn num conductor "gmr".toList = some g)
    (hd : numberIn num conductor "diameter".toList = some dm) (h : g ≠ 0 ∧ dm ≠ 0) :
    (configureWire num conductor spacing phase device o).gmr = some g ∧ (configureWire num conductor spacing phase device o).diameter = some dm ∧
      g ≠ g / 100 ∧ dm ≠ dm / 100 := by
  have ne : ∀ x : N, x ≠ 0 → x ≠ x / 100 := by
    intro x hx hh
    have tt : (100 : N) ≠ 0 := by norm_num
    rw [eq_div_iff tt] at hh
    have : x * 99 = 0 := by linear_combination hh
    rcases mul_eq_zero.mp this with h | h
    · exact hx h
    · exact absurd h (by norm_num)
  refine ⟨(valueAt_in ..).trans hg, (valueAt_in ..).trans hd, ne _ h.1, ne _ h.2⟩

/-- **C115** (violated): A section that has `load` in the name of its first node gives no line, whatever it is. -/
theorem C115_load_violated {N : Type} [Field N] (inp : LineInput N) (key : Text) (settings : Values) (old : Option Text) (a : Text)
    (h : getEntry "fromnodeid".toList settings = some a) (hl : "load".toList <:+: a.map Char.toLower) :
    lineStep inp key settings old = .ok (none, old) := by
  unfold lineStep isLoadSection
  rw [h]
  dsimp only
  rw [if_pos (show inText "load".toList (lower a) = true from (inText_iff _ _).mpr hl)]

/-- **C115** (violated): A section without phases takes those of the section that was read before it: a switching device gets its wires. -/
theorem C115_phases_violated {N : Type} [Field N] (inp : LineInput N) (key sec feeder : Text) (settings : Values) (dev : Device) (closed : Text)
    (hk : SectionOf key sec) (hf : getEntry sec inp.feeders = some feeder)
    (hno : ∀ ends, getEntry sec inp.secs = some ends → getEntry "phase".toList ends = none) (hl : Loadless settings) (hd : IsDevice settings dev)
    (hc : ClosedIn settings closed) (before : Text) (hN : 'N' ∉ before) :
    ∃ l, lineStep inp key settings (some before) = .ok (some l, some before) ∧ l.wires.map (·.phase) = (before ++ ['N']).map fun p => [p] := by
  have hp : phasesAfter inp.secs sec (some before) = some before := by
    unfold phasesAfter sectionEntry
    cases h : getEntry sec inp.secs with
    | none => rfl
    | some ends =>
      dsimp only
      rw [hno ends h]
  unfold lineStep
  rw [loadless hl]
  dsimp only
  rw [rowSection_of hk, hf]
  dsimp only
  rw [hp, device_kind hd]
  dsimp only
  obtain ⟨c, hcc, hiff, hNc⟩ := closed_of hc
  unfold switchLine
  rw [hcc]
  dsimp only
  refine ⟨_, rfl, ?_⟩
  obtain ⟨ws, w, h1, h2, h3, -⟩ := device_wires inp.num dev (deviceData (inp.tables.devices dev) settings) hiff hNc before 0 hN
  show (deviceWires inp.num dev _ c 0 (before ++ ['N'])).map _ = _
  rw [h1, List.map_append, List.map_append]
  congr 1
  · clear h1 hp
    induction h2 with
    | nil => rfl
    | cons h _ ih =>
      rw [List.map_cons, List.map_cons, h.1.phase]
      congr 1
      exact ih fun hh => hN (List.mem_cons_of_mem _ hh)
  · rw [List.map_singleton, h3.phase]
    rfl

/-- **C115** (violated): A line with sequence impedances always gets a neutral wire, also if no conductor for a neutral is named or known. -/
theorem C115_neutral_violated {N : Type} [Field N] (num : Text → Option N) (t : LineTables) (d : Values) (phases : Text)
    (hno : getEntry "linecableid".toList d = none) (hn : getEntry "neutralcondid".toList d = none) :
    ∃ ws n, balancedWires num t d phases = .ok (ws ++ [n]) ∧ n.phase = "N".toList ∧ n.nameclass = none ∧ n.ampacity = none := by
  obtain ⟨ws, n, c, cn, h1, -, h2, -, h3⟩ := balanced_wires num t hno phases
  have : cn = [] := by
    rcases h2 with ⟨k, hk, -⟩ | ⟨-, h⟩
    · rw [hn] at hk
      cases hk
    · exact h
  subst this
  exact ⟨ws, n, h1, h3.phase, h3.nameclass, h3.ampacity⟩

/-- **C115** (violated): A line with impedances of each phase whose section names its two phases in another order than the alphabet has its wires
in the order of the section, but its matrix in the order of the alphabet. -/
theorem C115_order_violated {N : Type} [Field N] (num : Text → Option N) (t : LineTables) (d : Values) (hc : Complete num d) (a b : N × N)
    (ha : PairIs num d 'A' 'A' a) (hb : PairIs num d 'B' 'B' b) (hab : a ≠ b) :
    (∃ m, unbalancedMatrix num d "BA".toList = .ok m ∧ UnbalancedIs num d "AB".toList m ∧ ¬UnbalancedIs num d "BA".toList m) ∧
      ∃ ws ns, unbalancedWires num t d "BA".toList = ws ++ ns ∧ ws.map (·.phase) = ["B".toList, "A".toList] := by
  refine ⟨?_, ?_⟩
  · obtain ⟨m, h1, h2⟩ := unbalanced_matrix hc (phases := "AB".toList) (by decide)
    refine ⟨m, ?_, h2, ?_⟩
    · rw [← h1]
      show unbalancedMatrix num d ['B', 'A'] = unbalancedMatrix num d ['A', 'B']
      rw [unbalancedMatrix, unbalancedMatrix, show sortedPair ('B' : Char).toLower ('A' : Char).toLower = ('a', 'b') by decide,
        show sortedPair ('A' : Char).toLower ('B' : Char).toLower = ('a', 'b') by decide]
    · intro h3
      have uniq : ∀ {p : Char} {z z' : N × N}, PairIs num d p p z → PairIs num d p p z' → z = z' := by
        rintro p z z' ⟨a1, b1, u1, hm1, hi1, rfl⟩ ⟨a2, b2, u2, hm2, hi2, rfl⟩
        have hsame : ∀ c ∈ pairColumns, ∀ c' ∈ pairColumns, c.1 = c.2.1 → c'.1 = c'.2.1 → c.1 = c'.1 → c.2.2 = c'.2.2 := by decide +kernel
        have he := hsame _ hm1 _ hm2 rfl rfl rfl
        dsimp only at he
        obtain ⟨rfl, rfl⟩ := Prod.mk.inj he
        have e1 := hi1.1.symm.trans hi2.1
        have e2 := hi1.2.symm.trans hi2.2
        injection e1 with e1
        injection e2 with e2
        rw [e1, e2]
      have g1 : ∃ z r r', m = (z :: r) :: r' ∧ PairIs num d 'A' 'A' z := by
        cases h2 with
        | cons hr _ => cases hr with | cons hz _ => exact ⟨_, _, _, rfl, hz⟩
      obtain ⟨z, r, r', rfl, hz⟩ := g1
      have g2 : PairIs num d 'B' 'B' z := by
        cases h3 with
        | cons hr _ => cases hr with | cons hz _ => exact hz
      exact hab ((uniq ha hz).trans (uniq g2 hb))
  · exact ⟨_, _, rfl, rfl⟩

theorem addCell_other (mapping : List (Text × Nat)) (data : List Text) (k : Text) : ∀ (attrs : List Text) (d : Values), k ∉ attrs →
    getEntry k (attrs.foldl (addCell mapping data) d) = getEntry k d := by
  intro attrs
  induction attrs with
  | nil => intro d _; rfl
  | cons a attrs ih =>
    intro d h
    rw [List.mem_cons, not_or] at h
    rw [List.foldl_cons, ih _ h.2]
    unfold addCell
    split
    · rfl
    · rw [getEntry_setEntry, if_neg h.1]

/-- **C115** (violated): The phases that are closed are not read for fuses and reclosers. Whatever the cells and the columns of their rows are, all
phases are taken to be closed. -/
theorem C115_fuse_violated (q : Query) (hq : q = fuseSettingQuery ∨ q = recloserSettingQuery) (mapping : List (Text × Nat)) (data : List Text) :
    ClosedIn (rowValues q.attrs mapping q.info data) "ABC".toList ∧ ∀ c, ClosedIn (rowValues q.attrs mapping q.info data) c → c = "ABC".toList := by
  have h : getEntry "closedphase".toList (rowValues q.attrs mapping q.info data) = none := by
    unfold rowValues
    have hi : ∃ t, q.info = [("type".toList, t)] := by
      rcases hq with rfl | rfl <;> exact ⟨_, rfl⟩
    obtain ⟨t, hi⟩ := hi
    rw [hi]
    show getEntry _ (setEntry "type".toList t _) = none
    rw [getEntry_setEntry, if_neg (show ¬"closedphase".toList = "type".toList by decide), addCell_other]
    · rfl
    · rcases hq with rfl | rfl <;> decide
  refine ⟨Or.inl ⟨h, rfl⟩, ?_⟩
  rintro c (⟨-, hc⟩ | ⟨x, y, -, hx, -⟩)
  · exact hc
  · rw [h] at hx
    cases hx

/-! ### entries of several tables -/

theorem entry_absent {V : Type} {k : Text} {l : List (Text × V)} (h : k ∉ l.map (·.1)) : getEntry k l = none := by
  induction l with
  | nil => rfl
  | cons q l ih =>
    rw [List.map_cons, List.mem_cons, not_or] at h
    rw [getEntry, if_neg fun e => h.1 e.symm, ih h.2]

theorem joinEntry_get (d : List (Text × Values)) (p : Text × Values) (k : Text) : getEntry k (joinEntry d p) =
    if k = p.1 then some (match getEntry k d with | some v => updateAll v p.2 | none => p.2) else getEntry k d := by
  unfold joinEntry
  by_cases h : k = p.1
  · rw [if_pos h, ← h]
    cases getEntry k d with
    | none => dsimp only; rw [getEntry_setEntry, if_pos rfl]
    | some v => dsimp only; rw [getEntry_setEntry, if_pos rfl]
  · rw [if_neg h]
    cases getEntry p.1 d with
    | none => dsimp only; rw [getEntry_setEntry, if_neg h]
    | some v => dsimp only; rw [getEntry_setEntry, if_neg h]

theorem join_other (k : Text) : ∀ (e d : List (Text × Values)), k ∉ e.map (·.1) → getEntry k (updateDict d e) = getEntry k d := by
  intro e
  induction e with
  | nil => intro d _; rfl
  | cons p e ih =>
    intro d h
    rw [List.map_cons, List.mem_cons, not_or] at h
    show getEntry k (updateDict (joinEntry d p) e) = _
    rw [ih _ h.2, joinEntry_get, if_neg h.1]

/-- **C115**: When the entries of a table are joined with those of the tables before, the entry of a section has the attributes of both; where both
have an attribute, it is that of the later table. Sections that are only in one of the tables keep their entry. -/
theorem C115_joined (d e : List (Text × Values)) (he : (e.map (·.1)).Nodup) (k : Text) :
    (k ∉ e.map (·.1) → getEntry k (updateDict d e) = getEntry k d) ∧
    (∀ w, (k, w) ∈ e → getEntry k d = none → getEntry k (updateDict d e) = some w) ∧
    (∀ v w, (k, w) ∈ e → getEntry k d = some v → (w.map (·.1)).Nodup → ∃ u, getEntry k (updateDict d e) = some u ∧
      ∀ a, getEntry a u = match getEntry a w with | some x => some x | none => getEntry a v) := by
  have key : ∀ w, (k, w) ∈ e → getEntry k (updateDict d e) = some (match getEntry k d with | some v => updateAll v w | none => w) := by
    induction e generalizing d with
    | nil => intro w h; cases h
    | cons p e ih =>
      intro w hw
      rw [List.map_cons, List.nodup_cons] at he
      show getEntry k (updateDict (joinEntry d p) e) = _
      rcases List.mem_cons.mp hw with rfl | hw
      · rw [join_other k e _ he.1, joinEntry_get, if_pos rfl]
      · have hne : k ≠ p.1 := by
          intro hk
          exact he.1 (hk ▸ List.mem_map_of_mem (f := fun x : Text × Values => x.1) hw)
        rw [ih (joinEntry d p) he.2 w hw, joinEntry_get, if_neg hne]
  refine ⟨join_other k e d, ?_, ?_⟩
  · intro w hw hd
    rw [key w hw, hd]
  · intro v w hw hd hn
    rw [key w hw, hd]
    refine ⟨_, rfl, ?_⟩
    intro a
    clear key hw hd he
    induction w generalizing v with
    | nil => rfl
    | cons q w ih =>
      rw [List.map_cons, List.nodup_cons] at hn
      show getEntry a (updateAll (setEntry q.1 q.2 v) w) = _
      rw [ih _ hn.2, getEntry_setEntry]
      by_cases ha : a = q.1
      · subst ha
        rw [if_pos rfl]
        have h1 : getEntry q.1 w = none := by
          exact entry_absent hn.1
        have h2 : getEntry q.1 (q :: w) = some q.2 := by
          rw [getEntry, if_pos rfl]
        rw [h1, h2]
      · rw [if_neg ha]
        have h2 : getEntry a (q :: w) = getEntry a w := by
          rw [getEntry, if_neg fun h => ha h.symm]
        rw [h2]

/-- **C115** (violated): If a section has a line, and a switching device in a later table, the reader makes one device of both, with no impedance and
no type of line, whatever the tables of lines say. -/
theorem C115_same_section_violated {N : Type} [Field N] (inp : LineInput N) (key sec feeder phases : Text) (ends v w : Values) (dev : Device)
    (c x : String) (hs : LineSection inp.secs inp.feeders key sec ends feeder phases) (hw : (w.map (·.1)).Nodup) (hdev : IsDevice w dev)
    (hc : getEntry "closedphase".toList w = some c.toList) (hx : (c, x) ∈ closedBy) (hv : Loadless v)
    (hn : getEntry "fromnodeid".toList w = none ∧ getEntry "tonodeid".toList w = none)
    (old : Option Text) : ∃ u l ps, getEntry key (updateDict [(key, v)] [(key, w)]) = some u ∧ lineStep inp key u old = .ok (some l, ps) ∧
      l.device = some dev ∧ l.impedance = none ∧ l.lineType = none := by
  have hk : getEntry key [(key, v)] = some v := by
    rw [getEntry, if_pos rfl]
  obtain ⟨u, h1, h2⟩ := (C115_joined [(key, v)] [(key, w)] (by simp) key).2.2 v w List.mem_cons_self hk hw
  have hcl : ClosedIn u x.toList := Or.inr ⟨c, x, hx, by rw [h2, hc], rfl⟩
  have hl : Loadless u := by
    unfold Loadless at hv ⊢
    rw [h2, hn.1, h2, hn.2]
    exact hv
  obtain ⟨c, hc, -⟩ := closed_of hcl
  have hd : IsDevice u dev := by
    obtain ⟨t, ht, he⟩ := hdev
    refine ⟨t, ht, ?_⟩
    rw [h2, he]
  have hstep : lineStep inp key u old = .ok (some { lineBase inp sec feeder u with
      device := some dev
      voltage := thousandAt inp.num (deviceData (inp.tables.devices dev) u) "kvll".toList
      wires := deviceWires inp.num dev (deviceData (inp.tables.devices dev) u) c 0 (phases ++ ['N']) }, some phases) := by
    unfold lineStep
    rw [loadless hl]
    dsimp only
    rw [rowSection_of hs.named, hs.network]
    dsimp only
    rw [device_kind hd]
    dsimp only
    unfold switchLine
    rw [hc]
    dsimp only
    rw [phases_of hs]
  exact ⟨u, _, _, h1, hstep, rfl, rfl, rfl⟩

/-- **C115**: A section whose key is not known, or that has no network, is a `KeyError`; a code for closed phases that is not known also. -/
theorem C115_errors {N : Type} [Field N] (inp : LineInput N) (key sec : Text) (settings : Values) (old : Option Text) (hs : SectionOf key sec)
    (hl : Loadless settings) :
    (getEntry sec inp.feeders = none → lineStep inp key settings old = .error .keyError) ∧
    (∀ feeder d c, getEntry sec inp.feeders = some feeder → IsDevice settings d → getEntry "closedphase".toList settings = some c →
      c ∉ closedBy.map (·.1.toList) → lineStep inp key settings old = .error .keyError) ∧
    (∀ feeder d closed, getEntry sec inp.feeders = some feeder → IsDevice settings d → ClosedIn settings closed → getEntry sec inp.secs = none →
      lineStep inp key settings none = .error .unboundLocalError) := by
  refine ⟨?_, ?_, ?_⟩
  · intro h
    unfold lineStep
    rw [loadless hl]
    dsimp only
    rw [rowSection_of hs, h]
  · intro feeder d c hf hd hc hno
    unfold lineStep
    rw [loadless hl]
    dsimp only
    rw [rowSection_of hs, hf]
    dsimp only
    rw [device_kind hd]
    dsimp only
    unfold switchLine closedOf
    rw [hc]
    dsimp only
    have : getEntry c closedPhases = none := by
      have hkeys : closedPhases.map (·.1) = closedBy.map (·.1.toList) := by decide +kernel
      exact entry_absent (by rw [hkeys]; exact hno)
    rw [this]
  · intro feeder d closed hf hd hcl hns
    unfold lineStep
    rw [loadless hl]
    dsimp only
    rw [rowSection_of hs, hf]
    dsimp only
    rw [device_kind hd]
    dsimp only
    unfold switchLine
    obtain ⟨c, hc, -⟩ := closed_of hcl
    rw [hc]
    dsimp only
    unfold phasesAfter sectionEntry
    rw [hns]

/-! ### examples -/

/-- numbers of one digit -/
def fractionOf (t : Text) : Option ℚ := (digitOf t).map fun n => (n : ℚ)

def indexOfText (t : Text) : Option ℤ := (digitOf t).map fun n => (n : ℤ)

/-- a line for each of `L1`, `L2` and a switch for `S1` -/
def linesFile : List Text :=
  ["[SECTION]\n", "FORMAT_SECTION=SectionID,FromNodeID,ToNodeID,Phase\n", "L1,n1,n2,ABC\n", "L2,n2,n3,AC\n", "S1,n3,n4,AB\n", "Z1,n4,myload,A\n", "\n",
    "[OVERHEADLINE SETTING]\n", "FORMAT_OVERHEADLINESETTING=SectionID,LineCableID,Length,CoordX,CoordY\n", "L1,w1,5,0,0\n", "\n",
    "[OVERHEADLINEUNBALANCED SETTING]\n", "FORMAT_OVERHEADLINEUNBALANCEDSETTING=SectionID,LineCableID,Length,CoordX,CoordY\n", "L2,w2,7,0,0\n", "\n",
    "[SWITCH SETTING]\n", "FORMAT_SWITCHSETTING=SectionID,EqID,ClosedPhase,CoordX,CoordY\n", "S1,s,1,0,0\n", "\n"].map String.toList

def linesEquipment : List Text :=
  ["[LINE]\n", "FORMAT_LINE=ID,PhaseCondID,NeutralCondID,SpacingID,R1,R0,X1,X0,B1,B0,Amps\n", "w1,c1,c2,sp,1,4,2,8,0,0,9\n", "\n",
    "[LINE UNBALANCED]\n",
    "FORMAT_LINEUNBALANCED=ID,CondID_A,CondID_B,CondID_C,CondID_N,SpacingID,Ra,Rb,Rc,Xa,Xb,Xc,Ba,Bb,Bc,MutualResistanceAB,MutualResistanceBC,MutualResistanceCA,MutualReactanceAB,MutualReactanceBC,MutualReactanceCA\n",
    "w2,c1,c1,c2,none,sp,1,2,3,4,5,6,0,0,0,7,8,9,1,2,3\n", "\n",
    "[CONDUCTOR]\n", "FORMAT_CONDUCTOR=ID,Diameter,GMR,R25,Amps,WithstandRating\n", "c1,1,2,3,4,5\n", "c2,6,7,8,9,1\n", "\n",
    "[SWITCH]\n", "FORMAT_SWITCH=ID,Amps,kVLL\n", "s,6,8\n", "\n"].map String.toList

def linesEnds (a b p : String) : Values :=
  [("fromnodeid".toList, a.toList), ("fromnodeindex".toList, "0".toList), ("tonodeid".toList, b.toList), ("tonodeindex".toList, "1".toList),
    ("phase".toList, p.toList)]

def linesSections : List (Text × Values) :=
  [("l1".toList, linesEnds "n1" "n2" "ABC"), ("l2".toList, linesEnds "n2" "n3" "AC"), ("s1".toList, linesEnds "n3" "n4" "AB"),
    ("z1".toList, linesEnds "n4" "myload" "A")]

def linesFeeders : List (Text × Text) := ["l1", "l2", "s1", "z1"].map fun k => (k.toList, "f1".toList)

/-- what is read of the file -/
def linesOf : Py (List (ReadLine ℚ)) := parseLines fractionOf indexOfText (fun _ _ _ => .ok none) linesSections linesFeeders linesFile linesEquipment

/-- a wire with the first of the conductors -/
def wireOne (p : String) : LineWire ℚ where
  phase := p.toList
  nameclass := some "c1".toList
  diameter := some 1
  gmr := some 2
  ampacity := some 4
  emergency := some 5

/-- a wire with the second of the conductors -/
def wireTwo (p : String) : LineWire ℚ where
  phase := p.toList
  nameclass := some "c2".toList
  diameter := some 6
  gmr := some 7
  ampacity := some 9
  emergency := some 1

/-- a wire of the switch -/
def wireSwitch (p : String) (o : Bool) : LineWire ℚ where
  phase := p.toList
  nameclass := some "s".toList
  device := some .switch
  isOpen := o
  ampacity := some 6

def lineOne : ReadLine ℚ where
  name := "l1".toList
  start := some "n1".toList
  stop := some "n2".toList
  startIndex := some 0
  stopIndex := some 1
  length := 5
  feeder := "f1".toList
  nameclass := none
  lineType := some "overhead".toList
  wires := [wireOne "A", wireOne "B", wireOne "C", wireTwo "N"]
  impedance := some [[(2/1000, 4/1000), (1/1000, 2/1000), (1/1000, 2/1000)], [(1/1000, 2/1000), (2/1000, 4/1000), (1/1000, 2/1000)],
    [(1/1000, 2/1000), (1/1000, 2/1000), (2/1000, 4/1000)]]

def lineTwo : ReadLine ℚ where
  name := "l2".toList
  start := some "n2".toList
  stop := some "n3".toList
  startIndex := some 0
  stopIndex := some 1
  length := 7
  feeder := "f1".toList
  nameclass := none
  lineType := some "overhead".toList
  wires := [wireOne "A", wireTwo "C"]
  impedance := some [[(1/1000, 4/1000), (9/1000, 3/1000)], [(9/1000, 3/1000), (3/1000, 6/1000)]]

def lineSwitch : ReadLine ℚ where
  name := "s1".toList
  start := some "n3".toList
  stop := some "n4".toList
  startIndex := some 0
  stopIndex := some 1
  length := 0
  feeder := "f1".toList
  nameclass := some "s".toList
  device := some .switch
  voltage := some 8000
  wires := [wireSwitch "A" false, wireSwitch "B" true, wireSwitch "N" false]

example : linesOf.toOption = some [lineOne, lineTwo, lineSwitch] := by
  decide +kernel

/-- the dictionaries of these files -/
def linesSettings : List (Text × Values) :=
  [("l1".toList, [("fromnodeid".toList, "n1".toList), ("tonodeid".toList, "n2".toList), ("linecableid".toList, "w1".toList),
      ("length".toList, "5".toList), ("type".toList, "overhead_balanced".toList)]),
    ("l2".toList, [("fromnodeid".toList, "n2".toList), ("tonodeid".toList, "n3".toList), ("linecableid".toList, "w2".toList),
      ("length".toList, "7".toList), ("type".toList, "overhead_unbalanced".toList)]),
    ("S1*".toList, [("fromnodeid".toList, "n3".toList), ("tonodeid".toList, "n4".toList), ("eqid".toList, "s".toList),
      ("closedphase".toList, "1".toList), ("type".toList, "switch".toList)]),
    ("z1".toList, [("fromnodeid".toList, "n4".toList), ("tonodeid".toList, "n5".toList)])]

def linesTables : LineTables where
  balanced := [("w1".toList, [("id".toList, "w1".toList), ("r1".toList, "1".toList), ("r0".toList, "4".toList), ("x1".toList, "2".toList),
    ("x0".toList, "8".toList), ("type".toList, "balanced_line".toList)])]
  unbalanced := [("w2".toList, [("id".toList, "w2".toList), ("ra".toList, "1".toList), ("xa".toList, "2".toList),
    ("type".toList, "unbalanced_line".toList)])]
  devices := fun _ => [("s".toList, [("id".toList, "s".toList), ("amps".toList, "6".toList), ("kvll".toList, "8".toList)])]

def linesInput : LineInput ℚ where
  num := fractionOf
  int := indexOfText
  byPhase := fun _ _ _ => .ok none
  secs := linesSections
  feeders := linesFeeders
  tables := linesTables

theorem loadless_of {v : Values} {a b : Text} (h1 : getEntry "fromnodeid".toList v = some a) (h2 : getEntry "tonodeid".toList v = some b)
    (h : inText "load".toList (lower a) = false ∧ inText "load".toList (lower b) = false) : Loadless v := by
  refine Or.inr ⟨a, b, h1, h2, ?_, ?_⟩
  · intro hh
    rw [← inText_iff] at hh
    exact absurd (h.1.symm.trans hh) (by decide)
  · intro hh
    rw [← inText_iff] at hh
    exact absurd (h.2.symm.trans hh) (by decide)

theorem linesSettings_ok : ∀ p ∈ linesSettings, EntryOk linesInput p := by
  intro p hp
  rcases List.mem_cons.mp hp with rfl | hp
  · refine ⟨"l1".toList, _, "f1".toList, "ABC".toList, .balanced "overhead".toList _, ⟨⟨"l1".toList, 0, by decide, rfl, by decide⟩, rfl, rfl, rfl⟩,
      by decide, loadless_of rfl rfl (by decide +kernel), .balanced (k := "w1".toList) (Or.inl ⟨by decide, rfl⟩) rfl
      (.line rfl rfl rfl rfl rfl) rfl⟩
  rcases List.mem_cons.mp hp with rfl | hp
  · refine ⟨"l2".toList, _, "f1".toList, "AC".toList, .unbalanced "overhead".toList _, ⟨⟨"l2".toList, 0, by decide, rfl, by decide⟩, rfl, rfl, rfl⟩,
      by decide, loadless_of rfl rfl (by decide +kernel), .unbalanced (k := "w2".toList) (Or.inl ⟨by decide, rfl⟩) rfl ⟨rfl, rfl, rfl, rfl⟩⟩
  rcases List.mem_cons.mp hp with rfl | hp
  · refine ⟨"s1".toList, _, "f1".toList, "AB".toList, .device .switch _ "A".toList, ⟨⟨"S1".toList, 1, by decide, rfl, by decide⟩, rfl, rfl, rfl⟩,
      by decide, loadless_of rfl rfl (by decide +kernel), .device ⟨"switch", by decide, rfl⟩ (Or.inl ⟨_, rfl, rfl⟩)
      (Or.inr ⟨"1", "A", by decide, rfl, rfl⟩)⟩
  · rw [List.mem_singleton.mp hp]
    refine ⟨"z1".toList, _, "f1".toList, "A".toList, .nothing, ⟨⟨"z1".toList, 0, by decide, rfl, by decide⟩, rfl, rfl, rfl⟩, by decide,
      loadless_of rfl rfl (by decide +kernel), .nothing rfl rfl rfl⟩

example : ∃ lines : List (Option (ReadLine ℚ)), allLines linesInput linesSettings none = .ok (lines.flatMap Option.toList) ∧
    List.Forall₂ (EntryLine linesInput) linesSettings lines :=
  C115_lines_partial linesInput linesSettings linesSettings_ok none

/-- a line of one phase with sequence impedances -/
example : ∃ ws m, lineParts fractionOf (fun _ _ _ => .ok none) linesTables [] [("type".toList, "balanced_line".toList), ("r1".toList, "1".toList),
    ("r0".toList, "4".toList), ("x1".toList, "2".toList), ("x0".toList, "8".toList)] "A".toList = .ok (ws, some m) ∧
    m = [[((4 : ℚ) / 3 / 1000, (8 : ℚ) / 3 / 1000)]] ∧ m ≠ balancedIs ((1 : ℚ), (2 : ℚ)) ((4 : ℚ), (8 : ℚ)) 1 :=
  C115_single_violated fractionOf _ linesTables [] _ 'A' (1, 2) (4, 8) rfl rfl ⟨by decide +kernel, by decide +kernel⟩
    ⟨by decide +kernel, by decide +kernel⟩ (by decide +kernel)

/-- a line of one phase with impedances of each phase -/
example : ∃ ws z, lineParts fractionOf (fun _ _ _ => .ok none) linesTables [] [("type".toList, "unbalanced_line".toList), ("ra".toList, "1".toList),
    ("xa".toList, "2".toList)] "A".toList = .ok (ws, some [[z]]) ∧ z.1 = (1 : ℚ) / 1000 ∧ z.2 = (2 : ℚ) / 1000 / 1000 ∧ z.2 ≠ 2 / 1000 :=
  C115_reactance_violated fractionOf _ linesTables [] _ 'A' "ra" "xa" (1, 2) rfl (by decide) ⟨by decide +kernel, by decide +kernel⟩ (by decide)

/-- the row of an unbalanced line with all its impedances -/
def orderRow : Values := [("type", "unbalanced_line"), ("ra", "1"), ("rb", "2"), ("rc", "3"), ("xa", "4"), ("xb", "5"), ("xc", "6"),
  ("mutualresistanceab", "7"), ("mutualresistancebc", "8"), ("mutualresistanceca", "9"), ("mutualreactanceab", "1"), ("mutualreactancebc", "2"),
  ("mutualreactanceca", "3")].map fun p => (p.1.toList, p.2.toList)

theorem orderRow_complete : Complete fractionOf orderRow := by
  have h : ∀ c ∈ pairColumns, (numberIn fractionOf orderRow c.2.2.1.toList).isSome ∧ (numberIn fractionOf orderRow c.2.2.2.toList).isSome := by decide +kernel
  intro c hc
  obtain ⟨x, hx⟩ := Option.isSome_iff_exists.mp (h c hc).1
  obtain ⟨y, hy⟩ := Option.isSome_iff_exists.mp (h c hc).2
  exact ⟨(x, y), hx, hy⟩

example : ∃ m, unbalancedMatrix fractionOf orderRow "BA".toList = .ok m ∧ UnbalancedIs fractionOf orderRow "AB".toList m ∧
    ¬UnbalancedIs fractionOf orderRow "BA".toList m :=
  (C115_order_violated fractionOf linesTables orderRow orderRow_complete (1 / 1000, 4 / 1000) (2 / 1000, 5 / 1000)
    ⟨"ra", "xa", (1, 4), by decide, ⟨by decide +kernel, by decide +kernel⟩, rfl⟩
    ⟨"rb", "xb", (2, 5), by decide, ⟨by decide +kernel, by decide +kernel⟩, rfl⟩ (by decide +kernel)).1

/-- a conductor of two centimeters, and a position in the spacing table -/
example : (configureWire fractionOf [("gmr".toList, "1".toList), ("diameter".toList, "2".toList)] [("posofcond1_x".toList, "3".toList),
    ("posofcond1_y".toList, "4".toList)] "A".toList none false).diameter = some 2 ∧
    (configureWire fractionOf [("gmr".toList, "1".toList), ("diameter".toList, "2".toList)] [("posofcond1_x".toList, "3".toList),
    ("posofcond1_y".toList, "4".toList)] "A".toList none false).x = none :=
  ⟨(C115_units_violated fractionOf _ _ _ none false 1 2 (by decide +kernel) (by decide +kernel) ⟨by decide +kernel, by decide +kernel⟩).2.1,
    (C115_position_violated ..).1⟩

/-- a switch to a node with `load` in its name -/
example : lineStep linesInput "l1".toList [("fromnodeid".toList, "Download1".toList), ("tonodeid".toList, "n2".toList), ("type".toList, "switch".toList)]
    none = .ok (none, none) :=
  C115_load_violated linesInput _ _ none "Download1".toList rfl ((inText_iff _ _).mp (by decide +kernel))

/-- a line without a neutral -/
example : ∃ ws n, balancedWires fractionOf linesTables [("phasecondid".toList, "c1".toList)] "AB".toList = .ok (ws ++ [n]) ∧ n.phase = "N".toList ∧
    n.nameclass = none ∧ n.ampacity = none :=
  C115_neutral_violated fractionOf linesTables _ _ rfl rfl

/-- a line and a switch in one section -/
example : ∃ u l ps, getEntry "l1".toList (updateDict [("l1".toList, [("linecableid".toList, "w1".toList), ("type".toList, "overhead_balanced".toList)])]
    [("l1".toList, [("eqid".toList, "s".toList), ("closedphase".toList, "7".toList), ("type".toList, "switch".toList)])]) = some u ∧
    lineStep linesInput "l1".toList u none = .ok (some l, ps) ∧ l.device = some .switch ∧ l.impedance = none ∧ l.lineType = none :=
  C115_same_section_violated linesInput _ "l1".toList "f1".toList "ABC".toList _ _ _ .switch "7" "ABC"
    ⟨⟨"l1".toList, 0, by decide, rfl, by decide⟩, rfl, rfl, rfl⟩ (by decide) ⟨"switch", by decide, rfl⟩ rfl (by decide) (Or.inl rfl) ⟨rfl, rfl⟩ none

/-- a row of a fuse with all phases open -/
example : ClosedIn (rowValues fuseSettingQuery.attrs (columnList [("sectionid", 0), ("eqid", 1), ("closedphase", 2)]) fuseSettingQuery.info
    ["l1".toList, "fu".toList, "0".toList]) "ABC".toList :=
  (C115_fuse_violated fuseSettingQuery (Or.inl rfl) _ _).1

/-- a section that is not known -/
example : lineStep linesInput "q".toList [("type".toList, "switch".toList)] none = .error .keyError :=
  (C115_errors linesInput "q".toList "q".toList _ none ⟨"q".toList, 0, by decide, rfl, by decide⟩ (Or.inl rfl)).1 rfl

/-- a code that is not known -/
example : lineStep linesInput "l1".toList [("type".toList, "switch".toList), ("closedphase".toList, "8".toList)] none = .error .keyError :=
  (C115_errors linesInput "l1".toList "l1".toList _ none ⟨"l1".toList, 0, by decide, rfl, by decide⟩ (Or.inl rfl)).2.1 "f1".toList .switch "8".toList rfl
    ⟨"switch", by decide, rfl⟩ rfl (by decide)

/-- also if the column is the last one, so that the code ends with the end of the line -/
example : lineStep linesInput "l1".toList [("type".toList, "switch".toList), ("closedphase".toList, "7\n".toList)] none = .error .keyError :=
  (C115_errors linesInput "l1".toList "l1".toList _ none ⟨"l1".toList, 0, by decide, rfl, by decide⟩ (Or.inl rfl)).2.1 "f1".toList .switch _ rfl
    ⟨"switch", by decide, rfl⟩ rfl (by decide)

/-- a device of a section without phases -/
example : ∃ l, lineStep { linesInput with feeders := [("q1".toList, "f".toList)] } "q1".toList [("type".toList, "switch".toList)] (some "AC".toList) = .ok (some l, some "AC".toList) ∧
    l.wires.map (·.phase) = [['A'], ['C'], ['N']] :=
  C115_phases_violated { linesInput with feeders := [("q1".toList, "f".toList)] } "q1".toList "q1".toList "f".toList _ .switch "ABC".toList
    ⟨"q1".toList, 0, by decide, rfl, by decide⟩ rfl (fun ends h => nomatch (show (none : Option Values) = some ends from h)) (Or.inl rfl) ⟨"switch", by decide, rfl⟩ (Or.inl ⟨rfl, rfl⟩)
    "AC".toList (by decide)

/-- a cable that is named by its device -/
example : ∃ l, plainLine { linesInput with tables := { linesTables with concentric := [("u".toList, [("r1".toList, "1".toList), ("r0".toList, "4".toList),
    ("x1".toList, "2".toList), ("x0".toList, "8".toList)])] } } "s".toList "f".toList [("devicenumber".toList, "u".toList)] none (some "AB".toList) =
      .ok (some l) ∧ l.impedance = some (balancedIs (1, 2) (4, 8) 2) := by
  obtain ⟨l, h1, -, h2⟩ := C115_cables { linesInput with tables := { linesTables with concentric := [("u".toList, [("r1".toList, "1".toList),
    ("r0".toList, "4".toList), ("x1".toList, "2".toList), ("x0".toList, "8".toList)])] } } "s".toList "f".toList
    [("devicenumber".toList, "u".toList)] none "u".toList _ "AB".toList rfl rfl rfl rfl
  exact ⟨l, h1, h2.impedance _ _ ⟨by decide +kernel, by decide +kernel⟩ ⟨by decide +kernel, by decide +kernel⟩ (Or.inl rfl)⟩

end Ditto.Cyme
