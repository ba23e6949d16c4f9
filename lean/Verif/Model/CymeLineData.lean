import Verif.Model.CymeLineCodes

/-! Impedances and susceptances of lines and cables in the equipment file of the CYME writer: parts of `write_network_file` and `write_equipment_file` of
ditto/writers/cyme/write.py. Complex numbers are pairs; `w` is 2 π times the frequency of 60 Hz. -/
namespace Ditto.Cyme
open Ditto Glm

/-- phases of an overhead line with three phases -/
inductive OverPhase
  | A | B | C
deriving DecidableEq

/-- Keys of the dictionary of a line: "RA", "XA", "BA", "MutualResistanceAB", "MutualReactanceAB" and "MutualShuntSusceptanceAB" with any phases,
"AmpsA", and "Ba", which is not "BA". ditto/writers/cyme/write.py:1431, 1446-1525 -/
inductive OverKey
  | r (p : OverPhase)
  | x (p : OverPhase)
  | b (p : OverPhase)
  | small (p : OverPhase)
  | mutualR (p q : OverPhase)
  | mutualX (p q : OverPhase)
  | mutualB (p q : OverPhase)
  | amps (p : OverPhase)
deriving DecidableEq

/-- `matrix[k][j]` -/
def entryAt {V : Type} (m : List (List V)) (k j : Nat) : Py V :=
  match m[k]? with
  | none => .error .indexError
  | some row =>
    match row[j]? with
    | none => .error .indexError
    | some v => .ok v

/-- the capacitance matrix if it is there and as large as that of the impedances: ditto/writers/cyme/write.py:1452-1454, 1476-1480, 1507-1511 -/
def sizedCapacitances {N : Type} (z : List (List (N × N))) (c : Option (List (List N))) : Option (List (List N)) :=
  match c with
  | none => none
  | some c => if c.length = z.length then some c else none

/-- One pair of phases: ditto/writers/cyme/write.py:1445-1525. -/
def overPair {N : Type} [Field N] (w : N) (z : List (List (N × N))) (c : Option (List (List N))) (d : List (OverKey × N))
    (e : (OverPhase × Nat) × (OverPhase × Nat)) : Py (List (OverKey × N)) :=
  let p := e.1.1
  let k := e.1.2
  let q := e.2.1
  let j := e.2.2
  if j = k then
    match entryAt z k j with
    | .error err => .error err
    | .ok v =>
      let d := putCode (.x p) (v.2 * 1000) (putCode (.r p) (v.1 * 1000) d)
      match sizedCapacitances z c with
      | none => .ok (putCode (.small .C) 0 (putCode (.small .B) 0 (putCode (.small .A) 0 d)))
      | some c =>
        match entryAt c k j with
        | .error err => .error err
        | .ok b => .ok (putCode (.b p) (b * w * 1000) d)
  else if k < j then
    match entryAt z k j with
    | .error err => .error err
    | .ok v =>
      let n := if p = .A ∧ q = .C then (OverPhase.C, OverPhase.A) else (p, q)
      let d := putCode (.mutualX n.1 n.2) (v.2 * 1000) (putCode (.mutualR n.1 n.2) (v.1 * 1000) d)
      match sizedCapacitances z c with
      | none =>
        if p = .A ∧ q = .C then .ok (putCode (.mutualB .C .A) 0 d)
        else .ok (putCode (.mutualB .B .C) 0 (putCode (.mutualB .A .B) 0 d))
      | some c =>
        match entryAt c k j with
        | .error err => .error err
        | .ok b => .ok (putCode (.mutualB n.1 n.2) (b * w * 1000) d)
  else .ok d

/-- the pairs of the two loops: ditto/writers/cyme/write.py:1443-1444 -/
def phasePairs (phases : List OverPhase) : List ((OverPhase × Nat) × (OverPhase × Nat)) :=
  phases.zipIdx.flatMap fun a => phases.zipIdx.map fun b => (a, b)

/-- the loop over the pairs -/
def overLoop {N : Type} [Field N] (w : N) (z : List (List (N × N))) (c : Option (List (List N))) :
    List (OverKey × N) → List ((OverPhase × Nat) × (OverPhase × Nat)) → Py (List (OverKey × N))
  | d, [] => .ok d
  | d, e :: es =>
    match overPair w z c d e with
    | .error err => .error err
    | .ok d => overLoop w z c d es

/-- The numbers of the dictionary of an overhead line: ditto/writers/cyme/write.py:1418-1434, 1443-1525. `amps` has the ampacities of the wires of the
three phases that have one, in the order of the wires. -/
def overData {N : Type} [Field N] (w : N) (phases : List OverPhase) (z : List (List (N × N))) (c : Option (List (List N))) (amps : List (OverPhase × N)) :
    Py (List (OverKey × N)) :=
  overLoop w z c (amps.foldl (fun d a => putCode (.amps a.1) a.2 d) []) (phasePairs phases)

/-- the columns with numbers: ditto/writers/cyme/write.py:4718-4747 -/
def overKeys : List OverKey :=
  [.r .A, .r .B, .r .C, .x .A, .x .B, .x .C, .small .A, .small .B, .small .C, .mutualR .A .B, .mutualR .B .C, .mutualR .C .A,
    .mutualX .A .B, .mutualX .B .C, .mutualX .C .A, .mutualB .A .B, .mutualB .B .C, .mutualB .C .A, .amps .A, .amps .B, .amps .C]

/-- missing numbers are written as zero: ditto/writers/cyme/write.py:4748-4761 -/
def numberOrZero {N : Type} [Zero N] : Option N → N
  | none => 0
  | some v => v

/-- The numbers of the row of an overhead line: ditto/writers/cyme/write.py:4718-4761. Conductors, spacing and the constants of the row are left out. -/
def overNumbers {N : Type} [Field N] (d : List (OverKey × N)) : List N :=
  overKeys.map fun k => numberOrZero (codeOf k d)

/-- the loop over a row of the matrix of a cable, for its other elements: ditto/writers/cyme/write.py:1267-1273 -/
def offLoop {V : Type} [Zero V] [DecidableEq V] (m : List (List V)) (k : Nat) : V → List Nat → Py V
  | o, [] => .ok o
  | o, j :: js =>
    if j = k then offLoop m k o js
    else
      match entryAt m k j with
      | .error e => .error e
      | .ok v => offLoop m k (if v ≠ 0 then v else o) js

/-- `z_diag` and `z_offdiag`: ditto/writers/cyme/write.py:1261-1273, 1312-1331. `n` is the number of columns of the inner loop. -/
def diagLoop {V : Type} [Zero V] [DecidableEq V] (m : List (List V)) (n : Nat) : V × V → List Nat → Py (V × V)
  | s, [] => .ok s
  | s, k :: ks =>
    match entryAt m k k with
    | .error e => .error e
    | .ok v =>
      if v = 0 then diagLoop m n s ks
      else
        match offLoop m k s.2 (List.range n) with
        | .error e => .error e
        | .ok o => diagLoop m n (v, o) ks

/-- The data of a cable that are written: ditto/writers/cyme/write.py:4701. -/
structure CableData (N : Type) where
  r1 : N
  r0 : N
  x1 : N
  x0 : N
  b1 : N
  b0 : N
  amps : Option N
  kind : Nat
deriving DecidableEq

/-- the type of a cable: ditto/writers/cyme/write.py:1241-1255; `wires` is the number of wires -/
def cableKind {N : Type} [Field N] [LinearOrder N] (voltage : Option N) (wires : Nat) : Nat :=
  match voltage with
  | none => 0
  | some v => if v < 600 ∧ wires ≤ 2 then 2 else 0

/-- The susceptances of a cable: ditto/writers/cyme/write.py:1308-1357. If the matrix is too small, a difference of lists is a `TypeError`; without any row
the debugger is started and the writer stops with a `ValueError`. -/
def cableB {N : Type} [Field N] [DecidableEq N] (w : N) (size : Nat) (c : Option (List (List N))) : Py (N × N) :=
  match c with
  | none => .ok (0, 0)
  | some c =>
    match diagLoop c c.length (0, 0) (List.range size) with
    | .error _ => if c = [] then .error .valueError else .error .typeError
    | .ok s => .ok ((s.1 - s.2) * w, (s.1 + 2 * s.2) * w)

/-- The data of a cable: ditto/writers/cyme/write.py:1240-1362. `amps` has the ampacities of the wires; without wires the test of the name that follows is an
`IndexError`: ditto/writers/cyme/write.py:1364-1368. -/
def cableData {N : Type} [Field N] [LinearOrder N] (w : N) (voltage : Option N) (amps : List (Option N)) (z : List (List (N × N)))
    (c : Option (List (List N))) : Py (CableData N) :=
  match diagLoop z z.length ((0, 0), (0, 0)) (List.range z.length) with
  | .error _ => .error .typeError
  | .ok s =>
    let zero : N × N := (s.1.1 + 2 * s.2.1, s.1.2 + 2 * s.2.2)
    let one : N × N := (s.1.1 - s.2.1, s.1.2 - s.2.2)
    let first :=
      match entryAt z 1 1 with
      | .error _ => zero
      | .ok _ => one
    match cableB w z.length c with
    | .error e => .error e
    | .ok b =>
      match amps with
      | [] => .error .indexError
      | a :: _ =>
        .ok { r1 := first.1 * 1000, r0 := zero.1 * 1000, x1 := first.2 * 1000, x0 := zero.2 * 1000, b1 := b.1, b0 := b.2, amps := a
              kind := cableKind voltage amps.length }

end Ditto.Cyme
