import Verif.Model.Py
import Mathlib.Data.List.Basic
import Mathlib.Algebra.Field.Rat
import Mathlib.Data.Rat.Defs
import Mathlib.LinearAlgebra.Matrix.NonsingularInverse

/-!
Matrix helpers of `AbstractReader`. Numbers are elements of an arbitrary field `K` (exact arithmetic).
-/
namespace Ditto.Mat
open Ditto

variable {K : Type} [Field K]

/-- Entry of a list-of-rows matrix. Only used with indices in range (numpy array access). -/
def entry (m : List (List K)) (i j : Nat) : K := ((m[i]?.getD [])[j]?).getD 0

/-- `matrix2[-1] += row; while len(matrix2[-1]) != N_cols: matrix2[-1].append(0)`:
ditto/readers/abstract_reader.py:64-68. Rows are never longer than `n` (it is the maximum). -/
def pad (n : Nat) (row : List K) : List K := row ++ List.replicate (n - row.length) 0

/-- `AbstractReader.symmetrize`: ditto/readers/abstract_reader.py:38-76.
`max` of an empty sequence raises `ValueError`; a non-square matrix gives `None`. -/
def symmetrize (m : List (List K)) : Py (Option (List (List K))) :=
  match (m.map List.length).max? with
  | none => .error .valueError
  | some nCols =>
    if m.length ≠ nCols then .ok none
    else
      let p := m.map (pad nCols)
      .ok (some ((List.range nCols).map fun i => (List.range nCols).map fun j =>
        let v := entry p i j + entry p j i
        if i = j then v * (1/2) else v))

/-! ### Kron reduction -/

/-- A `rows × cols` list of lists, initially of `None`: `[[None for i in range(cols)] for j in range(rows)]`. -/
structure Block (K : Type) where
  rows : Nat
  cols : Nat
  get : Nat → Nat → Option K

def Block.empty (rows cols : Nat) : Block K := ⟨rows, cols, fun _ _ => none⟩

/-- `block[a][b] = v`: raises `IndexError` outside of the list. -/
def Block.write (b : Block K) (r c : Nat) (v : K) : Py (Block K) :=
  if r < b.rows ∧ c < b.cols then
    .ok { b with get := fun r' c' => if r' = r ∧ c' = c then some v else b.get r' c' }
  else .error .indexError

/-- One block with its two counters `cnts[zone]`, and whether the zone is in `changed_set`. -/
structure Zone (K : Type) where
  blk : Block K
  c0 : Nat
  c1 : Nat
  changed : Bool

/-- Lines 451-455 (and its three copies 457-473): write at the counters, advance the first counter. -/
def Zone.put (z : Zone K) (v : K) : Py (Zone K) :=
  match z.blk.write z.c0 z.c1 v with
  | .error e => .error e
  | .ok b => .ok { z with blk := b, c0 := z.c0 + 1, changed := true }

/-- Lines 477-479: at the end of a row the changed zones reset their first counter and advance the second. -/
def Zone.endRow (z : Zone K) : Zone K :=
  if z.changed then { z with c0 := 0, c1 := z.c1 + 1, changed := false } else z

structure KronState (K : Type) where
  zij : Zone K
  zin : Zone K
  znj : Zone K
  znn : Zone K

/-- The body of the inner loop, ditto/readers/abstract_reader.py:450-473. (The `else` branch at 475 is
unreachable.) -/
def kronCell (isN : Nat → Bool) (m : Nat → Nat → K) (i : Nat) (s : KronState K) (j : Nat) :
    Py (KronState K) :=
  if isN i ∧ isN j then (s.znn.put (m i j)).map fun z => { s with znn := z }
  else if ¬ isN i ∧ ¬ isN j then (s.zij.put (m i j)).map fun z => { s with zij := z }
  else if ¬ isN i ∧ isN j then (s.zin.put (m i j)).map fun z => { s with zin := z }
  else (s.znj.put (m i j)).map fun z => { s with znj := z }

/-- One iteration of the outer loop, ditto/readers/abstract_reader.py:447-479. -/
def kronRow (isN : Nat → Bool) (m : Nat → Nat → K) (n : Nat) (s : KronState K) (i : Nat) :
    Py (KronState K) :=
  ((List.range n).foldlM (kronCell isN m i) s).map fun s =>
    { zij := s.zij.endRow, zin := s.zin.endRow, znj := s.znj.endRow, znn := s.znn.endRow }

/-- The double loop of `kron_reduction`, ditto/readers/abstract_reader.py:435-479.
`n` is the size of the (square) primitive matrix `m`, `isN i` is `i in neutrals`. -/
def kronLoop (isN : Nat → Bool) (m : Nat → Nat → K) (n dimN : Nat) : Py (KronState K) :=
  let dimP := n - dimN
  let fresh := fun r c => (⟨Block.empty r c, 0, 0, false⟩ : Zone K)
  (List.range n).foldlM (kronRow isN m n)
    { zij := fresh dimP dimP, zin := fresh dimP dimN, znj := fresh dimN dimP, znn := fresh dimN dimN }

/-- `AbstractReader.kron_reduction`: ditto/readers/abstract_reader.py:424-486.
`neutrals=None` stands for the last index (429-433). The `None`s left in a block make the arithmetic of line 486
raise `TypeError`; `np.linalg.inv` raises `LinAlgError` on a singular matrix and on the one-dimensional array
made of an empty list (no neutral); with no phase `np.dot` gets arrays of shapes `(0,)` and `(k, 0)` and raises
`ValueError`. -/
noncomputable def kronReduction (m : Nat → Nat → K) (n : Nat) (neutrals : Option (List Nat)) :
    Py (Σ p : Nat, Matrix (Fin p) (Fin p) K) :=
  let ns := neutrals.getD [n - 1]
  let k := ns.length
  match kronLoop (fun i => decide (i ∈ ns)) m n k with
  | .error e => .error e
  | .ok s =>
    if k = 0 then .error .linAlgError
    else
      open Classical in
      if h : (∀ r < n - k, ∀ c < n - k, (s.zij.blk.get r c).isSome) ∧
          (∀ r < n - k, ∀ c < k, (s.zin.blk.get r c).isSome) ∧
          (∀ r < k, ∀ c < n - k, (s.znj.blk.get r c).isSome) ∧
          (∀ r < k, ∀ c < k, (s.znn.blk.get r c).isSome) then
        let zij : Matrix (Fin (n - k)) (Fin (n - k)) K :=
          Matrix.of fun r c => (s.zij.blk.get r c).get (h.1 r r.2 c c.2)
        let zin : Matrix (Fin (n - k)) (Fin k) K :=
          Matrix.of fun r c => (s.zin.blk.get r c).get (h.2.1 r r.2 c c.2)
        let znj : Matrix (Fin k) (Fin (n - k)) K :=
          Matrix.of fun r c => (s.znj.blk.get r c).get (h.2.2.1 r r.2 c c.2)
        let znn : Matrix (Fin k) (Fin k) K :=
          Matrix.of fun r c => (s.znn.blk.get r c).get (h.2.2.2 r r.2 c c.2)
        if znn.det = 0 then .error .linAlgError
        else if n - k = 0 then .error .valueError
        else .ok ⟨n - k, zij - zin * (znn⁻¹ * znj)⟩
      else .error .typeError

/-! ### Sequence impedances -/

/-- `np.dot` of two list-of-rows matrices, the second one with `n` columns. -/
def matMul (n : Nat) (x y : List (List K)) : List (List K) :=
  x.map fun row => (List.range n).map fun j => (List.zipWith (fun a r => a * (r[j]?).getD 0) row y).sum

/-- `AbstractReader.get_sequence_impedance_matrix`: ditto/readers/abstract_reader.py:391-422.
`a` is `exp(2πi/3)`. -/
def sequenceMatrix (a : K) (z : List (List K)) : List (List K) :=
  match z with
  | [[z00, z01, z02], [z10, z11, z12], [z20, z21, z22]] =>
    let A : List (List K) := [[1, 1, 1], [1, a ^ 2, a], [1, a, a ^ 2]]
    let Ainv : List (List K) :=
      [[1/3, 1/3, 1/3], [1/3, 1/3 * a, 1/3 * a ^ 2], [1/3, 1/3 * a ^ 2, 1/3 * a]]
    matMul 3 Ainv (matMul 3 [[z00, z01, z02], [z10, z11, z12], [z20, z21, z22]] A)
  | [[z00, z01], [z10, z11]] =>
    matMul 2 [[1/2, 1/2], [1/2, -(1/2)]] (matMul 2 [[z00, z01], [z10, z11]] [[1, 1], [1, -1]])
  | _ => []

/-- `sequence_impedance_matrix[i, i]` or `ValueError`: `get_zero_sequence_impedance` (`i = 0`),
`get_positive_sequence_impedance` (`i = 1`), `get_negative_sequence_impedance` (`i = 2`):
ditto/readers/abstract_reader.py:367-389. -/
def seqComponent (i : Nat) (s : List (List K)) : Py K :=
  match s[i]? with
  | none => .error .valueError
  | some row =>
    match row[i]? with
    | none => .error .valueError
    | some v => .ok v

end Ditto.Mat
