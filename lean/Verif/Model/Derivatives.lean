import Mathlib.Data.Matrix.Mul
import Mathlib.Algebra.Field.Basic
import Mathlib.Algebra.BigOperators.Fin

/-!
Model of `openconcept/utilities/math/derivatives.py` (`first_deriv`, `first_deriv_partials`,
`FirstDerivative`).  Exact arithmetic over a field `K`; a vector of `n_segments * nn_seg` entries is a
function of (segment, node).  `n` is `n_simpson_intervals_per_segment`, `nn_seg = 2 n + 1`.
-/

namespace Verif.Derivatives

variable {K : Type*} [Field K]

/-- one stored entry of a sparse matrix in coordinate form -/
structure Coo (K : Type*) where
  row : ℕ
  col : ℕ
  val : K

/-- derivatives.py:31-57, columns of row `i`: the five consecutive columns from `base`. -/
def base4 (nn i : ℕ) : ℕ := if i < 2 then 0 else if nn - 2 ≤ i then nn - 5 else i - 2

/-- derivatives.py:44-55, the five coefficients of row `i` (later assignments win). -/
def coef4 (nn i : ℕ) : List K :=
  if i = nn - 1 then [1 / 4, -4 / 3, 3, -4, 25 / 12]
  else if i = nn - 2 then [-1 / 12, 1 / 2, -3 / 2, 5 / 6, 1 / 4]
  else if i = 1 then [-1 / 4, -5 / 6, 3 / 2, -1 / 2, 1 / 12]
  else if i = 0 then [-25 / 12, 4, -3, 4 / 3, -1 / 4]
  else [1 / 12, -2 / 3, 0, 2 / 3, -1 / 12]

/-- derivatives.py:31-57 `first_deriv_fourth_order_accurate_stencil`, entries of row `i`. -/
def row4 (nn i : ℕ) : List (Coo K) :=
  (coef4 nn i).zipIdx.map fun p => ⟨i, base4 nn i + p.2, p.1⟩

/-- derivatives.py:7-28 `first_deriv_second_order_accurate_stencil`, entries of row `i`. -/
def row2 (nn i : ℕ) : List (Coo K) :=
  if i = 0 then [⟨0, 0, -3 / 2⟩, ⟨0, 1, 2⟩, ⟨0, 2, -1 / 2⟩]
  else if i = nn - 1 then [⟨i, nn - 3, 1 / 2⟩, ⟨i, nn - 2, -2⟩, ⟨i, nn - 1, 3 / 2⟩]
  else [⟨i, i - 1, -1 / 2⟩, ⟨i, i + 1, 1 / 2⟩]

/-- the `order` argument -/
inductive Order
  | two
  | four
  deriving DecidableEq

/-- the entries of row `i` for the chosen order (derivatives.py:104-107) -/
def rowOf (o : Order) (nn i : ℕ) : List (Coo K) :=
  match o with
  | .two => row2 nn i
  | .four => row4 nn i

/-- the stored entries `(stencil_vec, rowidx, colidx)` in the order of the code -/
def stencilCoo (o : Order) (nn : ℕ) : List (Coo K) :=
  (List.range nn).flatMap (rowOf o nn)

/-- dense matrix of a coordinate list: duplicates add up (`scipy.sparse.csr_matrix`,
derivatives.py:111, 183) -/
def dense (l : List (Coo K)) (i j : ℕ) : K :=
  (l.map fun e => if e.row = i ∧ e.col = j then e.val else 0).sum

/-- derivatives.py:111-120 `first_deriv`: block diagonal of `stencil_mat / dt_seg` applied to `q`. -/
def firstDeriv (o : Order) {S n : ℕ} (dts : Fin S → K) (q : Fin S → Fin (2 * n + 1) → K)
    (i : Fin S) (a : Fin (2 * n + 1)) : K :=
  ∑ j, ∑ b : Fin (2 * n + 1), (if i = j then dense (stencilCoo o (2 * n + 1)) a b / dts i else 0) * q j b

/-- derivatives.py:185-193, 202: the entries declared and assigned for `d dqdt / d q`,
(segment block, entry): row and column are shifted by `i * nn_seg`, value `stencil_vec / dt_seg`. -/
def partialsQ (o : Order) {S : ℕ} (n : ℕ) (dts : Fin S → K) : List (Coo K) :=
  (List.finRange S).flatMap fun (i : Fin S) =>
    (stencilCoo o (2 * n + 1)).map fun e =>
      ⟨e.row + (i : ℕ) * (2 * n + 1), e.col + (i : ℕ) * (2 * n + 1), e.val / dts i⟩

/-- derivatives.py:197-200: entry of `d dqdt / d dt_j` in row `(i, a)`; the rows of segment `j` only. -/
def partialDt (o : Order) {S n : ℕ} (dts : Fin S → K) (q : Fin S → Fin (2 * n + 1) → K)
    (j : Fin S) (i : Fin S) (a : Fin (2 * n + 1)) : K :=
  if i = j then
    -(∑ b : Fin (2 * n + 1), dense (stencilCoo o (2 * n + 1)) a b * q j b) * (dts j ^ 2)⁻¹
  else 0

/-- derivatives.py:94-109 (and 159-173): the checks, all raising `ValueError`; `order` is an integer.
With order 2 and no interval the code has no check of its own; `np.tile(..., -1)` and the negative
column index raise `ValueError` as well (order 2, `n = 0`: `tooFewPoints`). -/
inductive FDError
  | tooFewPoints
  | badLength
  | badDts
  | badOrder
  deriving DecidableEq

def firstDerivCheck (order nseg n lenQ lenDts : ℕ) : Except FDError Order :=
  if order = 4 ∧ n < 2 then .error .tooFewPoints
  else if lenQ ≠ nseg * (2 * n + 1) then .error .badLength
  else if lenDts ≠ nseg then .error .badDts
  else if order = 4 then .ok .four
  else if order = 2 then (if n = 0 then .error .tooFewPoints else .ok .two)
  else .error .badOrder

end Verif.Derivatives
