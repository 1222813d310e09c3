import Mathlib.LinearAlgebra.Matrix.NonsingularInverse
import Mathlib.Data.Fin.Tuple.Basic

/-!
Model of `openconcept/utilities/math/integrals.py`.

Arithmetic is exact (a field `K`); scipy sparse matrices are modelled by their dense contents.
Vectors that the code stores flat with `n_segments * n` entries are functions
`Fin n_segments → Fin n → K` (entry `(j, b)` is flat position `j * n + b`).
A node count `n` is written `m + 1` with `m = n - 1` the number of steps.
-/

namespace Verif.Integrals

open Matrix

variable {K : Type*} [Field K]

/-- `scipy.sparse.diags(diagonals, offsets, shape=(m, m))`: the entry `(i, j)` lies on offset `j - i`;
a diagonal with offset `k ≥ 0` is read at the row index, one with `k < 0` at the column index,
i.e. always at `min i j` (used in integrals.py:83-85, 103-105, 110, 147). -/
def spDiags (l : List (ℤ × (ℕ → K))) (i j : ℕ) : K :=
  (l.map fun p => if (j : ℤ) - i = p.1 then p.2 (min i j) else 0).sum

/-- integrals.py:91-105, the matrix `A` of the default BDF3 scheme (third order starting stencils),
size `(n-1) × (n-1)`. -/
def bdf3A (m : ℕ) : Matrix (Fin m) (Fin m) K :=
  Matrix.of fun i j => spDiags
    [ (2,  fun k => if k = 0 then -1 / 6 else 0),
      (1,  fun k => if k = 0 then 1 else if k = 1 then 1 / 3 else 0),
      (0,  fun k => if k = 0 then -1 / 2 else if k = 1 then 1 / 2 else 1),
      (-1, fun k => if k = 0 then -1 else -18 / 11),
      (-2, fun _ => 9 / 11),
      (-3, fun _ => -2 / 11) ] i j

/-- integrals.py:107-110, the matrix `B` of the default BDF3 scheme. -/
def bdf3B (m : ℕ) : Matrix (Fin m) (Fin m) K :=
  Matrix.of fun i j => spDiags
    [ (0, fun k => if k = 0 then 1 else if k = 1 then 1 else 6 / 11) ] i j

/-- integrals.py:74-85, the matrix `A` of the `all_bdf` scheme. -/
def allBdfA (m : ℕ) : Matrix (Fin m) (Fin m) K :=
  Matrix.of fun i j => spDiags
    [ (1,  fun _ => 0),
      (0,  fun _ => 1),
      (-1, fun k => if k = 0 then -4 / 3 else -18 / 11),
      (-2, fun _ => 9 / 11),
      (-3, fun _ => -2 / 11) ] i j

/-- integrals.py:86-88, 110, the matrix `B` of the `all_bdf` scheme. -/
def allBdfB (m : ℕ) : Matrix (Fin m) (Fin m) K :=
  Matrix.of fun i j => spDiags
    [ (0, fun k => if k = 0 then 1 else if k = 1 then 2 / 3 else 6 / 11) ] i j

/-- integrals.py:111-119: `inv(A).dot(B)` moved by one row and one column, the first row and the
first column are zero. -/
noncomputable def shiftBoth {m : ℕ} (C : Matrix (Fin m) (Fin m) K) :
    Matrix (Fin (m + 1)) (Fin (m + 1)) K :=
  Matrix.of fun a b => Fin.cases 0 (fun i => Fin.cases 0 (fun j => C i j) b) a

/-- integrals.py:7-124 `bdf3_cache_matrix(n, all_bdf)`, the first result (`tri_mat`), `n = m + 1`.
The second result (`repeat_mat`) is the last row of `tri_mat` in every row, see `repeatMat`.
The call fails for `n < 4` (offset -3 out of bounds in `sp.diags`), see `methodMatrix`. -/
noncomputable def bdf3Tri (allBdf : Bool) (m : ℕ) : Matrix (Fin (m + 1)) (Fin (m + 1)) K :=
  if allBdf then shiftBoth ((allBdfA m)⁻¹ * allBdfB m)
  else shiftBoth ((bdf3A m)⁻¹ * bdf3B m)

/-- integrals.py:138-143 `jacmat_base`: row `r` has the entries (5, 8, -1)/12 (even row) or
(-1, 8, 5)/12 (odd row) in the columns `2*(r/2) + 0, 1, 2`. -/
def simpsonBase (m : ℕ) : Matrix (Fin m) (Fin (m + 1)) K :=
  Matrix.of fun r c =>
    if (c : ℕ) = 2 * ((r : ℕ) / 2) then (if (r : ℕ) % 2 = 0 then 5 / 12 else -1 / 12)
    else if (c : ℕ) = 2 * ((r : ℕ) / 2) + 1 then 8 / 12
    else if (c : ℕ) = 2 * ((r : ℕ) / 2) + 2 then (if (r : ℕ) % 2 = 0 then -1 / 12 else 5 / 12)
    else 0

/-- integrals.py:147, `sp.diags([-1, 1], [-1, 0])`. -/
def simpsonA (m : ℕ) : Matrix (Fin m) (Fin m) K :=
  Matrix.of fun i j => spDiags [(-1, fun _ => -1), (0, fun _ => 1)] i j

/-- integrals.py:127-159 `simpson_cache_matrix(n)`, first result (`tri_mat`), `n = m + 1`:
a zero row on top of `inv(a)·[bv b]`. -/
noncomputable def simpsonTri (m : ℕ) : Matrix (Fin (m + 1)) (Fin (m + 1)) K :=
  Matrix.of fun a b => Fin.cases 0 (fun i =>
    ((simpsonA m : Matrix (Fin m) (Fin m) K)⁻¹ * (simpsonBase m : Matrix (Fin m) (Fin (m + 1)) K) :
      Matrix (Fin m) (Fin (m + 1)) K) i b) a

/-- integrals.py:120-123 and 155-158 `repeat_mat`: the last row of `tri_mat` in every row. -/
def repeatMat {m : ℕ} (tri : Matrix (Fin (m + 1)) (Fin (m + 1)) K) :
    Matrix (Fin (m + 1)) (Fin (m + 1)) K :=
  Matrix.of fun _ b => tri (Fin.last m) b

/-- integrals.py:177-181 (and 199-203): is segment `j` counted?  A segment is skipped only if both
lists are given and its name is not in `segments_to_count`. -/
def countCol {S : ℕ} (names : Option (Fin S → String)) (counted : Option (List String))
    (j : Fin S) : Bool :=
  match names, counted with
  | some nm, some l => decide (nm j ∈ l)
  | _, _ => true

/-- integrals.py:173-191 block `(i, j)` of `dQdqdt`. -/
def blockRate {S m : ℕ} (tri : Matrix (Fin (m + 1)) (Fin (m + 1)) K)
    (count : Fin S → Bool) (dts : Fin S → K) (i j : Fin S) (a b : Fin (m + 1)) : K :=
  if j < i ∧ count j = true then repeatMat tri a b * dts j
  else if i = j ∧ count j = true then tri a b * dts j
  else 0

/-- integrals.py:193 `Q = dQdqdt.dot(dqdt) + q0`: `multistep_integrator(..., partials=False)`. -/
def integrate {S m : ℕ} (tri : Matrix (Fin (m + 1)) (Fin (m + 1)) K)
    (count : Fin S → Bool) (q0 : K) (dts : Fin S → K) (dqdt : Fin S → Fin (m + 1) → K)
    (i : Fin S) (a : Fin (m + 1)) : K :=
  (∑ j, ∑ b, blockRate tri count dts i j a b * dqdt j b) + q0

/-- integrals.py:197-215: the column `dQ / d dt_j` returned with `partials=True`. -/
def dtPartial {S m : ℕ} (tri : Matrix (Fin (m + 1)) (Fin (m + 1)) K)
    (count : Fin S → Bool) (dqdt : Fin S → Fin (m + 1) → K)
    (j : Fin S) (i : Fin S) (a : Fin (m + 1)) : K :=
  ∑ b, (if j < i ∧ count j = true then repeatMat tri a b
        else if i = j ∧ count j = true then tri a b else 0) * dqdt j b

/-- The `method` option of the integrators. -/
inductive Method
  | bdf3
  | simpson
  deriving DecidableEq

/-- The matrix built by `Integrator.__init__`/`setup` (integrals.py:527-535, 726-730) for
`num_nodes > 1`: `none` stands for the exception raised by numpy/scipy or by the parity check.
BDF3 needs offset -3 to fit in an `(n-1) × (n-1)` matrix, i.e. `n - 1 ≥ 3`. -/
noncomputable def methodMatrix (method : Method) (m : ℕ) :
    Option (Matrix (Fin (m + 1)) (Fin (m + 1)) K) :=
  if m % 2 > 0 then none
  else match method with
    | .bdf3 => if m < 3 then none else some (bdf3Tri false m)
    | .simpson => some (simpsonTri m)

/-- The time inputs for the three values of `time_setup`. -/
inductive TimeInput (K : Type*)
  | dt (dt : K)
  | duration (d : K)
  | bounds (tInitial tFinal : K)

/-- integrals.py:751-760 and 795-801: the time step used for `num_nodes = m + 1 > 1`. -/
def TimeInput.step (m : ℕ) : TimeInput K → K
  | .dt h => h
  | .duration d => d / m
  | .bounds ti tf => (tf - ti) / m

/-- integrals.py:762-784 `Integrator.compute` for one state with `num_nodes = m + 1 > 1`
(`q0 = 0` with `zero_start`); the whole history. -/
def integratorCompute {m : ℕ} (tri : Matrix (Fin (m + 1)) (Fin (m + 1)) K) (q0 : K)
    (t : TimeInput K) (rate : Fin (m + 1) → K) (a : Fin (m + 1)) : K :=
  integrate (S := 1) tri (fun _ => true) q0 (fun _ => t.step m) (fun _ => rate) 0 a

/-- integrals.py:784 the `*_final` output: last entry of the history. -/
def integratorFinal {m : ℕ} (tri : Matrix (Fin (m + 1)) (Fin (m + 1)) K) (q0 : K)
    (t : TimeInput K) (rate : Fin (m + 1) → K) : K :=
  integratorCompute tri q0 t rate (Fin.last m)

/-- The value of the `time_setup` option. -/
inductive TimeSetup
  | dt
  | duration
  | bounds
  deriving DecidableEq

/-- The dense column `dQddtlist[0]` for one segment (integrals.py:205-215 with `n_segments = 1`). -/
def timeColumn {m : ℕ} (tri : Matrix (Fin (m + 1)) (Fin (m + 1)) K) (rate : Fin (m + 1) → K)
    (a : Fin (m + 1)) : K :=
  dtPartial (S := 1) tri (fun _ => true) (fun _ => rate) 0 0 a

/-- integrals.py:673-683, 691-710 (`add_integrand`): the rows declared for the partials of the history
with respect to a time input: the nonzero rows of the column for unit rates. -/
noncomputable def declaredTimeRows {m : ℕ} (tri : Matrix (Fin (m + 1)) (Fin (m + 1)) K) :
    List (Fin (m + 1)) :=
  open Classical in
  (List.finRange (m + 1)).filter fun a => decide (timeColumn tri (fun _ => 1) a ≠ 0)

/-- `sp.csr_matrix(v).data` for a dense vector `v` (integrals.py:215): its nonzero entries in order. -/
noncomputable def storedData (v : List K) : List K :=
  open Classical in v.filter fun x => decide (x ≠ 0)

/-- integrals.py:828-845 (`compute_partials`): the list of values assigned to the partial of the history
with respect to `dt`, `duration` or `t_final` (for `t_initial` the same list negated). -/
noncomputable def assignedTime {m : ℕ} (tri : Matrix (Fin (m + 1)) (Fin (m + 1)) K)
    (rate : Fin (m + 1) → K) : TimeSetup → List K
  | .dt => ((List.finRange (m + 1)).map (timeColumn tri rate)).tail
  | .duration => (((List.finRange (m + 1)).map (timeColumn tri rate)).tail).map (· / (m : K))
  | .bounds =>
    let d := storedData ((List.finRange (m + 1)).map (timeColumn tri rate))
    if d.length = 0 then List.replicate (declaredTimeRows tri).length 0
    else d.map (· / (m : K))

/-- integrals.py:1049-1060, 1213-1215 (`OldIntegrator`, multi-segment): number of declared rows of the
partial of `q` with respect to the time step of segment `j`. -/
noncomputable def oldDeclaredCount {S m : ℕ} (tri : Matrix (Fin (m + 1)) (Fin (m + 1)) K)
    (count : Fin S → Bool) (j : Fin S) : ℕ :=
  open Classical in
  ((Finset.univ : Finset (Fin S × Fin (m + 1))).filter
    fun p => dtPartial tri count (fun _ _ => 1) j p.1 p.2 ≠ 0).card

/-- integrals.py:1215 (`OldIntegrator`, multi-segment): number of values assigned,
`len(dQddtlist[i_seg].data)`. -/
noncomputable def oldAssignedCount {S m : ℕ} (tri : Matrix (Fin (m + 1)) (Fin (m + 1)) K)
    (count : Fin S → Bool) (dqdt : Fin S → Fin (m + 1) → K) (j : Fin S) : ℕ :=
  open Classical in
  ((Finset.univ : Finset (Fin S × Fin (m + 1))).filter
    fun p => dtPartial tri count dqdt j p.1 p.2 ≠ 0).card

end Verif.Integrals
