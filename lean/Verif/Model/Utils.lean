import Mathlib.Algebra.Order.Floor.Ring
import Mathlib.Algebra.BigOperators.Group.List.Basic
import Mathlib.Data.Real.Archimedean
import Mathlib.Data.List.OfFn

/-!
Model of `openconcept/utilities/math/combine_split_comp.py`, `max_min_comp.py`,
`openconcept/utilities/selector.py` and `linearinterp.py`.

Bounds, scaling and initial value keyword arguments are not modelled; the numbers are real numbers.
-/

namespace Verif.Utils

/-! ### combine_split_comp.py -/

/-- A two-dimensional array: list of its rows; `length` columns.  `(vec,)` is the case `length = 1`. -/
abbrev Arr (K : Type*) := List (ℕ → K)

/-- Entry at flat (row major) position `p` of an array with `length` columns (numpy/OpenMDAO `ravel`). -/
def flat {K : Type*} [Zero K] (length : ℕ) (a : Arr K) (p : ℕ) : K := (a.getD (p / length) 0) (p % length)

/-- `start_idx` of part `i`: combine_split_comp.py:182-185, 400-403, 431-434 -/
def startIdx (sizes : List ℕ) (i : ℕ) : ℕ := if i = 0 then 0 else (sizes.take i).sum

/-- `end_idx` of part `i`: combine_split_comp.py:186, 404, 435 -/
def endIdx (sizes : List ℕ) (i : ℕ) : ℕ := (sizes.take (i + 1)).sum

/-- `np.arange(a, b)` -/
def arange (a b : ℕ) : List ℕ := List.range' a (b - a)

/-- `declare_partials(of, wrt, rows=..., cols=..., val=...)` -/
structure Coo (K : Type*) where
  rows : List ℕ
  cols : List ℕ
  val : List K

/-- the matrix OpenMDAO assembles: listed values at listed positions, zero elsewhere -/
def Coo.dense {K : Type*} [AddCommMonoid K] (c : Coo K) (r s : ℕ) : K :=
  (((c.rows.zip c.cols).zip c.val).map fun t => if t.1.1 = r ∧ t.1.2 = s then t.2 else 0).sum

/-- exceptions of `setup` -/
inductive Err
  | sizesLength   -- combine_split_comp.py:166-167, 385-386
  deriving DecidableEq

/-- combine_split_comp.py:155-195 `VectorConcatenateComp.setup`, one relation: number of rows of the
output, numbers of rows of the inputs, declared partials of the inputs. -/
noncomputable def concatSetup (names : List String) (sizes : List ℕ) (length : ℕ) :
    Except Err (ℕ × List ℕ × List (Coo ℝ)) :=
  if sizes.length ≠ names.length then .error .sizesLength
  else .ok (sizes.sum, (List.range names.length).map fun i => sizes.getD i 0,
    (List.range names.length).map fun i =>
      { rows := arange (startIdx sizes i * length) (endIdx sizes i * length)
        cols := arange 0 (sizes.getD i 0 * length)
        val := List.replicate (sizes.getD i 0 * length) 1 })

/-- combine_split_comp.py:197-223 `VectorConcatenateComp.compute`: `np.concatenate` in a loop.
`inputs` lists `inputs[name]` in the order of the names. -/
def concat {K : Type*} (inputs : List (Arr K)) : Arr K := inputs.foldl (fun temp a => temp ++ a) []

/-- combine_split_comp.py:374-413 `VectorSplitComp.setup`: number of rows of the input, of the outputs,
declared partials of the outputs. -/
noncomputable def splitSetup (names : List String) (sizes : List ℕ) (length : ℕ) :
    Except Err (ℕ × List ℕ × List (Coo ℝ)) :=
  if sizes.length ≠ names.length then .error .sizesLength
  else .ok (sizes.sum, (List.range names.length).map fun i => sizes.getD i 0,
    (List.range names.length).map fun i =>
      { rows := arange 0 (sizes.getD i 0 * length)
        cols := arange (startIdx sizes i * length) (endIdx sizes i * length)
        val := List.replicate (sizes.getD i 0 * length) 1 })

/-- combine_split_comp.py:415-439 `VectorSplitComp.compute`: output `i` is the slice
`inputs[name][start_idx:end_idx]`. -/
def split {K : Type*} (sizes : List ℕ) (a : Arr K) : List (Arr K) :=
  (List.range sizes.length).map fun i => (a.take (endIdx sizes i)).drop (startIdx sizes i)

/-! ### max_min_comp.py.  Arrays of length `n + 1` (OpenMDAO variables are never empty). -/

/-- `np.amax`, max_min_comp.py:41 -/
noncomputable def amax {n : ℕ} (x : Fin (n + 1) → ℝ) : ℝ := (List.ofFn fun i : Fin n => x i.succ).foldl max (x 0)
/-- `np.amin`, max_min_comp.py:84 -/
noncomputable def amin {n : ℕ} (x : Fin (n + 1) → ℝ) : ℝ := (List.ofFn fun i : Fin n => x i.succ).foldl min (x 0)

open Classical in
/-- max_min_comp.py:43-44: `np.where(array == amax, 1, 0)` -/
noncomputable def maxPartial {n : ℕ} (x : Fin (n + 1) → ℝ) (k : Fin (n + 1)) : ℝ := if x k = amax x then 1 else 0

open Classical in
/-- max_min_comp.py:87-88 -/
noncomputable def minPartial {n : ℕ} (x : Fin (n + 1) → ℝ) (k : Fin (n + 1)) : ℝ := if x k = amin x then 1 else 0

/-! ### selector.py -/

/-- `np.around`: nearest integer, halves to the even one (selector.py:74, 86) -/
noncomputable def around (x : ℝ) : ℤ :=
  if x - ⌊x⌋ < 1 / 2 then ⌊x⌋
  else if 1 / 2 < x - ⌊x⌋ then ⌊x⌋ + 1
  else if Even ⌊x⌋ then ⌊x⌋ else ⌊x⌋ + 1

inductive SelErr
  | noInputs       -- selector.py:57-58 ValueError
  | outOfRange     -- selector.py:76-77 RuntimeWarning raised as an exception
  deriving DecidableEq

/-- selector.py:51-58: the check of `setup` -/
def selSetup (numInputs : ℕ) : Except SelErr Unit := if numInputs < 1 then .error .noInputs else .ok ()

open Classical in
/-- selector.py:68-81 `compute` with `nn` nodes: the contents of `outputs["result"]` when the function
ends, and how it ends. -/
noncomputable def selCompute {m nn : ℕ} (inputs : Fin m → Fin nn → ℝ) (selector : Fin nn → ℝ) :
    (Fin nn → ℝ) × Except SelErr Unit :=
  if (∃ j, around (selector j) < 0) ∨ (∃ j, (m : ℤ) ≤ around (selector j)) then
    (fun _ => 0, .error .outOfRange)
  else
    ((List.finRange m).foldl (fun result i => fun j =>
      result j + inputs i j * (if around (selector j) = (i : ℤ) then 1 else 0)) (fun _ => 0), .ok ())

open Classical in
/-- selector.py:83-89 `compute_partials`: entry for node `j` (declared diagonal, line 66) -/
noncomputable def selPartial {nn : ℕ} (selector : Fin nn → ℝ) (i : ℕ) (j : Fin nn) : ℝ :=
  if around (selector j) = (i : ℤ) then 1 else 0

/-! ### linearinterp.py -/

/-- `np.linspace(a, b, nn)[i]`: `a + i * step`, the last point set to `b` -/
noncomputable def linspace (a b : ℝ) (nn i : ℕ) : ℝ :=
  if 1 < nn ∧ i = nn - 1 then b else i * ((b - a) / ((nn : ℝ) - 1)) + a

/-- linearinterp.py:43-45 -/
noncomputable def interp (startVal endVal : ℝ) (nn i : ℕ) : ℝ := linspace startVal endVal nn i
/-- linearinterp.py:40 -/
noncomputable def interpDStart (nn i : ℕ) : ℝ := linspace 1 0 nn i
/-- linearinterp.py:41 -/
noncomputable def interpDEnd (nn i : ℕ) : ℝ := linspace 0 1 nn i

/-! ### dvlabel.py -/

/-- dvlabel.py:56-60 `compute`: every listed output gets the value of its input, in order (a later pair
with the same output name overwrites) -/
def dvLabel {V : Type*} (pairs : List (String × String)) (inputs : String → V) (outputs : String → V) :
    String → V :=
  pairs.foldl (fun o p => fun n => if n = p.2 then inputs p.1 else o n) outputs

end Verif.Utils
