import Mathlib.Data.Real.Basic
import Mathlib.Algebra.BigOperators.Group.List.Basic

/-!
`DVLabel` of openconcept/utilities/dvlabel.py as an object: the constructor appends to the lists it is given, `setup` and `compute` read
them.  Values are arrays, seen flattened; `compute` alone is also `dvLabel` of `Model/Utils.lean`.
-/

namespace Verif.Label

/-- one entry of `vars_list`: `[input, output, value, units]`, of the value only the shape (`[]` for a scalar), and whatever has been
appended to the list, all of which are sizes -/
structure Row where
  inp : String
  out : String
  shape : List ℕ
  units : Option String
  tail : List ℕ := []
  deriving DecidableEq

/-- dvlabel.py:32-36 -/
def Row.size (r : Row) : ℕ := r.shape.prod

/-- dvlabel.py:28-37 `__init__`: what the lists of the caller are afterwards (`self.vars_list` is the caller's list, not a copy) -/
def init (l : List Row) : List Row := l.map fun r => { r with tail := r.tail ++ [r.size] }

/-- dvlabel.py:45 `size = var_list[4]` -/
def Row.declared (r : Row) : ℕ := r.tail.headD 0

/-- dvlabel.py:39-54 `setup`: OpenMDAO refuses rows or columns beyond the size of the variable -/
def setup (l : List Row) : Bool := l.all fun r => r.declared ≤ r.size

/-- dvlabel.py:53-54: rows and columns `np.arange(size)`, values one; the partial derivative of entry `k` of the output in entry `j` of the
input -/
def Row.jac (r : Row) (k j : ℕ) : ℝ := if k = j ∧ k < r.declared then 1 else 0

/-- dvlabel.py:56-60 `compute` on flattened arrays -/
def compute (l : List Row) (inputs outputs : String → ℕ → ℝ) : String → ℕ → ℝ :=
  l.foldl (fun o r n => if n = r.out then inputs r.inp else o n) outputs

/-- the caller puts an array of another shape into the entry of the output `n` -/
def reshape (n : String) (s : List ℕ) (l : List Row) : List Row := l.map fun r => if r.out = n then { r with shape := s } else r

end Verif.Label
