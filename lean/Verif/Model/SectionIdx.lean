import Mathlib.Data.Real.Basic
import Mathlib.Algebra.BigOperators.Group.List.Basic

/-!
# Selecting a part of the wing by section indices: `openconcept/geometry/wing_planform.py`

The setup and compute methods of `WingAreaFromSections` (254-289) and `WingMACFromSections` (328-394) on the raw arrays, with
Python's slice rules for indices of any sign.  The option values are integers; `num_sections` is the length of the chord array.
-/

namespace Verif.SectionIdx

/-- Python's slice bounds: a negative index counts from the end, everything is clipped to the array -/
def clip (n : ℕ) (i : ℤ) : ℕ := if i < 0 then (i + n).toNat else min i.toNat n

/-- `v[start : stop]` -/
def slice {α : Type} (start stop : ℤ) (v : List α) : List α := (v.take (clip v.length stop)).drop (clip v.length start)

/-- wing_planform.py:265-270, 340-345: the exclusive end computed in `setup` from the option `idx_sec_end` -/
def iEnd (n : ℕ) : Option ℤ → ℤ
  | none => n
  | some j => j + 1

/-- the options; `fs`, `fe` are `chord_frac_start`, `chord_frac_end` -/
structure Opts where
  start : ℤ := 0
  stop : Option ℤ := none
  fs : ℝ := 0
  fe : ℝ := 1

/-- elementwise arithmetic of two arrays of one length -/
def zip2 (f : ℝ → ℝ → ℝ) (u v : List ℝ) : List ℝ := List.zipWith f u v

/-- wing_planform.py:279-289 `WingAreaFromSections.compute`; `ys` has one entry less than `cs` and the root is appended at 0 -/
noncomputable def area (o : Opts) (cs ys : List ℝ) : ℝ :=
  let c := slice o.start (iEnd cs.length o.stop) cs
  let y := slice o.start (iEnd cs.length o.stop) (ys ++ [0])
  let avg := (zip2 (· + ·) c.dropLast c.tail).map fun s => 0.5 * s * (o.fe - o.fs)
  let widths := zip2 (· - ·) y.tail y.dropLast
  2 * (zip2 (· * ·) avg widths).sum

/-- wing_planform.py:371-372: area of the half wing -/
noncomputable def half (c y : List ℝ) : ℝ :=
  (zip2 (· * ·) ((zip2 (· + ·) c.dropLast c.tail).map fun s => 0.5 * s) (zip2 (· - ·) y.tail y.dropLast)).sum

/-- wing_planform.py:355-372, 391 `WingMACFromSections.compute`, MAC -/
noncomputable def mac (o : Opts) (cs ys : List ℝ) : ℝ :=
  let c := slice o.start (iEnd cs.length o.stop) cs
  let y := slice o.start (iEnd cs.length o.stop) (ys ++ [0])
  let q := zip2 (fun c1 c2 => c1 ^ 2 + c1 * c2 + c2 ^ 2) c.dropLast c.tail
  (zip2 (fun w s => w * s / (3 * half c y)) (zip2 (· - ·) y.tail y.dropLast) q).sum

end Verif.SectionIdx
