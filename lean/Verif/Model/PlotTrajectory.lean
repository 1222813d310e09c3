import Mathlib.Data.Real.Basic
import Mathlib.Data.List.Basic

/-!
`plot_trajectory` of openconcept/utilities/visualization.py:10-35.  What matplotlib draws is not modelled, only what it is given; of
matplotlib it is used that `plt.plot` refuses two vectors of different lengths.
-/

namespace Verif.PlotTrajectory

inductive Err
  /-- `prob.get_val` fails: unknown variable or incompatible units -/
  | get
  /-- IndexError of a Python list -/
  | index
  /-- ValueError of `np.concatenate` (nothing to concatenate) or `plt.plot` (different lengths) -/
  | value
  deriving DecidableEq

/-- `prob.get_val(name, units=unit)`; `none` if it raises an exception -/
abbrev Prob := String → Option String → Option (List ℝ)

/-- visualization.py:13-15, 19-21: the loop over the phases -/
def vals (prob : Prob) (var : String) (unit : Option String) : List String → Except Err (List (List ℝ))
  | [] => .ok []
  | phase :: rest =>
    match prob (phase ++ "." ++ var) unit with
    | none => .error .get
    | some v => (vals prob var unit rest).map (v :: ·)

/-- visualization.py:16, 22: `np.concatenate(val_list)` -/
def concatenate (vs : List (List ℝ)) : Except Err (List ℝ) := if vs = [] then .error .value else .ok vs.flatten

/-- one figure: the vectors given to `plt.plot`, labels (`none` if not set) and title -/
structure Fig where
  xs : List ℝ
  ys : List ℝ
  xlabel : String
  ylabel : Option String
  title : String

/-- the arguments after `prob` without the marker -/
structure Args where
  x_var : String
  x_unit : Option String
  y_vars : List String
  y_units : List (Option String)
  phases : List String
  x_label : Option String := none
  y_labels : Option (List (Option String)) := none
  plot_title : String := "Trajectory"

/-- visualization.py:29-33: the label of the ordinate of variable `i` -/
def ylabel (a : Args) (i : ℕ) (y_var : String) : Except Err (Option String) :=
  match a.y_labels with
  | none => .ok (some y_var)
  | some ls =>
    match ls[i]? with
    | none => .error .index
    | some l => .ok l

/-- visualization.py:18-34: one iteration.  `y_units[i]` is read for every phase; there is at least one, otherwise line 16 has failed -/
def figure (prob : Prob) (a : Args) (xs : List ℝ) (i : ℕ) (y_var : String) : Except Err Fig :=
  match a.y_units[i]? with
  | none => .error .index
  | some unit => do
    let vs ← vals prob y_var unit a.phases
    let ys ← concatenate vs
    if xs.length ≠ ys.length then .error .value
    else
      let l ← ylabel a i y_var
      .ok ⟨xs, ys, a.x_label.getD a.x_var, l, a.plot_title⟩

/-- visualization.py:17: the loop over the variables from number `i` on -/
def figures (prob : Prob) (a : Args) (xs : List ℝ) : ℕ → List String → Except Err (List Fig)
  | _, [] => .ok []
  | i, y :: ys => do
    let f ← figure prob a xs i y
    let fs ← figures prob a xs (i + 1) ys
    .ok (f :: fs)

/-- visualization.py:10-35 `plot_trajectory`: the figures, or the exception -/
def plotTrajectory (prob : Prob) (a : Args) : Except Err (List Fig) := do
  let vs ← vals prob a.x_var a.x_unit a.phases
  let xs ← concatenate vs
  figures prob a xs 0 a.y_vars

end Verif.PlotTrajectory
