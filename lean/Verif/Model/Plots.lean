import Mathlib.Data.Real.Basic
import Mathlib.Data.List.Basic

/-!
The computations of openconcept/utilities/visualization.py: the pressures of `plot_OAS_force_contours`, the whole wing of `plot_OAS_mesh`
and the pages of `plot_trajectory_grid`.  What matplotlib draws is not modelled, only the arrays it is given; of matplotlib it is used
that `plt.subplots` returns a two dimensional array of axes only if there are several rows and several columns, and that `Axes.set`
takes no positional argument.
-/

namespace Verif.Plots

/-! ### plot_OAS_force_contours

Arrays are functions of their indices, chordwise (leading edge to trailing edge) and spanwise (tip to root).  A mesh has `nx + 1` by
`ny + 1` points.  Division by zero (a panel without area) gives 0 here and an infinity in numpy. -/

abbrev Arr := ℕ → ℕ → ℝ

/-- visualization.py:234 -/
def frontWidth (y : Arr) : Arr := fun i j => y i (j + 1) - y i j

/-- visualization.py:235: both terms are `y_mesh[1:, 1:]` -/
def backWidth (y : Arr) : Arr := fun i j => y (i + 1) (j + 1) - y (i + 1) (j + 1)

/-- visualization.py:236 -/
noncomputable def avgWidth (y : Arr) : Arr := fun i j => 0.5 * (frontWidth y i j + backWidth y i j)

/-- visualization.py:237 -/
def leftLength (x : Arr) : Arr := fun i j => x (i + 1) j - x i j

/-- visualization.py:238 -/
def rightLength (x : Arr) : Arr := fun i j => x (i + 1) (j + 1) - x i (j + 1)

/-- visualization.py:239 -/
noncomputable def avgLength (x : Arr) : Arr := fun i j => 0.5 * (leftLength x i j + rightLength x i j)

/-- visualization.py:240 -/
noncomputable def panelArea (x y : Arr) : Arr := fun i j => avgWidth y i j * avgLength x i j

/-- visualization.py:243 -/
noncomputable def panelPressure (x y F : Arr) : Arr := fun i j => F i j / panelArea x y i j

/-- visualization.py:246 -/
noncomputable def leWt : ℝ := 0.75 * 0.5
/-- visualization.py:247 -/
noncomputable def teWt : ℝ := 0.25 * 0.5

/-- `a[rows, cols] += v` -/
noncomputable def addAt (a : Arr) (on : ℕ → ℕ → Bool) (v : Arr) : Arr := fun i j => if on i j then a i j + v i j else a i j

/-- `a[rows, cols] *= c` -/
noncomputable def scaleAt (a : Arr) (on : ℕ → ℕ → Bool) (c : ℝ) : Arr := fun i j => if on i j then a i j * c else a i j

/-- visualization.py:248-252: the four panels around a point -/
noncomputable def spread (nx ny : ℕ) (P : Arr) : Arr :=
  let a0 : Arr := fun _ _ => 0
  let a1 := addAt a0 (fun i j => i < nx && j < ny) fun i j => P i j * leWt
  let a2 := addAt a1 (fun i j => 1 ≤ i && j < ny) fun i j => P (i - 1) j * teWt
  let a3 := addAt a2 (fun i j => 1 ≤ i && 1 ≤ j) fun i j => P (i - 1) (j - 1) * teWt
  addAt a3 (fun i j => i < nx && 1 ≤ j) fun i j => P i (j - 1) * leWt

/-- visualization.py:255-259 -/
noncomputable def edges (nx ny : ℕ) (a : Arr) : Arr :=
  let a1 := scaleAt a (fun i j => (1 ≤ i && i < nx) && (j == 0 || j == ny)) 2
  let a2 := scaleAt a1 (fun i j => i == 0 && (1 ≤ j && j < ny)) (0.5 / leWt)
  let a3 := scaleAt a2 (fun i j => i == nx && (1 ≤ j && j < ny)) (0.5 / teWt)
  let a4 := scaleAt a3 (fun i j => i == 0 && (j == 0 || j == ny)) (1 / leWt)
  scaleAt a4 (fun i j => i == nx && (j == 0 || j == ny)) (1 / teWt)

noncomputable def nodalPressure (nx ny : ℕ) (P : Arr) : Arr := edges nx ny (spread nx ny P)

/-- what `contourf` is given: the number of columns, the coordinates on the paper and the values -/
structure Contours where
  cols : ℕ
  X : Arr
  Y : Arr
  Z : Arr

/-- visualization.py:267-269 `np.hstack((a, b[:, ::-1]))` for arrays of `n` columns -/
def mirror (n : ℕ) (a b : Arr) : Arr := fun i k => if k < n then a i k else b i (2 * n - 1 - k)

/-- visualization.py:209-270 `plot_OAS_force_contours`; `F d` is the force in direction `d` -/
noncomputable def forceContours (nx ny : ℕ) (x y : Arr) (F : ℕ → Arr) (wing : String) (dir : ℤ) : Except String Contours :=
  if wing ∉ ["left", "right", "both"] then .error "ValueError: wing"
  else if dir ∉ [0, 1, 2] then .error "ValueError: force_dir"
  else
    let Z := nodalPressure nx ny (panelPressure x y (F dir.toNat))
    .ok <|
      if wing = "left" then ⟨ny + 1, y, fun i j => -x i j, Z⟩
      else if wing = "right" then ⟨ny + 1, fun i j => -y i j, fun i j => -x i j, Z⟩
      else ⟨2 * (ny + 1), mirror (ny + 1) y (fun i j => -y i j), mirror (ny + 1) (fun i j => -x i j) (fun i j => -x i j),
        mirror (ny + 1) Z Z⟩

/-! ### plot_OAS_mesh -/

/-- visualization.py:127 `np.hstack((OAS_mesh, OAS_mesh[:, -2::-1, :] * np.array([1, -1, 1])))` for `n` columns: `-2::-1` runs from the
last column but one down to the first.  The last index is the coordinate -/
def wholeMesh (n : ℕ) (M : ℕ → ℕ → Fin 3 → ℝ) : ℕ → ℕ → Fin 3 → ℝ := fun i k d =>
  if k < n then M i k d else M i (n - 2 - (k - n)) d * (if d = 1 then -1 else 1)

/-- number of its columns -/
def wholeCols (n : ℕ) : ℕ := n + (n - 1)

/-! ### plot_trajectory_grid -/

/-- where a variable is drawn: page, row and column, and whether it gets the label of the abscissa -/
structure Place where
  page : ℤ
  row : ℕ
  col : ℕ
  xlabel : Bool
  deriving DecidableEq

/-- the local variables of the loop, the places drawn so far and the numbers of the files written -/
structure Grid where
  file : ℤ := -1
  count : ℕ := 0
  drawn : List Place := []
  saved : List ℤ := []

/-- an iteration of the loop, visualization.py:68-97, for a grid of `r` rows and `c` columns and at least one case; `label`: `y_labels` is
given (otherwise line 95).  Where a name is drawn does not depend on what is drawn -/
def Grid.step (r c : ℕ) (savefig label : Bool) (g : Grid) : Except String Grid :=
  let g' : Grid :=
    if g.count % (r * c) = 0 then
      { g with file := g.file + 1, count := 0, saved := if 0 ≤ g.file ∧ savefig then g.saved ++ [g.file] else g.saved }
    else g
  if r ≤ 1 ∨ c ≤ 1 then .error "axes are not indexed by row and column"
  else
    let row := g'.count / c
    if label then
      .ok { g' with count := g'.count + 1, drawn := g'.drawn ++ [⟨g'.file, row, g'.count % c, row + 1 == r⟩] }
    else .error "TypeError: set() takes no positional argument"

/-- the loop over `n` variables -/
def Grid.loop (r c : ℕ) (savefig label : Bool) : ℕ → Except String Grid
  | 0 => .ok {}
  | n + 1 => (Grid.loop r c savefig label n).bind (Grid.step r c savefig label)

/-- visualization.py:60-101 `plot_trajectory_grid` with `n` variables; `fig` is only bound by the loop -/
def trajectoryGrid (r c : ℕ) (savefig label : Bool) (n : ℕ) : Except String Grid :=
  (Grid.loop r c savefig label n).bind fun g =>
    if savefig then
      if g.file < 0 then .error "UnboundLocalError: fig" else .ok { g with saved := g.saved ++ [g.file] }
    else .ok g

end Verif.Plots
