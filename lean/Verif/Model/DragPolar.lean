import Verif.Model.Mesh
import Verif.Model.Atmosphere
import Verif.Model.Aero
import Verif.Model.Utils
import Verif.Model.Training

/-! Model of the drag polar groups of openconcept/aerodynamics/openaerostruct/drag_polar.py (VLMDragPolar, VLM) and
aerostructural.py (AerostructDragPolar, Aerostruct, AerostructDragPolarExact).

OpenAeroStruct's analyses and OpenMDAO's structured interpolation are arbitrary functions.  A converged group is one whose
balance residuals vanish.  The twist rotation leaves the spanwise coordinates of a flat mesh alone and is not modelled. -/

namespace Verif.DragPolar

open Verif.Mesh

/-! ### VLMDragPolar.setup -/

/-- drag_polar.py:177-182 option `geometry` -/
inductive Geo where
  | trapezoidal
  | section
  | mesh
  deriving DecidableEq

/-- the options `alpha_train`, `Mach_train`, `alt_train`: a python list or an ndarray (drag_polar.py:196-213) -/
inductive GridArg where
  | list (l : List ℝ)
  | array (l : List ℝ)

/-- attribute access `.size` (drag_polar.py:223-225, aerostructural.py:176-178): lists do not have it -/
def GridArg.size : GridArg → Except String ℕ
  | .list _ => .error "AttributeError: 'list' object has no attribute 'size'"
  | .array l => .ok l.length

/-- drag_polar.py:174-216 (the options that decide the structure) -/
structure Opts where
  geo : Geo
  numY : NumY
  numSections : ℕ
  alphaTrain : GridArg
  machTrain : GridArg
  altTrain : GridArg

/-- what `setup` builds -/
structure Wiring where
  /-- `ny_tot`, number of spanwise mesh coordinates expected by `twist_mesh` (257, 293) -/
  nyTot : ℕ
  /-- panels per region of the mesh generator and of the twist interpolation, `none` for a user supplied mesh -/
  regions : Option (List ℕ)
  /-- `num_y` of the training data component (323) -/
  dataNy : ℕ
  /-- shape of the surrogate's training arrays (340-341) -/
  shape : ℕ × ℕ × ℕ

/-- drag_polar.py:228-233 -/
def nyTot (o : Opts) : ℕ :=
  match o.numY with
  | .int n => if o.geo = .section then (o.numSections - 1) * n + 1 else n + 1
  | .list l => l.sum + 1

/-- drag_polar.py:216-341 `VLMDragPolar.setup`; the setups of the mesh generator and interpolators (mesh_gen.py:236-249,
482-495, 607-620) are included -/
def setup (o : Opts) : Except String Wiring := do
  let na ← o.alphaTrain.size
  let nM ← o.machTrain.size
  let nh ← o.altTrain.size
  match o.geo, o.numY with
  | .trapezoidal, .list _ => .error "The num_y option must be an integer if the geometry option is trapezoidal"
  | .trapezoidal, .int n => .ok ⟨nyTot o, some [n], nyTot o - 1, (nM, na, nh)⟩
  | .section, ny => do
      let r ← processNumY o.numSections ny
      .ok ⟨nyTot o, some r, nyTot o - 1, (nM, na, nh)⟩
  | .mesh, _ => .ok ⟨nyTot o, none, nyTot o - 1, (nM, na, nh)⟩

/-- panels per region as a function of the region; `1` beyond the list is never used -/
def reg (l : List ℕ) (i : ℕ) : ℕ := l.getD i 1

/-- drag_polar.py:303-308: `ThicknessChordRatioInterp(num_y=ny, num_sections=n_sections)`, that is `cos_spacing = True`
(mesh_gen.py:477-481), for both geometries -/
noncomputable def panelTc (l : List ℕ) (toverc : ℕ → ℝ) : ℕ → ℝ := tcArr true (reg l) toverc l.length

/-- spanwise coordinates of the mesh of the trapezoidal geometry (drag_polar.py:240-250), `n` panels -/
noncomputable def trapMeshY (n : ℕ) (S AR : ℝ) : ℕ → ℝ := trapY (n + 1) S AR

/-- spanwise coordinates of the mesh of the section geometry (drag_polar.py:271-281); they do not depend on the streamwise
index -/
noncomputable def secMeshY (nx : ℕ) (l : List ℕ) (q : SecIn) : ℕ → ℝ := fun j => secMesh nx (reg l) l.length q 0 j 1

/-! ### flight condition of one analysis -/

/-- drag_polar.py:788-797, aerostructural.py:881-891: linear dynamic viscosity -/
noncomputable def viscLin (h : ℝ) : ℝ := -(3.329134 * 10 ^ (-10 : ℤ)) * h + 1.792398 * 10 ^ (-5 : ℤ)
/-- drag_polar.py:779-782, aerostructural.py:872 -/
def airspeed (M a : ℝ) : ℝ := M * a
/-- drag_polar.py:788-797, aerostructural.py:881-891: Reynolds number per length -/
noncomputable def reynolds (rho u h : ℝ) : ℝ := rho * u / viscLin h

/-- inputs of the aerodynamic analysis of OpenAeroStruct -/
structure Point where
  rho : ℝ
  a : ℝ
  v : ℝ
  re : ℝ

/-- drag_polar.py:760-800, 853-858, aerostructural.py:859-893, 1281-1284: altitude, Mach number and temperature increment to
the inputs of the analysis (`none`: NaN pressure) -/
noncomputable def point (h M inc : ℝ) : Option Point :=
  (Atmos.pressure h).map fun p =>
    let T := Atmos.temperature h inc
    let rho := Atmos.density p T
    let a := Atmos.soundSpeed T
    let v := airspeed M a
    ⟨rho, a, v, reynolds rho v h⟩

/-! ### converged drag polars -/

/-- OpenMDAO's BalanceComp residual with `normalize = True` (trusted): `(lhs − rhs)` times a positive factor -/
noncomputable def balanceRes (lhs rhs : ℝ) : ℝ :=
  (lhs - rhs) * (if |rhs| < 2 then 1 / (0.25 * rhs ^ 2 + 1) else 1 / |rhs|)

/-- MetaModelStructuredComp: training array (Mach, alpha, altitude indices) and Mach, alpha, altitude to a value -/
abbrev Sur := (ℕ × ℕ × ℕ → ℝ) → ℝ → ℝ → ℝ → ℝ

/-- mission inputs at one node -/
structure Cond where
  CL : ℝ
  M : ℝ
  h : ℝ
  q : ℝ

/-- drag_polar.py:364-377 `drag_calc`; `nw` has one entry or one per node (option `vec_CD_nonwing`) -/
def vlmNonwing {n : ℕ} (vec : Bool) (nw : ℕ → ℝ) (k : Fin n) : ℝ := if vec then nw k else nw 0
/-- drag_polar.py:366 -/
def vlmDrag (q S cdWing nonwing : ℝ) : ℝ := q * S * (cdWing + nonwing)
/-- aerostructural.py:242 -/
def asDrag (q S cd : ℝ) : ℝ := q * S * cd
/-- aerostructural.py:1493 -/
def exactDrag (q S cd cd0 : ℝ) : ℝ := q * S * (cd + cd0)

/-- VLMDragPolar converged (drag_polar.py:333-377) -/
def VlmConverged {n : ℕ} (sur : Sur) (clT cdT : ℕ × ℕ × ℕ → ℝ) (S : ℝ) (vec : Bool) (nw : ℕ → ℝ) (c : Fin n → Cond)
    (alpha drag : Fin n → ℝ) : Prop :=
  ∀ k, balanceRes (sur clT (c k).M (alpha k) (c k).h) (c k).CL = 0 ∧
    drag k = vlmDrag (c k).q S (sur cdT (c k).M (alpha k) (c k).h) (vlmNonwing vec nw k)

/-- aerostructural.py:470, 513: `CD_train` -/
def asCdTrain (cd : ℕ × ℕ × ℕ → ℝ) (nonwing : ℝ) : ℕ × ℕ × ℕ → ℝ := fun p => cd p + nonwing

/-- AerostructDragPolar converged (aerostructural.py:205-254) -/
def AsConverged {n : ℕ} (sur : Sur) (clT cdT : ℕ × ℕ × ℕ → ℝ) (S nonwing : ℝ) (c : Fin n → Cond) (alpha drag : Fin n → ℝ) : Prop :=
  ∀ k, balanceRes (sur clT (c k).M (alpha k) (c k).h) (c k).CL = 0 ∧
    drag k = asDrag (c k).q S (sur (asCdTrain cdT nonwing) (c k).M (alpha k) (c k).h)

/-- result of one aerostructural analysis -/
structure AsOut where
  CL : ℝ
  CD : ℝ
  failure : ℝ
  W : ℝ

/-- aerostructural.py:1428-1466: the analyses `aerostruct_node`, fed with entry `node` of alpha, Mach number and altitude -/
def exactOuts (n : ℕ) (f : ℝ → ℝ → ℝ → AsOut) (M alpha h : ℕ → ℝ) : List AsOut :=
  (List.range n).map fun node => f (M node) (alpha node) (h node)

/-- aerostructural.py:1468-1478: `vec_combine`, one relation -/
def combine (val : AsOut → ℝ) (outs : List AsOut) : Utils.Arr ℝ := Utils.concat (outs.map fun o => [fun _ => val o])

/-- aerostructural.py:1462-1465: wing weight from node 0 -/
def exactWeight (outs : List AsOut) : Option ℝ := outs.head?.map AsOut.W

/-- AerostructDragPolarExact converged (aerostructural.py:1425-1506): lift, drag and failure vectors -/
def ExactConverged (n : ℕ) (f : ℝ → ℝ → ℝ → AsOut) (S nonwing : ℝ) (CL M h q : ℕ → ℝ) (alpha drag failure : ℕ → ℝ) : Prop :=
  let outs := exactOuts n f M alpha h
  (∀ k, k < n → balanceRes (Utils.flat 1 (combine AsOut.CL outs) k) (CL k) = 0) ∧
  (∀ k, k < n → drag k = exactDrag (q k) S (Utils.flat 1 (combine AsOut.CD outs) k) nonwing) ∧
  (∀ k, k < n → failure k = Utils.flat 1 (combine AsOut.failure outs) k)

/-! ### defaults -/

/-- the three drag polar groups -/
inductive Kind where
  | vlm
  | aerostruct
  | exact
  deriving DecidableEq

/-- value of `ac|aero|CD_nonwing` when nothing is connected or set: drag_polar.py:372 (zeros), aerostructural.py:391 (0.0),
aerostructural.py:1498 (no `val`, so ExecComp's default of ones) -/
def nonwingDefault : Kind → ℝ
  | .vlm => 0
  | .aerostruct => 0
  | .exact => 1

/-- drag of a node with the default, for wing drag coefficient `cd` -/
def dragDefault (k : Kind) (q S cd : ℝ) : ℝ :=
  match k with
  | .vlm => vlmDrag q S cd (nonwingDefault .vlm)
  | .aerostruct => asDrag q S (asCdTrain (fun _ => cd) (nonwingDefault .aerostruct) (0, 0, 0))
  | .exact => exactDrag q S cd (nonwingDefault .exact)

/-! ### wingbox airfoil -/

/-- aerostructural.py:902-955 `upper_x`, in units of 1e-4 -/
def upperX : List ℤ :=
  [1000, 1100, 1200, 1300, 1400, 1500, 1600, 1700, 1800, 1900, 2000, 2100, 2200, 2300, 2400, 2500, 2600, 2700, 2800,
   2900, 3000, 3100, 3200, 3300, 3400, 3500, 3600, 3700, 3800, 3900, 4000, 4100, 4200, 4300, 4400, 4500, 4600, 4700,
   4800, 4900, 5000, 5100, 5200, 5300, 5400, 5500, 5600, 5700, 5800, 5900, 6000]

/-- aerostructural.py:957-1010 `lower_x`, in units of 1e-4 -/
def lowerX : List ℤ :=
  [1000, 1100, 1200, 1300, 1400, 1500, 1600, 1700, 1800, 1900, 2000, 2100, 2200, 2300, 2400, 2500, 2600, 2700, 2800,
   2900, 3000, 3100, 3200, 3300, 3400, 3500, 3600, 3700, 3800, 3900, 4000, 4100, 4200, 4300, 4400, 4500, 4600, 4700,
   4800, 4900, 5000, 5100, 5200, 5300, 5400, 5500, 5600, 5700, 5800, 5900, 6000]

/-- aerostructural.py:1012-1065 `upper_y`, in units of 1e-4 -/
def upperY : List ℤ :=
  [447, 460, 472, 484, 495, 505, 514, 523, 531, 538, 545, 551, 557, 563, 568, 573, 577, 581, 585, 588, 591, 593, 595,
   597, 599, 600, 601, 602, 602, 602, 602, 602, 601, 600, 599, 598, 596, 594, 592, 589, 586, 583, 580, 576, 572, 568,
   563, 558, 553, 547, 541]

/-- aerostructural.py:1067-1120 `lower_y`, in units of 1e-4 -/
def lowerY : List ℤ :=
  [-447, -460, -473, -485, -496, -506, -515, -524, -532, -540, -547, -554, -560, -565, -570, -575, -579, -583, -586,
   -589, -592, -594, -595, -596, -597, -598, -598, -598, -598, -597, -596, -594, -592, -589, -586, -582, -578, -573,
   -567, -561, -554, -546, -538, -529, -519, -509, -497, -485, -472, -458, -444]

/-- aerostructural.py:1145 `original_wingbox_airfoil_t_over_c`, in units of 1e-4 -/
def originalToverc : ℤ := 1200

end Verif.DragPolar
