import Verif.Model.Aircraft
import Verif.Model.DragPolar
import Verif.Model.WeightsJet

/-!
Model of `openconcept/examples/B738_aerostructural.py` (and the part shared with `B738.py` and `B738_VLM_drag.py`): the mission
weight in which an estimated wing is exchanged for the wing of the structural analysis, and the manoeuvre point which sizes it.

OpenAeroStruct's analysis is a function of the angle of attack (`lift`, the lift coefficient of `Aerostruct` for the promoted
geometry); the drag polars are modelled in `Model/DragPolar.lean`.  SI units; the original wing weight is promoted in lb and
converted by OpenMDAO with `lbKg`.  The surrogate options and optimisation scripts are not modelled.
-/

namespace Verif.WingSizing

open Verif.Aircraft Verif.VectorComps

variable {m : ℕ}

/-- kilograms per pound in OpenMDAO's unit library -/
noncomputable def lbKg : ℝ := 0.45359237

/-- B738_aerostructural.py:144-155: the component `weight` -/
noncomputable def weightSys (nn : ℕ) : AddSys ℝ :=
  ⟨"weight", ["ac|weights|MTOW", "fuel_used", "ac|weights|orig_W_wing", "ac|weights|W_wing"], .each [1, nn, 1, 1], 1,
    some [1, -1, -1, 1], ⟨some (some "kg"), none⟩⟩

/-- the variables it reads; `orig` in lb -/
noncomputable def weightEnv {n : ℕ} (mtow orig wing : ℝ) (fuel : Fin n → ℝ) : String → ℕ → ℕ → ℝ := fun v i _ =>
  if v = "ac|weights|MTOW" then mtow
  else if v = "ac|weights|orig_W_wing" then orig * lbKg
  else if v = "ac|weights|W_wing" then wing
  else if h : i < n then fuel ⟨i, h⟩ else 0

/-- the weight at the nodes of a phase -/
noncomputable def weight (mtow orig wing : ℝ) (fuel : Fin (m + 1) → ℝ) (a : Fin (m + 1)) : ℝ :=
  (weightSys (m + 1)).compute (weightEnv mtow orig wing fuel) a 0

/-- B738_aerostructural.py:66-84 (B738.py:37-52, B738_VLM_drag.py:51-69): fuel flow seen by the integrator for one engine's fuel
flow `ff` -/
def fuelSeg (ff : Fin (m + 1) → ℝ) (duration : ℝ) : Seg m := ⟨fun b => doubled (ff b), duration⟩

/-- B738_aerostructural.py:236-253: estimate of the original wing weight in lb, computed once in `setup` from literals -/
noncomputable def raymer : ℝ :=
  0.0051 * (174.2e3 * (1.5 * 3)) ^ (0.557 : ℝ) * 1368 ^ (0.649 : ℝ) * 9.44 ^ (0.5 : ℝ) * 0.12 ^ (-0.4 : ℝ)
    * (1 + 0.159) ^ (0.1 : ℝ) / Real.cos (25 * (Real.pi / 180)) * 196.8 ^ (0.1 : ℝ)

/-- B738_aerostructural.py:254: default of the promoted `ac|weights|orig_W_wing`, in lb -/
noncomputable def origDefault : ℝ := raymer

/-- B738_aerostructural.py:300-310 `kg_to_N`: required lift.  Its input `orig_W_wing` is neither promoted nor connected: it keeps
the value of line 305 -/
noncomputable def requiredLift (n mtow wing : ℝ) : ℝ := n * (mtow - raymer / 2.20462 + wing) * 9.807

/-- B738_aerostructural.py:297-298, 316-319: lift of the manoeuvre point -/
noncomputable def liftAt (rho u S cl : ℝ) : ℝ := Aero.lift (Atmos.dynPressure rho u) S cl

/-- B738_aerostructural.py:288-320: the manoeuvre point at altitude `h` and Mach number `M` has converged with angle `alpha`;
`cl` is the lift coefficient of the analysis, `wing` the wing weight of the climb phase (line 315) -/
def Maneuver (cl : ℝ → ℝ) (h M inc S n mtow wing alpha : ℝ) : Prop :=
  ∃ p, DragPolar.point h M inc = some p ∧
    DragPolar.balanceRes (requiredLift n mtow wing) (liftAt p.rho p.v S (cl alpha)) = 0

end Verif.WingSizing
