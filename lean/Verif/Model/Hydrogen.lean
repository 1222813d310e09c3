import Verif.Model.Integrals
import Mathlib.Analysis.SpecialFunctions.Pow.Real
import Mathlib.Analysis.Real.Sqrt
import Mathlib.Analysis.Real.Pi.Bounds

/-!
Model of `openconcept/energy_storage/hydrogen`: the liquid hydrogen tank without boil off and its structure.
Quantities in SI units.
-/

namespace Verif.Hydrogen

open Real

/-! ### LH2_tank_no_boil_off.py -/

/-- LH2_tank_no_boil_off.py:245, 256 -/
noncomputable def tankVolume (r L : ℝ) : ℝ := 4 / 3 * π * r ^ 3 + π * r ^ 2 * L
/-- LH2_tank_no_boil_off.py:257 -/
noncomputable def tankVolumeDR (r L : ℝ) : ℝ := 4 * π * r ^ 2 + 2 * π * r * L
/-- LH2_tank_no_boil_off.py:258 -/
noncomputable def tankVolumeDL (r : ℝ) : ℝ := π * r ^ 2

/-- LH2_tank_no_boil_off.py:239-247 `InitialLH2MassModification.compute`; options `fill`, `rho`; `dm` is the mass
withdrawn since the start of the mission -/
noncomputable def liquidMass (fill rho r L dm : ℝ) : ℝ := tankVolume r L * fill * rho - dm
/-- LH2_tank_no_boil_off.py:248 -/
noncomputable def fillLevel (fill rho r L dm : ℝ) : ℝ := liquidMass fill rho r L dm / (rho * tankVolume r L)
/-- LH2_tank_no_boil_off.py:235 -/
def liquidMassDdm : ℝ := -1
/-- LH2_tank_no_boil_off.py:262 -/
noncomputable def liquidMassDR (fill rho r L : ℝ) : ℝ := tankVolumeDR r L * fill * rho
/-- LH2_tank_no_boil_off.py:263 -/
noncomputable def liquidMassDL (fill rho r : ℝ) : ℝ := tankVolumeDL r * fill * rho
/-- LH2_tank_no_boil_off.py:264 -/
noncomputable def fillLevelDdm (rho r L : ℝ) : ℝ := -1 / (rho * tankVolume r L)
/-- LH2_tank_no_boil_off.py:265-267 -/
noncomputable def fillLevelDR (fill rho r L dm : ℝ) : ℝ := liquidMassDR fill rho r L / (rho * tankVolume r L)
  - liquidMass fill rho r L dm / (rho * tankVolume r L) ^ 2 * rho * tankVolumeDR r L
/-- LH2_tank_no_boil_off.py:268-270 -/
noncomputable def fillLevelDL (fill rho r L dm : ℝ) : ℝ := liquidMassDL fill rho r / (rho * tankVolume r L)
  - liquidMass fill rho r L dm / (rho * tankVolume r L) ^ 2 * rho * tankVolumeDL r

open Verif.Integrals in
/-- LH2_tank_no_boil_off.py:149-166: liquid mass at the `m + 1` nodes of a phase.  The mass withdrawn is the integral
(Simpson) of the hydrogen flow `mdot` from the value `dm0` at the start of the phase. `none` for an even number of
nodes. -/
noncomputable def tankMass {m : ℕ} (fill rho r L duration dm0 : ℝ) (mdot : Fin (m + 1) → ℝ) :
    Option (Fin (m + 1) → ℝ) :=
  (methodMatrix (K := ℝ) .simpson m).map fun M => fun a =>
    liquidMass fill rho r L (integratorCompute M dm0 (.duration duration) mdot a)

/-- LH2_tank_no_boil_off.py:169-179 -/
noncomputable def tankTotal {m : ℕ} (mass : Fin (m + 1) → ℝ) (tankWeight : ℝ) (a : Fin (m + 1)) : ℝ :=
  mass a + tankWeight

/-! ### structural.py -/

/-- structural.py:223, 239, 343, 439 -/
noncomputable def surfaceArea (r L : ℝ) : ℝ := 4 * π * r ^ 2 + 2 * π * r * L

structure VesselOpts where
  safety : ℝ
  yield : ℝ
  density : ℝ

/-- structural.py:221 `PressureVesselWallThickness.compute` -/
noncomputable def vesselThickness (o : VesselOpts) (p r : ℝ) : ℝ := p * r * o.safety / o.yield
/-- structural.py:223-224 -/
noncomputable def vesselWeight (o : VesselOpts) (p r L : ℝ) : ℝ := surfaceArea r L * vesselThickness o p r * o.density
/-- structural.py:236 -/
noncomputable def vesselThicknessDP (o : VesselOpts) (r : ℝ) : ℝ := r * o.safety / o.yield
/-- structural.py:237 -/
noncomputable def vesselThicknessDR (o : VesselOpts) (p : ℝ) : ℝ := p * o.safety / o.yield
/-- structural.py:242 -/
noncomputable def vesselWeightDP (o : VesselOpts) (r L : ℝ) : ℝ := surfaceArea r L * vesselThicknessDP o r * o.density
/-- structural.py:243 -/
noncomputable def vesselWeightDR (o : VesselOpts) (p r L : ℝ) : ℝ :=
  ((8 * π * r + 2 * π * L) * vesselThickness o p r + surfaceArea r L * vesselThicknessDR o p) * o.density
/-- structural.py:244 -/
noncomputable def vesselWeightDL (o : VesselOpts) (p r : ℝ) : ℝ := 2 * π * r * vesselThickness o p r * o.density

structure VacuumOpts where
  safety : ℝ
  stiff : ℝ
  young : ℝ
  density : ℝ

/-- structural.py:333, 356 -/
noncomputable def tCyl (o : VacuumOpts) (p r L : ℝ) : ℝ :=
  (p * o.safety * L * r ^ (1.5 : ℝ) / (0.92 * o.young)) ^ (1 / 2.5 : ℝ)
/-- structural.py:336, 368 -/
noncomputable def tSph (o : VacuumOpts) (p r : ℝ) : ℝ := r * √(p * o.safety / (0.365 * o.young))
/-- structural.py:341 `VacuumWallThickness.compute` -/
noncomputable def vacThickness (o : VacuumOpts) (p r L : ℝ) : ℝ := o.stiff * max (tCyl o p r L) (tSph o p r)
/-- structural.py:343-344 -/
noncomputable def vacWeight (o : VacuumOpts) (p r L : ℝ) : ℝ := surfaceArea r L * vacThickness o p r L * o.density

/-- structural.py:362 -/
noncomputable def firstTerm (o : VacuumOpts) (p r L : ℝ) : ℝ :=
  (p * o.safety * L * r ^ (1.5 : ℝ) / (0.92 * o.young)) ^ (1 / 2.5 - 1 : ℝ) / 2.5

open Classical in
/-- structural.py:357-363 -/
noncomputable def tCylDP (o : VacuumOpts) (p r L : ℝ) : ℝ :=
  if L < 1e-6 then 0 else firstTerm o p r L * o.safety * L * r ^ (1.5 : ℝ) / (0.92 * o.young)
open Classical in
/-- structural.py:357-364 -/
noncomputable def tCylDR (o : VacuumOpts) (p r L : ℝ) : ℝ :=
  if L < 1e-6 then 0 else firstTerm o p r L * p * o.safety * L * r ^ (0.5 : ℝ) / (0.92 * o.young) * 1.5
open Classical in
/-- structural.py:357-365 -/
noncomputable def tCylDL (o : VacuumOpts) (p r L : ℝ) : ℝ :=
  if L < 1e-6 then 0 else firstTerm o p r L * p * o.safety * r ^ (1.5 : ℝ) / (0.92 * o.young)
/-- structural.py:369 -/
noncomputable def tSphDP (o : VacuumOpts) (p r : ℝ) : ℝ :=
  0.5 * r * (p * o.safety / (0.365 * o.young)) ^ (-0.5 : ℝ) * o.safety / (0.365 * o.young)
/-- structural.py:370 -/
noncomputable def tSphDR (o : VacuumOpts) (p r : ℝ) : ℝ := tSph o p r / r

open Classical in
/-- structural.py:374-375 -/
noncomputable def vacThicknessDP (o : VacuumOpts) (p r L : ℝ) : ℝ :=
  (if tSph o p r < tCyl o p r L then tCylDP o p r L else tSphDP o p r) * o.stiff
open Classical in
/-- structural.py:376 -/
noncomputable def vacThicknessDR (o : VacuumOpts) (p r L : ℝ) : ℝ :=
  (if tSph o p r < tCyl o p r L then tCylDR o p r L else tSphDR o p r) * o.stiff
open Classical in
/-- structural.py:371, 377 -/
noncomputable def vacThicknessDL (o : VacuumOpts) (p r L : ℝ) : ℝ :=
  (if tSph o p r < tCyl o p r L then tCylDL o p r L else 0) * o.stiff
/-- structural.py:383 -/
noncomputable def vacWeightDP (o : VacuumOpts) (p r L : ℝ) : ℝ := surfaceArea r L * vacThicknessDP o p r L * o.density
/-- structural.py:384 -/
noncomputable def vacWeightDR (o : VacuumOpts) (p r L : ℝ) : ℝ :=
  ((8 * π * r + 2 * π * L) * vacThickness o p r L + surfaceArea r L * vacThicknessDR o p r L) * o.density
/-- structural.py:385 -/
noncomputable def vacWeightDL (o : VacuumOpts) (p r L : ℝ) : ℝ :=
  (2 * π * r * vacThickness o p r L + surfaceArea r L * vacThicknessDL o p r L) * o.density

/-- structural.py:431-441 `MLIWeight.compute` -/
noncomputable def mliWeight (foil spacer r L N : ℝ) : ℝ := (foil + spacer) * N * surfaceArea r L
/-- structural.py:453 -/
noncomputable def mliWeightDN (foil spacer r L : ℝ) : ℝ := (foil + spacer) * surfaceArea r L
/-- structural.py:454 -/
noncomputable def mliWeightDR (foil spacer r L N : ℝ) : ℝ := (foil + spacer) * N * (8 * π * r + 2 * π * L)
/-- structural.py:455 -/
noncomputable def mliWeightDL (foil spacer r N : ℝ) : ℝ := (foil + spacer) * N * (2 * π * r)

/-- inputs of `VacuumTankWeight` (structural.py:6-142) -/
structure TankIn where
  pEnv : ℝ
  pOper : ℝ
  gap : ℝ
  radius : ℝ
  length : ℝ
  layers : ℝ

/-- structural.py:82-138 `VacuumTankWeight`: the outer wall has the radius increased by the gap; MLI with its default
areal weights (structural.py:419-420); every weight is multiplied by the fudge factor -/
noncomputable def tankWeight (fudge : ℝ) (oi : VesselOpts) (oo : VacuumOpts) (i : TankIn) : ℝ :=
  fudge * vacWeight oo i.pEnv (i.radius + i.gap) i.length + fudge * vesselWeight oi i.pOper i.radius i.length
    + fudge * mliWeight 18e-3 12e-3 i.radius i.length i.layers

end Verif.Hydrogen
