import Verif.Model.Constants
import Mathlib.Analysis.SpecialFunctions.Pow.Real
import Mathlib.Analysis.SpecialFunctions.Sqrt

/-! Model of openconcept/thermal/ducts.py.

Components are elementwise, so they are given per node; where an exception depends on the whole array the array version is
given.  Quantities which the code shares between nodes (area, cp, loss factor) are per node here, which is more general.
Partials declared with `method="cs"` are trusted (complex step).  Not modelled: solver bounds (`lower`, `upper`), units and
default values.  The groups are modelled by the equations a converged solution satisfies. -/

namespace Verif.Ducts

open Real

/-- ducts.py:68-85 `ExplicitIncompressibleDuct.compute`, the clipped argument of the square root -/
noncomputable def ductInterior (k U rho dp : ℝ) : ℝ :=
  open Classical in
  if (rho ^ 2 * U ^ 2 + 2 * rho * dp) / (1 + k) < 0 then 1e-10 else (rho ^ 2 * U ^ 2 + 2 * rho * dp) / (1 + k)
/-- ducts.py:76-77 -/
noncomputable def ductMdot (k U rho A dp : ℝ) : ℝ :=
  open Classical in
  if A * √(ductInterior k U rho dp) < 0 then 1e-10 else A * √(ductInterior k U rho dp)
/-- ducts.py:84-85 -/
noncomputable def ductDrag (k cfg U rho A dp : ℝ) : ℝ :=
  ductMdot k U rho A dp * (U - cfg * ductMdot k U rho A dp / A / rho)

/-- ducts.py:146 `TemperatureIsentropic.compute` -/
noncomputable def tStatic (gam Tt M : ℝ) : ℝ := Tt * (1 + (gam - 1) / 2 * M ^ 2)⁻¹
/-- ducts.py:150 -/
noncomputable def tStaticDTt (gam M : ℝ) : ℝ := (1 + (gam - 1) / 2 * M ^ 2)⁻¹
/-- ducts.py:151 -/
noncomputable def tStaticDM (gam Tt M : ℝ) : ℝ := -Tt * ((1 + (gam - 1) / 2 * M ^ 2) ^ 2)⁻¹ * (gam - 1) * M

/-- ducts.py:192 `TotalTemperatureIsentropic.compute` -/
noncomputable def tTotal (gam T M : ℝ) : ℝ := T * (1 + (gam - 1) / 2 * M ^ 2)
/-- ducts.py:196 -/
noncomputable def tTotalDT (gam M : ℝ) : ℝ := 1 + (gam - 1) / 2 * M ^ 2
/-- ducts.py:197 -/
noncomputable def tTotalDM (gam T M : ℝ) : ℝ := T * (gam - 1) * M

/-- ducts.py:237 `PressureIsentropic.compute` -/
noncomputable def pStatic (gam pt M : ℝ) : ℝ := pt * (1 + (gam - 1) / 2 * M ^ 2) ^ (-gam / (gam - 1))
/-- ducts.py:278 `TotalPressureIsentropic.compute` -/
noncomputable def pTotal (gam p M : ℝ) : ℝ := p * (1 + (gam - 1) / 2 * M ^ 2) ^ (gam / (gam - 1))
/-- ducts.py:282 -/
noncomputable def pTotalDp (gam M : ℝ) : ℝ := (1 + (gam - 1) / 2 * M ^ 2) ^ (gam / (gam - 1))
/-- ducts.py:283-289 -/
noncomputable def pTotalDM (gam p M : ℝ) : ℝ :=
  p * (gam - 1) * M * (gam / (gam - 1)) * (1 + (gam - 1) / 2 * M ^ 2) ^ (gam / (gam - 1) - 1)

/-- ducts.py:330 `DensityIdealGas.compute` -/
noncomputable def density (R p T : ℝ) : ℝ := p / R / T

/-- ducts.py:372-373, 379-380: negative temperatures are replaced by 100 K -/
noncomputable def clipT (T : ℝ) : ℝ :=
  open Classical in
  if T < 0 then 100 else T
/-- ducts.py:374 `SpeedOfSound.compute` -/
noncomputable def sos (R gam T : ℝ) : ℝ := √(gam * R * clipT T)
/-- ducts.py:381; `none` at T = 0, where numpy divides by zero -/
noncomputable def sosD (R gam T : ℝ) : Option ℝ :=
  open Classical in
  if clipT T = 0 then none else some (0.5 * √(gam * R) / √(clipT T))

/-- ducts.py:417 `MachNumberfromSpeed.compute` -/
noncomputable def machFromSpeed (a U : ℝ) : ℝ := U / a

/-- inputs of `HeatAdditionPressureLoss` at one node, ducts.py:461-470 -/
structure HeatIn where
  Tt : ℝ
  pt : ℝ
  mdot : ℝ
  rho : ℝ
  area : ℝ
  dp : ℝ
  loss : ℝ
  recov : ℝ
  heat : ℝ
  cp : ℝ

/-- ducts.py:487 -/
noncomputable def ttOut (i : HeatIn) : ℝ := i.Tt + i.heat / i.cp / i.mdot
/-- ducts.py:483, 488-492 -/
noncomputable def ptOut (i : HeatIn) : ℝ :=
  i.pt * i.recov - 0.5 * i.mdot ^ 2 / i.rho / i.area ^ 2 * i.loss + i.dp
/-- ducts.py:482-499 `HeatAdditionPressureLoss.compute` on all nodes: (Tt_out, pt_out) or ValueError -/
noncomputable def heatStation {n : ℕ} (i : Fin n → HeatIn) : Except String ((Fin n → ℝ) × (Fin n → ℝ)) :=
  open Classical in
  if ∃ k, (i k).mdot ≤ 0 then .error "ValueError"
  else if ∃ k, 1e8 < ptOut (i k) then .error "ValueError"
  else .ok (fun k => ttOut (i k), fun k => ptOut (i k))
/-- ducts.py:504-507: partials of Tt_out with respect to Tt_in, heat_in, cp, mdot -/
noncomputable def ttOutD (i : HeatIn) : ℝ × ℝ × ℝ × ℝ :=
  (1, 1 / i.cp / i.mdot, -i.heat / i.cp ^ 2 / i.mdot, -i.heat / i.cp / i.mdot ^ 2)
/-- ducts.py:509-525: partials of pt_out with respect to pt_in, pressure_recovery, delta_p, mdot, rho, area, loss factor -/
noncomputable def ptOutD (i : HeatIn) : ℝ × ℝ × ℝ × ℝ × ℝ × ℝ × ℝ :=
  (i.recov, i.pt, 1, -i.loss * i.mdot / i.rho / i.area ^ 2, 0.5 * i.loss * i.mdot ^ 2 / i.rho ^ 2 / i.area ^ 2,
    i.loss * i.mdot ^ 2 / i.rho / i.area ^ 3, -0.5 * i.mdot ^ 2 / i.rho / i.area ^ 2)

/-- ducts.py:569 `MassFlow.compute` -/
def massFlow (M a area rho : ℝ) : ℝ := M * a * area * rho
/-- ducts.py:572-575: partials with respect to M, a, area, rho -/
def massFlowD (M a area rho : ℝ) : ℝ × ℝ × ℝ × ℝ := (a * area * rho, M * area * rho, M * a * rho, M * a * area)

/-- ducts.py:595-596 `MachNumberDuct.apply_nonlinear` -/
def machRes (mdot M a area rho : ℝ) : ℝ := mdot - M * a * area * rho
/-- ducts.py:592, 598-602: partials with respect to mdot, M, a, area, rho -/
def machResD (M a area rho : ℝ) : ℝ × ℝ × ℝ × ℝ × ℝ :=
  (1, -a * area * rho, -M * area * rho, -M * a * rho, -M * a * area)

/-- ducts.py:641-642 `DuctExitPressureRatioImplicit.apply_nonlinear` -/
noncomputable def prRes (pr pExit pt : ℝ) : ℝ := pr - pExit / pt
/-- ducts.py:637, 644-646: partials with respect to the ratio, p_exit, pt -/
noncomputable def prResD (pExit pt : ℝ) : ℝ × ℝ × ℝ := (1, -1 / pt, pExit / pt ^ 2)

/-- ducts.py:684 -/
noncomputable def critPR (gam : ℝ) : ℝ := (2 / (gam + 1)) ^ (gam / (gam - 1))
/-- ducts.py:687-691 `DuctExitMachNumber.compute` for one positive pressure ratio; `none` is NaN (square root of a negative
number) -/
noncomputable def exitMach (gam pr : ℝ) : Option ℝ :=
  open Classical in
  if pr ≤ critPR gam then some 1
  else if (pr ^ ((1 - gam) / gam) - 1) * 2 / (gam - 1) < 0 then none
  else some (√((pr ^ ((1 - gam) / gam) - 1) * 2 / (gam - 1)))
/-- ducts.py:681-691, array version with the exception -/
noncomputable def exitMachs {n : ℕ} (gam : ℝ) (pr : Fin n → ℝ) : Except String (Fin n → Option ℝ) :=
  open Classical in
  if ∃ k, pr k ≤ 0 then .error "ValueError" else .ok fun k => exitMach gam (pr k)

/-- ducts.py:740-744 `NetForce.compute` -/
noncomputable def netForce (cfg mdot U pInf A pN rhoN : ℝ) : ℝ :=
  mdot * (mdot / A / rhoN * cfg - U) + A * cfg * (pN - pInf)

/-- ducts.py:891-895 `NozzlePressureLoss.compute` -/
noncomputable def nozzlePt (pt mdot rho area loss : ℝ) : ℝ := pt - 0.5 * mdot ^ 2 / rho / area ^ 2 * loss
/-- ducts.py:900-912: partials with respect to pt_in, mdot, rho, area, loss factor -/
noncomputable def nozzlePtD (mdot rho area loss : ℝ) : ℝ × ℝ × ℝ × ℝ × ℝ :=
  (1, -loss * mdot / rho / area ^ 2, 0.5 * loss * mdot ^ 2 / rho ^ 2 / area ^ 2, loss * mdot ^ 2 / rho / area ^ 3,
    -0.5 * mdot ^ 2 / rho / area ^ 2)

/-- ducts.py:1094-1095 `FlowMatcher.apply_nonlinear` -/
def matchRes (mdotActual mdot : ℝ) : ℝ := mdotActual - mdot

/-- ducts.py:772-799 `Inlet`: Mach number, total temperature and total pressure (`eta_ram` is unconnected, its value an
input) -/
noncomputable def inletM (R gam T U : ℝ) : ℝ := machFromSpeed (sos R gam T) U
/-- ducts.py:776-781 -/
noncomputable def inletTt (R gam T U : ℝ) : ℝ := tTotal gam T (inletM R gam T U)
/-- ducts.py:782-798 -/
noncomputable def inletPt (R gam eta p T U : ℝ) : ℝ := pTotal gam p (inletM R gam T U) * eta

/-- ducts.py:833-845 `DuctStation`: a converged station with Mach number `M`; the density fed back into the loss term is
that of the station itself -/
structure Station (R gam : ℝ) (i : HeatIn) (M : ℝ) : Prop where
  rho : i.rho = density R (pStatic gam (ptOut i) M) (tStatic gam (ttOut i) M)
  mach : machRes i.mdot M (sos R gam (tStatic gam (ttOut i) M)) i.area i.rho = 0

/-- state of `OutletNozzle`, ducts.py:943-961 -/
structure Nozzle where
  ptIn : ℝ
  Tt : ℝ
  pExit : ℝ
  area : ℝ
  loss : ℝ
  mdot : ℝ
  pr : ℝ
  M : ℝ

/-- ducts.py:946-948: the nozzle's density (promoted, also used by the loss term) is an unknown `rho` of the loop -/
noncomputable def Nozzle.pt (z : Nozzle) (rho : ℝ) : ℝ := nozzlePt z.ptIn z.mdot rho z.area z.loss
/-- ducts.py:955 -/
noncomputable def Nozzle.T (gam : ℝ) (z : Nozzle) : ℝ := tStatic gam z.Tt z.M
/-- ducts.py:956 -/
noncomputable def Nozzle.p (gam rho : ℝ) (z : Nozzle) : ℝ := pStatic gam (z.pt rho) z.M
/-- ducts.py:943-961 with the flow matcher (ducts.py:1094): converged nozzle with density `rho` -/
structure Nozzle.Converged (R gam : ℝ) (z : Nozzle) (rho : ℝ) : Prop where
  pr : prRes z.pr z.pExit (z.pt rho) = 0
  mach : 0 < z.pr ∧ exitMach gam z.pr = some z.M
  dens : rho = density R (z.p gam rho) (z.T gam)
  flow : matchRes (massFlow z.M (sos R gam (z.T gam)) z.area rho) z.mdot = 0

end Verif.Ducts
