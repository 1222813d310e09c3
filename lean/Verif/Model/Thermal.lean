import Verif.Model.Constants
import Verif.Model.Integrals
import Mathlib.Analysis.SpecialFunctions.Pow.Real
import Mathlib.Analysis.SpecialFunctions.Trigonometric.Basic
import Mathlib.Analysis.SpecialFunctions.Log.Basic
import Mathlib.Analysis.Real.Sqrt
import Mathlib.Analysis.Real.Pi.Bounds

/-!
Model of `openconcept/thermal`: coolant loop components, motor and battery cooling, chiller, heat pipe.
All components act elementwise; one node is modelled.  `np.tanh` is `Real.tanh`, `np.exp` is `Real.exp`.
Components with `method="cs"` partials have no model of their partials (OpenMDAO differentiates the compute function).
-/

namespace Verif.Thermal

open Real

open Classical in
/-- numpy division: dividing by zero gives inf or nan, modelled by `none` -/
noncomputable def npdiv (x y : ℝ) : Option ℝ := if y = 0 then none else some (x / y)

/-! ### thermal.py -/

/-- thermal.py:62 `PerfectHeatTransferComp.compute`; `cp` is the specific heat of the coolant -/
noncomputable def phtOut (cp Tin q mdot : ℝ) : ℝ := Tin + q / cp / mdot
/-- thermal.py:63 -/
noncomputable def phtAvg (cp Tin q mdot : ℝ) : ℝ := (Tin + phtOut cp Tin q mdot) / 2
/-- thermal.py:66 -/
noncomputable def phtOutDq (cp mdot : ℝ) : ℝ := 1 / cp / mdot
/-- thermal.py:67 -/
noncomputable def phtOutDmdot (cp q mdot : ℝ) : ℝ := -q / cp / mdot ^ 2
/-- thermal.py:69 -/
noncomputable def phtAvgDq (cp mdot : ℝ) : ℝ := phtOutDq cp mdot / 2
/-- thermal.py:70 -/
noncomputable def phtAvgDmdot (cp q mdot : ℝ) : ℝ := phtOutDmdot cp q mdot / 2
/-- thermal.py:58 -/
def phtOutDT : ℝ := 1
/-- thermal.py:59 -/
def phtAvgDT : ℝ := 1

/-- thermal.py:118 `ThermalComponentWithMass.compute` -/
noncomputable def massDTdt (cp qIn qOut mass : ℝ) : ℝ := (qIn - qOut) / mass / cp
/-- thermal.py:123 -/
noncomputable def massDTdtDmass (cp qIn qOut mass : ℝ) : ℝ := -(qIn - qOut) / mass ^ 2 / cp
/-- thermal.py:124 -/
noncomputable def massDTdtDqIn (cp mass : ℝ) : ℝ := 1 / mass / cp
/-- thermal.py:125 -/
noncomputable def massDTdtDqOut (cp mass : ℝ) : ℝ := -1 / mass / cp

/-- thermal.py:165 `ThermalComponentMassless.apply_nonlinear` -/
def masslessResidual (qIn qOut : ℝ) : ℝ := qIn - qOut

/-- thermal.py:214-217 options and channel inputs of the cold plate -/
structure Plate where
  k : ℝ
  nusselt : ℝ
  cp : ℝ
  width : ℝ
  height : ℝ
  length : ℝ
  nParallel : ℝ

/-- thermal.py:246-250 -/
def Plate.area (p : Plate) : ℝ := 2 * (p.width * p.length + p.height * p.length) * p.nParallel
/-- thermal.py:251-256 -/
noncomputable def Plate.dh (p : Plate) : ℝ := 2 * p.width * p.height / (p.width + p.height)
/-- thermal.py:259-260: conductance `surface_area * h` -/
noncomputable def Plate.UA (p : Plate) : ℝ := p.area * (p.nusselt * p.k / p.dh)

/-- thermal.py:238-262 `ConstantSurfaceTemperatureColdPlate_NTU.compute`: heat flow -/
noncomputable def plateQ (p : Plate) (Tin Ts mdot : ℝ) : ℝ :=
  (1 - exp (-(p.UA / (mdot * p.cp)))) * (mdot * p.cp) * (Ts - Tin)
/-- thermal.py:263 -/
noncomputable def plateTout (p : Plate) (Tin Ts mdot : ℝ) : ℝ := Tin + plateQ p Tin Ts mdot / mdot / p.cp

/-- thermal.py:446 `CoolantReservoirRate.compute` -/
noncomputable def reservoirRate (Tin Tout mdot mass : ℝ) : ℝ := mdot / mass * (Tin - Tout)
/-- thermal.py:449 -/
noncomputable def reservoirRateDmass (Tin Tout mdot mass : ℝ) : ℝ := -mdot / mass ^ 2 * (Tin - Tout)
/-- thermal.py:450 -/
noncomputable def reservoirRateDmdot (Tin Tout mass : ℝ) : ℝ := 1 / mass * (Tin - Tout)
/-- thermal.py:451 -/
noncomputable def reservoirRateDTin (mdot mass : ℝ) : ℝ := mdot / mass
/-- thermal.py:452 -/
noncomputable def reservoirRateDTout (mdot mass : ℝ) : ℝ := -mdot / mass

open Verif.Integrals in
/-- thermal.py:385-400 `CoolantReservoir`: the temperature history `T` solves the implicit (Simpson) integration of its own
rate; a converged solution is a history with zero residual -/
def reservoirSolution {m : ℕ} (M : Matrix (Fin (m + 1)) (Fin (m + 1)) ℝ) (T0 duration mass : ℝ)
    (Tin mdot T : Fin (m + 1) → ℝ) : Prop :=
  ∀ a, T a = integratorCompute M T0 (.duration duration) (fun b => reservoirRate (Tin b) (T b) (mdot b) mass) a

/-! ### motor_cooling.py -/

/-- motor_cooling.py:173-178 options -/
structure JacketOpts where
  cp : ℝ
  caseCooling : ℝ
  caseArea : ℝ
  motorCp : ℝ

/-- motor_cooling.py:187-192 inputs at one node -/
structure JacketIn where
  qIn : ℝ
  Tin : ℝ
  T : ℝ
  mdot : ℝ
  rating : ℝ
  weight : ℝ

/-- motor_cooling.py:208-210, 228-230 -/
noncomputable def jacketNTU (o : JacketOpts) (i : JacketIn) : ℝ :=
  o.caseCooling / o.caseArea * i.rating / i.mdot / o.cp
/-- motor_cooling.py:211 -/
noncomputable def jacketEff (o : JacketOpts) (i : JacketIn) : ℝ := 1 - exp (-jacketNTU o i)
/-- motor_cooling.py:212-218 -/
noncomputable def jacketQ (o : JacketOpts) (i : JacketIn) : ℝ := (i.T - i.Tin) * jacketEff o i * i.mdot * o.cp
/-- motor_cooling.py:219-221 -/
noncomputable def jacketTout (o : JacketOpts) (i : JacketIn) : ℝ := i.Tin + jacketQ o i / i.mdot / o.cp
/-- motor_cooling.py:222 -/
noncomputable def jacketDTdt (o : JacketOpts) (i : JacketIn) : ℝ := (i.qIn - jacketQ o i) / i.weight / o.motorCp

/-- one row of the Jacobian of `MotorCoolingJacket` -/
structure JacketJac where
  qIn : ℝ
  Tin : ℝ
  T : ℝ
  mdot : ℝ
  rating : ℝ
  weight : ℝ

/-- motor_cooling.py:244-247 partials of `q` -/
noncomputable def jacketQJac (o : JacketOpts) (i : JacketIn) : JacketJac where
  qIn := 0
  T := jacketEff o i * i.mdot * o.cp
  Tin := -jacketEff o i * i.mdot * o.cp
  rating := (i.T - i.Tin) * (exp (-jacketNTU o i) * (o.caseCooling / o.caseArea / i.mdot / o.cp)) * i.mdot * o.cp
  mdot := (i.T - i.Tin) * o.cp * (jacketEff o i
    + exp (-jacketNTU o i) * (-(o.caseCooling / o.caseArea) * i.rating / i.mdot ^ 2 / o.cp) * i.mdot)
  weight := 0

/-- motor_cooling.py:249-252 partials of `T_out` -/
noncomputable def jacketToutJac (o : JacketOpts) (i : JacketIn) : JacketJac where
  qIn := 0
  T := (jacketQJac o i).T / i.mdot / o.cp
  Tin := 1 + (jacketQJac o i).Tin / i.mdot / o.cp
  rating := (jacketQJac o i).rating / i.mdot / o.cp
  mdot := ((jacketQJac o i).mdot * i.mdot - jacketQ o i) / o.cp / i.mdot ^ 2
  weight := 0

/-- motor_cooling.py:254-265 partials of `dTdt` -/
noncomputable def jacketDTdtJac (o : JacketOpts) (i : JacketIn) : JacketJac where
  qIn := 1 / i.weight / o.motorCp
  T := -(jacketQJac o i).T / i.weight / o.motorCp
  Tin := -(jacketQJac o i).Tin / i.weight / o.motorCp
  rating := -(jacketQJac o i).rating / i.weight / o.motorCp
  mdot := -(jacketQJac o i).mdot / i.weight / o.motorCp
  weight := -(i.qIn - jacketQ o i) / i.weight ^ 2 / o.motorCp

/-! ### battery_cooling.py -/

/-- battery_cooling.py:212-221 options -/
structure BandOpts where
  cpf : ℝ
  k : ℝ
  nusselt : ℝ
  cellK : ℝ
  cellD : ℝ
  cellH : ℝ
  cellMass : ℝ
  cellCp : ℝ
  frac : ℝ

/-- battery_cooling.py:229-235 inputs at one node -/
structure BandIn where
  qIn : ℝ
  Tin : ℝ
  T : ℝ
  mdot : ℝ
  weight : ℝ
  nCpb : ℝ
  tChannel : ℝ

/-- battery_cooling.py:250 -/
noncomputable def bandCells (o : BandOpts) (i : BandIn) : ℝ := i.weight * o.frac / o.cellMass
/-- battery_cooling.py:253: coolant flow per bandolier -/
noncomputable def bandMdot (o : BandOpts) (i : BandIn) : ℝ := i.mdot / (bandCells o i / i.nCpb / 2)
/-- battery_cooling.py:255, 262-267 -/
noncomputable def bandNTU (o : BandOpts) (i : BandIn) : ℝ :=
  o.nusselt * o.k / 2 / i.tChannel * (o.cellH * (i.nCpb * o.cellD) * 2) / bandMdot o i / o.cpf
/-- battery_cooling.py:268-270: convective conductance per cell -/
noncomputable def bandK (o : BandOpts) (i : BandIn) : ℝ :=
  bandMdot o i * o.cpf * (1 - exp (-bandNTU o i)) / 2 / i.nCpb
/-- battery_cooling.py:275: radial conductance of a cell with uniform heat generation -/
noncomputable def bandKcyl (o : BandOpts) : ℝ := 8 * π * o.cellH * o.cellK
/-- battery_cooling.py:277-279 -/
noncomputable def bandTs (o : BandOpts) (i : BandIn) : ℝ :=
  (bandKcyl o * i.T + bandK o i * i.Tin) / (bandKcyl o + bandK o i)
/-- battery_cooling.py:281, 286 -/
noncomputable def bandQ (o : BandOpts) (i : BandIn) : ℝ := (bandTs o i - i.Tin) * bandK o i * bandCells o i
/-- battery_cooling.py:254, 282-284 -/
noncomputable def bandDTdt (o : BandOpts) (i : BandIn) : ℝ :=
  (i.qIn / bandCells o i - (bandTs o i - i.Tin) * bandK o i) / o.cellMass / o.cellCp
/-- battery_cooling.py:296 -/
noncomputable def bandTout (o : BandOpts) (i : BandIn) : ℝ := i.Tin + bandQ o i / i.mdot / o.cpf
/-- battery_cooling.py:297 -/
noncomputable def bandTcore (o : BandOpts) (i : BandIn) : ℝ := (i.T - bandTs o i) + i.T

/-! ### manifold.py -/

open Classical in
/-- manifold.py:46-52 `FlowSplit.compute` for a vector of nodes: raises if any fraction is out of range -/
noncomputable def flowSplit {n : ℕ} (mdot f : Fin n → ℝ) : Except String ((Fin n → ℝ) × (Fin n → ℝ)) :=
  if (∃ k, f k < 0) ∨ ∃ k, f k > 1 then .error "mdot_split_fraction has at least one element out of range [0, 1]"
  else .ok (fun k => mdot k * f k, fun k => mdot k * (1 - f k))

/-- manifold.py:55, 58 -/
def flowSplitDmdot (f : ℝ) : ℝ × ℝ := (f, 1 - f)
/-- manifold.py:56, 59 -/
def flowSplitDf (mdot : ℝ) : ℝ × ℝ := (mdot, -mdot)

/-- manifold.py:112 `FlowCombine.compute` -/
def combineMdot (mA mB : ℝ) : ℝ := mA + mB
/-- manifold.py:114 -/
noncomputable def combineT (mA mB TA TB : ℝ) : ℝ := (mA * TA + mB * TB) / (mA + mB)
/-- manifold.py:126 -/
noncomputable def combineTDmA (mA mB TA TB : ℝ) : ℝ := ((mA + mB) * TA - mA * TA - mB * TB) / (mA + mB) ^ 2
/-- manifold.py:127 -/
noncomputable def combineTDmB (mA mB TA TB : ℝ) : ℝ := ((mA + mB) * TB - mA * TA - mB * TB) / (mA + mB) ^ 2
/-- manifold.py:128 -/
noncomputable def combineTDTA (mA mB : ℝ) : ℝ := mA / (mA + mB)
/-- manifold.py:129 -/
noncomputable def combineTDTB (mA mB : ℝ) : ℝ := mB / (mA + mB)

/-! ### chiller.py -/

/-- chiller.py:48-53 inputs of `LinearSelector` at one node -/
structure SelIn where
  TinCold : ℝ
  TinHot : ℝ
  refCold : ℝ
  refHot : ℝ
  rating : ℝ
  bypass : ℝ

/-- chiller.py:71 -/
def selCold (i : SelIn) : ℝ := i.bypass * i.TinHot + (1 - i.bypass) * i.refCold
/-- chiller.py:72 -/
def selHot (i : SelIn) : ℝ := i.bypass * i.TinCold + (1 - i.bypass) * i.refHot
/-- chiller.py:73 -/
noncomputable def selLoad (i : SelIn) : ℝ := (1 - i.bypass) * i.rating / 0.95

/-- chiller.py:132 `COPHeatPump.compute`: heat into side 1 (cold) -/
def pumpQ1 (COP P : ℝ) : ℝ := -COP * P
/-- chiller.py:133: heat into side 2 (hot) -/
def pumpQ2 (COP P : ℝ) : ℝ := (COP + 1) * P

/-- chiller.py:170 -/
noncomputable def pumpWeight (P sp : ℝ) : ℝ := P / sp
/-- chiller.py:173 -/
noncomputable def pumpWeightDP (sp : ℝ) : ℝ := 1 / sp
/-- chiller.py:174 -/
noncomputable def pumpWeightDsp (P sp : ℝ) : ℝ := -P / sp ^ 2

/-- chiller.py:336: the argument `a` of the soft minimum; `raw` is `COP_raw` -/
noncomputable def copA (raw dT eff : ℝ) : ℝ := raw * tanh dT * eff + (1 + tanh (-(dT + 3))) / 2 * 10
/-- chiller.py:335, 337-338: soft minimum of `a` and 10 -/
noncomputable def copSoft (a : ℝ) : ℝ :=
  (a * exp (-1.5 * a) + 10 * exp (-1.5 * 10)) / (exp (-1.5 * a) + exp (-1.5 * 10))
/-- chiller.py:332-339 `COPExplicit.compute`; `none` if the division by the temperature difference fails -/
noncomputable def cop (Tc Th eff : ℝ) : Option ℝ :=
  (npdiv Tc (Th - Tc)).map fun raw => copSoft (copA raw (Th - Tc) eff)

/-- chiller.py:240-290 `HeatPumpWithIntegratedCoolantLoop` at a converged point: the COP is computed from the outlet
temperatures of the two sides, which depend on the COP -/
structure Chiller where
  cp : ℝ
  TinHot : ℝ
  TinCold : ℝ
  mdot : ℝ
  rating : ℝ
  eff : ℝ
  bypass : ℝ
  COP : ℝ

/-- chiller.py:261-265, 278 -/
noncomputable def Chiller.hotOut (c : Chiller) : ℝ := phtOut c.cp c.TinHot (pumpQ2 c.COP c.rating) c.mdot
/-- chiller.py:266-270, 277 -/
noncomputable def Chiller.coldOut (c : Chiller) : ℝ := phtOut c.cp c.TinCold (pumpQ1 c.COP c.rating) c.mdot
/-- chiller.py:271-276 -/
def Chiller.converged (c : Chiller) : Prop := cop c.coldOut c.hotOut c.eff = some c.COP
/-- chiller.py:283-290 -/
noncomputable def Chiller.sel (c : Chiller) : SelIn := ⟨c.TinCold, c.TinHot, c.coldOut, c.hotOut, c.rating, c.bypass⟩

/-! ### heat_pipe.py -/

/-- heat_pipe.py:242-255 options of `HeatPipeThermalResistance` -/
structure PipeOpts where
  lenEvap : ℝ
  lenCond : ℝ
  wallK : ℝ
  wickT : ℝ
  wickK : ℝ
  vapor : Bool

/-- heat_pipe.py:269-276 / 278-283: radial resistance at one end of length `len` -/
noncomputable def pipeRadial (o : PipeOpts) (len diam wallT : ℝ) : ℝ :=
  log (diam / (diam - 2 * o.wickT)) / (2 * π * len * o.wallK)
    + log ((diam + 2 * wallT) / diam) / (2 * π * len * o.wallK)

/-- heat_pipe.py:269-291 `HeatPipeThermalResistance.compute`; `none` when the vapor resistance divides by zero heat -/
noncomputable def pipeResistance (o : PipeOpts) (diam wallT q dT : ℝ) : Option ℝ :=
  (if o.vapor then npdiv dT q else some 0).map fun Rv =>
    pipeRadial o o.lenEvap diam wallT + pipeRadial o o.lenCond diam wallT + Rv

/-- the resistance of the documented construction: the wick has its own conductivity `wick_conduct` -/
noncomputable def pipeRadialDoc (o : PipeOpts) (len diam wallT : ℝ) : ℝ :=
  log (diam / (diam - 2 * o.wickT)) / (2 * π * len * o.wickK)
    + log ((diam + 2 * wallT) / diam) / (2 * π * len * o.wallK)

/-- heat_pipe.py:424 `HeatPipeWeight.compute` -/
noncomputable def pipeThickness (sigma fos p d : ℝ) : ℝ := p * d * fos / sigma
/-- heat_pipe.py:425-427 -/
noncomputable def pipeWeight (sigma fos rho p d L : ℝ) : ℝ := L * π * d ^ 2 * p * fos * rho / sigma
/-- heat_pipe.py:433-434 -/
noncomputable def pipeThicknessD (sigma fos p d : ℝ) : ℝ × ℝ := (d * fos / sigma, p * fos / sigma)
/-- heat_pipe.py:435-443: with respect to pressure, diameter, length -/
noncomputable def pipeWeightD (sigma fos rho p d L : ℝ) : ℝ × ℝ × ℝ :=
  (L * π * d ^ 2 * fos * rho / sigma, L * π * 2 * d * p * fos * rho / sigma, π * d ^ 2 * p * fos * rho / sigma)

open Classical in
/-- heat_pipe.py:358-370 `HeatPipeVaporTempDrop.compute`; `none` where numpy gives nan (Reynolds number not positive) -/
noncomputable def vaporDrop (latent viscInc viscBase q temp rho pv d L : ℝ) : Option ℝ :=
  let vel := q / latent / rho / (π * d ^ 2 / 4)
  let re := rho * vel * d / (temp * viscInc + viscBase)
  if re ≤ 0 then none
  else some (35.976 / (pv / 1000) / 1000 * (L * (0.3164 * re ^ (-1 / 4 : ℝ)) * rho * vel ^ 2 / 2 / d))

/-- heat_pipe.py:779-799 `QMaxAnalyticalPart.compute` -/
noncomputable def qMax (latent theta sBase sIncr d temp rhoL rhoV : ℝ) : ℝ :=
  let s := sBase + sIncr * temp
  (rhoL / rhoV) ^ (0.14 : ℝ) * tanh ((d * √(Verif.grav / s * (rhoL - rhoV))) ^ (0.25 : ℝ)) ^ 2
    * (π / 4 * d ^ 2) * latent
    * (Verif.grav * sin (π / 2 - theta * π / 180) * s * (rhoL - rhoV)) ^ (0.25 : ℝ)
    / (rhoL ^ (-0.25 : ℝ) + rhoV ^ (-0.25 : ℝ)) ^ 2

/-- heat_pipe.py:834-838 `QMaxWarning.compute`: whether the warning is issued -/
def qWarns {n : ℕ} (warn : ℝ) (q qmax : Fin n → ℝ) : Prop := ∃ k, q k > warn * qmax k

/-- heat_pipe.py:90-186 `HeatPipe`: condenser temperature with `n` pipes, single-pipe resistance `R` at heat `q / n` -/
noncomputable def pipeTcond (Tevap q n R : ℝ) : ℝ := Tevap - q / n * R

/-! ### pump.py, hose.py -/

/-- pump.py:81 `SimplePump.compute` -/
noncomputable def pumpLoad (eta mdot dp rho : ℝ) : ℝ := mdot / rho * dp / eta
/-- pump.py:82 -/
noncomputable def pumpMargin (eta mdot dp rho rating : ℝ) : ℝ := pumpLoad eta mdot dp rho / rating
/-- pump.py:76 -/
def pumpMass (base inc rating : ℝ) : ℝ := base + inc * rating
/-- pump.py:87 -/
noncomputable def pumpLoadDmdot (eta dp rho : ℝ) : ℝ := dp / rho / eta
/-- pump.py:88 -/
noncomputable def pumpLoadDdp (eta mdot rho : ℝ) : ℝ := mdot / rho / eta
/-- pump.py:89 -/
noncomputable def pumpLoadDrho (eta mdot dp rho : ℝ) : ℝ := -mdot * dp / rho ^ 2 / eta
/-- pump.py:92-94 -/
noncomputable def pumpMarginDrating (eta mdot dp rho rating : ℝ) : ℝ := -mdot * dp / rho / eta / rating ^ 2

/-- hose.py:69-70 -/
noncomputable def hoseU (D mdot rho : ℝ) : ℝ := mdot / rho / (π * (D / 2) ^ 2)
/-- hose.py:71 -/
noncomputable def hoseRe (D mdot rho mu : ℝ) : ℝ := rho * hoseU D mdot rho * D / mu
open Classical in
/-- hose.py:68-75 `_compute_pressure_drop`; `none` where numpy gives nan (Reynolds number not positive: a negative
number to the power -1/4 is nan, and zero flow gives inf * 0) -/
noncomputable def hoseDp (D L mdot rho mu : ℝ) : Option ℝ :=
  if hoseRe D mdot rho mu ≤ 0 then none
  else some (0.3164 * hoseRe D mdot rho mu ^ (-1 / 4 : ℝ) * rho * hoseU D mdot rho ^ 2 * L / 2 / D)

/-- hose.py:83 -/
noncomputable def hoseThickness (sigma D p : ℝ) : ℝ := D * p / 2 / sigma
/-- hose.py:85-87 component weight; `rho` is the coolant density at the first node -/
noncomputable def hoseWeight (sigma rhoHose D L p rho : ℝ) : ℝ :=
  (D + hoseThickness sigma D p) * π * hoseThickness sigma D p * rhoHose * L + (D / 2) ^ 2 * π * rho * L
/-- hose.py:97 -/
noncomputable def hoseWeightDrho (D L : ℝ) : ℝ := (D / 2) ^ 2 * π * L
/-- hose.py:98-102 -/
noncomputable def hoseWeightDp (sigma rhoHose D L p : ℝ) : ℝ :=
  (D + hoseThickness sigma D p) * π * (D / 2 / sigma) * rhoHose * L
    + π * hoseThickness sigma D p * rhoHose * L * (D / 2 / sigma)
/-- hose.py:103-105 -/
noncomputable def hoseWeightDL (sigma rhoHose D p rho : ℝ) : ℝ :=
  (D + hoseThickness sigma D p) * π * hoseThickness sigma D p * rhoHose + (D / 2) ^ 2 * π * rho
/-- hose.py:106-110 -/
noncomputable def hoseWeightDD (sigma rhoHose D L p rho : ℝ) : ℝ :=
  (D + hoseThickness sigma D p) * π * (p / 2 / sigma) * rhoHose * L
    + (1 + p / 2 / sigma) * π * hoseThickness sigma D p * rhoHose * L + D / 2 * π * rho * L

end Verif.Thermal
