import Mathlib.Analysis.SpecialFunctions.Pow.Real
import Mathlib.Analysis.SpecialFunctions.Sqrt
import Mathlib.Analysis.SpecialFunctions.Log.Basic
import Mathlib.Analysis.SpecialFunctions.Trigonometric.Basic
import Mathlib.Algebra.BigOperators.Fin
import Verif.Model.Constants
import Verif.Model.Geometry

/-! Model of openconcept/aerodynamics: aerodynamics.py, CL_max_estimation.py, drag_jet_transport.py and
openaerostruct/wave_drag.py.

All components are elementwise over the nodes, so each definition is for one node.  Units, defaults and `method="cs"`
partials are not modelled. -/

namespace Verif.Aero

open Real

/-! ### aerodynamics.py -/

/-- inputs of `PolarDrag`, aerodynamics.py:53-58 -/
structure PolarIn where
  q : ℝ
  S : ℝ
  CD0 : ℝ
  CL : ℝ
  e : ℝ
  AR : ℝ

/-- aerodynamics.py:64-69 `PolarDrag.compute` -/
noncomputable def drag (i : PolarIn) : ℝ := i.q * i.S * (i.CD0 + i.CL ^ 2 / π / i.e / i.AR)
/-- aerodynamics.py:72-74 -/
noncomputable def dragDq (i : PolarIn) : ℝ := i.S * (i.CD0 + i.CL ^ 2 / π / i.e / i.AR)
/-- aerodynamics.py:75-79 -/
noncomputable def dragDCL (i : PolarIn) : ℝ := i.q * i.S * (2 * i.CL / π / i.e / i.AR)
/-- aerodynamics.py:80 -/
noncomputable def dragDCD0 (i : PolarIn) : ℝ := i.q * i.S
/-- aerodynamics.py:81-88 -/
noncomputable def dragDe (i : PolarIn) : ℝ := -(i.q * i.S * i.CL ^ 2 / π / i.e ^ 2 / i.AR)
/-- aerodynamics.py:89-91 -/
noncomputable def dragDS (i : PolarIn) : ℝ := i.q * (i.CD0 + i.CL ^ 2 / π / i.e / i.AR)
/-- aerodynamics.py:92-99 -/
noncomputable def dragDAR (i : PolarIn) : ℝ := -(i.q * i.S * i.CL ^ 2 / π / i.e / i.AR ^ 2)

/-- aerodynamics.py:138 `Lift.compute` -/
noncomputable def lift (q S CL : ℝ) : ℝ := q * S * CL

/-- aerodynamics.py:173-176 `StallSpeed.compute` -/
noncomputable def vStall (W S CL : ℝ) : ℝ := √(2 * W * grav / 1.225 / S / CL)
/-- aerodynamics.py:180-187 -/
noncomputable def vStallDW (W S CL : ℝ) : ℝ := 1 / √(2 * W * grav / 1.225 / S / CL) * grav / 1.225 / S / CL
/-- aerodynamics.py:188-196 -/
noncomputable def vStallDS (W S CL : ℝ) : ℝ :=
  -(1 / √(2 * W * grav / 1.225 / S / CL) * W * grav / 1.225 / S ^ 2 / CL)
/-- aerodynamics.py:197-205 -/
noncomputable def vStallDCL (W S CL : ℝ) : ℝ :=
  -(1 / √(2 * W * grav / 1.225 / S / CL) * W * grav / 1.225 / S / CL ^ 2)

/-! ### CL_max_estimation.py -/

/-- CL_max_estimation.py:55-59 `CleanCLmax.compute` -/
noncomputable def cleanCL (fudge Cl sweep : ℝ) : ℝ := fudge * 0.9 * Cl * cos sweep
/-- CL_max_estimation.py:66 -/
noncomputable def cleanCLDCl (fudge sweep : ℝ) : ℝ := fudge * 0.9 * cos sweep
/-- CL_max_estimation.py:67 -/
noncomputable def cleanCLDsweep (fudge Cl sweep : ℝ) : ℝ := -fudge * 0.9 * Cl * sin sweep

/-- options of `FlapCLmax`, CL_max_estimation.py:107-111 -/
structure FlapOpts where
  flapChord : ℝ
  flapArea : ℝ
  slatChord : ℝ
  slatSpan : ℝ
  fudge : ℝ

/-- inputs of `FlapCLmax`, CL_max_estimation.py:114-117; `delta` in degrees, `sweep` in radians -/
structure FlapIn where
  delta : ℝ
  sweep : ℝ
  clean : ℝ
  tc : ℝ

/-- CL_max_estimation.py:133 -/
noncomputable def flapBase (tc : ℝ) : ℝ := 1 + 2.33 * tc - 77.9 * tc ^ 2 + 1120 * tc ^ 3 - 3430 * tc ^ 4
/-- CL_max_estimation.py:135 -/
noncomputable def flapK2 (delta : ℝ) : ℝ := 0.4 + 0.0234 * delta - 2.04e-4 * delta ^ 2
/-- CL_max_estimation.py:136 -/
noncomputable def flapK3 (delta : ℝ) : ℝ := 1.36 * flapK2 delta - 0.389 * flapK2 delta ^ 2
/-- CL_max_estimation.py:134, 137 -/
noncomputable def flapDcl (o : FlapOpts) (i : FlapIn) : ℝ :=
  flapBase i.tc * (4 * o.flapChord) * flapK2 i.delta * flapK3 i.delta
/-- CL_max_estimation.py:141-146 -/
noncomputable def flapInc (o : FlapOpts) (i : FlapIn) : ℝ :=
  flapDcl o i * o.flapArea * (1 - 0.08 * cos i.sweep ^ 2) * cos i.sweep ^ (0.75 : ℝ)
/-- CL_max_estimation.py:150-152 -/
noncomputable def slatInc (o : FlapOpts) (i : FlapIn) : ℝ := 7.11 * o.slatChord * o.slatSpan ^ 2 * cos i.sweep ^ 2
/-- CL_max_estimation.py:154-156 `FlapCLmax.compute` -/
noncomputable def flapCL (o : FlapOpts) (i : FlapIn) : ℝ := o.fudge * (i.clean + flapInc o i + slatInc o i)
/-- CL_max_estimation.py:171 -/
noncomputable def flapDclDtc (o : FlapOpts) (i : FlapIn) : ℝ :=
  4 * o.flapChord * flapK2 i.delta * flapK3 i.delta
    * (2.33 - 2 * 77.9 * i.tc + 3 * 1120 * i.tc ^ 2 - 4 * 3430 * i.tc ^ 3)
/-- CL_max_estimation.py:172 -/
noncomputable def flapK2D (delta : ℝ) : ℝ := 0.0234 - 2 * 2.04e-4 * delta
/-- CL_max_estimation.py:173 -/
noncomputable def flapK3D (delta : ℝ) : ℝ := (1.36 - 2 * 0.389 * flapK2 delta) * flapK2D delta
/-- CL_max_estimation.py:174 -/
noncomputable def flapDclDdelta (o : FlapOpts) (i : FlapIn) : ℝ :=
  flapBase i.tc * (4 * o.flapChord) * (flapK2 i.delta * flapK3D i.delta + flapK2D i.delta * flapK3 i.delta)
/-- CL_max_estimation.py:184-186 -/
noncomputable def flapIncDdcl (o : FlapOpts) (i : FlapIn) : ℝ :=
  o.flapArea * (1 - 0.08 * cos i.sweep ^ 2) * cos i.sweep ^ (0.75 : ℝ)
/-- CL_max_estimation.py:178-182, 192-199, 203 -/
noncomputable def flapCLDsweep (o : FlapOpts) (i : FlapIn) : ℝ :=
  (flapDcl o i * o.flapArea * (sin i.sweep * (0.22 * cos i.sweep ^ 2 - 0.75) / cos i.sweep ^ (0.25 : ℝ))
    - 7.11 * o.slatChord * o.slatSpan ^ 2 * 2 * cos i.sweep * sin i.sweep) * o.fudge
/-- CL_max_estimation.py:187, 201 -/
noncomputable def flapCLDdelta (o : FlapOpts) (i : FlapIn) : ℝ := flapIncDdcl o i * flapDclDdelta o i * o.fudge
/-- CL_max_estimation.py:188, 202 -/
noncomputable def flapCLDtc (o : FlapOpts) (i : FlapIn) : ℝ := flapIncDdcl o i * flapDclDtc o i * o.fudge
/-- CL_max_estimation.py:122 -/
noncomputable def flapCLDclean (o : FlapOpts) : ℝ := o.fudge

/-! ### drag_jet_transport.py -/

/-- drag_jet_transport.py:388-389 `FuselageFormFactor_JetTransport.compute` -/
noncomputable def fusFF (Q L D : ℝ) : ℝ := Q * (1 + 2.2 / (L / D) + 3.8 / (L / D) ^ 3)
/-- drag_jet_transport.py:398-400 -/
noncomputable def fusFFDL (Q L D : ℝ) : ℝ := Q * (-2.2 / (L / D) ^ 2 - 3 * 3.8 / (L / D) ^ 4) * (1 / D)
/-- drag_jet_transport.py:401-403 -/
noncomputable def fusFFDD (Q L D : ℝ) : ℝ := Q * (-2.2 / (L / D) ^ 2 - 3 * 3.8 / (L / D) ^ 4) * (-L / D ^ 2)

/-- drag_jet_transport.py:436-438 `WingFormFactor_JetTransport.compute` -/
noncomputable def wingFF (Q tc : ℝ) : ℝ := Q * (1 + 2.7 * tc + 100 * tc ^ 4)
/-- drag_jet_transport.py:442 -/
noncomputable def wingFFD (Q tc : ℝ) : ℝ := Q * (2.7 + 400 * tc ^ 3)

/-- drag_jet_transport.py:488-489: quadratic_coeff -/
noncomputable def flapQuad (cf : ℝ) : ℝ := 5.75e-4 * cf ^ 2 - 7.45e-5 * cf + 1.23e-5
/-- drag_jet_transport.py:491-500 `FlapDrag_JetTransport.compute` -/
noncomputable def flapDrag (cf area Q delta sweep : ℝ) : ℝ := flapQuad cf * delta ^ 2 * cos sweep * area * Q
/-- drag_jet_transport.py:509-516 -/
noncomputable def flapDragDdelta (cf area Q delta sweep : ℝ) : ℝ := 2 * flapQuad cf * delta * cos sweep * area * Q
/-- drag_jet_transport.py:517-519 -/
noncomputable def flapDragDsweep (cf area Q delta sweep : ℝ) : ℝ := -(flapQuad cf * delta ^ 2) * sin sweep * area * Q

/-- inputs of `SkinFrictionCoefficient_JetTransport`, drag_jet_transport.py:559-562 -/
structure FricIn where
  L : ℝ
  U : ℝ
  rho : ℝ
  T : ℝ

/-- drag_jet_transport.py:573-575: dynamic viscosity -/
noncomputable def viscDyn (T : ℝ) : ℝ := 1.458e-6 * T ^ (3 / 2 : ℝ) / (T + 100.4)
/-- drag_jet_transport.py:576: kinematic viscosity -/
noncomputable def viscKin (i : FricIn) : ℝ := viscDyn i.T / i.rho
/-- drag_jet_transport.py:579: Reynolds number -/
noncomputable def reynolds (i : FricIn) : ℝ := i.U * i.L / viscKin i
/-- drag_jet_transport.py:582, 589 explicit fit of Spalding -/
noncomputable def turb (Re : ℝ) : ℝ := 0.523 / log (0.06 * Re) ^ 2
/-- drag_jet_transport.py:588 Blasius -/
noncomputable def blasius (Re : ℝ) : ℝ := 1.32824 / √Re
open Classical in
/-- drag_jet_transport.py:582-592: Cf as a function of the Reynolds number and laminar fraction -/
noncomputable def cfRe (lam Re : ℝ) : ℝ :=
  if lam > 0 then turb Re + (blasius (Re * lam) - turb (Re * lam)) * lam else turb Re
/-- drag_jet_transport.py:571-594 `SkinFrictionCoefficient_JetTransport.compute` -/
noncomputable def cf (lam : ℝ) (i : FricIn) : ℝ := cfRe lam (reynolds i)

/-- drag_jet_transport.py:604 -/
noncomputable def dviscDynT (T : ℝ) : ℝ := 1.458e-6 * √T * (3 * 100.4 + T) / (2 * (100.4 + T) ^ 2)
/-- drag_jet_transport.py:605, 612 -/
noncomputable def dReT (i : FricIn) : ℝ := -i.U * i.L / viscKin i ^ 2 * (dviscDynT i.T / i.rho)
/-- drag_jet_transport.py:606, 613 -/
noncomputable def dRerho (i : FricIn) : ℝ := -i.U * i.L / viscKin i ^ 2 * (-viscDyn i.T / i.rho ^ 2)
/-- drag_jet_transport.py:614 -/
noncomputable def dReU (i : FricIn) : ℝ := i.L / viscKin i
/-- drag_jet_transport.py:615 -/
noncomputable def dReL (i : FricIn) : ℝ := i.U / viscKin i
/-- drag_jet_transport.py:619, 632: derivative of the turbulent fit, with the constant `2.81341` for `-log 0.06` -/
noncomputable def dTurb (Re : ℝ) : ℝ := -1.046 / (Re * (log Re - 2.81341) ^ 3)
/-- drag_jet_transport.py:631 -/
noncomputable def dBlasius (Re : ℝ) : ℝ := -0.5 * 1.32824 / Re ^ (1.5 : ℝ)
open Classical in
/-- drag_jet_transport.py:621-638: the common factor of the four partials, which are this factor times `dReT`, `dRerho`,
`dReU` and `dReL` -/
noncomputable def dcfRe (lam Re : ℝ) : ℝ :=
  if lam > 0 then dTurb Re + lam * (dBlasius (Re * lam) - dTurb (Re * lam)) * lam else dTurb Re

/-- drag_jet_transport.py:160-350: inputs and options of `ParasiteDragCoefficient_JetTransport` -/
structure ParasiteIn where
  takeoff : Bool
  wing : Bool
  fudge : ℝ
  Qfus : ℝ
  Qtail : ℝ
  Qwing : ℝ
  Qflap : ℝ
  FFnac : ℝ
  flapChord : ℝ
  flapArea : ℝ
  lamFus : ℝ
  lamH : ℝ
  lamV : ℝ
  lamW : ℝ
  lamN : ℝ
  U : ℝ
  rho : ℝ
  T : ℝ
  fusL : ℝ
  fusH : ℝ
  fusWet : ℝ
  hS : ℝ
  hAR : ℝ
  htaper : ℝ
  htc : ℝ
  vS : ℝ
  vAR : ℝ
  vtaper : ℝ
  vtc : ℝ
  wS : ℝ
  wAR : ℝ
  wtaper : ℝ
  wtc : ℝ
  nacL : ℝ
  nacWet : ℝ
  nEng : ℝ
  flapDeg : ℝ
  sweep : ℝ

/-- drag_jet_transport.py:247-253: CD_fuselage -/
noncomputable def cdFus (i : ParasiteIn) : ℝ :=
  i.fusWet * fusFF i.Qfus i.fusL i.fusH * cf i.lamFus ⟨i.fusL, i.U, i.rho, i.T⟩ / i.wS
/-- drag_jet_transport.py:254-261: CD_hstab; the characteristic length is the trapezoidal MAC (lines 205-222) -/
noncomputable def cdH (i : ParasiteIn) : ℝ :=
  2 * (i.hS * wingFF i.Qtail i.htc * cf i.lamH ⟨Geometry.macTrap i.hS i.hAR i.htaper, i.U, i.rho, i.T⟩ / i.wS)
/-- drag_jet_transport.py:262-269: CD_vstab -/
noncomputable def cdV (i : ParasiteIn) : ℝ :=
  2 * (i.vS * wingFF i.Qtail i.vtc * cf i.lamV ⟨Geometry.macTrap i.vS i.vAR i.vtaper, i.U, i.rho, i.T⟩ / i.wS)
/-- drag_jet_transport.py:270-276: CD_nacelle -/
noncomputable def cdN (i : ParasiteIn) : ℝ :=
  i.nacWet * i.FFnac * cf i.lamN ⟨i.nacL, i.U, i.rho, i.T⟩ * i.nEng / i.wS
/-- drag_jet_transport.py:277-285: CD_wing -/
noncomputable def cdW (i : ParasiteIn) : ℝ :=
  2 * (wingFF i.Qwing i.wtc * cf i.lamW ⟨Geometry.macTrap i.wS i.wAR i.wtaper, i.U, i.rho, i.T⟩)
/-- drag_jet_transport.py:305-319: CD_flap source -/
noncomputable def cdFlap (i : ParasiteIn) : ℝ :=
  if i.takeoff then flapDrag i.flapChord i.flapArea i.Qflap i.flapDeg i.sweep else 0
/-- drag_jet_transport.py:324: CD_landing_gear -/
noncomputable def cdGear (i : ParasiteIn) : ℝ := if i.takeoff then 0.02 else 0
/-- drag_jet_transport.py:329-349: CD0 -/
noncomputable def cd0 (i : ParasiteIn) : ℝ :=
  i.fudge * cdFus i + i.fudge * cdH i + i.fudge * cdV i + i.fudge * cdN i
    + (if i.wing then i.fudge * cdW i else 0) + i.fudge * cdFlap i + i.fudge * cdGear i

/-! ### openaerostruct/wave_drag.py -/

/-- a wing section: chord, spanwise location, thickness to chord ratio -/
structure WSec where
  c : ℝ
  y : ℝ
  tc : ℝ

/-- numpy's `linspace(a, b, n)[j]` -/
noncomputable def linspace (a b : ℝ) (n j : ℕ) : ℝ := a + j * ((b - a) / (n - 1))

/-- numpy's `trapz(f, x)` over `n` samples -/
noncomputable def trapz (n : ℕ) (f x : ℕ → ℝ) : ℝ := ∑ j ∈ Finset.range (n - 1), (x (j + 1) - x j) * (f (j + 1) + f j) / 2

/-- wave_drag.py:126 -/
noncomputable def wPanelArea (a b : WSec) : ℝ := 0.5 * (a.c + b.c) * (b.y - a.y)
/-- wave_drag.py:130-134, for `n` samples per panel (the code uses 500) -/
noncomputable def wPanelTc (n : ℕ) (a b : WSec) : ℝ :=
  trapz n (fun j => linspace a.tc b.tc n j * linspace a.c b.c n j) (fun j => linspace a.y b.y n j) / wPanelArea a b

/-- sum over consecutive sections -/
def wSum (f : WSec → WSec → ℝ) : List WSec → ℝ
  | a :: b :: l => f a b + wSum f (b :: l)
  | _ => 0

/-- wave_drag.py:135 -/
noncomputable def avgTc (n : ℕ) (l : List WSec) : ℝ :=
  wSum (fun a b => wPanelTc n a b * wPanelArea a b) l / wSum wPanelArea l
/-- wave_drag.py:120, 137-138: critical Mach number; `sweep` in degrees -/
noncomputable def mCrit (n : ℕ) (tech CL sweep : ℝ) (l : List WSec) : ℝ :=
  tech / cos (sweep * π / 180) - avgTc n l / cos (sweep * π / 180) ^ 2 - CL / (10 * cos (sweep * π / 180) ^ 3)
    - (0.1 / 80 : ℝ) ^ (1 / 3 : ℝ)
open Classical in
/-- wave_drag.py:140-142: without area normalisation -/
noncomputable def cdWave (M Mc : ℝ) : ℝ := (if M > Mc then 20 * (M - Mc) ^ 4 else 0) * 2
/-- wave_drag.py:144-145: with `specify_area_norm` -/
noncomputable def cdWaveNorm (M Mc S : ℝ) (l : List WSec) : ℝ := cdWave M Mc * (S / (2 * wSum wPanelArea l))

end Verif.Aero
