import Verif.Model.Aircraft
import Verif.Model.Propulsion
import Verif.Model.Takeoff

/-!
Model of the aircraft models in `openconcept/examples/TBM850.py`, `Caravan.py` (one turboprop), `KingAirC90GT.py` (two) and
`ElectricSinglewithThermal.py` (one motor and a battery), as seen by the phases of `FullMissionAnalysis`.

The aircraft is a function from what a phase provides (throttle, `propulsor_active`, lift coefficient, flight condition,
duration) to thrust, drag and weight, i.e. a `Craft` of `Model/Takeoff.lean`.  The initial value of the integrated state is a
parameter that depends on the phase; `Flight.Linked` says how the mission connects it.  The propeller maps are arbitrary.  The
cooling system of the electric airplane is modelled elsewhere (C94) and does not act on thrust, weight or charge.  SI units.
-/

namespace Verif.Turboprop

open Verif.Integrals Verif.Propulsion Verif.Aircraft
open Verif.Bfl (AcIn AcOut Craft Takeoff Rotation Design)
open Verif.Atmos (FltCond)

variable {m : ℕ}

/-- the design variables read by the aircraft models: Caravan.py:101-127, KingAirC90GT.py:101-128, TBM850.py:130-159,
ElectricSinglewithThermal.py:72-103.  `twin` selects the propulsion system, `rating` is that of one engine or of the motor. -/
structure Plane where
  twin : Bool
  rating : ℝ
  diameter : ℝ
  rpm : ℝ
  mtow : ℝ
  sref : ℝ
  AR : ℝ
  e : ℝ
  cd0TO : ℝ
  cd0Cruise : ℝ
  clmax : ℝ

/-- what the take-off phases read of it -/
def Plane.design (pl : Plane) : Design := ⟨pl.mtow, pl.sref, pl.clmax⟩

/-- propeller and flight condition, the same for both sides: Caravan.py:32, 45, KingAirC90GT.py:31, 44, TBM850.py:50 -/
def Plane.side (pl : Plane) (c : FltCond) : Side := ⟨pl.diameter, pl.rpm, c.rho, c.utrue⟩

/-- Caravan.py:36-44, TBM850.py:37-49 (the single turboprop has no input `propulsor_active`), KingAirC90GT.py:35-44 -/
noncomputable def Plane.node (mp : Maps) (pl : Plane) (c : FltCond) (throttle active : ℝ) : PropulsionOut :=
  if pl.twin then twinTurboprop mp (pl.side c) (pl.side c) throttle active pl.rating
  else singleTurboprop mp (pl.side c) throttle pl.rating

/-- Caravan.py:47-57, KingAirC90GT.py:46-56, TBM850.py:55-73, ElectricSinglewithThermal.py:41-51 -/
noncomputable def Plane.drag (pl : Plane) (phase : String) (c : FltCond) (cl : ℝ) : ℝ :=
  Aero.drag ⟨c.q, pl.sref, if cd0Source phase = "ac|aero|polar|CD0_TO" then pl.cd0TO else pl.cd0Cruise, cl, pl.e, pl.AR⟩

/-- Caravan.py:71-77, KingAirC90GT.py:70-76, TBM850.py:89-95: rate and duration seen by the integrator of `fuel_used` -/
noncomputable def Plane.fuelSeg (mp : Maps) (pl : Plane) (i : AcIn m) : Aircraft.Seg m :=
  ⟨fun b => (pl.node mp (i.cond b) (i.throttle b) (i.active b)).fuel, i.duration⟩

/-- Caravan.py:26-89, KingAirC90GT.py:25-89, TBM850.py:30-110: the aircraft model; `fuel0` is `fuel_used_initial` -/
noncomputable def craft (mp : Maps) (M : Matrix (Fin (m + 1)) (Fin (m + 1)) ℝ) (pl : Plane) (fuel0 : String → ℝ) : Craft m :=
  fun phase i =>
    { thrust := fun a => (pl.node mp (i.cond a) (i.throttle a) (i.active a)).thrust
      drag := fun a => pl.drag phase (i.cond a) (i.cl a)
      weight := weight pl.mtow (segFuel M (fuel0 phase) (pl.fuelSeg mp i)) }

/-- systems/simple_all_electric.py:165-178: `SimpleMotor` with efficiency 0.97, defaults of motor.py:52-55 -/
noncomputable def motorOpts : MachineOpts := ⟨0.97, 1 / 5000, 0, 100 / 745, 1⟩
/-- systems/simple_all_electric.py:179-181: `SOCBattery` with efficiency 0.97, defaults of battery.py:60-64 -/
noncomputable def battOpts : BattOpts := ⟨0.97, 5000, 50, 1⟩

/-- systems/simple_all_electric.py:149, 183-190: the electric airplane and its battery (specific energy in W h/kg, 300 by
default) -/
structure Electric where
  pl : Plane
  wBattery : ℝ
  specificEnergy : ℝ

/-- systems/simple_all_electric.py:101-113, 189-190: rate of the state of charge -/
noncomputable def Electric.socSeg (d : Electric) (i : AcIn m) : Aircraft.Seg m :=
  ⟨fun b => dSOCdt battOpts d.wBattery d.specificEnergy (motor motorOpts (i.throttle b) d.pl.rating).elecLoad, i.duration⟩

/-- ElectricSinglewithThermal.py:24-59: the aircraft model; the weight is interpolated between MTOW and MTOW -/
noncomputable def Electric.craft (mp : Maps) (d : Electric) : Craft m := fun phase i =>
  { thrust := fun a => propeller mp ((d.pl.side (i.cond a)).coef (motor motorOpts (i.throttle a) d.pl.rating).shaft)
    drag := fun a => d.pl.drag phase (i.cond a) (i.cl a)
    weight := fun a => Aero.linspace d.pl.mtow d.pl.mtow (m + 1) a }

/-- what the rotation of a take-off gives to the aircraft -/
noncomputable def rotationIn (d : Design) : Rotation m → AcIn m
  | .simplified r => r.acIn d
  | .ode r => r.acIn d

/-- A mission: the take-off and what the three flight phases give to the aircraft -/
structure Flight (m : ℕ) where
  takeoff : Takeoff m
  climb : AcIn m
  cruise : AcIn m
  descent : AcIn m

/-- the phases on the way to the destination with their names (profiles.py:284-297) -/
noncomputable def Flight.legs (d : Design) (f : Flight m) : List (String × AcIn m) :=
  [("v0v1", f.takeoff.v0v1.acIn .v0v1), ("v1vr", f.takeoff.v1vr.acIn .v1vr), ("rotate", rotationIn d f.takeoff.rotate),
   ("climb", f.climb), ("cruise", f.cruise), ("descent", f.descent)]

/-- the aborted take-off (profiles.py:286) -/
noncomputable def Flight.aborted (f : Flight m) : List (String × AcIn m) :=
  [("v0v1", f.takeoff.v0v1.acIn .v0v1), ("v1v0", f.takeoff.v1v0.acIn .v1v0)]

/-- mission_groups.py:382-446 `link_phases`: the initial value of the state in each phase of `l`, beginning with `x` -/
noncomputable def LinkedFrom (M : Matrix (Fin (m + 1)) (Fin (m + 1)) ℝ) (seg : AcIn m → Aircraft.Seg m) (x0 : String → ℝ) :
    ℝ → List (String × AcIn m) → Prop
  | _, [] => True
  | x, p :: l => x0 p.1 = x ∧ LinkedFrom M seg x0 (segFinal M x (seg p.2)) l

/-- the state starts with `x` in `v0v1` and is passed along both branches -/
def Flight.Linked (M : Matrix (Fin (m + 1)) (Fin (m + 1)) ℝ) (seg : AcIn m → Aircraft.Seg m) (x0 : String → ℝ) (x : ℝ)
    (d : Design) (f : Flight m) : Prop := LinkedFrom M seg x0 x (f.legs d) ∧ LinkedFrom M seg x0 x f.aborted

/-- KingAirC90GT.py:58-66 and weights_turboprop.py:634-684: the empty weight of the twin is that of `SingleTurboPropEmptyWeight`
with the rating of one engine as `P_TO` and the summed weights of engines and propellers (units of that group: hp and lb);
`lb` converts kg to lb. -/
noncomputable def kingAirOEW (lb : ℝ) (a : Weights.AircraftTP) (ratingHp ratingW blades diameter : ℝ) (other : Weights.Env) : ℝ :=
  let w := (turboshaft turboOpts 0 ratingW).weight
  let p := propWeight blades ratingHp diameter
  Weights.runSingle ({ a with P := ratingHp, Wengine := (w + w) * lb, Wprop := (p + p) }.env other) "OEW"

end Verif.Turboprop
