import Verif.Model.Phases
import Verif.Model.Atmosphere
import Verif.Model.Aero

/-!
Model of the take-off phases of `openconcept/mission/phases.py` (`GroundRollPhase`, `RotationPhase`,
`RobustRotationPhase`, `ClimbAnglePhase`) and of the balanced field length take-off assembled in
`openconcept/mission/profiles.py:57-110`.

The aircraft model is an arbitrary function.  A converged phase is one whose states satisfy the residuals of its
integrators and balances; bounds on the states (`lower`, `upper`) and the solver itself are not modelled.  All
quantities are in SI units.  All integrators of these phases are `Integrator(method="simpson", time_setup="duration")`.
-/

namespace Verif.Bfl

open Integrals Phases
open Verif.Atmos (FltCond atmosTas atmosEas)
open Verif.Aero (vStall linspace)

/-- the inputs `ac|weights|MTOW`, `ac|geom|wing|S_ref`, `ac|aero|CLmax_TO` -/
structure Design where
  mtow : ℝ
  sref : ℝ
  clmax : ℝ

/-- phases.py:618-623, 1100-1105, 1382-1387: `StallSpeed`, output `Vstall_eas` -/
noncomputable def Design.vs (d : Design) : ℝ := vStall d.mtow d.sref d.clmax
/-- phases.py:579, 624-631 (and 1368, 1388-1395): `takeoff|vr` -/
noncomputable def Design.vr (d : Design) : ℝ := d.vs * 1.1
/-- phases.py:1089, 1106-1113 (and 1367, 1396-1403): `takeoff|v2` -/
noncomputable def Design.v2 (d : Design) : ℝ := d.vs * 1.2

/-- what a phase passes to the aircraft model, over its nodes -/
structure AcIn (m : ℕ) where
  throttle : Fin (m + 1) → ℝ
  active : Fin (m + 1) → ℝ
  cl : Fin (m + 1) → ℝ
  cond : Fin (m + 1) → FltCond
  duration : ℝ

/-- what the aircraft model returns (`weight` includes the fuel already burned) -/
structure AcOut (m : ℕ) where
  thrust : Fin (m + 1) → ℝ
  drag : Fin (m + 1) → ℝ
  weight : Fin (m + 1) → ℝ

/-- the aircraft model, built with the name of the flight phase (phases.py:612) -/
abbrev Craft (m : ℕ) := String → AcIn m → AcOut m

/-! ### GroundRollPhase -/

/-- phases.py:584-602: the values of `flight_phase` a ground roll knows -/
inductive Seg
  | v0v1
  | v1vr
  | v1v0
  deriving DecidableEq

/-- phases.py:585, 590, 596; with any other string `zero_start` stays unbound and `setup` raises (`none`) -/
def seg (s : String) : Option Seg :=
  if s = "v0v1" then some .v0v1 else if s = "v1vr" then some .v1vr else if s = "v1v0" then some .v1v0 else none

/-- the name of the flight phase -/
def Seg.name : Seg → String
  | .v0v1 => "v0v1"
  | .v1vr => "v1vr"
  | .v1v0 => "v1v0"

/-- phases.py:586, 591, 597: rolling or braking friction coefficient -/
noncomputable def Seg.braking : Seg → ℝ
  | .v0v1 => 0.03
  | .v1vr => 0.03
  | .v1v0 => 0.4
/-- phases.py:587, 592, 598 -/
def Seg.active : Seg → ℝ
  | .v0v1 => 1
  | .v1vr => 0
  | .v1v0 => 0
/-- phases.py:588, 593, 599 -/
def Seg.throttle : Seg → ℝ
  | .v0v1 => 1
  | .v1vr => 1
  | .v1v0 => 0

/-- phases.py:582 -/
def zeroSpeed : ℝ := 2
/-- phases.py:578 -/
noncomputable def clGround : ℝ := 0.1

/-- A `GroundRollPhase` with `m + 1` nodes: its inputs (`h` and the temperature increment `inc` have default 0) and the
values of its states and of the variables computed from them. -/
structure Ground (m : ℕ) where
  h : Fin (m + 1) → ℝ
  inc : Fin (m + 1) → ℝ
  duration : ℝ
  utrueInitial : ℝ
  rangeInitial : ℝ
  utrue : Fin (m + 1) → ℝ
  cond : Fin (m + 1) → FltCond
  out : AcOut m

variable {m : ℕ}

/-- phases.py:578, 584-599, 610-615: what the aircraft model sees -/
noncomputable def Ground.acIn (s : Seg) (g : Ground m) : AcIn m where
  throttle _ := s.throttle
  active _ := s.active
  cl _ := clGround
  cond := g.cond
  duration := g.duration

/-- phases.py:581, 608: `Groundspeeds` with zero vertical speed -/
def Ground.gsIn (g : Ground m) (a : Fin (m + 1)) : GsIn := ⟨0, g.utrue a⟩

/-- phases.py:617, 633-635: inputs of `HorizontalAcceleration` -/
noncomputable def Ground.accelIn (d : Design) (s : Seg) (g : Ground m) (a : Fin (m + 1)) : AccelIn where
  weight := g.out.weight a
  drag := g.out.drag a
  lift := Phases.lift clGround (g.cond a).q d.sref
  thrust := g.out.thrust a
  singamma := singamma (g.gsIn a)
  cosgamma := cosgamma (g.gsIn a)
  braking := s.braking

/-- `accel_horiz` -/
noncomputable def Ground.accel (d : Design) (s : Seg) (g : Ground m) (a : Fin (m + 1)) : ℝ := accelHoriz (g.accelIn d s a)

/-- phases.py:589, 594, 600, 733-736: the range starts at zero in `v0v1`, at `range_initial` otherwise -/
def Ground.range0 (s : Seg) (g : Ground m) : ℝ := match s with
  | .v0v1 => 0
  | .v1vr => g.rangeInitial
  | .v1v0 => g.rangeInitial

/-- phases.py:733-736 -/
noncomputable def Ground.range (M : Matrix (Fin (m + 1)) (Fin (m + 1)) ℝ) (s : Seg) (g : Ground m) : Fin (m + 1) → ℝ :=
  integratorCompute M (g.range0 s) (.duration g.duration) fun a => groundspeed (g.gsIn a)

/-- phases.py:636-698: the velocity history: backward shooting in `v1v0`, forward otherwise -/
noncomputable def Ground.speeds (d : Design) (M : Matrix (Fin (m + 1)) (Fin (m + 1)) ℝ) (s : Seg) (g : Ground m) :
    Fin (m + 1) → ℝ := match s with
  | .v0v1 => integratorCompute M g.utrueInitial (.duration g.duration) (g.accel d .v0v1)
  | .v1vr => integratorCompute M g.utrueInitial (.duration g.duration) (g.accel d .v1vr)
  | .v1v0 => brakingVelocity M zeroSpeed g.duration (g.accel d .v1v0)

/-- phases.py:700 (`zero_speed` → `fltcond|Utrue_initial` in `v0v1`), profiles.py:76 (`takeoff|v1` in `v1vr`),
phases.py:651-658 (an output of the backward shooting in `v1v0`) -/
noncomputable def Ground.start (d : Design) (M : Matrix (Fin (m + 1)) (Fin (m + 1)) ℝ) (v1 : ℝ) (s : Seg) (g : Ground m) : ℝ :=
  match s with
  | .v0v1 => zeroSpeed
  | .v1vr => v1
  | .v1v0 => brakingInitial M zeroSpeed g.duration (g.accel d .v1v0)

/-- phases.py:668-682, 701-715, 717-731: residual of the balance that determines `duration` -/
noncomputable def Ground.balance (d : Design) (v1 : ℝ) (s : Seg) (g : Ground m) : ℝ := match s with
  | .v0v1 => v1 - g.utrue (Fin.last m)
  | .v1vr => d.vr - g.utrue (Fin.last m)
  | .v1v0 => v1 - g.utrueInitial

/-- a converged ground roll -/
structure Ground.Converged (ac : Craft m) (d : Design) (M : Matrix (Fin (m + 1)) (Fin (m + 1)) ℝ) (v1 : ℝ) (s : Seg)
    (g : Ground m) : Prop where
  /-- phases.py:602-607 -/
  atmos : ∀ a, atmosTas (g.h a) (g.inc a) (g.utrue a) = some (g.cond a)
  /-- phases.py:610-615 -/
  craft : g.out = ac s.name (g.acIn s)
  start : g.utrueInitial = g.start d M v1 s
  speed : g.utrue = g.speeds d M s
  balance : g.balance d v1 s = 0

/-! ### RobustRotationPhase -/

/-- 35 ft in m (phases.py:814, 1372) -/
noncomputable def hObs : ℝ := 35 * 0.3048

/-- A `RobustRotationPhase`.  Nothing in the mission is connected to `h_initial`. -/
structure Simple (m : ℕ) where
  hInitial : ℝ
  inc : Fin (m + 1) → ℝ
  rangeInitial : ℝ
  cond : Fin (m + 1) → FltCond
  out : AcOut m
  gamma : Fin (m + 1) → ℝ

/-- phases.py:1374-1380 -/
noncomputable def Simple.h (r : Simple m) (a : Fin (m + 1)) : ℝ := linspace r.hInitial hObs (m + 1) a
/-- phases.py:1404-1409 (interpolated in knots; the conversion is linear) -/
noncomputable def Simple.ueas (d : Design) (a : Fin (m + 1)) : ℝ := linspace d.vr d.v2 (m + 1) a
/-- phases.py:1370, 1417-1422 -/
noncomputable def Simple.cl (d : Design) (r : Simple m) (a : Fin (m + 1)) : ℝ :=
  steadyCL ⟨r.out.weight a, (r.cond a).q, d.sref, 1⟩
/-- phases.py:1436-1457: transition from the first node, climb at the last node, and the time they take -/
noncomputable def Simple.rotation (r : Simple m) : RotationIn where
  optionHObstacle := 10.66
  rangeInitial := r.rangeInitial
  utrue0 := (r.cond 0).utrue
  gamma0 := r.gamma 0
  utrueN := (r.cond (Fin.last m)).utrue
  gammaN := r.gamma (Fin.last m)
/-- phases.py:1358-1361, 1424-1429 -/
noncomputable def Simple.acIn (d : Design) (r : Simple m) : AcIn m where
  throttle _ := 1
  active _ := 0
  cl := r.cl d
  cond := r.cond
  duration := rotationDuration r.rotation
/-- phases.py:1464-1469 -/
noncomputable def Simple.range (r : Simple m) (a : Fin (m + 1)) : ℝ :=
  linspace r.rangeInitial (rotationRangeFinal r.rotation) (m + 1) a

/-- an evaluated (converged) simplified rotation -/
structure Simple.Converged (ac : Craft m) (d : Design) (r : Simple m) : Prop where
  /-- phases.py:1410-1415 -/
  atmos : ∀ a, atmosEas (r.h a) (r.inc a) (Simple.ueas d a) = some (r.cond a)
  craft : r.out = ac "rotate" (r.acIn d)
  /-- phases.py:1430-1435 -/
  angle : ∀ a, climbAngle ⟨r.out.drag a, r.out.weight a, r.out.thrust a⟩ = some (r.gamma a)

/-! ### RotationPhase -/

/-- A `RotationPhase` -/
structure Ode (m : ℕ) where
  inc : Fin (m + 1) → ℝ
  duration : ℝ
  utrueInitial : ℝ
  rangeInitial : ℝ
  utrue : Fin (m + 1) → ℝ
  vs : Fin (m + 1) → ℝ
  h : Fin (m + 1) → ℝ
  cond : Fin (m + 1) → FltCond
  out : AcOut m

/-- phases.py:813, 828-835 -/
noncomputable def Ode.cl (d : Design) : ℝ := 0.83 * d.clmax

/-- phases.py:815-819, 836-841 -/
noncomputable def Ode.acIn (d : Design) (r : Ode m) : AcIn m where
  throttle _ := 1
  active _ := 0
  cl _ := Ode.cl d
  cond := r.cond
  duration := r.duration

/-- phases.py:827 -/
def Ode.gsIn (r : Ode m) (a : Fin (m + 1)) : GsIn := ⟨r.vs a, r.utrue a⟩

/-- phases.py:843-847: inputs of the two accelerations -/
noncomputable def Ode.accelIn (d : Design) (r : Ode m) (a : Fin (m + 1)) : AccelIn where
  weight := r.out.weight a
  drag := r.out.drag a
  lift := Phases.lift (Ode.cl d) (r.cond a).q d.sref
  thrust := r.out.thrust a
  singamma := singamma (r.gsIn a)
  cosgamma := cosgamma (r.gsIn a)
  braking := 0

/-- phases.py:872-878 -/
noncomputable def Ode.range (M : Matrix (Fin (m + 1)) (Fin (m + 1)) ℝ) (r : Ode m) : Fin (m + 1) → ℝ :=
  integratorCompute M r.rangeInitial (.duration r.duration) fun a => groundspeed (r.gsIn a)

/-- a converged rotation -/
structure Ode.Converged (ac : Craft m) (d : Design) (M : Matrix (Fin (m + 1)) (Fin (m + 1)) ℝ) (r : Ode m) : Prop where
  /-- phases.py:821-826 -/
  atmos : ∀ a, atmosTas (r.h a) (r.inc a) (r.utrue a) = some (r.cond a)
  craft : r.out = ac "rotate" (r.acIn d)
  /-- phases.py:865-871 -/
  speed : r.utrue = integratorCompute M r.utrueInitial (.duration r.duration) fun a => accelHoriz (r.accelIn d a)
  /-- phases.py:879-885 -/
  climb : r.vs = integratorCompute M 0 (.duration r.duration) fun a => accelVert (r.accelIn d a)
  /-- phases.py:886-892 -/
  height : r.h = integratorCompute M 0 (.duration r.duration) r.vs
  /-- phases.py:850-864 -/
  balance : hObs - r.h (Fin.last m) = 0

/-! ### ClimbAnglePhase -/

/-- A `ClimbAnglePhase` with one node (profiles.py:103-107) -/
structure Climbout where
  inc : ℝ
  cond : FltCond
  out : AcOut 0
  gamma : ℝ

/-- phases.py:1091, 1120-1125 -/
noncomputable def Climbout.cl (d : Design) (r : Climbout) : ℝ := steadyCL ⟨d.mtow, r.cond.q, d.sref, 1⟩

/-- phases.py:1093-1099, 1128-1133; `duration` is not an input of this phase -/
noncomputable def Climbout.acIn (d : Design) (allEngines : Bool) (duration : ℝ) (r : Climbout) : AcIn 0 where
  throttle _ := 1
  active _ := if allEngines then 1 else 0
  cl _ := r.cl d
  cond _ := r.cond
  duration := duration

/-- an evaluated climb angle phase -/
structure Climbout.Converged (ac : Craft 0) (d : Design) (allEngines : Bool) (duration : ℝ) (r : Climbout) : Prop where
  /-- phases.py:1090, 1114-1119, 1126: at sea level, at `takeoff|v2` as equivalent airspeed -/
  atmos : atmosEas 0 r.inc d.v2 = some r.cond
  craft : r.out = ac (if allEngines then "AllEngineClimbAngle" else "EngineOutClimbAngle") (r.acIn d allEngines duration)
  /-- phases.py:1134-1139: the angle is that of the maximum take-off weight -/
  angle : climbAngle ⟨r.out.drag 0, d.mtow, r.out.thrust 0⟩ = some r.gamma

/-! ### the balanced field length take-off -/

/-- profiles.py:78-92: the option `transition_method` -/
inductive Rotation (m : ℕ)
  | simplified (r : Simple m)
  | ode (r : Ode m)

/-- `range_initial` of the rotation -/
def Rotation.rangeInitial : Rotation m → ℝ
  | .simplified r => r.rangeInitial
  | .ode r => r.rangeInitial

/-- `range_final` of the rotation -/
noncomputable def Rotation.rangeFinal (M : Matrix (Fin (m + 1)) (Fin (m + 1)) ℝ) : Rotation m → ℝ
  | .simplified r => rotationRangeFinal r.rotation
  | .ode r => r.range M (Fin.last m)

/-- profiles.py:78-90: the rotation has converged; the ODE starts with the last speed of `v1vr` (`v`) -/
def Rotation.Converged (ac : Craft m) (d : Design) (M : Matrix (Fin (m + 1)) (Fin (m + 1)) ℝ) (v : ℝ) : Rotation m → Prop
  | .simplified r => r.Converged ac d
  | .ode r => r.Converged ac d M ∧ r.utrueInitial = v

/-- The phases of the take-off and the decision speed -/
structure Takeoff (m : ℕ) where
  v1 : ℝ
  v0v1 : Ground m
  v1vr : Ground m
  v1v0 : Ground m
  rotate : Rotation m

/-- profiles.py:94: `bfl.distance_continue` -/
noncomputable def Takeoff.continueDist (M : Matrix (Fin (m + 1)) (Fin (m + 1)) ℝ) (t : Takeoff m) : ℝ := t.rotate.rangeFinal M
/-- profiles.py:102: `bfl.distance_abort` -/
noncomputable def Takeoff.abortDist (M : Matrix (Fin (m + 1)) (Fin (m + 1)) ℝ) (t : Takeoff m) : ℝ :=
  t.v1v0.range M .v1v0 (Fin.last m)

/-- profiles.py:65-102: all phases and the solver for V1 have converged, and the connections hold -/
structure Takeoff.Converged (ac : Craft m) (d : Design) (M : Matrix (Fin (m + 1)) (Fin (m + 1)) ℝ) (t : Takeoff m) : Prop where
  v0v1 : t.v0v1.Converged ac d M t.v1 .v0v1
  v1vr : t.v1vr.Converged ac d M t.v1 .v1vr
  v1v0 : t.v1v0.Converged ac d M t.v1 .v1v0
  rotate : t.rotate.Converged ac d M (t.v1vr.utrue (Fin.last m))
  /-- profiles.py:77 -/
  rangeVr : t.v1vr.rangeInitial = t.v0v1.range M .v0v1 (Fin.last m)
  /-- profiles.py:93 -/
  rangeRotate : t.rotate.rangeInitial = t.v1vr.range M .v1vr (Fin.last m)
  /-- profiles.py:101 -/
  rangeStop : t.v1v0.rangeInitial = t.v0v1.range M .v0v1 (Fin.last m)
  /-- profiles.py:65, 94-95, 102 -/
  bfl : bflResidual ⟨t.continueDist M, t.abortDist M, d.vr, t.v1⟩ = 0

end Verif.Bfl
