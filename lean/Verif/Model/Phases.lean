import Verif.Model.Constants
import Verif.Model.Integrals
import Verif.Model.Utils
import Mathlib.Analysis.SpecialFunctions.Trigonometric.Inverse
import Mathlib.Analysis.SpecialFunctions.Sqrt
import Mathlib.Analysis.SpecialFunctions.Trigonometric.Basic

/-!
Model of the components of `openconcept/mission/phases.py` and of the duration balances and links
of `openconcept/mission/profiles.py`.  Components that act node by node are modelled at one node
(their declared rows and columns are both `arange(num_nodes)`).
-/

namespace Verif.Phases

/-! ### ClimbAngleComp -/

/-- phases.py:42-44 -/
structure ClimbIn where
  drag : ℝ
  weight : ℝ
  thrust : ℝ

/-- phases.py:50, 53: the argument of `arcsin` -/
noncomputable def ClimbIn.inner (i : ClimbIn) : ℝ := (i.thrust - i.drag) / i.weight / grav

/-- phases.py:49-50 `ClimbAngleComp.compute`; `np.arcsin` is NaN (`none`) outside [-1, 1] -/
noncomputable def climbAngle (i : ClimbIn) : Option ℝ :=
  if -1 ≤ i.inner ∧ i.inner ≤ 1 then some (Real.arcsin i.inner) else none

/-- phases.py:54 -/
noncomputable def ClimbIn.dArcsin (i : ClimbIn) : ℝ := 1 / Real.sqrt (1 - i.inner ^ 2)

/-- phases.py:55 -/
noncomputable def climbDThrust (i : ClimbIn) : ℝ := i.dArcsin / i.weight / grav
/-- phases.py:56 -/
noncomputable def climbDDrag (i : ClimbIn) : ℝ := -i.dArcsin / i.weight / grav
/-- phases.py:57 -/
noncomputable def climbDWeight (i : ClimbIn) : ℝ :=
  -i.dArcsin * (i.thrust - i.drag) / i.weight ^ 2 / grav

/-! ### FlipVectorComp -/

/-- phases.py:99-103, 113-117 -/
def flipScaler (negative : Bool) : ℝ := if negative then -1 else 1

/-- phases.py:112-118 `FlipVectorComp.compute` -/
def flip {n : ℕ} (negative : Bool) (v : Fin n → ℝ) : Fin n → ℝ :=
  fun i => flipScaler negative * v i.rev

/-- phases.py:104-110: the declared partials as triples (row, column, value):
rows `n-1, ..., 0`, columns `0, ..., n-1` -/
def flipCoo (negative : Bool) (n : ℕ) : List (ℕ × ℕ × ℝ) :=
  (List.range n).map fun k => (n - 1 - k, k, flipScaler negative)

/-- the dense matrix of a list of triples -/
def cooEntry (l : List (ℕ × ℕ × ℝ)) (r c : ℕ) : ℝ :=
  (l.map fun e => if e.1 = r ∧ e.2.1 = c then e.2.2 else 0).sum

/-! ### BFLImplicitSolve -/

/-- phases.py:149-152; `v1` is the state -/
structure BflIn where
  distContinue : ℝ
  distAbort : ℝ
  vr : ℝ
  v1 : ℝ

/-- phases.py:156 -/
noncomputable def speedTol : ℝ := 1e-1

/-- phases.py:165-169 (and 187-191), with `disttol = 0` -/
def BflIn.regular (i : BflIn) : Prop :=
  i.vr ≥ i.v1 ∧ i.vr - i.v1 < speedTol ∧ i.distAbort - i.distContinue > 0

open Classical in
/-- phases.py:155-170 `apply_nonlinear` -/
noncomputable def bflResidual (i : BflIn) : ℝ :=
  if i.regular then i.distContinue - i.distAbort
  else if i.vr < i.v1 + speedTol then i.vr - i.v1
  else i.distContinue - i.distAbort

/-- the four partials of the residual -/
structure BflPartials where
  dContinue : ℝ
  dAbort : ℝ
  dVr : ℝ
  dV1 : ℝ

open Classical in
/-- phases.py:172-195 `linearize` -/
noncomputable def bflLinearize (i : BflIn) : BflPartials :=
  if i.regular then ⟨1, -1, 0, 0⟩
  else if i.vr < i.v1 + speedTol then ⟨0, 0, 1, -1⟩
  else ⟨1, -1, 0, 0⟩

/-! ### Groundspeeds -/

/-- phases.py:236-237 -/
structure GsIn where
  vs : ℝ
  utrue : ℝ

/-- phases.py:250, 260 -/
def GsIn.inside (i : GsIn) : ℝ := i.utrue ^ 2 - i.vs ^ 2

open Classical in
/-- phases.py:252, 255: `groundspeed_fixed`, the output `fltcond|groundspeed` -/
noncomputable def groundspeed (i : GsIn) : ℝ :=
  Real.sqrt (if i.inside < 0 then 0.01 else i.inside)

open Classical in
/-- phases.py:256; `np.isnan(sqrt(inside))` is `inside < 0` -/
noncomputable def singamma (i : GsIn) : ℝ := if i.inside < 0 then 1 else i.vs / i.utrue

/-- phases.py:257 -/
noncomputable def cosgamma (i : GsIn) : ℝ := groundspeed i / i.utrue

open Classical in
/-- phases.py:263-265 -/
noncomputable def gsDVs (i : GsIn) : ℝ :=
  if i.inside < 0 then 0 else (1 / 2) / groundspeed i * (-2) * i.vs
open Classical in
/-- phases.py:266-268 -/
noncomputable def gsDU (i : GsIn) : ℝ :=
  if i.inside < 0 then 0 else (1 / 2) / groundspeed i * 2 * i.utrue
open Classical in
/-- phases.py:269 -/
noncomputable def sgDVs (i : GsIn) : ℝ := if i.inside < 0 then 0 else 1 / i.utrue
open Classical in
/-- phases.py:270-272 -/
noncomputable def sgDU (i : GsIn) : ℝ := if i.inside < 0 then 0 else -i.vs / i.utrue ^ 2
/-- phases.py:273 -/
noncomputable def cgDVs (i : GsIn) : ℝ := gsDVs i / i.utrue
/-- phases.py:274-276 -/
noncomputable def cgDU (i : GsIn) : ℝ := (gsDU i * i.utrue - groundspeed i) / i.utrue ^ 2

/-! ### HorizontalAcceleration, VerticalAcceleration -/

/-- phases.py:314-319, 389-394 -/
structure AccelIn where
  weight : ℝ
  drag : ℝ
  lift : ℝ
  thrust : ℝ
  singamma : ℝ
  cosgamma : ℝ
  braking : ℝ

open Classical in
/-- phases.py:332, 343 -/
noncomputable def AccelIn.floor (i : AccelIn) : ℝ :=
  if grav - i.lift / i.weight < 0 then 0 else 1

/-- phases.py:330-339 `HorizontalAcceleration.compute` -/
noncomputable def accelHoriz (i : AccelIn) : ℝ :=
  i.thrust / i.weight - i.drag / i.weight - i.floor * i.braking * (grav - i.lift / i.weight)
    - grav * i.singamma

/-- phases.py:344 -/
noncomputable def ahDThrust (i : AccelIn) : ℝ := 1 / i.weight
/-- phases.py:345 -/
noncomputable def ahDDrag (i : AccelIn) : ℝ := -1 / i.weight
/-- phases.py:346 -/
noncomputable def ahDBraking (i : AccelIn) : ℝ := -i.floor * (grav - i.lift / i.weight)
/-- phases.py:347 -/
noncomputable def ahDLift (i : AccelIn) : ℝ := i.floor * i.braking / i.weight
/-- phases.py:348-350 -/
noncomputable def ahDWeight (i : AccelIn) : ℝ :=
  (i.drag - i.thrust - i.floor * i.braking * i.lift) / i.weight ^ 2
/-- phases.py:326-328 (declared constant) -/
noncomputable def ahDSin (_ : AccelIn) : ℝ := -grav

/-- phases.py:408-410 -/
noncomputable def accelVertRaw (i : AccelIn) : ℝ :=
  (i.lift * i.cosgamma + (i.thrust - i.drag) * i.singamma - grav * i.weight) / i.weight

/-- phases.py:405-412 `VerticalAcceleration.compute`; `np.clip(a, lo, hi) = min(max(a, lo), hi)` -/
noncomputable def accelVert (i : AccelIn) : ℝ := min (max (accelVertRaw i) (-grav)) (2.5 * grav)

/-- phases.py:419 -/
noncomputable def avDThrust (i : AccelIn) : ℝ := i.singamma / i.weight
/-- phases.py:420 -/
noncomputable def avDDrag (i : AccelIn) : ℝ := -i.singamma / i.weight
/-- phases.py:421 -/
noncomputable def avDLift (i : AccelIn) : ℝ := i.cosgamma / i.weight
/-- phases.py:422 -/
noncomputable def avDSin (i : AccelIn) : ℝ := (i.thrust - i.drag) / i.weight
/-- phases.py:423 -/
noncomputable def avDCos (i : AccelIn) : ℝ := i.lift / i.weight
/-- phases.py:424 -/
noncomputable def avDWeight (i : AccelIn) : ℝ :=
  -(i.lift * i.cosgamma + (i.thrust - i.drag) * i.singamma) / i.weight ^ 2

/-! ### SteadyFlightCL -/

/-- phases.py:466-469 -/
structure ClIn where
  weight : ℝ
  q : ℝ
  sref : ℝ
  cosgamma : ℝ

/-- phases.py:474-481 -/
noncomputable def steadyCL (i : ClIn) : ℝ := i.cosgamma * grav * i.weight / i.q / i.sref

/-- phases.py:484-486 -/
noncomputable def clDWeight (i : ClIn) : ℝ := i.cosgamma * grav / i.q / i.sref
/-- phases.py:487-493 -/
noncomputable def clDQ (i : ClIn) : ℝ := -i.cosgamma * grav * i.weight / i.q ^ 2 / i.sref
/-- phases.py:494-500 -/
noncomputable def clDS (i : ClIn) : ℝ := -i.cosgamma * grav * i.weight / i.q / i.sref ^ 2
/-- phases.py:501-503 -/
noncomputable def clDCos (i : ClIn) : ℝ := grav * i.weight / i.q / i.sref

/-- aerodynamics.py:137-138 `Lift.compute` (also used by the phases) -/
noncomputable def lift (cl q sref : ℝ) : ℝ := q * sref * cl

/-! ### TakeoffTransition, TakeoffClimb -/

/-- phases.py:1174-1180: options and inputs of the transition -/
structure TransIn where
  hObstacle : ℝ
  loadFactor : ℝ
  utrue : ℝ
  gamma : ℝ

/-- phases.py:1188, 1192: radius of the arc -/
noncomputable def TransIn.radius (i : TransIn) : ℝ := i.utrue ^ 2 / (i.loadFactor - 1) / grav

/-- phases.py:1194, 1211: height of the full arc -/
noncomputable def TransIn.arcHeight (i : TransIn) : ℝ := i.radius * (1 - Real.cos i.gamma)

open Classical in
/-- phases.py:1193, 1196-1197, 1199 -/
noncomputable def sTrans (i : TransIn) : ℝ :=
  if i.arcHeight > i.hObstacle then Real.sqrt (i.radius ^ 2 - (i.radius - i.hObstacle) ^ 2)
  else i.radius * Real.sin i.gamma

open Classical in
/-- phases.py:1194, 1196-1198, 1200 -/
noncomputable def hTrans (i : TransIn) : ℝ :=
  if i.arcHeight > i.hObstacle then i.hObstacle else i.arcHeight

/-- phases.py:1201 -/
noncomputable def tTrans (i : TransIn) : ℝ := sTrans i / i.utrue

/-- phases.py:1209 -/
noncomputable def TransIn.dRadius (i : TransIn) : ℝ := 2 * i.utrue / (i.loadFactor - 1) / grav

open Classical in
/-- phases.py:1215, 1222, 1225 -/
noncomputable def sTransDU (i : TransIn) : ℝ :=
  if i.arcHeight > i.hObstacle then
    1 / 2 / Real.sqrt (i.radius ^ 2 - (i.radius - i.hObstacle) ^ 2)
      * (2 * i.radius * i.dRadius - 2 * (i.radius - i.hObstacle) * i.dRadius)
  else i.dRadius * Real.sin i.gamma
open Classical in
/-- phases.py:1216, 1223, 1224 -/
noncomputable def sTransDGamma (i : TransIn) : ℝ :=
  if i.arcHeight > i.hObstacle then 0 else i.radius * Real.cos i.gamma
open Classical in
/-- phases.py:1217, 1220, 1227 -/
noncomputable def hTransDU (i : TransIn) : ℝ :=
  if i.arcHeight > i.hObstacle then 0 else i.dRadius * (1 - Real.cos i.gamma)
open Classical in
/-- phases.py:1218, 1221, 1226 -/
noncomputable def hTransDGamma (i : TransIn) : ℝ :=
  if i.arcHeight > i.hObstacle then 0 else i.radius * Real.sin i.gamma
/-- phases.py:1228 -/
noncomputable def tTransDGamma (i : TransIn) : ℝ := sTransDGamma i / i.utrue
/-- phases.py:1210, 1214, 1229 -/
noncomputable def tTransDU (i : TransIn) : ℝ := (sTransDU i * i.utrue - sTrans i) / i.utrue ^ 2

/-- phases.py:1257-1262: option and inputs of the climb -/
structure TClimbIn where
  hObstacle : ℝ
  hTrans : ℝ
  gamma : ℝ
  utrue : ℝ

/-- phases.py:1274-1275 -/
noncomputable def sClimb (i : TClimbIn) : ℝ := (i.hObstacle - i.hTrans) / Real.tan i.gamma
/-- phases.py:1276 -/
noncomputable def tClimb (i : TClimbIn) : ℝ := sClimb i / i.utrue
/-- phases.py:1284 -/
noncomputable def sClimbDGamma (i : TClimbIn) : ℝ :=
  -(i.hObstacle - i.hTrans) / Real.tan i.gamma ^ 2 * (1 / Real.cos i.gamma) ^ 2
/-- phases.py:1285 -/
noncomputable def sClimbDH (i : TClimbIn) : ℝ := -1 / Real.tan i.gamma
/-- phases.py:1286 -/
noncomputable def tClimbDGamma (i : TClimbIn) : ℝ := sClimbDGamma i / i.utrue
/-- phases.py:1287 -/
noncomputable def tClimbDH (i : TClimbIn) : ℝ := sClimbDH i / i.utrue
/-- phases.py:1288 -/
noncomputable def tClimbDU (i : TClimbIn) : ℝ := -sClimb i / i.utrue ^ 2

/-! ### RobustRotationPhase -/

/-- phases.py:1345-1352, 1372, 1436-1463: the parts of the simplified rotation phase that determine the
distance and the height: `optionHObstacle` is the phase's option (not passed on), the components
`TakeoffTransition()` and `TakeoffClimb()` run with their own default 10.66 m, the interpolated
altitudes and the final height use `35 ft = 10.668 m`.  The transition sees the first node's speed and
climb angle, the climb the last node's. -/
structure RotationIn where
  optionHObstacle : ℝ
  rangeInitial : ℝ
  utrue0 : ℝ
  gamma0 : ℝ
  utrueN : ℝ
  gammaN : ℝ

/-- phases.py:1175-1176, 1436-1439 -/
noncomputable def RotationIn.trans (i : RotationIn) : TransIn :=
  { hObstacle := 10.66, loadFactor := 1.2, utrue := i.utrue0, gamma := i.gamma0 }

/-- phases.py:1257, 1440-1443 -/
noncomputable def RotationIn.climb (i : RotationIn) : TClimbIn :=
  { hObstacle := 10.66, hTrans := hTrans i.trans, gamma := i.gammaN, utrue := i.utrueN }

/-- phases.py:1444-1451 -/
noncomputable def rotationRangeFinal (i : RotationIn) : ℝ := i.rangeInitial + sTrans i.trans + sClimb i.climb
/-- phases.py:1452-1457 -/
noncomputable def rotationDuration (i : RotationIn) : ℝ := tTrans i.trans + tClimb i.climb
/-- phases.py:1372, 1458-1463 (35 ft in m) -/
noncomputable def rotationHFinal (_ : RotationIn) : ℝ := 35 * 0.3048

/-! ### v1v0: backward shooting -/

open Integrals in
/-- phases.py:636-666: the velocities of the rejected take-off: the acceleration is reversed and
negated, integrated from `zero_speed`, and the result is reversed. -/
noncomputable def brakingVelocity {m : ℕ} (tri : Matrix (Fin (m + 1)) (Fin (m + 1)) ℝ) (zeroSpeed duration : ℝ)
    (accel : Fin (m + 1) → ℝ) : Fin (m + 1) → ℝ :=
  flip false (integratorCompute tri zeroSpeed (.duration duration) (flip true accel))

open Integrals in
/-- phases.py:651-658: the output `fltcond|Utrue_initial`, the end value of the reversed integration -/
noncomputable def brakingInitial {m : ℕ} (tri : Matrix (Fin (m + 1)) (Fin (m + 1)) ℝ) (zeroSpeed duration : ℝ)
    (accel : Fin (m + 1) → ℝ) : ℝ :=
  integratorFinal tri zeroSpeed (.duration duration) (flip true accel)

/-! ### missions -/

/-- A `SteadyFlightPhase` (phases.py:964-1021) with `m + 1` nodes: the inputs of its integrator and its
profiles of vertical and true air speed.  Everything that only concerns the aircraft model is left out. -/
structure Steady (m : ℕ) where
  duration : ℝ
  hInitial : ℝ
  rangeInitial : ℝ
  vs : Fin (m + 1) → ℝ
  utrue : Fin (m + 1) → ℝ

open Integrals in
/-- phases.py:978-984: altitude history -/
noncomputable def Steady.h {m : ℕ} (p : Steady m) : Fin (m + 1) → ℝ :=
  integratorCompute (simpsonTri m) p.hInitial (.duration p.duration) p.vs

/-- phases.py:991 -/
noncomputable def Steady.gs {m : ℕ} (p : Steady m) (a : Fin (m + 1)) : ℝ := groundspeed ⟨p.vs a, p.utrue a⟩

open Integrals in
/-- phases.py:978-983, 1004: range history -/
noncomputable def Steady.range {m : ℕ} (p : Steady m) : Fin (m + 1) → ℝ :=
  integratorCompute (simpsonTri m) p.rangeInitial (.duration p.duration) p.gs

/-- `fltcond|h_final` -/
noncomputable def Steady.hFinal {m : ℕ} (p : Steady m) : ℝ := p.h (Fin.last m)
/-- `range_final` -/
noncomputable def Steady.rangeFinal {m : ℕ} (p : Steady m) : ℝ := p.range (Fin.last m)

/-- profiles.py:45-56: mission parameters (SI units) -/
structure MissionParams where
  takeoffH : ℝ
  cruiseH0 : ℝ
  missionRange : ℝ
  reserveRange : ℝ
  reserveH0 : ℝ
  loiterH0 : ℝ
  loiterDuration : ℝ

/-- The flight phases of a mission, and the end of the take-off or ground roll that precedes the climb. -/
structure Mission (m : ℕ) where
  prevRangeFinal : ℝ
  prevHFinal : ℝ
  climb : Steady m
  cruise : Steady m
  descent : Steady m
  reserveClimb : Steady m
  reserveCruise : Steady m
  reserveDescent : Steady m
  loiter : Steady m

/-- profiles.py: the four mission classes by their constructor flags; `groundRoll` is the option
`include_ground_roll` of BasicMission -/
structure MissionKind where
  includeTakeoff : Bool
  includeReserve : Bool
  groundRoll : Bool

/-- BasicMission (profiles.py:394-395) -/
def MissionKind.basic (groundRoll : Bool) : MissionKind := ⟨false, false, groundRoll⟩
/-- MissionWithReserve (profiles.py:347-348) -/
def MissionKind.withReserve : MissionKind := ⟨false, true, false⟩

/-- `link_phases` for the two states of SteadyFlightPhases (see C24): final values are connected to
initial values, the altitude unless it is skipped. -/
def linked {m : ℕ} (skipH : Bool) (p q : Steady m) : Prop :=
  q.rangeInitial = p.rangeFinal ∧ (skipH = false → q.hInitial = p.hFinal)

/-- A converged mission: every connection holds and every balance component has residual zero.
An unconnected input is not constrained. -/
structure Converged {m : ℕ} (k : MissionKind) (P : MissionParams) (M : Mission m) : Prop where
  /-- profiles.py:285-287: start of the climb after take-off -/
  climbStartTakeoff : k.includeTakeoff = true →
    M.climb.rangeInitial = M.prevRangeFinal ∧ M.climb.hInitial = M.prevHFinal
  /-- profiles.py:141-142: BasicMission -/
  climbStartBasic : k.includeTakeoff = false → k.includeReserve = false → M.climb.hInitial = P.takeoffH
  /-- profiles.py:288-290 -/
  climbStartGroundRoll : k.includeTakeoff = false → k.includeReserve = false → k.groundRoll = true →
    M.climb.rangeInitial = M.prevRangeFinal
  /-- profiles.py:125-140 -/
  climbBalance : M.climb.hFinal = P.cruiseH0
  /-- profiles.py:291, 292 -/
  linkCruise : linked false M.climb M.cruise
  linkDescent : linked false M.cruise M.descent
  /-- profiles.py:150-164, 185 -/
  cruiseBalance : M.descent.rangeFinal = P.missionRange
  /-- profiles.py:171-187 -/
  descentBalance : M.descent.hFinal = P.takeoffH
  /-- profiles.py:294-297 -/
  linkReserveClimb : k.includeReserve = true → linked true M.descent M.reserveClimb
  linkReserveCruise : k.includeReserve = true → linked false M.reserveClimb M.reserveCruise
  linkReserveDescent : k.includeReserve = true → linked false M.reserveCruise M.reserveDescent
  linkLoiter : k.includeReserve = true → linked true M.reserveDescent M.loiter
  /-- profiles.py:197-212 -/
  reserveClimbBalance : k.includeReserve = true → M.reserveClimb.hFinal = P.reserveH0
  /-- profiles.py:220-234, 259-268 -/
  reserveCruiseBalance : k.includeReserve = true →
    M.reserveDescent.rangeFinal - M.descent.rangeFinal = P.reserveRange
  /-- profiles.py:242-257 -/
  reserveDescentBalance : k.includeReserve = true → M.reserveDescent.hFinal = P.takeoffH
  /-- profiles.py:276-279 -/
  loiterStart : k.includeReserve = true → M.loiter.hInitial = P.loiterH0
  loiterDuration : k.includeReserve = true → 
    M.loiter.duration = Utils.dvLabel [("duration_in", "duration")] (fun _ => P.loiterDuration) (fun _ => 300) "duration"

end Verif.Phases
