import Verif.Model.WiringSystems
import Verif.Model.AddIntegrand
import Verif.Model.Takeoff

/-!
The flight phases of `openconcept/mission/phases.py` as groups: subsystems, promotions and connections as written.

A phase is seen over its `m + 1` nodes.  Most components act node by node and are those of C110/C111; integrators, interpolators,
reversed vectors and the aircraft model relate several nodes.  The aircraft model is an arbitrary function with the interface that
the phases document.  The outputs of `IndepVarComp` have the values they are created with (a user may overwrite them).
-/

namespace Verif.Wiring

open Verif.Units Verif.VectorComps
open Verif.Bfl (Craft Seg AcIn AcOut)

/-- a group over `m + 1` nodes: its subsystems at one node, and the relations between the nodes of some of them -/
structure Phase (m : ℕ) where
  grp : Grp
  coupled : List (String × ((String → Fin (m + 1) → ℝ) → Prop))

variable {m : ℕ}

/-- the variables of the subsystem `s` over the nodes -/
noncomputable def Grp.seen (g : Grp) (E : String → Fin (m + 1) → ℝ) (s x : String) (a : Fin (m + 1)) : ℝ :=
  g.view (fun n => E n a) s x

/-- a converged state over all nodes -/
structure Phase.Rel (p : Phase m) (o : Opts) (E : String → Fin (m + 1) → ℝ) : Prop where
  /-- a scalar has the same value at all nodes -/
  scalar : ∀ v ∈ p.grp.ins ++ p.grp.outs, v.vec = false → ∀ a, E v.name a = E v.name 0
  /-- the subsystems are converged at every node -/
  node : ∀ a, p.grp.rel o fun n => E n a
  /-- and those that relate several nodes -/
  over : ∀ c ∈ p.coupled, c.2 (p.grp.seen E c.1)

/-! ### components -/

/-- `IndepVarComp` whose outputs have the values they are created with: (name, unit, vector, value) -/
noncomputable def consts (l : List (String × String × Bool × ℝ)) : Sys where
  ins := []
  outs := l.map fun c => ⟨c.1, c.2.1, c.2.2.1, true⟩
  rel _ e := ∀ c ∈ l, e c.1 = c.2.2.2

/-- `BalanceComp` with one scalar balance -/
noncomputable def balance1 (state unit lhs rhs eqUnits : String) : Sys where
  ins := [⟨lhs, eqUnits, false, true⟩, ⟨rhs, eqUnits, false, true⟩]
  outs := [⟨state, unit, false, true⟩]
  rel _ e := Propulsion.balanceResidual (e lhs) (e rhs) = 0

/-- options of the integrators of the phases; any number of nodes other than one shows which variables are vectors -/
def integOpts : AddIntegrand.Opts := ⟨3, some "s", "duration"⟩

/-- arguments of a call of `add_integrand` -/
def integrand (name rate units : String) (start final : Option String := none) (zeroStart : Bool := false) :
    AddIntegrand.Args Unit :=
  ⟨name, some rate, start, final, some units, none, zeroStart, false, (), ()⟩

def ofSize (v : AddIntegrand.Var) : Var := ⟨v.name, v.units.getD "", v.size != 1, true⟩

/-- `Integrator(method="simpson", diff_units="s", time_setup="duration")` after some calls of `add_integrand`, with the variables
that the model of C08 registers -/
def integ (l : List (AddIntegrand.Args Unit)) : Sys :=
  match AddIntegrand.addAll integOpts ⟨[], [], []⟩ l, AddIntegrand.timeInputs integOpts with
  | .ok c, .ok t => opaque_ ((t ++ c.inputs).map ofSize) (c.outputs.map ofSize)
  | _, _ => opaque_ [] []

/-- integrals.py:742-785 `Integrator.compute` -/
def integRel (l : List (AddIntegrand.Args Unit)) (T : String → Fin (m + 1) → ℝ) : Prop :=
  ∀ a ∈ l, let e := AddIntegrand.entry integOpts a
    let q0 := if e.zeroStart then 0 else T e.startName 0
    T e.name = Integrals.integratorCompute (Integrals.simpsonTri m) q0 (.duration (T "duration" 0)) (T e.rateName) ∧
    ∀ i, T e.endName i = Integrals.integratorFinal (Integrals.simpsonTri m) q0 (.duration (T "duration" 0)) (T e.rateName)

/-- phases.py:94-98 `FlipVectorComp` -/
def flipVector (units : String) : Sys := opaque_ [⟨"vec_in", units, true, true⟩] [⟨"vec_out", units, true, true⟩]

/-- phases.py:112-118 -/
def flipRel (negative : Bool) (T : String → Fin (m + 1) → ℝ) : Prop := T "vec_out" = Phases.flip negative (T "vec_in")

/-- utilities/linearinterp.py:36-39 `LinearInterpolator` -/
def interp (units : String) : Sys :=
  opaque_ [⟨"start_val", units, false, true⟩, ⟨"end_val", units, false, true⟩] [⟨"vec", units, true, true⟩]

/-- utilities/linearinterp.py:45-47 -/
def interpRel (T : String → Fin (m + 1) → ℝ) : Prop :=
  ∀ a, T "vec" a = Aero.linspace (T "start_val" 0) (T "end_val" 0) (m + 1) a

/-- interface of the aircraft model (phases.py:513-570); the flight condition with speed of sound and Mach number, and the duration
which its own integrators need -/
def aircraft : Sys :=
  opaque_ [⟨"throttle", "", true, true⟩, ⟨"propulsor_active", "", true, true⟩, ⟨"fltcond|CL", "", true, true⟩,
     ⟨"fltcond|p", "Pa", true, true⟩, ⟨"fltcond|T", "K", true, true⟩, ⟨"fltcond|rho", "kg/m**3", true, true⟩,
     ⟨"fltcond|a", "m/s", true, true⟩, ⟨"fltcond|Ueas", "m/s", true, true⟩, ⟨"fltcond|Utrue", "m/s", true, true⟩,
     ⟨"fltcond|q", "Pa", true, true⟩, ⟨"fltcond|M", "", true, true⟩, ⟨"duration", "s", false, true⟩]
    [⟨"thrust", "N", true, true⟩, ⟨"drag", "N", true, true⟩, ⟨"weight", "kg", true, true⟩]

/-- what an aircraft model is given -/
def acOf (T : String → Fin (m + 1) → ℝ) : AcIn m where
  throttle := T "throttle"
  active := T "propulsor_active"
  cl := T "fltcond|CL"
  cond a := ⟨T "fltcond|p" a, T "fltcond|T" a, T "fltcond|rho" a, T "fltcond|a" a, T "fltcond|Ueas" a, T "fltcond|Utrue" a,
    T "fltcond|q" a, T "fltcond|M" a⟩
  duration := T "duration" 0

/-- the aircraft model `ac` built for the flight phase `name` -/
def aircraftRel (ac : Craft m) (name : String) (T : String → Fin (m + 1) → ℝ) : Prop :=
  (⟨T "thrust", T "drag", T "weight"⟩ : AcOut m) = ac name (acOf T)

/-- the product of a stall speed and a multiple, phases.py:624-631, 1106-1113, 1388-1403 -/
noncomputable def speedMultiple (out mult : String) : Sys :=
  product ⟨out, ["Vstall_eas", mult], .all 1, 1, 1, none, some [some "m/s", none]⟩ fun _ => false

/-- `StallSpeed` with its inputs promoted as in phases.py:618-623, 1100-1105, 1382-1387 -/
noncomputable def stall : Sub := ⟨"stall", explicit dStallSpeed,
  .only [("CLmax", "ac|aero|CLmax_TO"), ("weight", "ac|weights|MTOW"), ("ac|geom|wing|S_ref", "ac|geom|wing|S_ref")], .all⟩

/-! ### GroundRollPhase -/

/-- phases.py:584-602 -/
noncomputable def groundSettings : Seg → List (String × String × Bool × ℝ)
  | .v0v1 => [("braking", "", true, 0.03), ("propulsor_active", "", true, 1), ("throttle", "", true, 1)]
  | .v1vr => [("braking", "", true, 0.03), ("propulsor_active", "", true, 0), ("throttle", "", true, 1)]
  | .v1v0 => [("braking", "", true, 0.4), ("propulsor_active", "", true, 0), ("throttle", "", true, 0)]

/-- phases.py:575-582 -/
noncomputable def groundConsts : List (String × String × Bool × ℝ) :=
  [("fltcond|CL", "", true, 0.1), ("vr_vstall_mult", "", false, 1.1), ("fltcond|h", "m", true, 0),
   ("fltcond|vs", "m/s", true, 0), ("zero_speed", "m/s", false, 2)]

/-- phases.py:651-658, 690-697, 733-736: the integrands -/
def groundIntegrands : Seg → List (AddIntegrand.Args Unit)
  | .v0v1 => [integrand "fltcond|Utrue" "accel_horiz" "m/s" (some "fltcond|Utrue_initial") (some "fltcond|Utrue_final"),
      integrand "range" "fltcond|groundspeed" "m" none none true]
  | .v1vr => [integrand "fltcond|Utrue" "accel_horiz" "m/s" (some "fltcond|Utrue_initial") (some "fltcond|Utrue_final"),
      integrand "range" "fltcond|groundspeed" "m"]
  | .v1v0 => [integrand "vel_q" "vel_dqdt" "m/s" (some "zero_speed") (some "fltcond|Utrue_initial"),
      integrand "range" "fltcond|groundspeed" "m"]

/-- phases.py:573-736 `GroundRollPhase.setup` -/
noncomputable def groundGrp (s : Seg) : Grp where
  subs :=
    [⟨"const_settings", consts (groundConsts ++ groundSettings s), .only [], .all⟩,
     ⟨"atmos", (atmosphere true).sys, .all, .all⟩,
     ⟨"gs", explicit dGroundspeeds, .all, .all⟩,
     ⟨"acmodel", aircraft, .all, .all⟩,
     ⟨"lift", explicit dLift, .all, .all⟩,
     stall,
     ⟨"vrspeed", speedMultiple "takeoff|vr" "vr_vstall_mult", .all, .all⟩,
     ⟨"haccel", explicit dHorizontalAcceleration, .all, .all⟩] ++
    match s with
    | .v1v0 => [⟨"flipaccel", flipVector "m/s**2", .only [("vec_in", "accel_horiz")], .only []⟩,
        ⟨"ode_integ_phase", integ (groundIntegrands .v1v0), .all, .all⟩,
        ⟨"flipvel", flipVector "m/s", .only [], .only [("vec_out", "fltcond|Utrue")]⟩,
        ⟨"v0constraint", balance1 "duration" "s" "takeoff|v1" "fltcond|Utrue_initial" "m/s", .all, names ["duration"]⟩]
    | .v0v1 => [⟨"ode_integ_phase", integ (groundIntegrands .v0v1), .all, .all⟩,
        ⟨"v1constraint", balance1 "duration" "s" "takeoff|v1" "fltcond|Utrue_final" "m/s", .all, names ["duration"]⟩]
    | .v1vr => [⟨"ode_integ_phase", integ (groundIntegrands .v1vr), .all, .all⟩,
        ⟨"vrconstraint", balance1 "duration" "s" "takeoff|vr" "fltcond|Utrue_final" "m/s", .all, names ["duration"]⟩]
  conns := match s with
    | .v0v1 => [("zero_speed", "fltcond|Utrue_initial")]
    | .v1vr => []
    | .v1v0 => [("flipaccel.vec_out", "vel_dqdt"), ("vel_q", "flipvel.vec_in")]

/-- `GroundRollPhase` -/
noncomputable def ground (ac : Craft m) (s : Seg) : Phase m where
  grp := groundGrp s
  coupled := [("acmodel", aircraftRel ac s.name), ("ode_integ_phase", integRel (groundIntegrands s))] ++
    match s with
    | .v1v0 => [("flipaccel", flipRel true), ("flipvel", flipRel false)]
    | .v0v1 => []
    | .v1vr => []

/-! ### RotationPhase -/

/-- phases.py:810-892 `RotationPhase.setup` with `flight_phase="rotate"` -/
noncomputable def rotationGrp : Grp where
  subs :=
    [⟨"const_settings", consts [("CL_rotate_mult", "", true, 0.83), ("h_obs", "ft", false, 35), ("braking", "", true, 0),
        ("propulsor_active", "", true, 0), ("throttle", "", true, 1)], .only [], .all⟩,
     ⟨"atmos", (atmosphere true).sys, .all, .all⟩,
     ⟨"gs", explicit dGroundspeeds, .all, .all⟩,
     ⟨"clcomp", product ⟨"fltcond|CL", ["CL_rotate_mult", "ac|aero|CLmax_TO"], .all 1, 1, 1, none, none⟩
        (fun n => n != "ac|aero|CLmax_TO"), .all, .all⟩,
     ⟨"acmodel", aircraft, .all, .all⟩,
     ⟨"lift", explicit dLift, .all, .all⟩,
     ⟨"haccel", explicit dHorizontalAcceleration, .all, .all⟩,
     ⟨"vaccel", explicit dVerticalAcceleration, .all, .all⟩,
     ⟨"clear_obstacle", balance1 "duration" "s" "h_obs" "fltcond|h_final" "m", .all, names ["duration"]⟩,
     ⟨"intvelocity", integ [integrand "fltcond|Utrue" "accel_horiz" "m/s"], .all, .all⟩,
     ⟨"intrange", integ [integrand "range" "fltcond|groundspeed" "m"], .all, .all⟩,
     ⟨"intvs", integ [integrand "fltcond|vs" "accel_vert" "m/s" none none true], .all, .all⟩,
     ⟨"inth", integ [integrand "fltcond|h" "fltcond|vs" "m" none none true], .all, .all⟩]

/-- `RotationPhase` -/
noncomputable def rotation (ac : Craft m) : Phase m where
  grp := rotationGrp
  coupled := [("acmodel", aircraftRel ac "rotate"), ("intvelocity", integRel [integrand "fltcond|Utrue" "accel_horiz" "m/s"]),
    ("intrange", integRel [integrand "range" "fltcond|groundspeed" "m"]),
    ("intvs", integRel [integrand "fltcond|vs" "accel_vert" "m/s" none none true]),
    ("inth", integRel [integrand "fltcond|h" "fltcond|vs" "m" none none true])]

/-! ### RobustRotationPhase -/

/-- `TakeoffTransition` and `TakeoffClimb` read one entry of the vectors they are promoted to (`src_indices`): the variables are
vectors here and the entry is taken in `transitionRel`, `climbRel` -/
def transition : Sys :=
  opaque_ [⟨"fltcond|Utrue", "m/s", true, true⟩, ⟨"gamma", "rad", true, true⟩]
    [⟨"s_transition", "m", false, true⟩, ⟨"h_transition", "m", false, true⟩, ⟨"t_transition", "s", false, true⟩]

/-- phases.py:1175-1176, 1186-1201, 1436-1439: the first node -/
def transitionRel (T : String → Fin (m + 1) → ℝ) : Prop :=
  let i : Phases.TransIn := ⟨10.66, 1.2, T "fltcond|Utrue" 0, T "gamma" 0⟩
  ∀ a, T "s_transition" a = Phases.sTrans i ∧ T "h_transition" a = Phases.hTrans i ∧ T "t_transition" a = Phases.tTrans i

def climbTo : Sys :=
  opaque_ [⟨"h_transition", "m", false, true⟩, ⟨"gamma", "rad", true, true⟩, ⟨"fltcond|Utrue", "m/s", true, true⟩]
    [⟨"s_climb", "m", false, true⟩, ⟨"t_climb", "s", false, true⟩]

/-- phases.py:1257, 1269-1276, 1440-1443: the last node -/
def climbRel (T : String → Fin (m + 1) → ℝ) : Prop :=
  let i : Phases.TClimbIn := ⟨10.66, T "h_transition" 0, T "gamma" (Fin.last m), T "fltcond|Utrue" (Fin.last m)⟩
  ∀ a, T "s_climb" a = Phases.sClimb i ∧ T "t_climb" a = Phases.tClimb i

/-- phases.py:1354-1469 `RobustRotationPhase.setup` with `flight_phase="rotate"` -/
noncomputable def robustGrp : Grp where
  subs :=
    [⟨"const_settings", consts [("braking", "", true, 0), ("propulsor_active", "", true, 0), ("throttle", "", true, 1),
        ("v2_vstall_mult", "", false, 1.2), ("vr_vstall_mult", "", false, 1.1), ("fltcond|vs", "m/s", true, 0),
        ("fltcond|cosgamma", "", true, 1), ("h_obstacle", "ft", false, 35)], .only [], .all⟩,
     ⟨"altitudes", interp "m", .only [("start_val", "h_initial")], .only [("vec", "fltcond|h")]⟩,
     stall,
     ⟨"vrspeed", speedMultiple "takeoff|vr" "vr_vstall_mult", .all, .all⟩,
     ⟨"v2speed", speedMultiple "takeoff|v2" "v2_vstall_mult", .all, .all⟩,
     ⟨"speeds", interp "kn", .only [("start_val", "takeoff|vr"), ("end_val", "takeoff|v2")], .only [("vec", "fltcond|Ueas")]⟩,
     ⟨"atmos", (atmosphere false).sys, .all, .all⟩,
     ⟨"clcomp", explicit dSteadyCL, names ["weight", "fltcond|q", "fltcond|cosgamma", "ac|geom|wing|S_ref"], .all⟩,
     ⟨"acmodel", aircraft, .all, .all⟩,
     ⟨"climbangle", explicit dClimbAngle, names ["drag", "weight", "thrust"], names ["gamma"]⟩,
     ⟨"transition", transition, names ["fltcond|Utrue", "gamma"], names ["h_transition", "s_transition", "t_transition"]⟩,
     ⟨"v2climb", climbTo, names ["h_transition", "fltcond|Utrue", "gamma"], names ["s_climb", "t_climb"]⟩,
     ⟨"tod_final", sums [eqn "range_final" ["range_initial", "s_transition", "s_climb"] "m" false], .all, .all⟩,
     ⟨"duration", sums [eqn "duration" ["t_transition", "t_climb"] "s" false], .all, .all⟩,
     ⟨"h_final", sums [eqn "fltcond|h_final" ["h_obstacle"] "m" false], .all, .all⟩,
     ⟨"ranges", interp "m", .only [("start_val", "range_initial"), ("end_val", "range_final")], .only [("vec", "range")]⟩]
  conns := [("h_obstacle", "altitudes.end_val")]

/-- `RobustRotationPhase` -/
noncomputable def robust (ac : Craft m) : Phase m where
  grp := robustGrp
  coupled := [("altitudes", interpRel), ("speeds", interpRel), ("acmodel", aircraftRel ac "rotate"), ("transition", transitionRel),
    ("v2climb", climbRel), ("ranges", interpRel)]

/-! ### ClimbAnglePhase -/

/-- the group with `num_nodes=1`: vectors have one entry and may be connected to scalars -/
def Grp.single (g : Grp) : Grp where
  subs := g.subs.map fun s => ⟨s.name, ⟨s.sys.ins.map fun v => ⟨v.name, v.unit, false, v.top⟩,
    s.sys.outs.map fun v => ⟨v.name, v.unit, false, v.top⟩, s.sys.rel⟩, s.pin, s.pout⟩
  conns := g.conns
  defaults := g.defaults

/-- phases.py:1086-1139 `ClimbAnglePhase.setup`, `all`: all engines or one engine out -/
noncomputable def climbAngleGrp (all : Bool) : Grp where
  subs :=
    [⟨"const_settings", consts [("v2_vstall_mult", "", false, 1.2), ("fltcond|h", "m", true, 0), ("fltcond|cosgamma", "", true, 1),
        ("propulsor_active", "", true, if all then 1 else 0), ("throttle", "", true, 1)], .only [], .all⟩,
     stall,
     ⟨"vrspeed", speedMultiple "takeoff|v2" "v2_vstall_mult", .all, .all⟩,
     ⟨"atmos", (atmosphere false).sys, .all, .all⟩,
     ⟨"clcomp", explicit dSteadyCL, .only [("weight", "ac|weights|MTOW"), ("fltcond|q", "fltcond|q"),
        ("fltcond|cosgamma", "fltcond|cosgamma"), ("ac|geom|wing|S_ref", "ac|geom|wing|S_ref")], .all⟩,
     ⟨"acmodel", aircraft, .all, .all⟩,
     ⟨"climbangle", explicit dClimbAngle, .only [("drag", "drag"), ("weight", "ac|weights|MTOW"), ("thrust", "thrust")],
        names ["gamma"]⟩]
  conns := [("takeoff|v2", "fltcond|Ueas")]

/-- `ClimbAnglePhase` with `num_nodes=1` (profiles.py:105) -/
noncomputable def climbAngle1 (ac : Craft 0) (all : Bool) : Phase 0 where
  grp := (climbAngleGrp all).single
  coupled := [("acmodel", aircraftRel ac (if all then "AllEngineClimbAngle" else "EngineOutClimbAngle"))]

/-! ### SteadyFlightPhase -/

/-- phases.py:984, 1004 -/
def steadyIntegrands : List (AddIntegrand.Args Unit) :=
  [integrand "fltcond|h" "fltcond|vs" "m", integrand "range" "fltcond|groundspeed" "m"]

/-- phases.py:964-1021 `SteadyFlightPhase.setup`, followed by the subsystem `dt` and the connections `conns` that a mission adds to
it, and by `PhaseGroup.configure` (mission_groups.py:77-100), which connects the duration -/
noncomputable def steadyGrp (dt : List Sub) (conns : List (String × String)) : Grp where
  subs :=
    [⟨"const_settings", consts [("propulsor_active", "", true, 1)], .only [], .all⟩,
     ⟨"ode_integ_phase", integ steadyIntegrands, names ["fltcond|vs", "fltcond|groundspeed"], names ["fltcond|h", "range"]⟩,
     ⟨"atmos", (atmosphere false).sys, .all, .all⟩,
     ⟨"gs", explicit dGroundspeeds, .all, .all⟩,
     ⟨"acmodel", aircraft, .all, .all⟩,
     ⟨"clcomp", explicit dSteadyCL, .all, .all⟩,
     ⟨"lift", explicit dLift, .all, .all⟩,
     ⟨"haccel", explicit dHorizontalAcceleration, .all, .all⟩,
     ⟨"steadyflt", balance "throttle" "" "zero_accel" "accel_horiz" "m/s**2", names ["accel_horiz", "zero_accel"],
        names ["throttle"]⟩] ++ dt
  conns := conns ++ [("duration", "ode_integ_phase.duration")]
  defaults := [("braking", ""), ("fltcond|Ueas", "m/s"), ("fltcond|vs", "m/s"), ("zero_accel", "m/s**2")]

/-- the steady phases of the missions (profiles.py:118-280) -/
inductive Leg
  | climb
  | cruise
  | descent
  | reserveClimb
  | reserveCruise
  | reserveDescent
  | loiter
  deriving DecidableEq

/-- name of the phase, also its flight phase -/
def Leg.name : Leg → String
  | .climb => "climb"
  | .cruise => "cruise"
  | .descent => "descent"
  | .reserveClimb => "reserve_climb"
  | .reserveCruise => "reserve_cruise"
  | .reserveDescent => "reserve_descent"
  | .loiter => "loiter"

/-- profiles.py:125-139, 150-163, 171-187, 197-211, 220-233, 242-256, 275-276: what a mission adds to the phase -/
noncomputable def legGrp : Leg → Grp
  | .climb => steadyGrp [⟨"climbdt", balance1 "duration" "s" "fltcond|h_final" "cruise|h0" "m", .only [], names ["duration"]⟩]
      [("ode_integ_phase.fltcond|h_final", "climbdt.fltcond|h_final")]
  | .cruise => steadyGrp [⟨"cruisedt", balance1 "duration" "s" "range_final" "mission_range" "km", .only [], names ["duration"]⟩] []
  | .descent => steadyGrp [⟨"descentdt", balance1 "duration" "s" "fltcond|h_final" "takeoff|h" "m", .only [], names ["duration"]⟩]
      [("ode_integ_phase.fltcond|h_final", "descentdt.fltcond|h_final")]
  | .reserveClimb =>
      steadyGrp [⟨"reserve_climbdt", balance1 "duration" "s" "fltcond|h_final" "reserve|h0" "m", .only [], names ["duration"]⟩]
      [("ode_integ_phase.fltcond|h_final", "reserve_climbdt.fltcond|h_final")]
  | .reserveCruise =>
      steadyGrp [⟨"reserve_cruisedt", balance1 "duration" "s" "range_final" "reserve_range" "m", .only [], names ["duration"]⟩] []
  | .reserveDescent =>
      steadyGrp [⟨"reserve_descentdt", balance1 "duration" "s" "fltcond|h_final" "takeoff|h" "m", .only [], names ["duration"]⟩]
      [("ode_integ_phase.fltcond|h_final", "reserve_descentdt.fltcond|h_final")]
  | .loiter => steadyGrp [⟨"loiter_dt", label [("duration_in", "duration", false, "s")], .all, .all⟩] []

/-- a steady phase of a mission -/
noncomputable def leg (ac : Craft m) (l : Leg) : Phase m where
  grp := legGrp l
  coupled := [("ode_integ_phase", integRel steadyIntegrands), ("acmodel", aircraftRel ac l.name)]

end Verif.Wiring
