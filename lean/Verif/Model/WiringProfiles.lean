import Verif.Model.WiringMission
import Verif.Model.MissionGroups

/-!
The missions of `openconcept/mission/profiles.py` as groups of phases: subsystems, promotions, connections as written, and the
connections that `link_phases` makes (through the model of C24).

The state of a mission is that of its own variables, `E`, and of the variables of every phase, `F`.  A phase is seen through its
inputs and those outputs which a mission uses; `C116_faces` compares these lists with the groups of the phases.  The aircraft model is
an arbitrary function, so the inputs `ac|…` and the integrators of the aircraft model itself are not seen here.
-/

namespace Verif.Wiring

open Verif.Units
open Verif.Bfl (Craft Seg)

variable {m : ℕ}

/-! ### phases seen from a mission -/

def groundFace : Seg → Sys
  | .v0v1 => opaque_ [⟨"fltcond|TempIncrement", "degC", true, true⟩, ⟨"ac|geom|wing|S_ref", "m **2", false, true⟩,
      ⟨"ac|weights|MTOW", "kg", false, true⟩, ⟨"ac|aero|CLmax_TO", "", false, true⟩, ⟨"takeoff|v1", "m/s", false, true⟩]
      [⟨"range_final", "m", false, true⟩]
  | .v1vr => opaque_ [⟨"fltcond|TempIncrement", "degC", true, true⟩, ⟨"ac|geom|wing|S_ref", "m **2", false, true⟩,
      ⟨"ac|weights|MTOW", "kg", false, true⟩, ⟨"ac|aero|CLmax_TO", "", false, true⟩, ⟨"fltcond|Utrue_initial", "m/s", false, true⟩,
      ⟨"range_initial", "m", false, true⟩]
      [⟨"takeoff|vr", "m/s ", false, true⟩, ⟨"fltcond|Utrue_final", "m/s", false, true⟩, ⟨"range_final", "m", false, true⟩]
  | .v1v0 => opaque_ [⟨"fltcond|TempIncrement", "degC", true, true⟩, ⟨"ac|geom|wing|S_ref", "m **2", false, true⟩,
      ⟨"ac|weights|MTOW", "kg", false, true⟩, ⟨"ac|aero|CLmax_TO", "", false, true⟩, ⟨"range_initial", "m", false, true⟩,
      ⟨"takeoff|v1", "m/s", false, true⟩]
      [⟨"range_final", "m", false, true⟩]

/-- the rotation; `ode`: `transition_method="ode"` -/
def rotateFace (ode : Bool) : Sys :=
  if ode then opaque_ [⟨"fltcond|TempIncrement", "degC", true, true⟩, ⟨"ac|aero|CLmax_TO", "", false, true⟩,
      ⟨"ac|geom|wing|S_ref", "m **2", false, true⟩, ⟨"fltcond|Utrue_initial", "m/s", false, true⟩, ⟨"range_initial", "m", false, true⟩]
      [⟨"range_final", "m", false, true⟩, ⟨"fltcond|h_final", "m", false, true⟩]
  else opaque_ [⟨"h_initial", "m", false, true⟩, ⟨"ac|weights|MTOW", "kg", false, true⟩, ⟨"ac|geom|wing|S_ref", "m**2", false, true⟩,
      ⟨"ac|aero|CLmax_TO", "", false, true⟩, ⟨"fltcond|TempIncrement", "degC", true, true⟩, ⟨"range_initial", "m", false, true⟩]
      [⟨"range_final", "m", false, true⟩, ⟨"fltcond|h_final", "m", false, true⟩]

def climbAngleFace : Sys :=
  opaque_ [⟨"ac|weights|MTOW", "kg", false, true⟩, ⟨"ac|geom|wing|S_ref", "m**2", false, true⟩, ⟨"ac|aero|CLmax_TO", "", false, true⟩,
    ⟨"fltcond|TempIncrement", "degC", false, true⟩, ⟨"duration", "s", false, true⟩] [⟨"gamma", "rad", false, true⟩]

/-- inputs of the subsystem that a mission adds to a steady phase -/
def legExtra : Leg → List Var
  | .climb => [⟨"climbdt.cruise|h0", "m", false, false⟩]
  | .cruise => [⟨"cruisedt.range_final", "km", false, false⟩, ⟨"cruisedt.mission_range", "km", false, false⟩]
  | .descent => [⟨"descentdt.takeoff|h", "m", false, false⟩]
  | .reserveClimb => [⟨"reserve_climbdt.reserve|h0", "m", false, false⟩]
  | .reserveCruise =>
      [⟨"reserve_cruisedt.range_final", "m", false, false⟩, ⟨"reserve_cruisedt.reserve_range", "m", false, false⟩]
  | .reserveDescent => [⟨"reserve_descentdt.takeoff|h", "m", false, false⟩]
  | .loiter => [⟨"duration_in", "s", false, true⟩]

def legFace (l : Leg) : Sys :=
  opaque_ ([⟨"fltcond|vs", "m/s", true, true⟩, ⟨"ode_integ_phase.fltcond|h_initial", "m", false, false⟩,
      ⟨"ode_integ_phase.range_initial", "m", false, false⟩, ⟨"fltcond|TempIncrement", "degC", true, true⟩,
      ⟨"fltcond|Ueas", "m/s", true, true⟩, ⟨"ac|geom|wing|S_ref", "m **2", false, true⟩, ⟨"braking", "", true, true⟩,
      ⟨"zero_accel", "m/s**2", true, true⟩] ++ legExtra l)
    [⟨"ode_integ_phase.fltcond|h_final", "m", false, false⟩, ⟨"ode_integ_phase.range_final", "m", false, false⟩]

/-! ### components of the missions -/

/-- profiles.py:45-56, 110: the mission parameters -/
def missionParams (k : Phases.MissionKind) : Sys :=
  indep ([⟨"takeoff|h", "ft", false, true⟩, ⟨"cruise|h0", "ft", false, true⟩, ⟨"mission_range", "NM", false, true⟩,
      ⟨"payload", "lbm", false, true⟩] ++
    (if k.includeReserve then [⟨"reserve_range", "NM", false, true⟩, ⟨"reserve|h0", "ft", false, true⟩, ⟨"loiter|h0", "ft", false, true⟩,
      ⟨"loiter_duration", "s", false, true⟩] else []) ++
    (if !k.includeReserve && !k.includeTakeoff then [⟨"takeoff|v2", "kn", false, true⟩] else []) ++
    (if !k.includeReserve && !k.includeTakeoff && k.groundRoll then [⟨"takeoff|v0", "kn", false, true⟩] else []))

/-- phases.py:148-170 `BFLImplicitSolve` -/
def bflSolve : Sys where
  ins := [⟨"distance_continue", "m", false, true⟩, ⟨"distance_abort", "m", false, true⟩, ⟨"takeoff|vr", "m/s", false, true⟩]
  outs := [⟨"takeoff|v1", "m/s", false, true⟩]
  rel _ e := Phases.bflResidual ⟨e "distance_continue", e "distance_abort", e "takeoff|vr", e "takeoff|v1"⟩ = 0

/-- profiles.py:259-264 -/
def reserveRange : Sys :=
  exec [⟨"rangef", "NM", false, true⟩, ⟨"rangeo", "NM", false, true⟩] ⟨"reserverange", "NM", false, true⟩
    fun e => e "rangef" - e "rangeo"

/-- `promotes_inputs=["ac|*"]` for the inputs that a phase has without the aircraft model -/
def acAll : Promo := names ["ac|geom|wing|S_ref", "ac|weights|MTOW", "ac|aero|CLmax_TO"]

/-- `promotes_inputs=["ac|*", "takeoff|v1"]` -/
def acAllV1 : Promo := names ["ac|geom|wing|S_ref", "ac|weights|MTOW", "ac|aero|CLmax_TO", "takeoff|v1"]

/-- the same for a phase without take-off weight -/
def acRotate : Promo := names ["ac|geom|wing|S_ref", "ac|aero|CLmax_TO"]

/-- and for a steady phase -/
def acLeg : Promo := names ["ac|geom|wing|S_ref"]

def legSub (l : Leg) : Sub := ⟨l.name, legFace l, acLeg, .only []⟩

/-- profiles.py:65-107 -/
def takeoffSubs (ode : Bool) : List Sub :=
  [⟨"bfl", bflSolve, .only [], names ["takeoff|v1"]⟩,
   ⟨"v0v1", groundFace .v0v1, acAllV1, .only []⟩,
   ⟨"v1vr", groundFace .v1vr, acAll, .only []⟩,
   ⟨"rotate", rotateFace ode, if ode then acRotate else acAll, .only []⟩,
   ⟨"v1v0", groundFace .v1v0, acAllV1, .only []⟩,
   ⟨"engineoutclimb", climbAngleFace, acAll, .only []⟩]

/-- profiles.py:74-102 -/
def takeoffConns (ode : Bool) : List (String × String) :=
  [("takeoff|v1", "v1vr.fltcond|Utrue_initial"), ("v0v1.range_final", "v1vr.range_initial")] ++
  (if ode then [("v1vr.fltcond|Utrue_final", "rotate.fltcond|Utrue_initial")] else []) ++
  [("v1vr.range_final", "rotate.range_initial"), ("rotate.range_final", "bfl.distance_continue"), ("v1vr.takeoff|vr", "bfl.takeoff|vr"),
   ("v0v1.range_final", "v1v0.range_initial"), ("v1v0.range_final", "bfl.distance_abort")]

/-- profiles.py:140, 164, 185-186 -/
def flightConns : List (String × String) :=
  [("cruise|h0", "climb.climbdt.cruise|h0"), ("mission_range", "cruise.cruisedt.mission_range"),
   ("descent.ode_integ_phase.range_final", "cruise.cruisedt.range_final"), ("takeoff|h", "descent.descentdt.takeoff|h")]

/-- profiles.py:212, 234, 257, 266-268, 278-279 -/
def reserveConns : List (String × String) :=
  [("reserve|h0", "reserve_climb.reserve_climbdt.reserve|h0"), ("reserve_range", "reserve_cruise.reserve_cruisedt.reserve_range"),
   ("takeoff|h", "reserve_descent.reserve_descentdt.takeoff|h"), ("descent.ode_integ_phase.range_final", "resrange.rangeo"),
   ("reserve_descent.ode_integ_phase.range_final", "resrange.rangef"),
   ("resrange.reserverange", "reserve_cruise.reserve_cruisedt.range_final"),
   ("loiter|h0", "loiter.ode_integ_phase.fltcond|h_initial"), ("loiter_duration", "loiter.duration_in")]

/-! ### linked phases -/

/-- a phase as `link_phases` finds it: its name, group, and integrators with their integrands -/
structure Linkable where
  name : String
  grp : Grp
  integs : List (String × List (AddIntegrand.Args Unit))

/-- mission_groups.py:77-100: `_oc_states_list` -/
def Linkable.phase (p : Linkable) : Mission.Phase :=
  ⟨p.name, p.integs.flatMap fun i => i.2.map fun a => Mission.tupleOf i.1 (AddIntegrand.entry integOpts a)⟩

/-- absolute and promoted names of the outputs of the integrators; a mission promotes no outputs of its phases -/
def Linkable.outs (p : Linkable) : List (String × String) :=
  (p.grp.subs.filter fun s => (p.integs.map Prod.fst).contains s.name).flatMap fun s => s.sys.outs.map fun v =>
    (p.name ++ "." ++ (s.name ++ "." ++ v.name), p.name ++ "." ++ s.pout.name s.name v)

/-- absolute and promoted names of the inputs of the integrators, none of which a mission promotes -/
def Linkable.ins (p : Linkable) : List (String × String) :=
  (p.grp.subs.filter fun s => (p.integs.map Prod.fst).contains s.name).flatMap fun s => s.sys.ins.map fun v =>
    (p.name ++ "." ++ (s.name ++ "." ++ v.name), p.name ++ "." ++ s.pin.name s.name v)

noncomputable def groundLink (name : String) (s : Seg) : Linkable := ⟨name, groundGrp s, [("ode_integ_phase", groundIntegrands s)]⟩

noncomputable def rotateLink (ode : Bool) : Linkable :=
  if ode then ⟨"rotate", rotationGrp, [("intvelocity", [integrand "fltcond|Utrue" "accel_horiz" "m/s"]),
      ("intrange", [integrand "range" "fltcond|groundspeed" "m"]),
      ("intvs", [integrand "fltcond|vs" "accel_vert" "m/s" none none true]),
      ("inth", [integrand "fltcond|h" "fltcond|vs" "m" none none true])]⟩
  else ⟨"rotate", robustGrp, []⟩

noncomputable def legLink (l : Leg) : Linkable := ⟨l.name, legGrp l, [("ode_integ_phase", steadyIntegrands)]⟩

/-- `get_prom_name` -/
def promOf (l : List (String × String)) (n : String) : Option String := l.lookup n

/-- `s.replace(old, "", 1)` for a prefix `old` of `s` -/
def dropPrefix (s old : String) : String := if s.startsWith old then (s.drop old.length).toString else s

/-- profiles.py:281-297: the calls of `link_phases` -/
noncomputable def linkCalls (k : Phases.MissionKind) (ode : Bool) : List (Linkable × Linkable × List String) :=
  (if k.includeTakeoff then
    [(groundLink "v0v1" .v0v1, groundLink "v1vr" .v1vr, ["fltcond|Utrue", "range"]),
     (groundLink "v1vr" .v1vr, rotateLink ode, ["fltcond|Utrue", "range"]),
     (groundLink "v0v1" .v0v1, groundLink "v1v0" .v1v0, ["fltcond|Utrue", "range"]),
     (rotateLink ode, legLink .climb, [])]
   else if !k.includeReserve && k.groundRoll then [(groundLink "groundroll" .v0v1, legLink .climb, ["fltcond|h"])] else []) ++
  [(legLink .climb, legLink .cruise, []), (legLink .cruise, legLink .descent, [])] ++
  if k.includeReserve then
    [(legLink .descent, legLink .reserveClimb, ["ode_integ_phase.fltcond|h"]), (legLink .reserveClimb, legLink .reserveCruise, []),
     (legLink .reserveCruise, legLink .reserveDescent, []), (legLink .reserveDescent, legLink .loiter, ["ode_integ_phase.fltcond|h"])]
  else []

/-- the connections made by these calls -/
noncomputable def linkResult (k : Phases.MissionKind) (ode : Bool) : Except Mission.LErr (List (String × String)) :=
  let ph := (linkCalls k ode).flatMap fun c => [c.1, c.2.1]
  Mission.linkAll id (promOf (ph.flatMap Linkable.outs)) (promOf (ph.flatMap Linkable.ins)) dropPrefix
    ((linkCalls k ode).map fun c => (c.1.phase, c.2.1.phase, c.2.2))

/-- the two states of consecutive steady phases -/
def joined (a b : String) (h : Bool) : List (String × String) :=
  (if h then [(a ++ ".ode_integ_phase.fltcond|h_final", b ++ ".ode_integ_phase.fltcond|h_initial")] else []) ++
  [(a ++ ".ode_integ_phase.range_final", b ++ ".ode_integ_phase.range_initial")]

/-- the result of `linkResult` (`C116_linked`) -/
def linkConns (k : Phases.MissionKind) : List (String × String) :=
  (if !k.includeTakeoff && !k.includeReserve && k.groundRoll then
    [("groundroll.range_final", "climb.ode_integ_phase.range_initial")] else []) ++
  joined "climb" "cruise" true ++ joined "cruise" "descent" true ++
  if k.includeReserve then joined "descent" "reserve_climb" false ++ joined "reserve_climb" "reserve_cruise" true ++
    joined "reserve_cruise" "reserve_descent" true ++ joined "reserve_descent" "loiter" false else []

/-! ### missions -/

/-- profiles.py:41-297 `FullMissionWithReserve.setup` for the mission class `k`; `ode`: `transition_method="ode"` -/
def missionGrp (k : Phases.MissionKind) (ode : Bool) : Grp where
  subs := [⟨"missionparams", missionParams k, .only [], .all⟩] ++
    (if k.includeTakeoff then takeoffSubs ode
     else if !k.includeReserve && k.groundRoll then [⟨"groundroll", groundFace .v0v1, acAll, .only []⟩] else []) ++
    [legSub .climb, legSub .cruise, legSub .descent] ++
    if k.includeReserve then [legSub .reserveClimb, legSub .reserveCruise, legSub .reserveDescent,
      ⟨"resrange", reserveRange, .only [], .only []⟩, legSub .loiter] else []
  conns := (if k.includeTakeoff then takeoffConns ode
      else if !k.includeReserve && k.groundRoll then [("takeoff|v2", "groundroll.takeoff|v1")] else []) ++ flightConns ++
    (if !k.includeReserve && !k.includeTakeoff then [("takeoff|h", "climb.ode_integ_phase.fltcond|h_initial")] else []) ++
    (if k.includeReserve then reserveConns else []) ++
    (if k.includeTakeoff then [("rotate.range_final", "climb.ode_integ_phase.range_initial"),
      ("rotate.fltcond|h_final", "climb.ode_integ_phase.fltcond|h_initial")] else []) ++ linkConns k

/-- the steady phases of a mission -/
def legsOf (k : Phases.MissionKind) : List Leg :=
  [.climb, .cruise, .descent] ++
    if k.includeReserve then [.reserveClimb, .reserveCruise, .reserveDescent, .loiter] else []

/-- the phases of a mission and the relation between their variables; `ac1` is the aircraft model with one node -/
noncomputable def missionPhases (k : Phases.MissionKind) (ode : Bool) (ac : Craft m) (ac1 : Craft 0) (o : Opts) :
    List (String × ((String → Fin (m + 1) → ℝ) → Prop)) :=
  (if k.includeTakeoff then
    [("v0v1", (ground ac .v0v1).Rel o), ("v1vr", (ground ac .v1vr).Rel o),
     ("rotate", if ode then (rotation ac).Rel o else (robust ac).Rel o), ("v1v0", (ground ac .v1v0).Rel o),
     ("engineoutclimb", fun T => (climbAngle1 ac1 false).Rel o fun x _ => T x 0)]
   else if !k.includeReserve && k.groundRoll then [("groundroll", (ground ac .v0v1).Rel o)] else []) ++
  (legsOf k).map fun l => (l.name, (leg ac l).Rel o)

/-- a converged mission: `E` are the variables of the mission, `F p` those of its phase `p` -/
structure MissionRel (k : Phases.MissionKind) (ode : Bool) (ac : Craft m) (ac1 : Craft 0) (o : Opts)
    (E : String → Fin (m + 1) → ℝ) (F : String → String → Fin (m + 1) → ℝ) : Prop where
  /-- a scalar has the same value at all nodes -/
  scalar : ∀ v ∈ (missionGrp k ode).ins ++ (missionGrp k ode).outs, v.vec = false → ∀ a, E v.name a = E v.name 0
  /-- the components are converged -/
  node : ∀ a, (missionGrp k ode).rel o fun n => E n a
  /-- and the phases -/
  phase : ∀ p ∈ missionPhases k ode ac ac1 o, p.2 (F p.1)
  /-- the variables of a phase that are connected are those of the mission -/
  face : ∀ s ∈ (missionGrp k ode).subs, s.name ∈ (missionPhases k ode ac ac1 o).map Prod.fst →
    ∀ v ∈ s.sys.ins ++ s.sys.outs, F s.name v.name = (missionGrp k ode).seen E s.name v.name

end Verif.Wiring
