import Verif.Proof.WiringMission
import Verif.Props.WiringPropulsion

namespace Verif.Wiring

open Verif.Units Verif.VectorComps
open Verif.Bfl (Craft Seg AcIn AcOut)

variable {m : ℕ}

/-! ### components -/

/-- the residual of a balance vanishes only if both sides are equal -/
theorem balance_eq {x y : ℝ} (h : Propulsion.balanceResidual x y = 0) : x = y := by
  unfold Propulsion.balanceResidual at h
  have hs : (if |y| < 2 then 1 / (0.25 * y ^ 2 + 1) else 1 / |y|) ≠ 0 := by
    split_ifs with hy
    · positivity
    · rw [not_lt] at hy
      have : 0 < |y| := by linarith
      positivity
  rcases mul_eq_zero.1 h with h | h
  · exact sub_eq_zero.1 h
  · exact absurd h hs

theorem groundspeeds_rel (o : Opts) (e : String → ℝ) : (explicit dGroundspeeds).rel o e ↔
    let i : Phases.GsIn := ⟨e "fltcond|vs", e "fltcond|Utrue"⟩
    e "fltcond|groundspeed" = Phases.groundspeed i ∧ e "fltcond|cosgamma" = Phases.cosgamma i ∧
    e "fltcond|singamma" = Phases.singamma i := by
  simp [explicit, dGroundspeeds, groundspeeds, withOpts, eq_comm]

theorem lift_rel (o : Opts) (e : String → ℝ) : (explicit dLift).rel o e ↔
    e "lift" = Phases.lift (e "fltcond|CL") (e "fltcond|q") (e "ac|geom|wing|S_ref") := by
  simp [explicit, dLift, Units.lift, withOpts, eq_comm, Phases.lift, Aero.lift]

theorem stall_rel (o : Opts) (e : String → ℝ) : (explicit dStallSpeed).rel o e ↔
    e "Vstall_eas" = Aero.vStall (e "weight") (e "ac|geom|wing|S_ref") (e "CLmax") := by
  simp [explicit, dStallSpeed, stallSpeed, withOpts, eq_comm]

theorem haccel_rel (o : Opts) (e : String → ℝ) : (explicit dHorizontalAcceleration).rel o e ↔ e "accel_horiz" =
    Phases.accelHoriz ⟨e "weight", e "drag", e "lift", e "thrust", e "fltcond|singamma", 0, e "braking"⟩ := by
  simp [explicit, dHorizontalAcceleration, horizontalAcceleration, withOpts, eq_comm]

theorem vaccel_rel (o : Opts) (e : String → ℝ) : (explicit dVerticalAcceleration).rel o e ↔ e "accel_vert" =
    Phases.accelVert ⟨e "weight", e "drag", e "lift", e "thrust", e "fltcond|singamma", e "fltcond|cosgamma", 0⟩ := by
  simp [explicit, dVerticalAcceleration, verticalAcceleration, withOpts, eq_comm]

theorem steadyCL_rel (o : Opts) (e : String → ℝ) : (explicit dSteadyCL).rel o e ↔ e "fltcond|CL" =
    Phases.steadyCL ⟨e "weight", e "fltcond|q", e "ac|geom|wing|S_ref", e "fltcond|cosgamma"⟩ := by
  simp [explicit, dSteadyCL, Units.steadyCL, withOpts, eq_comm]

theorem climbAngle_rel (o : Opts) (e : String → ℝ) : (explicit dClimbAngle).rel o e ↔
    Phases.climbAngle ⟨e "drag", e "weight", e "thrust"⟩ = some (e "gamma") := by
  simp [explicit, dClimbAngle, Units.climbAngle, withOpts]

theorem speedMultiple_rel (o : Opts) (e : String → ℝ) (out mult : String) : (speedMultiple out mult).rel o e ↔
    e out = e "Vstall_eas" * e mult := by
  simp [speedMultiple, product, MulSys.compute, MulSys.div, MulSys.read, List.replicate]

theorem integ_rel (o : Opts) (e : String → ℝ) (l : List (AddIntegrand.Args Unit)) : (integ l).rel o e := by
  unfold integ
  split <;> trivial

theorem atmosTas_rel (o : Opts) (e : String → ℝ) : (atmosphere true).rel o e ↔
    Atmos.atmosTas (e "fltcond|h") (e "fltcond|TempIncrement") (e "fltcond|Utrue") = some ⟨e "fltcond|p", e "fltcond|T",
      e "fltcond|rho", e "fltcond|a", e "fltcond|Ueas", e "fltcond|Utrue", e "fltcond|q", e "fltcond|M"⟩ := by
  rw [C114_atmosphere_tas]
  constructor
  · rintro ⟨f, h, ⟨p, T, r, s, u, v, q, k⟩⟩
    rw [h, p, T, r, s, u, v, q, k]
  · intro h
    exact ⟨_, h, ⟨rfl, rfl, rfl, rfl, rfl, rfl, rfl, rfl⟩⟩

theorem atmosEas_rel (o : Opts) (e : String → ℝ) : (atmosphere false).rel o e ↔
    Atmos.atmosEas (e "fltcond|h") (e "fltcond|TempIncrement") (e "fltcond|Ueas") = some ⟨e "fltcond|p", e "fltcond|T",
      e "fltcond|rho", e "fltcond|a", e "fltcond|Ueas", e "fltcond|Utrue", e "fltcond|q", e "fltcond|M"⟩ := by
  rw [C114_atmosphere_eas]
  constructor
  · rintro ⟨f, h, ⟨p, T, r, s, u, v, q, k⟩⟩
    rw [h, p, T, r, s, u, v, q, k]
  · intro h
    exact ⟨_, h, ⟨rfl, rfl, rfl, rfl, rfl, rfl, rfl, rfl⟩⟩

/-! ### C115: ground roll -/

/-- the flight condition in a state -/
def condOf (E : String → Fin (m + 1) → ℝ) (a : Fin (m + 1)) : Atmos.FltCond :=
  ⟨E "fltcond|p" a, E "fltcond|T" a, E "fltcond|rho" a, E "fltcond|a" a, E "fltcond|Ueas" a, E "fltcond|Utrue" a,
   E "fltcond|q" a, E "fltcond|M" a⟩

def outOf (E : String → Fin (m + 1) → ℝ) : AcOut m := ⟨E "thrust", E "drag", E "weight"⟩

/-- the design variables in a state -/
def designOf (E : String → Fin (m + 1) → ℝ) : Bfl.Design :=
  ⟨E "ac|weights|MTOW" 0, E "ac|geom|wing|S_ref" 0, E "ac|aero|CLmax_TO" 0⟩

/-- the initial speed of a ground roll: connected to `zero_speed` in `v0v1` -/
def startOf : Seg → String
  | .v0v1 => "zero_speed"
  | .v1vr => "fltcond|Utrue_initial"
  | .v1v0 => "fltcond|Utrue_initial"

/-- the ground roll in a state of the group -/
def groundOf (s : Seg) (E : String → Fin (m + 1) → ℝ) : Bfl.Ground m where
  h := E "fltcond|h"
  inc := E "fltcond|TempIncrement"
  duration := E "duration" 0
  utrueInitial := E (startOf s) 0
  rangeInitial := E "range_initial" 0
  utrue := E "fltcond|Utrue"
  cond := condOf E
  out := outOf E

/-- all variables of the subsystems over the nodes -/
theorem seen_all (g : Grp) {l : List Link} (h : g.links = l) (hn : (l.map fun k => (k.sub, k.var)).Nodup)
    (E : String → Fin (m + 1) → ℝ) :
    ∀ k ∈ l, g.seen E k.sub k.var = fun a => conv k.unit k.want (E k.src a) := by
  intro k hk
  funext a
  exact view_all g h hn _ k hk

/-- a variable that is a scalar -/
theorem scalar_of {p : Phase m} {o : Opts} {E : String → Fin (m + 1) → ℝ} (h : p.Rel o E) (g : Grp) (hg : p.grp = g) (n : String)
    (hn : ((g.ins ++ g.outs).any fun v => v.name == n && !v.vec) = true) (a : Fin (m + 1)) : E n a = E n 0 := by
  subst hg
  obtain ⟨v, hv, h2⟩ := List.any_eq_true.1 hn
  simp only [Bool.and_eq_true, beq_iff_eq, Bool.not_eq_true'] at h2
  rw [← h2.1]
  exact h.scalar v hv h2.2 a

theorem orDefault_some (a d : String) (h : a ≠ "") : AddIntegrand.orDefault (some a) d = a := by
  simp [AddIntegrand.orDefault, AddIntegrand.truthy, h]

theorem orDefault_none (d : String) : AddIntegrand.orDefault none d = d := by
  simp [AddIntegrand.orDefault, AddIntegrand.truthy]

/-- the relations between the nodes under their promoted names -/
macro "overs " "[" xs:Lean.Parser.Tactic.simpLemma,* "] " g:term:max l:ident E:ident loc:(Lean.Parser.Tactic.location)? : tactic =>
  `(tactic| (
    have hseen := seen_all $g $l (fast_nodup (by decide +kernel)) $E
    simp only [List.forall_mem_cons, List.not_mem_nil, false_imp_iff, implies_true, and_true, conv_self, conv_acc, conv_ms2,
      conv_ms3, conv_ms4, conv_ms5, conv_ms6, conv_kn1, conv_kn2, conv_kn3, conv_ft_m, conv_m2a, conv_m2b, conv_rho3,
      conv_Pa] at hseen
    simp only [$xs,*, List.forall_mem_cons, List.not_mem_nil, false_imp_iff, implies_true, and_true, List.cons_append,
      List.nil_append, integrand, aircraftRel, acOf, flipRel, interpRel] $[$loc]?
    try simp only [integRel, List.forall_mem_cons, List.not_mem_nil, false_imp_iff, implies_true, and_true, AddIntegrand.entry]
      $[$loc]?
    try simp (decide := true) only [orDefault_some, orDefault_none, String.reduceAppend, reduceIte] $[$loc]?
    simp only [hseen] $[$loc]?
    clear hseen))

/-- the same for a table with a variable in its sources -/
macro "oversVar " "[" xs:Lean.Parser.Tactic.simpLemma,* "] " g:term:max l:ident E:ident loc:(Lean.Parser.Tactic.location)? : tactic =>
  `(tactic| (
    have hseen := seen_all $g $l (fast_nodup (by simp only [List.map_cons, List.map_nil]; decide +kernel)) $E
    simp only [List.forall_mem_cons, List.not_mem_nil, false_imp_iff, implies_true, and_true, conv_self, conv_acc, conv_ms2,
      conv_ms3, conv_ms4, conv_ms5, conv_ms6, conv_kn1, conv_kn2, conv_kn3, conv_ft_m, conv_m2a, conv_m2b, conv_rho3,
      conv_Pa] at hseen
    simp only [$xs,*, List.forall_mem_cons, List.not_mem_nil, false_imp_iff, implies_true, and_true, List.cons_append,
      List.nil_append, integrand, aircraftRel, acOf, flipRel, interpRel] $[$loc]?
    try simp only [integRel, List.forall_mem_cons, List.not_mem_nil, false_imp_iff, implies_true, and_true, AddIntegrand.entry]
      $[$loc]?
    try simp (decide := true) only [orDefault_some, orDefault_none, String.reduceAppend, reduceIte] $[$loc]?
    simp only [hseen] $[$loc]?
    clear hseen))

/-- what holds at every node of a ground roll, with the settings of `s` -/
structure GroundNode (s : Seg) (e : String → ℝ) : Prop where
  cl : e "fltcond|CL" = 0.1
  h : e "fltcond|h" = 0
  vs : e "fltcond|vs" = 0
  zero : e "zero_speed" = 2
  braking : e "braking" = s.braking
  active : e "propulsor_active" = s.active
  throttle : e "throttle" = s.throttle
  atmos : Atmos.atmosTas (e "fltcond|h") (e "fltcond|TempIncrement") (e "fltcond|Utrue") = some ⟨e "fltcond|p", e "fltcond|T",
      e "fltcond|rho", e "fltcond|a", e "fltcond|Ueas", e "fltcond|Utrue", e "fltcond|q", e "fltcond|M"⟩
  gs : e "fltcond|groundspeed" = Phases.groundspeed ⟨e "fltcond|vs", e "fltcond|Utrue"⟩
  vr : e "takeoff|vr" = Aero.vStall (e "ac|weights|MTOW") (e "ac|geom|wing|S_ref") (e "ac|aero|CLmax_TO") * 1.1
  accel : e "accel_horiz" = Phases.accelHoriz ⟨e "weight", e "drag",
    Phases.lift (e "fltcond|CL") (e "fltcond|q") (e "ac|geom|wing|S_ref"), e "thrust",
    Phases.singamma ⟨e "fltcond|vs", e "fltcond|Utrue"⟩, Phases.cosgamma ⟨e "fltcond|vs", e "fltcond|Utrue"⟩, e "braking"⟩

theorem ground_v0v1_node (o : Opts) (e : String → ℝ) (h : (groundGrp .v0v1).rel o e) :
    GroundNode .v0v1 e ∧ e "takeoff|v1" = e "fltcond|Utrue_final" := by
  revert h
  parts (groundGrp .v0v1) [groundGrp, consts, groundConsts, groundSettings, groundspeeds_rel, lift_rel, stall_rel, haccel_rel,
    stall, speedMultiple_rel, balance1, aircraft, integ_rel, atmosTas_rel]
  views (groundGrp .v0v1) groundGrp_v0v1_links e
  rintro ⟨⟨c1, c2, c3, c4, c5, c6, c7, c8⟩, at1, ⟨g1, g2, g3⟩, l1, s1, v1, a1, b1⟩
  refine ⟨⟨c1, c3, c4, c5, c6, c7, c8, at1, g1, by rw [v1, s1, c2], by rw [a1, l1, g3]; rfl⟩, ?_⟩
  exact balance_eq b1

theorem ground_v1vr_node (o : Opts) (e : String → ℝ) (h : (groundGrp .v1vr).rel o e) :
    GroundNode .v1vr e ∧ e "takeoff|vr" = e "fltcond|Utrue_final" := by
  revert h
  parts (groundGrp .v1vr) [groundGrp, consts, groundConsts, groundSettings, groundspeeds_rel, lift_rel, stall_rel, haccel_rel,
    stall, speedMultiple_rel, balance1, aircraft, integ_rel, atmosTas_rel]
  views (groundGrp .v1vr) groundGrp_v1vr_links e
  rintro ⟨⟨c1, c2, c3, c4, c5, c6, c7, c8⟩, at1, ⟨g1, g2, g3⟩, l1, s1, v1, a1, b1⟩
  refine ⟨⟨c1, c3, c4, c5, c6, c7, c8, at1, g1, by rw [v1, s1, c2], by rw [a1, l1, g3]; rfl⟩, ?_⟩
  exact balance_eq b1

theorem ground_v1v0_node (o : Opts) (e : String → ℝ) (h : (groundGrp .v1v0).rel o e) :
    GroundNode .v1v0 e ∧ e "takeoff|v1" = e "fltcond|Utrue_initial" := by
  revert h
  parts (groundGrp .v1v0) [groundGrp, consts, groundConsts, groundSettings, groundspeeds_rel, lift_rel, stall_rel, haccel_rel,
    stall, speedMultiple_rel, balance1, aircraft, integ_rel, atmosTas_rel, flipVector]
  views (groundGrp .v1v0) groundGrp_v1v0_links e
  rintro ⟨⟨c1, c2, c3, c4, c5, c6, c7, c8⟩, at1, ⟨g1, g2, g3⟩, l1, s1, v1, a1, b1⟩
  refine ⟨⟨c1, c3, c4, c5, c6, c7, c8, at1, g1, by rw [v1, s1, c2], by rw [a1, l1, g3]; rfl⟩, ?_⟩
  exact balance_eq b1

/-- the acceleration of a ground roll -/
theorem ground_accel {s : Seg} {E : String → Fin (m + 1) → ℝ} (hn : ∀ a, GroundNode s fun n => E n a)
    (hS : ∀ a, E "ac|geom|wing|S_ref" a = E "ac|geom|wing|S_ref" 0) : E "accel_horiz" = (groundOf s E).accel (designOf E) s := by
  funext a
  rw [(hn a).accel, (hn a).cl, (hn a).braking, (hn a).vs, hS a]
  rfl

/-- the ground speed of a ground roll -/
theorem ground_gs {s : Seg} {E : String → Fin (m + 1) → ℝ} (hn : ∀ a, GroundNode s fun n => E n a) :
    E "fltcond|groundspeed" = fun a => Phases.groundspeed ((groundOf s E).gsIn a) := by
  funext a
  rw [(hn a).gs, (hn a).vs]
  rfl

/-- what the aircraft model sees in a ground roll -/
theorem ground_craft {s : Seg} {E : String → Fin (m + 1) → ℝ} (hn : ∀ a, GroundNode s fun n => E n a) {ac : Craft m}
    (h : outOf E = ac s.name ⟨E "throttle", E "propulsor_active", E "fltcond|CL", condOf E, E "duration" 0⟩) :
    (groundOf s E).out = ac s.name ((groundOf s E).acIn s) := by
  have e1 : E "throttle" = fun _ => s.throttle := funext fun a => (hn a).throttle
  have e2 : E "propulsor_active" = fun _ => s.active := funext fun a => (hn a).active
  have e3 : E "fltcond|CL" = fun _ => Bfl.clGround := funext fun a => (hn a).cl
  rw [e1, e2, e3] at h
  exact h

/-- **C115** (ground roll before V1).  In every converged state of `GroundRollPhase` with `flight_phase="v0v1"` the connections of
the code give the ground roll of C102: it starts at 2 m/s and the range at zero, the aircraft model gets full throttle, all
propulsors and `CL = 0.1`, and the duration is that at which the speed reaches V1. -/
theorem C115_ground_v0v1 (ac : Craft m) (o : Opts) (E : String → Fin (m + 1) → ℝ) (h : (ground ac .v0v1).Rel o E) :
    (groundOf .v0v1 E).Converged ac (designOf E) (Integrals.simpsonTri m) (E "takeoff|v1" 0) .v0v1 ∧
    E "range" = (groundOf .v0v1 E).range (Integrals.simpsonTri m) .v0v1 ∧ E "range_final" 0 = E "range" (Fin.last m) := by
  have hn := fun a => ground_v0v1_node o _ (h.node a)
  have hg := fun a => (hn a).1
  have ho := h.over
  have hS := scalar_of h (groundGrp .v0v1) rfl "ac|geom|wing|S_ref" (by decide +kernel)
  overs [ground, groundIntegrands] (groundGrp .v0v1) groundGrp_v0v1_links E at ho
  obtain ⟨hac, ⟨hu, huf⟩, hr, hrf⟩ := ho
  have e1 := ground_accel hg hS
  have e2 := ground_gs hg
  refine ⟨⟨fun a => (hg a).atmos, ground_craft hg hac, (hg 0).zero, ?_, ?_⟩, ?_, ?_⟩
  · exact hu.trans (congrArg _ e1)
  · have := (hn 0).2
    rw [huf 0] at this
    rw [show Bfl.Ground.balance _ _ .v0v1 _ = E "takeoff|v1" 0 - E "fltcond|Utrue" (Fin.last m) from rfl, this,
      congrFun hu (Fin.last m)]
    exact sub_self _
  · exact hr.trans (congrArg _ e2)
  · rw [hrf 0, congrFun hr (Fin.last m)]
    rfl

/-- **C115** (ground roll after V1).  With `flight_phase="v1vr"` and V1 at the unconnected input `fltcond|Utrue_initial`. -/
theorem C115_ground_v1vr (ac : Craft m) (o : Opts) (E : String → Fin (m + 1) → ℝ) (h : (ground ac .v1vr).Rel o E) (v1 : ℝ)
    (hv : E "fltcond|Utrue_initial" 0 = v1) :
    (groundOf .v1vr E).Converged ac (designOf E) (Integrals.simpsonTri m) v1 .v1vr ∧
    E "takeoff|vr" 0 = (designOf E).vr ∧ E "fltcond|Utrue_final" 0 = E "fltcond|Utrue" (Fin.last m) ∧
    E "range" = (groundOf .v1vr E).range (Integrals.simpsonTri m) .v1vr ∧ E "range_final" 0 = E "range" (Fin.last m) := by
  have hn := fun a => ground_v1vr_node o _ (h.node a)
  have hg := fun a => (hn a).1
  have ho := h.over
  have hS := scalar_of h (groundGrp .v1vr) rfl "ac|geom|wing|S_ref" (by decide +kernel)
  overs [ground, groundIntegrands] (groundGrp .v1vr) groundGrp_v1vr_links E at ho
  obtain ⟨hac, ⟨hu, huf⟩, hr, hrf⟩ := ho
  have e1 := ground_accel hg hS
  have e2 := ground_gs hg
  have e3 : E "takeoff|vr" 0 = (designOf E).vr := (hg 0).vr
  have e4 : E "fltcond|Utrue_final" 0 = E "fltcond|Utrue" (Fin.last m) := by
    rw [huf 0, congrFun hu (Fin.last m)]
    rfl
  refine ⟨⟨fun a => (hg a).atmos, ground_craft hg hac, hv, ?_, ?_⟩, e3, e4, ?_, ?_⟩
  · exact hu.trans (congrArg _ e1)
  · have := (hn 0).2
    rw [e3, e4] at this
    rw [show Bfl.Ground.balance _ _ .v1vr _ = (designOf E).vr - E "fltcond|Utrue" (Fin.last m) from rfl, this]
    exact sub_self _
  · exact hr.trans (congrArg _ e2)
  · rw [hrf 0, congrFun hr (Fin.last m)]
    rfl

/-- **C115** (rejected take-off).  With `flight_phase="v1v0"`: the speed is integrated backwards from 2 m/s with the reversed
acceleration, and the duration is that at which it reaches V1. -/
theorem C115_ground_v1v0 (ac : Craft m) (o : Opts) (E : String → Fin (m + 1) → ℝ) (h : (ground ac .v1v0).Rel o E) :
    (groundOf .v1v0 E).Converged ac (designOf E) (Integrals.simpsonTri m) (E "takeoff|v1" 0) .v1v0 ∧
    E "range" = (groundOf .v1v0 E).range (Integrals.simpsonTri m) .v1v0 ∧ E "range_final" 0 = E "range" (Fin.last m) := by
  have hn := fun a => ground_v1v0_node o _ (h.node a)
  have hg := fun a => (hn a).1
  have ho := h.over
  have hS := scalar_of h (groundGrp .v1v0) rfl "ac|geom|wing|S_ref" (by decide +kernel)
  overs [ground, groundIntegrands] (groundGrp .v1v0) groundGrp_v1v0_links E at ho
  obtain ⟨hac, ⟨⟨hu, huf⟩, hr, hrf⟩, hf1, hf2⟩ := ho
  have hz : E "zero_speed" 0 = Bfl.zeroSpeed := (hg 0).zero
  have e1 := ground_accel hg hS
  have e2 := ground_gs hg
  have hf : (fun a => E "flipaccel.vec_out" a) = Phases.flip true ((groundOf .v1v0 E).accel (designOf E) .v1v0) :=
    hf1.trans (congrArg _ e1)
  rw [hz, hf] at hu huf
  refine ⟨⟨fun a => (hg a).atmos, ground_craft hg hac, huf 0, ?_, ?_⟩, ?_, ?_⟩
  · exact hf2.trans (congrArg _ hu)
  · rw [show Bfl.Ground.balance _ _ .v1v0 _ = E "takeoff|v1" 0 - E "fltcond|Utrue_initial" 0 from rfl, (hn 0).2]
    exact sub_self _
  · exact hr.trans (congrArg _ e2)
  · rw [hrf 0, congrFun hr (Fin.last m)]
    rfl

/-! ### C115: rotation -/

/-- the rotation in a state of the group -/
def rotationOf (E : String → Fin (m + 1) → ℝ) : Bfl.Ode m where
  inc := E "fltcond|TempIncrement"
  duration := E "duration" 0
  utrueInitial := E "fltcond|Utrue_initial" 0
  rangeInitial := E "range_initial" 0
  utrue := E "fltcond|Utrue"
  vs := E "fltcond|vs"
  h := E "fltcond|h"
  cond := condOf E
  out := outOf E

/-- what holds at every node of a rotation -/
structure RotationNode (e : String → ℝ) : Prop where
  active : e "propulsor_active" = 0
  throttle : e "throttle" = 1
  atmos : Atmos.atmosTas (e "fltcond|h") (e "fltcond|TempIncrement") (e "fltcond|Utrue") = some ⟨e "fltcond|p", e "fltcond|T",
      e "fltcond|rho", e "fltcond|a", e "fltcond|Ueas", e "fltcond|Utrue", e "fltcond|q", e "fltcond|M"⟩
  gs : e "fltcond|groundspeed" = Phases.groundspeed ⟨e "fltcond|vs", e "fltcond|Utrue"⟩
  cl : e "fltcond|CL" = 0.83 * e "ac|aero|CLmax_TO"
  horiz : e "accel_horiz" = Phases.accelHoriz ⟨e "weight", e "drag",
    Phases.lift (e "fltcond|CL") (e "fltcond|q") (e "ac|geom|wing|S_ref"), e "thrust",
    Phases.singamma ⟨e "fltcond|vs", e "fltcond|Utrue"⟩, Phases.cosgamma ⟨e "fltcond|vs", e "fltcond|Utrue"⟩, 0⟩
  vert : e "accel_vert" = Phases.accelVert ⟨e "weight", e "drag",
    Phases.lift (e "fltcond|CL") (e "fltcond|q") (e "ac|geom|wing|S_ref"), e "thrust",
    Phases.singamma ⟨e "fltcond|vs", e "fltcond|Utrue"⟩, Phases.cosgamma ⟨e "fltcond|vs", e "fltcond|Utrue"⟩, 0⟩
  top : 35 * 0.3048 = e "fltcond|h_final"

theorem rotateCL_rel (o : Opts) (e : String → ℝ) :
    (product ⟨"fltcond|CL", ["CL_rotate_mult", "ac|aero|CLmax_TO"], .all 1, 1, 1, none, none⟩
      (fun n => n != "ac|aero|CLmax_TO")).rel o e ↔ e "fltcond|CL" = e "CL_rotate_mult" * e "ac|aero|CLmax_TO" := by
  simp [product, MulSys.compute, MulSys.div, MulSys.read, List.replicate]

theorem rotation_node (o : Opts) (e : String → ℝ) (h : rotationGrp.rel o e) : RotationNode e := by
  revert h
  parts rotationGrp [rotationGrp, consts, groundspeeds_rel, lift_rel, haccel_rel, vaccel_rel, balance1, aircraft, integ_rel,
    atmosTas_rel, rotateCL_rel]
  views rotationGrp rotationGrp_links e
  rintro ⟨⟨c1, c2, c3, c4, c5⟩, at1, ⟨g1, g2, g3⟩, cl, l1, a1, a2, b1⟩
  refine ⟨c4, c5, at1, g1, by rw [cl, c1], by rw [a1, l1, g3, c3]; rfl, by rw [a2, l1, g3, g2], ?_⟩
  rw [← balance_eq b1, c2]

/-- **C115** (rotation).  In every converged state of `RotationPhase` the connections of the code give the rotation of C102: the
aircraft model gets full throttle, the failed propulsor and `CL = 0.83 CLmax`, climb speed and height start at zero, and the duration
is that at which the height reaches 35 ft. -/
theorem C115_rotation (ac : Craft m) (o : Opts) (E : String → Fin (m + 1) → ℝ) (h : (rotation ac).Rel o E) :
    (rotationOf E).Converged ac (designOf E) (Integrals.simpsonTri m) ∧
    E "range" = (rotationOf E).range (Integrals.simpsonTri m) ∧ E "range_final" 0 = E "range" (Fin.last m) ∧
    E "fltcond|h_final" 0 = Bfl.hObs := by
  have hn := fun a => rotation_node o _ (h.node a)
  have ho := h.over
  have hS := scalar_of h rotationGrp rfl "ac|geom|wing|S_ref" (by decide +kernel)
  have hC := scalar_of h rotationGrp rfl "ac|aero|CLmax_TO" (by decide +kernel)
  overs [rotation] rotationGrp rotationGrp_links E at ho
  obtain ⟨hac, ⟨hu, huf⟩, ⟨hr, hrf⟩, ⟨hv, hvf⟩, hh, hhf⟩ := ho
  have ecl : ∀ a, E "fltcond|CL" a = Bfl.Ode.cl (designOf E) := fun a => by rw [(hn a).cl, hC a]; rfl
  have e1 : E "accel_horiz" = fun a => Phases.accelHoriz ((rotationOf E).accelIn (designOf E) a) := by
    funext a
    rw [(hn a).horiz, ecl a, hS a]
    rfl
  have e2 : E "accel_vert" = fun a => Phases.accelVert ((rotationOf E).accelIn (designOf E) a) := by
    funext a
    rw [(hn a).vert, ecl a, hS a]
    rfl
  have e3 : E "fltcond|groundspeed" = fun a => Phases.groundspeed ((rotationOf E).gsIn a) := funext fun a => (hn a).gs
  refine ⟨⟨fun a => (hn a).atmos, ?_, hu.trans (congrArg _ e1), hv.trans (congrArg _ e2), hh, ?_⟩, hr.trans (congrArg _ e3),
    ?_, (hn 0).top.symm⟩
  · have c1 : E "throttle" = fun _ => 1 := funext fun a => (hn a).throttle
    have c2 : E "propulsor_active" = fun _ => 0 := funext fun a => (hn a).active
    have c3 : E "fltcond|CL" = fun _ => Bfl.Ode.cl (designOf E) := funext ecl
    rw [c1, c2, c3] at hac
    exact hac
  · have := (hn 0).top
    rw [hhf 0] at this
    rw [show (rotationOf E).h (Fin.last m) = E "fltcond|h" (Fin.last m) from rfl, congrFun hh (Fin.last m), Bfl.hObs, this]
    exact sub_self _
  · rw [hrf 0, congrFun hr (Fin.last m)]
    rfl

/-! ### C115: simplified rotation -/

/-- the flight condition in a state of `RobustRotationPhase`, whose `fltcond|Ueas` is in knots -/
noncomputable def condKn (E : String → Fin (m + 1) → ℝ) (a : Fin (m + 1)) : Atmos.FltCond :=
  ⟨E "fltcond|p" a, E "fltcond|T" a, E "fltcond|rho" a, E "fltcond|a" a, E "fltcond|Ueas" a * (1852 / 3600), E "fltcond|Utrue" a,
   E "fltcond|q" a, E "fltcond|M" a⟩

/-- the simplified rotation in a state of the group -/
noncomputable def robustOf (E : String → Fin (m + 1) → ℝ) : Bfl.Simple m where
  hInitial := E "h_initial" 0
  inc := E "fltcond|TempIncrement"
  rangeInitial := E "range_initial" 0
  cond := condKn E
  out := outOf E
  gamma := E "gamma"

/-- what holds at every node of a simplified rotation -/
structure RobustNode (e : String → ℝ) : Prop where
  active : e "propulsor_active" = 0
  throttle : e "throttle" = 1
  obstacle : e "h_obstacle" = 35
  vr : e "takeoff|vr" = Aero.vStall (e "ac|weights|MTOW") (e "ac|geom|wing|S_ref") (e "ac|aero|CLmax_TO") * 1.1
  v2 : e "takeoff|v2" = Aero.vStall (e "ac|weights|MTOW") (e "ac|geom|wing|S_ref") (e "ac|aero|CLmax_TO") * 1.2
  atmos : Atmos.atmosEas (e "fltcond|h") (e "fltcond|TempIncrement") (e "fltcond|Ueas" * (1852 / 3600)) = some ⟨e "fltcond|p",
      e "fltcond|T", e "fltcond|rho", e "fltcond|a", e "fltcond|Ueas" * (1852 / 3600), e "fltcond|Utrue", e "fltcond|q",
      e "fltcond|M"⟩
  cl : e "fltcond|CL" = Phases.steadyCL ⟨e "weight", e "fltcond|q", e "ac|geom|wing|S_ref", 1⟩
  angle : Phases.climbAngle ⟨e "drag", e "weight", e "thrust"⟩ = some (e "gamma")
  range : e "range_final" = e "range_initial" + e "s_transition" + e "s_climb"
  duration : e "duration" = e "t_transition" + e "t_climb"
  top : e "fltcond|h_final" = 35 * 0.3048

theorem robust_node (o : Opts) (e : String → ℝ) (h : robustGrp.rel o e) : RobustNode e := by
  revert h
  parts robustGrp [robustGrp, consts, stall_rel, stall, speedMultiple_rel, steadyCL_rel, climbAngle_rel, aircraft, interp,
    transition, climbTo, atmosEas_rel]
  views robustGrp robustGrp_links e
  rintro ⟨⟨c1, c2, c3, c4, c5, c6, c7, c8⟩, s1, v1, v2, at1, cl, g, r, d, t⟩
  exact ⟨c2, c3, c8, by rw [v1, s1, c5], by rw [v2, s1, c4], at1, by rw [cl, c7], g, r, d, by rw [t, c8]⟩

/-- **C115** (simplified rotation).  In every converged state of `RobustRotationPhase` the connections of the code give the
simplified rotation of C102: heights from `h_initial` to 35 ft, speeds from VR to V2, the transition from the first and the climb from
the last node, and their sums for range and duration. -/
theorem C115_simplified (ac : Craft m) (o : Opts) (E : String → Fin (m + 1) → ℝ) (h : (robust ac).Rel o E) :
    (robustOf E).Converged ac (designOf E) ∧
    (∀ a, E "range" a = (robustOf E).range a) ∧ E "range_final" 0 = Phases.rotationRangeFinal (robustOf E).rotation ∧
    E "fltcond|h_final" 0 = Bfl.hObs ∧ (∀ a, E "fltcond|h" a = (robustOf E).h a) ∧
    E "takeoff|vr" 0 = (designOf E).vr ∧ E "takeoff|v2" 0 = (designOf E).v2 := by
  have hn := fun a => robust_node o _ (h.node a)
  have ho := h.over
  have hS := scalar_of h robustGrp rfl "ac|geom|wing|S_ref" (by decide +kernel)
  overs [robust, transitionRel, climbRel] robustGrp robustGrp_links E at ho
  obtain ⟨hh, hu, hac, ht, hc, hr⟩ := ho
  have eh : ∀ a, E "fltcond|h" a = (robustOf E).h a := fun a => by
    rw [hh a, (hn 0).obstacle]
    rfl
  have er : E "takeoff|vr" 0 = (designOf E).vr := (hn 0).vr
  have e2 : E "takeoff|v2" 0 = (designOf E).v2 := (hn 0).v2
  have eu : ∀ a, E "fltcond|Ueas" a * (1852 / 3600) = Bfl.Simple.ueas (designOf E) a := fun a => by
    rw [hu a, er, e2, Bfl.Simple.ueas, Aero.linspace, Aero.linspace]
    ring
  have ecl : E "fltcond|CL" = (robustOf E).cl (designOf E) := by
    funext a
    rw [(hn a).cl, hS a]
    rfl
  have edur : E "duration" 0 = Phases.rotationDuration (robustOf E).rotation := by
    rw [(hn 0).duration, (ht 0).2.2, (hc 0).2, (ht 0).2.1]
    rfl
  have efin : E "range_final" 0 = Phases.rotationRangeFinal (robustOf E).rotation := by
    rw [(hn 0).range, (ht 0).1, (hc 0).1, (ht 0).2.1]
    rfl
  refine ⟨⟨?_, ?_, fun a => (hn a).angle⟩, ?_, efin, (hn 0).top, eh, er, e2⟩
  · intro a
    rw [← eh a, ← eu a]
    exact (hn a).atmos
  · have c1 : E "throttle" = fun _ => 1 := funext fun a => (hn a).throttle
    have c2 : E "propulsor_active" = fun _ => 0 := funext fun a => (hn a).active
    rw [c1, c2, ecl, edur] at hac
    exact hac
  · intro a
    rw [hr a, efin]
    rfl

/-! ### C115: climb angle -/

/-- the climb-out in a state of the group -/
def climboutOf (E : String → Fin 1 → ℝ) : Bfl.Climbout where
  inc := E "fltcond|TempIncrement" 0
  cond := ⟨E "fltcond|p" 0, E "fltcond|T" 0, E "fltcond|rho" 0, E "fltcond|a" 0, E "takeoff|v2" 0, E "fltcond|Utrue" 0,
    E "fltcond|q" 0, E "fltcond|M" 0⟩
  out := outOf E
  gamma := E "gamma" 0

/-- what holds in a climb angle phase -/
structure ClimbNode (all : Bool) (e : String → ℝ) : Prop where
  active : e "propulsor_active" = if all then 1 else 0
  throttle : e "throttle" = 1
  v2 : e "takeoff|v2" = Aero.vStall (e "ac|weights|MTOW") (e "ac|geom|wing|S_ref") (e "ac|aero|CLmax_TO") * 1.2
  atmos : Atmos.atmosEas 0 (e "fltcond|TempIncrement") (e "takeoff|v2") = some ⟨e "fltcond|p", e "fltcond|T",
      e "fltcond|rho", e "fltcond|a", e "takeoff|v2", e "fltcond|Utrue", e "fltcond|q", e "fltcond|M"⟩
  cl : e "fltcond|CL" = Phases.steadyCL ⟨e "ac|weights|MTOW", e "fltcond|q", e "ac|geom|wing|S_ref", 1⟩
  angle : Phases.climbAngle ⟨e "drag", e "ac|weights|MTOW", e "thrust"⟩ = some (e "gamma")

theorem climb_all_node (o : Opts) (e : String → ℝ) (h : ((climbAngleGrp true).single).rel o e) : ClimbNode true e := by
  revert h
  parts ((climbAngleGrp true).single) [climbAngleGrp, Grp.single, List.forall_mem_map, consts, stall_rel, stall, speedMultiple_rel,
    steadyCL_rel, climbAngle_rel, aircraft, atmosEas_rel]
  views ((climbAngleGrp true).single) climbAngleGrp_true_single_links e
  rintro ⟨⟨c1, c2, c3, c4, c5⟩, s1, v2, at1, cl, g⟩
  rw [c2] at at1
  exact ⟨c4, c5, by rw [v2, s1, c1], at1, by rw [cl, c3], g⟩

theorem climb_out_node (o : Opts) (e : String → ℝ) (h : ((climbAngleGrp false).single).rel o e) : ClimbNode false e := by
  revert h
  parts ((climbAngleGrp false).single) [climbAngleGrp, Grp.single, List.forall_mem_map, consts, stall_rel, stall,
    speedMultiple_rel, steadyCL_rel, climbAngle_rel, aircraft, atmosEas_rel]
  views ((climbAngleGrp false).single) climbAngleGrp_false_single_links e
  rintro ⟨⟨c1, c2, c3, c4, c5⟩, s1, v2, at1, cl, g⟩
  rw [c2] at at1
  exact ⟨c4, c5, by rw [v2, s1, c1], at1, by rw [cl, c3], g⟩

theorem climbout_of {all : Bool} {ac : Craft 0} {E : String → Fin 1 → ℝ} (hn : ClimbNode all fun n => E n 0)
    (hac : outOf E = ac (if all then "AllEngineClimbAngle" else "EngineOutClimbAngle")
      ⟨E "throttle", E "propulsor_active", E "fltcond|CL", fun a => ⟨E "fltcond|p" a, E "fltcond|T" a, E "fltcond|rho" a,
        E "fltcond|a" a, E "takeoff|v2" a, E "fltcond|Utrue" a, E "fltcond|q" a, E "fltcond|M" a⟩, E "duration" 0⟩) :
    (climboutOf E).Converged ac (designOf E) all (E "duration" 0) ∧ E "takeoff|v2" 0 = (designOf E).v2 := by
  have e2 : E "takeoff|v2" 0 = (designOf E).v2 := hn.v2
  refine ⟨⟨?_, ?_, hn.angle⟩, e2⟩
  · rw [← e2]
    exact hn.atmos
  · have one : ∀ f : Fin 1 → ℝ, f = fun _ => f 0 := fun f => funext fun a => by rw [Subsingleton.elim a 0]
    have c1 : E "throttle" = fun _ => 1 := (one _).trans (by rw [hn.throttle])
    have c2 : E "propulsor_active" = fun _ => if all then 1 else 0 := (one _).trans (by rw [hn.active])
    have c3 : E "fltcond|CL" = fun _ => (climboutOf E).cl (designOf E) := (one _).trans (by rw [hn.cl]; rfl)
    have c4 : (fun a : Fin 1 => (⟨E "fltcond|p" a, E "fltcond|T" a, E "fltcond|rho" a, E "fltcond|a" a, E "takeoff|v2" a,
        E "fltcond|Utrue" a, E "fltcond|q" a, E "fltcond|M" a⟩ : Atmos.FltCond)) = fun _ => (climboutOf E).cond :=
      funext fun a => by rw [Subsingleton.elim a 0]; rfl
    rw [c1, c2, c3, c4] at hac
    exact hac

/-- **C115** (climb gradient).  In every converged state of a one-node `ClimbAnglePhase` the connections of the code give the
climb-out of C103: sea level, V2, and the angle for the maximum take-off weight. -/
theorem C115_climb_angle (ac : Craft 0) (all : Bool) (o : Opts) (E : String → Fin 1 → ℝ) (h : (climbAngle1 ac all).Rel o E) :
    (climboutOf E).Converged ac (designOf E) all (E "duration" 0) ∧ E "takeoff|v2" 0 = (designOf E).v2 := by
  have ho := h.over
  cases all
  · have hn := climb_out_node o _ (h.node 0)
    overs [climbAngle1] ((climbAngleGrp false).single) climbAngleGrp_false_single_links E at ho
    exact climbout_of hn ho
  · have hn := climb_all_node o _ (h.node 0)
    overs [climbAngle1] ((climbAngleGrp true).single) climbAngleGrp_true_single_links E at ho
    exact climbout_of hn ho

/-! ### C115: steady flight -/

/-- the steady phase in a state of the group -/
def steadyOf (E : String → Fin (m + 1) → ℝ) : Phases.Steady m where
  duration := E "duration" 0
  hInitial := E "ode_integ_phase.fltcond|h_initial" 0
  rangeInitial := E "ode_integ_phase.range_initial" 0
  vs := E "fltcond|vs"
  utrue := E "fltcond|Utrue"

/-- what holds at every node of a steady phase -/
structure SteadyNode (e : String → ℝ) : Prop where
  active : e "propulsor_active" = 1
  atmos : Atmos.atmosEas (e "fltcond|h") (e "fltcond|TempIncrement") (e "fltcond|Ueas") = some ⟨e "fltcond|p", e "fltcond|T",
      e "fltcond|rho", e "fltcond|a", e "fltcond|Ueas", e "fltcond|Utrue", e "fltcond|q", e "fltcond|M"⟩
  gs : e "fltcond|groundspeed" = Phases.groundspeed ⟨e "fltcond|vs", e "fltcond|Utrue"⟩
  cos : e "fltcond|cosgamma" = Phases.cosgamma ⟨e "fltcond|vs", e "fltcond|Utrue"⟩
  sin : e "fltcond|singamma" = Phases.singamma ⟨e "fltcond|vs", e "fltcond|Utrue"⟩
  cl : e "fltcond|CL" = Phases.steadyCL ⟨e "weight", e "fltcond|q", e "ac|geom|wing|S_ref", e "fltcond|cosgamma"⟩
  lift : e "lift" = e "fltcond|q" * e "ac|geom|wing|S_ref" * e "fltcond|CL"
  accel : e "zero_accel" = Phases.accelHoriz ⟨e "weight", e "drag", e "lift", e "thrust", e "fltcond|singamma",
    e "fltcond|cosgamma", e "braking"⟩

/-- the variable that determines the duration of a steady phase, and the value that it has to reach -/
def legTarget : Leg → String × String
  | .climb => ("ode_integ_phase.fltcond|h_final", "climbdt.cruise|h0")
  | .cruise => ("cruisedt.range_final", "cruisedt.mission_range")
  | .descent => ("ode_integ_phase.fltcond|h_final", "descentdt.takeoff|h")
  | .reserveClimb => ("ode_integ_phase.fltcond|h_final", "reserve_climbdt.reserve|h0")
  | .reserveCruise => ("reserve_cruisedt.range_final", "reserve_cruisedt.reserve_range")
  | .reserveDescent => ("ode_integ_phase.fltcond|h_final", "reserve_descentdt.takeoff|h")
  | .loiter => ("duration", "duration_in")

theorem leg_climb_node (o : Opts) (e : String → ℝ) (h : (legGrp .climb).rel o e) :
    SteadyNode e ∧ e (legTarget .climb).1 = e (legTarget .climb).2 := by
  revert h
  parts (legGrp .climb) [legGrp, steadyGrp, consts, groundspeeds_rel, lift_rel, haccel_rel, balance1, aircraft, integ_rel,
    atmosEas_rel, steadyCL_rel]
  views (legGrp .climb) legGrp_climb_links e
  rintro ⟨c1, at1, ⟨g1, g2, g3⟩, cl, l1, a1, b1, b2⟩
  exact ⟨⟨c1, at1, g1, g2, g3, cl, l1, by rw [balance_eq b1, a1]; rfl⟩, balance_eq b2⟩

theorem leg_cruise_node (o : Opts) (e : String → ℝ) (h : (legGrp .cruise).rel o e) :
    SteadyNode e ∧ e (legTarget .cruise).1 = e (legTarget .cruise).2 := by
  revert h
  parts (legGrp .cruise) [legGrp, steadyGrp, consts, groundspeeds_rel, lift_rel, haccel_rel, balance1, aircraft, integ_rel,
    atmosEas_rel, steadyCL_rel]
  views (legGrp .cruise) legGrp_cruise_links e
  rintro ⟨c1, at1, ⟨g1, g2, g3⟩, cl, l1, a1, b1, b2⟩
  exact ⟨⟨c1, at1, g1, g2, g3, cl, l1, by rw [balance_eq b1, a1]; rfl⟩, balance_eq b2⟩

theorem leg_descent_node (o : Opts) (e : String → ℝ) (h : (legGrp .descent).rel o e) :
    SteadyNode e ∧ e (legTarget .descent).1 = e (legTarget .descent).2 := by
  revert h
  parts (legGrp .descent) [legGrp, steadyGrp, consts, groundspeeds_rel, lift_rel, haccel_rel, balance1, aircraft, integ_rel,
    atmosEas_rel, steadyCL_rel]
  views (legGrp .descent) legGrp_descent_links e
  rintro ⟨c1, at1, ⟨g1, g2, g3⟩, cl, l1, a1, b1, b2⟩
  exact ⟨⟨c1, at1, g1, g2, g3, cl, l1, by rw [balance_eq b1, a1]; rfl⟩, balance_eq b2⟩

theorem leg_reserveClimb_node (o : Opts) (e : String → ℝ) (h : (legGrp .reserveClimb).rel o e) :
    SteadyNode e ∧ e (legTarget .reserveClimb).1 = e (legTarget .reserveClimb).2 := by
  revert h
  parts (legGrp .reserveClimb) [legGrp, steadyGrp, consts, groundspeeds_rel, lift_rel, haccel_rel, balance1, aircraft, integ_rel,
    atmosEas_rel, steadyCL_rel]
  views (legGrp .reserveClimb) legGrp_reserveClimb_links e
  rintro ⟨c1, at1, ⟨g1, g2, g3⟩, cl, l1, a1, b1, b2⟩
  exact ⟨⟨c1, at1, g1, g2, g3, cl, l1, by rw [balance_eq b1, a1]; rfl⟩, balance_eq b2⟩

theorem leg_reserveCruise_node (o : Opts) (e : String → ℝ) (h : (legGrp .reserveCruise).rel o e) :
    SteadyNode e ∧ e (legTarget .reserveCruise).1 = e (legTarget .reserveCruise).2 := by
  revert h
  parts (legGrp .reserveCruise) [legGrp, steadyGrp, consts, groundspeeds_rel, lift_rel, haccel_rel, balance1, aircraft, integ_rel,
    atmosEas_rel, steadyCL_rel]
  views (legGrp .reserveCruise) legGrp_reserveCruise_links e
  rintro ⟨c1, at1, ⟨g1, g2, g3⟩, cl, l1, a1, b1, b2⟩
  exact ⟨⟨c1, at1, g1, g2, g3, cl, l1, by rw [balance_eq b1, a1]; rfl⟩, balance_eq b2⟩

theorem leg_reserveDescent_node (o : Opts) (e : String → ℝ) (h : (legGrp .reserveDescent).rel o e) :
    SteadyNode e ∧ e (legTarget .reserveDescent).1 = e (legTarget .reserveDescent).2 := by
  revert h
  parts (legGrp .reserveDescent) [legGrp, steadyGrp, consts, groundspeeds_rel, lift_rel, haccel_rel, balance1, aircraft, integ_rel,
    atmosEas_rel, steadyCL_rel]
  views (legGrp .reserveDescent) legGrp_reserveDescent_links e
  rintro ⟨c1, at1, ⟨g1, g2, g3⟩, cl, l1, a1, b1, b2⟩
  exact ⟨⟨c1, at1, g1, g2, g3, cl, l1, by rw [balance_eq b1, a1]; rfl⟩, balance_eq b2⟩

theorem leg_loiter_node (o : Opts) (e : String → ℝ) (h : (legGrp .loiter).rel o e) :
    SteadyNode e ∧ e (legTarget .loiter).1 = e (legTarget .loiter).2 := by
  revert h
  parts (legGrp .loiter) [legGrp, steadyGrp, consts, groundspeeds_rel, lift_rel, haccel_rel, balance1, aircraft, integ_rel,
    atmosEas_rel, steadyCL_rel]
  views (legGrp .loiter) legGrp_loiter_links e
  rintro ⟨c1, at1, ⟨g1, g2, g3⟩, cl, l1, a1, b1, b2⟩
  exact ⟨⟨c1, at1, g1, g2, g3, cl, l1, by rw [balance_eq b1, a1]; rfl⟩, b2⟩

/-- a converged steady phase of the mission -/
structure SteadyPhase (ac : Craft m) (l : Leg) (E : String → Fin (m + 1) → ℝ) : Prop where
  /-- the histories are those of C31 -/
  h : E "fltcond|h" = (steadyOf E).h
  range : E "range" = (steadyOf E).range
  hFinal : E "ode_integ_phase.fltcond|h_final" 0 = (steadyOf E).hFinal
  rangeFinal : E "ode_integ_phase.range_final" 0 = (steadyOf E).rangeFinal
  /-- the duration is determined by its target -/
  target : E (legTarget l).1 0 = E (legTarget l).2 0
  /-- the flight condition is that of the altitude and the given equivalent airspeed -/
  atmos : ∀ a, Atmos.atmosEas (E "fltcond|h" a) (E "fltcond|TempIncrement" a) (E "fltcond|Ueas" a) = some (condOf E a)
  /-- the aircraft model gets all propulsors, and the throttle of the balance -/
  craft : outOf E = ac l.name ⟨E "throttle", fun _ => 1, E "fltcond|CL", condOf E, E "duration" 0⟩
  /-- lift equals weight -/
  lift : ∀ a, E "fltcond|q" a ≠ 0 → E "ac|geom|wing|S_ref" 0 ≠ 0 → E "lift" a =
    E "weight" a * grav * Phases.cosgamma ⟨E "fltcond|vs" a, E "fltcond|Utrue" a⟩
  /-- thrust equals drag and the weight along the path -/
  thrust : ∀ a, E "weight" a ≠ 0 → E "braking" a = 0 → E "zero_accel" a = 0 → E "thrust" a =
    E "drag" a + E "weight" a * grav * Phases.singamma ⟨E "fltcond|vs" a, E "fltcond|Utrue" a⟩

theorem steady_of {ac : Craft m} {l : Leg} {E : String → Fin (m + 1) → ℝ} (hn : ∀ a, SteadyNode fun n => E n a)
    (ht : E (legTarget l).1 0 = E (legTarget l).2 0) (hS : ∀ a, E "ac|geom|wing|S_ref" a = E "ac|geom|wing|S_ref" 0)
    (hh : E "fltcond|h" = Integrals.integratorCompute (Integrals.simpsonTri m) (E "ode_integ_phase.fltcond|h_initial" 0)
      (.duration (E "duration" 0)) (E "fltcond|vs"))
    (hhf : E "ode_integ_phase.fltcond|h_final" 0 = Integrals.integratorFinal (Integrals.simpsonTri m)
      (E "ode_integ_phase.fltcond|h_initial" 0) (.duration (E "duration" 0)) (E "fltcond|vs"))
    (hr : E "range" = Integrals.integratorCompute (Integrals.simpsonTri m) (E "ode_integ_phase.range_initial" 0)
      (.duration (E "duration" 0)) (E "fltcond|groundspeed"))
    (hrf : E "ode_integ_phase.range_final" 0 = Integrals.integratorFinal (Integrals.simpsonTri m)
      (E "ode_integ_phase.range_initial" 0) (.duration (E "duration" 0)) (E "fltcond|groundspeed"))
    (hac : outOf E = ac l.name ⟨E "throttle", E "propulsor_active", E "fltcond|CL", condOf E, E "duration" 0⟩) :
    SteadyPhase ac l E := by
  have e1 : E "fltcond|groundspeed" = (steadyOf E).gs := funext fun a => (hn a).gs
  have e2 : E "propulsor_active" = fun _ => 1 := funext fun a => (hn a).active
  rw [e1] at hr hrf
  rw [e2] at hac
  refine ⟨hh, hr, hhf, hrf, ht, fun a => (hn a).atmos, hac, ?_, ?_⟩
  · intro a hq hs
    rw [(hn a).lift, (hn a).cl, ← (hn a).cos, hS a, Phases.steadyCL]
    field_simp
  · intro a hw hb hz
    have := (hn a).accel
    rw [hz, hb, (hn a).sin, Phases.accelHoriz] at this
    field_simp at this
    linarith

/-- **C115** (steady flight).  In every converged state of a steady phase of a mission the connections of the code give the phase of
C31, lift and thrust are those of unaccelerated flight, and the duration meets the target of the phase. -/
theorem C115_steady (ac : Craft m) (l : Leg) (o : Opts) (E : String → Fin (m + 1) → ℝ) (h : (leg ac l).Rel o E) :
    SteadyPhase ac l E := by
  have ho := h.over
  cases l
  · have hn := fun a => leg_climb_node o _ (h.node a)
    have hS := scalar_of h (legGrp .climb) rfl "ac|geom|wing|S_ref" (by decide +kernel)
    overs [leg, steadyIntegrands] (legGrp .climb) legGrp_climb_links E at ho
    obtain ⟨⟨⟨hh, hhf⟩, hr, hrf⟩, hac⟩ := ho
    exact steady_of (fun a => (hn a).1) (hn 0).2 hS hh (hhf 0) hr (hrf 0) hac
  · have hn := fun a => leg_cruise_node o _ (h.node a)
    have hS := scalar_of h (legGrp .cruise) rfl "ac|geom|wing|S_ref" (by decide +kernel)
    overs [leg, steadyIntegrands] (legGrp .cruise) legGrp_cruise_links E at ho
    obtain ⟨⟨⟨hh, hhf⟩, hr, hrf⟩, hac⟩ := ho
    exact steady_of (fun a => (hn a).1) (hn 0).2 hS hh (hhf 0) hr (hrf 0) hac
  · have hn := fun a => leg_descent_node o _ (h.node a)
    have hS := scalar_of h (legGrp .descent) rfl "ac|geom|wing|S_ref" (by decide +kernel)
    overs [leg, steadyIntegrands] (legGrp .descent) legGrp_descent_links E at ho
    obtain ⟨⟨⟨hh, hhf⟩, hr, hrf⟩, hac⟩ := ho
    exact steady_of (fun a => (hn a).1) (hn 0).2 hS hh (hhf 0) hr (hrf 0) hac
  · have hn := fun a => leg_reserveClimb_node o _ (h.node a)
    have hS := scalar_of h (legGrp .reserveClimb) rfl "ac|geom|wing|S_ref" (by decide +kernel)
    overs [leg, steadyIntegrands] (legGrp .reserveClimb) legGrp_reserveClimb_links E at ho
    obtain ⟨⟨⟨hh, hhf⟩, hr, hrf⟩, hac⟩ := ho
    exact steady_of (fun a => (hn a).1) (hn 0).2 hS hh (hhf 0) hr (hrf 0) hac
  · have hn := fun a => leg_reserveCruise_node o _ (h.node a)
    have hS := scalar_of h (legGrp .reserveCruise) rfl "ac|geom|wing|S_ref" (by decide +kernel)
    overs [leg, steadyIntegrands] (legGrp .reserveCruise) legGrp_reserveCruise_links E at ho
    obtain ⟨⟨⟨hh, hhf⟩, hr, hrf⟩, hac⟩ := ho
    exact steady_of (fun a => (hn a).1) (hn 0).2 hS hh (hhf 0) hr (hrf 0) hac
  · have hn := fun a => leg_reserveDescent_node o _ (h.node a)
    have hS := scalar_of h (legGrp .reserveDescent) rfl "ac|geom|wing|S_ref" (by decide +kernel)
    overs [leg, steadyIntegrands] (legGrp .reserveDescent) legGrp_reserveDescent_links E at ho
    obtain ⟨⟨⟨hh, hhf⟩, hr, hrf⟩, hac⟩ := ho
    exact steady_of (fun a => (hn a).1) (hn 0).2 hS hh (hhf 0) hr (hrf 0) hac
  · have hn := fun a => leg_loiter_node o _ (h.node a)
    have hS := scalar_of h (legGrp .loiter) rfl "ac|geom|wing|S_ref" (by decide +kernel)
    overs [leg, steadyIntegrands] (legGrp .loiter) legGrp_loiter_links E at ho
    obtain ⟨⟨⟨hh, hhf⟩, hr, hrf⟩, hac⟩ := ho
    exact steady_of (fun a => (hn a).1) (hn 0).2 hS hh (hhf 0) hr (hrf 0) hac

end Verif.Wiring
