import Verif.Props.WiringPhases
import Verif.Props.Takeoff

namespace Verif.Wiring

open Verif.Units Verif.VectorComps
open Verif.Bfl (Craft Seg AcIn AcOut)

variable {m : ℕ}

/-! ### C115: existence -/

/-- a state over the nodes given by a table -/
def history (l : Fin (m + 1) → List (String × ℝ)) (n : String) (a : Fin (m + 1)) : ℝ := table (l a) n

theorem ground_v0v1_of (o : Opts) (e : String → ℝ) (c1 : e "fltcond|CL" = 0.1) (c2 : e "vr_vstall_mult" = 1.1) (c3 : e "fltcond|h" = 0)
    (c4 : e "fltcond|vs" = 0) (c5 : e "zero_speed" = 2) (c6 : e "braking" = 0.03) (c7 : e "propulsor_active" = 1)
    (c8 : e "throttle" = 1) (at1 : Atmos.atmosTas (e "fltcond|h") (e "fltcond|TempIncrement") (e "fltcond|Utrue") =
      some ⟨e "fltcond|p", e "fltcond|T", e "fltcond|rho", e "fltcond|a", e "fltcond|Ueas", e "fltcond|Utrue", e "fltcond|q",
        e "fltcond|M"⟩)
    (g1 : e "fltcond|groundspeed" = Phases.groundspeed ⟨e "fltcond|vs", e "fltcond|Utrue"⟩)
    (g2 : e "fltcond|cosgamma" = Phases.cosgamma ⟨e "fltcond|vs", e "fltcond|Utrue"⟩)
    (g3 : e "fltcond|singamma" = Phases.singamma ⟨e "fltcond|vs", e "fltcond|Utrue"⟩)
    (l1 : e "lift" = Phases.lift (e "fltcond|CL") (e "fltcond|q") (e "ac|geom|wing|S_ref"))
    (s1 : e "Vstall_eas" = Aero.vStall (e "ac|weights|MTOW") (e "ac|geom|wing|S_ref") (e "ac|aero|CLmax_TO"))
    (v1 : e "takeoff|vr" = e "Vstall_eas" * e "vr_vstall_mult")
    (a1 : e "accel_horiz" = Phases.accelHoriz ⟨e "weight", e "drag", e "lift", e "thrust", e "fltcond|singamma", 0, e "braking"⟩)
    (b1 : e "takeoff|v1" = e "fltcond|Utrue_final") : (groundGrp .v0v1).rel o e := by
  parts (groundGrp .v0v1) [groundGrp, consts, groundConsts, groundSettings, groundspeeds_rel, lift_rel, stall_rel, haccel_rel,
    stall, speedMultiple_rel, balance1, aircraft, integ_rel, atmosTas_rel]
  views (groundGrp .v0v1) groundGrp_v0v1_links e
  refine ⟨⟨c1, c2, c3, c4, c5, c6, c7, c8⟩, at1, ⟨g1, g2, g3⟩, l1, s1, v1, a1, ?_⟩
  rw [b1, Propulsion.balanceResidual, sub_self, zero_mul]

/-- **C115** (every ground roll is a state of the group).  Each converged ground roll of C102 from sea level is a converged state of
`GroundRollPhase`, so the statement about these states is not empty. -/
theorem C115_ground_exists (ac : Craft m) (o : Opts) (d : Bfl.Design) (v1 : ℝ) (g : Bfl.Ground m)
    (h : g.Converged ac d (Integrals.simpsonTri m) v1 .v0v1) (hh : ∀ a, g.h a = 0) :
    ∃ E, (ground ac .v0v1).Rel o E ∧ groundOf .v0v1 E = g ∧ designOf E = d ∧ E "takeoff|v1" 0 = v1 := by
  obtain ⟨E, hE⟩ : ∃ E, E = history fun a => [("fltcond|CL", 0.1), ("vr_vstall_mult", 1.1), ("fltcond|h", 0), ("fltcond|vs", 0),
    ("zero_speed", 2), ("braking", 0.03), ("propulsor_active", 1), ("throttle", 1), ("fltcond|p", (g.cond a).p),
    ("fltcond|T", (g.cond a).T), ("fltcond|rho", (g.cond a).rho), ("fltcond|a", (g.cond a).a), ("fltcond|Ueas", (g.cond a).ueas),
    ("fltcond|Utrue", g.utrue a), ("fltcond|q", (g.cond a).q), ("fltcond|M", (g.cond a).mach), ("fltcond|TempIncrement", g.inc a),
    ("fltcond|groundspeed", Phases.groundspeed (g.gsIn a)), ("fltcond|cosgamma", Phases.cosgamma (g.gsIn a)),
    ("fltcond|singamma", Phases.singamma (g.gsIn a)), ("thrust", g.out.thrust a), ("drag", g.out.drag a),
    ("weight", g.out.weight a), ("duration", g.duration), ("lift", Phases.lift 0.1 (g.cond a).q d.sref),
    ("ac|geom|wing|S_ref", d.sref), ("ac|weights|MTOW", d.mtow), ("ac|aero|CLmax_TO", d.clmax), ("Vstall_eas", d.vs),
    ("takeoff|vr", d.vr), ("accel_horiz", g.accel d .v0v1 a), ("fltcond|Utrue_final", v1), ("takeoff|v1", v1),
    ("range", g.range (Integrals.simpsonTri m) .v0v1 a), ("range_final", g.range (Integrals.simpsonTri m) .v0v1 (Fin.last m)),
    ("range_initial", g.rangeInitial)] := ⟨_, rfl⟩
  have hu : ∀ a, (g.cond a).utrue = g.utrue a := fun a => by
    have := h.atmos a
    simp only [Atmos.atmosTas, Option.map_eq_some_iff] at this
    obtain ⟨_, -, e⟩ := this
    rw [← e]
  have hl : v1 = g.utrue (Fin.last m) := sub_eq_zero.1 h.balance
  refine ⟨E, ⟨?_, ?_, ?_⟩, ?_, ?_, ?_⟩
  · have key : (((groundGrp .v0v1).ins ++ (groundGrp .v0v1).outs).all fun v => v.vec || ["ac|geom|wing|S_ref", "ac|weights|MTOW",
        "ac|aero|CLmax_TO", "takeoff|v1", "vr_vstall_mult", "zero_speed", "Vstall_eas", "takeoff|vr", "fltcond|Utrue_final",
        "range_final", "duration"].contains v.name) = true := by decide +kernel
    intro v hv hs a
    have := List.all_eq_true.1 key v hv
    rw [hs, Bool.false_or, List.contains_iff_mem] at this
    revert this
    generalize v.name = n
    intro hm
    fin_cases hm <;> simp only [hE, history, table, List.lookup, String.reduceBEq, Option.getD_some]
  · intro a
    apply ground_v0v1_of <;> simp only [hE, history, table, List.lookup, String.reduceBEq, Option.getD_some]
    · rw [← hh a, h.atmos a, ← hu a]
    all_goals rfl
  · overs [ground, groundIntegrands] (groundGrp .v0v1) groundGrp_v0v1_links E
    simp only [hE, history, table, List.lookup, String.reduceBEq, Option.getD_some, ← hu]
    have hz : g.utrueInitial = 2 := h.start
    have hs := h.speed
    rw [Bfl.Ground.speeds, hz] at hs
    refine ⟨h.craft, ⟨?_, fun i => ?_⟩, rfl, fun _ => rfl⟩
    · rw [funext hu]
      exact hs
    · rw [hl, congrFun hs (Fin.last m)]
      rfl
  · show Bfl.Ground.mk _ _ _ _ _ _ _ _ = Bfl.Ground.mk g.h g.inc g.duration g.utrueInitial g.rangeInitial g.utrue g.cond g.out
    congr 1
    · funext a
      rw [hh a]
      simp only [hE, history, table, List.lookup, String.reduceBEq, Option.getD_some]
    all_goals try (funext a)
    all_goals try simp only [condOf, startOf, hE, history, table, List.lookup, String.reduceBEq, Option.getD_some, ← hu]
    · exact h.start.symm
    · show AcOut.mk _ _ _ = AcOut.mk g.out.thrust g.out.drag g.out.weight
      congr 1
  · simp only [designOf, hE, history, table, List.lookup, String.reduceBEq, Option.getD_some]
  · simp only [hE, history, table, List.lookup, String.reduceBEq, Option.getD_some]

/-- an airplane that reaches 40 m/s with 2 m/s² -/
example (o : Opts) : ∃ (ac : Craft 10) (E : String → Fin 11 → ℝ), (ground ac .v0v1).Rel o E ∧ E "duration" 0 = 19 ∧
    E "takeoff|v1" 0 = 40 := by
  obtain ⟨g, hg, hh, -, -, hd⟩ := Bfl.ground_exists (m := 10) (d := ⟨5700, 30, 2⟩) rfl (by norm_num) (by norm_num) .v0v1
    ⟨0, 0, 0⟩ 0 0 0 2 1 (-1) 40 (by norm_num) (by norm_num [Bfl.Seg.pick])
  obtain ⟨E, hE, e, -, hv⟩ := C115_ground_exists _ o _ _ g hg fun a => (hh a).1
  refine ⟨_, E, hE, ?_, hv⟩
  rw [show E "duration" 0 = (groundOf .v0v1 E).duration from rfl, e, hd]
  norm_num [Bfl.Seg.pick, Bfl.Seg.to, Bfl.Seg.from]

theorem leg_cruise_of (o : Opts) (e : String → ℝ) (c1 : e "propulsor_active" = 1)
    (at1 : Atmos.atmosEas (e "fltcond|h") (e "fltcond|TempIncrement") (e "fltcond|Ueas") = some ⟨e "fltcond|p", e "fltcond|T",
      e "fltcond|rho", e "fltcond|a", e "fltcond|Ueas", e "fltcond|Utrue", e "fltcond|q", e "fltcond|M"⟩)
    (g1 : e "fltcond|groundspeed" = Phases.groundspeed ⟨e "fltcond|vs", e "fltcond|Utrue"⟩)
    (g2 : e "fltcond|cosgamma" = Phases.cosgamma ⟨e "fltcond|vs", e "fltcond|Utrue"⟩)
    (g3 : e "fltcond|singamma" = Phases.singamma ⟨e "fltcond|vs", e "fltcond|Utrue"⟩)
    (cl : e "fltcond|CL" = Phases.steadyCL ⟨e "weight", e "fltcond|q", e "ac|geom|wing|S_ref", e "fltcond|cosgamma"⟩)
    (l1 : e "lift" = Phases.lift (e "fltcond|CL") (e "fltcond|q") (e "ac|geom|wing|S_ref"))
    (a1 : e "accel_horiz" = Phases.accelHoriz ⟨e "weight", e "drag", e "lift", e "thrust", e "fltcond|singamma", 0, e "braking"⟩)
    (b1 : e "zero_accel" = e "accel_horiz") (b2 : e "cruisedt.range_final" = e "cruisedt.mission_range") :
    (legGrp .cruise).rel o e := by
  parts (legGrp .cruise) [legGrp, steadyGrp, consts, groundspeeds_rel, lift_rel, haccel_rel, balance1, aircraft, integ_rel,
    atmosEas_rel, steadyCL_rel]
  views (legGrp .cruise) legGrp_cruise_links e
  refine ⟨c1, at1, ⟨g1, g2, g3⟩, cl, l1, a1, ?_, ?_⟩
  · rw [b1, Propulsion.balanceResidual, sub_self, zero_mul]
  · rw [b2, Propulsion.balanceResidual, sub_self, zero_mul]

/-- level cruise of a 2 t airplane at 3000 m and 60 m/s for ten minutes -/
example (o : Opts) : ∃ (ac : Craft m) (E : String → Fin (m + 1) → ℝ), (leg ac .cruise).Rel o E ∧ E "duration" 0 = 600 ∧
    ∀ a, E "fltcond|h" a = 3000 ∧ E "fltcond|Ueas" a = 60 := by
  obtain ⟨p, hp, -⟩ := Bfl.pressure_some (h := 3000) (by norm_num)
  obtain ⟨c, hc⟩ : ∃ c, Atmos.atmosEas 3000 0 60 = some c := by
    unfold Atmos.atmosEas
    rw [hp]
    exact ⟨_, rfl⟩
  have hu : c.ueas = 60 := by
    simp only [Atmos.atmosEas, Option.map_eq_some_iff] at hc
    obtain ⟨_, -, e⟩ := hc
    rw [← e]
  have hi : ∀ a, Integrals.integratorCompute (Integrals.simpsonTri m) (3000 : ℝ) (.duration 600) (fun _ => 0) a = 3000 := by
    intro a
    rw [Integrals.integratorCompute_eq, show (fun _ : Fin (m + 1) => (0 : ℝ)) = 0 from rfl, Matrix.mulVec_zero]
    simp
  let gs := Phases.groundspeed ⟨0, c.utrue⟩
  let cl := Phases.steadyCL ⟨2000, c.q, 20, Phases.cosgamma ⟨0, c.utrue⟩⟩
  let R := Integrals.integratorCompute (Integrals.simpsonTri m) 0 (.duration 600) fun _ => gs
  have hs : Phases.singamma ⟨0, c.utrue⟩ = 0 := by
    have : ¬ Phases.GsIn.inside ⟨0, c.utrue⟩ < 0 := by
      simp only [Phases.GsIn.inside]
      nlinarith [sq_nonneg c.utrue]
    rw [Phases.singamma, if_neg this, zero_div]
  obtain ⟨E, hE⟩ : ∃ E, E = history fun a : Fin (m + 1) => [("propulsor_active", 1), ("throttle", 0.5), ("fltcond|h", 3000),
    ("fltcond|TempIncrement", 0), ("fltcond|Ueas", 60), ("fltcond|p", c.p), ("fltcond|T", c.T), ("fltcond|rho", c.rho),
    ("fltcond|a", c.a), ("fltcond|Utrue", c.utrue), ("fltcond|q", c.q), ("fltcond|M", c.mach), ("fltcond|vs", 0),
    ("fltcond|groundspeed", gs), ("fltcond|cosgamma", Phases.cosgamma ⟨0, c.utrue⟩),
    ("fltcond|singamma", Phases.singamma ⟨0, c.utrue⟩), ("fltcond|CL", cl), ("lift", Phases.lift cl c.q 20),
    ("weight", 2000), ("drag", 1500), ("thrust", 1500), ("ac|geom|wing|S_ref", 20), ("accel_horiz", 0), ("zero_accel", 0),
    ("braking", 0), ("duration", 600), ("ode_integ_phase.fltcond|h_initial", 3000), ("ode_integ_phase.fltcond|h_final", 3000),
    ("ode_integ_phase.range_initial", 0), ("range", R a), ("ode_integ_phase.range_final", R (Fin.last m)),
    ("cruisedt.range_final", 500), ("cruisedt.mission_range", 500)] := ⟨_, rfl⟩
  refine ⟨fun _ _ => ⟨fun _ => 1500, fun _ => 1500, fun _ => 2000⟩, E, ⟨?_, ?_, ?_⟩, ?_, ?_⟩
  · have key : (((legGrp .cruise).ins ++ (legGrp .cruise).outs).all fun v => v.vec || ["ac|geom|wing|S_ref", "duration",
        "ode_integ_phase.fltcond|h_initial", "ode_integ_phase.fltcond|h_final", "ode_integ_phase.range_initial",
        "ode_integ_phase.range_final", "cruisedt.range_final", "cruisedt.mission_range"].contains v.name) = true := by
      decide +kernel
    intro v hv hs a
    have := List.all_eq_true.1 key v hv
    rw [hs, Bool.false_or, List.contains_iff_mem] at this
    revert this
    generalize v.name = n
    intro hm
    fin_cases hm <;> simp only [hE, history, table, List.lookup, String.reduceBEq, Option.getD_some]
  · intro a
    apply leg_cruise_of <;> simp only [hE, history, table, List.lookup, String.reduceBEq, Option.getD_some]
    · rw [hc, ← hu]
    · rfl
    · rfl
    · rw [hs, Phases.accelHoriz]
      simp
  · overs [leg, steadyIntegrands] (legGrp .cruise) legGrp_cruise_links E
    simp only [hE, history, table, List.lookup, String.reduceBEq, Option.getD_some]
    refine ⟨⟨⟨?_, fun _ => ?_⟩, rfl, fun _ => rfl⟩, trivial⟩
    · funext a
      exact (hi a).symm
    · exact (hi _).symm
  · simp only [hE, history, table, List.lookup, String.reduceBEq, Option.getD_some]
  · intro a
    constructor <;> simp only [hE, history, table, List.lookup, String.reduceBEq, Option.getD_some]

/-! ### C115: setup -/

/-- **C115** (setup).  All the phases of a mission can be set up: every connection is between existing variables of compatible units
and shapes, no variable is computed twice and all promoted inputs agree. -/
theorem C115_setup : (∀ s, (groundGrp s).problems = []) ∧ rotationGrp.problems = [] ∧ robustGrp.problems = [] ∧
    (∀ all, (climbAngleGrp all).single.problems = []) ∧ ∀ l, (legGrp l).problems = [] := by
  refine ⟨fun s => ?_, by decide +kernel, by decide +kernel, fun a => ?_, fun l => ?_⟩
  · cases s <;> decide +kernel
  · cases a <;> decide +kernel
  · cases l <;> decide +kernel

/-- the inputs that a mission has to connect to the balance of a steady phase -/
def legOpen : Leg → List String
  | .climb => ["climbdt.cruise|h0"]
  | .cruise => ["cruisedt.range_final", "cruisedt.mission_range"]
  | .descent => ["descentdt.takeoff|h"]
  | .reserveClimb => ["reserve_climbdt.reserve|h0"]
  | .reserveCruise => ["reserve_cruisedt.range_final", "reserve_cruisedt.reserve_range"]
  | .reserveDescent => ["reserve_descentdt.takeoff|h"]
  | .loiter => ["duration_in"]

/-- **C115** (open inputs).  What a mission or the user has to give to a phase: nothing else is left unconnected. -/
theorem C115_inputs :
    (groundGrp .v0v1).ins.map (·.name) = ["fltcond|TempIncrement", "ac|geom|wing|S_ref", "ac|weights|MTOW", "ac|aero|CLmax_TO",
      "takeoff|v1"] ∧
    (groundGrp .v1vr).ins.map (·.name) = ["fltcond|TempIncrement", "ac|geom|wing|S_ref", "ac|weights|MTOW", "ac|aero|CLmax_TO",
      "fltcond|Utrue_initial", "range_initial"] ∧
    (groundGrp .v1v0).ins.map (·.name) = ["fltcond|TempIncrement", "ac|geom|wing|S_ref", "ac|weights|MTOW", "ac|aero|CLmax_TO",
      "range_initial", "takeoff|v1"] ∧
    rotationGrp.ins.map (·.name) = ["fltcond|TempIncrement", "ac|aero|CLmax_TO", "ac|geom|wing|S_ref", "fltcond|Utrue_initial",
      "range_initial"] ∧
    robustGrp.ins.map (·.name) = ["h_initial", "ac|weights|MTOW", "ac|geom|wing|S_ref", "ac|aero|CLmax_TO",
      "fltcond|TempIncrement", "range_initial"] ∧
    (∀ all, (climbAngleGrp all).single.ins.map (·.name) = ["ac|weights|MTOW", "ac|geom|wing|S_ref", "ac|aero|CLmax_TO",
      "fltcond|TempIncrement", "duration"]) ∧
    ∀ l, (legGrp l).ins.map (·.name) = ["fltcond|vs", "ode_integ_phase.fltcond|h_initial", "ode_integ_phase.range_initial",
      "fltcond|TempIncrement", "fltcond|Ueas", "ac|geom|wing|S_ref", "braking", "zero_accel"] ++ legOpen l := by
  refine ⟨by decide +kernel, by decide +kernel, by decide +kernel, by decide +kernel, by decide +kernel, fun a => ?_, fun l => ?_⟩
  · cases a <;> decide +kernel
  · cases l <;> decide +kernel

/-- **C115** (limits of the setup).  A `SteadyFlightPhase` to which nobody adds an output `duration` cannot be set up, although its
documentation lists the duration as a parameter that can be set: `PhaseGroup.configure` connects it from an input.  A
`ClimbAnglePhase` cannot be set up with several nodes. -/
theorem C115_setup_limits : (steadyGrp [] []).problems = [.badConnect "duration" "ode_integ_phase.duration"] ∧
    ∀ all, .shapes "takeoff|v2" "fltcond|Ueas" ∈ (climbAngleGrp all).problems := by
  refine ⟨by decide +kernel, fun a => ?_⟩
  cases a <;> decide +kernel

end Verif.Wiring
