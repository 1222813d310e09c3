import Verif.Model.Tutorial
import Verif.Props.Trajectory2

namespace Verif.Wiring

open Verif.Units
open Verif.Bfl (Craft Seg AcIn AcOut)
open Verif.Phases (Profile Follows Trip Level Steady)

variable {m : ℕ}

/-! ### states of steady phases -/

/-- lift coefficient of steady flight -/
noncomputable def flightCL (p : Steady m) (S : ℝ) (c : Fin (m + 1) → Atmos.FltCond) (W : Fin (m + 1) → ℝ) (a : Fin (m + 1)) : ℝ :=
  Phases.steadyCL ⟨W a, (c a).q, S, Phases.cosgamma ⟨p.vs a, (c a).utrue⟩⟩

/-- the state of a steady phase along the trajectory `p`; `x` is the target -/
noncomputable def flightState (l : Leg) (p : Steady m) (q : Profile m) (S x : ℝ) (c : Fin (m + 1) → Atmos.FltCond)
    (tau : Fin (m + 1) → ℝ) (out : AcOut m) : String → Fin (m + 1) → ℝ :=
  history fun a => legGiven x l ++ [("propulsor_active", 1), ("throttle", tau a), ("fltcond|h", p.h a),
    ("fltcond|TempIncrement", q.inc a), ("fltcond|Ueas", q.ueas a), ("fltcond|p", (c a).p), ("fltcond|T", (c a).T),
    ("fltcond|rho", (c a).rho), ("fltcond|a", (c a).a), ("fltcond|Utrue", (c a).utrue), ("fltcond|q", (c a).q), ("fltcond|M", (c a).mach),
    ("fltcond|vs", p.vs a), ("fltcond|groundspeed", Phases.groundspeed ⟨p.vs a, (c a).utrue⟩),
    ("fltcond|cosgamma", Phases.cosgamma ⟨p.vs a, (c a).utrue⟩), ("fltcond|singamma", Phases.singamma ⟨p.vs a, (c a).utrue⟩),
    ("fltcond|CL", flightCL p S c out.weight a), ("lift", Phases.lift (flightCL p S c out.weight a) (c a).q S),
    ("weight", out.weight a), ("drag", out.drag a), ("thrust", out.thrust a),
    ("ac|geom|wing|S_ref", S), ("accel_horiz", 0), ("zero_accel", 0),
    ("braking", 0), ("duration", p.duration), ("ode_integ_phase.fltcond|h_initial", p.hInitial),
    ("ode_integ_phase.fltcond|h_final", p.hFinal), ("ode_integ_phase.range_initial", p.rangeInitial), ("range", p.range a),
    ("ode_integ_phase.range_final", p.rangeFinal)]

/-- reads the tables -/
local macro "reads" : tactic => `(tactic| simp only [flightState, legGiven, history, table, List.lookup, String.reduceBEq,
  Option.getD_some, List.cons_append, List.nil_append])

/-- the conditions of a steady phase -/
structure FlightData (ac : Craft m) (n : String) (p : Steady m) (q : Profile m) (S : ℝ) (c : Fin (m + 1) → Atmos.FltCond)
    (tau : Fin (m + 1) → ℝ) (out : AcOut m) : Prop where
  vs : p.vs = q.vs
  cond : ∀ a, Atmos.atmosEas (p.h a) (q.inc a) (q.ueas a) = some (c a)
  utrue : ∀ a, p.utrue a = (c a).utrue
  craft : out = ac n ⟨tau, fun _ => 1, flightCL p S c out.weight, c, p.duration⟩
  weight : ∀ a, out.weight a ≠ 0
  thrust : ∀ a, out.thrust a = out.drag a + out.weight a * grav * Phases.singamma ⟨p.vs a, (c a).utrue⟩

theorem flight_exists (o : Opts) (l : Leg) {ac : Craft m} {p : Steady m} {q : Profile m} {S : ℝ} (x : ℝ)
    {c : Fin (m + 1) → Atmos.FltCond} {tau : Fin (m + 1) → ℝ} {out : AcOut m} (hd : FlightData ac l.name p q S c tau out)
    (hl : l = .climb ∧ p.hFinal = x ∨ l = .cruise ∨ l = .descent ∧ p.hFinal = x) :
    (leg ac l).Rel o (flightState l p q S x c tau out) := by
  have hu : ∀ a, (c a).ueas = q.ueas a := by
    intro a
    have := hd.cond a
    simp only [Atmos.atmosEas, Option.map_eq_some_iff] at this
    obtain ⟨_, -, e⟩ := this
    rw [← e]
  have hc : (fun a => (⟨(c a).p, (c a).T, (c a).rho, (c a).a, q.ueas a, (c a).utrue, (c a).q, (c a).mach⟩ : Atmos.FltCond)) = c :=
    funext fun a => by rw [← hu a]
  have hcraft : (⟨fun a => out.thrust a, fun a => out.drag a, fun a => out.weight a⟩ : AcOut m) = ac l.name ⟨fun a => tau a, fun _ => 1,
      fun a => flightCL p S c out.weight a,
      fun a => ⟨(c a).p, (c a).T, (c a).rho, (c a).a, q.ueas a, (c a).utrue, (c a).q, (c a).mach⟩, p.duration⟩ := by
    rw [hc]
    exact hd.craft
  have hgs : p.gs = fun a => Phases.groundspeed ⟨p.vs a, (c a).utrue⟩ := funext fun a => by
    rw [Phases.Steady.gs, hd.utrue]
  have hR : p.range = Integrals.integratorCompute (Integrals.simpsonTri m) p.rangeInitial (.duration p.duration)
      fun a => Phases.groundspeed ⟨p.vs a, (c a).utrue⟩ := by rw [← hgs]; rfl
  have hRf : p.rangeFinal = Integrals.integratorCompute (Integrals.simpsonTri m) p.rangeInitial (.duration p.duration)
      (fun a => Phases.groundspeed ⟨p.vs a, (c a).utrue⟩) (Fin.last m) := by rw [← hgs]; rfl
  have heq : ∀ a, LegEqs fun n => flightState l p q S x c tau out n a := by
    intro a
    have ha : Phases.accelHoriz ⟨out.weight a, out.drag a, Phases.lift (flightCL p S c out.weight a) (c a).q S, out.thrust a,
        Phases.singamma ⟨p.vs a, (c a).utrue⟩, 0, 0⟩ = 0 := by
      have h0 := hd.weight a
      rw [Phases.accelHoriz, hd.thrust a]
      field_simp
      ring
    rcases hl with ⟨rfl, -⟩ | rfl | ⟨rfl, -⟩ <;> constructor <;> reads <;> first | rfl | exact ha.symm | (rw [hd.cond a, ← hu a])
  rcases hl with ⟨rfl, rfl⟩ | rfl | ⟨rfl, rfl⟩
  · refine ⟨?_, fun a => leg_climb_of o _ (heq a) (by reads), ?_⟩
    · have key : (((legGrp .climb).ins ++ (legGrp .climb).outs).all fun v => v.vec || ["ac|geom|wing|S_ref", "duration",
          "ode_integ_phase.fltcond|h_initial", "ode_integ_phase.fltcond|h_final", "ode_integ_phase.range_initial",
          "ode_integ_phase.range_final", "climbdt.cruise|h0"].contains v.name) = true := by
        decide +kernel
      intro v hv hs a
      have := List.all_eq_true.1 key v hv
      rw [hs, Bool.false_or, List.contains_iff_mem] at this
      revert this
      generalize v.name = n
      intro hm
      fin_cases hm <;> reads
    · generalize hG : flightState .climb p q S p.hFinal c tau out = G
      overs [leg, steadyIntegrands] (legGrp .climb) legGrp_climb_links G
      rw [← hG]
      reads
      exact ⟨⟨⟨rfl, fun _ => rfl⟩, hR, fun _ => hRf⟩, hcraft⟩
  · refine ⟨?_, fun a => ?_, ?_⟩
    · have key : (((legGrp .cruise).ins ++ (legGrp .cruise).outs).all fun v => v.vec || ["ac|geom|wing|S_ref", "duration",
          "ode_integ_phase.fltcond|h_initial", "ode_integ_phase.fltcond|h_final", "ode_integ_phase.range_initial",
          "ode_integ_phase.range_final", "cruisedt.range_final", "cruisedt.mission_range"].contains v.name) = true := by
        decide +kernel
      intro v hv hs a
      have := List.all_eq_true.1 key v hv
      rw [hs, Bool.false_or, List.contains_iff_mem] at this
      revert this
      generalize v.name = n
      intro hm
      fin_cases hm <;> reads
    · obtain ⟨c1, at1, g1, g2, g3, cl, l1, a1, b1⟩ := heq a
      exact leg_cruise_of o _ c1 at1 g1 g2 g3 cl l1 a1 b1 (by reads)
    · generalize hG : flightState .cruise p q S x c tau out = G
      overs [leg, steadyIntegrands] (legGrp .cruise) legGrp_cruise_links G
      rw [← hG]
      reads
      exact ⟨⟨⟨rfl, fun _ => rfl⟩, hR, fun _ => hRf⟩, hcraft⟩
  · refine ⟨?_, fun a => leg_descent_of o _ (heq a) (by reads), ?_⟩
    · have key : (((legGrp .descent).ins ++ (legGrp .descent).outs).all fun v => v.vec || ["ac|geom|wing|S_ref", "duration",
          "ode_integ_phase.fltcond|h_initial", "ode_integ_phase.fltcond|h_final", "ode_integ_phase.range_initial",
          "ode_integ_phase.range_final", "descentdt.takeoff|h"].contains v.name) = true := by
        decide +kernel
      intro v hv hs a
      have := List.all_eq_true.1 key v hv
      rw [hs, Bool.false_or, List.contains_iff_mem] at this
      revert this
      generalize v.name = n
      intro hm
      fin_cases hm <;> reads
    · generalize hG : flightState .descent p q S p.hFinal c tau out = G
      overs [leg, steadyIntegrands] (legGrp .descent) legGrp_descent_links G
      rw [← hG]
      reads
      exact ⟨⟨⟨rfl, fun _ => rfl⟩, hR, fun _ => hRf⟩, hcraft⟩

/-! ### missions from phases -/

/-- three phases along a trip form a converged `BasicMission` -/
theorem basic_exists (o : Opts) {ac : Craft m} (ac1 : Craft 0) {c k d : Steady m} {qc qk qd : Profile m} {S h0 r0 H R : ℝ}
    {cc ck cd : Fin (m + 1) → Atmos.FltCond} {tc tk td : Fin (m + 1) → ℝ} {oc ok od : AcOut m}
    (ht : Trip qc qk qd h0 r0 H h0 R c k d) (d1 : FlightData ac "climb" c qc S cc tc oc)
    (d2 : FlightData ac "cruise" k qk S ck tk ok) (d3 : FlightData ac "descent" d qd S cd td od) :
    ∃ (E : String → Fin (m + 1) → ℝ) (F : String → String → Fin (m + 1) → ℝ),
      MissionRel ⟨false, false, false⟩ false ac ac1 o E F ∧ E "takeoff|h" 0 * 0.3048 = h0 ∧ E "cruise|h0" 0 * 0.3048 = H ∧
      E "mission_range" 0 * 1852 = R ∧ F "climb" = flightState .climb c qc S H cc tc oc ∧
      F "cruise" = flightState .cruise k qk S (R / 1000) ck tk ok ∧ F "descent" = flightState .descent d qd S h0 cd td od := by
  have p1 := flight_exists o .climb H d1 (Or.inl ⟨rfl, ht.climb⟩)
  have p2 := flight_exists o .cruise (R / 1000) d2 (Or.inr (Or.inl rfl))
  have p3 := flight_exists o .descent h0 d3 (Or.inr (Or.inr ⟨rfl, ht.descent⟩))
  obtain ⟨E, hE⟩ : ∃ E, E = history fun a : Fin (m + 1) => [("takeoff|h", h0 / 0.3048), ("cruise|h0", H / 0.3048),
    ("mission_range", R / 1852), ("payload", 0), ("takeoff|v2", 0), ("ac|geom|wing|S_ref", S),
    ("climb.ode_integ_phase.fltcond|h_final", c.hFinal), ("climb.ode_integ_phase.range_final", c.rangeFinal), ("climb.fltcond|vs", c.vs a),
    ("climb.ode_integ_phase.range_initial", r0), ("climb.fltcond|TempIncrement", qc.inc a), ("climb.fltcond|Ueas", qc.ueas a),
    ("climb.braking", 0), ("climb.zero_accel", 0),
    ("cruise.ode_integ_phase.fltcond|h_final", k.hFinal), ("cruise.ode_integ_phase.range_final", k.rangeFinal),
    ("cruise.fltcond|vs", k.vs a), ("cruise.fltcond|TempIncrement", qk.inc a), ("cruise.fltcond|Ueas", qk.ueas a), ("cruise.braking", 0),
    ("cruise.zero_accel", 0), ("descent.ode_integ_phase.fltcond|h_final", d.hFinal),
    ("descent.ode_integ_phase.range_final", d.rangeFinal), ("descent.fltcond|vs", d.vs a),
    ("descent.fltcond|TempIncrement", qd.inc a), ("descent.fltcond|Ueas", qd.ueas a), ("descent.braking", 0), ("descent.zero_accel", 0)]
    := ⟨_, rfl⟩
  obtain ⟨F, hF⟩ : ∃ F : String → String → Fin (m + 1) → ℝ, F = fun n => if n = "climb" then flightState .climb c qc S H cc tc oc
    else if n = "cruise" then flightState .cruise k qk S (R / 1000) ck tk ok else flightState .descent d qd S h0 cd td od := ⟨_, rfl⟩
  refine ⟨E, F, ⟨?_, ?_, ?_, ?_⟩, ?_, ?_, ?_, by rw [hF]; rfl, by rw [hF]; rfl, by rw [hF]; rfl⟩
  · have key : (((missionGrp ⟨false, false, false⟩ false).ins ++ (missionGrp ⟨false, false, false⟩ false).outs).all fun v => v.vec ||
        ["takeoff|h", "cruise|h0", "mission_range", "payload", "takeoff|v2", "ac|geom|wing|S_ref",
         "climb.ode_integ_phase.fltcond|h_final", "climb.ode_integ_phase.range_final",
         "climb.ode_integ_phase.range_initial", "cruise.ode_integ_phase.fltcond|h_final", "cruise.ode_integ_phase.range_final",
         "descent.ode_integ_phase.fltcond|h_final", "descent.ode_integ_phase.range_final"].contains v.name) = true := by
      decide +kernel
    intro v hv hs a
    have := List.all_eq_true.1 key v hv
    rw [hs, Bool.false_or, List.contains_iff_mem] at this
    revert this
    generalize v.name = n
    intro hm
    fin_cases hm <;> simp only [hE, history, table, List.lookup, String.reduceBEq, Option.getD_some]
  · intro a s hs
    simp only [missionGrp, Bool.false_eq_true, if_false, Bool.not_false, Bool.and_false, List.append_nil, List.cons_append,
      List.nil_append, List.mem_cons, List.not_mem_nil, or_false] at hs
    rcases hs with rfl | rfl | rfl | rfl <;> trivial
  · intro p hp
    simp only [missionPhases, legsOf, Bool.false_eq_true, if_false, Bool.not_false, Bool.and_false, List.append_nil,
      List.nil_append, List.map_cons, List.map_nil, List.mem_cons, List.not_mem_nil, or_false] at hp
    rcases hp with rfl | rfl | rfl
    · simpa [hF, Leg.name] using p1
    · simpa [hF, Leg.name] using p2
    · simpa [hF, Leg.name] using p3
  · have key : ∀ l ∈ (missionGrp ⟨false, false, false⟩ false).links, l.sub ≠ "missionparams" → ∀ a,
        F l.sub l.var a = conv l.unit l.want (E l.src a) := by
      rw [basic_links]
      intro l hl
      have e1 := ht.start.1
      have e2 := ht.start.2
      have e3 := ht.linkK.1
      have e4 := ht.linkK.2 rfl
      have e5 := ht.linkD.1
      have e6 := ht.linkD.2 rfl
      have e7 := ht.range
      fin_cases hl <;> intro hn a <;> first
        | exact absurd rfl hn
        | (simp only [hF, String.reduceEq, if_true, if_false, hE, history, table, List.lookup, String.reduceBEq, Option.getD_some,
            conv_self, conv_ft_m, conv_NM_km, conv_m_km]
           reads
           first | done | exact e1 | exact e2 | exact e3 | exact e4 | exact e5 | exact e6 | (rw [e1]; ring1) | ring1 | linarith)
    intro s hs hp v hv
    obtain ⟨l, hl, h1, h2, h3⟩ := view_link hs hv
    funext a
    rw [Grp.seen, h3, ← key l hl (by rw [h1]; rintro h; rw [h] at hp; revert hp; simp [missionPhases, legsOf, Leg.name]) a, h1, h2]
  · simp only [hE, history, table, List.lookup, String.reduceBEq, Option.getD_some]; ring
  · simp only [hE, history, table, List.lookup, String.reduceBEq, Option.getD_some]; ring
  · simp only [hE, history, table, List.lookup, String.reduceBEq, Option.getD_some]; ring

end Verif.Wiring
