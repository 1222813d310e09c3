import Verif.Props.WiringProfiles3

namespace Verif.Wiring

open Verif.Units
open Verif.Bfl (Craft Seg AcIn AcOut)

variable {m : ℕ}

/-! ### C116: a converged mission -/

/-- what a steady phase demands of its components, except for the duration -/
structure LegEqs (e : String → ℝ) : Prop where
  active : e "propulsor_active" = 1
  atmos : Atmos.atmosEas (e "fltcond|h") (e "fltcond|TempIncrement") (e "fltcond|Ueas") = some ⟨e "fltcond|p", e "fltcond|T",
      e "fltcond|rho", e "fltcond|a", e "fltcond|Ueas", e "fltcond|Utrue", e "fltcond|q", e "fltcond|M"⟩
  gs : e "fltcond|groundspeed" = Phases.groundspeed ⟨e "fltcond|vs", e "fltcond|Utrue"⟩
  cosg : e "fltcond|cosgamma" = Phases.cosgamma ⟨e "fltcond|vs", e "fltcond|Utrue"⟩
  sing : e "fltcond|singamma" = Phases.singamma ⟨e "fltcond|vs", e "fltcond|Utrue"⟩
  cl : e "fltcond|CL" = Phases.steadyCL ⟨e "weight", e "fltcond|q", e "ac|geom|wing|S_ref", e "fltcond|cosgamma"⟩
  lift : e "lift" = Phases.lift (e "fltcond|CL") (e "fltcond|q") (e "ac|geom|wing|S_ref")
  accel : e "accel_horiz" = Phases.accelHoriz ⟨e "weight", e "drag", e "lift", e "thrust", e "fltcond|singamma", 0, e "braking"⟩
  zero : e "zero_accel" = e "accel_horiz"

theorem leg_climb_of (o : Opts) (e : String → ℝ) (h : LegEqs e) (b : e "ode_integ_phase.fltcond|h_final" = e "climbdt.cruise|h0") :
    (legGrp .climb).rel o e := by
  obtain ⟨c1, at1, g1, g2, g3, cl, l1, a1, b1⟩ := h
  parts (legGrp .climb) [legGrp, steadyGrp, consts, groundspeeds_rel, lift_rel, haccel_rel, balance1, aircraft, integ_rel,
    atmosEas_rel, steadyCL_rel]
  views (legGrp .climb) legGrp_climb_links e
  refine ⟨c1, at1, ⟨g1, g2, g3⟩, cl, l1, a1, ?_, ?_⟩
  · rw [b1, Propulsion.balanceResidual, sub_self, zero_mul]
  · rw [b, Propulsion.balanceResidual, sub_self, zero_mul]

theorem leg_descent_of (o : Opts) (e : String → ℝ) (h : LegEqs e)
    (b : e "ode_integ_phase.fltcond|h_final" = e "descentdt.takeoff|h") : (legGrp .descent).rel o e := by
  obtain ⟨c1, at1, g1, g2, g3, cl, l1, a1, b1⟩ := h
  parts (legGrp .descent) [legGrp, steadyGrp, consts, groundspeeds_rel, lift_rel, haccel_rel, balance1, aircraft, integ_rel,
    atmosEas_rel, steadyCL_rel]
  views (legGrp .descent) legGrp_descent_links e
  refine ⟨c1, at1, ⟨g1, g2, g3⟩, cl, l1, a1, ?_, ?_⟩
  · rw [b1, Propulsion.balanceResidual, sub_self, zero_mul]
  · rw [b, Propulsion.balanceResidual, sub_self, zero_mul]

/-- an airplane of 2 t whose engine gives the thrust for the vertical speed `vs` of each phase -/
noncomputable def steadyCraft (vs : String → ℝ) : Craft m := fun n i =>
  ⟨fun a => 1500 + 2000 * (grav * Phases.singamma ⟨vs n, (i.cond a).utrue⟩), fun _ => 1500, fun _ => 2000⟩

/-- what the mission gives to a phase: `x` is its target -/
def legGiven (x : ℝ) : Leg → List (String × ℝ)
  | .climb => [("climbdt.cruise|h0", x)]
  | .cruise => [("cruisedt.range_final", x), ("cruisedt.mission_range", x)]
  | _ => [("descentdt.takeoff|h", x)]

/-- the state of a steady phase with a constant rate of climb -/
noncomputable def legState (l : Leg) (h0 r0 vs T x : ℝ) (c : Fin (m + 1) → Atmos.FltCond) : String → Fin (m + 1) → ℝ :=
  let gs := fun a => Phases.groundspeed ⟨vs, (c a).utrue⟩
  let cl := fun a => Phases.steadyCL ⟨2000, (c a).q, 20, Phases.cosgamma ⟨vs, (c a).utrue⟩⟩
  let R := Integrals.integratorCompute (Integrals.simpsonTri m) r0 (.duration T) gs
  history fun a => legGiven x l ++ [("propulsor_active", 1), ("throttle", 0.5), ("fltcond|h", h0 + vs * T / m * a),
    ("fltcond|TempIncrement", 0), ("fltcond|Ueas", 60), ("fltcond|p", (c a).p), ("fltcond|T", (c a).T), ("fltcond|rho", (c a).rho),
    ("fltcond|a", (c a).a), ("fltcond|Utrue", (c a).utrue), ("fltcond|q", (c a).q), ("fltcond|M", (c a).mach), ("fltcond|vs", vs),
    ("fltcond|groundspeed", gs a), ("fltcond|cosgamma", Phases.cosgamma ⟨vs, (c a).utrue⟩),
    ("fltcond|singamma", Phases.singamma ⟨vs, (c a).utrue⟩), ("fltcond|CL", cl a), ("lift", Phases.lift (cl a) (c a).q 20),
    ("weight", 2000), ("drag", 1500), ("thrust", 1500 + 2000 * (grav * Phases.singamma ⟨vs, (c a).utrue⟩)),
    ("ac|geom|wing|S_ref", 20), ("accel_horiz", 0), ("zero_accel", 0),
    ("braking", 0), ("duration", T), ("ode_integ_phase.fltcond|h_initial", h0), ("ode_integ_phase.fltcond|h_final", h0 + vs * T),
    ("ode_integ_phase.range_initial", r0), ("range", R a), ("ode_integ_phase.range_final", R (Fin.last m))]

/-- a variable of a subsystem is found through one of the links -/
theorem view_link {g : Grp} {s : Sub} (hs : s ∈ g.subs) {v : Var} (hv : v ∈ s.sys.ins ++ s.sys.outs) :
    ∃ l ∈ g.links, l.sub = s.name ∧ l.var = v.name ∧ ∀ e, g.view e s.name v.name = conv l.unit l.want (e l.src) := by
  have hmem : ∃ l ∈ g.links, l.sub = s.name ∧ l.var = v.name := by
    rcases List.mem_append.1 hv with h | h
    · exact ⟨⟨s.name, v.name, g.src (s.pin.name s.name v), g.unitOf (g.src (s.pin.name s.name v)), v.unit⟩,
        List.mem_flatMap.2 ⟨s, hs, List.mem_append_right _ (List.mem_map_of_mem (f := fun v : Var =>
          (⟨s.name, v.name, g.src (s.pin.name s.name v), g.unitOf (g.src (s.pin.name s.name v)), v.unit⟩ : Link)) h)⟩, rfl, rfl⟩
    · exact ⟨⟨s.name, v.name, s.pout.name s.name v, v.unit, v.unit⟩,
        List.mem_flatMap.2 ⟨s, hs, List.mem_append_left _ (List.mem_map_of_mem (f := fun v : Var =>
          (⟨s.name, v.name, s.pout.name s.name v, v.unit, v.unit⟩ : Link)) h)⟩, rfl, rfl⟩
  obtain ⟨l, hl, h1, h2⟩ := hmem
  cases hf : g.links.find? (fun k => k.sub == s.name && k.var == v.name) with
  | none => exact absurd (List.find?_eq_none.1 hf l hl) (by simp [h1, h2])
  | some c =>
    have := List.find?_some hf
    simp only [Bool.and_eq_true, beq_iff_eq] at this
    exact ⟨c, List.mem_of_find?_eq_some hf, this.1, this.2, fun e => look_find e hf⟩

theorem integ_const (hm : m % 2 = 0) (x q T : ℝ) (a : Fin (m + 1)) :
    Integrals.integratorCompute (Integrals.simpsonTri m) q (.duration T) (fun _ => x) a = q + x * T / m * a := by
  have := Integrals.simpsonTri_eq hm (fun i => x * i) (fun _ => x) (by simp) (by intros; push_cast; ring) (by intros; push_cast; ring) a
  rw [Integrals.integratorCompute_eq, this]
  simp only [Integrals.TimeInput.step]
  ring

/-- reads the tables -/
local macro "reads" : tactic => `(tactic| simp only [legState, legGiven, history, table, List.lookup, String.reduceBEq,
  Option.getD_some, List.cons_append, List.nil_append])

theorem leg_exists (hm : m % 2 = 0) (hm0 : m ≠ 0) (o : Opts) (l : Leg) (h0 r0 vs T x : ℝ) (c : Fin (m + 1) → Atmos.FltCond)
    (hc : ∀ a : Fin (m + 1), Atmos.atmosEas (h0 + vs * T / m * a) 0 60 = some (c a))
    (hl : l = .climb ∧ x = h0 + vs * T ∨ l = .cruise ∨ l = .descent ∧ x = h0 + vs * T) (w : String → ℝ) (hw : w l.name = vs) :
    (leg (steadyCraft w) l).Rel o (legState l h0 r0 vs T x c) := by
  have hm' : (m : ℝ) ≠ 0 := Nat.cast_ne_zero.2 hm0
  have hu : ∀ a, (c a).ueas = 60 := by
    intro a
    have := hc a
    simp only [Atmos.atmosEas, Option.map_eq_some_iff] at this
    obtain ⟨_, -, e⟩ := this
    rw [← e]
  have heq : ∀ a, LegEqs fun n => legState l h0 r0 vs T x c n a := by
    intro a
    have ha : Phases.accelHoriz ⟨2000, 1500, Phases.lift (Phases.steadyCL ⟨2000, (c a).q, 20, Phases.cosgamma ⟨vs, (c a).utrue⟩⟩)
        (c a).q 20, 1500 + 2000 * (grav * Phases.singamma ⟨vs, (c a).utrue⟩), Phases.singamma ⟨vs, (c a).utrue⟩, 0, 0⟩ = 0 := by
      rw [Phases.accelHoriz]; ring
    rcases hl with ⟨rfl, -⟩ | rfl | ⟨rfl, -⟩ <;> constructor <;> reads <;> first | rfl | exact ha.symm | (rw [hc a, ← hu a])
  have hint : ∀ b : Fin (m + 1), h0 + vs * T / m * b =
      Integrals.integratorCompute (Integrals.simpsonTri m) h0 (.duration T) (fun _ => vs) b := fun b => (integ_const hm _ _ _ b).symm
  have hfin : h0 + vs * T = Integrals.integratorCompute (Integrals.simpsonTri m) h0 (.duration T) (fun _ => vs) (Fin.last m) := by
    rw [integ_const hm, Fin.val_last]; field_simp
  rcases hl with ⟨rfl, rfl⟩ | rfl | ⟨rfl, rfl⟩
  · refine ⟨?_, fun a => leg_climb_of o _ (heq a) (by reads), ?_⟩
    · have key : (((legGrp .climb).ins ++ (legGrp .climb).outs).all fun v => v.vec || ["ac|geom|wing|S_ref", "duration",
          "ode_integ_phase.fltcond|h_initial", "ode_integ_phase.fltcond|h_final", "ode_integ_phase.range_initial",
          "ode_integ_phase.range_final", "climbdt.cruise|h0"].contains v.name) = true := by
        decide +kernel
      intro v hv hs a
      have := List.all_eq_true.1 key v hv
      rw [hs, Bool.false_or, List.contains_iff_mem] at this
      revert this
      generalize v.name = n
      intro hm
      fin_cases hm <;> reads
    · generalize hG : legState .climb h0 r0 vs T (h0 + vs * T) c = G
      overs [leg, steadyIntegrands] (legGrp .climb) legGrp_climb_links G
      rw [← hG]
      reads
      refine ⟨⟨⟨funext hint, fun _ => hfin⟩, trivial, fun _ => rfl⟩, ?_⟩
      simp only [steadyCraft, hw]
  · refine ⟨?_, fun a => ?_, ?_⟩
    · have key : (((legGrp .cruise).ins ++ (legGrp .cruise).outs).all fun v => v.vec || ["ac|geom|wing|S_ref", "duration",
          "ode_integ_phase.fltcond|h_initial", "ode_integ_phase.fltcond|h_final", "ode_integ_phase.range_initial",
          "ode_integ_phase.range_final", "cruisedt.range_final", "cruisedt.mission_range"].contains v.name) = true := by
        decide +kernel
      intro v hv hs a
      have := List.all_eq_true.1 key v hv
      rw [hs, Bool.false_or, List.contains_iff_mem] at this
      revert this
      generalize v.name = n
      intro hm
      fin_cases hm <;> reads
    · obtain ⟨c1, at1, g1, g2, g3, cl, l1, a1, b1⟩ := heq a
      exact leg_cruise_of o _ c1 at1 g1 g2 g3 cl l1 a1 b1 (by reads)
    · generalize hG : legState .cruise h0 r0 vs T x c = G
      overs [leg, steadyIntegrands] (legGrp .cruise) legGrp_cruise_links G
      rw [← hG]
      reads
      refine ⟨⟨⟨funext hint, fun _ => hfin⟩, trivial, fun _ => rfl⟩, ?_⟩
      simp only [steadyCraft, hw]
  · refine ⟨?_, fun a => leg_descent_of o _ (heq a) (by reads), ?_⟩
    · have key : (((legGrp .descent).ins ++ (legGrp .descent).outs).all fun v => v.vec || ["ac|geom|wing|S_ref", "duration",
          "ode_integ_phase.fltcond|h_initial", "ode_integ_phase.fltcond|h_final", "ode_integ_phase.range_initial",
          "ode_integ_phase.range_final", "descentdt.takeoff|h"].contains v.name) = true := by
        decide +kernel
      intro v hv hs a
      have := List.all_eq_true.1 key v hv
      rw [hs, Bool.false_or, List.contains_iff_mem] at this
      revert this
      generalize v.name = n
      intro hm
      fin_cases hm <;> reads
    · generalize hG : legState .descent h0 r0 vs T (h0 + vs * T) c = G
      overs [leg, steadyIntegrands] (legGrp .descent) legGrp_descent_links G
      rw [← hG]
      reads
      refine ⟨⟨⟨funext hint, fun _ => hfin⟩, trivial, fun _ => rfl⟩, ?_⟩
      simp only [steadyCraft, hw]

theorem basic_links : (missionGrp ⟨false, false, false⟩ false).links =
    [⟨"missionparams", "takeoff|h", "takeoff|h", "ft", "ft"⟩, ⟨"missionparams", "cruise|h0", "cruise|h0", "ft", "ft"⟩,
     ⟨"missionparams", "mission_range", "mission_range", "NM", "NM"⟩, ⟨"missionparams", "payload", "payload", "lbm", "lbm"⟩,
     ⟨"missionparams", "takeoff|v2", "takeoff|v2", "kn", "kn"⟩,
     ⟨"climb", "ode_integ_phase.fltcond|h_final", "climb.ode_integ_phase.fltcond|h_final", "m", "m"⟩,
     ⟨"climb", "ode_integ_phase.range_final", "climb.ode_integ_phase.range_final", "m", "m"⟩,
     ⟨"climb", "fltcond|vs", "climb.fltcond|vs", "m/s", "m/s"⟩,
     ⟨"climb", "ode_integ_phase.fltcond|h_initial", "takeoff|h", "ft", "m"⟩,
     ⟨"climb", "ode_integ_phase.range_initial", "climb.ode_integ_phase.range_initial", "m", "m"⟩,
     ⟨"climb", "fltcond|TempIncrement", "climb.fltcond|TempIncrement", "degC", "degC"⟩,
     ⟨"climb", "fltcond|Ueas", "climb.fltcond|Ueas", "m/s", "m/s"⟩,
     ⟨"climb", "ac|geom|wing|S_ref", "ac|geom|wing|S_ref", "m **2", "m **2"⟩, ⟨"climb", "braking", "climb.braking", "", ""⟩,
     ⟨"climb", "zero_accel", "climb.zero_accel", "m/s**2", "m/s**2"⟩, ⟨"climb", "climbdt.cruise|h0", "cruise|h0", "ft", "m"⟩,
     ⟨"cruise", "ode_integ_phase.fltcond|h_final", "cruise.ode_integ_phase.fltcond|h_final", "m", "m"⟩,
     ⟨"cruise", "ode_integ_phase.range_final", "cruise.ode_integ_phase.range_final", "m", "m"⟩,
     ⟨"cruise", "fltcond|vs", "cruise.fltcond|vs", "m/s", "m/s"⟩,
     ⟨"cruise", "ode_integ_phase.fltcond|h_initial", "climb.ode_integ_phase.fltcond|h_final", "m", "m"⟩,
     ⟨"cruise", "ode_integ_phase.range_initial", "climb.ode_integ_phase.range_final", "m", "m"⟩,
     ⟨"cruise", "fltcond|TempIncrement", "cruise.fltcond|TempIncrement", "degC", "degC"⟩,
     ⟨"cruise", "fltcond|Ueas", "cruise.fltcond|Ueas", "m/s", "m/s"⟩,
     ⟨"cruise", "ac|geom|wing|S_ref", "ac|geom|wing|S_ref", "m **2", "m **2"⟩,
     ⟨"cruise", "braking", "cruise.braking", "", ""⟩, ⟨"cruise", "zero_accel", "cruise.zero_accel", "m/s**2", "m/s**2"⟩,
     ⟨"cruise", "cruisedt.range_final", "descent.ode_integ_phase.range_final", "m", "km"⟩,
     ⟨"cruise", "cruisedt.mission_range", "mission_range", "NM", "km"⟩,
     ⟨"descent", "ode_integ_phase.fltcond|h_final", "descent.ode_integ_phase.fltcond|h_final", "m", "m"⟩,
     ⟨"descent", "ode_integ_phase.range_final", "descent.ode_integ_phase.range_final", "m", "m"⟩,
     ⟨"descent", "fltcond|vs", "descent.fltcond|vs", "m/s", "m/s"⟩,
     ⟨"descent", "ode_integ_phase.fltcond|h_initial", "cruise.ode_integ_phase.fltcond|h_final", "m", "m"⟩,
     ⟨"descent", "ode_integ_phase.range_initial", "cruise.ode_integ_phase.range_final", "m", "m"⟩,
     ⟨"descent", "fltcond|TempIncrement", "descent.fltcond|TempIncrement", "degC", "degC"⟩,
     ⟨"descent", "fltcond|Ueas", "descent.fltcond|Ueas", "m/s", "m/s"⟩,
     ⟨"descent", "ac|geom|wing|S_ref", "ac|geom|wing|S_ref", "m **2", "m **2"⟩,
     ⟨"descent", "braking", "descent.braking", "", ""⟩, ⟨"descent", "zero_accel", "descent.zero_accel", "m/s**2", "m/s**2"⟩,
     ⟨"descent", "descentdt.takeoff|h", "takeoff|h", "ft", "m"⟩] := by
  decide +kernel

/-- **C116** (existence).  For every even number of intervals and every cruise altitude up to 10 km there is a converged `BasicMission`:
a climb from sea level at 5 m/s, a level cruise of any duration and a descent at 5 m/s. -/
theorem C116_reachable (hm : m % 2 = 0) (hm0 : m ≠ 0) (o : Opts) (hc Tc : ℝ) (h0 : 0 ≤ hc) (h1 : hc ≤ 10000) :
    ∃ (ac : Craft m) (ac1 : Craft 0) (E : String → Fin (m + 1) → ℝ) (F : String → String → Fin (m + 1) → ℝ),
      MissionRel ⟨false, false, false⟩ false ac ac1 o E F ∧ E "takeoff|h" 0 = 0 ∧ E "cruise|h0" 0 * 0.3048 = hc ∧
      F "climb" "duration" 0 = hc / 5 ∧ F "cruise" "duration" 0 = Tc := by
  have hm' : (0 : ℝ) < m := by exact_mod_cast Nat.pos_of_ne_zero hm0
  have hcond : ∀ q v T : ℝ, 0 ≤ q → q ≤ 10000 → 0 ≤ q + v * T → q + v * T ≤ 10000 →
      ∃ c : Fin (m + 1) → Atmos.FltCond, ∀ a : Fin (m + 1), Atmos.atmosEas (q + v * T / m * a) 0 60 = some (c a) := by
    intro q v T _ hq _ hv
    have : ∀ a : Fin (m + 1), ∃ c, Atmos.atmosEas (q + v * T / m * a) 0 60 = some c := by
      intro a
      have ha : ((a : ℕ) : ℝ) / m ≤ 1 := by
        rw [div_le_one hm']
        exact_mod_cast Nat.lt_succ_iff.1 a.2
      have ha0 : 0 ≤ ((a : ℕ) : ℝ) / m := by positivity
      have e : q + v * T / m * a = q * (1 - ((a : ℕ) : ℝ) / m) + (q + v * T) * (((a : ℕ) : ℝ) / m) := by ring
      obtain ⟨p, hp, -⟩ := Bfl.pressure_some (h := q + v * T / m * a) (by rw [e]; norm_num; nlinarith)
      unfold Atmos.atmosEas
      rw [hp]
      exact ⟨_, rfl⟩
    choose c hc using this
    exact ⟨c, hc⟩
  obtain ⟨c1, e1⟩ := hcond 0 5 (hc / 5) (by norm_num) (by norm_num) (by linarith) (by linarith)
  obtain ⟨c2, e2⟩ := hcond hc 0 Tc h0 h1 (by linarith) (by linarith)
  obtain ⟨c3, e3⟩ := hcond hc (-5) (hc / 5) h0 h1 (by linarith) (by linarith)
  let w : String → ℝ := fun n => if n = "climb" then 5 else if n = "cruise" then 0 else -5
  obtain ⟨F1, hF1⟩ : ∃ G : String → Fin (m + 1) → ℝ, G = legState .climb 0 0 5 (hc / 5) hc c1 := ⟨_, rfl⟩
  obtain ⟨r1, hr1⟩ : ∃ r, r = F1 "ode_integ_phase.range_final" 0 := ⟨_, rfl⟩
  obtain ⟨r2, hr2⟩ : ∃ r, r = (legState .cruise hc r1 0 Tc 0 c2 : String → Fin (m + 1) → ℝ) "ode_integ_phase.range_final" 0 := ⟨_, rfl⟩
  obtain ⟨F3, hF3⟩ : ∃ G : String → Fin (m + 1) → ℝ, G = legState .descent hc r2 (-5) (hc / 5) 0 c3 := ⟨_, rfl⟩
  obtain ⟨r3, hr3⟩ : ∃ r, r = F3 "ode_integ_phase.range_final" 0 := ⟨_, rfl⟩
  obtain ⟨F2, hF2⟩ : ∃ G : String → Fin (m + 1) → ℝ, G = legState .cruise hc r1 0 Tc (r3 / 1000) c2 := ⟨_, rfl⟩
  have q1 := hr1
  have q2 := hr2
  have q3 := hr3
  rw [hF1] at q1
  rw [hF3] at q3
  simp only [legState, legGiven, history, table, List.lookup, String.reduceBEq, Option.getD_some, List.cons_append, List.nil_append]
    at q1 q2 q3
  have hr2' : r2 = F2 "ode_integ_phase.range_final" 0 := by rw [hr2, hF2]; reads
  have p1 := leg_exists hm hm0 o .climb 0 0 5 (hc / 5) hc c1 e1 (Or.inl ⟨rfl, by ring⟩) w rfl
  have p2 := leg_exists hm hm0 o .cruise hc r1 0 Tc (r3 / 1000) c2 e2 (Or.inr (Or.inl rfl)) w rfl
  have p3 := leg_exists hm hm0 o .descent hc r2 (-5) (hc / 5) 0 c3 e3 (Or.inr (Or.inr ⟨rfl, by ring⟩)) w rfl
  rw [← hF1] at p1
  rw [← hF2] at p2
  rw [← hF3] at p3
  obtain ⟨E, hE⟩ : ∃ E, E = history fun a : Fin (m + 1) => [("takeoff|h", 0), ("cruise|h0", hc / 0.3048), ("mission_range", r3 / 1852),
    ("payload", 0), ("takeoff|v2", 0), ("ac|geom|wing|S_ref", 20),
    ("climb.ode_integ_phase.fltcond|h_final", hc), ("climb.ode_integ_phase.range_final", r1), ("climb.fltcond|vs", 5),
    ("climb.ode_integ_phase.range_initial", 0), ("climb.fltcond|TempIncrement", 0), ("climb.fltcond|Ueas", 60),
    ("climb.braking", 0), ("climb.zero_accel", 0),
    ("cruise.ode_integ_phase.fltcond|h_final", hc), ("cruise.ode_integ_phase.range_final", r2), ("cruise.fltcond|vs", 0),
    ("cruise.fltcond|TempIncrement", 0), ("cruise.fltcond|Ueas", 60), ("cruise.braking", 0), ("cruise.zero_accel", 0),
    ("descent.ode_integ_phase.fltcond|h_final", 0), ("descent.ode_integ_phase.range_final", r3), ("descent.fltcond|vs", -5),
    ("descent.fltcond|TempIncrement", 0), ("descent.fltcond|Ueas", 60), ("descent.braking", 0), ("descent.zero_accel", 0)] := ⟨_, rfl⟩
  obtain ⟨F, hF⟩ : ∃ F : String → String → Fin (m + 1) → ℝ,
    F = fun n => if n = "climb" then F1 else if n = "cruise" then F2 else F3 := ⟨_, rfl⟩
  refine ⟨steadyCraft w, steadyCraft w, E, F, ⟨?_, ?_, ?_, ?_⟩, ?_⟩
  · have key : (((missionGrp ⟨false, false, false⟩ false).ins ++ (missionGrp ⟨false, false, false⟩ false).outs).all fun v =>
        ["takeoff|h", "cruise|h0", "mission_range", "payload", "takeoff|v2", "ac|geom|wing|S_ref",
         "climb.ode_integ_phase.fltcond|h_final", "climb.ode_integ_phase.range_final", "climb.fltcond|vs",
         "climb.ode_integ_phase.range_initial", "climb.fltcond|TempIncrement", "climb.fltcond|Ueas", "climb.braking",
         "climb.zero_accel", "cruise.ode_integ_phase.fltcond|h_final", "cruise.ode_integ_phase.range_final", "cruise.fltcond|vs",
         "cruise.fltcond|TempIncrement", "cruise.fltcond|Ueas", "cruise.braking", "cruise.zero_accel",
         "descent.ode_integ_phase.fltcond|h_final", "descent.ode_integ_phase.range_final", "descent.fltcond|vs",
         "descent.fltcond|TempIncrement", "descent.fltcond|Ueas", "descent.braking", "descent.zero_accel"].contains v.name) = true := by
      decide +kernel
    intro v hv _ a
    have := List.all_eq_true.1 key v hv
    rw [List.contains_iff_mem] at this
    revert this
    generalize v.name = n
    intro hm
    fin_cases hm <;> simp only [hE, history, table, List.lookup, String.reduceBEq, Option.getD_some]
  · intro a s hs
    simp only [missionGrp, Bool.false_eq_true, if_false, Bool.not_false, Bool.and_false, List.append_nil, List.cons_append,
      List.nil_append, List.mem_cons, List.not_mem_nil, or_false] at hs
    rcases hs with rfl | rfl | rfl | rfl <;> trivial
  · intro p hp
    simp only [missionPhases, legsOf, Bool.false_eq_true, if_false, Bool.not_false, Bool.and_false, List.append_nil,
      List.nil_append, List.map_cons, List.map_nil, List.mem_cons, List.not_mem_nil, or_false] at hp
    rcases hp with rfl | rfl | rfl
    · simpa [hF, Leg.name] using p1
    · simpa [hF, Leg.name] using p2
    · simpa [hF, Leg.name] using p3
  · have key : ∀ l ∈ (missionGrp ⟨false, false, false⟩ false).links, l.sub ≠ "missionparams" → ∀ a,
        F l.sub l.var a = conv l.unit l.want (E l.src a) := by
      rw [basic_links]
      intro l hl
      fin_cases hl <;> intro hn a <;> first
        | exact absurd rfl hn
        | (simp only [hF, String.reduceEq, if_true, if_false, hE, history, table, List.lookup, String.reduceBEq, Option.getD_some,
            conv_self, conv_ft_m, conv_NM_km, conv_m_km, hF1, hF2, hF3]
           reads
           first | done | exact q1.symm | exact q2.symm | exact q3.symm | ring)
    intro s hs hp v hv
    obtain ⟨l, hl, h1, h2, h3⟩ := view_link hs hv
    funext a
    rw [Grp.seen, h3, ← key l hl (by rw [h1]; rintro h; rw [h] at hp; revert hp; simp [missionPhases, legsOf, Leg.name]) a, h1, h2]
  · simp only [hF, hE, hF1, hF2, history, table, List.lookup, String.reduceBEq, Option.getD_some, String.reduceEq, if_true, if_false]
    reads
    refine ⟨trivial, by ring, trivial, trivial⟩

/-- eleven nodes, cruise at 3 km for an hour: the mission of C116 and of C31 -/
example (o : Opts) : ∃ (E : String → Fin 11 → ℝ) (F : String → String → Fin 11 → ℝ),
    Phases.Converged ⟨false, false, false⟩ (paramsOf E) (missionOf ⟨false, false, false⟩ F) ∧ (paramsOf E).cruiseH0 = 3000 ∧
    F "climb" "duration" 0 = 600 ∧ F "cruise" "duration" 0 = 3600 := by
  obtain ⟨ac, ac1, E, F, h, -, h1, h2, h3⟩ := C116_reachable (m := 10) rfl (by norm_num) o 3000 3600 (by norm_num) (by norm_num)
  exact ⟨E, F, C116_mission h, h1, by rw [h2]; norm_num, h3⟩

end Verif.Wiring
