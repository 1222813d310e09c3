import Verif.Model.Turboprop
import Verif.Props.HybridTwin
import Verif.Props.Takeoff
import Verif.Props.Weights

/-! Property C107: fuel, charge, weight and engine-out performance of the turboprop and electric example airplanes over a
mission. -/

namespace Verif.Turboprop

open Verif.Integrals Verif.Propulsion Verif.Aircraft
open Verif.Bfl (AcIn AcOut Craft Takeoff Rotation Design Twin Climbout)
open Verif.Atmos (FltCond)
open Verif.HybridTwin (segFinal_mul)

variable {m : ℕ} {M : Matrix (Fin (m + 1)) (Fin (m + 1)) ℝ} {mp : Maps}

/-- specific fuel consumption of the turboshafts in kg/J -/
noncomputable def psfc : ℝ := 0.6 * 1.68965774e-7

/-- number of engines that can run -/
def Plane.engines (pl : Plane) : ℝ := if pl.twin then 2 else 1

/-- shaft power of the airplane at a node: the second engine of a twin runs with the fraction `active` of the throttle -/
noncomputable def power (pl : Plane) (i : AcIn m) (b : Fin (m + 1)) : ℝ :=
  pl.rating * i.throttle b * (1 + (pl.engines - 1) * i.active b)

/-- shaft energy of a phase as the mission integrates it -/
noncomputable def energy (M : Matrix (Fin (m + 1)) (Fin (m + 1)) ℝ) (pl : Plane) (i : AcIn m) : ℝ :=
  integratorFinal M 0 (.duration i.duration) (power pl i)

/-- C107.  The fuel flow at a node is the specific consumption times the shaft power. -/
theorem C107_flow (pl : Plane) (i : AcIn m) (b : Fin (m + 1)) : (pl.fuelSeg mp i).flow b = psfc * power pl i b := by
  simp only [Plane.fuelSeg, Plane.node, power, Plane.engines, psfc]
  cases pl.twin
  · simp [singleTurboprop, turboshaft, turboOpts]; ring
  · simp [twinTurboprop, turboshaft, turboOpts]; ring

theorem seg_fuel (pl : Plane) (i : AcIn m) : segFinal M 0 (pl.fuelSeg mp i) = psfc * energy M pl i := by
  have e : pl.fuelSeg mp i = ⟨fun b => psfc * power pl i b, i.duration⟩ := by
    have : (pl.fuelSeg mp i).flow = fun b => psfc * power pl i b := funext (C107_flow pl i)
    rw [← this]; rfl
  rw [e, segFinal_mul, energy]

/-- a phase with constant power -/
theorem energy_const (hM : methodMatrix .simpson m = some M) (hm : m ≠ 0) (r : Fin (m + 1) → ℝ) (T c : ℝ)
    (h : ∀ b, r b = c) : integratorFinal M 0 (.duration T) r = c * T := by
  have e : r = fun b : Fin (m + 1) => (Polynomial.C c).eval ((b : ℕ) * (T / m)) := by
    funext b
    rw [h, Polynomial.eval_C]
  have := C01_simpson_final_cubic hM hm (Polynomial.C c) (by rw [Polynomial.natDegree_C]; norm_num) 0 T 0
  simp only [zero_add, sub_zero, Polynomial.eval_C, intervalIntegral.integral_const, smul_eq_mul] at this
  rw [e]
  simp only [Polynomial.eval_C]
  rw [mul_comm, ← this]
  simp [integratorFinal, integratorCompute, TimeInput.step]

/-- the state after the phases `l` -/
noncomputable def after (M : Matrix (Fin (m + 1)) (Fin (m + 1)) ℝ) (seg : AcIn m → Aircraft.Seg m) (x : ℝ)
    (l : List (String × AcIn m)) : ℝ := missionFinal M x (l.map fun p => seg p.2)

theorem linked_append (seg : AcIn m → Aircraft.Seg m) (x0 : String → ℝ) (l₁ l₂ : List (String × AcIn m)) (x : ℝ) :
    LinkedFrom M seg x0 x (l₁ ++ l₂) ↔ LinkedFrom M seg x0 x l₁ ∧ LinkedFrom M seg x0 (after M seg x l₁) l₂ := by
  induction l₁ generalizing x with
  | nil => simp [LinkedFrom, after, missionFinal]
  | cons p l ih =>
    simp only [List.cons_append, LinkedFrom, ih, and_assoc]
    rfl

theorem after_append (seg : AcIn m → Aircraft.Seg m) (l₁ l₂ : List (String × AcIn m)) (x : ℝ) :
    after M seg x (l₁ ++ l₂) = after M seg (after M seg x l₁) l₂ := by
  simp [after, missionFinal]

/-- C107.  The fuel used before a phase of a linked mission is the initial value plus the specific consumption times the shaft
energy of the phases before it, and the fuel used at the end is that of all phases. -/
theorem C107_fuel (pl : Plane) (fuel0 : String → ℝ) (x : ℝ) (l : List (String × AcIn m))
    (h : LinkedFrom M (pl.fuelSeg mp) fuel0 x l) :
    after M (pl.fuelSeg mp) x l = x + psfc * (l.map fun p => energy M pl p.2).sum ∧
    ∀ l₁ p l₂, l = l₁ ++ p :: l₂ → fuel0 p.1 = x + psfc * (l₁.map fun p => energy M pl p.2).sum := by
  have key : ∀ l : List (String × AcIn m), after M (pl.fuelSeg mp) x l = x + psfc * (l.map fun p => energy M pl p.2).sum := by
    intro l
    unfold after
    rw [(C92_total x _).1, List.map_map]
    congr 1
    rw [← List.sum_map_mul_left]
    congr 1
    apply List.map_congr_left
    intro p _
    exact seg_fuel pl p.2
  refine ⟨key l, ?_⟩
  rintro l₁ p l₂ rfl
  rw [linked_append] at h
  rw [h.2.1, key]

/-- C107.  The weight is continuous from phase to phase and starts with the maximum take-off weight. -/
theorem C107_weight_continuous {method : Method} (hM : methodMatrix method m = some M) (pl : Plane) (fuel0 : String → ℝ)
    (l : List (String × AcIn m)) (h : LinkedFrom M (pl.fuelSeg mp) fuel0 0 l) :
    (∀ p ∈ l.head?, (craft mp M pl fuel0 p.1 p.2).weight 0 = pl.mtow) ∧
    ∀ l₁ p q l₂, l = l₁ ++ p :: q :: l₂ →
      (craft mp M pl fuel0 q.1 q.2).weight 0 = (craft mp M pl fuel0 p.1 p.2).weight (Fin.last m) := by
  constructor
  · intro p hp
    cases l with
    | nil => simp at hp
    | cons q l =>
      simp only [List.head?_cons, Option.mem_def, Option.some.injEq] at hp
      subst hp
      simp only [craft, C92_weight, segFuel]
      rw [C03_first_node hM, h.1, sub_zero]
  · rintro l₁ p q l₂ rfl
    rw [linked_append] at h
    obtain ⟨-, h1, h2, -⟩ := h
    simp only [craft, C92_weight]
    rw [segFuel_last]
    unfold segFuel
    rw [C03_first_node hM, h2, h1]

/-- duration of the rotation -/
noncomputable def rotTime : Rotation m → ℝ
  | .simplified r => Phases.rotationDuration r.rotation
  | .ode r => r.duration

theorem rotTime_eq (d : Design) (r : Rotation m) : (rotationIn d r).duration = rotTime r := by cases r <;> rfl

theorem rotation_full (d : Design) (r : Rotation m) (b : Fin (m + 1)) :
    (rotationIn d r).throttle b = 1 ∧ (rotationIn d r).active b = 0 := by
  cases r <;> exact ⟨rfl, rfl⟩

/-- C107.  Fuel of the take-off: all engines at rated power to V1, one afterwards, whichever way the rotation is computed;
stopping burns none. -/
theorem C107_takeoff_fuel (hM : methodMatrix .simpson m = some M) (hm : m ≠ 0) (pl : Plane) (fuel0 : String → ℝ)
    (f : Flight m) (h : f.Linked M (pl.fuelSeg mp) fuel0 0 pl.design) :
    let t := f.takeoff
    fuel0 "climb" = psfc * pl.rating * (pl.engines * t.v0v1.duration + t.v1vr.duration + rotTime t.rotate) ∧
    fuel0 "v1vr" = psfc * pl.rating * pl.engines * t.v0v1.duration ∧
    fuel0 "v1v0" = fuel0 "v1vr" ∧ after M (pl.fuelSeg mp) 0 f.aborted = fuel0 "v1vr" := by
  intro t
  have e1 : energy M pl (t.v0v1.acIn .v0v1) = pl.rating * pl.engines * t.v0v1.duration := by
    refine energy_const hM hm _ _ _ fun b => ?_
    simp only [power, Bfl.Ground.acIn, Bfl.Seg.throttle, Bfl.Seg.active]; ring
  have e2 : energy M pl (t.v1vr.acIn .v1vr) = pl.rating * t.v1vr.duration := by
    refine energy_const hM hm _ _ _ fun b => ?_
    simp only [power, Bfl.Ground.acIn, Bfl.Seg.throttle, Bfl.Seg.active]; ring
  have e3 : energy M pl (rotationIn pl.design t.rotate) = pl.rating * rotTime t.rotate := by
    rw [← rotTime_eq pl.design]
    refine energy_const hM hm _ _ _ fun b => ?_
    obtain ⟨h1, h2⟩ := rotation_full pl.design t.rotate b
    simp only [power, h1, h2]; ring
  have e4 : energy M pl (t.v1v0.acIn .v1v0) = 0 := by
    have := energy_const hM hm (power pl (t.v1v0.acIn .v1v0)) t.v1v0.duration 0 fun b => by
      simp only [power, Bfl.Ground.acIn, Bfl.Seg.throttle]; ring
    rw [zero_mul] at this; exact this
  obtain ⟨-, k⟩ := C107_fuel pl fuel0 0 _ h.1
  obtain ⟨ka, k'⟩ := C107_fuel pl fuel0 0 _ h.2
  have v1vr : fuel0 "v1vr" = psfc * pl.rating * pl.engines * t.v0v1.duration := by
    have := k [_] _ _ rfl
    simp only [List.map_cons, List.map_nil, List.sum_cons, List.sum_nil, add_zero, zero_add] at this
    rw [this, e1]; ring
  have v1v0 : fuel0 "v1v0" = psfc * pl.rating * pl.engines * t.v0v1.duration := by
    have := k' [_] _ _ rfl
    simp only [List.map_cons, List.map_nil, List.sum_cons, List.sum_nil, add_zero, zero_add] at this
    rw [this, e1]; ring
  refine ⟨?_, v1vr, by rw [v1v0, v1vr], ?_⟩
  · have := k [_, _, _] _ _ rfl
    simp only [List.map_cons, List.map_nil, List.sum_cons, List.sum_nil, add_zero, zero_add] at this
    rw [this, e1, e2, e3]; ring
  · rw [ka, v1vr]
    simp only [Flight.aborted, List.map_cons, List.map_nil, List.sum_cons, List.sum_nil, add_zero, zero_add]
    rw [e1, e4]; ring

/-- C107.  While stopping the weight stays what it was at V1. -/
theorem C107_stop_weight (hM : methodMatrix .simpson m = some M) (hm : m ≠ 0) (pl : Plane) (fuel0 : String → ℝ)
    (f : Flight m) (h : f.Linked M (pl.fuelSeg mp) fuel0 0 pl.design) (b : Fin (m + 1)) :
    (craft mp M pl fuel0 "v1v0" (f.takeoff.v1v0.acIn .v1v0)).weight b
      = pl.mtow - psfc * pl.rating * pl.engines * f.takeoff.v0v1.duration := by
  obtain ⟨-, h1, h2, -⟩ := C107_takeoff_fuel hM hm pl fuel0 f h
  simp only [craft, C92_weight]
  have hf : (pl.fuelSeg mp (f.takeoff.v1v0.acIn .v1v0)).flow = fun _ => 0 := by
    funext b
    rw [C107_flow]
    simp [power, Bfl.Ground.acIn, Bfl.Seg.throttle]
  have : segFuel M (fuel0 "v1v0") (pl.fuelSeg mp (f.takeoff.v1v0.acIn .v1v0)) b = fuel0 "v1v0" := by
    simp only [segFuel, integratorCompute_eq, hf]
    have : M.mulVec (fun _ => (0 : ℝ)) = 0 := Matrix.mulVec_zero M
    rw [this]; simp
  rw [this, h2, h1]

/-- drag coefficient in a phase -/
noncomputable def Plane.cd (pl : Plane) (phase : String) (cl : ℝ) : ℝ :=
  (if phase ∈ ["v0v1", "v1v0", "v1vr", "rotate"] then pl.cd0TO else pl.cd0Cruise) + cl ^ 2 / (Real.pi * pl.e * pl.AR)

theorem drag_eq (pl : Plane) (phase : String) (c : FltCond) (cl : ℝ) :
    pl.drag phase c cl = pl.cd phase cl * c.q * pl.sref := by
  have hne : "ac|aero|polar|CD0_cruise" ≠ "ac|aero|polar|CD0_TO" := by decide
  have hc : (cd0Source phase = "ac|aero|polar|CD0_TO") ↔ phase ∈ ["v0v1", "v1v0", "v1vr", "rotate"] := by
    unfold cd0Source
    by_cases h : phase ∈ ["v0v1", "v1v0", "v1vr", "rotate"]
    · simp only [h, not_true_eq_false, if_false]
    · simp only [h, not_false_eq_true, if_true, hne]
  unfold Plane.drag Aero.drag Plane.cd
  simp only [hc]
  rw [div_div, div_div, ← mul_assoc]
  ring

/-- thrust of one engine at rated power -/
noncomputable def Plane.thrust1 (mp : Maps) (pl : Plane) (c : FltCond) : ℝ := (singleTurboprop mp (pl.side c) 1 pl.rating).thrust

/-- C107.  The King Air is a twin in the sense of the take-off analysis: with full throttle it has the thrust of both engines,
or of one if the other has failed, and none with the throttle closed. -/
theorem C107_twin (pl : Plane) (ht : pl.twin = true) (fuel0 : String → ℝ) :
    Twin (craft mp M pl fuel0) pl.design (pl.thrust1 mp) pl.cd := by
  refine ⟨fun n i a h1 h2 => ?_, fun n i a => drag_eq _ _ _ _⟩
  simp only [craft, Plane.node, ht, if_true, Plane.thrust1]
  rw [(C42_turboprop_totals mp _ _ _ _ _).1]
  have z : (singleTurboprop mp (pl.side (i.cond a)) 0 pl.rating).thrust = 0 := by
    simp [singleTurboprop, turboshaft, C42_no_power_no_thrust]
  rcases h1 with h1 | h1 <;> rcases h2 with h2 | h2 <;> rw [h1, h2] <;> simp [z]; ring

/-- C107.  Climb gradients of the King Air at V2: one engine's thrust over the weight less drag over lift.  The drag is that of
the *cruise* configuration (the phases are not in the list of take-off phases), while the rotation, which ends at the same
speed, flies with the take-off drag. -/
theorem C107_climb_gradient {mp : Maps} {M : Matrix (Fin 1) (Fin 1) ℝ} (pl : Plane) (ht : pl.twin = true) (fuel0 : String → ℝ)
    (hW : 0 < pl.mtow) (hS : 0 < pl.sref) (hC : 0 < pl.clmax) {du du' : ℝ} {r r' : Climbout}
    (h : r.Converged (craft mp M pl fuel0) pl.design true du) (h' : r'.Converged (craft mp M pl fuel0) pl.design false du')
    (hi : -216.65 < r.inc) (he : r'.inc = r.inc) :
    let CL := pl.clmax / 1.44
    Real.sin r'.gamma = pl.thrust1 mp r.cond / (pl.mtow * grav) - (pl.cd0Cruise + CL ^ 2 / (Real.pi * pl.e * pl.AR)) / CL ∧
    Real.sin r.gamma - Real.sin r'.gamma = pl.thrust1 mp r.cond / (pl.mtow * grav) ∧
    pl.cd "rotate" CL - pl.cd "EngineOutClimbAngle" CL = pl.cd0TO - pl.cd0Cruise := by
  intro CL
  have hn : "EngineOutClimbAngle" ∉ ["v0v1", "v1v0", "v1vr", "rotate"] := by decide
  have hn' : "AllEngineClimbAngle" ∉ ["v0v1", "v1v0", "v1vr", "rotate"] := by decide
  have hr : "rotate" ∈ ["v0v1", "v1v0", "v1vr", "rotate"] := by decide
  obtain ⟨-, b, c⟩ := Bfl.C103_climb_gradient (d := pl.design) hW hS hC (C107_twin pl ht fuel0) h h' hi he
  refine ⟨?_, c ?_, ?_⟩
  · rw [b]
    simp only [Plane.cd, if_neg hn]
    rfl
  · funext cl
    simp only [Plane.cd, if_neg hn, if_neg hn']
  · simp only [Plane.cd, if_neg hn, if_pos hr]; ring

/-- C107.  The airplanes with one engine ignore the failed engine: in `v1vr`, the rotation and the climb-out with "one engine
out" they have the same thrust, drag and weight as with all engines.  Only the stop, with its closed throttle, differs. -/
theorem C107_single (pl : Plane) (ht : pl.twin = false) (fuel0 : String → ℝ) (phase : String) (i : AcIn m)
    (act : Fin (m + 1) → ℝ) : craft mp M pl fuel0 phase { i with active := act } = craft mp M pl fuel0 phase i := by
  simp only [craft, Plane.node, Plane.fuelSeg, ht, Bool.false_eq_true, if_false]

/-- C107.  The electric airplane keeps its weight, and so does its stall speed. -/
theorem C107_electric_weight (d : Electric) (phase : String) (i : AcIn m) (b : Fin (m + 1)) :
    (Electric.craft mp d phase i).weight b = d.pl.mtow := by
  simp [Electric.craft, Aero.linspace]

/-- C107.  The state of charge after the phases `l` of a linked mission of the electric airplane: the electric energy of the
motor, rating times integrated throttle, over the capacity of the battery; neither of the efficiencies enters. -/
theorem C107_electric_charge (d : Electric) (soc0 : String → ℝ) (x : ℝ) (l : List (String × AcIn m))
    (h : LinkedFrom M d.socSeg soc0 x l) :
    after M d.socSeg x l = x - d.pl.rating / (3600 * (d.wBattery * d.specificEnergy))
      * (l.map fun p => integratorFinal M 0 (.duration p.2.duration) p.2.throttle).sum ∧
    ∀ l₁ p l₂, l = l₁ ++ p :: l₂ → soc0 p.1 = x - d.pl.rating / (3600 * (d.wBattery * d.specificEnergy))
      * (l₁.map fun p => integratorFinal M 0 (.duration p.2.duration) p.2.throttle).sum := by
  have key : ∀ l : List (String × AcIn m), after M d.socSeg x l = x - d.pl.rating / (3600 * (d.wBattery * d.specificEnergy))
      * (l.map fun p => integratorFinal M 0 (.duration p.2.duration) p.2.throttle).sum := by
    intro l
    unfold after
    rw [(C92_total x _).1, List.map_map, sub_eq_add_neg]
    congr 1
    rw [← neg_mul, ← List.sum_map_mul_left]
    congr 1
    apply List.map_congr_left
    intro p _
    show segFinal M 0 (d.socSeg p.2) = _
    rw [← segFinal_mul]
    unfold Electric.socSeg
    congr 2
    funext b
    simp only [dSOCdt, battery, motor]
    by_cases hz : d.wBattery * d.specificEnergy = 0
    · simp [hz]
    · field_simp; ring
  refine ⟨key l, ?_⟩
  rintro l₁ p l₂ rfl
  rw [linked_append] at h
  rw [h.2.1, key]

/-- C107.  Charge used by the take-off of the electric airplane: rated power for the whole time to the obstacle, none while
stopping. -/
theorem C107_electric_takeoff (hM : methodMatrix .simpson m = some M) (hm : m ≠ 0) (d : Electric) (soc0 : String → ℝ) (x : ℝ)
    (f : Flight m) (h : f.Linked M d.socSeg soc0 x d.pl.design) :
    let t := f.takeoff
    let E := 3600 * (d.wBattery * d.specificEnergy)
    soc0 "climb" = x - d.pl.rating / E * (t.v0v1.duration + t.v1vr.duration + rotTime t.rotate) ∧
    after M d.socSeg x f.aborted = x - d.pl.rating / E * t.v0v1.duration := by
  intro t E
  have e1 : integratorFinal M 0 (.duration (t.v0v1.acIn .v0v1).duration) (t.v0v1.acIn .v0v1).throttle = 1 * t.v0v1.duration :=
    energy_const hM hm _ _ _ fun b => rfl
  have e2 : integratorFinal M 0 (.duration (t.v1vr.acIn .v1vr).duration) (t.v1vr.acIn .v1vr).throttle = 1 * t.v1vr.duration :=
    energy_const hM hm _ _ _ fun b => rfl
  have e3 : integratorFinal M 0 (.duration (rotationIn d.pl.design t.rotate).duration) (rotationIn d.pl.design t.rotate).throttle
      = 1 * rotTime t.rotate :=
    rotTime_eq d.pl.design t.rotate ▸ energy_const hM hm _ _ _ fun b => (rotation_full d.pl.design t.rotate b).1
  have e4 : integratorFinal M 0 (.duration (t.v1v0.acIn .v1v0).duration) (t.v1v0.acIn .v1v0).throttle = 0 * t.v1v0.duration :=
    energy_const hM hm _ _ _ fun b => rfl
  constructor
  · have := (C107_electric_charge d soc0 x _ h.1).2 [_, _, _] _ _ rfl
    simp only [List.map_cons, List.map_nil, List.sum_cons, List.sum_nil, add_zero] at this
    rw [this, e1, e2, e3]; ring
  · rw [(C107_electric_charge d soc0 x _ h.2).1]
    simp only [Flight.aborted, List.map_cons, List.map_nil, List.sum_cons, List.sum_nil, add_zero]
    rw [e1, e4]; ring

/-- C107.  Empty weight of the King Air: the summed engines and propellers, but the nacelle of one engine of a single turboprop;
`NacelleWeight_MultiTurboprop`, which no group uses, would give more for the two engines from 80 hp on. -/
theorem C107_king_air_empty (lb : ℝ) (a : Weights.AircraftTP) (P W blades diameter : ℝ) (other : Weights.Env) (hP : 80 ≤ P) :
    kingAirOEW lb a P W blades diameter other
      = a.fudge * ((a.wing Weights.nultTP).compute + (a.fus Weights.nultTP).compute + 2.5 * √P
          + Weights.empennage Weights.nultTP a.Sv a.Sh + (a.gear Weights.nultTP).compute)
        + Weights.fuelSystem Weights.KfspTP a.Wf + a.equip.compute + 2 * (104 + 0.14e-3 * W) * lb
        + 2 * propWeight blades P diameter + a.Wfluids ∧
    2.5 * √P < Weights.nacelle2 (2 * P) := by
  constructor
  · unfold kingAirOEW
    simp only [(Weights.C72_single_total _).1, Weights.AircraftTP.env, String.reduceEq, if_false, if_true, Weights.nacelle1]
    rw [show (0.5 : ℝ) = 1 / 2 by norm_num, ← Real.sqrt_eq_rpow]
    simp only [Weights.AircraftTP.wing, Weights.AircraftTP.fus, Weights.AircraftTP.gear, Weights.AircraftTP.equip, turboshaft,
      turboOpts]
    ring
  · unfold Weights.nacelle2
    have h0 : 0 < √P := Real.sqrt_pos.mpr (by linarith)
    have h1 : √P * √P = P := Real.mul_self_sqrt (by linarith)
    have h2 : 8.94 < √P := Real.lt_sqrt_of_sq_lt (by norm_num; linarith)
    nlinarith [mul_pos h0 (sub_pos.mpr h2)]

/-- the propeller and the air at a node of a flight faster than a fifth of the propeller's pitch speed -/
structure Fast (D rpm : ℝ) (c : FltCond) : Prop where
  hD : 0 < D
  hn : 0 < rpm
  hr : 0 < c.rho
  hJ : 0.2 ≤ 60 * c.utrue / rpm / D

/-- useful power of a propeller with shaft power `P`: the efficiency that the map has for power coefficient and advance ratio -/
noncomputable def useful (mp : Maps) (D rpm : ℝ) (c : FltCond) (P : ℝ) : ℝ :=
  mp.eta (P / (c.rho * (rpm / 60) ^ 3 * D ^ 5)) (c.utrue / (rpm / 60 * D)) * P

theorem propeller_useful (pl : Plane) (c : FltCond) (h : Fast pl.diameter pl.rpm c) (P : ℝ) :
    propeller mp ((pl.side c).coef P) * c.utrue = useful mp pl.diameter pl.rpm c P := by
  obtain ⟨h1, h2, h3, h4⟩ := h
  refine (C40_efficiency mp ((pl.side c).coef P) h3 h2 h1 h4).trans ?_
  simp only [useful, powerCoef, advanceRatio, Plane.side, Side.coef]
  congr 2
  · field_simp
  · field_simp

/-- C107.  Thrust times airspeed is the useful power of the propellers; each engine gives its rating times its throttle. -/
theorem C107_thrust_power (pl : Plane) (fuel0 : String → ℝ) (phase : String) (i : AcIn m) (b : Fin (m + 1))
    (h : Fast pl.diameter pl.rpm (i.cond b)) :
    (craft mp M pl fuel0 phase i).thrust b * (i.cond b).utrue =
      useful mp pl.diameter pl.rpm (i.cond b) (i.throttle b * pl.rating)
        + if pl.twin then useful mp pl.diameter pl.rpm (i.cond b) (i.throttle b * i.active b * pl.rating) else 0 := by
  have key := propeller_useful (mp := mp) pl (i.cond b) h
  simp only [craft, Plane.node]
  cases ht : pl.twin
  · simp only [singleTurboprop, turboshaft, Bool.false_eq_true, if_false, key, add_zero]
  · simp only [twinTurboprop, turboshaft, if_true, add_mul, key]

/-- C107.  The electric airplane: the motor turns 97 % of its electric power into shaft power. -/
theorem C107_electric_thrust (d : Electric) (phase : String) (i : AcIn m) (b : Fin (m + 1))
    (h : Fast d.pl.diameter d.pl.rpm (i.cond b)) :
    (Electric.craft mp d phase i).thrust b * (i.cond b).utrue =
      useful mp d.pl.diameter d.pl.rpm (i.cond b) (0.97 * (i.throttle b * d.pl.rating)) := by
  have key := propeller_useful (mp := mp) d.pl (i.cond b) h
  simp only [Electric.craft, key, motor, motorOpts]
  rw [mul_comm (0.97 : ℝ)]

/-- C107.  The battery of the electric airplane: 3 % of the load are heat, and it is sized for 5 kW/kg. -/
theorem C107_electric_battery (d : Electric) (load : ℝ) :
    (battery battOpts d.wBattery load d.specificEnergy).heat = 0.03 * load ∧
    (0 < d.wBattery → ((battery battOpts d.wBattery load d.specificEnergy).margin ≤ 1 ↔ load ≤ 5000 * d.wBattery)) := by
  simp only [battery, battOpts]
  refine ⟨by ring, fun h => ?_⟩
  rw [div_le_one (by positivity)]

/-- C107.  Every flight can be linked: the initial values are determined by the phases. -/
theorem C107_linkable (seg : AcIn m → Aircraft.Seg m) (x : ℝ) (d : Design) (f : Flight m) :
    ∃ x0 : String → ℝ, f.Linked M seg x0 x d := by
  let x1 := segFinal M x (seg (f.takeoff.v0v1.acIn .v0v1))
  let x2 := segFinal M x1 (seg (f.takeoff.v1vr.acIn .v1vr))
  let x3 := segFinal M x2 (seg (rotationIn d f.takeoff.rotate))
  let x4 := segFinal M x3 (seg f.climb)
  let x5 := segFinal M x4 (seg f.cruise)
  refine ⟨fun s => if s = "v0v1" then x else if s = "v1vr" then x1 else if s = "v1v0" then x1 else if s = "rotate" then x2
    else if s = "climb" then x3 else if s = "cruise" then x4 else x5, ?_, ?_⟩ <;>
    simp [LinkedFrom, Flight.legs, Flight.aborted, x1, x2, x3, x4, x5]

/-- a King Air: two engines of 410 kW, 4.6 t -/
noncomputable def kingAir : Plane := ⟨true, 410e3, 2.28, 1900, 4581, 27.3, 8.6, 0.8, 0.04, 0.022, 1.52⟩

/-- King Air with 30 s to V1, 5 s to rotation: before climbing it has burnt the fuel of two engines for 30 s and of one for the
rest -/
example (f : Flight 10) (h1 : f.takeoff.v0v1.duration = 30) (h2 : f.takeoff.v1vr.duration = 5)
    (h3 : rotTime f.takeoff.rotate = 12) (mp : Maps) (M : Matrix (Fin 11) (Fin 11) ℝ)
    (hM : methodMatrix .simpson 10 = some M) :
    ∃ fuel0 : String → ℝ, fuel0 "climb" = psfc * 410e3 * 77 ∧
      (craft mp M kingAir fuel0 "v0v1" (f.takeoff.v0v1.acIn .v0v1)).weight 0 = 4581 := by
  obtain ⟨x0, h⟩ := C107_linkable (M := M) (Plane.fuelSeg mp kingAir) 0 kingAir.design f
  refine ⟨x0, ?_, ?_⟩
  · rw [(C107_takeoff_fuel hM (by norm_num) _ x0 f h).1, h1, h2, h3]
    simp only [Plane.engines, kingAir, if_true]
    ring
  · exact (C107_weight_continuous hM kingAir x0 _ h.1).1 ("v0v1", f.takeoff.v0v1.acIn .v0v1) (by simp [Flight.legs])

end Verif.Turboprop
