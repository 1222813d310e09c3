import Verif.Props.WiringN3

namespace Verif.Wiring

set_option maxRecDepth 10000

open Verif.Units Verif.VectorComps

variable {m : ℕ}

/-! ### C127: the refrigerated hybrid single aisle over a phase and along the mission -/

/-- fuel flow of both engines -/
noncomputable def n3FuelLeg (o : Opts) (E : String → Fin (m + 1) → ℝ) : Aircraft.Seg m :=
  ⟨fun a => 2 * (o.map "fuel_flow" [E "throttle" a, E "fltcond|h" a, E "fltcond|M" a, (n3Motor fun n => E n a).shaft / 1000] * 0.45359237),
    E "duration" 0⟩

/-- rate of the state of charge of one side's battery -/
noncomputable def n3ChargeLeg (o : Opts) (E : String → Fin (m + 1) → ℝ) : Aircraft.Seg m :=
  ⟨fun a => Propulsion.dSOCdt n3Battery (E "ac|propulsion|battery|weight" a) (E "battery.specific_energy" a) (n3Load o fun n => E n a),
    E "duration" 0⟩

/-- rate of the motor's temperature -/
noncomputable def n3MotorLeg (o : Opts) (E : String → Fin (m + 1) → ℝ) : Aircraft.Seg m :=
  ⟨fun a => Thermal.jacketDTdt (n3JacketOpts o) (n3Jacket fun n => E n a), E "duration" 0⟩

/-- rate of the battery's temperature -/
noncomputable def n3BatteryLeg (o : Opts) (E : String → Fin (m + 1) → ℝ) : Aircraft.Seg m :=
  ⟨fun a => Thermal.bandDTdt (bandOpts o) (n3Band o fun n => E n a), E "duration" 0⟩

/-- the state `E` of a phase is one of the refrigerated hybrid single aisle -/
structure IsN3 (o : Opts) (phase : String) (E : String → Fin (m + 1) → ℝ) : Prop where
  node : ∀ a, N3Node o (Aircraft.cd0Source phase) (fun n => E n a)
  /-- throttle of the motors, nozzle of the battery's duct and bypass of the heat pump run linearly from start to end -/
  throttle : ∀ a : Fin (m + 1), E "hybrid_throttle.vec" a =
    Aero.linspace (E "hybrid_throttle_start" 0) (E "hybrid_throttle_end" 0) (m + 1) a
  nozzle : ∀ a : Fin (m + 1), E "variable_duct_nozzle_area" a =
    Aero.linspace (E "variable_duct_nozzle_area_start" 0) (E "variable_duct_nozzle_area_end" 0) (m + 1) a
  bypass : ∀ a : Fin (m + 1), E "refrig.bypass" a =
    Aero.linspace (E "refrig.control.bypass_start" 0) (E "refrig.control.bypass_end" 0) (m + 1) a
  /-- the nozzle of the motor's duct is fixed -/
  fixed : ∀ a, E "motor_duct_area_nozzle_in" a = E "ac|propulsion|thermal|hx_motor|nozzle_area" 0
  /-- hoses filled with coolant of the density of the first node -/
  motorHose : ∀ a, E "motor_hose.component_weight" a = Thermal.hoseWeight (o "hose_operating_stress") (o "hose_density")
    (E "ac|geom|thermal|hx_to_motor_diameter" 0) (E "ac|geom|thermal|hx_to_motor_length" 0) (E "motor_hose.hose_design_pressure" 0)
    (E "rho_coolant" 0)
  batteryHose : ∀ a, E "battery_hose.component_weight" a = Thermal.hoseWeight (o "hose_operating_stress") (o "hose_density")
    (E "ac|geom|thermal|hx_to_battery_diameter" 0) (E "ac|geom|thermal|hx_to_battery_length" 0)
    (E "battery_hose.hose_design_pressure" 0) (E "rho_coolant" 0)
  weight : E "weight" = Aircraft.weight (E "ac|design_mission|TOW" 0)
    (Aircraft.segFuel (Integrals.simpsonTri m) (E "fuel_used_initial" 0) (n3FuelLeg o E))
  fuel : E "fuel_used_final" 0 = Aircraft.segFinal (Integrals.simpsonTri m) (E "fuel_used_initial" 0) (n3FuelLeg o E)
  soc : E "battery.SOC" = Aircraft.segFuel (Integrals.simpsonTri m) (E "battery.SOC_initial" 0) (n3ChargeLeg o E)
  socFinal : E "battery.SOC_final" 0 = Aircraft.segFinal (Integrals.simpsonTri m) (E "battery.SOC_initial" 0) (n3ChargeLeg o E)
  motor : E "motorheatsink.T" = Aircraft.segFuel (Integrals.simpsonTri m) (E "motorheatsink.T_initial" 0) (n3MotorLeg o E)
  motorFinal : E "motorheatsink.T_final" 0 =
    Aircraft.segFinal (Integrals.simpsonTri m) (E "motorheatsink.T_initial" 0) (n3MotorLeg o E)
  battery : E "batteryheatsink.T" = Aircraft.segFuel (Integrals.simpsonTri m) (E "batteryheatsink.T_initial" 0) (n3BatteryLeg o E)
  batteryFinal : E "batteryheatsink.T_final" 0 =
    Aircraft.segFinal (Integrals.simpsonTri m) (E "batteryheatsink.T_initial" 0) (n3BatteryLeg o E)

theorem soc95_seen (T : String → Fin (m + 1) → ℝ) (h : nested (socBattery 0.95) "ode_integ" socRel T) :
    T "SOC" = Integrals.integratorCompute (Integrals.simpsonTri m) (T "SOC_initial" 0) (.duration (T "duration" 0)) (fun a => T "dSOCdt" a / 1000) ∧
    ∀ i, T "SOC_final" i =
      Integrals.integratorFinal (Integrals.simpsonTri m) (T "SOC_initial" 0) (.duration (T "duration" 0)) (fun a => T "dSOCdt" a / 1000) := by
  unfold nested socRel at h
  have hs := seen_all (socBattery 0.95) socBattery95_links (fast_nodup (by decide +kernel)) T
  simp only [List.forall_mem_cons, List.not_mem_nil, false_imp_iff, implies_true, and_true, conv_self, conv_soc] at hs
  simpa only [hs] using h

theorem motorSink_seen (T : String → Fin (m + 1) → ℝ) (h : nested (cooledMotor false) "ode_integ" (tempRel "T") T) :
    T "T" = Integrals.integratorCompute (Integrals.simpsonTri m) (T "T_initial" 0) (.duration (T "duration" 0)) (T "dTdt") ∧
    ∀ i, T "T_final" i =
      Integrals.integratorFinal (Integrals.simpsonTri m) (T "T_initial" 0) (.duration (T "duration" 0)) (T "dTdt") := by
  unfold nested tempRel at h
  have hs := seen_all (cooledMotor false) cooledMotor_false_links (fast_nodup (by decide +kernel)) T
  simp only [List.forall_mem_cons, List.not_mem_nil, false_imp_iff, implies_true, and_true, conv_self, conv_KS] at hs
  simpa only [hs] using h

theorem batterySink_seen (T : String → Fin (m + 1) → ℝ) (h : nested (cooledBattery false) "ode_integ" (tempRel "T") T) :
    T "T" = Integrals.integratorCompute (Integrals.simpsonTri m) (T "T_initial" 0) (.duration (T "duration" 0)) (T "dTdt") ∧
    ∀ i, T "T_final" i =
      Integrals.integratorFinal (Integrals.simpsonTri m) (T "T_initial" 0) (.duration (T "duration" 0)) (T "dTdt") := by
  unfold nested tempRel at h
  have hs := seen_all (cooledBattery false) cooledBattery_false_links (fast_nodup (by decide +kernel)) T
  simp only [List.forall_mem_cons, List.not_mem_nil, false_imp_iff, implies_true, and_true, conv_self, conv_KS] at hs
  simpa only [hs] using h

set_option maxHeartbeats 8000000 in
/-- **C127** (a phase).  In a converged state of `HybridSingleAisleModel` in any flight phase every node satisfies `N3Node` — thrust and
fuel of two engines with motors, the electric load of motor, fault protection, heat pump and pumps, the loops of motor, fault protection
and battery through their heat exchangers and ducts, empty weight and margin — and fuel, charge and the temperatures of motor and battery
are the integrals of their rates.  The phase connects its duration to those of the integrators (`PhaseGroup.configure`). -/
theorem C127_phase (o : Opts) (phase : String) (E : String → Fin (m + 1) → ℝ) (h1 : o "fouling_factor_cold" = 0)
    (h2 : o "fouling_factor_hot" = 0) (h : (n3Phase o phase).Rel o E)
    (hT : ∀ s ∈ ["ode_integ.duration", "battery.duration", "motorheatsink.duration", "batteryheatsink.duration"],
      E s 0 = E "duration" 0) : IsN3 o phase E := by
  have hc := cd0Source_mem phase
  have hn := fun a => n3_node _ hc o _ h1 h2 (h.node a)
  have hs : ∀ n ∈ ["ac|design_mission|TOW"], ∀ a, E n a = E n 0 :=
    scalars_of h _ (n3Grp_eval _ hc).2
  have hl := (n3Grp_eval _ hc).1
  have ho := h.over
  clear h
  simp only [n3Phase, List.forall_mem_cons, List.not_mem_nil, false_imp_iff, implies_true, and_true] at ho
  obtain ⟨hf, hi, hb, li1, li2, ht1, w1, ht2, hr, w2⟩ := ho
  have hb' := soc95_seen _ hb
  have ht1' := motorSink_seen _ ht1
  have ht2' := batterySink_seen _ ht2
  have hr' := bypass_seen _ hr
  clear hb ht1 ht2 hr
  unfold hoseWeightRel at w1 w2
  oversOnce [fuelIntegrand] (n3Grp (Aircraft.cd0Source phase)) hl (n3Grp_nodup _ hc) E at hf hi hb' li1 li2 ht1' w1 ht2' hr' w2
  simp only [conv_flow'] at hf
  simp only [List.forall_mem_cons, List.not_mem_nil, false_imp_iff, implies_true, and_true] at hT hs
  obtain ⟨T1, T2, T3, T4⟩ := hT
  rw [T1] at hf
  rw [T2] at hb'
  rw [T3] at ht1'
  rw [T4] at ht2'
  have r1 : (fun a => E "battery.dSOCdt" a / 1000) = (n3ChargeLeg o E).flow := funext fun a => (hn a).charge
  have r2 : E "motorheatsink.dTdt" = (n3MotorLeg o E).flow := funext fun a => (hn a).motorRate
  have r3 : E "batteryheatsink.dTdt" = (n3BatteryLeg o E).flow := funext fun a => (hn a).batteryRate
  have r4 : E "fuel_flow" = (n3FuelLeg o E).flow := funext fun a => (hn a).flow
  rw [r1] at hb'
  rw [r2] at ht1'
  rw [r3] at ht2'
  rw [r4] at hf
  refine ⟨hn, hi, li1, hr', fun a => ?_, w1, w2, ?_, hf.2 0, hb'.1, hb'.2 0, ht1'.1, ht1'.2 0, ht2'.1, ht2'.2 0⟩
  · rw [li2 a]; simp [Aero.linspace]
  · funext a
    have hf1 : E "fuel_used" = _ := hf.1
    rw [(hn a).weight, Aircraft.C92_weight, hs a, hf1]
    rfl

/-! ### along the mission -/

set_option maxHeartbeats 2000000 in
/-- **C127** (links).  Fuel, charge and both temperatures are handed from each phase to the next, and nothing else is. -/
theorem C127_links (k : Phases.MissionKind) (ode : Bool) :
    craftLinks k ode n3States = .ok (handed k [("fuel_used_final", "fuel_used_initial"), ("battery.SOC_final", "battery.SOC_initial"),
      ("motorheatsink.T_final", "motorheatsink.T_initial"), ("batteryheatsink.T_final", "batteryheatsink.T_initial")]) :=
  craft_linked _ _ (by decide +kernel) k ode

/-- **C127** (mission).  Over ground roll, climb, cruise and descent the weight runs down from the given take-off weight by the fuel
burned, charge and the temperatures of motor and battery begin at their given values, are continuous from phase to phase and are the
integrals of their rates.  The margin of the descent is its landing weight less empty weight and two batteries; no payload is counted. -/
theorem C127_mission (k : Phases.MissionKind) (ode : Bool) (o : Opts) (X : String → Fin (m + 1) → ℝ) (W soc0 Tm0 Tb0 : ℝ) (hm : m % 2 = 0)
    (f1 : o "fouling_factor_cold" = 0) (f2 : o "fouling_factor_hot" = 0)
    (h : ∀ p ∈ route k, (n3Phase o p).Rel o (inPhase X p)) (hj : Joined k ode n3States X)
    (hT : ∀ p ∈ route k, ∀ s ∈ ["ode_integ.duration", "battery.duration", "motorheatsink.duration", "batteryheatsink.duration"],
      inPhase X p s 0 = inPhase X p "duration" 0)
    (hW : ∀ p ∈ route k, inPhase X p "ac|design_mission|TOW" 0 = W)
    (h0 : ∀ p ∈ (route k).head?, inPhase X p "fuel_used_initial" 0 = 0 ∧ inPhase X p "battery.SOC_initial" 0 = soc0 ∧
      inPhase X p "motorheatsink.T_initial" 0 = Tm0 ∧ inPhase X p "batteryheatsink.T_initial" 0 = Tb0) :
    Lightens k X W (fun p => n3FuelLeg o (inPhase X p)) ∧
    Carried k (fun p => inPhase X p "battery.SOC") soc0 (fun p => n3ChargeLeg o (inPhase X p)) ∧
    Carried k (fun p => inPhase X p "motorheatsink.T") Tm0 (fun p => n3MotorLeg o (inPhase X p)) ∧
    Carried k (fun p => inPhase X p "batteryheatsink.T") Tb0 (fun p => n3BatteryLeg o (inPhase X p)) ∧
    ∀ p ∈ (route k).getLast?, inPhase X p "margin" 0 = inPhase X p "weight" (Fin.last m) - inPhase X p "OEW" 0
        - 2 * inPhase X p "ac|propulsion|battery|weight" 0 ∧
      (0 ≤ inPhase X p "margin" 0 ↔
        inPhase X p "OEW" 0 + 2 * inPhase X p "ac|propulsion|battery|weight" 0 ≤ inPhase X p "weight" (Fin.last m)) := by
  have hp := fun p hq => C127_phase o p _ f1 f2 (h p hq) (hT p hq)
  have hl := C127_links k ode
  have l := lightens hm (X := X) (W := W) (S := fun p => n3FuelLeg o (inPhase X p))
    (ini := fun p => inPhase X p "fuel_used_initial" 0) (fin := fun p => inPhase X p "fuel_used_final" 0)
    (fun p hq => by rw [(hp p hq).weight, hW p hq]) (fun p hq => (hp p hq).fuel) (joined_route hj hl (by simp)) (fun p hq => (h0 p hq).1)
  refine ⟨l.1,
    (carried hm (ini := fun p => inPhase X p "battery.SOC_initial" 0) (fin := fun p => inPhase X p "battery.SOC_final" 0)
      (fun p hq => (hp p hq).soc) (fun p hq => (hp p hq).socFinal) (joined_route hj hl (by simp)) (fun p hq => (h0 p hq).2.1)).1,
    (carried hm (ini := fun p => inPhase X p "motorheatsink.T_initial" 0) (fin := fun p => inPhase X p "motorheatsink.T_final" 0)
      (fun p hq => (hp p hq).motor) (fun p hq => (hp p hq).motorFinal) (joined_route hj hl (by simp)) (fun p hq => (h0 p hq).2.2.1)).1,
    (carried hm (ini := fun p => inPhase X p "batteryheatsink.T_initial" 0) (fin := fun p => inPhase X p "batteryheatsink.T_final" 0)
      (fun p hq => (hp p hq).battery) (fun p hq => (hp p hq).batteryFinal) (joined_route hj hl (by simp))
      (fun p hq => (h0 p hq).2.2.2)).1, fun p hq => ?_⟩
  have L : inPhase X p "weight" (Fin.last m) = W - inPhase X p "fuel_used_final" 0 := by
    rw [l.1.landing p hq, l.2 p hq, (Aircraft.C92_total _ _).1, List.map_map]
    simp only [Function.comp_def, zero_add]
  have M := ((hp p (List.mem_of_mem_getLast? hq)).node 0).margin
  rw [hW p (List.mem_of_mem_getLast? hq)] at M
  have e : inPhase X p "margin" 0 = inPhase X p "weight" (Fin.last m) - inPhase X p "OEW" 0
      - 2 * inPhase X p "ac|propulsion|battery|weight" 0 := by rw [M, L]; ring
  refine ⟨e, ?_⟩
  rw [e]
  constructor <;> intro h <;> linarith

/-- **C127**, negation.  The air of the motor's duct is computed with the frontal area of the motor's exchanger (`motorDuct` of `N3Node`),
although the exchanger of the fault protection stands in front of it in the same duct.  They share only the numbers of channels: with
equal fins, plates and cold channels the frontal areas differ by the difference of the heights of the hot channels times width and number
of layers, so that they are equal only if these heights are; the example sets the height of one of them only (line 474). -/
theorem C127_stack (o : Opts) (c : String) (e : String → ℝ) (h : N3Node o c e)
    (hs : ∀ x ∈ [".fin_thickness", ".plate_thickness", ".channel_width_cold", ".channel_height_cold"],
      e ("hx_fault_prot" ++ x) = e ("hx_motor" ++ x))
    (hw : 0 < (motorGeo e).width) (ht : 0 < e "ac|propulsion|thermal|hx_motor|n_tall") :
    e "hx_motor.frontal_area" - e "hx_fault_prot.frontal_area" = (motorGeo e).width * e "ac|propulsion|thermal|hx_motor|n_tall" *
      ((e "hx_motor.channel_height_hot" - e "hx_fault_prot.channel_height_hot") * 0.001) ∧
    (e "hx_motor.frontal_area" = e "hx_fault_prot.frontal_area" ↔
      e "hx_motor.channel_height_hot" = e "hx_fault_prot.channel_height_hot") := by
  have f1 := h.motorHx.frontal
  have f2 := h.faultHx.frontal
  simp only [List.forall_mem_cons, List.not_mem_nil, false_imp_iff, implies_true, and_true, String.reduceAppend] at hs f1 f2
  obtain ⟨s1, s2, s3, s4⟩ := hs
  have d : e "hx_motor.frontal_area" - e "hx_fault_prot.frontal_area" = (motorGeo e).width *
      e "ac|propulsion|thermal|hx_motor|n_tall" * ((e "hx_motor.channel_height_hot" - e "hx_fault_prot.channel_height_hot") * 0.001) := by
    rw [f1, f2]
    simp only [motorGeo, faultGeo, n3Geo, HX.Geo.frontal, HX.Geo.width, HX.Geo.height, String.reduceAppend, s1, s2, s3, s4]
    ring
  refine ⟨d, fun he => ?_, fun he => ?_⟩
  · rw [he, sub_self] at d
    rcases mul_eq_zero.1 d.symm with h0 | h0
    · exact absurd h0 (mul_pos hw ht).ne'
    · linarith
  · rw [he, sub_self, zero_mul, mul_zero] at d
    linarith

/-- a motor of 1 MW: its protection turns 5 kW into heat, which warms 1 kg/s of coolant of 1000 J/(kg K) by 5 K -/
example (x : String → List ℝ → ℝ) : ∃ e : String → ℝ, faultProtection.rel ⟨fun _ => 1000, x⟩ e ∧ e "motor_power" = 1000000 ∧
    e "T_in" = 300 ∧ e "mdot_coolant" = 1 ∧ e "elec_load" = 5000 ∧ e "T_out" = 305 := by
  let e : String → ℝ := fun n => if n = "motor_power" then 1000000 else if n = "T_in" then 300 else if n = "mdot_coolant" then 1 else
    if n = "elec_load" then 5000 else if n = "T_out" then 305 else if n = "coolant_temps.T_average" then 302.5 else 0
  refine ⟨e, (C127_fault _ e).2.2 ?_, ?_⟩
  · simp only [e, String.reduceEq, reduceIte, Thermal.phtOut, Thermal.phtAvg]
    norm_num
  · simp only [e, String.reduceEq, reduceIte, and_self]

/-- from ground roll to climb the charge of the battery is handed on -/
example : ("groundroll.battery.SOC_final", "climb.battery.SOC_initial") ∈ handed ⟨false, false, true⟩
    [("fuel_used_final", "fuel_used_initial"), ("battery.SOC_final", "battery.SOC_initial")] := by decide +kernel

end Verif.Wiring
