import Verif.Props.WiringHybrids2

namespace Verif.Wiring

set_option maxRecDepth 10000

open Verif.Units Verif.VectorComps

variable {m : ℕ}

/-! ### C126: the thermally managed twins are set up without problems -/

/-- parameters of the heat exchanger that no subsystem provides -/
def hxOpen : List Var :=
  [⟨"ac|propulsion|thermal|hx|n_long_cold", "", false, true⟩, ⟨"ac|propulsion|thermal|hx|n_tall", "", false, true⟩,
   ⟨"propmodel.hx.channel_width_hot", "mm", false, false⟩, ⟨"propmodel.hx.channel_height_hot", "mm", false, false⟩,
   ⟨"propmodel.hx.fin_length_hot", "mm", false, false⟩, ⟨"propmodel.hx.channel_width_cold", "mm", false, false⟩,
   ⟨"propmodel.hx.channel_height_cold", "mm", false, false⟩, ⟨"propmodel.hx.fin_length_cold", "mm", false, false⟩,
   ⟨"propmodel.hx.fin_thickness", "mm", false, false⟩, ⟨"propmodel.hx.plate_thickness", "mm", false, false⟩,
   ⟨"propmodel.hx.case_thickness", "mm", false, false⟩, ⟨"propmodel.hx.material_rho", "kg/m**3", false, false⟩,
   ⟨"propmodel.hx.mu_cold", "kg/m/s", false, false⟩, ⟨"propmodel.hx.mu_hot", "kg/m/s", false, false⟩,
   ⟨"propmodel.hx.k_cold", "W/m/K", false, false⟩, ⟨"propmodel.hx.cp_cold", "J/kg/K", false, false⟩,
   ⟨"propmodel.hx.k_hot", "W/m/K", false, false⟩, ⟨"propmodel.hx.cp_hot", "J/kg/K", false, false⟩,
   ⟨"propmodel.hx.material_k", "W/m/K", false, false⟩]

/-- **C126** (setup).  Below the design variables of HybridTwin_thermal.py the airplane model has no unconnected, ambiguous or
mismatched variables in any phase; what is left open are the flight condition, the parameters of the heat exchanger, the rating of the
power split and the initial values of the states. -/
theorem C126_passive_setup (phase : String) (flight : Bool) :
    (fed passiveTwinDvs (passiveTwinGrp flight (Aircraft.cd0Source phase))).problems = [] ∧
    missionInputs (hxOpen ++ [⟨"propmodel.hybrid_split.power_rating", "W", false, false⟩, ⟨"propmodel.batt1.SOC_initial", "", false, false⟩,
      ⟨"propmodel.batteryheatsink.T_initial", "K", false, false⟩, ⟨"propmodel.motorheatsink.T_initial", "K", false, false⟩,
      ⟨"propmodel.reservoir.T_initial", "K", false, false⟩, ⟨"fuel_used_initial", "kg", false, true⟩])
      (fed passiveTwinDvs (passiveTwinGrp flight (Aircraft.cd0Source phase))).ins ∧
    hasOutputs (passiveTwinGrp flight (Aircraft.cd0Source phase)) := by
  have h := cd0Source_mem phase
  generalize Aircraft.cd0Source phase = c at h
  unfold missionInputs hasOutputs
  unfold cd0Names at h
  simp only [List.mem_cons, List.not_mem_nil, or_false] at h
  rcases h with rfl | rfl <;> kdecide

/-- **C126** (setup).  The same for HybridTwin_active_thermal.py; here the nozzle area of the duct is one of the inputs that nothing
provides, besides the nozzle area `ac|propulsion|thermal|duct|area_nozzle` of the airplane, and the parameters of the refrigerator. -/
theorem C126_active_setup (phase : String) (flight : Bool) :
    (fed activeTwinDvs (activeTwinGrp flight (Aircraft.cd0Source phase))).problems = [] ∧
    missionInputs (hxOpen ++ [⟨"propmodel.hybrid_split.power_rating", "W", false, false⟩, ⟨"propmodel.batt1.SOC_initial", "", false, false⟩,
      ⟨"propmodel.batteryheatsink.T_initial", "K", false, false⟩, ⟨"propmodel.motorheatsink.T_initial", "K", false, false⟩,
      ⟨"ac|propulsion|thermal|refrig|rating", "kW", false, true⟩, ⟨"ac|propulsion|thermal|refrig|specific_power", "W/kg", false, true⟩,
      ⟨"ac|propulsion|thermal|refrig|eff", "", false, true⟩, ⟨"ac|propulsion|thermal|duct|area_nozzle", "inch**2", true, true⟩,
      ⟨"propmodel.duct.area_nozzle", "m**2", true, false⟩, ⟨"fuel_used_initial", "kg", false, true⟩])
      (fed activeTwinDvs (activeTwinGrp flight (Aircraft.cd0Source phase))).ins ∧
    hasOutputs (activeTwinGrp flight (Aircraft.cd0Source phase)) := by
  have h := cd0Source_mem phase
  generalize Aircraft.cd0Source phase = c at h
  unfold missionInputs hasOutputs
  unfold cd0Names at h
  simp only [List.mem_cons, List.not_mem_nil, or_false] at h
  rcases h with rfl | rfl <;> kdecide

/-! ### the states along the mission -/

set_option maxHeartbeats 2000000 in
/-- **C126** (links).  Charge, temperatures and fuel are handed from each phase to the next, and nothing else is. -/
theorem C126_links (k : Phases.MissionKind) (ode : Bool) :
    craftLinks k ode passiveStates = .ok (handed k [("propmodel.batt1.SOC_final", "propmodel.batt1.SOC_initial"),
      ("propmodel.batteryheatsink.T_final", "propmodel.batteryheatsink.T_initial"),
      ("propmodel.motorheatsink.T_final", "propmodel.motorheatsink.T_initial"),
      ("propmodel.reservoir.T_final", "propmodel.reservoir.T_initial"), ("fuel_used_final", "fuel_used_initial")]) ∧
    craftLinks k ode activeStates = .ok (handed k [("propmodel.batt1.SOC_final", "propmodel.batt1.SOC_initial"),
      ("propmodel.batteryheatsink.T_final", "propmodel.batteryheatsink.T_initial"),
      ("propmodel.motorheatsink.T_final", "propmodel.motorheatsink.T_initial"), ("fuel_used_final", "fuel_used_initial")]) := by
  refine ⟨?_, ?_⟩ <;>
    exact craft_linked _ _ (by decide +kernel) k ode

/-- histories over the mission: fuel, charge and the temperatures of battery and motors -/
structure ThermalMission (k : Phases.MissionKind) (o : Opts) (X : String → Fin (m + 1) → ℝ) (W soc0 Tb0 Tm0 : ℝ)
    (extra Tin : String → Fin (m + 1) → ℝ) : Prop where
  weight : Lightens k X W (fun p => fuelLeg o (inPhase X p) (extra p))
  charge : Carried k (fun p => inPhase X p "propmodel.batt1.SOC") soc0 (fun p => chargeLeg o (inPhase X p) (extra p))
  battery : Carried k (fun p => inPhase X p "propmodel.batteryheatsink.T") Tb0
    (fun p => batteryTempLeg o (inPhase X p) (extra p) (Tin p))
  motors : Carried k (fun p => inPhase X p "propmodel.motorheatsink.T") Tm0
    (fun p => motorTempLeg o (inPhase X p) (extra p) (Tin p))
  fuel : ∀ p ∈ (route k).getLast?, inPhase X p "fuel_used_final" 0 =
    Aircraft.missionFinal (Integrals.simpsonTri m) 0 ((route k).map fun p => fuelLeg o (inPhase X p) (extra p))

theorem thermal_mission {k : Phases.MissionKind} {o : Opts} {X : String → Fin (m + 1) → ℝ} {W soc0 Tb0 Tm0 : ℝ}
    {extra Tin Thot area limit : String → Fin (m + 1) → ℝ} (hm : m % 2 = 0)
    (h : ∀ p ∈ route k, IsThermalTwin o p (inPhase X p) (extra p) (Tin p) (Thot p) (area p) (limit p))
    (hj : ∀ x ∈ [("propmodel.batt1.SOC_final", "propmodel.batt1.SOC_initial"),
      ("propmodel.batteryheatsink.T_final", "propmodel.batteryheatsink.T_initial"),
      ("propmodel.motorheatsink.T_final", "propmodel.motorheatsink.T_initial"), ("fuel_used_final", "fuel_used_initial")],
      (route k).IsChain fun p q => inPhase X q x.2 0 = inPhase X p x.1 0)
    (hW : ∀ p ∈ route k, inPhase X p "ac|weights|MTOW" 0 = W / 0.45359237)
    (h0 : ∀ p ∈ (route k).head?, inPhase X p "fuel_used_initial" 0 = 0)
    (h1 : ∀ p ∈ (route k).head?, inPhase X p "propmodel.batt1.SOC_initial" 0 = soc0)
    (h2 : ∀ p ∈ (route k).head?, inPhase X p "propmodel.batteryheatsink.T_initial" 0 = Tb0)
    (h3 : ∀ p ∈ (route k).head?, inPhase X p "propmodel.motorheatsink.T_initial" 0 = Tm0) :
    ThermalMission k o X W soc0 Tb0 Tm0 extra Tin := by
  simp only [List.forall_mem_cons, List.not_mem_nil, false_imp_iff, implies_true, and_true] at hj
  obtain ⟨j1, j2, j3, j4⟩ := hj
  have l := lightens hm (X := X) (W := W) (S := fun p => fuelLeg o (inPhase X p) (extra p))
    (ini := fun p => inPhase X p "fuel_used_initial" 0) (fin := fun p => inPhase X p "fuel_used_final" 0)
    (fun p hp => by rw [(h p hp).weight, hW p hp, div_mul_cancel₀ _ (by norm_num)]) (fun p hp => (h p hp).fuel) j4 h0
  exact ⟨l.1,
    (carried hm (ini := fun p => inPhase X p "propmodel.batt1.SOC_initial" 0) (fin := fun p => inPhase X p "propmodel.batt1.SOC_final" 0)
      (fun p hp => (h p hp).soc) (fun p hp => (h p hp).socFinal) j1 h1).1,
    (carried hm (ini := fun p => inPhase X p "propmodel.batteryheatsink.T_initial" 0)
      (fin := fun p => inPhase X p "propmodel.batteryheatsink.T_final" 0)
      (fun p hp => (h p hp).battery) (fun p hp => (h p hp).batteryFinal) j2 h2).1,
    (carried hm (ini := fun p => inPhase X p "propmodel.motorheatsink.T_initial" 0)
      (fin := fun p => inPhase X p "propmodel.motorheatsink.T_final" 0)
      (fun p hp => (h p hp).motors) (fun p hp => (h p hp).motorsFinal) j3 h3).1, l.2⟩

/-! ### the outer groups -/

theorem margins_rel (o : Opts) (V : String → ℝ) : marginsComp.rel o V ↔
    V "MTOW_margin" = Aircraft.mtowMargin (V "MTOW") (V "OEW") (V "total_fuel") (V "W_battery") (V "payload") := Iff.rfl

theorem augmented_rel (o : Opts) (V : String → ℝ) : augmentedObjective.rel o V ↔
    V "mixed_objective" = Aircraft.mixedObjective (V "fuel_burn") (V "ac|weights|MTOW") := Iff.rfl

/-- **C126** (outer groups).  The margin is take-off weight less empty weight of the cruise model, fuel of the descent's end, battery and
payload, all in pounds; the objective adds a hundredth of the take-off weight to the fuel, in kilograms; the initial temperatures reach
the first phase in kelvin. -/
theorem C126_outer (o : Opts) (D : String → ℝ) :
    (hybridAnalysis.rel o D ↔ D "margins.MTOW_margin" = Aircraft.mtowMargin (D "ac|weights|MTOW" / 0.45359237) (D "cruise.OEW")
        (D "descent.fuel_used_final" / 0.45359237) (D "ac|weights|W_battery" / 0.45359237) (D "payload") ∧
      D "mixed_objective" = Aircraft.mixedObjective (D "descent.fuel_used_final") (D "ac|weights|MTOW")) ∧
    (passiveAnalysis.rel o D ↔ D "margins.MTOW_margin" = Aircraft.mtowMargin (D "ac|weights|MTOW" / 0.45359237)
        (D "cruise.OEW" / 0.45359237) (D "descent.fuel_used_final" / 0.45359237) (D "ac|weights|W_battery" / 0.45359237) (D "payload") ∧
      D "mixed_objective" = Aircraft.mixedObjective (D "descent.fuel_used_final") (D "ac|weights|MTOW")) ∧
    (activeAnalysis.rel o D ↔ D "margins.MTOW_margin" = Aircraft.mtowMargin (D "ac|weights|MTOW" / 0.45359237)
        (D "cruise.OEW" / 0.45359237) (D "descent.fuel_used_final" / 0.45359237) (D "ac|weights|W_battery" / 0.45359237) (D "payload") ∧
      D "mixed_objective" = Aircraft.mixedObjective (D "descent.fuel_used_final") (D "ac|weights|MTOW")) ∧
    (passiveAnalysis.view D "analysis" "v0v1.propmodel.motorheatsink.T_initial" = D "T_motor_initial" + 273.15 ∧
      passiveAnalysis.view D "analysis" "v0v1.propmodel.batteryheatsink.T_initial" = D "T_batt_initial" + 273.15 ∧
      passiveAnalysis.view D "analysis" "v0v1.propmodel.reservoir.T_initial" = D "T_res_initial" + 273.15) ∧
    activeAnalysis.view D "analysis" "climb.propmodel.motorheatsink.T_initial" = D "T_motor_initial" + 273.15 ∧
    activeAnalysis.view D "analysis" "climb.propmodel.batteryheatsink.T_initial" = D "T_batt_initial" + 273.15 := by
  refine ⟨?_, ?_, ?_, ?_, ?_⟩
  · parts hybridAnalysis [hybridAnalysis, twinAnalysis, margins_rel, augmented_rel]
    views hybridAnalysis hybridAnalysis_links D
    simp only [conv_kg_lbm, conv_lb_lbm]
  · parts passiveAnalysis [passiveAnalysis, twinAnalysis, margins_rel, augmented_rel]
    views passiveAnalysis passiveAnalysis_links D
    simp only [conv_kg_lbm]
  · parts activeAnalysis [activeAnalysis, twinAnalysis, margins_rel, augmented_rel]
    views activeAnalysis activeAnalysis_links D
    simp only [conv_kg_lbm]
  · views passiveAnalysis passiveAnalysis_links D
    simp only [conv_degC_K, and_self]
  · views activeAnalysis activeAnalysis_links D
    simp only [conv_degC_K, and_self]

/-- a margin is the landing weight less empty weight, battery and payload -/
theorem margin_landing (lb W oew fuel battery payload L : ℝ) (hl : 0 < lb) (h : L = W - fuel) :
    Aircraft.mtowMargin (W / lb) (oew / lb) (fuel / lb) (battery / lb) payload * lb = L - (oew + battery + payload * lb) ∧
    (0 ≤ Aircraft.mtowMargin (W / lb) (oew / lb) (fuel / lb) (battery / lb) payload ↔ oew + battery + payload * lb ≤ L) := by
  have e : Aircraft.mtowMargin (W / lb) (oew / lb) (fuel / lb) (battery / lb) payload * lb = L - (oew + battery + payload * lb) := by
    unfold Aircraft.mtowMargin
    rw [h]
    field_simp
    ring
  refine ⟨e, ?_⟩
  rw [← sub_nonneg (a := L), ← e]
  exact ⟨fun hh => mul_nonneg hh hl.le, fun hh => nonneg_of_mul_nonneg_left hh hl⟩

theorem descent_last (t : Bool) : "descent" ∈ (route ⟨t, false, false⟩).getLast? := by cases t <;> rfl

/-- fuel of the last phase and landing weight -/
theorem mission_landing {k : Phases.MissionKind} {o : Opts} {X : String → Fin (m + 1) → ℝ} {W soc0 Tb0 Tm0 : ℝ}
    {extra Tin : String → Fin (m + 1) → ℝ} (h : ThermalMission k o X W soc0 Tb0 Tm0 extra Tin) :
    ∀ p ∈ (route k).getLast?, inPhase X p "weight" (Fin.last m) = W - inPhase X p "fuel_used_final" 0 := by
  intro p hp
  rw [h.weight.landing p hp, h.fuel p hp, (Aircraft.C92_total _ _).1, List.map_map]
  simp only [Function.comp_def, zero_add]

/-- **C126** (HybridTwin_thermal.py).  Over the whole mission of `FullMissionAnalysis` the weight runs down from the take-off weight by the
fuel, charge and the temperatures of battery, motors and reservoir are continuous from phase to phase and begin at the given values, and
a nonnegative margin says that the airplane lands with at least its empty weight (of the cruise model), battery and payload.  The
hypotheses on `D` and `X` are what the outer group connects and promotes. -/
theorem C126_passive_mission (ode : Bool) (o : Opts) (D : String → ℝ) (X : String → Fin (m + 1) → ℝ) (soc0 : ℝ) (hm : m % 2 = 0)
    (f1 : o "fouling_factor_cold" = 0) (f2 : o "fouling_factor_hot" = 0) (hD : passiveAnalysis.rel o D)
    (h : ∀ p ∈ route ⟨true, false, false⟩, (passiveTwinPhase p).Rel o (inPhase X p))
    (hj : Joined ⟨true, false, false⟩ ode passiveStates X)
    (hW : ∀ p ∈ route ⟨true, false, false⟩, inPhase X p "ac|weights|MTOW" 0 = D "ac|weights|MTOW" / 0.45359237)
    (h0 : inPhase X "v0v1" "fuel_used_initial" 0 = 0) (h1 : inPhase X "v0v1" "propmodel.batt1.SOC_initial" 0 = soc0)
    (hT : ∀ x ∈ ["propmodel.batteryheatsink.T_initial", "propmodel.motorheatsink.T_initial", "propmodel.reservoir.T_initial"],
      inPhase X "v0v1" x 0 = passiveAnalysis.view D "analysis" ("v0v1." ++ x))
    (hO : D "cruise.OEW" = inPhase X "cruise" "OEW" 0) (hF : D "descent.fuel_used_final" = inPhase X "descent" "fuel_used_final" 0) :
    ThermalMission ⟨true, false, false⟩ o X (D "ac|weights|MTOW") soc0 (D "T_batt_initial" + 273.15) (D "T_motor_initial" + 273.15)
      (fun _ _ => 0) (fun p => inPhase X p "propmodel.reservoir.T_out") ∧
    Carried ⟨true, false, false⟩ (fun p => inPhase X p "propmodel.reservoir.T_out") (D "T_res_initial" + 273.15)
      (fun p => ⟨fun a => Thermal.reservoirRate (inPhase X p "propmodel.hx.T_out_hot" a) (inPhase X p "propmodel.reservoir.T_out" a) 0.1
        (inPhase X p "ac|propulsion|thermal|hx|coolant_mass" a), inPhase X p "duration" 0⟩) ∧
    (0 ≤ D "margins.MTOW_margin" ↔ inPhase X "cruise" "OEW" 0 + D "ac|weights|W_battery" + D "payload" * 0.45359237 ≤
      inPhase X "descent" "weight" (Fin.last m)) ∧
    D "mixed_objective" = inPhase X "descent" "fuel_used_final" 0 + D "ac|weights|MTOW" / 100 := by
  have hp := fun p hp => C126_passive o p _ f1 f2 (h p hp)
  have hl := (C126_links ⟨true, false, false⟩ ode).1
  obtain ⟨-, c, -, ⟨v1, v2, v3⟩, -⟩ := C126_outer o D
  obtain ⟨c1, c2⟩ := c.1 hD
  simp only [List.forall_mem_cons, List.not_mem_nil, false_imp_iff, implies_true, and_true, String.reduceAppend] at hT
  have T := thermal_mission hm (soc0 := soc0) (Tb0 := D "T_batt_initial" + 273.15) (Tm0 := D "T_motor_initial" + 273.15)
    (fun p hq => (hp p hq).1)
    (by
      simp only [List.forall_mem_cons, List.not_mem_nil, false_imp_iff, implies_true, and_true]
      exact ⟨joined_route hj hl (by simp), joined_route hj hl (by simp), joined_route hj hl (by simp), joined_route hj hl (by simp)⟩)
    hW
    (fun p hq => by obtain rfl : "v0v1" = p := by simpa [route] using hq
                    exact h0)
    (fun p hq => by obtain rfl : "v0v1" = p := by simpa [route] using hq
                    exact h1)
    (fun p hq => by obtain rfl : "v0v1" = p := by simpa [route] using hq
                    rw [hT.1, v2])
    (fun p hq => by obtain rfl : "v0v1" = p := by simpa [route] using hq
                    rw [hT.2.1, v1])
  have R := (carried hm (ini := fun p => inPhase X p "propmodel.reservoir.T_initial" 0)
    (fin := fun p => inPhase X p "propmodel.reservoir.T_final" 0) (x0 := D "T_res_initial" + 273.15)
    (fun p hq => (hp p hq).2.1) (fun p hq => (hp p hq).2.2) (joined_route hj hl (by simp))
    (fun p hq => by obtain rfl : "v0v1" = p := by simpa [route] using hq
                    rw [hT.2.2, v3])).1
  refine ⟨T, R, ?_, ?_⟩
  · rw [c1, hF, hO]
    exact (margin_landing _ _ _ _ _ _ _ (by norm_num) (mission_landing T _ (descent_last true))).2
  · rw [c2, hF]
    rfl

/-- **C126** (HybridTwin_active_thermal.py).  The same over `BasicMission`, without reservoir and with the refrigerator as additional
load. -/
theorem C126_active_mission (ode : Bool) (o : Opts) (D : String → ℝ) (X : String → Fin (m + 1) → ℝ) (soc0 : ℝ) (hm : m % 2 = 0)
    (f1 : o "fouling_factor_cold" = 0) (f2 : o "fouling_factor_hot" = 0) (hD : activeAnalysis.rel o D)
    (h : ∀ p ∈ route ⟨false, false, false⟩, (activeTwinPhase p).Rel o (inPhase X p))
    (hj : Joined ⟨false, false, false⟩ ode activeStates X)
    (hW : ∀ p ∈ route ⟨false, false, false⟩, inPhase X p "ac|weights|MTOW" 0 = D "ac|weights|MTOW" / 0.45359237)
    (h0 : inPhase X "climb" "fuel_used_initial" 0 = 0) (h1 : inPhase X "climb" "propmodel.batt1.SOC_initial" 0 = soc0)
    (hT : ∀ x ∈ ["propmodel.batteryheatsink.T_initial", "propmodel.motorheatsink.T_initial"],
      inPhase X "climb" x 0 = activeAnalysis.view D "analysis" ("climb." ++ x))
    (hO : D "cruise.OEW" = inPhase X "cruise" "OEW" 0) (hF : D "descent.fuel_used_final" = inPhase X "descent" "fuel_used_final" 0) :
    ThermalMission ⟨false, false, false⟩ o X (D "ac|weights|MTOW") soc0 (D "T_batt_initial" + 273.15) (D "T_motor_initial" + 273.15)
      (fun p a => Thermal.selLoad (refrigNode o fun n => inPhase X p n a).sel)
      (fun p a => Thermal.selCold (refrigNode o fun n => inPhase X p n a).sel) ∧
    (0 ≤ D "margins.MTOW_margin" ↔ inPhase X "cruise" "OEW" 0 + D "ac|weights|W_battery" + D "payload" * 0.45359237 ≤
      inPhase X "descent" "weight" (Fin.last m)) ∧
    D "mixed_objective" = inPhase X "descent" "fuel_used_final" 0 + D "ac|weights|MTOW" / 100 := by
  have hp := fun p hp => C126_active o p _ f1 f2 (h p hp)
  have hl := (C126_links ⟨false, false, false⟩ ode).2
  obtain ⟨-, -, c, -, v1, v2⟩ := C126_outer o D
  obtain ⟨c1, c2⟩ := c.1 hD
  simp only [List.forall_mem_cons, List.not_mem_nil, false_imp_iff, implies_true, and_true, String.reduceAppend] at hT
  have T := thermal_mission hm (soc0 := soc0) (Tb0 := D "T_batt_initial" + 273.15) (Tm0 := D "T_motor_initial" + 273.15)
    (fun p hq => (hp p hq).1)
    (by
      simp only [List.forall_mem_cons, List.not_mem_nil, false_imp_iff, implies_true, and_true]
      exact ⟨joined_route hj hl (by simp), joined_route hj hl (by simp), joined_route hj hl (by simp), joined_route hj hl (by simp)⟩)
    hW
    (fun p hq => by obtain rfl : "climb" = p := by simpa [route] using hq
                    exact h0)
    (fun p hq => by obtain rfl : "climb" = p := by simpa [route] using hq
                    exact h1)
    (fun p hq => by obtain rfl : "climb" = p := by simpa [route] using hq
                    rw [hT.1, v2])
    (fun p hq => by obtain rfl : "climb" = p := by simpa [route] using hq
                    rw [hT.2, v1])
  refine ⟨T, ?_, ?_⟩
  · rw [c1, hF, hO]
    exact (margin_landing _ _ _ _ _ _ _ (by norm_num) (mission_landing T _ (descent_last false))).2
  · rw [c2, hF]
    rfl

/-- **C126** (HybridTwin.py).  Margin and objective of the twin without thermal management; its empty weight is in pounds. -/
theorem C126_hybrid_mission (ode : Bool) (o : Opts) (D : String → ℝ) (X : String → Fin (m + 1) → ℝ) (hm : m % 2 = 0)
    (hD : hybridAnalysis.rel o D) (h : ∀ p ∈ route ⟨true, false, false⟩, (hybridTwinPhase p).Rel o (inPhase X p))
    (hj : Joined ⟨true, false, false⟩ ode hybridStates X)
    (hW : ∀ p ∈ route ⟨true, false, false⟩, inPhase X p "ac|weights|MTOW" 0 = D "ac|weights|MTOW" / 0.45359237)
    (h0 : inPhase X "v0v1" "fuel_used_initial" 0 = 0)
    (hO : D "cruise.OEW" = inPhase X "cruise" "OEW" 0) (hF : D "descent.fuel_used_final" = inPhase X "descent" "fuel_used_final" 0) :
    (0 ≤ D "margins.MTOW_margin" ↔ inPhase X "cruise" "OEW" 0 * 0.45359237 + D "ac|weights|W_battery" + D "payload" * 0.45359237 ≤
      inPhase X "descent" "weight" (Fin.last m)) ∧
    D "mixed_objective" = inPhase X "descent" "fuel_used_final" 0 + D "ac|weights|MTOW" / 100 := by
  have hh := fun p hp => (C124_hybridTwin o p _ (h p hp)).1
  have l := lightens hm (k := ⟨true, false, false⟩) (X := X) (W := D "ac|weights|MTOW")
    (S := fun p => (hybridLeg p (inPhase X p)).fuelSeg o.maps (hybridPlane fun n => inPhase X p n 0))
    (ini := fun p => inPhase X p "fuel_used_initial" 0) (fin := fun p => inPhase X p "fuel_used_final" 0)
    (fun p hp => by rw [(hh p hp).weight, hW p hp, div_mul_cancel₀ _ (by norm_num)]) (fun p hp => (hh p hp).fuel)
    (joined_route hj (C125_links _ ode).2.2.2.2.2.1 (by simp))
    (fun p hq => by obtain rfl : "v0v1" = p := by simpa [route] using hq
                    exact h0)
  have L : inPhase X "descent" "weight" (Fin.last m) = D "ac|weights|MTOW" - inPhase X "descent" "fuel_used_final" 0 := by
    rw [l.1.landing "descent" (descent_last true), l.2 "descent" (descent_last true), (Aircraft.C92_total _ _).1, List.map_map]
    simp only [Function.comp_def, zero_add]
  obtain ⟨c, -⟩ := C126_outer o D
  obtain ⟨c1, c2⟩ := c.1 hD
  refine ⟨?_, ?_⟩
  · rw [c1, hF, hO]
    have := (margin_landing 0.45359237 _ (inPhase X "cruise" "OEW" 0 * 0.45359237) _ (D "ac|weights|W_battery") (D "payload") _ (by norm_num) L).2
    rwa [mul_div_cancel_right₀ _ (by norm_num)] at this
  · rw [c2, hF]
    rfl

/-! ### what the refrigerated twin leaves out -/

set_option maxHeartbeats 2000000 in
theorem active_oew (flight : Bool) (c : String) (hc : c ∈ cd0Names) (o : Opts) (e : String → ℝ) (h : (activeTwinGrp flight c).rel o e) :
    e "OEW" = e "OEW.OEW" * 0.45359237 + e "propmodel.hx.component_weight" + e "ac|propulsion|thermal|hx|coolant_mass" := by
  have hl := (activeTwinGrp_eval flight c hc).1
  revert h
  parts (activeTwinGrp flight c) [activeTwinGrp, thermalTwin, thermalControls, consts, polarSub, polarDrag_rel, interp, maxComp,
    hxAdder_rel, weightSub, weightSys_rel, integ_rel]
  rintro ⟨-, -, -, -, ⟨a1, -, -⟩, -⟩
  revert a1
  viewsOnce (activeTwinGrp flight c) hl (activeTwinGrp_nodup flight c hc) e
  exact id

/-- **C126**, negation.  The empty weight of the refrigerated twin does not contain its refrigerator: whenever the refrigerator weighs
something, the empty weight is below the sum of airframe, power train, heat exchanger, coolant and refrigerator. -/
theorem C126_refrigerator_weightless (o : Opts) (phase : String) (E : String → Fin (m + 1) → ℝ) (h1 : o "fouling_factor_cold" = 0)
    (h2 : o "fouling_factor_hot" = 0) (h : (activeTwinPhase phase).Rel o E) (hr : 0 < E "ac|propulsion|thermal|refrig|rating" 0)
    (hs : 0 < E "ac|propulsion|thermal|refrig|specific_power" 0) :
    0 < E "propmodel.refrig.component_weight" 0 ∧
    E "OEW" 0 = E "OEW.OEW" 0 * 0.45359237 + E "propmodel.hx.component_weight" 0 + E "ac|propulsion|thermal|hx|coolant_mass" 0 ∧
    E "OEW" 0 < E "OEW.OEW" 0 * 0.45359237 + E "propmodel.hx.component_weight" 0 + E "ac|propulsion|thermal|hx|coolant_mass" 0 +
      E "propmodel.refrig.component_weight" 0 := by
  have hc := cd0Source_mem phase
  have hn := active_node _ _ hc o _ h1 h2 (h.node 0)
  have hw := active_oew _ _ hc o _ (h.node 0)
  have hp : 0 < E "propmodel.refrig.component_weight" 0 := by
    rw [hn.2.2.1]
    unfold Thermal.pumpWeight
    positivity
  exact ⟨hp, hw, by rw [hw]; exact lt_add_of_pos_right _ hp⟩

/-! ### examples -/

/-- with a frontal area of 0.3 m² and nozzles of 0.2 and 0.4 m² the constraint holds, because of the second node alone -/
example : (0.3 : ℝ) - Utils.amax ![0.2, 0.4] ≤ 0 := (amax_le_iff _ _).2 ⟨1, by norm_num⟩

/-- a state of the outer group of HybridTwin_thermal.py: 4581 kg at take-off, 3000 kg empty, 500 kg of fuel, 100 kg of battery and
1000 lb of payload leave a margin of 981 kg less the payload; the objective is 545.81 kg -/
example (o : Opts) : ∃ D : String → ℝ, passiveAnalysis.rel o D ∧ D "margins.MTOW_margin" * 0.45359237 = 981 - 1000 * 0.45359237 ∧
    D "mixed_objective" = 545.81 ∧ passiveAnalysis.view D "analysis" "v0v1.propmodel.motorheatsink.T_initial" = 288.15 := by
  let D : String → ℝ := fun n => if n = "ac|weights|MTOW" then 4581 else if n = "cruise.OEW" then 3000 else
    if n = "descent.fuel_used_final" then 500 else if n = "ac|weights|W_battery" then 100 else if n = "payload" then 1000 else
    if n = "T_motor_initial" then 15 else if n = "mixed_objective" then 545.81 else
    if n = "margins.MTOW_margin" then (981 - 1000 * 0.45359237) / 0.45359237 else 0
  refine ⟨D, (C126_outer o D).2.1.2 ⟨?_, ?_⟩, ?_, ?_, ?_⟩
  · simp only [D, Aircraft.mtowMargin, String.reduceEq, reduceIte]
    norm_num
  · simp only [D, Aircraft.mixedObjective, String.reduceEq, reduceIte]
    norm_num
  · simp only [D, String.reduceEq, reduceIte]
    norm_num
  · simp only [D, String.reduceEq, reduceIte]
  · rw [(C126_outer o D).2.2.2.1.1]
    simp only [D, String.reduceEq, reduceIte]
    norm_num

end Verif.Wiring
