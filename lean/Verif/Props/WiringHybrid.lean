import Verif.Props.WiringPropulsion

namespace Verif.Wiring

open Verif.Units Verif.VectorComps

/-! ### C114: series hybrid systems -/

theorem C114_twinHybrid_setup : twinHybrid.problems = [] ∧
    twinHybrid.ins = [⟨"ac|propulsion|engine|rating", "kW", false, true⟩, ⟨"ac|propulsion|propeller|diameter", "m", false, true⟩,
     ⟨"ac|propulsion|motor|rating", "kW", false, true⟩, ⟨"ac|propulsion|generator|rating", "kW", false, true⟩,
     ⟨"ac|weights|W_battery", "kg", false, true⟩, ⟨"ac|propulsion|battery|specific_energy", "W*h/kg", false, true⟩,
     ⟨"throttle", "", true, true⟩, ⟨"prop1.rpm", "rpm", true, false⟩, ⟨"fltcond|rho", "kg / m ** 3", true, true⟩,
     ⟨"fltcond|Utrue", "m/s", true, true⟩, ⟨"propulsor_active", "", true, true⟩, ⟨"prop2.rpm", "rpm", true, false⟩,
     ⟨"hybrid_split.power_rating", "W", false, false⟩, ⟨"hybrid_split.power_split_fraction", "", true, false⟩,
     ⟨"duration", "s", false, true⟩, ⟨"batt1.SOC_initial", "", false, false⟩] := by
  constructor <;> decide +kernel

/-- inputs of the hybrid models in the state `e`; ratings are given in kW -/
def hybridOf (e : String → ℝ) (extraLoad : ℝ) : Propulsion.HybridIn where
  throttle := e "throttle"
  active := e "propulsor_active"
  motorRating := e "ac|propulsion|motor|rating" * 1000
  genRating := e "ac|propulsion|generator|rating" * 1000
  engRating := e "ac|propulsion|engine|rating" * 1000
  splitFraction := e "hybrid_split.power_split_fraction"
  splitRating := e "hybrid_split.power_rating"
  engThrottle := e "eng_throttle_set.eng_throttle"
  extraLoad := extraLoad

/-- the propulsion part of the twin hybrids: outputs in terms of the model `out`, the load in the sum `load` (kW) -/
structure IsHybrid (e : String → ℝ) (load : String) (out : Propulsion.HybridOut) : Prop where
  thrust : e "thrust" = out.thrust
  fuel : e "fuel_flow" = out.fuel
  load : e load = out.totalLoad / 1000
  battery : e "battery_load" = out.batteryLoad / 1000
  balanced : out.residual = 0
  motorHeat : e "motor1.heat_out" + e "motor2.heat_out" = out.motorHeat
  splitHeat : e "hybrid_split.heat_out" = out.splitHeat
  genHeat : e "gen1.heat_out" = out.genHeat
  battHeat : e "batt1.heat_out" = 0.03 * out.batteryLoad
  energy : e "batt1.max_energy" = e "ac|weights|W_battery" * e "ac|propulsion|battery|specific_energy"
  rate : e "batt1.dSOCdt" / 1000 = Propulsion.dSOCdt battOpts97 (e "ac|weights|W_battery") (e "ac|propulsion|battery|specific_energy")
    out.batteryLoad
  motors : e "motors_weight" = 2 * (e "ac|propulsion|motor|rating" * 1000 * (1 / 5000))
  propellers : e "propellers_weight" = 2 * (0.45359237 * Propulsion.propWeight 4 (e "ac|propulsion|motor|rating" * 1000 / 745.7)
    (e "ac|propulsion|propeller|diameter" / 0.3048))
  engine : e "eng1.component_weight" = 0.14 / 1000 * (e "ac|propulsion|engine|rating" * 1000) + 104
  generator : e "gen1.component_weight" = e "ac|propulsion|generator|rating" * 1000 * (1 / 5000)

/-- `TwinSeriesHybridElectricPropulsionSystem`: a converged state is one of the hybrid model, with the generator balanced -/
theorem C114_twinHybrid (o : Opts) (e : String → ℝ) (h : twinHybrid.rel o e) :
    IsHybrid e "motors_elec_load" (Propulsion.twinHybrid o.maps (sideOf e "ac|propulsion|propeller|diameter" "prop1.rpm")
      (sideOf e "ac|propulsion|propeller|diameter" "prop2.rpm") (hybridOf e 0)) := by
  revert h
  parts twinHybrid [twinHybrid, hybridSubs, hybridDvs, motor97_rel, generator97_rel, heavyTurboshaft_rel, splitDefault_rel, splitOf,
    failed_rel, C114_propeller, coefOf, C114_socBattery, socBattery_rate, throttleBalance]
  views twinHybrid twinHybrid_links e
  rintro ⟨⟨d1, d2, d3, d4, d5, d6⟩, ⟨m1, m2, m3, -, m5, -⟩, ⟨-, -, -, -, -, p6, p7⟩, hf, ⟨n1, n2, n3, -, n5, -⟩,
    ⟨-, -, -, -, -, q6, q7⟩, ⟨a1, a2⟩, ⟨s1, s2, s3, -, -, -⟩, ⟨g1, g2, -, g4, -⟩, ⟨k1, k2, -, k4, -⟩, ⟨b1, -, -, b4, b5⟩, hbal, hl,
    w1, w2⟩
  rw [hf] at n1 n2 n3
  rw [d1] at g1 g2 g4
  rw [d2] at p6 p7 q6 q7
  rw [d3] at m1 m2 m3 m5 n1 n2 n3 n5 p7 q7
  rw [d4] at k1 k2 k4
  rw [d5, d6] at b1 b4 b5
  have hload : e "motors_elec_load" * 1000 =
      (Propulsion.motor Propulsion.hybridMotor (e "throttle") (e "ac|propulsion|motor|rating" * 1000)).elecLoad
      + (Propulsion.motor Propulsion.hybridMotor (e "throttle" * e "propulsor_active") (e "ac|propulsion|motor|rating" * 1000)).elecLoad
      + 0 := by
    rw [a1, m3, n3]; ring
  rw [hload] at s1 s2 s3
  constructor
  · rw [a2, p6, q6, m1, n1]; rfl
  · rw [g2]; rfl
  · rw [eq_div_iff (by norm_num), hload]; rfl
  · rw [hl, s1]; rfl
  · rw [s2, k1, g1] at hbal; exact hbal
  · rw [m2, n2]; rfl
  · rw [s3]; rfl
  · rw [k2, g1]; rfl
  · rw [b1, s1]; simp only [Propulsion.battery, battOpts97, Propulsion.twinHybrid, hybridOf]; ring
  · rw [b4]; rfl
  · rw [b5, s1]; rfl
  · rw [w1, m5, n5]; simp only [Propulsion.motor, Propulsion.hybridMotor]; ring
  · rw [w2, p7, q7]; ring
  · rw [g4]; simp only [Propulsion.turboshaft, Propulsion.turboOpts]; ring
  · rw [k4]; simp only [Propulsion.generator, Propulsion.hybridGen]; ring

/-- one motor of 1 kW at full throttle on the battery, the other one failed and the engine off -/
example : ∃ (o : Opts) (e : String → ℝ), twinHybrid.rel o e ∧ e "throttle" = 1 ∧ e "propulsor_active" = 0 ∧ e "battery_load" = 1 ∧
    e "thrust" = 970 := by
  refine ⟨⟨fun _ => 0, fun _ _ => 1⟩, table [("throttle", 1), ("ac|propulsion|motor|rating", 1), ("motor_rating", 1),
    ("ac|propulsion|propeller|diameter", 1), ("prop_diameter", 1), ("ac|weights|W_battery", 1), ("batt_weight", 1),
    ("ac|propulsion|battery|specific_energy", 1), ("specific_energy", 1), ("prop1.rpm", 60), ("prop2.rpm", 60), ("fltcond|rho", 1),
    ("hybrid_split.power_rating", 1000), ("hybrid_split.power_split_fraction", 1),
    ("motor1.shaft_power_out", 970), ("motor1.heat_out", 30), ("motor1.elec_load", 1000), ("motor1.component_cost", 1000 * (100 / 745) + 1),
    ("motor1.component_weight", 0.2), ("motor1.component_sizing_margin", 1),
    ("motor2.component_cost", 1000 * (100 / 745) + 1), ("motor2.component_weight", 0.2),
    ("prop1.cp", 970), ("prop1.prop_Vtip", Real.pi), ("prop1.eta_prop", 1), ("prop1.ct_over_cp", 1), ("prop1.thrust", 970),
    ("prop1.component_weight", Propulsion.propWeight 4 (1000 / 745.7) (1 / 0.3048)),
    ("prop2.prop_Vtip", Real.pi), ("prop2.eta_prop", 1), ("prop2.ct_over_cp", 1),
    ("prop2.component_weight", Propulsion.propWeight 4 (1000 / 745.7) (1 / 0.3048)),
    ("motors_elec_load", 1), ("thrust", 970), ("hybrid_split.power_out_A", 1000), ("hybrid_split.component_sizing_margin", 1),
    ("eng1.component_weight", 104), ("gen1.component_cost", 1), ("batt1.heat_out", 30), ("batt1.component_cost", 51),
    ("batt1.component_sizing_margin", 0.2), ("batt1.max_energy", 1), ("batt1.dSOCdt", -1000 / 3.6), ("battery_load", 1),
    ("motors_weight", 0.4), ("propellers_weight", 2 * (Propulsion.propWeight 4 (1000 / 745.7) (1 / 0.3048) * 0.45359237))],
    ?_, ?_, ?_, ?_, ?_⟩
  · generalize he : table _ = e
    parts twinHybrid [twinHybrid, hybridSubs, hybridDvs, motor97_rel, generator97_rel, heavyTurboshaft_rel, splitDefault_rel,
      splitOf, failed_rel, C114_propeller, coefOf, C114_socBattery, socBattery_rate, throttleBalance]
    views twinHybrid twinHybrid_links e
    simp only [← he, table, List.lookup, String.reduceBEq, Option.getD_some, Option.getD_none]
    norm_num [Propulsion.turboshaft, Propulsion.turboOpts, Propulsion.powerCoef, Propulsion.advanceRatio, Propulsion.tipSpeed,
      Propulsion.propeller, Propulsion.thrust, Propulsion.thrustCoef, Opts.maps, Propulsion.motor, Propulsion.hybridMotor,
      Propulsion.generator, Propulsion.hybridGen, Propulsion.splitCompute, Propulsion.splitA, Propulsion.splitB,
      Propulsion.SplitOpts.default, Propulsion.battery, battOpts97, Propulsion.dSOCdt, Propulsion.balanceResidual]
    try ring_nf
  all_goals simp [table, List.lookup]

/-- known defect (C79): the propeller of `SeriesHybridElectricPropulsionSystem` promotes names which it does not have, the group
cannot be set up; apart from this there is nothing wrong with its connections -/
theorem C114_seriesHybrid_setup : seriesHybrid.problems = [.noSuchVariable "prop1" "fltcond_*"] := by decide +kernel

/-- its engine's throttle is open, and nothing relates the generator's power to the share of the load it should carry -/
theorem C114_seriesHybrid_open : ⟨"eng1.throttle", "", true, false⟩ ∈ seriesHybrid.ins ∧
    ∀ k ∈ seriesHybrid.links, k.src ≠ "hybrid_split.power_out_B" ∨ k.sub = "hybrid_split" := by
  refine ⟨by decide +kernel, ?_⟩
  rw [seriesHybrid_links]; decide +kernel

theorem C114_singleHybrid_setup : singleHybrid.problems = [] ∧
    singleHybrid.ins = [⟨"ac|propulsion|engine|rating", "kW", false, true⟩, ⟨"ac|propulsion|propeller|diameter", "m", false, true⟩,
     ⟨"ac|propulsion|motor|rating", "kW", false, true⟩, ⟨"ac|propulsion|generator|rating", "kW", false, true⟩,
     ⟨"ac|weights|W_battery", "kg", false, true⟩, ⟨"motor1.throttle", "", true, false⟩, ⟨"prop1.rpm", "rpm", true, false⟩,
     ⟨"fltcond|rho", "kg / m ** 3", true, true⟩, ⟨"fltcond|Utrue", "m/s", true, true⟩,
     ⟨"hybrid_split.power_rating", "W", false, false⟩, ⟨"hybrid_split.power_split_fraction", "", true, false⟩,
     ⟨"eng1.throttle", "", true, false⟩, ⟨"batt1.specific_energy", "W * h / kg", false, false⟩] := by
  constructor <;> decide +kernel

theorem batteryDefaults_rel (o : Opts) (e : String → ℝ) : (explicit dBattery batteryDefaults).rel o e ↔
    let b := Propulsion.battery ⟨1, 5000, 50, 1⟩ (e "battery_weight") (e "elec_load") (e "specific_energy")
    e "heat_out" = b.heat ∧ e "component_cost" = b.cost ∧ e "component_sizing_margin" = b.margin ∧ e "max_energy" = b.maxEnergy := by
  simp [explicit, dBattery, battery, withOpts, OptVal.get, lit, List.lookup, batteryDefaults, eq_comm]

/-- `SingleSeriesHybridElectricPropulsionSystem`: as the model; motor and engine have throttles of their own, the mismatch of the
generator is an output -/
theorem C114_singleHybrid (o : Opts) (e : String → ℝ) (h : singleHybrid.rel o e) :
    let i : Propulsion.HybridIn := ⟨e "motor1.throttle", 1, e "ac|propulsion|motor|rating" * 1000,
      e "ac|propulsion|generator|rating" * 1000, e "ac|propulsion|engine|rating" * 1000, e "hybrid_split.power_split_fraction",
      e "hybrid_split.power_rating", e "eng1.throttle", 0⟩
    let out := Propulsion.singleHybrid o.maps (sideOf e "ac|propulsion|propeller|diameter" "prop1.rpm") i
    e "thrust" = out.thrust ∧ e "fuel_flow" = out.fuel ∧ e "motor1.elec_load" = out.totalLoad ∧
    e "hybrid_split.power_out_A" = out.batteryLoad ∧ e "eng_gen_resid.eng_gen_residual" = out.residual ∧
    e "motor1.heat_out" = out.motorHeat ∧ e "hybrid_split.heat_out" = out.splitHeat ∧ e "gen1.heat_out" = out.genHeat ∧
    e "batt1.heat_out" = 0 ∧ e "batt1.max_energy" = e "ac|weights|W_battery" * e "batt1.specific_energy" ∧
    e "motors_weight" = e "ac|propulsion|motor|rating" * 1000 * (1 / 5000) ∧
    e "propellers_weight" = 0.45359237 * Propulsion.propWeight 4 (e "ac|propulsion|motor|rating" * 1000 / 745.7)
      (e "ac|propulsion|propeller|diameter" / 0.3048) ∧
    e "eng1.component_weight" = 0.14 / 1000 * (e "ac|propulsion|engine|rating" * 1000) + 104 ∧
    e "gen1.component_weight" = e "ac|propulsion|generator|rating" * 1000 * (1 / 5000) := by
  revert h
  parts singleHybrid [singleHybrid, hybridDvs, motor97_rel, generator97_rel, heavyTurboshaft_rel, splitDefault_rel, splitOf,
    batteryDefaults_rel, C114_propeller, coefOf]
  views singleHybrid singleHybrid_links e
  rintro ⟨⟨d1, d2, d3, d4, d5⟩, ⟨m1, m2, m3, -, m5, -⟩, ⟨-, -, -, -, -, p6, p7⟩, ⟨s1, s2, s3, -, -, -⟩, ⟨g1, g2, -, g4, -⟩,
    ⟨k1, k2, -, k4, -⟩, ⟨b1, -, -, b4⟩, hr, w1, w2⟩
  rw [d1] at g1 g2 g4
  rw [d2] at p6 p7
  rw [d3] at m1 m2 m3 m5 p7
  rw [d4] at k1 k2 k4
  rw [d5] at b1 b4
  rw [m3] at s1 s2 s3
  refine ⟨?_, g2, m3, s1, ?_, m2, s3, ?_, ?_, b4, ?_, ?_, ?_, ?_⟩
  · rw [p6, m1]; rfl
  · rw [hr, k1, s2, g1]; simp only [Propulsion.singleHybrid]; ring
  · rw [k2, g1]; rfl
  · rw [b1]; simp [Propulsion.battery]
  · rw [w1, m5]; simp only [Propulsion.motor, Propulsion.hybridMotor]; ring
  · rw [w2, p7]; ring
  · rw [g4]; simp only [Propulsion.turboshaft, Propulsion.turboOpts]; ring
  · rw [k4]; simp only [Propulsion.generator, Propulsion.hybridGen]; ring

end Verif.Wiring
