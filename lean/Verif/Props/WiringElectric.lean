import Verif.Props.WiringDucts
import Verif.Props.WiringHybrid
import Verif.Props.WiringThermal
import Verif.Model.ElectricThermal

namespace Verif.Wiring

set_option maxRecDepth 4000

open Verif.Units Verif.VectorComps

/-! ### C114: electric systems with thermal management

The hypotheses on the fouling factors are those of `C114_hx`. -/

/-- channels of the heat sinks; width and height are given in millimetres -/
noncomputable def sinkPlate (o : Opts) (e : String → ℝ) : Thermal.Plate :=
  ⟨0.405, 7.54, o "specific_heat_coolant", e "channel_width" * 0.001, e "channel_height" * 0.001, e "channel_length", e "n_parallel"⟩

/-- heat sink `name` with coolant at `Tin`, heat `q` and mass `mass` -/
structure IsSink (o : Opts) (e : String → ℝ) (name : String) (Tin q mass : ℝ) : Prop where
  heat : e (name ++ ".hex.q") = Thermal.plateQ (sinkPlate o e) Tin (e (name ++ ".T")) (e "mdot_coolant")
  out : e (name ++ ".T_out") = Thermal.plateTout (sinkPlate o e) Tin (e (name ++ ".T")) (e "mdot_coolant")
  rate : e (name ++ ".base.dTdt") = Thermal.massDTdt (o "specific_heat_object") q (e (name ++ ".hex.q")) mass

/-- geometry of the heat exchanger; the numbers of channels have the prefix `pre` -/
def sysGeo (e : String → ℝ) (pre : String) : HX.Geo :=
  ⟨e "hx.channel_width_cold" * 0.001, e "hx.channel_height_cold" * 0.001, e "hx.fin_length_cold" * 0.001,
    e "hx.channel_width_hot" * 0.001, e "hx.channel_height_hot" * 0.001, e "hx.fin_length_hot" * 0.001, e "hx.fin_thickness" * 0.001,
    e "hx.plate_thickness" * 0.001, e "hx.case_thickness" * 0.001, e (pre ++ "ac|propulsion|thermal|hx|n_wide_cold"),
    e (pre ++ "ac|propulsion|thermal|hx|n_long_cold"), e (pre ++ "ac|propulsion|thermal|hx|n_tall"), e "hx.material_rho"⟩

/-- duct and heat exchanger with coolant at `Thot` and nozzle area `area` (m²): outside air flows through the exchanger with the mass
flow of the duct, and the duct has the exchanger's pressure drop -/
structure IsCooler (o : Opts) (e : String → ℝ) (pre : String) (Thot area : ℝ) : Prop where
  heat : e "hx.heat_transfer" = HX.groupQ (HX.groupNtu (sysGeo e pre) (e "hx.material_k")
    ⟨e "duct.mdot", e "fltcond|T", e "hx.cp_cold", e "hx.k_cold", e "hx.mu_cold"⟩
    ⟨e "mdot_coolant", Thot, e "hx.cp_hot", e "hx.k_hot", e "hx.mu_hot"⟩)
  out : e "hx.T_out_hot" = HX.toutHot (e "hx.heat_transfer") (e "mdot_coolant") Thot (e "hx.cp_hot")
  drop : e "hx.delta_p_cold" = HX.deltaP (o "Kc_cold") (o "Ke_cold") ⟨(sysGeo e pre).length,
    HX.friction (HX.f1 (sysGeo e pre).shapeCold) (HX.f2 (sysGeo e pre).shapeCold)
      (HX.reDh (e "duct.mdot") (sysGeo e pre).dhCold (sysGeo e pre).xsCold (e "hx.mu_cold")), e "duct.mdot", e "fltcond|rho",
    (sysGeo e pre).dhCold, (sysGeo e pre).xsCold⟩
  air : e "duct.mdot" = Ducts.ductMdot 0.15 (e "fltcond|Utrue") (e "fltcond|rho") area (e "hx.delta_p_cold")
  drag : e "duct.drag" = Ducts.ductDrag 0.15 0.98 (e "fltcond|Utrue") (e "fltcond|rho") area (e "hx.delta_p_cold")
  weight : e "hx.component_weight" = (sysGeo e pre).weight
  frontal : e "hx.frontal_area" = (sysGeo e pre).frontal

/-- the rate of the reservoir -/
theorem reservoir_rate (e : String → ℝ) : coolantReservoir.view e "ode_integ" "dTdt" = e "rate.dTdt" ∧
    coolantReservoir.view e "ode_integ" "T_out" = e "T_out" := by
  views coolantReservoir coolantReservoir_links e
  trivial

theorem reservoir_rel (o : Opts) (e : String → ℝ) : coolantReservoir.rel o e ↔
    e "rate.dTdt" = Thermal.reservoirRate (e "T_in") (e "T_out") (e "mdot_coolant") (e "mass") := by
  rw [C114_reservoir, (reservoir_rate e).1, (reservoir_rate e).2]

theorem duct_rel (o : Opts) (e : String → ℝ) : (explicit dExplicitDuct [lit "static_pressure_loss_factor" 0.15,
      lit "gross_thrust_factor" 0.98]).rel o e ↔
    e "mdot" = Ducts.ductMdot 0.15 (e "fltcond|Utrue") (e "fltcond|rho") (e "area_nozzle") (e "delta_p_hex") ∧
    e "drag" = Ducts.ductDrag 0.15 0.98 (e "fltcond|Utrue") (e "fltcond|rho") (e "area_nozzle") (e "delta_p_hex") := by
  simp [explicit, dExplicitDuct, explicitDuct, withOpts, OptVal.get, lit, List.lookup, eq_comm]

theorem electricMotor_rel (o : Opts) (e : String → ℝ) : electricMotor97.rel o e ↔
    e "shaft_power_out" = (Propulsion.motor ElectricThermal.electricMotor (e "throttle") (e "elec_power_rating")).shaft ∧
    e "heat_out" = (Propulsion.motor ElectricThermal.electricMotor (e "throttle") (e "elec_power_rating")).heat ∧
    e "elec_load" = (Propulsion.motor ElectricThermal.electricMotor (e "throttle") (e "elec_power_rating")).elecLoad ∧
    e "component_cost" = (Propulsion.motor ElectricThermal.electricMotor (e "throttle") (e "elec_power_rating")).cost ∧
    e "component_weight" = (Propulsion.motor ElectricThermal.electricMotor (e "throttle") (e "elec_power_rating")).weight ∧
    e "component_sizing_margin" = (Propulsion.motor ElectricThermal.electricMotor (e "throttle") (e "elec_power_rating")).margin := by
  simp [electricMotor97, motorDefaults, explicit, dMotor, motor, withOpts, OptVal.get, lit, List.lookup, ElectricThermal.electricMotor, eq_comm]

/-- power train of the all-electric systems in the state `e` -/
noncomputable def electricOf (e : String → ℝ) : ElectricThermal.AllElectric :=
  ElectricThermal.allElectric (e "throttle") (e "ac|propulsion|motor|rating" * 745.7) (e "ac|weights|W_battery")
    (e "batt1.specific_energy")

/-- the power train of the all-electric systems -/
structure IsElectric (o : Opts) (e : String → ℝ) : Prop where
  thrust : e "thrust" = Propulsion.propeller o.maps ⟨(electricOf e).shaft, e "ac|propulsion|propeller|diameter", e "prop1.rpm",
    e "fltcond|rho", e "fltcond|Utrue"⟩
  load : e "motor1.elec_load" = (electricOf e).batteryLoad
  motorHeat : e "motor1.heat_out" = (electricOf e).motorHeat
  batteryHeat : e "batt1.heat_out" = (electricOf e).batteryHeat
  rate : e "batt1.dSOCdt" / 1000 =
    Propulsion.dSOCdt battOpts97 (e "ac|weights|W_battery") (e "batt1.specific_energy") (electricOf e).batteryLoad
  motorWeight : e "motor1.component_weight" = (electricOf e).sinkMass
  propWeight : e "prop1.component_weight" =
    Propulsion.propWeight 4 (e "ac|propulsion|motor|rating") (e "ac|propulsion|propeller|diameter" / 0.3048)

set_option maxHeartbeats 2000000 in
theorem C114_allElectric_setup : allElectric.problems = [] := by decide +kernel

set_option maxHeartbeats 2000000 in
theorem C114_allElectricC_setup : allElectricC.problems = [] := by decide +kernel

set_option maxHeartbeats 2000000 in
theorem C114_passiveHybrid_setup : passiveHybrid.problems = [] := by decide +kernel

set_option maxHeartbeats 2000000 in
theorem C114_refrigeratedHybrid_setup : refrigeratedHybrid.problems = [] := by decide +kernel

/-- inputs left to the user or the mission -/
theorem C114_electric_ins : allElectric.ins =
    [⟨"ac|propulsion|motor|rating", "hp", false, true⟩, ⟨"ac|propulsion|propeller|diameter", "m", false, true⟩,
     ⟨"ac|weights|W_battery", "kg", false, true⟩, ⟨"throttle", "", true, true⟩, ⟨"prop1.rpm", "rpm", true, false⟩,
     ⟨"fltcond|rho", "kg / m ** 3", true, true⟩, ⟨"fltcond|Utrue", "m/s", true, true⟩,
     ⟨"batt1.specific_energy", "W * h / kg", false, false⟩, ⟨"duration", "s", false, true⟩,
     ⟨"batt1.SOC_initial", "", false, false⟩, ⟨"motorheatsink.T_initial", "K", false, false⟩,
     ⟨"reservoir.T_initial", "K", false, false⟩, ⟨"hx.ac|propulsion|thermal|hx|n_wide_cold", "", false, false⟩,
     ⟨"hx.ac|propulsion|thermal|hx|n_long_cold", "", false, false⟩, ⟨"hx.ac|propulsion|thermal|hx|n_tall", "", false, false⟩,
     ⟨"hx.channel_width_hot", "mm", false, false⟩, ⟨"hx.channel_height_hot", "mm", false, false⟩,
     ⟨"hx.fin_length_hot", "mm", false, false⟩, ⟨"hx.channel_width_cold", "mm", false, false⟩,
     ⟨"hx.channel_height_cold", "mm", false, false⟩, ⟨"hx.fin_length_cold", "mm", false, false⟩,
     ⟨"hx.fin_thickness", "mm", false, false⟩, ⟨"hx.plate_thickness", "mm", false, false⟩,
     ⟨"hx.case_thickness", "mm", false, false⟩, ⟨"hx.material_rho", "kg/m**3", false, false⟩,
     ⟨"hx.mu_cold", "kg/m/s", false, false⟩, ⟨"hx.mu_hot", "kg/m/s", false, false⟩, ⟨"hx.k_cold", "W/m/K", false, false⟩,
     ⟨"hx.cp_cold", "J/kg/K", false, false⟩, ⟨"hx.k_hot", "W/m/K", false, false⟩, ⟨"hx.cp_hot", "J/kg/K", false, false⟩,
     ⟨"hx.material_k", "W/m/K", false, false⟩, ⟨"fltcond|T", "K", true, true⟩] := by
  decide +kernel

/-- the nozzle area of the refrigerated system's duct is not connected (C94) -/
theorem C114_refrigerated_ins : refrigeratedHybrid.ins =
    [⟨"ac|propulsion|engine|rating", "kW", false, true⟩, ⟨"ac|propulsion|propeller|diameter", "m", false, true⟩,
     ⟨"ac|propulsion|motor|rating", "kW", false, true⟩, ⟨"ac|propulsion|generator|rating", "kW", false, true⟩,
     ⟨"ac|weights|W_battery", "kg", false, true⟩, ⟨"ac|propulsion|thermal|refrig|rating", "kW", false, true⟩,
     ⟨"ac|propulsion|thermal|refrig|specific_power", "W/kg", false, true⟩,
     ⟨"ac|propulsion|thermal|refrig|eff", "", false, true⟩, ⟨"ac|propulsion|thermal|hx|mdot_coolant", "kg/s", true, true⟩,
     ⟨"ac|propulsion|thermal|hx|coolant_mass", "kg", false, true⟩,
     ⟨"ac|propulsion|thermal|hx|channel_width", "mm", false, true⟩,
     ⟨"ac|propulsion|thermal|hx|channel_height", "mm", false, true⟩,
     ⟨"ac|propulsion|thermal|hx|channel_length", "m", false, true⟩, ⟨"ac|propulsion|thermal|hx|n_parallel", "", false, true⟩,
     ⟨"ac|propulsion|thermal|duct|area_nozzle", "inch**2", true, true⟩,
     ⟨"ac|propulsion|battery|specific_energy", "W*h/kg", false, true⟩, ⟨"throttle", "", true, true⟩,
     ⟨"prop1.rpm", "rpm", true, false⟩, ⟨"fltcond|rho", "kg / m ** 3", true, true⟩, ⟨"fltcond|Utrue", "m/s", true, true⟩,
     ⟨"propulsor_active", "", true, true⟩, ⟨"prop2.rpm", "rpm", true, false⟩,
     ⟨"hybrid_split.power_rating", "W", false, false⟩, ⟨"hybrid_split.power_split_fraction", "", true, false⟩,
     ⟨"duration", "s", false, true⟩, ⟨"batt1.SOC_initial", "", false, false⟩,
     ⟨"batteryheatsink.T_initial", "K", false, false⟩, ⟨"motorheatsink.T_initial", "K", false, false⟩,
     ⟨"duct.area_nozzle", "m**2", true, false⟩, ⟨"ac|propulsion|thermal|hx|n_wide_cold", "", false, true⟩,
     ⟨"ac|propulsion|thermal|hx|n_long_cold", "", false, true⟩, ⟨"ac|propulsion|thermal|hx|n_tall", "", false, true⟩,
     ⟨"hx.channel_width_hot", "mm", false, false⟩, ⟨"hx.channel_height_hot", "mm", false, false⟩,
     ⟨"hx.fin_length_hot", "mm", false, false⟩, ⟨"hx.channel_width_cold", "mm", false, false⟩,
     ⟨"hx.channel_height_cold", "mm", false, false⟩, ⟨"hx.fin_length_cold", "mm", false, false⟩,
     ⟨"hx.fin_thickness", "mm", false, false⟩, ⟨"hx.plate_thickness", "mm", false, false⟩,
     ⟨"hx.case_thickness", "mm", false, false⟩, ⟨"hx.material_rho", "kg/m**3", false, false⟩,
     ⟨"hx.mu_cold", "kg/m/s", false, false⟩, ⟨"hx.mu_hot", "kg/m/s", false, false⟩, ⟨"hx.k_cold", "W/m/K", false, false⟩,
     ⟨"hx.cp_cold", "J/kg/K", false, false⟩, ⟨"hx.k_hot", "W/m/K", false, false⟩, ⟨"hx.cp_hot", "J/kg/K", false, false⟩,
     ⟨"hx.material_k", "W/m/K", false, false⟩, ⟨"fltcond|T", "K", true, true⟩] := by
  decide +kernel

/-- `AllElectricSinglePropulsionSystemWithThermal_Incompressible`: motor heat goes to its heat sink, and the coolant runs from the
reservoir through the heat sink and the heat exchanger back to the reservoir -/
theorem C114_allElectric (o : Opts) (e : String → ℝ) (hc : o "fouling_factor_cold" = 0) (hh : o "fouling_factor_hot" = 0)
    (h : allElectric.rel o e) :
    IsElectric o e ∧
    IsSink o e "motorheatsink" (e "reservoir.T_out") (electricOf e).motorHeat (electricOf e).sinkMass ∧
    IsCooler o e "hx." (e "motorheatsink.T_out") (e "area_nozzle" * 0.0254 ^ 2) ∧
    e "reservoir.rate.dTdt" =
      Thermal.reservoirRate (e "hx.T_out_hot") (e "reservoir.T_out") (e "mdot_coolant") (e "coolant_mass") := by
  revert h
  parts allElectric [allElectric, electricSubs, electricDvs, electricMotor_rel, C114_propeller, coefOf, C114_socBattery,
    socBattery_rate, C114_liquidCooled, plateOf, reservoir_rel, duct_rel]
  rintro ⟨d, m, p, b, s, r, u, x⟩
  replace x := C114_hx o _ x hc hh
  simp only [geoOf, coldOf, hotOf] at x
  revert d m p b s r u x
  views allElectric allElectric_links e
  rintro ⟨d1, d2, d3⟩ ⟨m1, m2, m3, -, m5, -⟩ ⟨-, -, -, -, -, p6, p7⟩ ⟨b1, -, -, -, b5⟩ ⟨s1, s2, s3⟩ r ⟨u1, u2⟩
    ⟨x1, -, x3, x4, x5, x6, -⟩
  rw [← x1] at x3
  rw [d1] at m1 m2 m3 m5 p7
  rw [d2] at p6 p7
  rw [d3] at b1 b5
  rw [m1] at p6
  rw [m3] at b1 b5
  rw [m2, m5] at s3
  exact ⟨⟨p6, m3, m2, b1, b5, m5, p7⟩, ⟨s1, s2, s3⟩, ⟨x1, x3, x6, u1, u2, x5, x4⟩, r⟩

/-- `AllElectricSinglePropulsionSystemWithThermal_Compressible`: the same with the compressible duct, for which `C114_ductHx` holds -/
theorem C114_allElectricC (o : Opts) (e : String → ℝ) (h : allElectricC.rel o e) :
    IsElectric o e ∧
    IsSink o e "motorheatsink" (e "reservoir.T_out") (electricOf e).motorHeat (electricOf e).sinkMass ∧
    ductHx.rel o (allElectricC.view e "duct") ∧
    e "reservoir.rate.dTdt" =
      Thermal.reservoirRate (e "duct.T_out_hot") (e "reservoir.T_out") (e "mdot_coolant") (e "coolant_mass") := by
  revert h
  parts allElectricC [allElectricC, electricSubs, electricDvs, electricMotor_rel, C114_propeller, coefOf, C114_socBattery,
    socBattery_rate, C114_liquidCooled, plateOf, reservoir_rel]
  rintro ⟨d, m, p, b, s, r, x⟩
  revert d m p b s r
  views allElectricC allElectricC_links e
  rintro ⟨d1, d2, d3⟩ ⟨m1, m2, m3, -, m5, -⟩ ⟨-, -, -, -, -, p6, p7⟩ ⟨b1, -, -, -, b5⟩ ⟨s1, s2, s3⟩ r
  rw [d1] at m1 m2 m3 m5 p7
  rw [d2] at p6 p7
  rw [d3] at b1 b5
  rw [m1] at p6
  rw [m3] at b1 b5
  rw [m2, m5] at s3
  exact ⟨⟨p6, m3, m2, b1, b5, m5, p7⟩, ⟨s1, s2, s3⟩, x, r⟩

/-- what the duct of the compressible system sees -/
theorem C114_allElectricC_duct (e : String → ℝ) :
    allElectricC.view e "duct" "T_in_hot" = e "motorheatsink.T_out" ∧ allElectricC.view e "duct" "mdot_hot" = e "mdot_coolant" ∧
    allElectricC.view e "duct" "rho_hot" = e "rho_coolant" ∧ allElectricC.view e "duct" "T_out_hot" = e "duct.T_out_hot" ∧
    allElectricC.view e "duct" "p_inf" = e "fltcond|p" ∧ allElectricC.view e "duct" "T_inf" = e "fltcond|T" ∧
    allElectricC.view e "duct" "Utrue" = e "fltcond|Utrue" := by
  views allElectricC allElectricC_links e
  trivial

/-- the heat sinks in a hybrid in the state `e`: the battery's first, then the motors', with the heat of the model `out` -/
def Sinks (o : Opts) (e : String → ℝ) (Tin : ℝ) (out : Propulsion.HybridOut) : Prop :=
  IsSink o e "batteryheatsink" Tin (0.03 * out.batteryLoad) (e "ac|weights|W_battery") ∧
  IsSink o e "motorheatsink" (e "batteryheatsink.T_out") out.motorHeat (2 * (e "ac|propulsion|motor|rating" * 1000 * (1 / 5000)))

/-- design variables of the coolant loop -/
def Labels (e : String → ℝ) : Prop :=
  e "mdot_coolant" = e "ac|propulsion|thermal|hx|mdot_coolant" ∧ e "coolant_mass" = e "ac|propulsion|thermal|hx|coolant_mass" ∧
  e "channel_width" = e "ac|propulsion|thermal|hx|channel_width" ∧ e "channel_height" = e "ac|propulsion|thermal|hx|channel_height" ∧
  e "channel_length" = e "ac|propulsion|thermal|hx|channel_length" ∧ e "n_parallel" = e "ac|propulsion|thermal|hx|n_parallel"

/-- `TwinSeriesHybridElectricThermalPropulsionSystem` -/
theorem C114_passiveHybrid (o : Opts) (e : String → ℝ) (hc : o "fouling_factor_cold" = 0) (hh : o "fouling_factor_hot" = 0)
    (h : passiveHybrid.rel o e) :
    let out := Propulsion.twinHybrid o.maps (sideOf e "ac|propulsion|propeller|diameter" "prop1.rpm")
      (sideOf e "ac|propulsion|propeller|diameter" "prop2.rpm") (hybridOf e 0)
    IsHybrid e "motors_elec_load" out ∧ Sinks o e (e "reservoir.T_out") out ∧
    IsCooler o e "" (e "motorheatsink.T_out") (e "ac|propulsion|thermal|duct|area_nozzle" * 0.0254 ^ 2) ∧
    e "reservoir.rate.dTdt" =
      Thermal.reservoirRate (e "hx.T_out_hot") (e "reservoir.T_out") (e "mdot_coolant") (e "coolant_mass") ∧ Labels e := by
  revert h
  parts passiveHybrid [passiveHybrid, hybridSubs, hybridDvs, coolantDvs, thermalSubs, motor97_rel, generator97_rel,
    heavyTurboshaft_rel, splitDefault_rel, splitOf, failed_rel, C114_propeller, coefOf, C114_socBattery, socBattery_rate,
    throttleBalance, C114_liquidCooled, plateOf, reservoir_rel, duct_rel]
  rintro ⟨d, m, p, f, n, q, a, sp, g, k, b, bal, l, w, t, s, u, x, r⟩
  replace x := C114_hx o _ x hc hh
  simp only [geoOf, coldOf, hotOf] at x
  revert d m p f n q a sp g k b bal l w t s u x r
  views passiveHybrid passiveHybrid_links e
  rintro ⟨d1, d2, d3, d4, d5, c1, c2, c3, c4, c5, c6, d6⟩ ⟨m1, m2, m3, -, m5, -⟩ ⟨-, -, -, -, -, p6, p7⟩ hf ⟨n1, n2, n3, -, n5, -⟩
    ⟨-, -, -, -, -, q6, q7⟩ ⟨a1, a2⟩ ⟨s1, s2, s3, -, -, -⟩ ⟨g1, g2, -, g4, -⟩ ⟨k1, k2, -, k4, -⟩ ⟨b1, -, -, b4, b5⟩ hbal hl
    ⟨w1, w2, w3⟩ ⟨t1, t2, t3⟩ ⟨v1, v2, v3⟩ ⟨u1, u2⟩ r ⟨x1, -, x3, x4, x5, x6, -⟩
  rw [← x1] at x3
  rw [hf] at n1 n2 n3
  rw [d1] at g1 g2 g4
  rw [d2] at p6 p7 q6 q7
  rw [d3] at m1 m2 m3 m5 n1 n2 n3 n5 p7 q7
  rw [d4] at k1 k2 k4
  rw [d5, d6] at b1 b4 b5
  have hload : e "motors_elec_load" * 1000 =
      (Propulsion.motor Propulsion.hybridMotor (e "throttle") (e "ac|propulsion|motor|rating" * 1000)).elecLoad
      + (Propulsion.motor Propulsion.hybridMotor (e "throttle" * e "propulsor_active") (e "ac|propulsion|motor|rating" * 1000)).elecLoad
      + 0 := by
    rw [a1, m3, n3]; ring
  rw [hload] at s1 s2 s3
  have h1 : e "batt1.heat_out" = 0.03 * (Propulsion.twinHybrid o.maps (sideOf e "ac|propulsion|propeller|diameter" "prop1.rpm")
      (sideOf e "ac|propulsion|propeller|diameter" "prop2.rpm") (hybridOf e 0)).batteryLoad := by
    rw [b1, s1]; simp only [Propulsion.battery, battOpts97, Propulsion.twinHybrid, hybridOf]; ring
  have h2 : e "motor1.heat_out" + e "motor2.heat_out" = (Propulsion.twinHybrid o.maps
      (sideOf e "ac|propulsion|propeller|diameter" "prop1.rpm") (sideOf e "ac|propulsion|propeller|diameter" "prop2.rpm")
      (hybridOf e 0)).motorHeat := by
    rw [m2, n2]; rfl
  have h3 : e "motors_weight" = 2 * (e "ac|propulsion|motor|rating" * 1000 * (1 / 5000)) := by
    rw [w1, m5, n5]; simp only [Propulsion.motor, Propulsion.hybridMotor]; ring
  rw [h1, d5] at t3
  rw [w3, h2, h3] at v3
  refine ⟨?_, ⟨⟨t1, t2, t3⟩, ⟨v1, v2, v3⟩⟩, ⟨x1, x3, x6, u1, u2, x5, x4⟩, r, c1, c2, c3, c4, c5, c6⟩
  constructor
  · rw [a2, p6, q6, m1, n1]; rfl
  · rw [g2]; rfl
  · rw [eq_div_iff (by norm_num), hload]; rfl
  · rw [hl, s1]; rfl
  · rw [s2, k1, g1] at hbal; exact hbal
  · exact h2
  · rw [s3]; rfl
  · rw [k2, g1]; rfl
  · exact h1
  · rw [b4]; rfl
  · rw [b5, s1]; rfl
  · exact h3
  · rw [w2, p7, q7]; ring
  · rw [g4]; simp only [Propulsion.turboshaft, Propulsion.turboOpts]; ring
  · rw [k4]; simp only [Propulsion.generator, Propulsion.hybridGen]; ring

/-- the refrigerator in the state `e`, rated in kW -/
def refrigOf (o : Opts) (e : String → ℝ) : Thermal.Chiller :=
  ⟨o "specific_heat", e "hx.T_out_hot", e "motorheatsink.T_out", e "mdot_coolant", e "ac|propulsion|thermal|refrig|rating" * 1000,
    e "ac|propulsion|thermal|refrig|eff", e "refrig.bypass", e "refrig.COP"⟩

/-- `TwinSeriesHybridElectricThermalPropulsionRefrigerated`: the motors' coolant is cooled by the refrigerator, whose heat goes to the
heat exchanger, and which adds to the electric load -/
theorem C114_refrigeratedHybrid (o : Opts) (e : String → ℝ) (hc : o "fouling_factor_cold" = 0) (hh : o "fouling_factor_hot" = 0)
    (h : refrigeratedHybrid.rel o e) :
    let out := Propulsion.twinHybrid o.maps (sideOf e "ac|propulsion|propeller|diameter" "prop1.rpm")
      (sideOf e "ac|propulsion|propeller|diameter" "prop2.rpm") (hybridOf e (Thermal.selLoad (refrigOf o e).sel))
    IsHybrid e "total_elec_load" out ∧ Sinks o e (e "refrig.T_out_cold") out ∧
    IsCooler o e "" (e "refrig.T_out_hot") (e "duct.area_nozzle") ∧
    (refrigOf o e).converged ∧ e "refrig.T_out_cold" = Thermal.selCold (refrigOf o e).sel ∧
    e "refrig.T_out_hot" = Thermal.selHot (refrigOf o e).sel ∧ e "refrig.component_weight" =
      Thermal.pumpWeight (e "ac|propulsion|thermal|refrig|rating" * 1000) (e "ac|propulsion|thermal|refrig|specific_power") ∧
    Labels e ∧ e "area_nozzle" = e "ac|propulsion|thermal|duct|area_nozzle" := by
  revert h
  parts refrigeratedHybrid [refrigeratedHybrid, hybridSubs, hybridDvs, coolantDvs, thermalSubs, motor97_rel, generator97_rel,
    heavyTurboshaft_rel, splitDefault_rel, splitOf, failed_rel, C114_propeller, coefOf, C114_socBattery, socBattery_rate,
    throttleBalance, C114_liquidCooled, plateOf, duct_rel]
  rintro ⟨d, m, p, f, n, q, a, sp, g, k, b, bal, l, w, t, s, u, x, r⟩
  obtain ⟨r1, r2, r3, r4, r5⟩ := C114_chiller o _ false r
  clear r
  simp only [chillerOf] at r1 r2 r3 r4
  replace x := C114_hx o _ x hc hh
  simp only [geoOf, coldOf, hotOf] at x
  revert d m p f n q a sp g k b bal l w t s u x r1 r2 r3 r4 r5
  views refrigeratedHybrid refrigeratedHybrid_links e
  rintro ⟨d1, d2, d3, d4, d5, y1, y2, y3, c1, c2, c3, c4, c5, c6, y4, d6⟩ ⟨m1, m2, m3, -, m5, -⟩ ⟨-, -, -, -, -, p6, p7⟩ hf
    ⟨n1, n2, n3, -, n5, -⟩ ⟨-, -, -, -, -, q6, q7⟩ ⟨a1, a2⟩ ⟨s1, s2, s3, -, -, -⟩ ⟨g1, g2, -, g4, -⟩ ⟨k1, k2, -, k4, -⟩ ⟨b1, -, -, b4, b5⟩ hbal hl
    ⟨w1, w2, w3⟩ ⟨t1, t2, t3⟩ ⟨v1, v2, v3⟩ ⟨u1, u2⟩
    r1 r2 r3 r4 r5 ⟨x1, -, x3, x4, x5, x6, -⟩
  rw [← x1] at x3
  rw [y1, y3] at r1 r2 r3 r4
  rw [y1, y2] at r5
  rw [hf] at n1 n2 n3
  rw [d1] at g1 g2 g4
  rw [d2] at p6 p7 q6 q7
  rw [d3] at m1 m2 m3 m5 n1 n2 n3 n5 p7 q7
  rw [d4] at k1 k2 k4
  rw [d5, d6] at b1 b4 b5
  have hload : e "total_elec_load" * 1000 =
      (Propulsion.motor Propulsion.hybridMotor (e "throttle") (e "ac|propulsion|motor|rating" * 1000)).elecLoad
      + (Propulsion.motor Propulsion.hybridMotor (e "throttle" * e "propulsor_active") (e "ac|propulsion|motor|rating" * 1000)).elecLoad
      + Thermal.selLoad (refrigOf o e).sel := by
    rw [a1, m3, n3, r4]; simp only [refrigOf]; ring
  rw [hload] at s1 s2 s3
  have h1 : e "batt1.heat_out" = 0.03 * (Propulsion.twinHybrid o.maps (sideOf e "ac|propulsion|propeller|diameter" "prop1.rpm")
      (sideOf e "ac|propulsion|propeller|diameter" "prop2.rpm") (hybridOf e (Thermal.selLoad (refrigOf o e).sel))).batteryLoad := by
    rw [b1, s1]; simp only [Propulsion.battery, battOpts97, Propulsion.twinHybrid, hybridOf]; ring
  have h2 : e "motor1.heat_out" + e "motor2.heat_out" = (Propulsion.twinHybrid o.maps
      (sideOf e "ac|propulsion|propeller|diameter" "prop1.rpm") (sideOf e "ac|propulsion|propeller|diameter" "prop2.rpm")
      (hybridOf e (Thermal.selLoad (refrigOf o e).sel))).motorHeat := by
    rw [m2, n2]; rfl
  have h3 : e "motors_weight" = 2 * (e "ac|propulsion|motor|rating" * 1000 * (1 / 5000)) := by
    rw [w1, m5, n5]; simp only [Propulsion.motor, Propulsion.hybridMotor]; ring
  rw [h1, d5] at t3
  rw [w3, h2, h3] at v3
  refine ⟨?_, ⟨⟨t1, t2, t3⟩, ⟨v1, v2, v3⟩⟩, ⟨x1, x3, x6, u1, u2, x5, x4⟩, r1, r2, r3, r5, ⟨c1, c2, c3, c4, c5, c6⟩, y4⟩
  constructor
  · rw [a2, p6, q6, m1, n1]; rfl
  · rw [g2]; rfl
  · rw [eq_div_iff (by norm_num), hload]; rfl
  · rw [hl, s1]; rfl
  · rw [s2, k1, g1] at hbal; exact hbal
  · exact h2
  · rw [s3]; rfl
  · rw [k2, g1]; rfl
  · exact h1
  · rw [b4]; rfl
  · rw [b5, s1]; rfl
  · exact h3
  · rw [w2, p7, q7]; ring
  · rw [g4]; simp only [Propulsion.turboshaft, Propulsion.turboOpts]; ring
  · rw [k4]; simp only [Propulsion.generator, Propulsion.hybridGen]; ring

end Verif.Wiring
