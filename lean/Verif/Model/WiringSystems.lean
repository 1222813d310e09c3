import Verif.Model.WiringDucts

/-!
The groups of openconcept/atmospherics, openconcept/propulsion, openconcept/energy_storage and openconcept/thermal as written:
subsystems, promotions, connections and options.  Wildcards like `fltcond|*` are expanded; one that matches nothing is kept.
-/

namespace Verif.Wiring

open Verif.Units Verif.VectorComps

/-- a number given as an option -/
abbrev lit (n : String) (x : ℝ) : String × OptVal := (n, .lit x)

/-- an option of the group given on, under another name -/
abbrev ref (n m : String) : String × OptVal := (n, .ref m)

/-- utilities/math/integrals.py:593-660, 715-740 `Integrator` with `time_setup="duration"`, `diff_units="s"` and one integrand;
the values are the subject of C01-C05 -/
def integrator (q units rate rateUnits start final : String) : Sys :=
  opaque_ [⟨"duration", "s", false, true⟩, ⟨rate, rateUnits, true, true⟩, ⟨start, units, false, true⟩]
    [⟨final, units, false, true⟩, ⟨q, units, true, true⟩]

/-- utilities/linearinterp.py:33-38 `LinearInterpolator` without units -/
def linearInterp : Sys :=
  opaque_ [⟨"start_val", "", false, true⟩, ⟨"end_val", "", false, true⟩] [⟨"vec", "", true, true⟩]

/-! ### atmosphere -/

/-- atmospherics/compute_atmos_props.py:49-87 `ComputeAtmosphericProperties.setup`, `true_airspeed_in=tas` -/
noncomputable def atmosphere (tas : Bool) : Grp where
  subs :=
    [⟨"temp", explicit dTemperatureComp, names ["fltcond|h", "fltcond|TempIncrement"], names ["fltcond|T"]⟩,
     ⟨"pressure", explicit dPressureComp, names ["fltcond|h"], names ["fltcond|p"]⟩,
     ⟨"density", explicit dDensity, names ["fltcond|p", "fltcond|T"], names ["fltcond|rho"]⟩,
     ⟨"speedofsound", explicit dSpeedOfSound, names ["fltcond|T"], names ["fltcond|a"]⟩,
     (if tas then ⟨"equivair", explicit dEquivalentAirspeed, .all, .all⟩ else ⟨"trueair", explicit dTrueAirspeed, .all, .all⟩),
     ⟨"dynamicpressure", explicit dDynamicPressure, .all, .all⟩,
     ⟨"machnumber", explicit dMachNumber, .all, .all⟩]

/-! ### propeller and turboprops -/

/-- propulsion/empirical_data/prop_maps.py:93-96 -/
def propMap : Sys := surrogate "eta_prop" [⟨"cp", "", true, true⟩, ⟨"J", "", true, true⟩] ⟨"eta_prop", "", true, true⟩

/-- propulsion/empirical_data/prop_maps.py:208-210 -/
def staticPropMap : Sys := surrogate "ct_over_cp" [⟨"cp", "", true, true⟩] ⟨"ct_over_cp", "", true, true⟩

/-- propulsion/propeller.py:57-78 `SimplePropeller.setup` with four blades -/
noncomputable def propeller : Grp where
  subs :=
    [⟨"propcalcs", explicit dPropCoefficients, .all, .all⟩,
     ⟨"propmap", propMap, names [], .all⟩,
     ⟨"staticpropmap", staticPropMap, names [], .all⟩,
     ⟨"thrustcalc", explicit dThrustCalc, .all, .all⟩,
     ⟨"propweights", explicit dPropellerWeight [lit "num_blades" 4], .all, .all⟩]
  conns := [("cp", "propmap.cp"), ("cp", "staticpropmap.cp"), ("J", "propmap.J")]

/-- propulsion/turboshaft.py:62-66 defaults -/
noncomputable def turboshaftDefaults : List (String × OptVal) :=
  [lit "psfc" (0.6 * 1.68965774e-7), lit "weight_inc" 0, lit "weight_base" 0, lit "cost_inc" 1.04, lit "cost_base" 0]

/-- `SimpleTurboshaft(weight_inc=0.14 / 1000, weight_base=104)` -/
noncomputable def heavyTurboshaft : Sys :=
  explicit dTurboshaft ([lit "weight_inc" (0.14 / 1000), lit "weight_base" 104] ++ turboshaftDefaults)

/-- propulsion/motor.py:51-55 defaults -/
noncomputable def motorDefaults : List (String × OptVal) :=
  [lit "efficiency" 1, lit "weight_inc" (1 / 5000), lit "weight_base" 0, lit "cost_inc" (100 / 745), lit "cost_base" 1]

/-- `SimpleMotor(efficiency=0.97)` -/
noncomputable def motor97 : Sys := explicit dMotor ([lit "efficiency" 0.97] ++ motorDefaults)

/-- propulsion/generator.py:49-53 defaults -/
noncomputable def generatorDefaults : List (String × OptVal) :=
  [lit "efficiency" 1, lit "weight_inc" (1 / 5000), lit "weight_base" 0, lit "cost_inc" (100 / 745), lit "cost_base" 1]

/-- `SimpleGenerator(efficiency=0.97)` -/
noncomputable def generator97 : Sys := explicit dGenerator ([lit "efficiency" 0.97] ++ generatorDefaults)

/-- propulsion/splitter.py:66-70 `PowerSplit(rule="fraction")` with the defaults -/
noncomputable def splitDefault : Sys :=
  explicit dSplitFraction [lit "efficiency" 1, lit "weight_inc" 0, lit "weight_base" 0, lit "cost_inc" 0, lit "cost_base" 0]

/-- propulsion/systems/simple_turboprop.py:43-76 `TurbopropPropulsionSystem.setup` -/
noncomputable def turboprop : Grp where
  subs :=
    [⟨"dvs", label [("ac|propulsion|engine|rating", "eng1_rating", false, "hp"),
        ("ac|propulsion|propeller|diameter", "prop1_diameter", false, "m")], .all, .all⟩,
     ⟨"eng1", heavyTurboshaft, .only [("throttle", "throttle"), ("shaft_power_rating", "ac|propulsion|engine|rating")],
        names ["fuel_flow"]⟩,
     ⟨"prop1", propeller.sys, .only [("fltcond|rho", "fltcond|rho"), ("fltcond|Utrue", "fltcond|Utrue"),
        ("power_rating", "ac|propulsion|engine|rating"), ("diameter", "ac|propulsion|propeller|diameter")], names ["thrust"]⟩]
  conns := [("eng1.shaft_power_out", "prop1.shaft_power_in")]
  defaults := [("ac|propulsion|engine|rating", "hp"), ("ac|propulsion|propeller|diameter", "m")]

/-- `throttle` of the second propulsor times the flag `propulsor_active` -/
noncomputable def failed (output : String) : Sys :=
  product ⟨output, ["throttle", "propulsor_active"], .all 1, 1, 1, none, none⟩ fun _ => true

/-- propulsion/systems/simple_turboprop.py:113-178 `TwinTurbopropPropulsionSystem.setup` -/
noncomputable def twinTurboprop : Grp where
  subs :=
    [⟨"eng1", heavyTurboshaft, .only [("throttle", "throttle"), ("shaft_power_rating", "ac|propulsion|engine|rating")], .only []⟩,
     ⟨"prop1", propeller.sys, .only [("fltcond|rho", "fltcond|rho"), ("fltcond|Utrue", "fltcond|Utrue"),
        ("power_rating", "ac|propulsion|engine|rating"), ("diameter", "ac|propulsion|propeller|diameter")], .only []⟩,
     ⟨"eng2", heavyTurboshaft, .only [("shaft_power_rating", "ac|propulsion|engine|rating")], .only []⟩,
     ⟨"prop2", propeller.sys, .only [("fltcond|rho", "fltcond|rho"), ("fltcond|Utrue", "fltcond|Utrue"),
        ("power_rating", "ac|propulsion|engine|rating"), ("diameter", "ac|propulsion|propeller|diameter")], .only []⟩,
     ⟨"failedengine", failed "eng2throttle", names ["throttle", "propulsor_active"], .only []⟩,
     ⟨"adder", sums [eqn "fuel_flow" ["eng1_fuel_flow", "eng2_fuel_flow"] "kg/s" true,
        eqn "thrust" ["prop1_thrust", "prop2_thrust"] "N" true,
        eqn "engines_weight" ["eng1_weight", "eng2_weight"] "kg" false,
        eqn "propellers_weight" ["prop1_weight", "prop2_weight"] "kg" false], .all, .all⟩]
  conns :=
    [("failedengine.eng2throttle", "eng2.throttle"),
     ("eng1.shaft_power_out", "prop1.shaft_power_in"), ("eng2.shaft_power_out", "prop2.shaft_power_in"),
     ("prop1.thrust", "prop1_thrust"), ("prop2.thrust", "prop2_thrust"),
     ("eng1.fuel_flow", "eng1_fuel_flow"), ("eng2.fuel_flow", "eng2_fuel_flow"),
     ("prop1.component_weight", "prop1_weight"), ("prop2.component_weight", "prop2_weight"),
     ("eng1.component_weight", "eng1_weight"), ("eng2.component_weight", "eng2_weight")]
  defaults := [("ac|propulsion|engine|rating", "hp"), ("ac|propulsion|propeller|diameter", "m")]

/-! ### battery -/

/-- energy_storage/battery.py:159-163 defaults of `SimpleBattery`; `specific_energy` is the default of an input -/
noncomputable def batteryDefaults : List (String × OptVal) :=
  [lit "efficiency" 1, lit "specific_power" 5000, lit "cost_inc" 50, lit "cost_base" 1]

/-- energy_storage/battery.py:84-96 -/
noncomputable def socRate : MulSys ℝ :=
  ⟨"dSOCdt", ["elec_load", "max_energy"], .each [2, 1], 1, -1, some [false, true], some [some "W", some "kJ"]⟩

/-- energy_storage/battery.py:59-113 `SOCBattery.setup` with efficiency `eff`, other options at their defaults -/
noncomputable def socBattery (eff : ℝ) : Grp where
  subs :=
    [⟨"batt_base", explicit dBattery ([lit "efficiency" eff] ++ batteryDefaults), .all, .all⟩,
     ⟨"divider", product socRate fun n => n != "max_energy", .all, .all⟩,
     ⟨"ode_integ", integrator "SOC" "" "dSOCdt" "(s)** -1" "SOC_initial" "SOC_final", .all, .all⟩]

/-- `SOCBattery(efficiency=0.97)` -/
noncomputable abbrev socBattery97 : Grp := socBattery 0.97

/-! ### series hybrids -/

/-- propeller of the hybrids: `promotes_inputs=["fltcond|*"]` -/
def propIns : Promo := names ["fltcond|rho", "fltcond|Utrue"]

/-- `BalanceComp(name="eng_throttle", eq_units="kW", rhs_name="gen_power_required", lhs_name="gen_power_available")` -/
noncomputable def throttleBalance : Sys := balance "eng_throttle" "" "gen_power_available" "gen_power_required" "kW"

/-- the renamed inputs which the twin hybrids have in common -/
def hybridDvs : List (String × String × Bool × String) :=
  [("ac|propulsion|engine|rating", "eng_rating", false, "kW"),
   ("ac|propulsion|propeller|diameter", "prop_diameter", false, "m"),
   ("ac|propulsion|motor|rating", "motor_rating", false, "kW"),
   ("ac|propulsion|generator|rating", "gen_rating", false, "kW"),
   ("ac|weights|W_battery", "batt_weight", false, "kg")]

/-- power train of the twin hybrids: propulsion/systems/simple_series_hybrid.py:60-118,
thermal_series_hybrid.py:77-137 and 269-330 -/
noncomputable def hybridSubs (load : String) (loads : List String) : List Sub :=
  [⟨"motor1", motor97, names ["throttle"], .only []⟩,
   ⟨"prop1", propeller.sys, propIns, .only []⟩,
   ⟨"failedmotor", failed "motor2throttle", names ["throttle", "propulsor_active"], .only []⟩,
   ⟨"motor2", motor97, .only [], .only []⟩,
   ⟨"prop2", propeller.sys, propIns, .only []⟩,
   ⟨"add_power", sums [eqn load loads "kW" true, eqn "thrust" ["prop1_thrust", "prop2_thrust"] "N" true], .only [], .all⟩,
   ⟨"hybrid_split", splitDefault, .only [], .only []⟩,
   ⟨"eng1", heavyTurboshaft, .only [], names ["fuel_flow"]⟩,
   ⟨"gen1", generator97, .only [], .only []⟩,
   ⟨"batt1", socBattery97.sys, names ["duration", "specific_energy"], .only []⟩,
   ⟨"eng_throttle_set", throttleBalance, .only [], .only []⟩,
   ⟨"relabel", label [("hybrid_split_A_in", "battery_load", true, "kW")], .only [], names ["battery_load"]⟩]

/-- connections of the twin hybrids: simple_series_hybrid.py:62-142, thermal_series_hybrid.py:80-160 and 272-355 -/
def hybridConns (load : String) : List (String × String) :=
  [("motor1.shaft_power_out", "prop1.shaft_power_in"), ("motor2.shaft_power_out", "prop2.shaft_power_in"),
   ("failedmotor.motor2throttle", "motor2.throttle"),
   ("motor1.elec_load", "add_power.motor1_elec_load"), ("motor2.elec_load", "add_power.motor2_elec_load"),
   ("prop1.thrust", "add_power.prop1_thrust"), ("prop2.thrust", "add_power.prop2_thrust"),
   (load, "hybrid_split.power_in"), ("eng1.shaft_power_out", "gen1.shaft_power_in"),
   ("hybrid_split.power_out_A", "batt1.elec_load"),
   ("hybrid_split.power_out_B", "eng_throttle_set.gen_power_required"),
   ("gen1.elec_power_out", "eng_throttle_set.gen_power_available"), ("eng_throttle_set.eng_throttle", "eng1.throttle"),
   ("hybrid_split.power_out_A", "relabel.hybrid_split_A_in"),
   ("motor1.component_weight", "motor1_weight"), ("motor2.component_weight", "motor2_weight"),
   ("prop1.component_weight", "prop1_weight"), ("prop2.component_weight", "prop2_weight"),
   ("eng_rating", "eng1.shaft_power_rating"), ("prop_diameter", "prop1.diameter"), ("prop_diameter", "prop2.diameter"),
   ("motor_rating", "motor1.elec_power_rating"), ("motor_rating", "motor2.elec_power_rating"),
   ("motor_rating", "prop1.power_rating"), ("motor_rating", "prop2.power_rating"),
   ("gen_rating", "gen1.elec_power_rating"), ("batt_weight", "batt1.battery_weight")]

/-- propulsion/systems/simple_series_hybrid.py:45-142 `TwinSeriesHybridElectricPropulsionSystem.setup` -/
noncomputable def twinHybrid : Grp where
  subs :=
    [⟨"dvs", label (hybridDvs ++ [("ac|propulsion|battery|specific_energy", "specific_energy", false, "W*h/kg")]), .all, .all⟩]
    ++ hybridSubs "motors_elec_load" ["motor1_elec_load", "motor2_elec_load"] ++
    [⟨"add_weights", sums [eqn "motors_weight" ["motor1_weight", "motor2_weight"] "kg" false,
        eqn "propellers_weight" ["prop1_weight", "prop2_weight"] "kg" false], .all, .all⟩]
  conns := hybridConns "motors_elec_load"

/-- propulsion/systems/simple_series_hybrid.py:159-198 `SeriesHybridElectricPropulsionSystem.setup`; the pattern `fltcond_*` of
line 177 matches nothing -/
noncomputable def seriesHybrid : Grp where
  subs :=
    [⟨"dvs", label [("ac|propulsion|engine|rating", "eng1_rating", false, "kW"), ("dv_prop1_diameter", "prop1_diameter", false, "m"),
        ("dv_motor1_rating", "motor1_rating", false, "kW"), ("dv_gen1_rating", "gen1_rating", false, "kW"),
        ("dv_batt1_weight", "batt1_weight", false, "kg")], .all, .all⟩,
     ⟨"motor1", motor97, names ["throttle"], .only []⟩,
     ⟨"hybrid_split", splitDefault, .only [], .only []⟩,
     ⟨"gen1", generator97, .only [], .only []⟩,
     ⟨"eng1", explicit dTurboshaft turboshaftDefaults, .only [], names ["fuel_flow"]⟩,
     ⟨"batt1", explicit dBattery batteryDefaults, .only [], .only []⟩,
     ⟨"prop1", propeller.sys, names ["fltcond_*"], names ["thrust"]⟩]
  conns :=
    [("eng1_rating", "eng1.shaft_power_rating"), ("prop1_diameter", "prop1.diameter"),
     ("motor1_rating", "motor1.elec_power_rating"), ("motor1_rating", "prop1.power_rating"),
     ("gen1_rating", "gen1.elec_power_rating"), ("batt1_weight", "batt1.battery_weight"),
     ("motor1.shaft_power_out", "prop1.shaft_power_in"), ("eng1.shaft_power_out", "gen1.shaft_power_in"),
     ("motor1.elec_load", "hybrid_split.power_in"), ("hybrid_split.power_out_A", "batt1.elec_load")]

/-- propulsion/systems/simple_series_hybrid.py:265-343 `SingleSeriesHybridElectricPropulsionSystem.setup` -/
noncomputable def singleHybrid : Grp where
  subs :=
    [⟨"dvs", label hybridDvs, .all, .all⟩,
     ⟨"motor1", motor97, .only [], .only []⟩,
     ⟨"prop1", propeller.sys, propIns, names ["thrust"]⟩,
     ⟨"hybrid_split", splitDefault, .only [], .only []⟩,
     ⟨"eng1", heavyTurboshaft, .only [], names ["fuel_flow"]⟩,
     ⟨"gen1", generator97, .only [], .only []⟩,
     ⟨"batt1", explicit dBattery batteryDefaults, .only [], .only []⟩,
     ⟨"eng_gen_resid", sums [eqn "eng_gen_residual" ["gen_power_available", "gen_power_required"] "kW" true (some [1, -1])],
        .only [], .only []⟩,
     ⟨"add_weights", sums [eqn "motors_weight" ["motor1_weight"] "kg" false, eqn "propellers_weight" ["prop1_weight"] "kg" false],
        .all, .all⟩]
  conns :=
    [("motor1.shaft_power_out", "prop1.shaft_power_in"), ("motor1.elec_load", "hybrid_split.power_in"),
     ("eng1.shaft_power_out", "gen1.shaft_power_in"), ("hybrid_split.power_out_A", "batt1.elec_load"),
     ("hybrid_split.power_out_B", "eng_gen_resid.gen_power_required"), ("gen1.elec_power_out", "eng_gen_resid.gen_power_available"),
     ("motor1.component_weight", "motor1_weight"), ("prop1.component_weight", "prop1_weight"),
     ("eng_rating", "eng1.shaft_power_rating"), ("prop_diameter", "prop1.diameter"), ("motor_rating", "motor1.elec_power_rating"),
     ("motor_rating", "prop1.power_rating"), ("gen_rating", "gen1.elec_power_rating"), ("batt_weight", "batt1.battery_weight")]

/-! ### coolant loops -/

/-- `ConstantSurfaceTemperatureColdPlate_NTU` as promoted by thermal/thermal.py:343-349; `fluid_k` and `nusselt` at the defaults of
thermal.py:215-216 -/
noncomputable def plate : Sub where
  name := "hex"
  sys := explicit dColdPlate [lit "fluid_k" 0.405, lit "nusselt" 7.54, ref "specific_heat" "specific_heat_coolant"]
  pin := .only [("T_in", "T_in"), ("T_surface", "T"), ("n_parallel", "n_parallel"), ("channel_width", "channel_width"),
    ("channel_height", "channel_height"), ("channel_length", "channel_length"), ("mdot_coolant", "mdot_coolant")]
  pout := names ["T_out"]

/-- thermal/thermal.py:319-350 `LiquidCooledComp.setup` with thermal mass -/
noncomputable def liquidCooled : Grp where
  subs :=
    [⟨"base", explicit dThermalMass [ref "specific_heat" "specific_heat_object"], names ["q_in", "mass"], .only []⟩,
     ⟨"ode_integ", integrator "T" "K" "dTdt" "(K) / (s)" "T_initial" "T_final", .all, .all⟩,
     plate]
  conns := [("base.dTdt", "dTdt"), ("hex.q", "base.q_out")]

/-- thermal/thermal.py:319-350 `LiquidCooledComp.setup`, quasi-steady -/
noncomputable def liquidCooledSteady : Grp where
  subs := [⟨"base", implicit dMasslessBalance, names ["q_in"], .only [("T_object", "T")]⟩, plate]
  conns := [("hex.q", "base.q_out")]

/-- thermal/thermal.py:383-399 `CoolantReservoir.setup` -/
noncomputable def coolantReservoir : Grp where
  subs :=
    [⟨"rate", explicit dReservoir, names ["T_in", "T_out", "mass", "mdot_coolant"], .only []⟩,
     ⟨"ode_integ", integrator "T_out" "K" "dTdt" "(K) / (s)" "T_initial" "T_final", .all, .all⟩]
  conns := [("rate.dTdt", "dTdt")]

/-- thermal/chiller.py:240-300 `HeatPumpWithIntegratedCoolantLoop.setup`; `direct`: `nonlinear_bypass_control` -/
noncomputable def chiller (direct : Bool) : Grp where
  subs :=
    (if direct then [] else
      [⟨"control", indep [⟨"bypass_start", "", false, true⟩, ⟨"bypass_end", "", false, true⟩], .only [], .only []⟩,
       ⟨"li", linearInterp, .only [], .only [("vec", "bypass")]⟩]) ++
    [⟨"weightpower", explicit dHeatPumpWeight, names ["power_rating", "specific_power"], names ["component_weight"]⟩,
     ⟨"hot_side", explicit dPerfectHeatTransfer, .only [("T_in", "T_in_hot"), ("mdot_coolant", "mdot_coolant")], .only []⟩,
     ⟨"cold_side", explicit dPerfectHeatTransfer, .only [("T_in", "T_in_cold"), ("mdot_coolant", "mdot_coolant")], .only []⟩,
     ⟨"copmatch", explicit dCopExplicit, names ["eff_factor"], names ["COP"]⟩,
     ⟨"heat_pump", explicit dHeatPump, names ["power_rating", "COP"], .only []⟩,
     ⟨"bypass_comp", explicit dLinearSelector, names ["T_in_cold", "T_in_hot", "power_rating", "bypass"],
        names ["T_out_cold", "T_out_hot", "elec_load"]⟩]
  conns :=
    (if direct then [] else [("control.bypass_start", "li.start_val"), ("control.bypass_end", "li.end_val")]) ++
    [("hot_side.T_out", "copmatch.T_h"), ("cold_side.T_out", "copmatch.T_c"), ("heat_pump.q_in_1", "cold_side.q"),
     ("heat_pump.q_in_2", "hot_side.q"), ("hot_side.T_out", "bypass_comp.T_out_refrig_hot"),
     ("cold_side.T_out", "bypass_comp.T_out_refrig_cold")]
  defaults := [("T_in_hot", "K"), ("T_in_cold", "K")]

/-- thermal/motor_cooling.py:58-88 `LiquidCooledMotor.setup`; the integrator or the balance of the temperature rate with the
constant right hand side 0 -/
noncomputable def cooledMotor (steady : Bool) : Grp where
  subs :=
    [⟨"hex", explicit dCoolingJacket, names ["q_in", "T_in", "T", "power_rating", "mdot_coolant", "motor_weight"],
        names ["T_out", "dTdt"]⟩,
     (if steady then ⟨"thermal_bal", balance "T" "K" "dTdt" "rhs:T" "K/s", names ["dTdt"], names ["T"]⟩
      else ⟨"ode_integ", integrator "T" "K" "dTdt" "(K) / (s)" "T_initial" "T_final", .all, .all⟩)]

/-- thermal/battery_cooling.py:84-130 `LiquidCooledBattery.setup` -/
noncomputable def cooledBattery (steady : Bool) : Grp where
  subs :=
    [⟨"hex", explicit dBandolier, .only [("q_in", "q_in"), ("mdot_coolant", "mdot_coolant"), ("T_in", "T_in"), ("T_battery", "T"),
        ("battery_weight", "battery_weight"), ("n_cpb", "n_cpb"), ("t_channel", "t_channel")],
        names ["T_core", "T_surface", "T_out", "dTdt"]⟩,
     (if steady then ⟨"thermal_bal", balance "T" "K" "dTdt" "rhs:T" "K/s", names ["dTdt"], names ["T"]⟩
      else ⟨"ode_integ", integrator "T" "K" "dTdt" "(K) / (s)" "T_initial" "T_final", .all, .all⟩)]

/-! ### heat pipe -/

/-- thermal/heat_pipe.py:622-627 `AmmoniaProperties`: three tables over the temperature; `vec` unless `num_nodes` is left at one -/
def ammonia (vec : Bool) : Sys where
  ins := [⟨"temp", "degC", vec, true⟩]
  outs := [⟨"rho_liquid", "kg/m**3", vec, true⟩, ⟨"rho_vapor", "kg/m**3", vec, true⟩, ⟨"vapor_pressure", "kPa", vec, true⟩]
  rel o e := e "rho_liquid" = o.map "rho_liquid" [e "temp"] ∧ e "rho_vapor" = o.map "rho_vapor" [e "temp"]
    ∧ e "vapor_pressure" = o.map "vapor_pressure" [e "temp"]

/-- thermal/heat_pipe.py:678-715 `QMaxHeatPipe.setup`; latent heat and surface tension at the defaults of heat_pipe.py:746-754 -/
noncomputable def qMaxPipe : Grp where
  subs :=
    [⟨"ammonia_current", ammonia true, names ["temp"], names ["vapor_pressure"]⟩,
     ⟨"ammonia_design", ammonia false, .only [("temp", "design_temp")], .only [("vapor_pressure", "design_pressure")]⟩,
     ⟨"q_max_calc", explicit dQMaxHeatPipe, names ["inner_diam", "temp"], names ["q_max"]⟩,
     ⟨"weight_calc", explicit dHeatPipeWeight, .all, .all⟩]
  conns := [("ammonia_current.rho_liquid", "q_max_calc.rho_liquid"), ("ammonia_current.rho_vapor", "q_max_calc.rho_vapor")]

/-- thermal/heat_pipe.py:87-193 `HeatPipe.setup` without the component which prints warnings (no outputs) -/
noncomputable def heatPipe : Grp where
  subs :=
    [⟨"heat_divide", exec [⟨"q", "W", true, true⟩, ⟨"n_pipes", "", false, true⟩] ⟨"q_div", "W", true, true⟩
        (fun e => e "q" / e "n_pipes"), names ["q", "n_pipes"], .only []⟩,
     ⟨"q_max_calc", qMaxPipe.sys, .only [("inner_diam", "inner_diam"), ("length", "length"), ("design_temp", "T_design"),
        ("temp", "T_evap")], .only []⟩,
     ⟨"weight_multiplier", product ⟨"weight", ["single_pipe_weight", "n_pipes"], .all 1, 1, 1, none, some [some "kg", none]⟩
        (fun _ => false), names ["n_pipes"], names ["weight"]⟩,
     ⟨"q_max_multiplier", exec [⟨"single_pipe_q_max", "W", true, true⟩, ⟨"n_pipes", "", false, true⟩] ⟨"q_max", "W", true, true⟩
        (fun e => e "single_pipe_q_max" * e "n_pipes"), names ["n_pipes"], names ["q_max"]⟩,
     ⟨"ammonia_surrogate", ammonia true, .only [("temp", "T_evap")], .only []⟩,
     ⟨"delta_T_calc", explicit dVaporTempDrop, .only [("temp", "T_evap"), ("inner_diam", "inner_diam"), ("length", "length")],
        .only []⟩,
     ⟨"resistance", explicit (dHeatPipeResistance true), names ["inner_diam"], .only []⟩,
     ⟨"cond_temp_calc", exec [⟨"T_evap", "degC", true, true⟩, ⟨"q", "W", true, true⟩, ⟨"R", "K/W", true, true⟩]
        ⟨"T_cond", "degC", true, true⟩ (fun e => e "T_evap" - e "q" * e "R"), names ["T_evap"], names ["T_cond"]⟩,
     ⟨"q_max_warning", opaque_ [⟨"q", "W", true, true⟩, ⟨"q_max", "W", true, true⟩] [], names ["q", "q_max"], .only []⟩]
  conns :=
    [("q_max_calc.heat_pipe_weight", "weight_multiplier.single_pipe_weight"),
     ("q_max_calc.q_max", "q_max_multiplier.single_pipe_q_max"),
     ("ammonia_surrogate.rho_vapor", "delta_T_calc.rho_vapor"),
     ("ammonia_surrogate.vapor_pressure", "delta_T_calc.vapor_pressure"), ("delta_T_calc.delta_T", "resistance.delta_T"),
     ("q_max_calc.wall_thickness", "resistance.wall_thickness"), ("heat_divide.q_div", "delta_T_calc.q"),
     ("heat_divide.q_div", "resistance.q"), ("heat_divide.q_div", "cond_temp_calc.q"),
     ("resistance.thermal_resistance", "cond_temp_calc.R")]

/-! ### electric systems with thermal management -/

/-- simple_all_electric.py:44-49, 140-145: renamed inputs -/
def electricDvs : List (String × String × Bool × String) :=
  [("ac|propulsion|motor|rating", "motor1_rating", false, "hp"),
   ("ac|propulsion|propeller|diameter", "prop1_diameter", false, "m"), ("ac|weights|W_battery", "battery1_weight", false, "kg")]

/-- simple_all_electric.py:76-84, 174-183: coolant and channels -/
def electricIv : List Var :=
  [⟨"mdot_coolant", "kg/s", true, true⟩, ⟨"rho_coolant", "kg/m**3", true, true⟩, ⟨"coolant_mass", "kg", false, true⟩,
   ⟨"channel_width", "mm", false, true⟩, ⟨"channel_height", "mm", false, true⟩, ⟨"channel_length", "m", false, true⟩,
   ⟨"n_parallel", "", false, true⟩]

/-- `["duration", "channel_*", "n_parallel"]` -/
def lcPromotes : Promo := names ["duration", "channel_width", "channel_height", "channel_length", "n_parallel"]

/-- simple_all_electric.py:55, 151 -/
noncomputable def electricMotor97 : Sys :=
  explicit dMotor ([lit "efficiency" 0.97, lit "weight_inc" (1 / 5000), lit "weight_base" 0] ++ motorDefaults)

/-- motor, propeller, battery and heat sink: simple_all_electric.py:51-65, 86-89 and 147-161, 185-188 -/
noncomputable def electricSubs : List Sub :=
  [⟨"dvs", label electricDvs, .all, .all⟩,
   ⟨"motor1", electricMotor97, names ["throttle"], .only []⟩,
   ⟨"prop1", propeller.sys, propIns, names ["thrust"]⟩,
   ⟨"batt1", socBattery97.sys, names ["duration"], .only []⟩,
   ⟨"motorheatsink", liquidCooled.sys, lcPromotes, .only []⟩,
   ⟨"reservoir", coolantReservoir.sys, .only [("duration", "duration"), ("mass", "coolant_mass")], .only []⟩]

/-- simple_all_electric.py:67-74, 90-91 and 163-172, 189-190 -/
def electricConns : List (String × String) :=
  [("motor1_rating", "motor1.elec_power_rating"), ("motor1_rating", "prop1.power_rating"), ("prop1_diameter", "prop1.diameter"),
   ("battery1_weight", "batt1.battery_weight"), ("motor1.shaft_power_out", "prop1.shaft_power_in"),
   ("motor1.elec_load", "batt1.elec_load"), ("motor1.heat_out", "motorheatsink.q_in"),
   ("motor1.component_weight", "motorheatsink.mass")]

/-- simple_all_electric.py:40-107 `AllElectricSinglePropulsionSystemWithThermal_Compressible.setup` -/
noncomputable def allElectricC : Grp where
  subs := electricSubs ++
    [⟨"iv", indep electricIv, .only [], .all⟩,
     ⟨"duct", ductHx.sys, .only [("p_inf", "fltcond|p"), ("T_inf", "fltcond|T"), ("Utrue", "fltcond|Utrue")], .only []⟩]
  conns := electricConns ++
    [("motorheatsink.T_out", "duct.T_in_hot"), ("rho_coolant", "duct.rho_hot"), ("duct.T_out_hot", "reservoir.T_in"),
     ("reservoir.T_out", "motorheatsink.T_in"), ("mdot_coolant", "motorheatsink.mdot_coolant"), ("mdot_coolant", "duct.mdot_hot"),
     ("mdot_coolant", "reservoir.mdot_coolant")]

/-- simple_all_electric.py:136-205 `AllElectricSinglePropulsionSystemWithThermal_Incompressible.setup` -/
noncomputable def allElectric : Grp where
  subs := electricSubs ++
    [⟨"iv", indep (electricIv ++ [⟨"area_nozzle", "inch**2", true, true⟩]), .only [], .all⟩,
     ⟨"duct", explicit dExplicitDuct [lit "static_pressure_loss_factor" 0.15, lit "gross_thrust_factor" 0.98],
        names ["fltcond|Utrue", "fltcond|rho"], .only []⟩,
     ⟨"hx", hxGroup.sys, .only [("T_in_cold", "fltcond|T"), ("rho_cold", "fltcond|rho")], .only []⟩]
  conns := electricConns ++
    [("area_nozzle", "duct.area_nozzle"), ("duct.mdot", "hx.mdot_cold"), ("hx.delta_p_cold", "duct.delta_p_hex"),
     ("motorheatsink.T_out", "hx.T_in_hot"), ("rho_coolant", "hx.rho_hot"), ("hx.T_out_hot", "reservoir.T_in"),
     ("reservoir.T_out", "motorheatsink.T_in"), ("mdot_coolant", "motorheatsink.mdot_coolant"), ("mdot_coolant", "hx.mdot_hot"),
     ("mdot_coolant", "reservoir.mdot_coolant")]

/-- renamed inputs of the coolant loops: thermal_series_hybrid.py:66-72, 257-263 -/
def coolantDvs : List (String × String × Bool × String) :=
  [("ac|propulsion|thermal|hx|mdot_coolant", "mdot_coolant", true, "kg/s"),
   ("ac|propulsion|thermal|hx|coolant_mass", "coolant_mass", false, "kg"),
   ("ac|propulsion|thermal|hx|channel_width", "channel_width", false, "mm"),
   ("ac|propulsion|thermal|hx|channel_height", "channel_height", false, "mm"),
   ("ac|propulsion|thermal|hx|channel_length", "channel_length", false, "m"),
   ("ac|propulsion|thermal|hx|n_parallel", "n_parallel", false, "")]

/-- heat sinks, duct, heat exchanger and sums of the two systems: thermal_series_hybrid.py:128-134, 162-191 and 320-327, 357-410 -/
noncomputable def thermalSubs : List Sub :=
  [⟨"adder", sums [eqn "motors_weight" ["motor1_weight", "motor2_weight"] "kg" false,
      eqn "propellers_weight" ["prop1_weight", "prop2_weight"] "kg" false,
      eqn "motors_heat" ["motor1_heat", "motor2_heat"] "W" true], .all, .all⟩,
   ⟨"batteryheatsink", liquidCooled.sys, lcPromotes, .only []⟩,
   ⟨"motorheatsink", liquidCooled.sys, lcPromotes, .only []⟩,
   ⟨"duct", explicit dExplicitDuct [lit "static_pressure_loss_factor" 0.15, lit "gross_thrust_factor" 0.98],
      names ["fltcond|Utrue", "fltcond|rho"], .only []⟩,
   ⟨"hx", hxGroup.sys, .only [("ac|propulsion|thermal|hx|n_wide_cold", "ac|propulsion|thermal|hx|n_wide_cold"),
      ("ac|propulsion|thermal|hx|n_long_cold", "ac|propulsion|thermal|hx|n_long_cold"),
      ("ac|propulsion|thermal|hx|n_tall", "ac|propulsion|thermal|hx|n_tall"), ("T_in_cold", "fltcond|T"),
      ("rho_cold", "fltcond|rho")], .only []⟩]

/-- connections of the two systems -/
def thermalConns : List (String × String) :=
  [("motor1.heat_out", "motor1_heat"), ("motor2.heat_out", "motor2_heat"), ("batt1.heat_out", "batteryheatsink.q_in"),
   ("batt_weight", "batteryheatsink.mass"), ("motors_heat", "motorheatsink.q_in"), ("motors_weight", "motorheatsink.mass"),
   ("duct.mdot", "hx.mdot_cold"), ("hx.delta_p_cold", "duct.delta_p_hex"), ("rho_coolant", "hx.rho_hot"),
   ("batteryheatsink.T_out", "motorheatsink.T_in"), ("mdot_coolant", "batteryheatsink.mdot_coolant"),
   ("mdot_coolant", "motorheatsink.mdot_coolant"), ("mdot_coolant", "hx.mdot_hot")]

/-- propulsion/systems/thermal_series_hybrid.py:53-202 `TwinSeriesHybridElectricThermalPropulsionSystem.setup` -/
noncomputable def passiveHybrid : Grp where
  subs :=
    [⟨"dvs", label (hybridDvs ++ coolantDvs ++ [("ac|propulsion|battery|specific_energy", "specific_energy", false, "W*h/kg")]),
        .all, .all⟩]
    ++ hybridSubs "motors_elec_load" ["motor1_elec_load", "motor2_elec_load"] ++ thermalSubs ++
    [⟨"iv", indep [⟨"rho_coolant", "kg/m**3", true, true⟩, ⟨"ac|propulsion|thermal|duct|area_nozzle", "inch**2", true, true⟩],
        .only [], .all⟩,
     ⟨"reservoir", coolantReservoir.sys, .only [("duration", "duration"), ("mass", "coolant_mass")], .only []⟩]
  conns := hybridConns "motors_elec_load" ++ thermalConns ++
    [("ac|propulsion|thermal|duct|area_nozzle", "duct.area_nozzle"), ("motorheatsink.T_out", "hx.T_in_hot"),
     ("hx.T_out_hot", "reservoir.T_in"), ("reservoir.T_out", "batteryheatsink.T_in"), ("mdot_coolant", "reservoir.mdot_coolant")]

/-- propulsion/systems/thermal_series_hybrid.py:244-411 `TwinSeriesHybridElectricThermalPropulsionRefrigerated.setup` -/
noncomputable def refrigeratedHybrid : Grp where
  subs :=
    [⟨"dvs", label (hybridDvs ++ [("ac|propulsion|thermal|refrig|rating", "refrig_rating", false, "kW"),
        ("ac|propulsion|thermal|refrig|specific_power", "refrig_spec_pow", false, "W/kg"),
        ("ac|propulsion|thermal|refrig|eff", "refrig_eff_factor", false, "")] ++ coolantDvs ++
        [("ac|propulsion|thermal|duct|area_nozzle", "area_nozzle", true, "inch**2"),
         ("ac|propulsion|battery|specific_energy", "specific_energy", false, "W*h/kg")]), .all, .all⟩]
    ++ hybridSubs "total_elec_load" ["motor1_elec_load", "motor2_elec_load", "refrig_elec_load"] ++ thermalSubs ++
    [⟨"iv", indep [⟨"rho_coolant", "kg/m**3", true, true⟩], .only [], .all⟩,
     ⟨"refrig", (chiller false).sys, .only [], .only []⟩]
  conns := hybridConns "total_elec_load" ++ thermalConns ++
    [("refrig.elec_load", "add_power.refrig_elec_load"), ("refrig_eff_factor", "refrig.eff_factor"),
     ("refrig_rating", "refrig.power_rating"), ("refrig_spec_pow", "refrig.specific_power"),
     ("refrig.T_out_cold", "batteryheatsink.T_in"), ("motorheatsink.T_out", "refrig.T_in_cold"),
     ("mdot_coolant", "refrig.mdot_coolant"), ("refrig.T_out_hot", "hx.T_in_hot"), ("hx.T_out_hot", "refrig.T_in_hot")]

/-! ### hydrogen tank -/

/-- a sum whose factors are all the option `n` -/
def sumTimes (output : String) (inputs : List String) (units n : String) : Sys where
  ins := inputs.map fun v => ⟨v, units, false, true⟩
  outs := [⟨output, units, false, true⟩]
  rel o e := e output =
    (⟨output, inputs, .all 1, 1, some (inputs.map fun _ => o n), ⟨some (some units), none⟩⟩ : AddSys ℝ).compute (fun v _ _ => e v) 0 0

/-- energy_storage/hydrogen/structural.py:80-142 `VacuumTankWeight.setup`; the options of `MLIWeight` are left at its defaults -/
noncomputable def vacuumTank : Grp where
  subs :=
    [⟨"inner_wall", explicit dPressureVessel [ref "safety_factor" "inner_safety_factor", ref "yield_stress" "inner_yield_stress",
        ref "density" "inner_density"], .only [("design_pressure_differential", "max_expected_operating_pressure"),
        ("radius", "radius"), ("length", "length")], .only []⟩,
     ⟨"outer_radius", sums [eqn "outer_radius" ["radius", "vacuum_gap"] "m" false (some [1, 1])], names ["radius", "vacuum_gap"],
        .only []⟩,
     ⟨"outer_wall", explicit dVacuumWall [ref "safety_factor" "outer_safety_factor", ref "youngs_modulus" "outer_youngs_modulus",
        ref "density" "outer_density"], .only [("design_pressure_differential", "environment_design_pressure"), ("length", "length")],
        .only []⟩,
     ⟨"MLI", explicit dInsulation, names ["radius", "length", "N_layers"], .only []⟩,
     ⟨"total_weight", sumTimes "weight" ["W_outer", "W_inner", "W_MLI"] "kg" "weight_fudge_factor", .only [], names ["weight"]⟩]
  conns :=
    [("outer_radius.outer_radius", "outer_wall.radius"), ("inner_wall.weight", "total_weight.W_inner"),
     ("outer_wall.weight", "total_weight.W_outer"), ("MLI.weight", "total_weight.W_MLI")]
  defaults := [("radius", "m"), ("length", "m")]

/-- energy_storage/hydrogen/LH2_tank_no_boil_off.py:115-184 `LH2TankNoBoilOff.setup` -/
noncomputable def tankNoBoilOff : Grp where
  subs :=
    [⟨"structure", vacuumTank.sys, names ["environment_design_pressure", "max_expected_operating_pressure", "vacuum_gap", "radius",
        "length", "N_layers"], .only [("weight", "tank_weight")]⟩,
     ⟨"integ", integrator "delta_m_liq" "kg" "m_dot_liq" "(kg) / (s)" "delta_m_liq_initial" "delta_m_liq_final",
        names ["m_dot_liq"], .only []⟩,
     ⟨"add_init_state_values", explicit dHydrogenMass, names ["radius", "length"], names ["m_liq", "fill_level"]⟩,
     ⟨"sum_weight", sum ⟨"total_weight", ["m_liq", "tank_weight"], .each [2, 1], 1, none, ⟨some (some "kg"), none⟩⟩
        (fun n => n != "tank_weight"), names ["m_liq", "tank_weight"], names ["total_weight"]⟩]
  conns := [("integ.delta_m_liq", "add_init_state_values.delta_m_liq")]
  defaults := [("radius", "m"), ("N_layers", ""), ("vacuum_gap", "cm")]

end Verif.Wiring
