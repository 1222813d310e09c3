import Verif.Model.WiringHybrids

/-!
The refrigerated hybrid single aisle of openconcept/examples/N3_HybridSingleAisle_Refrig.py (with `MotorFaultProtection` of
aircraft_data/HybridSingleAisle.py) as a group over the nodes of a phase.
-/

namespace Verif.Wiring

open Verif.Units Verif.VectorComps

variable {m : ℕ}

/-- a system built with the option `n` set to `x` -/
def withOption (s : Sys) (n : String) (x : ℝ) : Sys :=
  ⟨s.ins, s.outs, fun o e => s.rel ⟨fun k => if k = n then x else o k, o.map⟩ e⟩

/-- mission_groups.py:113-161: the component of a `promote_add`; `vec`: the variables have an entry per node -/
noncomputable def adder (name : String) (c : Mission.AddCall ℝ) (vec : String → Bool) : Sub :=
  ⟨name, sum c.sys vec, .only (c.promotedSources.zipIdx.map fun p => (Mission.temp (p.2 + c.sources.length), p.1)), .all⟩

/-- mission_groups.py:160-161: its connections -/
def adderConns (name : String) (c : Mission.AddCall ℝ) : List (String × String) :=
  c.sources.zipIdx.map fun p => (p.1, name ++ "." ++ Mission.temp p.2)

/-- mission_groups.py:163-206: the component of `promote_mult` with factor 2 -/
noncomputable def twiceSub (name out units : String) : Sub :=
  ⟨name, product (Mission.MultCall.sys ⟨"", out, 2, .all 1, some units, 1, none, none⟩) (fun _ => true), .only [], .all⟩

/-- thermal/hose.py:43-82 `SimpleHose`: the pressure drop; the weight is computed with the density of the first node, see
`hoseWeightRel` -/
noncomputable def hoseSys : Sys where
  ins := vars dHose hose.ins
  outs := vars dHose hose.outs
  rel _ e := Thermal.hoseDp (e "hose_diameter") (e "hose_length") (e "mdot_coolant") (e "rho_coolant") (e "mu_coolant") =
    some (e "delta_p")

/-- thermal/hose.py:74-81 -/
def hoseWeightRel (o : Opts) (T : String → Fin (m + 1) → ℝ) : Prop :=
  ∀ a, T "component_weight" a = Thermal.hoseWeight (o "hose_operating_stress") (o "hose_density") (T "hose_diameter" 0) (T "hose_length" 0)
    (T "hose_design_pressure" 0) (T "rho_coolant" 0)

/-- HybridSingleAisle.py:120-160 `MotorFaultProtection.setup`; its integrator has no states and is left out -/
noncomputable def faultProtection : Grp where
  subs :=
    [⟨"coolant_temps", explicit dPerfectHeatTransfer, names ["T_in", "mdot_coolant"], names ["T_out"]⟩,
     ⟨"electrical_loss", exec [⟨"motor_power", "W", true, true⟩] ⟨"elec_load", "W", true, true⟩
        fun e => Aircraft.faultLoad 0.995 (e "motor_power"), .all, .all⟩,
     ⟨"duct_pressure", sum (eqn "delta_p_stack" ["delta_p_motor_hx", "delta_p_fault_prot_hx"] "Pa" true).1 (fun _ => true), .all, .all⟩,
     ⟨"heat_transfer", sum (eqn "heat_transfer" ["heat_transfer_motor_hx", "heat_transfer_fault_prot_hx"] "W" true).1 (fun _ => true),
        .all, .all⟩]
  conns := [("elec_load", "coolant_temps.q")]

/-- N3_HybridSingleAisle_Refrig.py:106-122; each value may be set by the user -/
def n3Params : Sys :=
  indep [⟨"rho_coolant", "kg/m**3", true, true⟩, ⟨"mdot_coolant_battery", "kg/s", true, true⟩, ⟨"mdot_coolant_motor", "kg/s", true, true⟩,
    ⟨"mdot_coolant_fault_prot", "kg/s", true, true⟩, ⟨"bypass_heat_pump", "", true, true⟩,
    ⟨"variable_duct_nozzle_area_start", "inch**2", false, true⟩, ⟨"variable_duct_nozzle_area_end", "inch**2", false, true⟩,
    ⟨"heat_pump_specific_power", "W/kg", false, true⟩, ⟨"heat_pump_eff_factor", "", false, true⟩]

/-- promotion of the design variables of a heat exchanger -/
def hxPromo (wide long tall : String) : Promo :=
  .only [("ac|propulsion|thermal|hx|n_wide_cold", wide), ("ac|propulsion|thermal|hx|n_long_cold", long),
    ("ac|propulsion|thermal|hx|n_tall", tall)]

/-- promotion of the free stream of a duct -/
def ductPromo (l : List (String × String)) : Promo :=
  .only ([("p_inf", "fltcond|p"), ("T_inf", "fltcond|T"), ("Utrue", "fltcond|Utrue")] ++ l)

/-- N3_HybridSingleAisle_Refrig.py:344-355 -/
noncomputable def towWeight : AddSys ℝ :=
  ⟨"weight", ["ac|design_mission|TOW", "fuel_used"], .each [1, 1], 1, some [1, -1], ⟨some (some "kg"), none⟩⟩

/-- N3_HybridSingleAisle_Refrig.py:35-364 `HybridSingleAisleModel.setup`; `ode_integ` with the tagged fuel flow comes from
mission_groups.py:208-222.  The components of `promote_add` and `promote_mult` are numbered in the order of the calls; `battery` is built
with `specific_energy=400`, the value its open input of that name starts with -/
noncomputable def n3Grp (cd0 : String) : Grp where
  subs :=
    [⟨"ode_integ", integ fuelIntegrand, names ["fuel_used_initial"], names ["fuel_used", "fuel_used_final"]⟩,
     { polarSub cd0 with name := "airframe_drag", pout := .only [] },
     adder "add0" Aircraft.n3Drag (fun _ => true),
     ⟨"hybrid_throttle", interp "", .only [("start_val", "hybrid_throttle_start"), ("end_val", "hybrid_throttle_end")], .only []⟩,
     ⟨"hybrid_motor", explicit dMotor ([lit "efficiency" 0.95] ++ motorDefaults), .only [("elec_power_rating", "ac|propulsion|motor|rating")],
        .only []⟩,
     ⟨"engine", engineDeck true "surge_margin" "", names ["fltcond|h", "fltcond|M", "throttle"], .only []⟩,
     twiceSub "mult1" "thrust" "kN",
     twiceSub "mult2" "fuel_flow" "kg/s",
     ⟨"battery", (socBattery 0.95).sys, .only [("battery_weight", "ac|propulsion|battery|weight")], .only []⟩,
     adder "add3" Aircraft.n3Load (fun _ => true),
     ⟨"thermal_params", n3Params, .only [], .all⟩,
     ⟨"li_battery", interp "inch**2", .only [], .only [("vec", "variable_duct_nozzle_area")]⟩,
     ⟨"li_motor", interp "inch**2", .only [("start_val", "ac|propulsion|thermal|hx_motor|nozzle_area"),
        ("end_val", "ac|propulsion|thermal|hx_motor|nozzle_area")], .only [("vec", "motor_duct_area_nozzle_in")]⟩,
     ⟨"motorheatsink", withOption (cooledMotor false).sys "case_cooling_coefficient" 2100,
        .only [("power_rating", "ac|propulsion|motor|rating")], .only []⟩,
     ⟨"motorfaultprot", faultProtection.sys, .only [], .only []⟩,
     ⟨"hx_motor", hxGroup.sys, hxPromo "ac|propulsion|thermal|hx_motor|n_wide_cold" "ac|propulsion|thermal|hx_motor|n_long_cold"
        "ac|propulsion|thermal|hx_motor|n_tall", .only []⟩,
     ⟨"hx_fault_prot", hxGroup.sys, hxPromo "ac|propulsion|thermal|hx_motor|n_wide_cold" "ac|propulsion|thermal|hx_fault_prot|n_long_cold"
        "ac|propulsion|thermal|hx_motor|n_tall", .only []⟩,
     ⟨"motor_duct", withOption duct.sys "cfg" 0.90, ductPromo [("area_nozzle_in", "motor_duct_area_nozzle_in")], .only []⟩,
     ⟨"motor_hose", hoseSys, .only [("hose_length", "ac|geom|thermal|hx_to_motor_length"),
        ("hose_diameter", "ac|geom|thermal|hx_to_motor_diameter")], .only []⟩,
     ⟨"motor_coolant_pump", explicit dPump, .only [("power_rating", "ac|propulsion|thermal|hx_motor|pump_power_rating")], .only []⟩,
     adder "add4" (Aircraft.n3Pressure "motor_hose.delta_p" "hx_motor.delta_p_hot" "pressure_drop_motor_loop") (fun _ => true),
     ⟨"batteryheatsink", (cooledBattery false).sys, .only [("battery_weight", "ac|propulsion|battery|weight")], .only []⟩,
     ⟨"hx_battery", hxGroup.sys, hxPromo "ac|propulsion|thermal|hx|n_wide_cold" "ac|propulsion|thermal|hx|n_long_cold"
        "ac|propulsion|thermal|hx|n_tall", .only []⟩,
     ⟨"refrig", (chiller false).sys, .only [("power_rating", "ac|propulsion|thermal|heatpump|power_rating")], .only []⟩,
     ⟨"variable_duct", withOption duct.sys "cfg" 0.95, ductPromo [], .only []⟩,
     ⟨"battery_hose", hoseSys, .only [("hose_length", "ac|geom|thermal|hx_to_battery_length"),
        ("hose_diameter", "ac|geom|thermal|hx_to_battery_diameter")], .only []⟩,
     ⟨"battery_coolant_pump", explicit dPump, .only [("power_rating", "ac|propulsion|thermal|hx|pump_power_rating")], .only []⟩,
     adder "add5" (Aircraft.n3Pressure "battery_hose.delta_p" "hx_battery.delta_p_hot" "pressure_drop_battery_loop") (fun _ => true),
     adder "add6" Aircraft.n3Oew (fun _ => false),
     ⟨"weight", sum towWeight (fun n => n != "ac|design_mission|TOW"), .all, names ["weight"]⟩,
     adder "add7" Aircraft.n3Margin (fun _ => false)]
  conns := [("fuel_flow", "ode_integ.fuel_flow")] ++ adderConns "add0" Aircraft.n3Drag ++
    [("hybrid_motor.shaft_power_out", "engine.hybrid_power"), ("hybrid_throttle.vec", "hybrid_motor.throttle"),
     ("engine.thrust", "mult1._temp"), ("engine.fuel_flow", "mult2._temp")] ++ adderConns "add3" Aircraft.n3Load ++
    [("elec_load", "battery.elec_load"), ("variable_duct_nozzle_area_start", "li_battery.start_val"),
     ("variable_duct_nozzle_area_end", "li_battery.end_val"), ("hybrid_motor.heat_out", "motorheatsink.q_in"),
     ("hybrid_motor.component_weight", "motorheatsink.motor_weight"), ("hybrid_motor.elec_load", "motorfaultprot.motor_power"),
     ("rho_coolant", "hx_motor.rho_hot"), ("rho_coolant", "hx_fault_prot.rho_hot"), ("rho_coolant", "motor_hose.rho_coolant"),
     ("rho_coolant", "motor_coolant_pump.rho_coolant")] ++
    adderConns "add4" (Aircraft.n3Pressure "motor_hose.delta_p" "hx_motor.delta_p_hot" "pressure_drop_motor_loop") ++
    [("pressure_drop_motor_loop", "motor_coolant_pump.delta_p"),
     ("motor_duct.sta2.T", "hx_fault_prot.T_in_cold"), ("hx_fault_prot.T_out_cold", "hx_motor.T_in_cold"),
     ("motor_duct.sta2.rho", "hx_motor.rho_cold"), ("motor_duct.sta2.rho", "hx_fault_prot.rho_cold"),
     ("motor_duct.mdot", "hx_motor.mdot_cold"), ("motor_duct.mdot", "hx_fault_prot.mdot_cold"),
     ("motorheatsink.T_out", "hx_motor.T_in_hot"), ("motorfaultprot.T_out", "hx_fault_prot.T_in_hot"),
     ("mdot_coolant_motor", "motorheatsink.mdot_coolant"), ("mdot_coolant_motor", "hx_motor.mdot_hot"),
     ("mdot_coolant_motor", "motor_hose.mdot_coolant"), ("mdot_coolant_motor", "motor_coolant_pump.mdot_coolant"),
     ("mdot_coolant_fault_prot", "motorfaultprot.mdot_coolant"), ("mdot_coolant_fault_prot", "hx_fault_prot.mdot_hot"),
     ("hx_motor.frontal_area", "motor_duct.area_2"), ("hx_motor.frontal_area", "motor_duct.area_3"),
     ("hx_motor.delta_p_cold", "motorfaultprot.delta_p_motor_hx"), ("hx_fault_prot.delta_p_cold", "motorfaultprot.delta_p_fault_prot_hx"),
     ("motorfaultprot.delta_p_stack", "motor_duct.sta3.delta_p"), ("hx_motor.heat_transfer", "motorfaultprot.heat_transfer_motor_hx"),
     ("hx_fault_prot.heat_transfer", "motorfaultprot.heat_transfer_fault_prot_hx"),
     ("motorfaultprot.heat_transfer", "motor_duct.sta3.heat_in"), ("hx_motor.T_out_hot", "motorheatsink.T_in"),
     ("hx_fault_prot.T_out_hot", "motorfaultprot.T_in"),
     ("battery.heat_out", "batteryheatsink.q_in"),
     ("mdot_coolant_battery", "batteryheatsink.mdot_coolant"), ("mdot_coolant_battery", "refrig.mdot_coolant"),
     ("mdot_coolant_battery", "hx_battery.mdot_hot"), ("mdot_coolant_battery", "battery_hose.mdot_coolant"),
     ("mdot_coolant_battery", "battery_coolant_pump.mdot_coolant"), ("batteryheatsink.T_out", "refrig.T_in_cold"),
     ("refrig.T_out_cold", "batteryheatsink.T_in"), ("rho_coolant", "hx_battery.rho_hot"), ("rho_coolant", "battery_hose.rho_coolant"),
     ("rho_coolant", "battery_coolant_pump.rho_coolant"), ("heat_pump_eff_factor", "refrig.eff_factor"),
     ("heat_pump_specific_power", "refrig.specific_power"), ("variable_duct_nozzle_area", "variable_duct.area_nozzle_in")] ++
    adderConns "add5" (Aircraft.n3Pressure "battery_hose.delta_p" "hx_battery.delta_p_hot" "pressure_drop_battery_loop") ++
    [("pressure_drop_battery_loop", "battery_coolant_pump.delta_p"),
     ("variable_duct.sta2.T", "hx_battery.T_in_cold"), ("variable_duct.sta2.rho", "hx_battery.rho_cold"),
     ("variable_duct.mdot", "hx_battery.mdot_cold"), ("hx_battery.frontal_area", "variable_duct.area_2"),
     ("hx_battery.frontal_area", "variable_duct.area_3"), ("hx_battery.delta_p_cold", "variable_duct.sta3.delta_p"),
     ("hx_battery.heat_transfer", "variable_duct.sta3.heat_in"), ("hx_battery.T_out_hot", "refrig.T_in_hot"),
     ("refrig.T_out_hot", "hx_battery.T_in_hot")] ++ adderConns "add6" Aircraft.n3Oew

/-- the model built for the flight phase `phase`, and the subsystems that relate several nodes -/
noncomputable def n3Phase (o : Opts) (phase : String) : Phase m where
  grp := n3Grp (Aircraft.cd0Source phase)
  coupled :=
    [("ode_integ", integRel fuelIntegrand), ("hybrid_throttle", interpRel),
     ("battery", nested (socBattery 0.95) "ode_integ" socRel), ("li_battery", interpRel), ("li_motor", interpRel),
     ("motorheatsink", nested (cooledMotor false) "ode_integ" (tempRel "T")), ("motor_hose", hoseWeightRel o),
     ("batteryheatsink", nested (cooledBattery false) "ode_integ" (tempRel "T")),
     ("refrig", nested (chiller false) "li" interpRel), ("battery_hose", hoseWeightRel o)]

/-- N3_HybridSingleAisle_Refrig.py:374-424, units of aircraft_data/HybridSingleAisle.py; the motor's rating (in MW there) is left out -/
def n3Dvs : List Var :=
  [⟨"ac|aero|CLmax_TO", "", false, true⟩, ⟨"ac|aero|polar|e", "", false, true⟩, ⟨"ac|aero|polar|CD0_TO", "", false, true⟩,
   ⟨"ac|aero|polar|CD0_cruise", "", false, true⟩, ⟨"ac|geom|wing|S_ref", "m**2", false, true⟩,
   ⟨"ac|geom|wing|AR", "", false, true⟩, ⟨"ac|geom|wing|c4sweep", "deg", false, true⟩, ⟨"ac|geom|wing|taper", "", false, true⟩,
   ⟨"ac|geom|wing|toverc", "", false, true⟩, ⟨"ac|geom|hstab|S_ref", "m**2", false, true⟩,
   ⟨"ac|geom|hstab|c4_to_wing_c4", "m", false, true⟩, ⟨"ac|geom|vstab|S_ref", "m**2", false, true⟩,
   ⟨"ac|geom|thermal|hx_to_battery_length", "ft", false, true⟩, ⟨"ac|geom|thermal|hx_to_battery_diameter", "inch", false, true⟩,
   ⟨"ac|geom|thermal|hx_to_motor_length", "ft", false, true⟩, ⟨"ac|geom|thermal|hx_to_motor_diameter", "inch", false, true⟩,
   ⟨"ac|geom|nosegear|length", "ft", false, true⟩, ⟨"ac|geom|maingear|length", "ft", false, true⟩,
   ⟨"ac|weights|MTOW", "kg", false, true⟩, ⟨"ac|weights|W_fuel_max", "kg", false, true⟩, ⟨"ac|weights|MLW", "kg", false, true⟩,
   ⟨"ac|weights|OEW", "kg", false, true⟩, ⟨"ac|propulsion|engine|rating", "lbf", false, true⟩,
   ⟨"ac|propulsion|battery|weight", "kg", false, true⟩, ⟨"ac|propulsion|thermal|hx|n_wide_cold", "", false, true⟩,
   ⟨"ac|propulsion|thermal|hx|n_long_cold", "", false, true⟩, ⟨"ac|propulsion|thermal|hx|n_tall", "", false, true⟩,
   ⟨"ac|propulsion|thermal|hx|pump_power_rating", "kW", false, true⟩,
   ⟨"ac|propulsion|thermal|hx_motor|pump_power_rating", "kW", false, true⟩,
   ⟨"ac|propulsion|thermal|hx_fault_prot|n_long_cold", "", false, true⟩,
   ⟨"ac|propulsion|thermal|hx_motor|n_wide_cold", "", false, true⟩,
   ⟨"ac|propulsion|thermal|hx_motor|n_long_cold", "", false, true⟩, ⟨"ac|propulsion|thermal|hx_motor|n_tall", "", false, true⟩,
   ⟨"ac|propulsion|thermal|hx_motor|nozzle_area", "inch**2", false, true⟩,
   ⟨"ac|propulsion|thermal|heatpump|power_rating", "kW", false, true⟩, ⟨"ac|num_passengers_max", "", false, true⟩,
   ⟨"ac|q_cruise", "lb*ft**-2", false, true⟩, ⟨"ac|design_mission|TOW", "kg", false, true⟩]

/-- integrators of the model: the tagged fuel flow, battery and heat sinks (the search goes through the subsystems in their order) -/
noncomputable def n3States : AcStates :=
  let g := n3Grp ""
  ([(AcStates.own fuelIntegrand).inside g "ode_integ",
    ((AcStates.own socIntegrand).inside (socBattery 0.95) "ode_integ").inside g "battery",
    ((AcStates.own sinkIntegrand).inside (cooledMotor false) "ode_integ").inside g "motorheatsink",
    ((AcStates.own sinkIntegrand).inside (cooledBattery false) "ode_integ").inside g "batteryheatsink"].foldl
      AcStates.append ⟨[], [], []⟩).model

end Verif.Wiring
