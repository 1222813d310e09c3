import Verif.Model.WiringAirplanes2
import Verif.Proof.WiringAirplanes
import Verif.Proof.WiringSystems

/-! Equations of the components of the jet, hybrid and electric airplane models, and where the variables are found (evaluated tables). -/

namespace Verif.Wiring

open Verif.Units Verif.VectorComps

theorem conv_lbf_kN (x : ℝ) : conv "lbf" "kN" x = x * (0.45359237 * 9.80665) / 1000 := by
  simp [conv, off, fac] <;> ring_nf

theorem conv_lbm_kg (x : ℝ) : conv "lbm/s" "kg/s" x = x * 0.45359237 := by
  simp [conv, off, fac] <;> ring_nf

theorem conv_lbm_kg' (x : ℝ) : conv "lbm/s * (lbf) / (lbf) " "kg/s" x = x * 0.45359237 := by
  simp [conv, off, fac] <;> ring_nf

theorem conv_lbf_lbf (x : ℝ) : conv "lbf * (lbf) / (lbf) " "lbf" x = x := by
  simp [conv, off, fac] <;> ring_nf

theorem conv_burn (x : ℝ) : conv "kg/s " "kg/s" x = x := by
  simp [conv, off, fac] <;> ring_nf

theorem conv_burned (x : ℝ) : conv "(kg/s) * (s)" "kg" x = x := by
  simp [conv, off, fac] <;> ring_nf

set_option maxHeartbeats 2000000 in
theorem b738Grp_links (cd0 : String) (h : cd0 ∈ ["ac|aero|polar|CD0_TO", "ac|aero|polar|CD0_cruise"]) : (b738Grp cd0).links =
    [⟨"ode_integ", "fuel_used_final", "fuel_used_final", "kg", "kg"⟩, ⟨"ode_integ", "fuel_used", "fuel_used", "kg", "kg"⟩,
     ⟨"ode_integ", "duration", "ode_integ.duration", "s", "s"⟩,
     ⟨"ode_integ", "fuel_flow", "fuel_flow", "kg/s", "(kg) / (s)"⟩,
     ⟨"ode_integ", "fuel_used_initial", "fuel_used_initial", "kg", "kg"⟩,
     ⟨"propmodel", "thrust", "propmodel.thrust", "lbf", "lbf"⟩,
     ⟨"propmodel", "fuel_flow", "propmodel.fuel_flow", "lbm/s", "lbm/s"⟩,
     ⟨"propmodel", "T4", "propmodel.T4", "degR", "degR"⟩, ⟨"propmodel", "throttle", "throttle", "", ""⟩,
     ⟨"propmodel", "fltcond|h", "fltcond|h", "ft", "ft"⟩, ⟨"propmodel", "fltcond|M", "fltcond|M", "", ""⟩,
     ⟨"doubler", "thrust", "thrust", "kN", "kN"⟩, ⟨"doubler", "fuel_flow", "fuel_flow", "kg/s", "kg/s"⟩,
     ⟨"doubler", "thrust_in", "propmodel.thrust", "lbf", "kN"⟩,
     ⟨"doubler", "fuel_flow_in", "propmodel.fuel_flow", "lbm/s", "kg/s"⟩, ⟨"drag", "drag", "drag", "N", "N"⟩,
     ⟨"drag", "fltcond|CL", "fltcond|CL", "", ""⟩, ⟨"drag", "fltcond|q", "fltcond|q", "N * m**-2", "N * m**-2"⟩,
     ⟨"drag", "ac|geom|wing|S_ref", "ac|geom|wing|S_ref", "m **2", "m **2"⟩,
     ⟨"drag", "CD0", cd0, "", ""⟩, ⟨"drag", "e", "ac|aero|polar|e", "", ""⟩,
     ⟨"drag", "ac|geom|wing|AR", "ac|geom|wing|AR", "", ""⟩, ⟨"OEW", "OEW", "OEW", "kg", "kg"⟩,
     ⟨"OEW", "x", "ac|weights|OEW", "kg", "kg"⟩, ⟨"weight", "weight", "weight", "kg", "kg"⟩,
     ⟨"weight", "ac|weights|MTOW", "ac|weights|MTOW", "kg", "kg"⟩, ⟨"weight", "fuel_used", "fuel_used", "kg", "kg"⟩] := by
  revert cd0
  decide +kernel

set_option maxHeartbeats 2000000 in
theorem hybridTwinGrp_links (flight : Bool) (cd0 : String) (h : cd0 ∈ ["ac|aero|polar|CD0_TO", "ac|aero|polar|CD0_cruise"]) :
    (hybridTwinGrp flight cd0).links =
    [⟨"controls", "proprpm", "proprpm", "rpm", "rpm"⟩, ⟨"controls", "hybridization", "hybridization", "", ""⟩,
     ⟨"hybrid_factor", "vec", "hybrid_factor.vec", "", ""⟩, ⟨"hybrid_factor", "start_val", "hybridization", "", ""⟩,
     ⟨"hybrid_factor", "end_val", "hybridization", "", ""⟩, ⟨"propmodel", "eng_rating", "propmodel.eng_rating", "kW", "kW"⟩,
     ⟨"propmodel", "prop_diameter", "propmodel.prop_diameter", "m", "m"⟩,
     ⟨"propmodel", "motor_rating", "propmodel.motor_rating", "kW", "kW"⟩,
     ⟨"propmodel", "gen_rating", "propmodel.gen_rating", "kW", "kW"⟩,
     ⟨"propmodel", "batt_weight", "propmodel.batt_weight", "kg", "kg"⟩,
     ⟨"propmodel", "specific_energy", "propmodel.specific_energy", "W*h/kg", "W*h/kg"⟩,
     ⟨"propmodel", "motor1.shaft_power_out", "propmodel.motor1.shaft_power_out", "W", "W"⟩,
     ⟨"propmodel", "motor1.heat_out", "propmodel.motor1.heat_out", "W", "W"⟩,
     ⟨"propmodel", "motor1.elec_load", "propmodel.motor1.elec_load", "W", "W"⟩,
     ⟨"propmodel", "motor1.component_cost", "propmodel.motor1.component_cost", "USD", "USD"⟩,
     ⟨"propmodel", "motor1.component_weight", "propmodel.motor1.component_weight", "kg", "kg"⟩,
     ⟨"propmodel", "motor1.component_sizing_margin", "propmodel.motor1.component_sizing_margin", "", ""⟩,
     ⟨"propmodel", "prop1.cp", "propmodel.prop1.cp", "", ""⟩, ⟨"propmodel", "prop1.J", "propmodel.prop1.J", "", ""⟩,
     ⟨"propmodel", "prop1.prop_Vtip", "propmodel.prop1.prop_Vtip", "", ""⟩,
     ⟨"propmodel", "prop1.eta_prop", "propmodel.prop1.eta_prop", "", ""⟩,
     ⟨"propmodel", "prop1.ct_over_cp", "propmodel.prop1.ct_over_cp", "", ""⟩,
     ⟨"propmodel", "prop1.thrust", "propmodel.prop1.thrust", "N", "N"⟩,
     ⟨"propmodel", "prop1.component_weight", "propmodel.prop1.component_weight", "lb", "lb"⟩,
     ⟨"propmodel", "failedmotor.motor2throttle", "propmodel.failedmotor.motor2throttle", "", ""⟩,
     ⟨"propmodel", "motor2.shaft_power_out", "propmodel.motor2.shaft_power_out", "W", "W"⟩,
     ⟨"propmodel", "motor2.heat_out", "propmodel.motor2.heat_out", "W", "W"⟩,
     ⟨"propmodel", "motor2.elec_load", "propmodel.motor2.elec_load", "W", "W"⟩,
     ⟨"propmodel", "motor2.component_cost", "propmodel.motor2.component_cost", "USD", "USD"⟩,
     ⟨"propmodel", "motor2.component_weight", "propmodel.motor2.component_weight", "kg", "kg"⟩,
     ⟨"propmodel", "motor2.component_sizing_margin", "propmodel.motor2.component_sizing_margin", "", ""⟩,
     ⟨"propmodel", "prop2.cp", "propmodel.prop2.cp", "", ""⟩, ⟨"propmodel", "prop2.J", "propmodel.prop2.J", "", ""⟩,
     ⟨"propmodel", "prop2.prop_Vtip", "propmodel.prop2.prop_Vtip", "", ""⟩,
     ⟨"propmodel", "prop2.eta_prop", "propmodel.prop2.eta_prop", "", ""⟩,
     ⟨"propmodel", "prop2.ct_over_cp", "propmodel.prop2.ct_over_cp", "", ""⟩,
     ⟨"propmodel", "prop2.thrust", "propmodel.prop2.thrust", "N", "N"⟩,
     ⟨"propmodel", "prop2.component_weight", "propmodel.prop2.component_weight", "lb", "lb"⟩,
     ⟨"propmodel", "motors_elec_load", "propmodel.motors_elec_load", "kW", "kW"⟩,
     ⟨"propmodel", "thrust", "thrust", "N", "N"⟩,
     ⟨"propmodel", "hybrid_split.power_out_A", "propmodel.hybrid_split.power_out_A", "W", "W"⟩,
     ⟨"propmodel", "hybrid_split.power_out_B", "propmodel.hybrid_split.power_out_B", "W", "W"⟩,
     ⟨"propmodel", "hybrid_split.heat_out", "propmodel.hybrid_split.heat_out", "W", "W"⟩,
     ⟨"propmodel", "hybrid_split.component_cost", "propmodel.hybrid_split.component_cost", "USD", "USD"⟩,
     ⟨"propmodel", "hybrid_split.component_weight", "propmodel.hybrid_split.component_weight", "kg", "kg"⟩,
     ⟨"propmodel", "hybrid_split.component_sizing_margin", "propmodel.hybrid_split.component_sizing_margin", "", ""⟩,
     ⟨"propmodel", "eng1.shaft_power_out", "propmodel.eng1.shaft_power_out", "W", "W"⟩,
     ⟨"propmodel", "fuel_flow", "fuel_flow", "kg/s", "kg/s"⟩,
     ⟨"propmodel", "eng1.component_cost", "propmodel.eng1.component_cost", "USD", "USD"⟩,
     ⟨"propmodel", "eng1.component_weight", "propmodel.eng1.component_weight", "kg", "kg"⟩,
     ⟨"propmodel", "eng1.component_sizing_margin", "propmodel.eng1.component_sizing_margin", "", ""⟩,
     ⟨"propmodel", "gen1.elec_power_out", "propmodel.gen1.elec_power_out", "W", "W"⟩,
     ⟨"propmodel", "gen1.heat_out", "propmodel.gen1.heat_out", "W", "W"⟩,
     ⟨"propmodel", "gen1.component_cost", "propmodel.gen1.component_cost", "USD", "USD"⟩,
     ⟨"propmodel", "gen1.component_weight", "propmodel.gen1.component_weight", "kg", "kg"⟩,
     ⟨"propmodel", "gen1.component_sizing_margin", "propmodel.gen1.component_sizing_margin", "", ""⟩,
     ⟨"propmodel", "batt1.heat_out", "propmodel.batt1.heat_out", "W", "W"⟩,
     ⟨"propmodel", "batt1.component_cost", "propmodel.batt1.component_cost", "USD", "USD"⟩,
     ⟨"propmodel", "batt1.component_sizing_margin", "propmodel.batt1.component_sizing_margin", "", ""⟩,
     ⟨"propmodel", "batt1.max_energy", "propmodel.batt1.max_energy", "W*h", "W*h"⟩,
     ⟨"propmodel", "batt1.dSOCdt", "propmodel.batt1.dSOCdt", "W / (kJ) ", "W / (kJ) "⟩,
     ⟨"propmodel", "batt1.SOC_final", "propmodel.batt1.SOC_final", "", ""⟩,
     ⟨"propmodel", "batt1.SOC", "propmodel.batt1.SOC", "", ""⟩,
     ⟨"propmodel", "eng_throttle_set.eng_throttle", "propmodel.eng_throttle_set.eng_throttle", "", ""⟩,
     ⟨"propmodel", "battery_load", "propmodel.battery_load", "kW", "kW"⟩,
     ⟨"propmodel", "motors_weight", "propmodel.motors_weight", "kg", "kg"⟩,
     ⟨"propmodel", "propellers_weight", "propmodel.propellers_weight", "kg", "kg"⟩,
     ⟨"propmodel", "ac|propulsion|engine|rating", "ac|propulsion|engine|rating", "kW", "kW"⟩,
     ⟨"propmodel", "ac|propulsion|propeller|diameter", "ac|propulsion|propeller|diameter", "m", "m"⟩,
     ⟨"propmodel", "ac|propulsion|motor|rating", "ac|propulsion|motor|rating", "kW", "kW"⟩,
     ⟨"propmodel", "ac|propulsion|generator|rating", "ac|propulsion|generator|rating", "kW", "kW"⟩,
     ⟨"propmodel", "ac|weights|W_battery", "ac|weights|W_battery", "kg", "kg"⟩,
     ⟨"propmodel", "ac|propulsion|battery|specific_energy", "ac|propulsion|battery|specific_energy", "W*h/kg", "W*h/kg"⟩,
     ⟨"propmodel", "throttle", "throttle", "", ""⟩, ⟨"propmodel", "prop1.rpm", "proprpm", "rpm", "rpm"⟩,
     ⟨"propmodel", "fltcond|rho", "fltcond|rho", "kg / m ** 3", "kg / m ** 3"⟩,
     ⟨"propmodel", "fltcond|Utrue", "fltcond|Utrue", "m/s", "m/s"⟩,
     ⟨"propmodel", "propulsor_active", "propulsor_active", "", ""⟩, ⟨"propmodel", "prop2.rpm", "proprpm", "rpm", "rpm"⟩,
     ⟨"propmodel", "hybrid_split.power_rating", "propmodel.hybrid_split.power_rating", "W", "W"⟩,
     ⟨"propmodel", "hybrid_split.power_split_fraction", "hybrid_factor.vec", "", ""⟩,
     ⟨"propmodel", "duration", "duration", "s", "s"⟩,
     ⟨"propmodel", "batt1.SOC_initial", "propmodel.batt1.SOC_initial", "", ""⟩, ⟨"drag", "drag", "drag", "N", "N"⟩,
     ⟨"drag", "fltcond|CL", "fltcond|CL", "", ""⟩, ⟨"drag", "fltcond|q", "fltcond|q", "N * m**-2", "N * m**-2"⟩,
     ⟨"drag", "ac|geom|wing|S_ref", "ac|geom|wing|S_ref", "m **2", "m **2"⟩,
     ⟨"drag", "CD0", cd0, "", ""⟩, ⟨"drag", "e", "ac|aero|polar|e", "", ""⟩,
     ⟨"drag", "ac|geom|wing|AR", "ac|geom|wing|AR", "", ""⟩, ⟨"OEW", "W_fluids", "OEW.W_fluids", "kg", "kg"⟩,
     ⟨"OEW", "structural_fudge", "OEW.structural_fudge", "m/m", "m/m"⟩, ⟨"OEW", "W_wing", "OEW.W_wing", "lb", "lb"⟩,
     ⟨"OEW", "W_empennage", "OEW.W_empennage", "lb", "lb"⟩, ⟨"OEW", "W_fuselage", "OEW.W_fuselage", "lb", "lb"⟩,
     ⟨"OEW", "W_nacelle", "OEW.W_nacelle", "lb", "lb"⟩, ⟨"OEW", "W_gear", "OEW.W_gear", "lb", "lb"⟩,
     ⟨"OEW", "W_fuelsystem", "OEW.W_fuelsystem", "lb", "lb"⟩, ⟨"OEW", "W_equipment", "OEW.W_equipment", "lb", "lb"⟩,
     ⟨"OEW", "W_structure", "OEW.W_structure", "lb", "lb"⟩,
     ⟨"OEW", "W_structure_adjusted", "OEW.W_structure_adjusted", "lb * (m/m) ", "lb * (m/m) "⟩,
     ⟨"OEW", "OEW", "OEW", "lb", "lb"⟩, ⟨"OEW", "ac|weights|MTOW", "ac|weights|MTOW", "lb", "lb"⟩,
     ⟨"OEW", "ac|weights|W_fuel_max", "ac|weights|W_fuel_max", "lb", "lb"⟩,
     ⟨"OEW", "ac|geom|wing|S_ref", "ac|geom|wing|S_ref", "m **2", "ft**2"⟩,
     ⟨"OEW", "ac|geom|wing|AR", "ac|geom|wing|AR", "", ""⟩,
     ⟨"OEW", "ac|geom|wing|c4sweep", "ac|geom|wing|c4sweep", "rad", "rad"⟩,
     ⟨"OEW", "ac|geom|wing|taper", "ac|geom|wing|taper", "", ""⟩,
     ⟨"OEW", "ac|geom|wing|toverc", "ac|geom|wing|toverc", "", ""⟩,
     ⟨"OEW", "ac|q_cruise", "ac|q_cruise", "lb*ft**-2", "lb*ft**-2"⟩,
     ⟨"OEW", "ac|geom|hstab|S_ref", "ac|geom|hstab|S_ref", "ft**2", "ft**2"⟩,
     ⟨"OEW", "ac|geom|vstab|S_ref", "ac|geom|vstab|S_ref", "ft**2", "ft**2"⟩,
     ⟨"OEW", "ac|geom|fuselage|length", "ac|geom|fuselage|length", "ft", "ft"⟩,
     ⟨"OEW", "ac|geom|fuselage|height", "ac|geom|fuselage|height", "ft", "ft"⟩,
     ⟨"OEW", "ac|geom|fuselage|width", "ac|geom|fuselage|width", "ft", "ft"⟩,
     ⟨"OEW", "ac|geom|fuselage|S_wet", "ac|geom|fuselage|S_wet", "ft**2", "ft**2"⟩,
     ⟨"OEW", "ac|geom|hstab|c4_to_wing_c4", "ac|geom|hstab|c4_to_wing_c4", "ft", "ft"⟩,
     ⟨"OEW", "P_TO", "ac|propulsion|engine|rating", "kW", "hp"⟩, ⟨"OEW", "ac|weights|MLW", "ac|weights|MLW", "lb", "lb"⟩,
     ⟨"OEW", "ac|geom|maingear|length", "ac|geom|maingear|length", "ft", "ft"⟩,
     ⟨"OEW", "ac|geom|nosegear|length", "ac|geom|nosegear|length", "ft", "ft"⟩,
     ⟨"OEW", "ac|num_passengers_max", "ac|num_passengers_max", "", ""⟩,
     ⟨"OEW", "W_engine", "propmodel.eng1.component_weight", "kg", "lb"⟩,
     ⟨"OEW", "W_motors", "propmodel.motors_weight", "kg", "lb"⟩,
     ⟨"OEW", "W_generator", "propmodel.gen1.component_weight", "kg", "lb"⟩,
     ⟨"OEW", "W_propeller", "propmodel.propellers_weight", "kg", "lb"⟩,
     ⟨"intfuel", "fuel_used_final", "fuel_used_final", "kg", "kg"⟩, ⟨"intfuel", "fuel_used", "fuel_used", "kg", "kg"⟩,
     ⟨"intfuel", "duration", "duration", "s", "s"⟩, ⟨"intfuel", "fuel_flow", "fuel_flow", "kg/s", "(kg) / (s)"⟩,
     ⟨"intfuel", "fuel_used_initial", "fuel_used_initial", "kg", "kg"⟩, ⟨"weight", "weight", "weight", "kg", "kg"⟩,
     ⟨"weight", "ac|weights|MTOW", "ac|weights|MTOW", "lb", "kg"⟩, ⟨"weight", "fuel_used", "fuel_used", "kg", "kg"⟩] := by
  revert flight cd0
  decide +kernel

set_option maxHeartbeats 2000000 in
theorem electricGrp_links (cd0 : String) (h : cd0 ∈ ["ac|aero|polar|CD0_TO", "ac|aero|polar|CD0_cruise"]) : (electricGrp cd0).links =
    [⟨"controls", "prop1rpm", "prop1rpm", "rpm", "rpm"⟩,
     ⟨"propmodel", "motor1_rating", "propmodel.motor1_rating", "hp", "hp"⟩,
     ⟨"propmodel", "prop1_diameter", "propmodel.prop1_diameter", "m", "m"⟩,
     ⟨"propmodel", "battery1_weight", "propmodel.battery1_weight", "kg", "kg"⟩,
     ⟨"propmodel", "motor1.shaft_power_out", "propmodel.motor1.shaft_power_out", "W", "W"⟩,
     ⟨"propmodel", "motor1.heat_out", "propmodel.motor1.heat_out", "W", "W"⟩,
     ⟨"propmodel", "motor1.elec_load", "propmodel.motor1.elec_load", "W", "W"⟩,
     ⟨"propmodel", "motor1.component_cost", "propmodel.motor1.component_cost", "USD", "USD"⟩,
     ⟨"propmodel", "motor1.component_weight", "propmodel.motor1.component_weight", "kg", "kg"⟩,
     ⟨"propmodel", "motor1.component_sizing_margin", "propmodel.motor1.component_sizing_margin", "", ""⟩,
     ⟨"propmodel", "prop1.cp", "propmodel.prop1.cp", "", ""⟩, ⟨"propmodel", "prop1.J", "propmodel.prop1.J", "", ""⟩,
     ⟨"propmodel", "prop1.prop_Vtip", "propmodel.prop1.prop_Vtip", "", ""⟩,
     ⟨"propmodel", "prop1.eta_prop", "propmodel.prop1.eta_prop", "", ""⟩,
     ⟨"propmodel", "prop1.ct_over_cp", "propmodel.prop1.ct_over_cp", "", ""⟩, ⟨"propmodel", "thrust", "thrust", "N", "N"⟩,
     ⟨"propmodel", "prop1.component_weight", "propmodel.prop1.component_weight", "lb", "lb"⟩,
     ⟨"propmodel", "batt1.heat_out", "propmodel.batt1.heat_out", "W", "W"⟩,
     ⟨"propmodel", "batt1.component_cost", "propmodel.batt1.component_cost", "USD", "USD"⟩,
     ⟨"propmodel", "batt1.component_sizing_margin", "propmodel.batt1.component_sizing_margin", "", ""⟩,
     ⟨"propmodel", "batt1.max_energy", "propmodel.batt1.max_energy", "W*h", "W*h"⟩,
     ⟨"propmodel", "batt1.dSOCdt", "propmodel.batt1.dSOCdt", "W / (kJ) ", "W / (kJ) "⟩,
     ⟨"propmodel", "batt1.SOC_final", "propmodel.batt1.SOC_final", "", ""⟩,
     ⟨"propmodel", "batt1.SOC", "propmodel.batt1.SOC", "", ""⟩,
     ⟨"propmodel", "motorheatsink.base.dTdt", "propmodel.motorheatsink.base.dTdt", "K/s", "K/s"⟩,
     ⟨"propmodel", "motorheatsink.T_final", "propmodel.motorheatsink.T_final", "K", "K"⟩,
     ⟨"propmodel", "motorheatsink.T", "propmodel.motorheatsink.T", "K", "K"⟩,
     ⟨"propmodel", "motorheatsink.hex.q", "propmodel.motorheatsink.hex.q", "W", "W"⟩,
     ⟨"propmodel", "motorheatsink.T_out", "propmodel.motorheatsink.T_out", "K", "K"⟩,
     ⟨"propmodel", "reservoir.rate.dTdt", "propmodel.reservoir.rate.dTdt", "K/s", "K/s"⟩,
     ⟨"propmodel", "reservoir.T_final", "propmodel.reservoir.T_final", "K", "K"⟩,
     ⟨"propmodel", "reservoir.T_out", "propmodel.reservoir.T_out", "K", "K"⟩,
     ⟨"propmodel", "mdot_coolant", "propmodel.mdot_coolant", "kg/s", "kg/s"⟩,
     ⟨"propmodel", "rho_coolant", "propmodel.rho_coolant", "kg/m**3", "kg/m**3"⟩,
     ⟨"propmodel", "coolant_mass", "propmodel.coolant_mass", "kg", "kg"⟩,
     ⟨"propmodel", "channel_width", "propmodel.channel_width", "mm", "mm"⟩,
     ⟨"propmodel", "channel_height", "propmodel.channel_height", "mm", "mm"⟩,
     ⟨"propmodel", "channel_length", "propmodel.channel_length", "m", "m"⟩,
     ⟨"propmodel", "n_parallel", "propmodel.n_parallel", "", ""⟩,
     ⟨"propmodel", "area_nozzle", "propmodel.area_nozzle", "inch**2", "inch**2"⟩,
     ⟨"propmodel", "duct.mdot", "propmodel.duct.mdot", "kg/s", "kg/s"⟩,
     ⟨"propmodel", "duct.drag", "propmodel.duct.drag", "N", "N"⟩,
     ⟨"propmodel", "hx.n_wide_cold", "propmodel.hx.n_wide_cold", "", ""⟩,
     ⟨"propmodel", "hx.n_long_cold", "propmodel.hx.n_long_cold", "", ""⟩,
     ⟨"propmodel", "hx.n_tall", "propmodel.hx.n_tall", "", ""⟩,
     ⟨"propmodel", "hx.component_weight", "propmodel.hx.component_weight", "kg", "kg"⟩,
     ⟨"propmodel", "hx.length_overall", "propmodel.hx.length_overall", "m", "m"⟩,
     ⟨"propmodel", "hx.height_overall", "propmodel.hx.height_overall", "m", "m"⟩,
     ⟨"propmodel", "hx.width_overall", "propmodel.hx.width_overall", "m", "m"⟩,
     ⟨"propmodel", "hx.frontal_area", "propmodel.hx.frontal_area", "m**2", "m**2"⟩,
     ⟨"propmodel", "hx.xs_area_cold", "propmodel.hx.xs_area_cold", "m**2", "m**2"⟩,
     ⟨"propmodel", "hx.heat_transfer_area_cold", "propmodel.hx.heat_transfer_area_cold", "m**2", "m**2"⟩,
     ⟨"propmodel", "hx.dh_cold", "propmodel.hx.dh_cold", "m", "m"⟩,
     ⟨"propmodel", "hx.fin_area_ratio_cold", "propmodel.hx.fin_area_ratio_cold", "", ""⟩,
     ⟨"propmodel", "hx.contraction_ratio_cold", "propmodel.hx.contraction_ratio_cold", "", ""⟩,
     ⟨"propmodel", "hx.alpha_cold", "propmodel.hx.alpha_cold", "", ""⟩,
     ⟨"propmodel", "hx.delta_cold", "propmodel.hx.delta_cold", "", ""⟩,
     ⟨"propmodel", "hx.gamma_cold", "propmodel.hx.gamma_cold", "", ""⟩,
     ⟨"propmodel", "hx.xs_area_hot", "propmodel.hx.xs_area_hot", "m**2", "m**2"⟩,
     ⟨"propmodel", "hx.heat_transfer_area_hot", "propmodel.hx.heat_transfer_area_hot", "m**2", "m**2"⟩,
     ⟨"propmodel", "hx.dh_hot", "propmodel.hx.dh_hot", "m", "m"⟩,
     ⟨"propmodel", "hx.fin_area_ratio_hot", "propmodel.hx.fin_area_ratio_hot", "", ""⟩,
     ⟨"propmodel", "hx.contraction_ratio_hot", "propmodel.hx.contraction_ratio_hot", "", ""⟩,
     ⟨"propmodel", "hx.alpha_hot", "propmodel.hx.alpha_hot", "", ""⟩,
     ⟨"propmodel", "hx.delta_hot", "propmodel.hx.delta_hot", "", ""⟩,
     ⟨"propmodel", "hx.gamma_hot", "propmodel.hx.gamma_hot", "", ""⟩,
     ⟨"propmodel", "hx.Re_dh_cold", "propmodel.hx.Re_dh_cold", "", ""⟩,
     ⟨"propmodel", "hx.Re_dh_hot", "propmodel.hx.Re_dh_hot", "", ""⟩,
     ⟨"propmodel", "hx.j_cold", "propmodel.hx.j_cold", "", ""⟩, ⟨"propmodel", "hx.f_cold", "propmodel.hx.f_cold", "", ""⟩,
     ⟨"propmodel", "hx.j_hot", "propmodel.hx.j_hot", "", ""⟩, ⟨"propmodel", "hx.f_hot", "propmodel.hx.f_hot", "", ""⟩,
     ⟨"propmodel", "hx.Nu_dh_cold", "propmodel.hx.Nu_dh_cold", "", ""⟩,
     ⟨"propmodel", "hx.Nu_dh_hot", "propmodel.hx.Nu_dh_hot", "", ""⟩,
     ⟨"propmodel", "hx.h_conv_cold", "propmodel.hx.h_conv_cold", "W/m**2/K", "W/m**2/K"⟩,
     ⟨"propmodel", "hx.h_conv_hot", "propmodel.hx.h_conv_hot", "W/m**2/K", "W/m**2/K"⟩,
     ⟨"propmodel", "hx.eta_overall_cold", "propmodel.hx.eta_overall_cold", "", ""⟩,
     ⟨"propmodel", "hx.eta_overall_hot", "propmodel.hx.eta_overall_hot", "", ""⟩,
     ⟨"propmodel", "hx.UA_overall", "propmodel.hx.UA_overall", "W/K", "W/K"⟩,
     ⟨"propmodel", "hx.NTU", "propmodel.hx.NTU", "", ""⟩, ⟨"propmodel", "hx.heat_max", "propmodel.hx.heat_max", "W", "W"⟩,
     ⟨"propmodel", "hx.C_ratio", "propmodel.hx.C_ratio", "", ""⟩,
     ⟨"propmodel", "hx.effectiveness", "propmodel.hx.effectiveness", "", ""⟩,
     ⟨"propmodel", "hx.heat_transfer", "propmodel.hx.heat_transfer", "W", "W"⟩,
     ⟨"propmodel", "hx.T_out_cold", "propmodel.hx.T_out_cold", "K", "K"⟩,
     ⟨"propmodel", "hx.T_out_hot", "propmodel.hx.T_out_hot", "K", "K"⟩,
     ⟨"propmodel", "hx.delta_p_cold", "propmodel.hx.delta_p_cold", "Pa", "Pa"⟩,
     ⟨"propmodel", "hx.delta_p_hot", "propmodel.hx.delta_p_hot", "Pa", "Pa"⟩,
     ⟨"propmodel", "ac|propulsion|motor|rating", "ac|propulsion|motor|rating", "hp", "hp"⟩,
     ⟨"propmodel", "ac|propulsion|propeller|diameter", "ac|propulsion|propeller|diameter", "m", "m"⟩,
     ⟨"propmodel", "ac|weights|W_battery", "ac|weights|W_battery", "kg", "kg"⟩,
     ⟨"propmodel", "throttle", "throttle", "", ""⟩, ⟨"propmodel", "prop1.rpm", "prop1rpm", "rpm", "rpm"⟩,
     ⟨"propmodel", "fltcond|rho", "fltcond|rho", "kg / m ** 3", "kg / m ** 3"⟩,
     ⟨"propmodel", "fltcond|Utrue", "fltcond|Utrue", "m/s", "m/s"⟩,
     ⟨"propmodel", "batt1.specific_energy", "propmodel.batt1.specific_energy", "W * h / kg", "W * h / kg"⟩,
     ⟨"propmodel", "duration", "duration", "s", "s"⟩,
     ⟨"propmodel", "batt1.SOC_initial", "propmodel.batt1.SOC_initial", "", ""⟩,
     ⟨"propmodel", "motorheatsink.T_initial", "propmodel.motorheatsink.T_initial", "K", "K"⟩,
     ⟨"propmodel", "reservoir.T_initial", "propmodel.reservoir.T_initial", "K", "K"⟩,
     ⟨"propmodel", "hx.ac|propulsion|thermal|hx|n_wide_cold", "propmodel.hx.ac|propulsion|thermal|hx|n_wide_cold", "", ""⟩,
     ⟨"propmodel", "hx.ac|propulsion|thermal|hx|n_long_cold", "propmodel.hx.ac|propulsion|thermal|hx|n_long_cold", "", ""⟩,
     ⟨"propmodel", "hx.ac|propulsion|thermal|hx|n_tall", "propmodel.hx.ac|propulsion|thermal|hx|n_tall", "", ""⟩,
     ⟨"propmodel", "hx.channel_width_hot", "propmodel.hx.channel_width_hot", "mm", "mm"⟩,
     ⟨"propmodel", "hx.channel_height_hot", "propmodel.hx.channel_height_hot", "mm", "mm"⟩,
     ⟨"propmodel", "hx.fin_length_hot", "propmodel.hx.fin_length_hot", "mm", "mm"⟩,
     ⟨"propmodel", "hx.channel_width_cold", "propmodel.hx.channel_width_cold", "mm", "mm"⟩,
     ⟨"propmodel", "hx.channel_height_cold", "propmodel.hx.channel_height_cold", "mm", "mm"⟩,
     ⟨"propmodel", "hx.fin_length_cold", "propmodel.hx.fin_length_cold", "mm", "mm"⟩,
     ⟨"propmodel", "hx.fin_thickness", "propmodel.hx.fin_thickness", "mm", "mm"⟩,
     ⟨"propmodel", "hx.plate_thickness", "propmodel.hx.plate_thickness", "mm", "mm"⟩,
     ⟨"propmodel", "hx.case_thickness", "propmodel.hx.case_thickness", "mm", "mm"⟩,
     ⟨"propmodel", "hx.material_rho", "propmodel.hx.material_rho", "kg/m**3", "kg/m**3"⟩,
     ⟨"propmodel", "hx.mu_cold", "propmodel.hx.mu_cold", "kg/m/s", "kg/m/s"⟩,
     ⟨"propmodel", "hx.mu_hot", "propmodel.hx.mu_hot", "kg/m/s", "kg/m/s"⟩,
     ⟨"propmodel", "hx.k_cold", "propmodel.hx.k_cold", "W/m/K", "W/m/K"⟩,
     ⟨"propmodel", "hx.cp_cold", "propmodel.hx.cp_cold", "J/kg/K", "J/kg/K"⟩,
     ⟨"propmodel", "hx.k_hot", "propmodel.hx.k_hot", "W/m/K", "W/m/K"⟩,
     ⟨"propmodel", "hx.cp_hot", "propmodel.hx.cp_hot", "J/kg/K", "J/kg/K"⟩,
     ⟨"propmodel", "hx.material_k", "propmodel.hx.material_k", "W/m/K", "W/m/K"⟩,
     ⟨"propmodel", "fltcond|T", "fltcond|T", "K", "K"⟩, ⟨"drag", "drag", "drag", "N", "N"⟩,
     ⟨"drag", "fltcond|CL", "fltcond|CL", "", ""⟩, ⟨"drag", "fltcond|q", "fltcond|q", "N * m**-2", "N * m**-2"⟩,
     ⟨"drag", "ac|geom|wing|S_ref", "ac|geom|wing|S_ref", "m **2", "m **2"⟩,
     ⟨"drag", "CD0", cd0, "", ""⟩, ⟨"drag", "e", "ac|aero|polar|e", "", ""⟩,
     ⟨"drag", "ac|geom|wing|AR", "ac|geom|wing|AR", "", ""⟩, ⟨"weight", "vec", "weight", "kg", "kg"⟩,
     ⟨"weight", "start_val", "ac|weights|MTOW", "kg", "kg"⟩, ⟨"weight", "end_val", "ac|weights|MTOW", "kg", "kg"⟩] := by
  revert cd0
  decide +kernel

set_option maxHeartbeats 2000000 in
theorem sizingGrp_true_links : (sizingGrp true).links =
    [⟨"zero_lift_drag", "iv.FF_nacelle", "zero_lift_drag.iv.FF_nacelle", "", ""⟩,
     ⟨"zero_lift_drag", "iv.CD_landing_gear", "zero_lift_drag.iv.CD_landing_gear", "", ""⟩,
     ⟨"zero_lift_drag", "fuselage_form.FF_fuselage", "zero_lift_drag.fuselage_form.FF_fuselage", "", ""⟩,
     ⟨"zero_lift_drag", "hstab_form.FF_wing", "zero_lift_drag.hstab_form.FF_wing", "", ""⟩,
     ⟨"zero_lift_drag", "vstab_form.FF_wing", "zero_lift_drag.vstab_form.FF_wing", "", ""⟩,
     ⟨"zero_lift_drag", "wing_form.FF_wing", "zero_lift_drag.wing_form.FF_wing", "", ""⟩,
     ⟨"zero_lift_drag", "fuselage_friction.Cf", "zero_lift_drag.fuselage_friction.Cf", "", ""⟩,
     ⟨"zero_lift_drag", "hstab_MAC_calc.MAC", "zero_lift_drag.hstab_MAC_calc.MAC", "m", "m"⟩,
     ⟨"zero_lift_drag", "hstab_friction.Cf", "zero_lift_drag.hstab_friction.Cf", "", ""⟩,
     ⟨"zero_lift_drag", "vstab_MAC_calc.MAC", "zero_lift_drag.vstab_MAC_calc.MAC", "m", "m"⟩,
     ⟨"zero_lift_drag", "vstab_friction.Cf", "zero_lift_drag.vstab_friction.Cf", "", ""⟩,
     ⟨"zero_lift_drag", "wing_MAC_calc.MAC", "zero_lift_drag.wing_MAC_calc.MAC", "m", "m"⟩,
     ⟨"zero_lift_drag", "wing_friction.Cf", "zero_lift_drag.wing_friction.Cf", "", ""⟩,
     ⟨"zero_lift_drag", "nacelle_friction.Cf", "zero_lift_drag.nacelle_friction.Cf", "", ""⟩,
     ⟨"zero_lift_drag", "drag_coeffs.CD_fuselage", "zero_lift_drag.drag_coeffs.CD_fuselage", "m**2 / (m**2) ", "m**2 / (m**2) "⟩,
     ⟨"zero_lift_drag", "drag_coeffs.CD_hstab", "zero_lift_drag.drag_coeffs.CD_hstab", "m**2 / (m**2) ", "m**2 / (m**2) "⟩,
     ⟨"zero_lift_drag", "drag_coeffs.CD_vstab", "zero_lift_drag.drag_coeffs.CD_vstab", "m**2 / (m**2) ", "m**2 / (m**2) "⟩,
     ⟨"zero_lift_drag", "drag_coeffs.CD_nacelle", "zero_lift_drag.drag_coeffs.CD_nacelle", "m**2 / (m**2) ", "m**2 / (m**2) "⟩,
     ⟨"zero_lift_drag", "drag_coeffs.CD_wing", "zero_lift_drag.drag_coeffs.CD_wing", "", ""⟩,
     ⟨"zero_lift_drag", "flaps.CD_flap", "zero_lift_drag.flaps.CD_flap", "", ""⟩,
     ⟨"zero_lift_drag", "CD0", "zero_lift_drag.CD0", "", ""⟩,
     ⟨"zero_lift_drag", "ac|geom|fuselage|length", "ac|geom|fuselage|length", "m", "m"⟩,
     ⟨"zero_lift_drag", "ac|geom|fuselage|height", "ac|geom|fuselage|height", "m", "m"⟩,
     ⟨"zero_lift_drag", "ac|geom|hstab|toverc", "ac|geom|hstab|toverc", "", ""⟩,
     ⟨"zero_lift_drag", "ac|geom|vstab|toverc", "ac|geom|vstab|toverc", "", ""⟩,
     ⟨"zero_lift_drag", "ac|geom|wing|toverc", "ac|geom|wing|toverc", "", ""⟩,
     ⟨"zero_lift_drag", "fltcond|Utrue", "fltcond|Utrue", "m/s", "m/s"⟩,
     ⟨"zero_lift_drag", "fltcond|rho", "fltcond|rho", "kg/m**3", "kg/m**3"⟩,
     ⟨"zero_lift_drag", "fltcond|T", "fltcond|T", "K", "K"⟩,
     ⟨"zero_lift_drag", "ac|geom|hstab|S_ref", "ac|geom|hstab|S_ref", "m**2", "m**2"⟩,
     ⟨"zero_lift_drag", "ac|geom|hstab|AR", "ac|geom|hstab|AR", "", ""⟩,
     ⟨"zero_lift_drag", "ac|geom|hstab|taper", "ac|geom|hstab|taper", "", ""⟩,
     ⟨"zero_lift_drag", "ac|geom|vstab|S_ref", "ac|geom|vstab|S_ref", "m**2", "m**2"⟩,
     ⟨"zero_lift_drag", "ac|geom|vstab|AR", "ac|geom|vstab|AR", "", ""⟩,
     ⟨"zero_lift_drag", "ac|geom|vstab|taper", "ac|geom|vstab|taper", "", ""⟩,
     ⟨"zero_lift_drag", "ac|geom|wing|S_ref", "ac|geom|wing|S_ref", "m**2", "m**2"⟩,
     ⟨"zero_lift_drag", "ac|geom|wing|AR", "ac|geom|wing|AR", "", ""⟩,
     ⟨"zero_lift_drag", "ac|geom|wing|taper", "ac|geom|wing|taper", "", ""⟩,
     ⟨"zero_lift_drag", "ac|geom|nacelle|length", "ac|geom|nacelle|length", "m", "m"⟩,
     ⟨"zero_lift_drag", "ac|geom|fuselage|S_wet", "ac|geom|fuselage|S_wet", "m**2", "m**2"⟩,
     ⟨"zero_lift_drag", "ac|geom|nacelle|S_wet", "ac|geom|nacelle|S_wet", "m**2", "m**2"⟩,
     ⟨"zero_lift_drag", "ac|propulsion|num_engines", "ac|propulsion|num_engines", "", ""⟩,
     ⟨"zero_lift_drag", "ac|aero|takeoff_flap_deg", "ac|aero|takeoff_flap_deg", "deg", "deg"⟩,
     ⟨"zero_lift_drag", "ac|geom|wing|c4sweep", "ac|geom|wing|c4sweep", "rad", "rad"⟩,
     ⟨"drag_polar", "drag", "drag", "N", "N"⟩, ⟨"drag_polar", "fltcond|CL", "fltcond|CL", "", ""⟩,
     ⟨"drag_polar", "fltcond|q", "fltcond|q", "N * m**-2", "N * m**-2"⟩,
     ⟨"drag_polar", "ac|geom|wing|S_ref", "ac|geom|wing|S_ref", "m**2", "m **2"⟩,
     ⟨"drag_polar", "CD0", "zero_lift_drag.CD0", "", ""⟩, ⟨"drag_polar", "e", "ac|aero|polar|e", "", ""⟩,
     ⟨"drag_polar", "ac|geom|wing|AR", "ac|geom|wing|AR", "", ""⟩,
     ⟨"CFM56", "engine_deck.thrust", "CFM56.engine_deck.thrust", "lbf", "lbf"⟩,
     ⟨"CFM56", "engine_deck.fuel_flow", "CFM56.engine_deck.fuel_flow", "lbm/s", "lbm/s"⟩,
     ⟨"CFM56", "T4", "CFM56.T4", "degR", "degR"⟩,
     ⟨"CFM56", "thrust", "CFM56.thrust", "lbf * (lbf) / (lbf) ", "lbf * (lbf) / (lbf) "⟩,
     ⟨"CFM56", "fuel_flow", "CFM56.fuel_flow", "lbm/s * (lbf) / (lbf) ", "lbm/s * (lbf) / (lbf) "⟩,
     ⟨"CFM56", "throttle", "throttle", "", ""⟩, ⟨"CFM56", "fltcond|h", "fltcond|h", "ft", "ft"⟩,
     ⟨"CFM56", "fltcond|M", "fltcond|M", "", ""⟩,
     ⟨"CFM56", "ac|propulsion|engine|rating", "ac|propulsion|engine|rating", "lbf", "lbf"⟩,
     ⟨"CFM56", "scale_engine.orig_rating_thrust", "CFM56.scale_engine.orig_rating_thrust", "lbf", "lbf"⟩,
     ⟨"CFM56", "scale_engine.orig_rating_fuel_flow", "CFM56.scale_engine.orig_rating_fuel_flow", "lbf", "lbf"⟩,
     ⟨"num_engine_calc", "num_active_engines", "num_engine_calc.num_active_engines", "", ""⟩,
     ⟨"num_engine_calc", "num_engines", "ac|propulsion|num_engines", "", ""⟩,
     ⟨"num_engine_calc", "propulsor_active", "propulsor_active", "", ""⟩,
     ⟨"num_engine_calc", "one", "num_engine_calc.one", "", ""⟩,
     ⟨"propulsion_multiplier", "thrust", "thrust", "lbf ", "lbf "⟩,
     ⟨"propulsion_multiplier", "fuel_flow", "propulsion_multiplier.fuel_flow", "kg/s ", "kg/s "⟩,
     ⟨"propulsion_multiplier", "thrust_per_engine", "CFM56.thrust", "lbf * (lbf) / (lbf) ", "lbf"⟩,
     ⟨"propulsion_multiplier", "num_active_engines_1", "num_engine_calc.num_active_engines", "", ""⟩,
     ⟨"propulsion_multiplier", "fuel_flow_per_engine", "CFM56.fuel_flow", "lbm/s * (lbf) / (lbf) ", "kg/s"⟩,
     ⟨"propulsion_multiplier", "num_active_engines_2", "num_engine_calc.num_active_engines", "", ""⟩,
     ⟨"fuel_burn_integ", "fuel_burn_final", "fuel_burn_integ.fuel_burn_final", "(kg/s) * (s)", "(kg/s) * (s)"⟩,
     ⟨"fuel_burn_integ", "fuel_burn", "fuel_burn_integ.fuel_burn", "(kg/s) * (s)", "(kg/s) * (s)"⟩,
     ⟨"fuel_burn_integ", "duration", "fuel_burn_integ.duration", "s", "s"⟩,
     ⟨"fuel_burn_integ", "fuel_flow", "propulsion_multiplier.fuel_flow", "kg/s ", "kg/s"⟩,
     ⟨"fuel_burn_integ", "fuel_burn_initial", "fuel_burn_integ.fuel_burn_initial", "(kg/s) * (s)", "(kg/s) * (s)"⟩,
     ⟨"weight_calc", "weight", "weight", "kg", "kg"⟩, ⟨"weight_calc", "ac|weights|MTOW", "ac|weights|MTOW", "kg", "kg"⟩,
     ⟨"weight_calc", "fuel_burn", "fuel_burn_integ.fuel_burn", "(kg/s) * (s)", "kg"⟩] := by
  decide +kernel

set_option maxHeartbeats 2000000 in
theorem sizingGrp_false_links : (sizingGrp false).links =
    [⟨"zero_lift_drag", "iv.FF_nacelle", "zero_lift_drag.iv.FF_nacelle", "", ""⟩,
     ⟨"zero_lift_drag", "iv.CD_flap", "zero_lift_drag.iv.CD_flap", "", ""⟩,
     ⟨"zero_lift_drag", "iv.CD_landing_gear", "zero_lift_drag.iv.CD_landing_gear", "", ""⟩,
     ⟨"zero_lift_drag", "fuselage_form.FF_fuselage", "zero_lift_drag.fuselage_form.FF_fuselage", "", ""⟩,
     ⟨"zero_lift_drag", "hstab_form.FF_wing", "zero_lift_drag.hstab_form.FF_wing", "", ""⟩,
     ⟨"zero_lift_drag", "vstab_form.FF_wing", "zero_lift_drag.vstab_form.FF_wing", "", ""⟩,
     ⟨"zero_lift_drag", "wing_form.FF_wing", "zero_lift_drag.wing_form.FF_wing", "", ""⟩,
     ⟨"zero_lift_drag", "fuselage_friction.Cf", "zero_lift_drag.fuselage_friction.Cf", "", ""⟩,
     ⟨"zero_lift_drag", "hstab_MAC_calc.MAC", "zero_lift_drag.hstab_MAC_calc.MAC", "m", "m"⟩,
     ⟨"zero_lift_drag", "hstab_friction.Cf", "zero_lift_drag.hstab_friction.Cf", "", ""⟩,
     ⟨"zero_lift_drag", "vstab_MAC_calc.MAC", "zero_lift_drag.vstab_MAC_calc.MAC", "m", "m"⟩,
     ⟨"zero_lift_drag", "vstab_friction.Cf", "zero_lift_drag.vstab_friction.Cf", "", ""⟩,
     ⟨"zero_lift_drag", "wing_MAC_calc.MAC", "zero_lift_drag.wing_MAC_calc.MAC", "m", "m"⟩,
     ⟨"zero_lift_drag", "wing_friction.Cf", "zero_lift_drag.wing_friction.Cf", "", ""⟩,
     ⟨"zero_lift_drag", "nacelle_friction.Cf", "zero_lift_drag.nacelle_friction.Cf", "", ""⟩,
     ⟨"zero_lift_drag", "drag_coeffs.CD_fuselage", "zero_lift_drag.drag_coeffs.CD_fuselage", "m**2 / (m**2) ", "m**2 / (m**2) "⟩,
     ⟨"zero_lift_drag", "drag_coeffs.CD_hstab", "zero_lift_drag.drag_coeffs.CD_hstab", "m**2 / (m**2) ", "m**2 / (m**2) "⟩,
     ⟨"zero_lift_drag", "drag_coeffs.CD_vstab", "zero_lift_drag.drag_coeffs.CD_vstab", "m**2 / (m**2) ", "m**2 / (m**2) "⟩,
     ⟨"zero_lift_drag", "drag_coeffs.CD_nacelle", "zero_lift_drag.drag_coeffs.CD_nacelle", "m**2 / (m**2) ", "m**2 / (m**2) "⟩,
     ⟨"zero_lift_drag", "drag_coeffs.CD_wing", "zero_lift_drag.drag_coeffs.CD_wing", "", ""⟩,
     ⟨"zero_lift_drag", "CD0", "zero_lift_drag.CD0", "", ""⟩,
     ⟨"zero_lift_drag", "ac|geom|fuselage|length", "ac|geom|fuselage|length", "m", "m"⟩,
     ⟨"zero_lift_drag", "ac|geom|fuselage|height", "ac|geom|fuselage|height", "m", "m"⟩,
     ⟨"zero_lift_drag", "ac|geom|hstab|toverc", "ac|geom|hstab|toverc", "", ""⟩,
     ⟨"zero_lift_drag", "ac|geom|vstab|toverc", "ac|geom|vstab|toverc", "", ""⟩,
     ⟨"zero_lift_drag", "ac|geom|wing|toverc", "ac|geom|wing|toverc", "", ""⟩,
     ⟨"zero_lift_drag", "fltcond|Utrue", "fltcond|Utrue", "m/s", "m/s"⟩,
     ⟨"zero_lift_drag", "fltcond|rho", "fltcond|rho", "kg/m**3", "kg/m**3"⟩,
     ⟨"zero_lift_drag", "fltcond|T", "fltcond|T", "K", "K"⟩,
     ⟨"zero_lift_drag", "ac|geom|hstab|S_ref", "ac|geom|hstab|S_ref", "m**2", "m**2"⟩,
     ⟨"zero_lift_drag", "ac|geom|hstab|AR", "ac|geom|hstab|AR", "", ""⟩,
     ⟨"zero_lift_drag", "ac|geom|hstab|taper", "ac|geom|hstab|taper", "", ""⟩,
     ⟨"zero_lift_drag", "ac|geom|vstab|S_ref", "ac|geom|vstab|S_ref", "m**2", "m**2"⟩,
     ⟨"zero_lift_drag", "ac|geom|vstab|AR", "ac|geom|vstab|AR", "", ""⟩,
     ⟨"zero_lift_drag", "ac|geom|vstab|taper", "ac|geom|vstab|taper", "", ""⟩,
     ⟨"zero_lift_drag", "ac|geom|wing|S_ref", "ac|geom|wing|S_ref", "m**2", "m**2"⟩,
     ⟨"zero_lift_drag", "ac|geom|wing|AR", "ac|geom|wing|AR", "", ""⟩,
     ⟨"zero_lift_drag", "ac|geom|wing|taper", "ac|geom|wing|taper", "", ""⟩,
     ⟨"zero_lift_drag", "ac|geom|nacelle|length", "ac|geom|nacelle|length", "m", "m"⟩,
     ⟨"zero_lift_drag", "ac|geom|fuselage|S_wet", "ac|geom|fuselage|S_wet", "m**2", "m**2"⟩,
     ⟨"zero_lift_drag", "ac|geom|nacelle|S_wet", "ac|geom|nacelle|S_wet", "m**2", "m**2"⟩,
     ⟨"zero_lift_drag", "ac|propulsion|num_engines", "ac|propulsion|num_engines", "", ""⟩,
     ⟨"drag_polar", "drag", "drag", "N", "N"⟩, ⟨"drag_polar", "fltcond|CL", "fltcond|CL", "", ""⟩,
     ⟨"drag_polar", "fltcond|q", "fltcond|q", "N * m**-2", "N * m**-2"⟩,
     ⟨"drag_polar", "ac|geom|wing|S_ref", "ac|geom|wing|S_ref", "m**2", "m **2"⟩,
     ⟨"drag_polar", "CD0", "zero_lift_drag.CD0", "", ""⟩, ⟨"drag_polar", "e", "ac|aero|polar|e", "", ""⟩,
     ⟨"drag_polar", "ac|geom|wing|AR", "ac|geom|wing|AR", "", ""⟩,
     ⟨"CFM56", "engine_deck.thrust", "CFM56.engine_deck.thrust", "lbf", "lbf"⟩,
     ⟨"CFM56", "engine_deck.fuel_flow", "CFM56.engine_deck.fuel_flow", "lbm/s", "lbm/s"⟩,
     ⟨"CFM56", "T4", "CFM56.T4", "degR", "degR"⟩,
     ⟨"CFM56", "thrust", "CFM56.thrust", "lbf * (lbf) / (lbf) ", "lbf * (lbf) / (lbf) "⟩,
     ⟨"CFM56", "fuel_flow", "CFM56.fuel_flow", "lbm/s * (lbf) / (lbf) ", "lbm/s * (lbf) / (lbf) "⟩,
     ⟨"CFM56", "throttle", "throttle", "", ""⟩, ⟨"CFM56", "fltcond|h", "fltcond|h", "ft", "ft"⟩,
     ⟨"CFM56", "fltcond|M", "fltcond|M", "", ""⟩,
     ⟨"CFM56", "ac|propulsion|engine|rating", "ac|propulsion|engine|rating", "lbf", "lbf"⟩,
     ⟨"CFM56", "scale_engine.orig_rating_thrust", "CFM56.scale_engine.orig_rating_thrust", "lbf", "lbf"⟩,
     ⟨"CFM56", "scale_engine.orig_rating_fuel_flow", "CFM56.scale_engine.orig_rating_fuel_flow", "lbf", "lbf"⟩,
     ⟨"num_engine_calc", "num_active_engines", "num_engine_calc.num_active_engines", "", ""⟩,
     ⟨"num_engine_calc", "num_engines", "ac|propulsion|num_engines", "", ""⟩,
     ⟨"num_engine_calc", "propulsor_active", "propulsor_active", "", ""⟩,
     ⟨"num_engine_calc", "one", "num_engine_calc.one", "", ""⟩,
     ⟨"propulsion_multiplier", "thrust", "thrust", "lbf ", "lbf "⟩,
     ⟨"propulsion_multiplier", "fuel_flow", "propulsion_multiplier.fuel_flow", "kg/s ", "kg/s "⟩,
     ⟨"propulsion_multiplier", "thrust_per_engine", "CFM56.thrust", "lbf * (lbf) / (lbf) ", "lbf"⟩,
     ⟨"propulsion_multiplier", "num_active_engines_1", "num_engine_calc.num_active_engines", "", ""⟩,
     ⟨"propulsion_multiplier", "fuel_flow_per_engine", "CFM56.fuel_flow", "lbm/s * (lbf) / (lbf) ", "kg/s"⟩,
     ⟨"propulsion_multiplier", "num_active_engines_2", "num_engine_calc.num_active_engines", "", ""⟩,
     ⟨"fuel_burn_integ", "fuel_burn_final", "fuel_burn_integ.fuel_burn_final", "(kg/s) * (s)", "(kg/s) * (s)"⟩,
     ⟨"fuel_burn_integ", "fuel_burn", "fuel_burn_integ.fuel_burn", "(kg/s) * (s)", "(kg/s) * (s)"⟩,
     ⟨"fuel_burn_integ", "duration", "fuel_burn_integ.duration", "s", "s"⟩,
     ⟨"fuel_burn_integ", "fuel_flow", "propulsion_multiplier.fuel_flow", "kg/s ", "kg/s"⟩,
     ⟨"fuel_burn_integ", "fuel_burn_initial", "fuel_burn_integ.fuel_burn_initial", "(kg/s) * (s)", "(kg/s) * (s)"⟩,
     ⟨"weight_calc", "weight", "weight", "kg", "kg"⟩, ⟨"weight_calc", "ac|weights|MTOW", "ac|weights|MTOW", "kg", "kg"⟩,
     ⟨"weight_calc", "fuel_burn", "fuel_burn_integ.fuel_burn", "(kg/s) * (s)", "kg"⟩] := by
  decide +kernel

end Verif.Wiring
