import Verif.Proof.WiringHybrids
import Verif.Model.WiringN3

/-! Where the variables of the hybrid single aisle are found (evaluated tables). -/

namespace Verif.Wiring

set_option maxRecDepth 10000

theorem faultProtection_links : faultProtection.links =
    [⟨"coolant_temps", "T_out", "T_out", "K", "K"⟩, ⟨"coolant_temps", "T_average", "coolant_temps.T_average", "K", "K"⟩,
     ⟨"coolant_temps", "T_in", "T_in", "K", "K"⟩, ⟨"coolant_temps", "q", "elec_load", "W", "W"⟩,
     ⟨"coolant_temps", "mdot_coolant", "mdot_coolant", "kg/s", "kg/s"⟩,
     ⟨"electrical_loss", "elec_load", "elec_load", "W", "W"⟩, ⟨"electrical_loss", "motor_power", "motor_power", "W", "W"⟩,
     ⟨"duct_pressure", "delta_p_stack", "delta_p_stack", "Pa", "Pa"⟩,
     ⟨"duct_pressure", "delta_p_motor_hx", "delta_p_motor_hx", "Pa", "Pa"⟩,
     ⟨"duct_pressure", "delta_p_fault_prot_hx", "delta_p_fault_prot_hx", "Pa", "Pa"⟩,
     ⟨"heat_transfer", "heat_transfer", "heat_transfer", "W", "W"⟩,
     ⟨"heat_transfer", "heat_transfer_motor_hx", "heat_transfer_motor_hx", "W", "W"⟩,
     ⟨"heat_transfer", "heat_transfer_fault_prot_hx", "heat_transfer_fault_prot_hx", "W", "W"⟩] := by
  decide +kernel

theorem socBattery95_links : (socBattery 0.95).links =
    [⟨"batt_base", "heat_out", "heat_out", "W", "W"⟩, ⟨"batt_base", "component_cost", "component_cost", "USD", "USD"⟩,
     ⟨"batt_base", "component_sizing_margin", "component_sizing_margin", "", ""⟩,
     ⟨"batt_base", "max_energy", "max_energy", "W*h", "W*h"⟩, ⟨"batt_base", "battery_weight", "battery_weight", "kg", "kg"⟩,
     ⟨"batt_base", "elec_load", "elec_load", "W", "W"⟩,
     ⟨"batt_base", "specific_energy", "specific_energy", "W * h / kg", "W * h / kg"⟩,
     ⟨"divider", "dSOCdt", "dSOCdt", "W / (kJ) ", "W / (kJ) "⟩, ⟨"divider", "elec_load", "elec_load", "W", "W"⟩,
     ⟨"divider", "max_energy", "max_energy", "W*h", "kJ"⟩, ⟨"ode_integ", "SOC_final", "SOC_final", "", ""⟩,
     ⟨"ode_integ", "SOC", "SOC", "", ""⟩, ⟨"ode_integ", "duration", "duration", "s", "s"⟩,
     ⟨"ode_integ", "dSOCdt", "dSOCdt", "W / (kJ) ", "(s)** -1"⟩, ⟨"ode_integ", "SOC_initial", "SOC_initial", "", ""⟩] := by
  decide +kernel

set_option maxHeartbeats 4000000 in
theorem n3Grp_eval (cd0 : String) (h : cd0 ∈ ["ac|aero|polar|CD0_TO", "ac|aero|polar|CD0_cruise"]) :
    (n3Grp cd0).links =
    [⟨"ode_integ", "fuel_used_final", "fuel_used_final", "kg", "kg"⟩, ⟨"ode_integ", "fuel_used", "fuel_used", "kg", "kg"⟩,
     ⟨"ode_integ", "duration", "ode_integ.duration", "s", "s"⟩,
     ⟨"ode_integ", "fuel_flow", "fuel_flow", "kg/s ", "(kg) / (s)"⟩,
     ⟨"ode_integ", "fuel_used_initial", "fuel_used_initial", "kg", "kg"⟩,
     ⟨"airframe_drag", "drag", "airframe_drag.drag", "N", "N"⟩, ⟨"airframe_drag", "fltcond|CL", "fltcond|CL", "", ""⟩,
     ⟨"airframe_drag", "fltcond|q", "fltcond|q", "N * m**-2", "N * m**-2"⟩,
     ⟨"airframe_drag", "ac|geom|wing|S_ref", "ac|geom|wing|S_ref", "m **2", "m **2"⟩,
     ⟨"airframe_drag", "CD0", cd0, "", ""⟩, ⟨"airframe_drag", "e", "ac|aero|polar|e", "", ""⟩,
     ⟨"airframe_drag", "ac|geom|wing|AR", "ac|geom|wing|AR", "", ""⟩, ⟨"add0", "drag", "drag", "N", "N"⟩,
     ⟨"add0", "_temp0", "airframe_drag.drag", "N", "N"⟩, ⟨"add0", "_temp1", "variable_duct.force.F_net", "N", "N"⟩,
     ⟨"add0", "_temp2", "motor_duct.force.F_net", "N", "N"⟩, ⟨"hybrid_throttle", "vec", "hybrid_throttle.vec", "", ""⟩,
     ⟨"hybrid_throttle", "start_val", "hybrid_throttle_start", "", ""⟩,
     ⟨"hybrid_throttle", "end_val", "hybrid_throttle_end", "", ""⟩,
     ⟨"hybrid_motor", "shaft_power_out", "hybrid_motor.shaft_power_out", "W", "W"⟩,
     ⟨"hybrid_motor", "heat_out", "hybrid_motor.heat_out", "W", "W"⟩,
     ⟨"hybrid_motor", "elec_load", "hybrid_motor.elec_load", "W", "W"⟩,
     ⟨"hybrid_motor", "component_cost", "hybrid_motor.component_cost", "USD", "USD"⟩,
     ⟨"hybrid_motor", "component_weight", "hybrid_motor.component_weight", "kg", "kg"⟩,
     ⟨"hybrid_motor", "component_sizing_margin", "hybrid_motor.component_sizing_margin", "", ""⟩,
     ⟨"hybrid_motor", "throttle", "hybrid_throttle.vec", "", ""⟩,
     ⟨"hybrid_motor", "elec_power_rating", "ac|propulsion|motor|rating", "W", "W"⟩,
     ⟨"engine", "thrust", "engine.thrust", "lbf", "lbf"⟩, ⟨"engine", "fuel_flow", "engine.fuel_flow", "lbm/s", "lbm/s"⟩,
     ⟨"engine", "surge_margin", "engine.surge_margin", "", ""⟩, ⟨"engine", "throttle", "throttle", "", ""⟩,
     ⟨"engine", "fltcond|h", "fltcond|h", "ft", "ft"⟩, ⟨"engine", "fltcond|M", "fltcond|M", "", ""⟩,
     ⟨"engine", "hybrid_power", "hybrid_motor.shaft_power_out", "W", "kW"⟩, ⟨"mult1", "thrust", "thrust", "kN ", "kN "⟩,
     ⟨"mult1", "_temp", "engine.thrust", "lbf", "kN"⟩, ⟨"mult2", "fuel_flow", "fuel_flow", "kg/s ", "kg/s "⟩,
     ⟨"mult2", "_temp", "engine.fuel_flow", "lbm/s", "kg/s"⟩, ⟨"battery", "heat_out", "battery.heat_out", "W", "W"⟩,
     ⟨"battery", "component_cost", "battery.component_cost", "USD", "USD"⟩,
     ⟨"battery", "component_sizing_margin", "battery.component_sizing_margin", "", ""⟩,
     ⟨"battery", "max_energy", "battery.max_energy", "W*h", "W*h"⟩,
     ⟨"battery", "dSOCdt", "battery.dSOCdt", "W / (kJ) ", "W / (kJ) "⟩,
     ⟨"battery", "SOC_final", "battery.SOC_final", "", ""⟩, ⟨"battery", "SOC", "battery.SOC", "", ""⟩,
     ⟨"battery", "battery_weight", "ac|propulsion|battery|weight", "kg", "kg"⟩,
     ⟨"battery", "elec_load", "elec_load", "kW", "W"⟩,
     ⟨"battery", "specific_energy", "battery.specific_energy", "W * h / kg", "W * h / kg"⟩,
     ⟨"battery", "duration", "battery.duration", "s", "s"⟩, ⟨"battery", "SOC_initial", "battery.SOC_initial", "", ""⟩,
     ⟨"add3", "elec_load", "elec_load", "kW", "kW"⟩, ⟨"add3", "_temp0", "hybrid_motor.elec_load", "W", "kW"⟩,
     ⟨"add3", "_temp1", "refrig.elec_load", "W", "kW"⟩, ⟨"add3", "_temp2", "motorfaultprot.elec_load", "W", "kW"⟩,
     ⟨"add3", "_temp3", "battery_coolant_pump.elec_load", "W", "kW"⟩,
     ⟨"add3", "_temp4", "motor_coolant_pump.elec_load", "W", "kW"⟩,
     ⟨"thermal_params", "rho_coolant", "rho_coolant", "kg/m**3", "kg/m**3"⟩,
     ⟨"thermal_params", "mdot_coolant_battery", "mdot_coolant_battery", "kg/s", "kg/s"⟩,
     ⟨"thermal_params", "mdot_coolant_motor", "mdot_coolant_motor", "kg/s", "kg/s"⟩,
     ⟨"thermal_params", "mdot_coolant_fault_prot", "mdot_coolant_fault_prot", "kg/s", "kg/s"⟩,
     ⟨"thermal_params", "bypass_heat_pump", "bypass_heat_pump", "", ""⟩,
     ⟨"thermal_params", "variable_duct_nozzle_area_start", "variable_duct_nozzle_area_start", "inch**2", "inch**2"⟩,
     ⟨"thermal_params", "variable_duct_nozzle_area_end", "variable_duct_nozzle_area_end", "inch**2", "inch**2"⟩,
     ⟨"thermal_params", "heat_pump_specific_power", "heat_pump_specific_power", "W/kg", "W/kg"⟩,
     ⟨"thermal_params", "heat_pump_eff_factor", "heat_pump_eff_factor", "", ""⟩,
     ⟨"li_battery", "vec", "variable_duct_nozzle_area", "inch**2", "inch**2"⟩,
     ⟨"li_battery", "start_val", "variable_duct_nozzle_area_start", "inch**2", "inch**2"⟩,
     ⟨"li_battery", "end_val", "variable_duct_nozzle_area_end", "inch**2", "inch**2"⟩,
     ⟨"li_motor", "vec", "motor_duct_area_nozzle_in", "inch**2", "inch**2"⟩,
     ⟨"li_motor", "start_val", "ac|propulsion|thermal|hx_motor|nozzle_area", "inch**2", "inch**2"⟩,
     ⟨"li_motor", "end_val", "ac|propulsion|thermal|hx_motor|nozzle_area", "inch**2", "inch**2"⟩,
     ⟨"motorheatsink", "hex.q", "motorheatsink.hex.q", "W", "W"⟩,
     ⟨"motorheatsink", "T_out", "motorheatsink.T_out", "K", "K"⟩,
     ⟨"motorheatsink", "dTdt", "motorheatsink.dTdt", "K/s", "K/s"⟩,
     ⟨"motorheatsink", "T_final", "motorheatsink.T_final", "K", "K"⟩, ⟨"motorheatsink", "T", "motorheatsink.T", "K", "K"⟩,
     ⟨"motorheatsink", "q_in", "hybrid_motor.heat_out", "W", "W"⟩, ⟨"motorheatsink", "T_in", "hx_motor.T_out_hot", "K", "K"⟩,
     ⟨"motorheatsink", "mdot_coolant", "mdot_coolant_motor", "kg/s", "kg/s"⟩,
     ⟨"motorheatsink", "power_rating", "ac|propulsion|motor|rating", "W", "W"⟩,
     ⟨"motorheatsink", "motor_weight", "hybrid_motor.component_weight", "kg", "kg"⟩,
     ⟨"motorheatsink", "duration", "motorheatsink.duration", "s", "s"⟩,
     ⟨"motorheatsink", "T_initial", "motorheatsink.T_initial", "K", "K"⟩,
     ⟨"motorfaultprot", "T_out", "motorfaultprot.T_out", "K", "K"⟩,
     ⟨"motorfaultprot", "coolant_temps.T_average", "motorfaultprot.coolant_temps.T_average", "K", "K"⟩,
     ⟨"motorfaultprot", "elec_load", "motorfaultprot.elec_load", "W", "W"⟩,
     ⟨"motorfaultprot", "delta_p_stack", "motorfaultprot.delta_p_stack", "Pa", "Pa"⟩,
     ⟨"motorfaultprot", "heat_transfer", "motorfaultprot.heat_transfer", "W", "W"⟩,
     ⟨"motorfaultprot", "T_in", "hx_fault_prot.T_out_hot", "K", "K"⟩,
     ⟨"motorfaultprot", "mdot_coolant", "mdot_coolant_fault_prot", "kg/s", "kg/s"⟩,
     ⟨"motorfaultprot", "motor_power", "hybrid_motor.elec_load", "W", "W"⟩,
     ⟨"motorfaultprot", "delta_p_motor_hx", "hx_motor.delta_p_cold", "Pa", "Pa"⟩,
     ⟨"motorfaultprot", "delta_p_fault_prot_hx", "hx_fault_prot.delta_p_cold", "Pa", "Pa"⟩,
     ⟨"motorfaultprot", "heat_transfer_motor_hx", "hx_motor.heat_transfer", "W", "W"⟩,
     ⟨"motorfaultprot", "heat_transfer_fault_prot_hx", "hx_fault_prot.heat_transfer", "W", "W"⟩,
     ⟨"hx_motor", "n_wide_cold", "hx_motor.n_wide_cold", "", ""⟩,
     ⟨"hx_motor", "n_long_cold", "hx_motor.n_long_cold", "", ""⟩, ⟨"hx_motor", "n_tall", "hx_motor.n_tall", "", ""⟩,
     ⟨"hx_motor", "component_weight", "hx_motor.component_weight", "kg", "kg"⟩,
     ⟨"hx_motor", "length_overall", "hx_motor.length_overall", "m", "m"⟩,
     ⟨"hx_motor", "height_overall", "hx_motor.height_overall", "m", "m"⟩,
     ⟨"hx_motor", "width_overall", "hx_motor.width_overall", "m", "m"⟩,
     ⟨"hx_motor", "frontal_area", "hx_motor.frontal_area", "m**2", "m**2"⟩,
     ⟨"hx_motor", "xs_area_cold", "hx_motor.xs_area_cold", "m**2", "m**2"⟩,
     ⟨"hx_motor", "heat_transfer_area_cold", "hx_motor.heat_transfer_area_cold", "m**2", "m**2"⟩,
     ⟨"hx_motor", "dh_cold", "hx_motor.dh_cold", "m", "m"⟩,
     ⟨"hx_motor", "fin_area_ratio_cold", "hx_motor.fin_area_ratio_cold", "", ""⟩,
     ⟨"hx_motor", "contraction_ratio_cold", "hx_motor.contraction_ratio_cold", "", ""⟩,
     ⟨"hx_motor", "alpha_cold", "hx_motor.alpha_cold", "", ""⟩, ⟨"hx_motor", "delta_cold", "hx_motor.delta_cold", "", ""⟩,
     ⟨"hx_motor", "gamma_cold", "hx_motor.gamma_cold", "", ""⟩,
     ⟨"hx_motor", "xs_area_hot", "hx_motor.xs_area_hot", "m**2", "m**2"⟩,
     ⟨"hx_motor", "heat_transfer_area_hot", "hx_motor.heat_transfer_area_hot", "m**2", "m**2"⟩,
     ⟨"hx_motor", "dh_hot", "hx_motor.dh_hot", "m", "m"⟩,
     ⟨"hx_motor", "fin_area_ratio_hot", "hx_motor.fin_area_ratio_hot", "", ""⟩,
     ⟨"hx_motor", "contraction_ratio_hot", "hx_motor.contraction_ratio_hot", "", ""⟩,
     ⟨"hx_motor", "alpha_hot", "hx_motor.alpha_hot", "", ""⟩, ⟨"hx_motor", "delta_hot", "hx_motor.delta_hot", "", ""⟩,
     ⟨"hx_motor", "gamma_hot", "hx_motor.gamma_hot", "", ""⟩, ⟨"hx_motor", "Re_dh_cold", "hx_motor.Re_dh_cold", "", ""⟩,
     ⟨"hx_motor", "Re_dh_hot", "hx_motor.Re_dh_hot", "", ""⟩, ⟨"hx_motor", "j_cold", "hx_motor.j_cold", "", ""⟩,
     ⟨"hx_motor", "f_cold", "hx_motor.f_cold", "", ""⟩, ⟨"hx_motor", "j_hot", "hx_motor.j_hot", "", ""⟩,
     ⟨"hx_motor", "f_hot", "hx_motor.f_hot", "", ""⟩, ⟨"hx_motor", "Nu_dh_cold", "hx_motor.Nu_dh_cold", "", ""⟩,
     ⟨"hx_motor", "Nu_dh_hot", "hx_motor.Nu_dh_hot", "", ""⟩,
     ⟨"hx_motor", "h_conv_cold", "hx_motor.h_conv_cold", "W/m**2/K", "W/m**2/K"⟩,
     ⟨"hx_motor", "h_conv_hot", "hx_motor.h_conv_hot", "W/m**2/K", "W/m**2/K"⟩,
     ⟨"hx_motor", "eta_overall_cold", "hx_motor.eta_overall_cold", "", ""⟩,
     ⟨"hx_motor", "eta_overall_hot", "hx_motor.eta_overall_hot", "", ""⟩,
     ⟨"hx_motor", "UA_overall", "hx_motor.UA_overall", "W/K", "W/K"⟩, ⟨"hx_motor", "NTU", "hx_motor.NTU", "", ""⟩,
     ⟨"hx_motor", "heat_max", "hx_motor.heat_max", "W", "W"⟩, ⟨"hx_motor", "C_ratio", "hx_motor.C_ratio", "", ""⟩,
     ⟨"hx_motor", "effectiveness", "hx_motor.effectiveness", "", ""⟩,
     ⟨"hx_motor", "heat_transfer", "hx_motor.heat_transfer", "W", "W"⟩,
     ⟨"hx_motor", "T_out_cold", "hx_motor.T_out_cold", "K", "K"⟩, ⟨"hx_motor", "T_out_hot", "hx_motor.T_out_hot", "K", "K"⟩,
     ⟨"hx_motor", "delta_p_cold", "hx_motor.delta_p_cold", "Pa", "Pa"⟩,
     ⟨"hx_motor", "delta_p_hot", "hx_motor.delta_p_hot", "Pa", "Pa"⟩,
     ⟨"hx_motor", "ac|propulsion|thermal|hx|n_wide_cold", "ac|propulsion|thermal|hx_motor|n_wide_cold", "", ""⟩,
     ⟨"hx_motor", "ac|propulsion|thermal|hx|n_long_cold", "ac|propulsion|thermal|hx_motor|n_long_cold", "", ""⟩,
     ⟨"hx_motor", "ac|propulsion|thermal|hx|n_tall", "ac|propulsion|thermal|hx_motor|n_tall", "", ""⟩,
     ⟨"hx_motor", "channel_width_hot", "hx_motor.channel_width_hot", "mm", "mm"⟩,
     ⟨"hx_motor", "channel_height_hot", "hx_motor.channel_height_hot", "mm", "mm"⟩,
     ⟨"hx_motor", "fin_length_hot", "hx_motor.fin_length_hot", "mm", "mm"⟩,
     ⟨"hx_motor", "channel_width_cold", "hx_motor.channel_width_cold", "mm", "mm"⟩,
     ⟨"hx_motor", "channel_height_cold", "hx_motor.channel_height_cold", "mm", "mm"⟩,
     ⟨"hx_motor", "fin_length_cold", "hx_motor.fin_length_cold", "mm", "mm"⟩,
     ⟨"hx_motor", "fin_thickness", "hx_motor.fin_thickness", "mm", "mm"⟩,
     ⟨"hx_motor", "plate_thickness", "hx_motor.plate_thickness", "mm", "mm"⟩,
     ⟨"hx_motor", "case_thickness", "hx_motor.case_thickness", "mm", "mm"⟩,
     ⟨"hx_motor", "material_rho", "hx_motor.material_rho", "kg/m**3", "kg/m**3"⟩,
     ⟨"hx_motor", "mdot_cold", "motor_duct.mdot", "kg/s", "kg/s"⟩,
     ⟨"hx_motor", "mu_cold", "hx_motor.mu_cold", "kg/m/s", "kg/m/s"⟩,
     ⟨"hx_motor", "mdot_hot", "mdot_coolant_motor", "kg/s", "kg/s"⟩,
     ⟨"hx_motor", "mu_hot", "hx_motor.mu_hot", "kg/m/s", "kg/m/s"⟩,
     ⟨"hx_motor", "k_cold", "hx_motor.k_cold", "W/m/K", "W/m/K"⟩,
     ⟨"hx_motor", "cp_cold", "hx_motor.cp_cold", "J/kg/K", "J/kg/K"⟩,
     ⟨"hx_motor", "k_hot", "hx_motor.k_hot", "W/m/K", "W/m/K"⟩,
     ⟨"hx_motor", "cp_hot", "hx_motor.cp_hot", "J/kg/K", "J/kg/K"⟩,
     ⟨"hx_motor", "material_k", "hx_motor.material_k", "W/m/K", "W/m/K"⟩,
     ⟨"hx_motor", "T_in_cold", "hx_fault_prot.T_out_cold", "K", "K"⟩,
     ⟨"hx_motor", "T_in_hot", "motorheatsink.T_out", "K", "K"⟩,
     ⟨"hx_motor", "rho_cold", "motor_duct.sta2.rho", "kg/m**3", "kg/m**3"⟩,
     ⟨"hx_motor", "rho_hot", "rho_coolant", "kg/m**3", "kg/m**3"⟩,
     ⟨"hx_fault_prot", "n_wide_cold", "hx_fault_prot.n_wide_cold", "", ""⟩,
     ⟨"hx_fault_prot", "n_long_cold", "hx_fault_prot.n_long_cold", "", ""⟩,
     ⟨"hx_fault_prot", "n_tall", "hx_fault_prot.n_tall", "", ""⟩,
     ⟨"hx_fault_prot", "component_weight", "hx_fault_prot.component_weight", "kg", "kg"⟩,
     ⟨"hx_fault_prot", "length_overall", "hx_fault_prot.length_overall", "m", "m"⟩,
     ⟨"hx_fault_prot", "height_overall", "hx_fault_prot.height_overall", "m", "m"⟩,
     ⟨"hx_fault_prot", "width_overall", "hx_fault_prot.width_overall", "m", "m"⟩,
     ⟨"hx_fault_prot", "frontal_area", "hx_fault_prot.frontal_area", "m**2", "m**2"⟩,
     ⟨"hx_fault_prot", "xs_area_cold", "hx_fault_prot.xs_area_cold", "m**2", "m**2"⟩,
     ⟨"hx_fault_prot", "heat_transfer_area_cold", "hx_fault_prot.heat_transfer_area_cold", "m**2", "m**2"⟩,
     ⟨"hx_fault_prot", "dh_cold", "hx_fault_prot.dh_cold", "m", "m"⟩,
     ⟨"hx_fault_prot", "fin_area_ratio_cold", "hx_fault_prot.fin_area_ratio_cold", "", ""⟩,
     ⟨"hx_fault_prot", "contraction_ratio_cold", "hx_fault_prot.contraction_ratio_cold", "", ""⟩,
     ⟨"hx_fault_prot", "alpha_cold", "hx_fault_prot.alpha_cold", "", ""⟩,
     ⟨"hx_fault_prot", "delta_cold", "hx_fault_prot.delta_cold", "", ""⟩,
     ⟨"hx_fault_prot", "gamma_cold", "hx_fault_prot.gamma_cold", "", ""⟩,
     ⟨"hx_fault_prot", "xs_area_hot", "hx_fault_prot.xs_area_hot", "m**2", "m**2"⟩,
     ⟨"hx_fault_prot", "heat_transfer_area_hot", "hx_fault_prot.heat_transfer_area_hot", "m**2", "m**2"⟩,
     ⟨"hx_fault_prot", "dh_hot", "hx_fault_prot.dh_hot", "m", "m"⟩,
     ⟨"hx_fault_prot", "fin_area_ratio_hot", "hx_fault_prot.fin_area_ratio_hot", "", ""⟩,
     ⟨"hx_fault_prot", "contraction_ratio_hot", "hx_fault_prot.contraction_ratio_hot", "", ""⟩,
     ⟨"hx_fault_prot", "alpha_hot", "hx_fault_prot.alpha_hot", "", ""⟩,
     ⟨"hx_fault_prot", "delta_hot", "hx_fault_prot.delta_hot", "", ""⟩,
     ⟨"hx_fault_prot", "gamma_hot", "hx_fault_prot.gamma_hot", "", ""⟩,
     ⟨"hx_fault_prot", "Re_dh_cold", "hx_fault_prot.Re_dh_cold", "", ""⟩,
     ⟨"hx_fault_prot", "Re_dh_hot", "hx_fault_prot.Re_dh_hot", "", ""⟩,
     ⟨"hx_fault_prot", "j_cold", "hx_fault_prot.j_cold", "", ""⟩,
     ⟨"hx_fault_prot", "f_cold", "hx_fault_prot.f_cold", "", ""⟩, ⟨"hx_fault_prot", "j_hot", "hx_fault_prot.j_hot", "", ""⟩,
     ⟨"hx_fault_prot", "f_hot", "hx_fault_prot.f_hot", "", ""⟩,
     ⟨"hx_fault_prot", "Nu_dh_cold", "hx_fault_prot.Nu_dh_cold", "", ""⟩,
     ⟨"hx_fault_prot", "Nu_dh_hot", "hx_fault_prot.Nu_dh_hot", "", ""⟩,
     ⟨"hx_fault_prot", "h_conv_cold", "hx_fault_prot.h_conv_cold", "W/m**2/K", "W/m**2/K"⟩,
     ⟨"hx_fault_prot", "h_conv_hot", "hx_fault_prot.h_conv_hot", "W/m**2/K", "W/m**2/K"⟩,
     ⟨"hx_fault_prot", "eta_overall_cold", "hx_fault_prot.eta_overall_cold", "", ""⟩,
     ⟨"hx_fault_prot", "eta_overall_hot", "hx_fault_prot.eta_overall_hot", "", ""⟩,
     ⟨"hx_fault_prot", "UA_overall", "hx_fault_prot.UA_overall", "W/K", "W/K"⟩,
     ⟨"hx_fault_prot", "NTU", "hx_fault_prot.NTU", "", ""⟩,
     ⟨"hx_fault_prot", "heat_max", "hx_fault_prot.heat_max", "W", "W"⟩,
     ⟨"hx_fault_prot", "C_ratio", "hx_fault_prot.C_ratio", "", ""⟩,
     ⟨"hx_fault_prot", "effectiveness", "hx_fault_prot.effectiveness", "", ""⟩,
     ⟨"hx_fault_prot", "heat_transfer", "hx_fault_prot.heat_transfer", "W", "W"⟩,
     ⟨"hx_fault_prot", "T_out_cold", "hx_fault_prot.T_out_cold", "K", "K"⟩,
     ⟨"hx_fault_prot", "T_out_hot", "hx_fault_prot.T_out_hot", "K", "K"⟩,
     ⟨"hx_fault_prot", "delta_p_cold", "hx_fault_prot.delta_p_cold", "Pa", "Pa"⟩,
     ⟨"hx_fault_prot", "delta_p_hot", "hx_fault_prot.delta_p_hot", "Pa", "Pa"⟩,
     ⟨"hx_fault_prot", "ac|propulsion|thermal|hx|n_wide_cold", "ac|propulsion|thermal|hx_motor|n_wide_cold", "", ""⟩,
     ⟨"hx_fault_prot", "ac|propulsion|thermal|hx|n_long_cold", "ac|propulsion|thermal|hx_fault_prot|n_long_cold", "", ""⟩,
     ⟨"hx_fault_prot", "ac|propulsion|thermal|hx|n_tall", "ac|propulsion|thermal|hx_motor|n_tall", "", ""⟩,
     ⟨"hx_fault_prot", "channel_width_hot", "hx_fault_prot.channel_width_hot", "mm", "mm"⟩,
     ⟨"hx_fault_prot", "channel_height_hot", "hx_fault_prot.channel_height_hot", "mm", "mm"⟩,
     ⟨"hx_fault_prot", "fin_length_hot", "hx_fault_prot.fin_length_hot", "mm", "mm"⟩,
     ⟨"hx_fault_prot", "channel_width_cold", "hx_fault_prot.channel_width_cold", "mm", "mm"⟩,
     ⟨"hx_fault_prot", "channel_height_cold", "hx_fault_prot.channel_height_cold", "mm", "mm"⟩,
     ⟨"hx_fault_prot", "fin_length_cold", "hx_fault_prot.fin_length_cold", "mm", "mm"⟩,
     ⟨"hx_fault_prot", "fin_thickness", "hx_fault_prot.fin_thickness", "mm", "mm"⟩,
     ⟨"hx_fault_prot", "plate_thickness", "hx_fault_prot.plate_thickness", "mm", "mm"⟩,
     ⟨"hx_fault_prot", "case_thickness", "hx_fault_prot.case_thickness", "mm", "mm"⟩,
     ⟨"hx_fault_prot", "material_rho", "hx_fault_prot.material_rho", "kg/m**3", "kg/m**3"⟩,
     ⟨"hx_fault_prot", "mdot_cold", "motor_duct.mdot", "kg/s", "kg/s"⟩,
     ⟨"hx_fault_prot", "mu_cold", "hx_fault_prot.mu_cold", "kg/m/s", "kg/m/s"⟩,
     ⟨"hx_fault_prot", "mdot_hot", "mdot_coolant_fault_prot", "kg/s", "kg/s"⟩,
     ⟨"hx_fault_prot", "mu_hot", "hx_fault_prot.mu_hot", "kg/m/s", "kg/m/s"⟩,
     ⟨"hx_fault_prot", "k_cold", "hx_fault_prot.k_cold", "W/m/K", "W/m/K"⟩,
     ⟨"hx_fault_prot", "cp_cold", "hx_fault_prot.cp_cold", "J/kg/K", "J/kg/K"⟩,
     ⟨"hx_fault_prot", "k_hot", "hx_fault_prot.k_hot", "W/m/K", "W/m/K"⟩,
     ⟨"hx_fault_prot", "cp_hot", "hx_fault_prot.cp_hot", "J/kg/K", "J/kg/K"⟩,
     ⟨"hx_fault_prot", "material_k", "hx_fault_prot.material_k", "W/m/K", "W/m/K"⟩,
     ⟨"hx_fault_prot", "T_in_cold", "motor_duct.sta2.T", "K", "K"⟩,
     ⟨"hx_fault_prot", "T_in_hot", "motorfaultprot.T_out", "K", "K"⟩,
     ⟨"hx_fault_prot", "rho_cold", "motor_duct.sta2.rho", "kg/m**3", "kg/m**3"⟩,
     ⟨"hx_fault_prot", "rho_hot", "rho_coolant", "kg/m**3", "kg/m**3"⟩,
     ⟨"motor_duct", "cp", "motor_duct.cp", "J/kg/K", "J/kg/K"⟩,
     ⟨"motor_duct", "area_1", "motor_duct.area_1", "inch**2", "inch**2"⟩,
     ⟨"motor_duct", "delta_p_1", "motor_duct.delta_p_1", "Pa", "Pa"⟩,
     ⟨"motor_duct", "heat_in_1", "motor_duct.heat_in_1", "W", "W"⟩,
     ⟨"motor_duct", "pressure_recovery_1", "motor_duct.pressure_recovery_1", "", ""⟩,
     ⟨"motor_duct", "loss_factor_1", "motor_duct.loss_factor_1", "", ""⟩,
     ⟨"motor_duct", "delta_p_2", "motor_duct.delta_p_2", "Pa", "Pa"⟩,
     ⟨"motor_duct", "heat_in_2", "motor_duct.heat_in_2", "W", "W"⟩,
     ⟨"motor_duct", "pressure_recovery_2", "motor_duct.pressure_recovery_2", "", ""⟩,
     ⟨"motor_duct", "pressure_recovery_3", "motor_duct.pressure_recovery_3", "", ""⟩,
     ⟨"motor_duct", "convergence_hack", "motor_duct.convergence_hack", "Pa", "Pa"⟩,
     ⟨"motor_duct", "area_nozzle", "motor_duct.area_nozzle", "inch**2", "inch**2"⟩,
     ⟨"motor_duct", "mdot", "motor_duct.mdot", "kg/s", "kg/s"⟩,
     ⟨"motor_duct", "inlet.a", "motor_duct.inlet.a", "m/s", "m/s"⟩, ⟨"motor_duct", "inlet.M", "motor_duct.inlet.M", "", ""⟩,
     ⟨"motor_duct", "inlet.Tt", "motor_duct.inlet.Tt", "K", "K"⟩,
     ⟨"motor_duct", "inlet.freestreamtotalpressure.pt", "motor_duct.inlet.freestreamtotalpressure.pt", "Pa", "Pa"⟩,
     ⟨"motor_duct", "inlet.pt", "motor_duct.inlet.pt", "Pa", "Pa"⟩,
     ⟨"motor_duct", "sta1.Tt_out", "motor_duct.sta1.Tt_out", "K", "K"⟩,
     ⟨"motor_duct", "sta1.pt_out", "motor_duct.sta1.pt_out", "Pa", "Pa"⟩,
     ⟨"motor_duct", "sta1.T", "motor_duct.sta1.T", "K", "K"⟩, ⟨"motor_duct", "sta1.p", "motor_duct.sta1.p", "Pa", "Pa"⟩,
     ⟨"motor_duct", "sta1.rho", "motor_duct.sta1.rho", "kg/m**3", "kg/m**3"⟩,
     ⟨"motor_duct", "sta1.a", "motor_duct.sta1.a", "m/s", "m/s"⟩, ⟨"motor_duct", "sta1.M", "motor_duct.sta1.M", "", ""⟩,
     ⟨"motor_duct", "sta2.Tt_out", "motor_duct.sta2.Tt_out", "K", "K"⟩,
     ⟨"motor_duct", "sta2.pt_out", "motor_duct.sta2.pt_out", "Pa", "Pa"⟩,
     ⟨"motor_duct", "sta2.T", "motor_duct.sta2.T", "K", "K"⟩, ⟨"motor_duct", "sta2.p", "motor_duct.sta2.p", "Pa", "Pa"⟩,
     ⟨"motor_duct", "sta2.rho", "motor_duct.sta2.rho", "kg/m**3", "kg/m**3"⟩,
     ⟨"motor_duct", "sta2.a", "motor_duct.sta2.a", "m/s", "m/s"⟩, ⟨"motor_duct", "sta2.M", "motor_duct.sta2.M", "", ""⟩,
     ⟨"motor_duct", "sta3.Tt_out", "motor_duct.sta3.Tt_out", "K", "K"⟩,
     ⟨"motor_duct", "sta3.pt_out", "motor_duct.sta3.pt_out", "Pa", "Pa"⟩,
     ⟨"motor_duct", "sta3.T", "motor_duct.sta3.T", "K", "K"⟩, ⟨"motor_duct", "sta3.p", "motor_duct.sta3.p", "Pa", "Pa"⟩,
     ⟨"motor_duct", "sta3.rho", "motor_duct.sta3.rho", "kg/m**3", "kg/m**3"⟩,
     ⟨"motor_duct", "sta3.a", "motor_duct.sta3.a", "m/s", "m/s"⟩, ⟨"motor_duct", "sta3.M", "motor_duct.sta3.M", "", ""⟩,
     ⟨"motor_duct", "p_exit", "motor_duct.p_exit", "Pa", "Pa"⟩,
     ⟨"motor_duct", "nozzle.pt", "motor_duct.nozzle.pt", "Pa", "Pa"⟩,
     ⟨"motor_duct", "nozzle.nozzle_pressure_ratio", "motor_duct.nozzle.nozzle_pressure_ratio", "", ""⟩,
     ⟨"motor_duct", "nozzle.M", "motor_duct.nozzle.M", "", ""⟩, ⟨"motor_duct", "nozzle.T", "motor_duct.nozzle.T", "K", "K"⟩,
     ⟨"motor_duct", "nozzle.p", "motor_duct.nozzle.p", "Pa", "Pa"⟩,
     ⟨"motor_duct", "nozzle.rho", "motor_duct.nozzle.rho", "kg/m**3", "kg/m**3"⟩,
     ⟨"motor_duct", "nozzle.a", "motor_duct.nozzle.a", "m/s", "m/s"⟩,
     ⟨"motor_duct", "mdot_actual", "motor_duct.mdot_actual", "kg/s", "kg/s"⟩,
     ⟨"motor_duct", "force.F_net", "motor_duct.force.F_net", "N", "N"⟩,
     ⟨"motor_duct", "area_nozzle_in", "motor_duct_area_nozzle_in", "inch**2", "inch**2"⟩,
     ⟨"motor_duct", "T_inf", "fltcond|T", "K", "K"⟩, ⟨"motor_duct", "Utrue", "fltcond|Utrue", "m/s", "m/s"⟩,
     ⟨"motor_duct", "p_inf", "fltcond|p", "Pa", "Pa"⟩,
     ⟨"motor_duct", "inlet.totalpressure.eta_ram", "motor_duct.inlet.totalpressure.eta_ram", "", ""⟩,
     ⟨"motor_duct", "area_2", "hx_motor.frontal_area", "m**2", "m**2"⟩,
     ⟨"motor_duct", "sta2.dynamic_pressure_loss_factor", "motor_duct.sta2.dynamic_pressure_loss_factor", "", ""⟩,
     ⟨"motor_duct", "area_3", "hx_motor.frontal_area", "m**2", "m**2"⟩,
     ⟨"motor_duct", "sta3.delta_p", "motorfaultprot.delta_p_stack", "Pa", "Pa"⟩,
     ⟨"motor_duct", "sta3.dynamic_pressure_loss_factor", "motor_duct.sta3.dynamic_pressure_loss_factor", "", ""⟩,
     ⟨"motor_duct", "sta3.heat_in", "motorfaultprot.heat_transfer", "W", "W"⟩,
     ⟨"motor_duct", "nozzle.dynamic_pressure_loss_factor", "motor_duct.nozzle.dynamic_pressure_loss_factor", "", ""⟩,
     ⟨"motor_hose", "delta_p", "motor_hose.delta_p", "Pa", "Pa"⟩,
     ⟨"motor_hose", "component_weight", "motor_hose.component_weight", "kg", "kg"⟩,
     ⟨"motor_hose", "hose_diameter", "ac|geom|thermal|hx_to_motor_diameter", "m", "m"⟩,
     ⟨"motor_hose", "hose_length", "ac|geom|thermal|hx_to_motor_length", "m", "m"⟩,
     ⟨"motor_hose", "hose_design_pressure", "motor_hose.hose_design_pressure", "Pa", "Pa"⟩,
     ⟨"motor_hose", "mdot_coolant", "mdot_coolant_motor", "kg/s", "kg/s"⟩,
     ⟨"motor_hose", "rho_coolant", "rho_coolant", "kg/m**3", "kg/m**3"⟩,
     ⟨"motor_hose", "mu_coolant", "motor_hose.mu_coolant", "kg/m/s", "kg/m/s"⟩,
     ⟨"motor_coolant_pump", "elec_load", "motor_coolant_pump.elec_load", "W", "W"⟩,
     ⟨"motor_coolant_pump", "component_weight", "motor_coolant_pump.component_weight", "kg", "kg"⟩,
     ⟨"motor_coolant_pump", "component_sizing_margin", "motor_coolant_pump.component_sizing_margin", "", ""⟩,
     ⟨"motor_coolant_pump", "power_rating", "ac|propulsion|thermal|hx_motor|pump_power_rating", "W", "W"⟩,
     ⟨"motor_coolant_pump", "mdot_coolant", "mdot_coolant_motor", "kg/s", "kg/s"⟩,
     ⟨"motor_coolant_pump", "delta_p", "pressure_drop_motor_loop", "Pa", "Pa"⟩,
     ⟨"motor_coolant_pump", "rho_coolant", "rho_coolant", "kg/m**3", "kg/m**3"⟩,
     ⟨"add4", "pressure_drop_motor_loop", "pressure_drop_motor_loop", "Pa", "Pa"⟩,
     ⟨"add4", "_temp0", "motor_hose.delta_p", "Pa", "Pa"⟩, ⟨"add4", "_temp1", "hx_motor.delta_p_hot", "Pa", "Pa"⟩,
     ⟨"batteryheatsink", "dTdt", "batteryheatsink.dTdt", "K/s", "K/s"⟩,
     ⟨"batteryheatsink", "T_surface", "batteryheatsink.T_surface", "K", "K"⟩,
     ⟨"batteryheatsink", "T_core", "batteryheatsink.T_core", "K", "K"⟩,
     ⟨"batteryheatsink", "hex.q", "batteryheatsink.hex.q", "W", "W"⟩,
     ⟨"batteryheatsink", "T_out", "batteryheatsink.T_out", "K", "K"⟩,
     ⟨"batteryheatsink", "T_final", "batteryheatsink.T_final", "K", "K"⟩,
     ⟨"batteryheatsink", "T", "batteryheatsink.T", "K", "K"⟩, ⟨"batteryheatsink", "q_in", "battery.heat_out", "W", "W"⟩,
     ⟨"batteryheatsink", "T_in", "refrig.T_out_cold", "K", "K"⟩,
     ⟨"batteryheatsink", "mdot_coolant", "mdot_coolant_battery", "kg/s", "kg/s"⟩,
     ⟨"batteryheatsink", "battery_weight", "ac|propulsion|battery|weight", "kg", "kg"⟩,
     ⟨"batteryheatsink", "n_cpb", "batteryheatsink.n_cpb", "", ""⟩,
     ⟨"batteryheatsink", "t_channel", "batteryheatsink.t_channel", "m", "m"⟩,
     ⟨"batteryheatsink", "duration", "batteryheatsink.duration", "s", "s"⟩,
     ⟨"batteryheatsink", "T_initial", "batteryheatsink.T_initial", "K", "K"⟩,
     ⟨"hx_battery", "n_wide_cold", "hx_battery.n_wide_cold", "", ""⟩,
     ⟨"hx_battery", "n_long_cold", "hx_battery.n_long_cold", "", ""⟩, ⟨"hx_battery", "n_tall", "hx_battery.n_tall", "", ""⟩,
     ⟨"hx_battery", "component_weight", "hx_battery.component_weight", "kg", "kg"⟩,
     ⟨"hx_battery", "length_overall", "hx_battery.length_overall", "m", "m"⟩,
     ⟨"hx_battery", "height_overall", "hx_battery.height_overall", "m", "m"⟩,
     ⟨"hx_battery", "width_overall", "hx_battery.width_overall", "m", "m"⟩,
     ⟨"hx_battery", "frontal_area", "hx_battery.frontal_area", "m**2", "m**2"⟩,
     ⟨"hx_battery", "xs_area_cold", "hx_battery.xs_area_cold", "m**2", "m**2"⟩,
     ⟨"hx_battery", "heat_transfer_area_cold", "hx_battery.heat_transfer_area_cold", "m**2", "m**2"⟩,
     ⟨"hx_battery", "dh_cold", "hx_battery.dh_cold", "m", "m"⟩,
     ⟨"hx_battery", "fin_area_ratio_cold", "hx_battery.fin_area_ratio_cold", "", ""⟩,
     ⟨"hx_battery", "contraction_ratio_cold", "hx_battery.contraction_ratio_cold", "", ""⟩,
     ⟨"hx_battery", "alpha_cold", "hx_battery.alpha_cold", "", ""⟩,
     ⟨"hx_battery", "delta_cold", "hx_battery.delta_cold", "", ""⟩,
     ⟨"hx_battery", "gamma_cold", "hx_battery.gamma_cold", "", ""⟩,
     ⟨"hx_battery", "xs_area_hot", "hx_battery.xs_area_hot", "m**2", "m**2"⟩,
     ⟨"hx_battery", "heat_transfer_area_hot", "hx_battery.heat_transfer_area_hot", "m**2", "m**2"⟩,
     ⟨"hx_battery", "dh_hot", "hx_battery.dh_hot", "m", "m"⟩,
     ⟨"hx_battery", "fin_area_ratio_hot", "hx_battery.fin_area_ratio_hot", "", ""⟩,
     ⟨"hx_battery", "contraction_ratio_hot", "hx_battery.contraction_ratio_hot", "", ""⟩,
     ⟨"hx_battery", "alpha_hot", "hx_battery.alpha_hot", "", ""⟩,
     ⟨"hx_battery", "delta_hot", "hx_battery.delta_hot", "", ""⟩,
     ⟨"hx_battery", "gamma_hot", "hx_battery.gamma_hot", "", ""⟩,
     ⟨"hx_battery", "Re_dh_cold", "hx_battery.Re_dh_cold", "", ""⟩,
     ⟨"hx_battery", "Re_dh_hot", "hx_battery.Re_dh_hot", "", ""⟩, ⟨"hx_battery", "j_cold", "hx_battery.j_cold", "", ""⟩,
     ⟨"hx_battery", "f_cold", "hx_battery.f_cold", "", ""⟩, ⟨"hx_battery", "j_hot", "hx_battery.j_hot", "", ""⟩,
     ⟨"hx_battery", "f_hot", "hx_battery.f_hot", "", ""⟩, ⟨"hx_battery", "Nu_dh_cold", "hx_battery.Nu_dh_cold", "", ""⟩,
     ⟨"hx_battery", "Nu_dh_hot", "hx_battery.Nu_dh_hot", "", ""⟩,
     ⟨"hx_battery", "h_conv_cold", "hx_battery.h_conv_cold", "W/m**2/K", "W/m**2/K"⟩,
     ⟨"hx_battery", "h_conv_hot", "hx_battery.h_conv_hot", "W/m**2/K", "W/m**2/K"⟩,
     ⟨"hx_battery", "eta_overall_cold", "hx_battery.eta_overall_cold", "", ""⟩,
     ⟨"hx_battery", "eta_overall_hot", "hx_battery.eta_overall_hot", "", ""⟩,
     ⟨"hx_battery", "UA_overall", "hx_battery.UA_overall", "W/K", "W/K"⟩, ⟨"hx_battery", "NTU", "hx_battery.NTU", "", ""⟩,
     ⟨"hx_battery", "heat_max", "hx_battery.heat_max", "W", "W"⟩, ⟨"hx_battery", "C_ratio", "hx_battery.C_ratio", "", ""⟩,
     ⟨"hx_battery", "effectiveness", "hx_battery.effectiveness", "", ""⟩,
     ⟨"hx_battery", "heat_transfer", "hx_battery.heat_transfer", "W", "W"⟩,
     ⟨"hx_battery", "T_out_cold", "hx_battery.T_out_cold", "K", "K"⟩,
     ⟨"hx_battery", "T_out_hot", "hx_battery.T_out_hot", "K", "K"⟩,
     ⟨"hx_battery", "delta_p_cold", "hx_battery.delta_p_cold", "Pa", "Pa"⟩,
     ⟨"hx_battery", "delta_p_hot", "hx_battery.delta_p_hot", "Pa", "Pa"⟩,
     ⟨"hx_battery", "ac|propulsion|thermal|hx|n_wide_cold", "ac|propulsion|thermal|hx|n_wide_cold", "", ""⟩,
     ⟨"hx_battery", "ac|propulsion|thermal|hx|n_long_cold", "ac|propulsion|thermal|hx|n_long_cold", "", ""⟩,
     ⟨"hx_battery", "ac|propulsion|thermal|hx|n_tall", "ac|propulsion|thermal|hx|n_tall", "", ""⟩,
     ⟨"hx_battery", "channel_width_hot", "hx_battery.channel_width_hot", "mm", "mm"⟩,
     ⟨"hx_battery", "channel_height_hot", "hx_battery.channel_height_hot", "mm", "mm"⟩,
     ⟨"hx_battery", "fin_length_hot", "hx_battery.fin_length_hot", "mm", "mm"⟩,
     ⟨"hx_battery", "channel_width_cold", "hx_battery.channel_width_cold", "mm", "mm"⟩,
     ⟨"hx_battery", "channel_height_cold", "hx_battery.channel_height_cold", "mm", "mm"⟩,
     ⟨"hx_battery", "fin_length_cold", "hx_battery.fin_length_cold", "mm", "mm"⟩,
     ⟨"hx_battery", "fin_thickness", "hx_battery.fin_thickness", "mm", "mm"⟩,
     ⟨"hx_battery", "plate_thickness", "hx_battery.plate_thickness", "mm", "mm"⟩,
     ⟨"hx_battery", "case_thickness", "hx_battery.case_thickness", "mm", "mm"⟩,
     ⟨"hx_battery", "material_rho", "hx_battery.material_rho", "kg/m**3", "kg/m**3"⟩,
     ⟨"hx_battery", "mdot_cold", "variable_duct.mdot", "kg/s", "kg/s"⟩,
     ⟨"hx_battery", "mu_cold", "hx_battery.mu_cold", "kg/m/s", "kg/m/s"⟩,
     ⟨"hx_battery", "mdot_hot", "mdot_coolant_battery", "kg/s", "kg/s"⟩,
     ⟨"hx_battery", "mu_hot", "hx_battery.mu_hot", "kg/m/s", "kg/m/s"⟩,
     ⟨"hx_battery", "k_cold", "hx_battery.k_cold", "W/m/K", "W/m/K"⟩,
     ⟨"hx_battery", "cp_cold", "hx_battery.cp_cold", "J/kg/K", "J/kg/K"⟩,
     ⟨"hx_battery", "k_hot", "hx_battery.k_hot", "W/m/K", "W/m/K"⟩,
     ⟨"hx_battery", "cp_hot", "hx_battery.cp_hot", "J/kg/K", "J/kg/K"⟩,
     ⟨"hx_battery", "material_k", "hx_battery.material_k", "W/m/K", "W/m/K"⟩,
     ⟨"hx_battery", "T_in_cold", "variable_duct.sta2.T", "K", "K"⟩, ⟨"hx_battery", "T_in_hot", "refrig.T_out_hot", "K", "K"⟩,
     ⟨"hx_battery", "rho_cold", "variable_duct.sta2.rho", "kg/m**3", "kg/m**3"⟩,
     ⟨"hx_battery", "rho_hot", "rho_coolant", "kg/m**3", "kg/m**3"⟩,
     ⟨"refrig", "control.bypass_start", "refrig.control.bypass_start", "", ""⟩,
     ⟨"refrig", "control.bypass_end", "refrig.control.bypass_end", "", ""⟩, ⟨"refrig", "bypass", "refrig.bypass", "", ""⟩,
     ⟨"refrig", "component_weight", "refrig.component_weight", "kg", "kg"⟩,
     ⟨"refrig", "hot_side.T_out", "refrig.hot_side.T_out", "K", "K"⟩,
     ⟨"refrig", "hot_side.T_average", "refrig.hot_side.T_average", "K", "K"⟩,
     ⟨"refrig", "cold_side.T_out", "refrig.cold_side.T_out", "K", "K"⟩,
     ⟨"refrig", "cold_side.T_average", "refrig.cold_side.T_average", "K", "K"⟩, ⟨"refrig", "COP", "refrig.COP", "", ""⟩,
     ⟨"refrig", "heat_pump.q_in_1", "refrig.heat_pump.q_in_1", "W", "W"⟩,
     ⟨"refrig", "heat_pump.q_in_2", "refrig.heat_pump.q_in_2", "W", "W"⟩,
     ⟨"refrig", "elec_load", "refrig.elec_load", "W", "W"⟩, ⟨"refrig", "T_out_cold", "refrig.T_out_cold", "K", "K"⟩,
     ⟨"refrig", "T_out_hot", "refrig.T_out_hot", "K", "K"⟩,
     ⟨"refrig", "power_rating", "ac|propulsion|thermal|heatpump|power_rating", "W", "W"⟩,
     ⟨"refrig", "specific_power", "heat_pump_specific_power", "W/kg", "W/kg"⟩,
     ⟨"refrig", "T_in_hot", "hx_battery.T_out_hot", "K", "K"⟩,
     ⟨"refrig", "mdot_coolant", "mdot_coolant_battery", "kg/s", "kg/s"⟩,
     ⟨"refrig", "T_in_cold", "batteryheatsink.T_out", "K", "K"⟩, ⟨"refrig", "eff_factor", "heat_pump_eff_factor", "", ""⟩,
     ⟨"variable_duct", "cp", "variable_duct.cp", "J/kg/K", "J/kg/K"⟩,
     ⟨"variable_duct", "area_1", "variable_duct.area_1", "inch**2", "inch**2"⟩,
     ⟨"variable_duct", "delta_p_1", "variable_duct.delta_p_1", "Pa", "Pa"⟩,
     ⟨"variable_duct", "heat_in_1", "variable_duct.heat_in_1", "W", "W"⟩,
     ⟨"variable_duct", "pressure_recovery_1", "variable_duct.pressure_recovery_1", "", ""⟩,
     ⟨"variable_duct", "loss_factor_1", "variable_duct.loss_factor_1", "", ""⟩,
     ⟨"variable_duct", "delta_p_2", "variable_duct.delta_p_2", "Pa", "Pa"⟩,
     ⟨"variable_duct", "heat_in_2", "variable_duct.heat_in_2", "W", "W"⟩,
     ⟨"variable_duct", "pressure_recovery_2", "variable_duct.pressure_recovery_2", "", ""⟩,
     ⟨"variable_duct", "pressure_recovery_3", "variable_duct.pressure_recovery_3", "", ""⟩,
     ⟨"variable_duct", "convergence_hack", "variable_duct.convergence_hack", "Pa", "Pa"⟩,
     ⟨"variable_duct", "area_nozzle", "variable_duct.area_nozzle", "inch**2", "inch**2"⟩,
     ⟨"variable_duct", "mdot", "variable_duct.mdot", "kg/s", "kg/s"⟩,
     ⟨"variable_duct", "inlet.a", "variable_duct.inlet.a", "m/s", "m/s"⟩,
     ⟨"variable_duct", "inlet.M", "variable_duct.inlet.M", "", ""⟩,
     ⟨"variable_duct", "inlet.Tt", "variable_duct.inlet.Tt", "K", "K"⟩,
     ⟨"variable_duct", "inlet.freestreamtotalpressure.pt", "variable_duct.inlet.freestreamtotalpressure.pt", "Pa", "Pa"⟩,
     ⟨"variable_duct", "inlet.pt", "variable_duct.inlet.pt", "Pa", "Pa"⟩,
     ⟨"variable_duct", "sta1.Tt_out", "variable_duct.sta1.Tt_out", "K", "K"⟩,
     ⟨"variable_duct", "sta1.pt_out", "variable_duct.sta1.pt_out", "Pa", "Pa"⟩,
     ⟨"variable_duct", "sta1.T", "variable_duct.sta1.T", "K", "K"⟩,
     ⟨"variable_duct", "sta1.p", "variable_duct.sta1.p", "Pa", "Pa"⟩,
     ⟨"variable_duct", "sta1.rho", "variable_duct.sta1.rho", "kg/m**3", "kg/m**3"⟩,
     ⟨"variable_duct", "sta1.a", "variable_duct.sta1.a", "m/s", "m/s"⟩,
     ⟨"variable_duct", "sta1.M", "variable_duct.sta1.M", "", ""⟩,
     ⟨"variable_duct", "sta2.Tt_out", "variable_duct.sta2.Tt_out", "K", "K"⟩,
     ⟨"variable_duct", "sta2.pt_out", "variable_duct.sta2.pt_out", "Pa", "Pa"⟩,
     ⟨"variable_duct", "sta2.T", "variable_duct.sta2.T", "K", "K"⟩,
     ⟨"variable_duct", "sta2.p", "variable_duct.sta2.p", "Pa", "Pa"⟩,
     ⟨"variable_duct", "sta2.rho", "variable_duct.sta2.rho", "kg/m**3", "kg/m**3"⟩,
     ⟨"variable_duct", "sta2.a", "variable_duct.sta2.a", "m/s", "m/s"⟩,
     ⟨"variable_duct", "sta2.M", "variable_duct.sta2.M", "", ""⟩,
     ⟨"variable_duct", "sta3.Tt_out", "variable_duct.sta3.Tt_out", "K", "K"⟩,
     ⟨"variable_duct", "sta3.pt_out", "variable_duct.sta3.pt_out", "Pa", "Pa"⟩,
     ⟨"variable_duct", "sta3.T", "variable_duct.sta3.T", "K", "K"⟩,
     ⟨"variable_duct", "sta3.p", "variable_duct.sta3.p", "Pa", "Pa"⟩,
     ⟨"variable_duct", "sta3.rho", "variable_duct.sta3.rho", "kg/m**3", "kg/m**3"⟩,
     ⟨"variable_duct", "sta3.a", "variable_duct.sta3.a", "m/s", "m/s"⟩,
     ⟨"variable_duct", "sta3.M", "variable_duct.sta3.M", "", ""⟩,
     ⟨"variable_duct", "p_exit", "variable_duct.p_exit", "Pa", "Pa"⟩,
     ⟨"variable_duct", "nozzle.pt", "variable_duct.nozzle.pt", "Pa", "Pa"⟩,
     ⟨"variable_duct", "nozzle.nozzle_pressure_ratio", "variable_duct.nozzle.nozzle_pressure_ratio", "", ""⟩,
     ⟨"variable_duct", "nozzle.M", "variable_duct.nozzle.M", "", ""⟩,
     ⟨"variable_duct", "nozzle.T", "variable_duct.nozzle.T", "K", "K"⟩,
     ⟨"variable_duct", "nozzle.p", "variable_duct.nozzle.p", "Pa", "Pa"⟩,
     ⟨"variable_duct", "nozzle.rho", "variable_duct.nozzle.rho", "kg/m**3", "kg/m**3"⟩,
     ⟨"variable_duct", "nozzle.a", "variable_duct.nozzle.a", "m/s", "m/s"⟩,
     ⟨"variable_duct", "mdot_actual", "variable_duct.mdot_actual", "kg/s", "kg/s"⟩,
     ⟨"variable_duct", "force.F_net", "variable_duct.force.F_net", "N", "N"⟩,
     ⟨"variable_duct", "area_nozzle_in", "variable_duct_nozzle_area", "inch**2", "inch**2"⟩,
     ⟨"variable_duct", "T_inf", "fltcond|T", "K", "K"⟩, ⟨"variable_duct", "Utrue", "fltcond|Utrue", "m/s", "m/s"⟩,
     ⟨"variable_duct", "p_inf", "fltcond|p", "Pa", "Pa"⟩,
     ⟨"variable_duct", "inlet.totalpressure.eta_ram", "variable_duct.inlet.totalpressure.eta_ram", "", ""⟩,
     ⟨"variable_duct", "area_2", "hx_battery.frontal_area", "m**2", "m**2"⟩,
     ⟨"variable_duct", "sta2.dynamic_pressure_loss_factor", "variable_duct.sta2.dynamic_pressure_loss_factor", "", ""⟩,
     ⟨"variable_duct", "area_3", "hx_battery.frontal_area", "m**2", "m**2"⟩,
     ⟨"variable_duct", "sta3.delta_p", "hx_battery.delta_p_cold", "Pa", "Pa"⟩,
     ⟨"variable_duct", "sta3.dynamic_pressure_loss_factor", "variable_duct.sta3.dynamic_pressure_loss_factor", "", ""⟩,
     ⟨"variable_duct", "sta3.heat_in", "hx_battery.heat_transfer", "W", "W"⟩,
     ⟨"variable_duct", "nozzle.dynamic_pressure_loss_factor", "variable_duct.nozzle.dynamic_pressure_loss_factor", "", ""⟩,
     ⟨"battery_hose", "delta_p", "battery_hose.delta_p", "Pa", "Pa"⟩,
     ⟨"battery_hose", "component_weight", "battery_hose.component_weight", "kg", "kg"⟩,
     ⟨"battery_hose", "hose_diameter", "ac|geom|thermal|hx_to_battery_diameter", "m", "m"⟩,
     ⟨"battery_hose", "hose_length", "ac|geom|thermal|hx_to_battery_length", "m", "m"⟩,
     ⟨"battery_hose", "hose_design_pressure", "battery_hose.hose_design_pressure", "Pa", "Pa"⟩,
     ⟨"battery_hose", "mdot_coolant", "mdot_coolant_battery", "kg/s", "kg/s"⟩,
     ⟨"battery_hose", "rho_coolant", "rho_coolant", "kg/m**3", "kg/m**3"⟩,
     ⟨"battery_hose", "mu_coolant", "battery_hose.mu_coolant", "kg/m/s", "kg/m/s"⟩,
     ⟨"battery_coolant_pump", "elec_load", "battery_coolant_pump.elec_load", "W", "W"⟩,
     ⟨"battery_coolant_pump", "component_weight", "battery_coolant_pump.component_weight", "kg", "kg"⟩,
     ⟨"battery_coolant_pump", "component_sizing_margin", "battery_coolant_pump.component_sizing_margin", "", ""⟩,
     ⟨"battery_coolant_pump", "power_rating", "ac|propulsion|thermal|hx|pump_power_rating", "W", "W"⟩,
     ⟨"battery_coolant_pump", "mdot_coolant", "mdot_coolant_battery", "kg/s", "kg/s"⟩,
     ⟨"battery_coolant_pump", "delta_p", "pressure_drop_battery_loop", "Pa", "Pa"⟩,
     ⟨"battery_coolant_pump", "rho_coolant", "rho_coolant", "kg/m**3", "kg/m**3"⟩,
     ⟨"add5", "pressure_drop_battery_loop", "pressure_drop_battery_loop", "Pa", "Pa"⟩,
     ⟨"add5", "_temp0", "battery_hose.delta_p", "Pa", "Pa"⟩, ⟨"add5", "_temp1", "hx_battery.delta_p_hot", "Pa", "Pa"⟩,
     ⟨"add6", "OEW", "OEW", "kg", "kg"⟩, ⟨"add6", "_temp0", "refrig.component_weight", "kg", "kg"⟩,
     ⟨"add6", "_temp1", "hx_motor.component_weight", "kg", "kg"⟩,
     ⟨"add6", "_temp2", "hx_battery.component_weight", "kg", "kg"⟩,
     ⟨"add6", "_temp3", "battery_hose.component_weight", "kg", "kg"⟩,
     ⟨"add6", "_temp4", "battery_coolant_pump.component_weight", "kg", "kg"⟩,
     ⟨"add6", "_temp5", "motor_hose.component_weight", "kg", "kg"⟩,
     ⟨"add6", "_temp6", "motor_coolant_pump.component_weight", "kg", "kg"⟩,
     ⟨"add6", "_temp7", "hx_fault_prot.component_weight", "kg", "kg"⟩,
     ⟨"add6", "_temp8", "hybrid_motor.component_weight", "kg", "kg"⟩, ⟨"add6", "_temp9", "ac|weights|OEW", "kg", "kg"⟩,
     ⟨"weight", "weight", "weight", "kg", "kg"⟩, ⟨"weight", "ac|design_mission|TOW", "ac|design_mission|TOW", "kg", "kg"⟩,
     ⟨"weight", "fuel_used", "fuel_used", "kg", "kg"⟩, ⟨"add7", "margin", "margin", "kg", "kg"⟩,
     ⟨"add7", "_temp0", "ac|design_mission|TOW", "kg", "kg"⟩, ⟨"add7", "_temp1", "OEW", "kg", "kg"⟩,
     ⟨"add7", "_temp2", "fuel_used_final", "kg", "kg"⟩, ⟨"add7", "_temp3", "ac|propulsion|battery|weight", "kg", "kg"⟩] ∧
    (["ac|design_mission|TOW"].all fun n => ((n3Grp cd0).ins ++ (n3Grp cd0).outs).any fun v =>
      @decide (v.name = n) (fastString _ _) && !v.vec) = true := by
  simp only [List.mem_cons, List.not_mem_nil, or_false] at h
  rcases h with rfl | rfl <;> kdecide

set_option maxHeartbeats 2000000 in
/-- no variable of a subsystem is listed twice -/
theorem n3Grp_nodup (cd0 : String) (h : cd0 ∈ ["ac|aero|polar|CD0_TO", "ac|aero|polar|CD0_cruise"]) :
    ((n3Grp cd0).links.map fun k => (k.sub, k.var)).Nodup := by
  rw [(n3Grp_eval cd0 h).1]
  exact tree_nodup (by simp only [List.map_cons, List.map_nil]; decide +kernel)

end Verif.Wiring
