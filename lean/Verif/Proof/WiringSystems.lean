import Verif.Model.WiringSystems
import Verif.Proof.Wiring

/-! Where the variables of the subsystems are found, for the groups of `Model/WiringSystems.lean`. -/

namespace Verif.Wiring

theorem atmosphere_true_links : (atmosphere true).links =
    [⟨"temp", "fltcond|T", "fltcond|T", "K", "K"⟩, ⟨"temp", "fltcond|h", "fltcond|h", "m", "m"⟩,
     ⟨"temp", "fltcond|TempIncrement", "fltcond|TempIncrement", "degC", "degC"⟩,
     ⟨"pressure", "fltcond|p", "fltcond|p", "Pa", "Pa"⟩, ⟨"pressure", "fltcond|h", "fltcond|h", "m", "m"⟩,
     ⟨"density", "fltcond|rho", "fltcond|rho", "kg / m**3", "kg / m**3"⟩, ⟨"density", "fltcond|p", "fltcond|p", "Pa", "Pa"⟩,
     ⟨"density", "fltcond|T", "fltcond|T", "K", "K"⟩, ⟨"speedofsound", "fltcond|a", "fltcond|a", "m/s", "m/s"⟩,
     ⟨"speedofsound", "fltcond|T", "fltcond|T", "K", "K"⟩, ⟨"equivair", "fltcond|Ueas", "fltcond|Ueas", "m / s", "m / s"⟩,
     ⟨"equivair", "fltcond|rho", "fltcond|rho", "kg / m**3", "kg * m**-3"⟩,
     ⟨"equivair", "fltcond|Utrue", "fltcond|Utrue", "m / s", "m / s"⟩,
     ⟨"dynamicpressure", "fltcond|q", "fltcond|q", "N * m**-2", "N * m**-2"⟩,
     ⟨"dynamicpressure", "fltcond|Utrue", "fltcond|Utrue", "m / s", "m/s"⟩,
     ⟨"dynamicpressure", "fltcond|rho", "fltcond|rho", "kg / m**3", "kg * m**-3"⟩,
     ⟨"machnumber", "fltcond|M", "fltcond|M", "", ""⟩, ⟨"machnumber", "fltcond|a", "fltcond|a", "m/s", "m / s"⟩,
     ⟨"machnumber", "fltcond|Utrue", "fltcond|Utrue", "m / s", "m /s"⟩] := by
  decide +kernel

theorem atmosphere_false_links : (atmosphere false).links =
    [⟨"temp", "fltcond|T", "fltcond|T", "K", "K"⟩, ⟨"temp", "fltcond|h", "fltcond|h", "m", "m"⟩,
     ⟨"temp", "fltcond|TempIncrement", "fltcond|TempIncrement", "degC", "degC"⟩,
     ⟨"pressure", "fltcond|p", "fltcond|p", "Pa", "Pa"⟩, ⟨"pressure", "fltcond|h", "fltcond|h", "m", "m"⟩,
     ⟨"density", "fltcond|rho", "fltcond|rho", "kg / m**3", "kg / m**3"⟩, ⟨"density", "fltcond|p", "fltcond|p", "Pa", "Pa"⟩,
     ⟨"density", "fltcond|T", "fltcond|T", "K", "K"⟩, ⟨"speedofsound", "fltcond|a", "fltcond|a", "m/s", "m/s"⟩,
     ⟨"speedofsound", "fltcond|T", "fltcond|T", "K", "K"⟩, ⟨"trueair", "fltcond|Utrue", "fltcond|Utrue", "m / s", "m / s"⟩,
     ⟨"trueair", "fltcond|Ueas", "fltcond|Ueas", "m / s", "m / s"⟩,
     ⟨"trueair", "fltcond|rho", "fltcond|rho", "kg / m**3", "kg * m**-3"⟩,
     ⟨"dynamicpressure", "fltcond|q", "fltcond|q", "N * m**-2", "N * m**-2"⟩,
     ⟨"dynamicpressure", "fltcond|Utrue", "fltcond|Utrue", "m / s", "m/s"⟩,
     ⟨"dynamicpressure", "fltcond|rho", "fltcond|rho", "kg / m**3", "kg * m**-3"⟩,
     ⟨"machnumber", "fltcond|M", "fltcond|M", "", ""⟩, ⟨"machnumber", "fltcond|a", "fltcond|a", "m/s", "m / s"⟩,
     ⟨"machnumber", "fltcond|Utrue", "fltcond|Utrue", "m / s", "m /s"⟩] := by
  decide +kernel

theorem propeller_links : propeller.links =
    [⟨"propcalcs", "cp", "cp", "", ""⟩, ⟨"propcalcs", "J", "J", "", ""⟩, ⟨"propcalcs", "prop_Vtip", "prop_Vtip", "", ""⟩,
     ⟨"propcalcs", "shaft_power_in", "shaft_power_in", "W", "W"⟩, ⟨"propcalcs", "diameter", "diameter", "m", "m"⟩,
     ⟨"propcalcs", "rpm", "rpm", "rpm", "rpm"⟩, ⟨"propcalcs", "fltcond|rho", "fltcond|rho", "kg / m ** 3", "kg / m ** 3"⟩,
     ⟨"propcalcs", "fltcond|Utrue", "fltcond|Utrue", "m/s", "m/s"⟩, ⟨"propmap", "eta_prop", "eta_prop", "", ""⟩,
     ⟨"propmap", "cp", "cp", "", ""⟩, ⟨"propmap", "J", "J", "", ""⟩, ⟨"staticpropmap", "ct_over_cp", "ct_over_cp", "", ""⟩,
     ⟨"staticpropmap", "cp", "cp", "", ""⟩, ⟨"thrustcalc", "thrust", "thrust", "N", "N"⟩, ⟨"thrustcalc", "cp", "cp", "", ""⟩,
     ⟨"thrustcalc", "eta_prop", "eta_prop", "", ""⟩, ⟨"thrustcalc", "J", "J", "", ""⟩,
     ⟨"thrustcalc", "fltcond|rho", "fltcond|rho", "kg / m ** 3", "kg / m ** 3"⟩, ⟨"thrustcalc", "rpm", "rpm", "rpm", "rpm"⟩,
     ⟨"thrustcalc", "diameter", "diameter", "m", "m"⟩, ⟨"thrustcalc", "ct_over_cp", "ct_over_cp", "", ""⟩,
     ⟨"propweights", "component_weight", "component_weight", "lb", "lb"⟩,
     ⟨"propweights", "power_rating", "power_rating", "hp", "hp"⟩, ⟨"propweights", "diameter", "diameter", "m", "ft"⟩] := by
  decide +kernel

theorem turboprop_links : turboprop.links =
    [⟨"dvs", "eng1_rating", "eng1_rating", "hp", "hp"⟩, ⟨"dvs", "prop1_diameter", "prop1_diameter", "m", "m"⟩,
     ⟨"dvs", "ac|propulsion|engine|rating", "ac|propulsion|engine|rating", "hp", "hp"⟩,
     ⟨"dvs", "ac|propulsion|propeller|diameter", "ac|propulsion|propeller|diameter", "m", "m"⟩,
     ⟨"eng1", "shaft_power_out", "eng1.shaft_power_out", "W", "W"⟩, ⟨"eng1", "fuel_flow", "fuel_flow", "kg/s", "kg/s"⟩,
     ⟨"eng1", "component_cost", "eng1.component_cost", "USD", "USD"⟩,
     ⟨"eng1", "component_weight", "eng1.component_weight", "kg", "kg"⟩,
     ⟨"eng1", "component_sizing_margin", "eng1.component_sizing_margin", "", ""⟩, ⟨"eng1", "throttle", "throttle", "", ""⟩,
     ⟨"eng1", "shaft_power_rating", "ac|propulsion|engine|rating", "hp", "W"⟩, ⟨"prop1", "cp", "prop1.cp", "", ""⟩,
     ⟨"prop1", "J", "prop1.J", "", ""⟩, ⟨"prop1", "prop_Vtip", "prop1.prop_Vtip", "", ""⟩,
     ⟨"prop1", "eta_prop", "prop1.eta_prop", "", ""⟩, ⟨"prop1", "ct_over_cp", "prop1.ct_over_cp", "", ""⟩,
     ⟨"prop1", "thrust", "thrust", "N", "N"⟩, ⟨"prop1", "component_weight", "prop1.component_weight", "lb", "lb"⟩,
     ⟨"prop1", "shaft_power_in", "eng1.shaft_power_out", "W", "W"⟩,
     ⟨"prop1", "diameter", "ac|propulsion|propeller|diameter", "m", "m"⟩, ⟨"prop1", "rpm", "prop1.rpm", "rpm", "rpm"⟩,
     ⟨"prop1", "fltcond|rho", "fltcond|rho", "kg / m ** 3", "kg / m ** 3"⟩,
     ⟨"prop1", "fltcond|Utrue", "fltcond|Utrue", "m/s", "m/s"⟩,
     ⟨"prop1", "power_rating", "ac|propulsion|engine|rating", "hp", "hp"⟩] := by
  decide +kernel

theorem twinTurboprop_links : twinTurboprop.links =
    [⟨"eng1", "shaft_power_out", "eng1.shaft_power_out", "W", "W"⟩, ⟨"eng1", "fuel_flow", "eng1.fuel_flow", "kg/s", "kg/s"⟩,
     ⟨"eng1", "component_cost", "eng1.component_cost", "USD", "USD"⟩,
     ⟨"eng1", "component_weight", "eng1.component_weight", "kg", "kg"⟩,
     ⟨"eng1", "component_sizing_margin", "eng1.component_sizing_margin", "", ""⟩, ⟨"eng1", "throttle", "throttle", "", ""⟩,
     ⟨"eng1", "shaft_power_rating", "ac|propulsion|engine|rating", "hp", "W"⟩, ⟨"prop1", "cp", "prop1.cp", "", ""⟩,
     ⟨"prop1", "J", "prop1.J", "", ""⟩, ⟨"prop1", "prop_Vtip", "prop1.prop_Vtip", "", ""⟩,
     ⟨"prop1", "eta_prop", "prop1.eta_prop", "", ""⟩, ⟨"prop1", "ct_over_cp", "prop1.ct_over_cp", "", ""⟩,
     ⟨"prop1", "thrust", "prop1.thrust", "N", "N"⟩, ⟨"prop1", "component_weight", "prop1.component_weight", "lb", "lb"⟩,
     ⟨"prop1", "shaft_power_in", "eng1.shaft_power_out", "W", "W"⟩,
     ⟨"prop1", "diameter", "ac|propulsion|propeller|diameter", "m", "m"⟩, ⟨"prop1", "rpm", "prop1.rpm", "rpm", "rpm"⟩,
     ⟨"prop1", "fltcond|rho", "fltcond|rho", "kg / m ** 3", "kg / m ** 3"⟩,
     ⟨"prop1", "fltcond|Utrue", "fltcond|Utrue", "m/s", "m/s"⟩,
     ⟨"prop1", "power_rating", "ac|propulsion|engine|rating", "hp", "hp"⟩,
     ⟨"eng2", "shaft_power_out", "eng2.shaft_power_out", "W", "W"⟩, ⟨"eng2", "fuel_flow", "eng2.fuel_flow", "kg/s", "kg/s"⟩,
     ⟨"eng2", "component_cost", "eng2.component_cost", "USD", "USD"⟩,
     ⟨"eng2", "component_weight", "eng2.component_weight", "kg", "kg"⟩,
     ⟨"eng2", "component_sizing_margin", "eng2.component_sizing_margin", "", ""⟩,
     ⟨"eng2", "throttle", "failedengine.eng2throttle", "", ""⟩,
     ⟨"eng2", "shaft_power_rating", "ac|propulsion|engine|rating", "hp", "W"⟩, ⟨"prop2", "cp", "prop2.cp", "", ""⟩,
     ⟨"prop2", "J", "prop2.J", "", ""⟩, ⟨"prop2", "prop_Vtip", "prop2.prop_Vtip", "", ""⟩,
     ⟨"prop2", "eta_prop", "prop2.eta_prop", "", ""⟩, ⟨"prop2", "ct_over_cp", "prop2.ct_over_cp", "", ""⟩,
     ⟨"prop2", "thrust", "prop2.thrust", "N", "N"⟩, ⟨"prop2", "component_weight", "prop2.component_weight", "lb", "lb"⟩,
     ⟨"prop2", "shaft_power_in", "eng2.shaft_power_out", "W", "W"⟩,
     ⟨"prop2", "diameter", "ac|propulsion|propeller|diameter", "m", "m"⟩, ⟨"prop2", "rpm", "prop2.rpm", "rpm", "rpm"⟩,
     ⟨"prop2", "fltcond|rho", "fltcond|rho", "kg / m ** 3", "kg / m ** 3"⟩,
     ⟨"prop2", "fltcond|Utrue", "fltcond|Utrue", "m/s", "m/s"⟩,
     ⟨"prop2", "power_rating", "ac|propulsion|engine|rating", "hp", "hp"⟩,
     ⟨"failedengine", "eng2throttle", "failedengine.eng2throttle", "", ""⟩, ⟨"failedengine", "throttle", "throttle", "", ""⟩,
     ⟨"failedengine", "propulsor_active", "propulsor_active", "", ""⟩, ⟨"adder", "fuel_flow", "fuel_flow", "kg/s", "kg/s"⟩,
     ⟨"adder", "thrust", "thrust", "N", "N"⟩, ⟨"adder", "engines_weight", "engines_weight", "kg", "kg"⟩,
     ⟨"adder", "propellers_weight", "propellers_weight", "kg", "kg"⟩,
     ⟨"adder", "eng1_fuel_flow", "eng1.fuel_flow", "kg/s", "kg/s"⟩,
     ⟨"adder", "eng2_fuel_flow", "eng2.fuel_flow", "kg/s", "kg/s"⟩, ⟨"adder", "prop1_thrust", "prop1.thrust", "N", "N"⟩,
     ⟨"adder", "prop2_thrust", "prop2.thrust", "N", "N"⟩, ⟨"adder", "eng1_weight", "eng1.component_weight", "kg", "kg"⟩,
     ⟨"adder", "eng2_weight", "eng2.component_weight", "kg", "kg"⟩,
     ⟨"adder", "prop1_weight", "prop1.component_weight", "lb", "kg"⟩,
     ⟨"adder", "prop2_weight", "prop2.component_weight", "lb", "kg"⟩] := by
  decide +kernel

theorem socBattery97_links : socBattery97.links =
    [⟨"batt_base", "heat_out", "heat_out", "W", "W"⟩, ⟨"batt_base", "component_cost", "component_cost", "USD", "USD"⟩,
     ⟨"batt_base", "component_sizing_margin", "component_sizing_margin", "", ""⟩,
     ⟨"batt_base", "max_energy", "max_energy", "W*h", "W*h"⟩, ⟨"batt_base", "battery_weight", "battery_weight", "kg", "kg"⟩,
     ⟨"batt_base", "elec_load", "elec_load", "W", "W"⟩,
     ⟨"batt_base", "specific_energy", "specific_energy", "W * h / kg", "W * h / kg"⟩,
     ⟨"divider", "dSOCdt", "dSOCdt", "W / (kJ) ", "W / (kJ) "⟩, ⟨"divider", "elec_load", "elec_load", "W", "W"⟩,
     ⟨"divider", "max_energy", "max_energy", "W*h", "kJ"⟩, ⟨"ode_integ", "SOC_final", "SOC_final", "", ""⟩,
     ⟨"ode_integ", "SOC", "SOC", "", ""⟩, ⟨"ode_integ", "duration", "duration", "s", "s"⟩,
     ⟨"ode_integ", "dSOCdt", "dSOCdt", "W / (kJ) ", "(s)** -1"⟩, ⟨"ode_integ", "SOC_initial", "SOC_initial", "", ""⟩] := by
  decide +kernel

theorem twinHybrid_links : twinHybrid.links =
    [⟨"dvs", "eng_rating", "eng_rating", "kW", "kW"⟩, ⟨"dvs", "prop_diameter", "prop_diameter", "m", "m"⟩,
     ⟨"dvs", "motor_rating", "motor_rating", "kW", "kW"⟩, ⟨"dvs", "gen_rating", "gen_rating", "kW", "kW"⟩,
     ⟨"dvs", "batt_weight", "batt_weight", "kg", "kg"⟩, ⟨"dvs", "specific_energy", "specific_energy", "W*h/kg", "W*h/kg"⟩,
     ⟨"dvs", "ac|propulsion|engine|rating", "ac|propulsion|engine|rating", "kW", "kW"⟩,
     ⟨"dvs", "ac|propulsion|propeller|diameter", "ac|propulsion|propeller|diameter", "m", "m"⟩,
     ⟨"dvs", "ac|propulsion|motor|rating", "ac|propulsion|motor|rating", "kW", "kW"⟩,
     ⟨"dvs", "ac|propulsion|generator|rating", "ac|propulsion|generator|rating", "kW", "kW"⟩,
     ⟨"dvs", "ac|weights|W_battery", "ac|weights|W_battery", "kg", "kg"⟩,
     ⟨"dvs", "ac|propulsion|battery|specific_energy", "ac|propulsion|battery|specific_energy", "W*h/kg", "W*h/kg"⟩,
     ⟨"motor1", "shaft_power_out", "motor1.shaft_power_out", "W", "W"⟩, ⟨"motor1", "heat_out", "motor1.heat_out", "W", "W"⟩,
     ⟨"motor1", "elec_load", "motor1.elec_load", "W", "W"⟩,
     ⟨"motor1", "component_cost", "motor1.component_cost", "USD", "USD"⟩,
     ⟨"motor1", "component_weight", "motor1.component_weight", "kg", "kg"⟩,
     ⟨"motor1", "component_sizing_margin", "motor1.component_sizing_margin", "", ""⟩,
     ⟨"motor1", "throttle", "throttle", "", ""⟩, ⟨"motor1", "elec_power_rating", "motor_rating", "kW", "W"⟩,
     ⟨"prop1", "cp", "prop1.cp", "", ""⟩, ⟨"prop1", "J", "prop1.J", "", ""⟩,
     ⟨"prop1", "prop_Vtip", "prop1.prop_Vtip", "", ""⟩, ⟨"prop1", "eta_prop", "prop1.eta_prop", "", ""⟩,
     ⟨"prop1", "ct_over_cp", "prop1.ct_over_cp", "", ""⟩, ⟨"prop1", "thrust", "prop1.thrust", "N", "N"⟩,
     ⟨"prop1", "component_weight", "prop1.component_weight", "lb", "lb"⟩,
     ⟨"prop1", "shaft_power_in", "motor1.shaft_power_out", "W", "W"⟩, ⟨"prop1", "diameter", "prop_diameter", "m", "m"⟩,
     ⟨"prop1", "rpm", "prop1.rpm", "rpm", "rpm"⟩, ⟨"prop1", "fltcond|rho", "fltcond|rho", "kg / m ** 3", "kg / m ** 3"⟩,
     ⟨"prop1", "fltcond|Utrue", "fltcond|Utrue", "m/s", "m/s"⟩, ⟨"prop1", "power_rating", "motor_rating", "kW", "hp"⟩,
     ⟨"failedmotor", "motor2throttle", "failedmotor.motor2throttle", "", ""⟩,
     ⟨"failedmotor", "throttle", "throttle", "", ""⟩, ⟨"failedmotor", "propulsor_active", "propulsor_active", "", ""⟩,
     ⟨"motor2", "shaft_power_out", "motor2.shaft_power_out", "W", "W"⟩, ⟨"motor2", "heat_out", "motor2.heat_out", "W", "W"⟩,
     ⟨"motor2", "elec_load", "motor2.elec_load", "W", "W"⟩,
     ⟨"motor2", "component_cost", "motor2.component_cost", "USD", "USD"⟩,
     ⟨"motor2", "component_weight", "motor2.component_weight", "kg", "kg"⟩,
     ⟨"motor2", "component_sizing_margin", "motor2.component_sizing_margin", "", ""⟩,
     ⟨"motor2", "throttle", "failedmotor.motor2throttle", "", ""⟩,
     ⟨"motor2", "elec_power_rating", "motor_rating", "kW", "W"⟩, ⟨"prop2", "cp", "prop2.cp", "", ""⟩,
     ⟨"prop2", "J", "prop2.J", "", ""⟩, ⟨"prop2", "prop_Vtip", "prop2.prop_Vtip", "", ""⟩,
     ⟨"prop2", "eta_prop", "prop2.eta_prop", "", ""⟩, ⟨"prop2", "ct_over_cp", "prop2.ct_over_cp", "", ""⟩,
     ⟨"prop2", "thrust", "prop2.thrust", "N", "N"⟩, ⟨"prop2", "component_weight", "prop2.component_weight", "lb", "lb"⟩,
     ⟨"prop2", "shaft_power_in", "motor2.shaft_power_out", "W", "W"⟩, ⟨"prop2", "diameter", "prop_diameter", "m", "m"⟩,
     ⟨"prop2", "rpm", "prop2.rpm", "rpm", "rpm"⟩, ⟨"prop2", "fltcond|rho", "fltcond|rho", "kg / m ** 3", "kg / m ** 3"⟩,
     ⟨"prop2", "fltcond|Utrue", "fltcond|Utrue", "m/s", "m/s"⟩, ⟨"prop2", "power_rating", "motor_rating", "kW", "hp"⟩,
     ⟨"add_power", "motors_elec_load", "motors_elec_load", "kW", "kW"⟩, ⟨"add_power", "thrust", "thrust", "N", "N"⟩,
     ⟨"add_power", "motor1_elec_load", "motor1.elec_load", "W", "kW"⟩,
     ⟨"add_power", "motor2_elec_load", "motor2.elec_load", "W", "kW"⟩,
     ⟨"add_power", "prop1_thrust", "prop1.thrust", "N", "N"⟩, ⟨"add_power", "prop2_thrust", "prop2.thrust", "N", "N"⟩,
     ⟨"hybrid_split", "power_out_A", "hybrid_split.power_out_A", "W", "W"⟩,
     ⟨"hybrid_split", "power_out_B", "hybrid_split.power_out_B", "W", "W"⟩,
     ⟨"hybrid_split", "heat_out", "hybrid_split.heat_out", "W", "W"⟩,
     ⟨"hybrid_split", "component_cost", "hybrid_split.component_cost", "USD", "USD"⟩,
     ⟨"hybrid_split", "component_weight", "hybrid_split.component_weight", "kg", "kg"⟩,
     ⟨"hybrid_split", "component_sizing_margin", "hybrid_split.component_sizing_margin", "", ""⟩,
     ⟨"hybrid_split", "power_in", "motors_elec_load", "kW", "W"⟩,
     ⟨"hybrid_split", "power_rating", "hybrid_split.power_rating", "W", "W"⟩,
     ⟨"hybrid_split", "power_split_fraction", "hybrid_split.power_split_fraction", "", ""⟩,
     ⟨"eng1", "shaft_power_out", "eng1.shaft_power_out", "W", "W"⟩, ⟨"eng1", "fuel_flow", "fuel_flow", "kg/s", "kg/s"⟩,
     ⟨"eng1", "component_cost", "eng1.component_cost", "USD", "USD"⟩,
     ⟨"eng1", "component_weight", "eng1.component_weight", "kg", "kg"⟩,
     ⟨"eng1", "component_sizing_margin", "eng1.component_sizing_margin", "", ""⟩,
     ⟨"eng1", "throttle", "eng_throttle_set.eng_throttle", "", ""⟩, ⟨"eng1", "shaft_power_rating", "eng_rating", "kW", "W"⟩,
     ⟨"gen1", "elec_power_out", "gen1.elec_power_out", "W", "W"⟩, ⟨"gen1", "heat_out", "gen1.heat_out", "W", "W"⟩,
     ⟨"gen1", "component_cost", "gen1.component_cost", "USD", "USD"⟩,
     ⟨"gen1", "component_weight", "gen1.component_weight", "kg", "kg"⟩,
     ⟨"gen1", "component_sizing_margin", "gen1.component_sizing_margin", "", ""⟩,
     ⟨"gen1", "shaft_power_in", "eng1.shaft_power_out", "W", "W"⟩, ⟨"gen1", "elec_power_rating", "gen_rating", "kW", "W"⟩,
     ⟨"batt1", "heat_out", "batt1.heat_out", "W", "W"⟩, ⟨"batt1", "component_cost", "batt1.component_cost", "USD", "USD"⟩,
     ⟨"batt1", "component_sizing_margin", "batt1.component_sizing_margin", "", ""⟩,
     ⟨"batt1", "max_energy", "batt1.max_energy", "W*h", "W*h"⟩,
     ⟨"batt1", "dSOCdt", "batt1.dSOCdt", "W / (kJ) ", "W / (kJ) "⟩, ⟨"batt1", "SOC_final", "batt1.SOC_final", "", ""⟩,
     ⟨"batt1", "SOC", "batt1.SOC", "", ""⟩, ⟨"batt1", "battery_weight", "batt_weight", "kg", "kg"⟩,
     ⟨"batt1", "elec_load", "hybrid_split.power_out_A", "W", "W"⟩,
     ⟨"batt1", "specific_energy", "specific_energy", "W*h/kg", "W * h / kg"⟩, ⟨"batt1", "duration", "duration", "s", "s"⟩,
     ⟨"batt1", "SOC_initial", "batt1.SOC_initial", "", ""⟩,
     ⟨"eng_throttle_set", "eng_throttle", "eng_throttle_set.eng_throttle", "", ""⟩,
     ⟨"eng_throttle_set", "gen_power_available", "gen1.elec_power_out", "W", "kW"⟩,
     ⟨"eng_throttle_set", "gen_power_required", "hybrid_split.power_out_B", "W", "kW"⟩,
     ⟨"relabel", "battery_load", "battery_load", "kW", "kW"⟩,
     ⟨"relabel", "hybrid_split_A_in", "hybrid_split.power_out_A", "W", "kW"⟩,
     ⟨"add_weights", "motors_weight", "motors_weight", "kg", "kg"⟩,
     ⟨"add_weights", "propellers_weight", "propellers_weight", "kg", "kg"⟩,
     ⟨"add_weights", "motor1_weight", "motor1.component_weight", "kg", "kg"⟩,
     ⟨"add_weights", "motor2_weight", "motor2.component_weight", "kg", "kg"⟩,
     ⟨"add_weights", "prop1_weight", "prop1.component_weight", "lb", "kg"⟩,
     ⟨"add_weights", "prop2_weight", "prop2.component_weight", "lb", "kg"⟩] := by
  decide +kernel

theorem seriesHybrid_links : seriesHybrid.links =
    [⟨"dvs", "eng1_rating", "eng1_rating", "kW", "kW"⟩, ⟨"dvs", "prop1_diameter", "prop1_diameter", "m", "m"⟩,
     ⟨"dvs", "motor1_rating", "motor1_rating", "kW", "kW"⟩, ⟨"dvs", "gen1_rating", "gen1_rating", "kW", "kW"⟩,
     ⟨"dvs", "batt1_weight", "batt1_weight", "kg", "kg"⟩,
     ⟨"dvs", "ac|propulsion|engine|rating", "ac|propulsion|engine|rating", "kW", "kW"⟩,
     ⟨"dvs", "dv_prop1_diameter", "dv_prop1_diameter", "m", "m"⟩,
     ⟨"dvs", "dv_motor1_rating", "dv_motor1_rating", "kW", "kW"⟩, ⟨"dvs", "dv_gen1_rating", "dv_gen1_rating", "kW", "kW"⟩,
     ⟨"dvs", "dv_batt1_weight", "dv_batt1_weight", "kg", "kg"⟩,
     ⟨"motor1", "shaft_power_out", "motor1.shaft_power_out", "W", "W"⟩, ⟨"motor1", "heat_out", "motor1.heat_out", "W", "W"⟩,
     ⟨"motor1", "elec_load", "motor1.elec_load", "W", "W"⟩,
     ⟨"motor1", "component_cost", "motor1.component_cost", "USD", "USD"⟩,
     ⟨"motor1", "component_weight", "motor1.component_weight", "kg", "kg"⟩,
     ⟨"motor1", "component_sizing_margin", "motor1.component_sizing_margin", "", ""⟩,
     ⟨"motor1", "throttle", "throttle", "", ""⟩, ⟨"motor1", "elec_power_rating", "motor1_rating", "kW", "W"⟩,
     ⟨"hybrid_split", "power_out_A", "hybrid_split.power_out_A", "W", "W"⟩,
     ⟨"hybrid_split", "power_out_B", "hybrid_split.power_out_B", "W", "W"⟩,
     ⟨"hybrid_split", "heat_out", "hybrid_split.heat_out", "W", "W"⟩,
     ⟨"hybrid_split", "component_cost", "hybrid_split.component_cost", "USD", "USD"⟩,
     ⟨"hybrid_split", "component_weight", "hybrid_split.component_weight", "kg", "kg"⟩,
     ⟨"hybrid_split", "component_sizing_margin", "hybrid_split.component_sizing_margin", "", ""⟩,
     ⟨"hybrid_split", "power_in", "motor1.elec_load", "W", "W"⟩,
     ⟨"hybrid_split", "power_rating", "hybrid_split.power_rating", "W", "W"⟩,
     ⟨"hybrid_split", "power_split_fraction", "hybrid_split.power_split_fraction", "", ""⟩,
     ⟨"gen1", "elec_power_out", "gen1.elec_power_out", "W", "W"⟩, ⟨"gen1", "heat_out", "gen1.heat_out", "W", "W"⟩,
     ⟨"gen1", "component_cost", "gen1.component_cost", "USD", "USD"⟩,
     ⟨"gen1", "component_weight", "gen1.component_weight", "kg", "kg"⟩,
     ⟨"gen1", "component_sizing_margin", "gen1.component_sizing_margin", "", ""⟩,
     ⟨"gen1", "shaft_power_in", "eng1.shaft_power_out", "W", "W"⟩, ⟨"gen1", "elec_power_rating", "gen1_rating", "kW", "W"⟩,
     ⟨"eng1", "shaft_power_out", "eng1.shaft_power_out", "W", "W"⟩, ⟨"eng1", "fuel_flow", "fuel_flow", "kg/s", "kg/s"⟩,
     ⟨"eng1", "component_cost", "eng1.component_cost", "USD", "USD"⟩,
     ⟨"eng1", "component_weight", "eng1.component_weight", "kg", "kg"⟩,
     ⟨"eng1", "component_sizing_margin", "eng1.component_sizing_margin", "", ""⟩,
     ⟨"eng1", "throttle", "eng1.throttle", "", ""⟩, ⟨"eng1", "shaft_power_rating", "eng1_rating", "kW", "W"⟩,
     ⟨"batt1", "heat_out", "batt1.heat_out", "W", "W"⟩, ⟨"batt1", "component_cost", "batt1.component_cost", "USD", "USD"⟩,
     ⟨"batt1", "component_sizing_margin", "batt1.component_sizing_margin", "", ""⟩,
     ⟨"batt1", "max_energy", "batt1.max_energy", "W*h", "W*h"⟩, ⟨"batt1", "battery_weight", "batt1_weight", "kg", "kg"⟩,
     ⟨"batt1", "elec_load", "hybrid_split.power_out_A", "W", "W"⟩,
     ⟨"batt1", "specific_energy", "batt1.specific_energy", "W * h / kg", "W * h / kg"⟩, ⟨"prop1", "cp", "prop1.cp", "", ""⟩,
     ⟨"prop1", "J", "prop1.J", "", ""⟩, ⟨"prop1", "prop_Vtip", "prop1.prop_Vtip", "", ""⟩,
     ⟨"prop1", "eta_prop", "prop1.eta_prop", "", ""⟩, ⟨"prop1", "ct_over_cp", "prop1.ct_over_cp", "", ""⟩,
     ⟨"prop1", "thrust", "thrust", "N", "N"⟩, ⟨"prop1", "component_weight", "prop1.component_weight", "lb", "lb"⟩,
     ⟨"prop1", "shaft_power_in", "motor1.shaft_power_out", "W", "W"⟩, ⟨"prop1", "diameter", "prop1_diameter", "m", "m"⟩,
     ⟨"prop1", "rpm", "prop1.rpm", "rpm", "rpm"⟩,
     ⟨"prop1", "fltcond|rho", "prop1.fltcond|rho", "kg / m ** 3", "kg / m ** 3"⟩,
     ⟨"prop1", "fltcond|Utrue", "prop1.fltcond|Utrue", "m/s", "m/s"⟩, ⟨"prop1", "power_rating", "motor1_rating", "kW", "hp"⟩] := by
  decide +kernel

theorem singleHybrid_links : singleHybrid.links =
    [⟨"dvs", "eng_rating", "eng_rating", "kW", "kW"⟩, ⟨"dvs", "prop_diameter", "prop_diameter", "m", "m"⟩,
     ⟨"dvs", "motor_rating", "motor_rating", "kW", "kW"⟩, ⟨"dvs", "gen_rating", "gen_rating", "kW", "kW"⟩,
     ⟨"dvs", "batt_weight", "batt_weight", "kg", "kg"⟩,
     ⟨"dvs", "ac|propulsion|engine|rating", "ac|propulsion|engine|rating", "kW", "kW"⟩,
     ⟨"dvs", "ac|propulsion|propeller|diameter", "ac|propulsion|propeller|diameter", "m", "m"⟩,
     ⟨"dvs", "ac|propulsion|motor|rating", "ac|propulsion|motor|rating", "kW", "kW"⟩,
     ⟨"dvs", "ac|propulsion|generator|rating", "ac|propulsion|generator|rating", "kW", "kW"⟩,
     ⟨"dvs", "ac|weights|W_battery", "ac|weights|W_battery", "kg", "kg"⟩,
     ⟨"motor1", "shaft_power_out", "motor1.shaft_power_out", "W", "W"⟩, ⟨"motor1", "heat_out", "motor1.heat_out", "W", "W"⟩,
     ⟨"motor1", "elec_load", "motor1.elec_load", "W", "W"⟩,
     ⟨"motor1", "component_cost", "motor1.component_cost", "USD", "USD"⟩,
     ⟨"motor1", "component_weight", "motor1.component_weight", "kg", "kg"⟩,
     ⟨"motor1", "component_sizing_margin", "motor1.component_sizing_margin", "", ""⟩,
     ⟨"motor1", "throttle", "motor1.throttle", "", ""⟩, ⟨"motor1", "elec_power_rating", "motor_rating", "kW", "W"⟩,
     ⟨"prop1", "cp", "prop1.cp", "", ""⟩, ⟨"prop1", "J", "prop1.J", "", ""⟩,
     ⟨"prop1", "prop_Vtip", "prop1.prop_Vtip", "", ""⟩, ⟨"prop1", "eta_prop", "prop1.eta_prop", "", ""⟩,
     ⟨"prop1", "ct_over_cp", "prop1.ct_over_cp", "", ""⟩, ⟨"prop1", "thrust", "thrust", "N", "N"⟩,
     ⟨"prop1", "component_weight", "prop1.component_weight", "lb", "lb"⟩,
     ⟨"prop1", "shaft_power_in", "motor1.shaft_power_out", "W", "W"⟩, ⟨"prop1", "diameter", "prop_diameter", "m", "m"⟩,
     ⟨"prop1", "rpm", "prop1.rpm", "rpm", "rpm"⟩, ⟨"prop1", "fltcond|rho", "fltcond|rho", "kg / m ** 3", "kg / m ** 3"⟩,
     ⟨"prop1", "fltcond|Utrue", "fltcond|Utrue", "m/s", "m/s"⟩, ⟨"prop1", "power_rating", "motor_rating", "kW", "hp"⟩,
     ⟨"hybrid_split", "power_out_A", "hybrid_split.power_out_A", "W", "W"⟩,
     ⟨"hybrid_split", "power_out_B", "hybrid_split.power_out_B", "W", "W"⟩,
     ⟨"hybrid_split", "heat_out", "hybrid_split.heat_out", "W", "W"⟩,
     ⟨"hybrid_split", "component_cost", "hybrid_split.component_cost", "USD", "USD"⟩,
     ⟨"hybrid_split", "component_weight", "hybrid_split.component_weight", "kg", "kg"⟩,
     ⟨"hybrid_split", "component_sizing_margin", "hybrid_split.component_sizing_margin", "", ""⟩,
     ⟨"hybrid_split", "power_in", "motor1.elec_load", "W", "W"⟩,
     ⟨"hybrid_split", "power_rating", "hybrid_split.power_rating", "W", "W"⟩,
     ⟨"hybrid_split", "power_split_fraction", "hybrid_split.power_split_fraction", "", ""⟩,
     ⟨"eng1", "shaft_power_out", "eng1.shaft_power_out", "W", "W"⟩, ⟨"eng1", "fuel_flow", "fuel_flow", "kg/s", "kg/s"⟩,
     ⟨"eng1", "component_cost", "eng1.component_cost", "USD", "USD"⟩,
     ⟨"eng1", "component_weight", "eng1.component_weight", "kg", "kg"⟩,
     ⟨"eng1", "component_sizing_margin", "eng1.component_sizing_margin", "", ""⟩,
     ⟨"eng1", "throttle", "eng1.throttle", "", ""⟩, ⟨"eng1", "shaft_power_rating", "eng_rating", "kW", "W"⟩,
     ⟨"gen1", "elec_power_out", "gen1.elec_power_out", "W", "W"⟩, ⟨"gen1", "heat_out", "gen1.heat_out", "W", "W"⟩,
     ⟨"gen1", "component_cost", "gen1.component_cost", "USD", "USD"⟩,
     ⟨"gen1", "component_weight", "gen1.component_weight", "kg", "kg"⟩,
     ⟨"gen1", "component_sizing_margin", "gen1.component_sizing_margin", "", ""⟩,
     ⟨"gen1", "shaft_power_in", "eng1.shaft_power_out", "W", "W"⟩, ⟨"gen1", "elec_power_rating", "gen_rating", "kW", "W"⟩,
     ⟨"batt1", "heat_out", "batt1.heat_out", "W", "W"⟩, ⟨"batt1", "component_cost", "batt1.component_cost", "USD", "USD"⟩,
     ⟨"batt1", "component_sizing_margin", "batt1.component_sizing_margin", "", ""⟩,
     ⟨"batt1", "max_energy", "batt1.max_energy", "W*h", "W*h"⟩, ⟨"batt1", "battery_weight", "batt_weight", "kg", "kg"⟩,
     ⟨"batt1", "elec_load", "hybrid_split.power_out_A", "W", "W"⟩,
     ⟨"batt1", "specific_energy", "batt1.specific_energy", "W * h / kg", "W * h / kg"⟩,
     ⟨"eng_gen_resid", "eng_gen_residual", "eng_gen_resid.eng_gen_residual", "kW", "kW"⟩,
     ⟨"eng_gen_resid", "gen_power_available", "gen1.elec_power_out", "W", "kW"⟩,
     ⟨"eng_gen_resid", "gen_power_required", "hybrid_split.power_out_B", "W", "kW"⟩,
     ⟨"add_weights", "motors_weight", "motors_weight", "kg", "kg"⟩,
     ⟨"add_weights", "propellers_weight", "propellers_weight", "kg", "kg"⟩,
     ⟨"add_weights", "motor1_weight", "motor1.component_weight", "kg", "kg"⟩,
     ⟨"add_weights", "prop1_weight", "prop1.component_weight", "lb", "kg"⟩] := by
  decide +kernel

theorem liquidCooled_links : liquidCooled.links =
    [⟨"base", "dTdt", "base.dTdt", "K/s", "K/s"⟩, ⟨"base", "q_in", "q_in", "W", "W"⟩, ⟨"base", "q_out", "hex.q", "W", "W"⟩,
     ⟨"base", "mass", "mass", "kg", "kg"⟩, ⟨"ode_integ", "T_final", "T_final", "K", "K"⟩, ⟨"ode_integ", "T", "T", "K", "K"⟩,
     ⟨"ode_integ", "duration", "duration", "s", "s"⟩, ⟨"ode_integ", "dTdt", "base.dTdt", "K/s", "(K) / (s)"⟩,
     ⟨"ode_integ", "T_initial", "T_initial", "K", "K"⟩, ⟨"hex", "q", "hex.q", "W", "W"⟩, ⟨"hex", "T_out", "T_out", "K", "K"⟩,
     ⟨"hex", "T_in", "T_in", "K", "K"⟩, ⟨"hex", "T_surface", "T", "K", "K"⟩,
     ⟨"hex", "channel_width", "channel_width", "m", "m"⟩, ⟨"hex", "channel_height", "channel_height", "m", "m"⟩,
     ⟨"hex", "channel_length", "channel_length", "m", "m"⟩, ⟨"hex", "n_parallel", "n_parallel", "", ""⟩,
     ⟨"hex", "mdot_coolant", "mdot_coolant", "kg/s", "kg/s"⟩] := by
  decide +kernel

theorem liquidCooledSteady_links : liquidCooledSteady.links =
    [⟨"base", "T_object", "T", "K", "K"⟩, ⟨"base", "q_in", "q_in", "W", "W"⟩, ⟨"base", "q_out", "hex.q", "W", "W"⟩,
     ⟨"hex", "q", "hex.q", "W", "W"⟩, ⟨"hex", "T_out", "T_out", "K", "K"⟩, ⟨"hex", "T_in", "T_in", "K", "K"⟩,
     ⟨"hex", "T_surface", "T", "K", "K"⟩, ⟨"hex", "channel_width", "channel_width", "m", "m"⟩,
     ⟨"hex", "channel_height", "channel_height", "m", "m"⟩, ⟨"hex", "channel_length", "channel_length", "m", "m"⟩,
     ⟨"hex", "n_parallel", "n_parallel", "", ""⟩, ⟨"hex", "mdot_coolant", "mdot_coolant", "kg/s", "kg/s"⟩] := by
  decide +kernel

theorem coolantReservoir_links : coolantReservoir.links =
    [⟨"rate", "dTdt", "rate.dTdt", "K/s", "K/s"⟩, ⟨"rate", "T_in", "T_in", "K", "K"⟩, ⟨"rate", "T_out", "T_out", "K", "K"⟩,
     ⟨"rate", "mdot_coolant", "mdot_coolant", "kg/s", "kg/s"⟩, ⟨"rate", "mass", "mass", "kg", "kg"⟩,
     ⟨"ode_integ", "T_final", "T_final", "K", "K"⟩, ⟨"ode_integ", "T_out", "T_out", "K", "K"⟩,
     ⟨"ode_integ", "duration", "duration", "s", "s"⟩, ⟨"ode_integ", "dTdt", "rate.dTdt", "K/s", "(K) / (s)"⟩,
     ⟨"ode_integ", "T_initial", "T_initial", "K", "K"⟩] := by
  decide +kernel

theorem chiller_true_links : (chiller true).links =
    [⟨"weightpower", "component_weight", "component_weight", "kg", "kg"⟩,
     ⟨"weightpower", "power_rating", "power_rating", "W", "W"⟩,
     ⟨"weightpower", "specific_power", "specific_power", "W/kg", "W/kg"⟩, ⟨"hot_side", "T_out", "hot_side.T_out", "K", "K"⟩,
     ⟨"hot_side", "T_average", "hot_side.T_average", "K", "K"⟩, ⟨"hot_side", "T_in", "T_in_hot", "K", "K"⟩,
     ⟨"hot_side", "q", "heat_pump.q_in_2", "W", "W"⟩, ⟨"hot_side", "mdot_coolant", "mdot_coolant", "kg/s", "kg/s"⟩,
     ⟨"cold_side", "T_out", "cold_side.T_out", "K", "K"⟩, ⟨"cold_side", "T_average", "cold_side.T_average", "K", "K"⟩,
     ⟨"cold_side", "T_in", "T_in_cold", "K", "K"⟩, ⟨"cold_side", "q", "heat_pump.q_in_1", "W", "W"⟩,
     ⟨"cold_side", "mdot_coolant", "mdot_coolant", "kg/s", "kg/s"⟩, ⟨"copmatch", "COP", "COP", "", ""⟩,
     ⟨"copmatch", "T_c", "cold_side.T_out", "K", "K"⟩, ⟨"copmatch", "T_h", "hot_side.T_out", "K", "K"⟩,
     ⟨"copmatch", "eff_factor", "eff_factor", "", ""⟩, ⟨"heat_pump", "q_in_1", "heat_pump.q_in_1", "W", "W"⟩,
     ⟨"heat_pump", "q_in_2", "heat_pump.q_in_2", "W", "W"⟩, ⟨"heat_pump", "COP", "COP", "", ""⟩,
     ⟨"heat_pump", "power_rating", "power_rating", "W", "W"⟩, ⟨"bypass_comp", "elec_load", "elec_load", "W", "W"⟩,
     ⟨"bypass_comp", "T_out_cold", "T_out_cold", "K", "K"⟩, ⟨"bypass_comp", "T_out_hot", "T_out_hot", "K", "K"⟩,
     ⟨"bypass_comp", "T_in_cold", "T_in_cold", "K", "K"⟩, ⟨"bypass_comp", "T_in_hot", "T_in_hot", "K", "K"⟩,
     ⟨"bypass_comp", "T_out_refrig_cold", "cold_side.T_out", "K", "K"⟩,
     ⟨"bypass_comp", "T_out_refrig_hot", "hot_side.T_out", "K", "K"⟩,
     ⟨"bypass_comp", "power_rating", "power_rating", "W", "W"⟩, ⟨"bypass_comp", "bypass", "bypass", "", ""⟩] := by
  decide +kernel

theorem chiller_false_links : (chiller false).links =
    [⟨"control", "bypass_start", "control.bypass_start", "", ""⟩, ⟨"control", "bypass_end", "control.bypass_end", "", ""⟩,
     ⟨"li", "vec", "bypass", "", ""⟩, ⟨"li", "start_val", "control.bypass_start", "", ""⟩,
     ⟨"li", "end_val", "control.bypass_end", "", ""⟩, ⟨"weightpower", "component_weight", "component_weight", "kg", "kg"⟩,
     ⟨"weightpower", "power_rating", "power_rating", "W", "W"⟩,
     ⟨"weightpower", "specific_power", "specific_power", "W/kg", "W/kg"⟩, ⟨"hot_side", "T_out", "hot_side.T_out", "K", "K"⟩,
     ⟨"hot_side", "T_average", "hot_side.T_average", "K", "K"⟩, ⟨"hot_side", "T_in", "T_in_hot", "K", "K"⟩,
     ⟨"hot_side", "q", "heat_pump.q_in_2", "W", "W"⟩, ⟨"hot_side", "mdot_coolant", "mdot_coolant", "kg/s", "kg/s"⟩,
     ⟨"cold_side", "T_out", "cold_side.T_out", "K", "K"⟩, ⟨"cold_side", "T_average", "cold_side.T_average", "K", "K"⟩,
     ⟨"cold_side", "T_in", "T_in_cold", "K", "K"⟩, ⟨"cold_side", "q", "heat_pump.q_in_1", "W", "W"⟩,
     ⟨"cold_side", "mdot_coolant", "mdot_coolant", "kg/s", "kg/s"⟩, ⟨"copmatch", "COP", "COP", "", ""⟩,
     ⟨"copmatch", "T_c", "cold_side.T_out", "K", "K"⟩, ⟨"copmatch", "T_h", "hot_side.T_out", "K", "K"⟩,
     ⟨"copmatch", "eff_factor", "eff_factor", "", ""⟩, ⟨"heat_pump", "q_in_1", "heat_pump.q_in_1", "W", "W"⟩,
     ⟨"heat_pump", "q_in_2", "heat_pump.q_in_2", "W", "W"⟩, ⟨"heat_pump", "COP", "COP", "", ""⟩,
     ⟨"heat_pump", "power_rating", "power_rating", "W", "W"⟩, ⟨"bypass_comp", "elec_load", "elec_load", "W", "W"⟩,
     ⟨"bypass_comp", "T_out_cold", "T_out_cold", "K", "K"⟩, ⟨"bypass_comp", "T_out_hot", "T_out_hot", "K", "K"⟩,
     ⟨"bypass_comp", "T_in_cold", "T_in_cold", "K", "K"⟩, ⟨"bypass_comp", "T_in_hot", "T_in_hot", "K", "K"⟩,
     ⟨"bypass_comp", "T_out_refrig_cold", "cold_side.T_out", "K", "K"⟩,
     ⟨"bypass_comp", "T_out_refrig_hot", "hot_side.T_out", "K", "K"⟩,
     ⟨"bypass_comp", "power_rating", "power_rating", "W", "W"⟩, ⟨"bypass_comp", "bypass", "bypass", "", ""⟩] := by
  decide +kernel

theorem cooledMotor_true_links : (cooledMotor true).links =
    [⟨"hex", "q", "hex.q", "W", "W"⟩, ⟨"hex", "T_out", "T_out", "K", "K"⟩, ⟨"hex", "dTdt", "dTdt", "K/s", "K/s"⟩,
     ⟨"hex", "q_in", "q_in", "W", "W"⟩, ⟨"hex", "T_in", "T_in", "K", "K"⟩, ⟨"hex", "T", "T", "K", "K"⟩,
     ⟨"hex", "mdot_coolant", "mdot_coolant", "kg/s", "kg/s"⟩, ⟨"hex", "power_rating", "power_rating", "W", "W"⟩,
     ⟨"hex", "motor_weight", "motor_weight", "kg", "kg"⟩, ⟨"thermal_bal", "T", "T", "K", "K"⟩,
     ⟨"thermal_bal", "dTdt", "dTdt", "K/s", "K/s"⟩, ⟨"thermal_bal", "rhs:T", "thermal_bal.rhs:T", "K/s", "K/s"⟩] := by
  decide +kernel

theorem cooledMotor_false_links : (cooledMotor false).links =
    [⟨"hex", "q", "hex.q", "W", "W"⟩, ⟨"hex", "T_out", "T_out", "K", "K"⟩, ⟨"hex", "dTdt", "dTdt", "K/s", "K/s"⟩,
     ⟨"hex", "q_in", "q_in", "W", "W"⟩, ⟨"hex", "T_in", "T_in", "K", "K"⟩, ⟨"hex", "T", "T", "K", "K"⟩,
     ⟨"hex", "mdot_coolant", "mdot_coolant", "kg/s", "kg/s"⟩, ⟨"hex", "power_rating", "power_rating", "W", "W"⟩,
     ⟨"hex", "motor_weight", "motor_weight", "kg", "kg"⟩, ⟨"ode_integ", "T_final", "T_final", "K", "K"⟩,
     ⟨"ode_integ", "T", "T", "K", "K"⟩, ⟨"ode_integ", "duration", "duration", "s", "s"⟩,
     ⟨"ode_integ", "dTdt", "dTdt", "K/s", "(K) / (s)"⟩, ⟨"ode_integ", "T_initial", "T_initial", "K", "K"⟩] := by
  decide +kernel

theorem cooledBattery_true_links : (cooledBattery true).links =
    [⟨"hex", "dTdt", "dTdt", "K/s", "K/s"⟩, ⟨"hex", "T_surface", "T_surface", "K", "K"⟩,
     ⟨"hex", "T_core", "T_core", "K", "K"⟩, ⟨"hex", "q", "hex.q", "W", "W"⟩, ⟨"hex", "T_out", "T_out", "K", "K"⟩,
     ⟨"hex", "q_in", "q_in", "W", "W"⟩, ⟨"hex", "T_in", "T_in", "K", "K"⟩, ⟨"hex", "T_battery", "T", "K", "K"⟩,
     ⟨"hex", "mdot_coolant", "mdot_coolant", "kg/s", "kg/s"⟩, ⟨"hex", "battery_weight", "battery_weight", "kg", "kg"⟩,
     ⟨"hex", "n_cpb", "n_cpb", "", ""⟩, ⟨"hex", "t_channel", "t_channel", "m", "m"⟩, ⟨"thermal_bal", "T", "T", "K", "K"⟩,
     ⟨"thermal_bal", "dTdt", "dTdt", "K/s", "K/s"⟩, ⟨"thermal_bal", "rhs:T", "thermal_bal.rhs:T", "K/s", "K/s"⟩] := by
  decide +kernel

theorem cooledBattery_false_links : (cooledBattery false).links =
    [⟨"hex", "dTdt", "dTdt", "K/s", "K/s"⟩, ⟨"hex", "T_surface", "T_surface", "K", "K"⟩,
     ⟨"hex", "T_core", "T_core", "K", "K"⟩, ⟨"hex", "q", "hex.q", "W", "W"⟩, ⟨"hex", "T_out", "T_out", "K", "K"⟩,
     ⟨"hex", "q_in", "q_in", "W", "W"⟩, ⟨"hex", "T_in", "T_in", "K", "K"⟩, ⟨"hex", "T_battery", "T", "K", "K"⟩,
     ⟨"hex", "mdot_coolant", "mdot_coolant", "kg/s", "kg/s"⟩, ⟨"hex", "battery_weight", "battery_weight", "kg", "kg"⟩,
     ⟨"hex", "n_cpb", "n_cpb", "", ""⟩, ⟨"hex", "t_channel", "t_channel", "m", "m"⟩,
     ⟨"ode_integ", "T_final", "T_final", "K", "K"⟩, ⟨"ode_integ", "T", "T", "K", "K"⟩,
     ⟨"ode_integ", "duration", "duration", "s", "s"⟩, ⟨"ode_integ", "dTdt", "dTdt", "K/s", "(K) / (s)"⟩,
     ⟨"ode_integ", "T_initial", "T_initial", "K", "K"⟩] := by
  decide +kernel

theorem qMaxPipe_links : qMaxPipe.links =
    [⟨"ammonia_current", "rho_liquid", "ammonia_current.rho_liquid", "kg/m**3", "kg/m**3"⟩,
     ⟨"ammonia_current", "rho_vapor", "ammonia_current.rho_vapor", "kg/m**3", "kg/m**3"⟩,
     ⟨"ammonia_current", "vapor_pressure", "vapor_pressure", "kPa", "kPa"⟩,
     ⟨"ammonia_current", "temp", "temp", "degC", "degC"⟩,
     ⟨"ammonia_design", "rho_liquid", "ammonia_design.rho_liquid", "kg/m**3", "kg/m**3"⟩,
     ⟨"ammonia_design", "rho_vapor", "ammonia_design.rho_vapor", "kg/m**3", "kg/m**3"⟩,
     ⟨"ammonia_design", "vapor_pressure", "design_pressure", "kPa", "kPa"⟩,
     ⟨"ammonia_design", "temp", "design_temp", "degC", "degC"⟩, ⟨"q_max_calc", "q_max", "q_max", "W", "W"⟩,
     ⟨"q_max_calc", "inner_diam", "inner_diam", "m", "m"⟩, ⟨"q_max_calc", "temp", "temp", "degC", "degC"⟩,
     ⟨"q_max_calc", "rho_liquid", "ammonia_current.rho_liquid", "kg/m**3", "kg/m**3"⟩,
     ⟨"q_max_calc", "rho_vapor", "ammonia_current.rho_vapor", "kg/m**3", "kg/m**3"⟩,
     ⟨"weight_calc", "heat_pipe_weight", "heat_pipe_weight", "kg", "kg"⟩,
     ⟨"weight_calc", "wall_thickness", "wall_thickness", "m", "m"⟩,
     ⟨"weight_calc", "design_pressure", "design_pressure", "kPa", "MPa"⟩,
     ⟨"weight_calc", "inner_diam", "inner_diam", "m", "m"⟩, ⟨"weight_calc", "length", "length", "m", "m"⟩] := by
  decide +kernel

theorem heatPipe_links : heatPipe.links =
    [⟨"heat_divide", "q_div", "heat_divide.q_div", "W", "W"⟩, ⟨"heat_divide", "q", "q", "W", "W"⟩,
     ⟨"heat_divide", "n_pipes", "n_pipes", "", ""⟩,
     ⟨"q_max_calc", "ammonia_current.rho_liquid", "q_max_calc.ammonia_current.rho_liquid", "kg/m**3", "kg/m**3"⟩,
     ⟨"q_max_calc", "ammonia_current.rho_vapor", "q_max_calc.ammonia_current.rho_vapor", "kg/m**3", "kg/m**3"⟩,
     ⟨"q_max_calc", "vapor_pressure", "q_max_calc.vapor_pressure", "kPa", "kPa"⟩,
     ⟨"q_max_calc", "ammonia_design.rho_liquid", "q_max_calc.ammonia_design.rho_liquid", "kg/m**3", "kg/m**3"⟩,
     ⟨"q_max_calc", "ammonia_design.rho_vapor", "q_max_calc.ammonia_design.rho_vapor", "kg/m**3", "kg/m**3"⟩,
     ⟨"q_max_calc", "design_pressure", "q_max_calc.design_pressure", "kPa", "kPa"⟩,
     ⟨"q_max_calc", "q_max", "q_max_calc.q_max", "W", "W"⟩,
     ⟨"q_max_calc", "heat_pipe_weight", "q_max_calc.heat_pipe_weight", "kg", "kg"⟩,
     ⟨"q_max_calc", "wall_thickness", "q_max_calc.wall_thickness", "m", "m"⟩,
     ⟨"q_max_calc", "temp", "T_evap", "degC", "degC"⟩, ⟨"q_max_calc", "design_temp", "T_design", "degC", "degC"⟩,
     ⟨"q_max_calc", "inner_diam", "inner_diam", "m", "m"⟩, ⟨"q_max_calc", "length", "length", "m", "m"⟩,
     ⟨"weight_multiplier", "weight", "weight", "kg ", "kg "⟩,
     ⟨"weight_multiplier", "single_pipe_weight", "q_max_calc.heat_pipe_weight", "kg", "kg"⟩,
     ⟨"weight_multiplier", "n_pipes", "n_pipes", "", ""⟩, ⟨"q_max_multiplier", "q_max", "q_max", "W", "W"⟩,
     ⟨"q_max_multiplier", "single_pipe_q_max", "q_max_calc.q_max", "W", "W"⟩,
     ⟨"q_max_multiplier", "n_pipes", "n_pipes", "", ""⟩,
     ⟨"ammonia_surrogate", "rho_liquid", "ammonia_surrogate.rho_liquid", "kg/m**3", "kg/m**3"⟩,
     ⟨"ammonia_surrogate", "rho_vapor", "ammonia_surrogate.rho_vapor", "kg/m**3", "kg/m**3"⟩,
     ⟨"ammonia_surrogate", "vapor_pressure", "ammonia_surrogate.vapor_pressure", "kPa", "kPa"⟩,
     ⟨"ammonia_surrogate", "temp", "T_evap", "degC", "degC"⟩, ⟨"delta_T_calc", "delta_T", "delta_T_calc.delta_T", "K", "K"⟩,
     ⟨"delta_T_calc", "q", "heat_divide.q_div", "W", "W"⟩, ⟨"delta_T_calc", "temp", "T_evap", "degC", "degC"⟩,
     ⟨"delta_T_calc", "rho_vapor", "ammonia_surrogate.rho_vapor", "kg/m**3", "kg/m**3"⟩,
     ⟨"delta_T_calc", "vapor_pressure", "ammonia_surrogate.vapor_pressure", "kPa", "Pa"⟩,
     ⟨"delta_T_calc", "inner_diam", "inner_diam", "m", "m"⟩, ⟨"delta_T_calc", "length", "length", "m", "m"⟩,
     ⟨"resistance", "thermal_resistance", "resistance.thermal_resistance", "K/W", "K/W"⟩,
     ⟨"resistance", "inner_diam", "inner_diam", "m", "m"⟩,
     ⟨"resistance", "wall_thickness", "q_max_calc.wall_thickness", "m", "m"⟩,
     ⟨"resistance", "q", "heat_divide.q_div", "W", "W"⟩, ⟨"resistance", "delta_T", "delta_T_calc.delta_T", "K", "K"⟩,
     ⟨"cond_temp_calc", "T_cond", "T_cond", "degC", "degC"⟩, ⟨"cond_temp_calc", "T_evap", "T_evap", "degC", "degC"⟩,
     ⟨"cond_temp_calc", "q", "heat_divide.q_div", "W", "W"⟩,
     ⟨"cond_temp_calc", "R", "resistance.thermal_resistance", "K/W", "K/W"⟩, ⟨"q_max_warning", "q", "q", "W", "W"⟩,
     ⟨"q_max_warning", "q_max", "q_max", "W", "W"⟩] := by
  decide +kernel

theorem vacuumTank_links : vacuumTank.links =
    [⟨"inner_wall", "thickness", "inner_wall.thickness", "m", "m"⟩,
     ⟨"inner_wall", "weight", "inner_wall.weight", "kg", "kg"⟩,
     ⟨"inner_wall", "design_pressure_differential", "max_expected_operating_pressure", "Pa", "Pa"⟩,
     ⟨"inner_wall", "radius", "radius", "m", "m"⟩, ⟨"inner_wall", "length", "length", "m", "m"⟩,
     ⟨"outer_radius", "outer_radius", "outer_radius.outer_radius", "m", "m"⟩, ⟨"outer_radius", "radius", "radius", "m", "m"⟩,
     ⟨"outer_radius", "vacuum_gap", "vacuum_gap", "m", "m"⟩, ⟨"outer_wall", "thickness", "outer_wall.thickness", "m", "m"⟩,
     ⟨"outer_wall", "weight", "outer_wall.weight", "kg", "kg"⟩,
     ⟨"outer_wall", "design_pressure_differential", "environment_design_pressure", "Pa", "Pa"⟩,
     ⟨"outer_wall", "radius", "outer_radius.outer_radius", "m", "m"⟩, ⟨"outer_wall", "length", "length", "m", "m"⟩,
     ⟨"MLI", "weight", "MLI.weight", "kg", "kg"⟩, ⟨"MLI", "radius", "radius", "m", "m"⟩,
     ⟨"MLI", "length", "length", "m", "m"⟩, ⟨"MLI", "N_layers", "N_layers", "", ""⟩,
     ⟨"total_weight", "weight", "weight", "kg", "kg"⟩, ⟨"total_weight", "W_outer", "outer_wall.weight", "kg", "kg"⟩,
     ⟨"total_weight", "W_inner", "inner_wall.weight", "kg", "kg"⟩, ⟨"total_weight", "W_MLI", "MLI.weight", "kg", "kg"⟩] := by
  decide +kernel

theorem tankNoBoilOff_links : tankNoBoilOff.links =
    [⟨"structure", "inner_wall.thickness", "structure.inner_wall.thickness", "m", "m"⟩,
     ⟨"structure", "inner_wall.weight", "structure.inner_wall.weight", "kg", "kg"⟩,
     ⟨"structure", "outer_radius.outer_radius", "structure.outer_radius.outer_radius", "m", "m"⟩,
     ⟨"structure", "outer_wall.thickness", "structure.outer_wall.thickness", "m", "m"⟩,
     ⟨"structure", "outer_wall.weight", "structure.outer_wall.weight", "kg", "kg"⟩,
     ⟨"structure", "MLI.weight", "structure.MLI.weight", "kg", "kg"⟩, ⟨"structure", "weight", "tank_weight", "kg", "kg"⟩,
     ⟨"structure", "max_expected_operating_pressure", "max_expected_operating_pressure", "Pa", "Pa"⟩,
     ⟨"structure", "radius", "radius", "m", "m"⟩, ⟨"structure", "length", "length", "m", "m"⟩,
     ⟨"structure", "vacuum_gap", "vacuum_gap", "cm", "m"⟩,
     ⟨"structure", "environment_design_pressure", "environment_design_pressure", "Pa", "Pa"⟩,
     ⟨"structure", "N_layers", "N_layers", "", ""⟩, ⟨"integ", "delta_m_liq_final", "integ.delta_m_liq_final", "kg", "kg"⟩,
     ⟨"integ", "delta_m_liq", "integ.delta_m_liq", "kg", "kg"⟩, ⟨"integ", "duration", "integ.duration", "s", "s"⟩,
     ⟨"integ", "m_dot_liq", "m_dot_liq", "(kg) / (s)", "(kg) / (s)"⟩,
     ⟨"integ", "delta_m_liq_initial", "integ.delta_m_liq_initial", "kg", "kg"⟩,
     ⟨"add_init_state_values", "m_liq", "m_liq", "kg", "kg"⟩, ⟨"add_init_state_values", "fill_level", "fill_level", "", ""⟩,
     ⟨"add_init_state_values", "radius", "radius", "m", "m"⟩, ⟨"add_init_state_values", "length", "length", "m", "m"⟩,
     ⟨"add_init_state_values", "delta_m_liq", "integ.delta_m_liq", "kg", "kg"⟩,
     ⟨"sum_weight", "total_weight", "total_weight", "kg", "kg"⟩, ⟨"sum_weight", "m_liq", "m_liq", "kg", "kg"⟩,
     ⟨"sum_weight", "tank_weight", "tank_weight", "kg", "kg"⟩] := by
  decide +kernel

theorem allElectric_links : allElectric.links =
    [⟨"dvs", "motor1_rating", "motor1_rating", "hp", "hp"⟩, ⟨"dvs", "prop1_diameter", "prop1_diameter", "m", "m"⟩,
     ⟨"dvs", "battery1_weight", "battery1_weight", "kg", "kg"⟩,
     ⟨"dvs", "ac|propulsion|motor|rating", "ac|propulsion|motor|rating", "hp", "hp"⟩,
     ⟨"dvs", "ac|propulsion|propeller|diameter", "ac|propulsion|propeller|diameter", "m", "m"⟩,
     ⟨"dvs", "ac|weights|W_battery", "ac|weights|W_battery", "kg", "kg"⟩,
     ⟨"motor1", "shaft_power_out", "motor1.shaft_power_out", "W", "W"⟩, ⟨"motor1", "heat_out", "motor1.heat_out", "W", "W"⟩,
     ⟨"motor1", "elec_load", "motor1.elec_load", "W", "W"⟩,
     ⟨"motor1", "component_cost", "motor1.component_cost", "USD", "USD"⟩,
     ⟨"motor1", "component_weight", "motor1.component_weight", "kg", "kg"⟩,
     ⟨"motor1", "component_sizing_margin", "motor1.component_sizing_margin", "", ""⟩,
     ⟨"motor1", "throttle", "throttle", "", ""⟩, ⟨"motor1", "elec_power_rating", "motor1_rating", "hp", "W"⟩,
     ⟨"prop1", "cp", "prop1.cp", "", ""⟩, ⟨"prop1", "J", "prop1.J", "", ""⟩,
     ⟨"prop1", "prop_Vtip", "prop1.prop_Vtip", "", ""⟩, ⟨"prop1", "eta_prop", "prop1.eta_prop", "", ""⟩,
     ⟨"prop1", "ct_over_cp", "prop1.ct_over_cp", "", ""⟩, ⟨"prop1", "thrust", "thrust", "N", "N"⟩,
     ⟨"prop1", "component_weight", "prop1.component_weight", "lb", "lb"⟩,
     ⟨"prop1", "shaft_power_in", "motor1.shaft_power_out", "W", "W"⟩, ⟨"prop1", "diameter", "prop1_diameter", "m", "m"⟩,
     ⟨"prop1", "rpm", "prop1.rpm", "rpm", "rpm"⟩, ⟨"prop1", "fltcond|rho", "fltcond|rho", "kg / m ** 3", "kg / m ** 3"⟩,
     ⟨"prop1", "fltcond|Utrue", "fltcond|Utrue", "m/s", "m/s"⟩, ⟨"prop1", "power_rating", "motor1_rating", "hp", "hp"⟩,
     ⟨"batt1", "heat_out", "batt1.heat_out", "W", "W"⟩, ⟨"batt1", "component_cost", "batt1.component_cost", "USD", "USD"⟩,
     ⟨"batt1", "component_sizing_margin", "batt1.component_sizing_margin", "", ""⟩,
     ⟨"batt1", "max_energy", "batt1.max_energy", "W*h", "W*h"⟩,
     ⟨"batt1", "dSOCdt", "batt1.dSOCdt", "W / (kJ) ", "W / (kJ) "⟩, ⟨"batt1", "SOC_final", "batt1.SOC_final", "", ""⟩,
     ⟨"batt1", "SOC", "batt1.SOC", "", ""⟩, ⟨"batt1", "battery_weight", "battery1_weight", "kg", "kg"⟩,
     ⟨"batt1", "elec_load", "motor1.elec_load", "W", "W"⟩,
     ⟨"batt1", "specific_energy", "batt1.specific_energy", "W * h / kg", "W * h / kg"⟩,
     ⟨"batt1", "duration", "duration", "s", "s"⟩, ⟨"batt1", "SOC_initial", "batt1.SOC_initial", "", ""⟩,
     ⟨"motorheatsink", "base.dTdt", "motorheatsink.base.dTdt", "K/s", "K/s"⟩,
     ⟨"motorheatsink", "T_final", "motorheatsink.T_final", "K", "K"⟩, ⟨"motorheatsink", "T", "motorheatsink.T", "K", "K"⟩,
     ⟨"motorheatsink", "hex.q", "motorheatsink.hex.q", "W", "W"⟩,
     ⟨"motorheatsink", "T_out", "motorheatsink.T_out", "K", "K"⟩, ⟨"motorheatsink", "q_in", "motor1.heat_out", "W", "W"⟩,
     ⟨"motorheatsink", "mass", "motor1.component_weight", "kg", "kg"⟩, ⟨"motorheatsink", "duration", "duration", "s", "s"⟩,
     ⟨"motorheatsink", "T_initial", "motorheatsink.T_initial", "K", "K"⟩,
     ⟨"motorheatsink", "T_in", "reservoir.T_out", "K", "K"⟩, ⟨"motorheatsink", "channel_width", "channel_width", "mm", "m"⟩,
     ⟨"motorheatsink", "channel_height", "channel_height", "mm", "m"⟩,
     ⟨"motorheatsink", "channel_length", "channel_length", "m", "m"⟩, ⟨"motorheatsink", "n_parallel", "n_parallel", "", ""⟩,
     ⟨"motorheatsink", "mdot_coolant", "mdot_coolant", "kg/s", "kg/s"⟩,
     ⟨"reservoir", "rate.dTdt", "reservoir.rate.dTdt", "K/s", "K/s"⟩,
     ⟨"reservoir", "T_final", "reservoir.T_final", "K", "K"⟩, ⟨"reservoir", "T_out", "reservoir.T_out", "K", "K"⟩,
     ⟨"reservoir", "T_in", "hx.T_out_hot", "K", "K"⟩, ⟨"reservoir", "mdot_coolant", "mdot_coolant", "kg/s", "kg/s"⟩,
     ⟨"reservoir", "mass", "coolant_mass", "kg", "kg"⟩, ⟨"reservoir", "duration", "duration", "s", "s"⟩,
     ⟨"reservoir", "T_initial", "reservoir.T_initial", "K", "K"⟩, ⟨"iv", "mdot_coolant", "mdot_coolant", "kg/s", "kg/s"⟩,
     ⟨"iv", "rho_coolant", "rho_coolant", "kg/m**3", "kg/m**3"⟩, ⟨"iv", "coolant_mass", "coolant_mass", "kg", "kg"⟩,
     ⟨"iv", "channel_width", "channel_width", "mm", "mm"⟩, ⟨"iv", "channel_height", "channel_height", "mm", "mm"⟩,
     ⟨"iv", "channel_length", "channel_length", "m", "m"⟩, ⟨"iv", "n_parallel", "n_parallel", "", ""⟩,
     ⟨"iv", "area_nozzle", "area_nozzle", "inch**2", "inch**2"⟩, ⟨"duct", "mdot", "duct.mdot", "kg/s", "kg/s"⟩,
     ⟨"duct", "drag", "duct.drag", "N", "N"⟩, ⟨"duct", "fltcond|Utrue", "fltcond|Utrue", "m/s", "m/s"⟩,
     ⟨"duct", "fltcond|rho", "fltcond|rho", "kg / m ** 3", "kg/m**3"⟩,
     ⟨"duct", "area_nozzle", "area_nozzle", "inch**2", "m**2"⟩, ⟨"duct", "delta_p_hex", "hx.delta_p_cold", "Pa", "Pa"⟩,
     ⟨"hx", "n_wide_cold", "hx.n_wide_cold", "", ""⟩, ⟨"hx", "n_long_cold", "hx.n_long_cold", "", ""⟩,
     ⟨"hx", "n_tall", "hx.n_tall", "", ""⟩, ⟨"hx", "component_weight", "hx.component_weight", "kg", "kg"⟩,
     ⟨"hx", "length_overall", "hx.length_overall", "m", "m"⟩, ⟨"hx", "height_overall", "hx.height_overall", "m", "m"⟩,
     ⟨"hx", "width_overall", "hx.width_overall", "m", "m"⟩, ⟨"hx", "frontal_area", "hx.frontal_area", "m**2", "m**2"⟩,
     ⟨"hx", "xs_area_cold", "hx.xs_area_cold", "m**2", "m**2"⟩,
     ⟨"hx", "heat_transfer_area_cold", "hx.heat_transfer_area_cold", "m**2", "m**2"⟩,
     ⟨"hx", "dh_cold", "hx.dh_cold", "m", "m"⟩, ⟨"hx", "fin_area_ratio_cold", "hx.fin_area_ratio_cold", "", ""⟩,
     ⟨"hx", "contraction_ratio_cold", "hx.contraction_ratio_cold", "", ""⟩, ⟨"hx", "alpha_cold", "hx.alpha_cold", "", ""⟩,
     ⟨"hx", "delta_cold", "hx.delta_cold", "", ""⟩, ⟨"hx", "gamma_cold", "hx.gamma_cold", "", ""⟩,
     ⟨"hx", "xs_area_hot", "hx.xs_area_hot", "m**2", "m**2"⟩,
     ⟨"hx", "heat_transfer_area_hot", "hx.heat_transfer_area_hot", "m**2", "m**2"⟩, ⟨"hx", "dh_hot", "hx.dh_hot", "m", "m"⟩,
     ⟨"hx", "fin_area_ratio_hot", "hx.fin_area_ratio_hot", "", ""⟩,
     ⟨"hx", "contraction_ratio_hot", "hx.contraction_ratio_hot", "", ""⟩, ⟨"hx", "alpha_hot", "hx.alpha_hot", "", ""⟩,
     ⟨"hx", "delta_hot", "hx.delta_hot", "", ""⟩, ⟨"hx", "gamma_hot", "hx.gamma_hot", "", ""⟩,
     ⟨"hx", "Re_dh_cold", "hx.Re_dh_cold", "", ""⟩, ⟨"hx", "Re_dh_hot", "hx.Re_dh_hot", "", ""⟩,
     ⟨"hx", "j_cold", "hx.j_cold", "", ""⟩, ⟨"hx", "f_cold", "hx.f_cold", "", ""⟩, ⟨"hx", "j_hot", "hx.j_hot", "", ""⟩,
     ⟨"hx", "f_hot", "hx.f_hot", "", ""⟩, ⟨"hx", "Nu_dh_cold", "hx.Nu_dh_cold", "", ""⟩,
     ⟨"hx", "Nu_dh_hot", "hx.Nu_dh_hot", "", ""⟩, ⟨"hx", "h_conv_cold", "hx.h_conv_cold", "W/m**2/K", "W/m**2/K"⟩,
     ⟨"hx", "h_conv_hot", "hx.h_conv_hot", "W/m**2/K", "W/m**2/K"⟩,
     ⟨"hx", "eta_overall_cold", "hx.eta_overall_cold", "", ""⟩, ⟨"hx", "eta_overall_hot", "hx.eta_overall_hot", "", ""⟩,
     ⟨"hx", "UA_overall", "hx.UA_overall", "W/K", "W/K"⟩, ⟨"hx", "NTU", "hx.NTU", "", ""⟩,
     ⟨"hx", "heat_max", "hx.heat_max", "W", "W"⟩, ⟨"hx", "C_ratio", "hx.C_ratio", "", ""⟩,
     ⟨"hx", "effectiveness", "hx.effectiveness", "", ""⟩, ⟨"hx", "heat_transfer", "hx.heat_transfer", "W", "W"⟩,
     ⟨"hx", "T_out_cold", "hx.T_out_cold", "K", "K"⟩, ⟨"hx", "T_out_hot", "hx.T_out_hot", "K", "K"⟩,
     ⟨"hx", "delta_p_cold", "hx.delta_p_cold", "Pa", "Pa"⟩, ⟨"hx", "delta_p_hot", "hx.delta_p_hot", "Pa", "Pa"⟩,
     ⟨"hx", "ac|propulsion|thermal|hx|n_wide_cold", "hx.ac|propulsion|thermal|hx|n_wide_cold", "", ""⟩,
     ⟨"hx", "ac|propulsion|thermal|hx|n_long_cold", "hx.ac|propulsion|thermal|hx|n_long_cold", "", ""⟩,
     ⟨"hx", "ac|propulsion|thermal|hx|n_tall", "hx.ac|propulsion|thermal|hx|n_tall", "", ""⟩,
     ⟨"hx", "channel_width_hot", "hx.channel_width_hot", "mm", "mm"⟩,
     ⟨"hx", "channel_height_hot", "hx.channel_height_hot", "mm", "mm"⟩,
     ⟨"hx", "fin_length_hot", "hx.fin_length_hot", "mm", "mm"⟩,
     ⟨"hx", "channel_width_cold", "hx.channel_width_cold", "mm", "mm"⟩,
     ⟨"hx", "channel_height_cold", "hx.channel_height_cold", "mm", "mm"⟩,
     ⟨"hx", "fin_length_cold", "hx.fin_length_cold", "mm", "mm"⟩, ⟨"hx", "fin_thickness", "hx.fin_thickness", "mm", "mm"⟩,
     ⟨"hx", "plate_thickness", "hx.plate_thickness", "mm", "mm"⟩, ⟨"hx", "case_thickness", "hx.case_thickness", "mm", "mm"⟩,
     ⟨"hx", "material_rho", "hx.material_rho", "kg/m**3", "kg/m**3"⟩, ⟨"hx", "mdot_cold", "duct.mdot", "kg/s", "kg/s"⟩,
     ⟨"hx", "mu_cold", "hx.mu_cold", "kg/m/s", "kg/m/s"⟩, ⟨"hx", "mdot_hot", "mdot_coolant", "kg/s", "kg/s"⟩,
     ⟨"hx", "mu_hot", "hx.mu_hot", "kg/m/s", "kg/m/s"⟩, ⟨"hx", "k_cold", "hx.k_cold", "W/m/K", "W/m/K"⟩,
     ⟨"hx", "cp_cold", "hx.cp_cold", "J/kg/K", "J/kg/K"⟩, ⟨"hx", "k_hot", "hx.k_hot", "W/m/K", "W/m/K"⟩,
     ⟨"hx", "cp_hot", "hx.cp_hot", "J/kg/K", "J/kg/K"⟩, ⟨"hx", "material_k", "hx.material_k", "W/m/K", "W/m/K"⟩,
     ⟨"hx", "T_in_cold", "fltcond|T", "K", "K"⟩, ⟨"hx", "T_in_hot", "motorheatsink.T_out", "K", "K"⟩,
     ⟨"hx", "rho_cold", "fltcond|rho", "kg / m ** 3", "kg/m**3"⟩, ⟨"hx", "rho_hot", "rho_coolant", "kg/m**3", "kg/m**3"⟩] := by
  decide +kernel

theorem allElectricC_links : allElectricC.links =
    [⟨"dvs", "motor1_rating", "motor1_rating", "hp", "hp"⟩, ⟨"dvs", "prop1_diameter", "prop1_diameter", "m", "m"⟩,
     ⟨"dvs", "battery1_weight", "battery1_weight", "kg", "kg"⟩,
     ⟨"dvs", "ac|propulsion|motor|rating", "ac|propulsion|motor|rating", "hp", "hp"⟩,
     ⟨"dvs", "ac|propulsion|propeller|diameter", "ac|propulsion|propeller|diameter", "m", "m"⟩,
     ⟨"dvs", "ac|weights|W_battery", "ac|weights|W_battery", "kg", "kg"⟩,
     ⟨"motor1", "shaft_power_out", "motor1.shaft_power_out", "W", "W"⟩, ⟨"motor1", "heat_out", "motor1.heat_out", "W", "W"⟩,
     ⟨"motor1", "elec_load", "motor1.elec_load", "W", "W"⟩,
     ⟨"motor1", "component_cost", "motor1.component_cost", "USD", "USD"⟩,
     ⟨"motor1", "component_weight", "motor1.component_weight", "kg", "kg"⟩,
     ⟨"motor1", "component_sizing_margin", "motor1.component_sizing_margin", "", ""⟩,
     ⟨"motor1", "throttle", "throttle", "", ""⟩, ⟨"motor1", "elec_power_rating", "motor1_rating", "hp", "W"⟩,
     ⟨"prop1", "cp", "prop1.cp", "", ""⟩, ⟨"prop1", "J", "prop1.J", "", ""⟩,
     ⟨"prop1", "prop_Vtip", "prop1.prop_Vtip", "", ""⟩, ⟨"prop1", "eta_prop", "prop1.eta_prop", "", ""⟩,
     ⟨"prop1", "ct_over_cp", "prop1.ct_over_cp", "", ""⟩, ⟨"prop1", "thrust", "thrust", "N", "N"⟩,
     ⟨"prop1", "component_weight", "prop1.component_weight", "lb", "lb"⟩,
     ⟨"prop1", "shaft_power_in", "motor1.shaft_power_out", "W", "W"⟩, ⟨"prop1", "diameter", "prop1_diameter", "m", "m"⟩,
     ⟨"prop1", "rpm", "prop1.rpm", "rpm", "rpm"⟩, ⟨"prop1", "fltcond|rho", "fltcond|rho", "kg / m ** 3", "kg / m ** 3"⟩,
     ⟨"prop1", "fltcond|Utrue", "fltcond|Utrue", "m/s", "m/s"⟩, ⟨"prop1", "power_rating", "motor1_rating", "hp", "hp"⟩,
     ⟨"batt1", "heat_out", "batt1.heat_out", "W", "W"⟩, ⟨"batt1", "component_cost", "batt1.component_cost", "USD", "USD"⟩,
     ⟨"batt1", "component_sizing_margin", "batt1.component_sizing_margin", "", ""⟩,
     ⟨"batt1", "max_energy", "batt1.max_energy", "W*h", "W*h"⟩,
     ⟨"batt1", "dSOCdt", "batt1.dSOCdt", "W / (kJ) ", "W / (kJ) "⟩, ⟨"batt1", "SOC_final", "batt1.SOC_final", "", ""⟩,
     ⟨"batt1", "SOC", "batt1.SOC", "", ""⟩, ⟨"batt1", "battery_weight", "battery1_weight", "kg", "kg"⟩,
     ⟨"batt1", "elec_load", "motor1.elec_load", "W", "W"⟩,
     ⟨"batt1", "specific_energy", "batt1.specific_energy", "W * h / kg", "W * h / kg"⟩,
     ⟨"batt1", "duration", "duration", "s", "s"⟩, ⟨"batt1", "SOC_initial", "batt1.SOC_initial", "", ""⟩,
     ⟨"motorheatsink", "base.dTdt", "motorheatsink.base.dTdt", "K/s", "K/s"⟩,
     ⟨"motorheatsink", "T_final", "motorheatsink.T_final", "K", "K"⟩, ⟨"motorheatsink", "T", "motorheatsink.T", "K", "K"⟩,
     ⟨"motorheatsink", "hex.q", "motorheatsink.hex.q", "W", "W"⟩,
     ⟨"motorheatsink", "T_out", "motorheatsink.T_out", "K", "K"⟩, ⟨"motorheatsink", "q_in", "motor1.heat_out", "W", "W"⟩,
     ⟨"motorheatsink", "mass", "motor1.component_weight", "kg", "kg"⟩, ⟨"motorheatsink", "duration", "duration", "s", "s"⟩,
     ⟨"motorheatsink", "T_initial", "motorheatsink.T_initial", "K", "K"⟩,
     ⟨"motorheatsink", "T_in", "reservoir.T_out", "K", "K"⟩, ⟨"motorheatsink", "channel_width", "channel_width", "mm", "m"⟩,
     ⟨"motorheatsink", "channel_height", "channel_height", "mm", "m"⟩,
     ⟨"motorheatsink", "channel_length", "channel_length", "m", "m"⟩, ⟨"motorheatsink", "n_parallel", "n_parallel", "", ""⟩,
     ⟨"motorheatsink", "mdot_coolant", "mdot_coolant", "kg/s", "kg/s"⟩,
     ⟨"reservoir", "rate.dTdt", "reservoir.rate.dTdt", "K/s", "K/s"⟩,
     ⟨"reservoir", "T_final", "reservoir.T_final", "K", "K"⟩, ⟨"reservoir", "T_out", "reservoir.T_out", "K", "K"⟩,
     ⟨"reservoir", "T_in", "duct.T_out_hot", "K", "K"⟩, ⟨"reservoir", "mdot_coolant", "mdot_coolant", "kg/s", "kg/s"⟩,
     ⟨"reservoir", "mass", "coolant_mass", "kg", "kg"⟩, ⟨"reservoir", "duration", "duration", "s", "s"⟩,
     ⟨"reservoir", "T_initial", "reservoir.T_initial", "K", "K"⟩, ⟨"iv", "mdot_coolant", "mdot_coolant", "kg/s", "kg/s"⟩,
     ⟨"iv", "rho_coolant", "rho_coolant", "kg/m**3", "kg/m**3"⟩, ⟨"iv", "coolant_mass", "coolant_mass", "kg", "kg"⟩,
     ⟨"iv", "channel_width", "channel_width", "mm", "mm"⟩, ⟨"iv", "channel_height", "channel_height", "mm", "mm"⟩,
     ⟨"iv", "channel_length", "channel_length", "m", "m"⟩, ⟨"iv", "n_parallel", "n_parallel", "", ""⟩,
     ⟨"duct", "cp", "duct.cp", "J/kg/K", "J/kg/K"⟩, ⟨"duct", "area_1", "duct.area_1", "inch**2", "inch**2"⟩,
     ⟨"duct", "delta_p_1", "duct.delta_p_1", "Pa", "Pa"⟩, ⟨"duct", "heat_in_1", "duct.heat_in_1", "W", "W"⟩,
     ⟨"duct", "pressure_recovery_1", "duct.pressure_recovery_1", "", ""⟩,
     ⟨"duct", "loss_factor_1", "duct.loss_factor_1", "", ""⟩, ⟨"duct", "delta_p_2", "duct.delta_p_2", "Pa", "Pa"⟩,
     ⟨"duct", "heat_in_2", "duct.heat_in_2", "W", "W"⟩, ⟨"duct", "pressure_recovery_2", "duct.pressure_recovery_2", "", ""⟩,
     ⟨"duct", "pressure_recovery_3", "duct.pressure_recovery_3", "", ""⟩,
     ⟨"duct", "convergence_hack", "duct.convergence_hack", "Pa", "Pa"⟩,
     ⟨"duct", "area_nozzle", "duct.area_nozzle", "inch**2", "inch**2"⟩, ⟨"duct", "mdot", "duct.mdot", "kg/s", "kg/s"⟩,
     ⟨"duct", "inlet.a", "duct.inlet.a", "m/s", "m/s"⟩, ⟨"duct", "inlet.M", "duct.inlet.M", "", ""⟩,
     ⟨"duct", "inlet.Tt", "duct.inlet.Tt", "K", "K"⟩,
     ⟨"duct", "inlet.freestreamtotalpressure.pt", "duct.inlet.freestreamtotalpressure.pt", "Pa", "Pa"⟩,
     ⟨"duct", "inlet.pt", "duct.inlet.pt", "Pa", "Pa"⟩, ⟨"duct", "sta1.Tt_out", "duct.sta1.Tt_out", "K", "K"⟩,
     ⟨"duct", "sta1.pt_out", "duct.sta1.pt_out", "Pa", "Pa"⟩, ⟨"duct", "sta1.T", "duct.sta1.T", "K", "K"⟩,
     ⟨"duct", "sta1.p", "duct.sta1.p", "Pa", "Pa"⟩, ⟨"duct", "sta1.rho", "duct.sta1.rho", "kg/m**3", "kg/m**3"⟩,
     ⟨"duct", "sta1.a", "duct.sta1.a", "m/s", "m/s"⟩, ⟨"duct", "sta1.M", "duct.sta1.M", "", ""⟩,
     ⟨"duct", "sta2.Tt_out", "duct.sta2.Tt_out", "K", "K"⟩, ⟨"duct", "sta2.pt_out", "duct.sta2.pt_out", "Pa", "Pa"⟩,
     ⟨"duct", "sta2.T", "duct.sta2.T", "K", "K"⟩, ⟨"duct", "sta2.p", "duct.sta2.p", "Pa", "Pa"⟩,
     ⟨"duct", "sta2.rho", "duct.sta2.rho", "kg/m**3", "kg/m**3"⟩, ⟨"duct", "sta2.a", "duct.sta2.a", "m/s", "m/s"⟩,
     ⟨"duct", "sta2.M", "duct.sta2.M", "", ""⟩, ⟨"duct", "hx.n_wide_cold", "duct.hx.n_wide_cold", "", ""⟩,
     ⟨"duct", "hx.n_long_cold", "duct.hx.n_long_cold", "", ""⟩, ⟨"duct", "hx.n_tall", "duct.hx.n_tall", "", ""⟩,
     ⟨"duct", "hx.component_weight", "duct.hx.component_weight", "kg", "kg"⟩,
     ⟨"duct", "hx.length_overall", "duct.hx.length_overall", "m", "m"⟩,
     ⟨"duct", "hx.height_overall", "duct.hx.height_overall", "m", "m"⟩,
     ⟨"duct", "hx.width_overall", "duct.hx.width_overall", "m", "m"⟩,
     ⟨"duct", "hx.frontal_area", "duct.hx.frontal_area", "m**2", "m**2"⟩,
     ⟨"duct", "hx.xs_area_cold", "duct.hx.xs_area_cold", "m**2", "m**2"⟩,
     ⟨"duct", "hx.heat_transfer_area_cold", "duct.hx.heat_transfer_area_cold", "m**2", "m**2"⟩,
     ⟨"duct", "hx.dh_cold", "duct.hx.dh_cold", "m", "m"⟩,
     ⟨"duct", "hx.fin_area_ratio_cold", "duct.hx.fin_area_ratio_cold", "", ""⟩,
     ⟨"duct", "hx.contraction_ratio_cold", "duct.hx.contraction_ratio_cold", "", ""⟩,
     ⟨"duct", "hx.alpha_cold", "duct.hx.alpha_cold", "", ""⟩, ⟨"duct", "hx.delta_cold", "duct.hx.delta_cold", "", ""⟩,
     ⟨"duct", "hx.gamma_cold", "duct.hx.gamma_cold", "", ""⟩,
     ⟨"duct", "hx.xs_area_hot", "duct.hx.xs_area_hot", "m**2", "m**2"⟩,
     ⟨"duct", "hx.heat_transfer_area_hot", "duct.hx.heat_transfer_area_hot", "m**2", "m**2"⟩,
     ⟨"duct", "hx.dh_hot", "duct.hx.dh_hot", "m", "m"⟩,
     ⟨"duct", "hx.fin_area_ratio_hot", "duct.hx.fin_area_ratio_hot", "", ""⟩,
     ⟨"duct", "hx.contraction_ratio_hot", "duct.hx.contraction_ratio_hot", "", ""⟩,
     ⟨"duct", "hx.alpha_hot", "duct.hx.alpha_hot", "", ""⟩, ⟨"duct", "hx.delta_hot", "duct.hx.delta_hot", "", ""⟩,
     ⟨"duct", "hx.gamma_hot", "duct.hx.gamma_hot", "", ""⟩, ⟨"duct", "hx.Re_dh_cold", "duct.hx.Re_dh_cold", "", ""⟩,
     ⟨"duct", "hx.Re_dh_hot", "duct.hx.Re_dh_hot", "", ""⟩, ⟨"duct", "hx.j_cold", "duct.hx.j_cold", "", ""⟩,
     ⟨"duct", "hx.f_cold", "duct.hx.f_cold", "", ""⟩, ⟨"duct", "hx.j_hot", "duct.hx.j_hot", "", ""⟩,
     ⟨"duct", "hx.f_hot", "duct.hx.f_hot", "", ""⟩, ⟨"duct", "hx.Nu_dh_cold", "duct.hx.Nu_dh_cold", "", ""⟩,
     ⟨"duct", "hx.Nu_dh_hot", "duct.hx.Nu_dh_hot", "", ""⟩,
     ⟨"duct", "hx.h_conv_cold", "duct.hx.h_conv_cold", "W/m**2/K", "W/m**2/K"⟩,
     ⟨"duct", "hx.h_conv_hot", "duct.hx.h_conv_hot", "W/m**2/K", "W/m**2/K"⟩,
     ⟨"duct", "hx.eta_overall_cold", "duct.hx.eta_overall_cold", "", ""⟩,
     ⟨"duct", "hx.eta_overall_hot", "duct.hx.eta_overall_hot", "", ""⟩,
     ⟨"duct", "hx.UA_overall", "duct.hx.UA_overall", "W/K", "W/K"⟩, ⟨"duct", "hx.NTU", "duct.hx.NTU", "", ""⟩,
     ⟨"duct", "hx.heat_max", "duct.hx.heat_max", "W", "W"⟩, ⟨"duct", "hx.C_ratio", "duct.hx.C_ratio", "", ""⟩,
     ⟨"duct", "hx.effectiveness", "duct.hx.effectiveness", "", ""⟩,
     ⟨"duct", "hx.heat_transfer", "duct.hx.heat_transfer", "W", "W"⟩,
     ⟨"duct", "hx.T_out_cold", "duct.hx.T_out_cold", "K", "K"⟩, ⟨"duct", "T_out_hot", "duct.T_out_hot", "K", "K"⟩,
     ⟨"duct", "hx.delta_p_cold", "duct.hx.delta_p_cold", "Pa", "Pa"⟩,
     ⟨"duct", "hx.delta_p_hot", "duct.hx.delta_p_hot", "Pa", "Pa"⟩, ⟨"duct", "sta3.Tt_out", "duct.sta3.Tt_out", "K", "K"⟩,
     ⟨"duct", "sta3.pt_out", "duct.sta3.pt_out", "Pa", "Pa"⟩, ⟨"duct", "sta3.T", "duct.sta3.T", "K", "K"⟩,
     ⟨"duct", "sta3.p", "duct.sta3.p", "Pa", "Pa"⟩, ⟨"duct", "sta3.rho", "duct.sta3.rho", "kg/m**3", "kg/m**3"⟩,
     ⟨"duct", "sta3.a", "duct.sta3.a", "m/s", "m/s"⟩, ⟨"duct", "sta3.M", "duct.sta3.M", "", ""⟩,
     ⟨"duct", "p_exit", "duct.p_exit", "Pa", "Pa"⟩, ⟨"duct", "nozzle.pt", "duct.nozzle.pt", "Pa", "Pa"⟩,
     ⟨"duct", "nozzle.nozzle_pressure_ratio", "duct.nozzle.nozzle_pressure_ratio", "", ""⟩,
     ⟨"duct", "nozzle.M", "duct.nozzle.M", "", ""⟩, ⟨"duct", "nozzle.T", "duct.nozzle.T", "K", "K"⟩,
     ⟨"duct", "nozzle.p", "duct.nozzle.p", "Pa", "Pa"⟩, ⟨"duct", "nozzle.rho", "duct.nozzle.rho", "kg/m**3", "kg/m**3"⟩,
     ⟨"duct", "nozzle.a", "duct.nozzle.a", "m/s", "m/s"⟩, ⟨"duct", "mdot_actual", "duct.mdot_actual", "kg/s", "kg/s"⟩,
     ⟨"duct", "force.F_net", "duct.force.F_net", "N", "N"⟩, ⟨"duct", "T_inf", "fltcond|T", "K", "K"⟩,
     ⟨"duct", "Utrue", "fltcond|Utrue", "m/s", "m/s"⟩, ⟨"duct", "p_inf", "fltcond|p", "Pa", "Pa"⟩,
     ⟨"duct", "inlet.totalpressure.eta_ram", "duct.inlet.totalpressure.eta_ram", "", ""⟩,
     ⟨"duct", "sta2.dynamic_pressure_loss_factor", "duct.sta2.dynamic_pressure_loss_factor", "", ""⟩,
     ⟨"duct", "ac|propulsion|thermal|hx|n_wide_cold", "duct.ac|propulsion|thermal|hx|n_wide_cold", "", ""⟩,
     ⟨"duct", "hx.ac|propulsion|thermal|hx|n_long_cold", "duct.hx.ac|propulsion|thermal|hx|n_long_cold", "", ""⟩,
     ⟨"duct", "hx.ac|propulsion|thermal|hx|n_tall", "duct.hx.ac|propulsion|thermal|hx|n_tall", "", ""⟩,
     ⟨"duct", "hx.channel_width_hot", "duct.hx.channel_width_hot", "mm", "mm"⟩,
     ⟨"duct", "hx.channel_height_hot", "duct.hx.channel_height_hot", "mm", "mm"⟩,
     ⟨"duct", "hx.fin_length_hot", "duct.hx.fin_length_hot", "mm", "mm"⟩,
     ⟨"duct", "hx.channel_width_cold", "duct.hx.channel_width_cold", "mm", "mm"⟩,
     ⟨"duct", "hx.channel_height_cold", "duct.hx.channel_height_cold", "mm", "mm"⟩,
     ⟨"duct", "hx.fin_length_cold", "duct.hx.fin_length_cold", "mm", "mm"⟩,
     ⟨"duct", "hx.fin_thickness", "duct.hx.fin_thickness", "mm", "mm"⟩,
     ⟨"duct", "hx.plate_thickness", "duct.hx.plate_thickness", "mm", "mm"⟩,
     ⟨"duct", "hx.case_thickness", "duct.hx.case_thickness", "mm", "mm"⟩,
     ⟨"duct", "hx.material_rho", "duct.hx.material_rho", "kg/m**3", "kg/m**3"⟩,
     ⟨"duct", "hx.mu_cold", "duct.hx.mu_cold", "kg/m/s", "kg/m/s"⟩, ⟨"duct", "mdot_hot", "mdot_coolant", "kg/s", "kg/s"⟩,
     ⟨"duct", "hx.mu_hot", "duct.hx.mu_hot", "kg/m/s", "kg/m/s"⟩, ⟨"duct", "hx.k_cold", "duct.hx.k_cold", "W/m/K", "W/m/K"⟩,
     ⟨"duct", "hx.cp_cold", "duct.hx.cp_cold", "J/kg/K", "J/kg/K"⟩, ⟨"duct", "hx.k_hot", "duct.hx.k_hot", "W/m/K", "W/m/K"⟩,
     ⟨"duct", "hx.cp_hot", "duct.hx.cp_hot", "J/kg/K", "J/kg/K"⟩,
     ⟨"duct", "hx.material_k", "duct.hx.material_k", "W/m/K", "W/m/K"⟩,
     ⟨"duct", "T_in_hot", "motorheatsink.T_out", "K", "K"⟩, ⟨"duct", "rho_hot", "rho_coolant", "kg/m**3", "kg/m**3"⟩,
     ⟨"duct", "sta3.dynamic_pressure_loss_factor", "duct.sta3.dynamic_pressure_loss_factor", "", ""⟩,
     ⟨"duct", "nozzle.dynamic_pressure_loss_factor", "duct.nozzle.dynamic_pressure_loss_factor", "", ""⟩] := by
  decide +kernel

theorem passiveHybrid_links : passiveHybrid.links =
    [⟨"dvs", "eng_rating", "eng_rating", "kW", "kW"⟩, ⟨"dvs", "prop_diameter", "prop_diameter", "m", "m"⟩,
     ⟨"dvs", "motor_rating", "motor_rating", "kW", "kW"⟩, ⟨"dvs", "gen_rating", "gen_rating", "kW", "kW"⟩,
     ⟨"dvs", "batt_weight", "batt_weight", "kg", "kg"⟩, ⟨"dvs", "mdot_coolant", "mdot_coolant", "kg/s", "kg/s"⟩,
     ⟨"dvs", "coolant_mass", "coolant_mass", "kg", "kg"⟩, ⟨"dvs", "channel_width", "channel_width", "mm", "mm"⟩,
     ⟨"dvs", "channel_height", "channel_height", "mm", "mm"⟩, ⟨"dvs", "channel_length", "channel_length", "m", "m"⟩,
     ⟨"dvs", "n_parallel", "n_parallel", "", ""⟩, ⟨"dvs", "specific_energy", "specific_energy", "W*h/kg", "W*h/kg"⟩,
     ⟨"dvs", "ac|propulsion|engine|rating", "ac|propulsion|engine|rating", "kW", "kW"⟩,
     ⟨"dvs", "ac|propulsion|propeller|diameter", "ac|propulsion|propeller|diameter", "m", "m"⟩,
     ⟨"dvs", "ac|propulsion|motor|rating", "ac|propulsion|motor|rating", "kW", "kW"⟩,
     ⟨"dvs", "ac|propulsion|generator|rating", "ac|propulsion|generator|rating", "kW", "kW"⟩,
     ⟨"dvs", "ac|weights|W_battery", "ac|weights|W_battery", "kg", "kg"⟩,
     ⟨"dvs", "ac|propulsion|thermal|hx|mdot_coolant", "ac|propulsion|thermal|hx|mdot_coolant", "kg/s", "kg/s"⟩,
     ⟨"dvs", "ac|propulsion|thermal|hx|coolant_mass", "ac|propulsion|thermal|hx|coolant_mass", "kg", "kg"⟩,
     ⟨"dvs", "ac|propulsion|thermal|hx|channel_width", "ac|propulsion|thermal|hx|channel_width", "mm", "mm"⟩,
     ⟨"dvs", "ac|propulsion|thermal|hx|channel_height", "ac|propulsion|thermal|hx|channel_height", "mm", "mm"⟩,
     ⟨"dvs", "ac|propulsion|thermal|hx|channel_length", "ac|propulsion|thermal|hx|channel_length", "m", "m"⟩,
     ⟨"dvs", "ac|propulsion|thermal|hx|n_parallel", "ac|propulsion|thermal|hx|n_parallel", "", ""⟩,
     ⟨"dvs", "ac|propulsion|battery|specific_energy", "ac|propulsion|battery|specific_energy", "W*h/kg", "W*h/kg"⟩,
     ⟨"motor1", "shaft_power_out", "motor1.shaft_power_out", "W", "W"⟩, ⟨"motor1", "heat_out", "motor1.heat_out", "W", "W"⟩,
     ⟨"motor1", "elec_load", "motor1.elec_load", "W", "W"⟩,
     ⟨"motor1", "component_cost", "motor1.component_cost", "USD", "USD"⟩,
     ⟨"motor1", "component_weight", "motor1.component_weight", "kg", "kg"⟩,
     ⟨"motor1", "component_sizing_margin", "motor1.component_sizing_margin", "", ""⟩,
     ⟨"motor1", "throttle", "throttle", "", ""⟩, ⟨"motor1", "elec_power_rating", "motor_rating", "kW", "W"⟩,
     ⟨"prop1", "cp", "prop1.cp", "", ""⟩, ⟨"prop1", "J", "prop1.J", "", ""⟩,
     ⟨"prop1", "prop_Vtip", "prop1.prop_Vtip", "", ""⟩, ⟨"prop1", "eta_prop", "prop1.eta_prop", "", ""⟩,
     ⟨"prop1", "ct_over_cp", "prop1.ct_over_cp", "", ""⟩, ⟨"prop1", "thrust", "prop1.thrust", "N", "N"⟩,
     ⟨"prop1", "component_weight", "prop1.component_weight", "lb", "lb"⟩,
     ⟨"prop1", "shaft_power_in", "motor1.shaft_power_out", "W", "W"⟩, ⟨"prop1", "diameter", "prop_diameter", "m", "m"⟩,
     ⟨"prop1", "rpm", "prop1.rpm", "rpm", "rpm"⟩, ⟨"prop1", "fltcond|rho", "fltcond|rho", "kg / m ** 3", "kg / m ** 3"⟩,
     ⟨"prop1", "fltcond|Utrue", "fltcond|Utrue", "m/s", "m/s"⟩, ⟨"prop1", "power_rating", "motor_rating", "kW", "hp"⟩,
     ⟨"failedmotor", "motor2throttle", "failedmotor.motor2throttle", "", ""⟩,
     ⟨"failedmotor", "throttle", "throttle", "", ""⟩, ⟨"failedmotor", "propulsor_active", "propulsor_active", "", ""⟩,
     ⟨"motor2", "shaft_power_out", "motor2.shaft_power_out", "W", "W"⟩, ⟨"motor2", "heat_out", "motor2.heat_out", "W", "W"⟩,
     ⟨"motor2", "elec_load", "motor2.elec_load", "W", "W"⟩,
     ⟨"motor2", "component_cost", "motor2.component_cost", "USD", "USD"⟩,
     ⟨"motor2", "component_weight", "motor2.component_weight", "kg", "kg"⟩,
     ⟨"motor2", "component_sizing_margin", "motor2.component_sizing_margin", "", ""⟩,
     ⟨"motor2", "throttle", "failedmotor.motor2throttle", "", ""⟩,
     ⟨"motor2", "elec_power_rating", "motor_rating", "kW", "W"⟩, ⟨"prop2", "cp", "prop2.cp", "", ""⟩,
     ⟨"prop2", "J", "prop2.J", "", ""⟩, ⟨"prop2", "prop_Vtip", "prop2.prop_Vtip", "", ""⟩,
     ⟨"prop2", "eta_prop", "prop2.eta_prop", "", ""⟩, ⟨"prop2", "ct_over_cp", "prop2.ct_over_cp", "", ""⟩,
     ⟨"prop2", "thrust", "prop2.thrust", "N", "N"⟩, ⟨"prop2", "component_weight", "prop2.component_weight", "lb", "lb"⟩,
     ⟨"prop2", "shaft_power_in", "motor2.shaft_power_out", "W", "W"⟩, ⟨"prop2", "diameter", "prop_diameter", "m", "m"⟩,
     ⟨"prop2", "rpm", "prop2.rpm", "rpm", "rpm"⟩, ⟨"prop2", "fltcond|rho", "fltcond|rho", "kg / m ** 3", "kg / m ** 3"⟩,
     ⟨"prop2", "fltcond|Utrue", "fltcond|Utrue", "m/s", "m/s"⟩, ⟨"prop2", "power_rating", "motor_rating", "kW", "hp"⟩,
     ⟨"add_power", "motors_elec_load", "motors_elec_load", "kW", "kW"⟩, ⟨"add_power", "thrust", "thrust", "N", "N"⟩,
     ⟨"add_power", "motor1_elec_load", "motor1.elec_load", "W", "kW"⟩,
     ⟨"add_power", "motor2_elec_load", "motor2.elec_load", "W", "kW"⟩,
     ⟨"add_power", "prop1_thrust", "prop1.thrust", "N", "N"⟩, ⟨"add_power", "prop2_thrust", "prop2.thrust", "N", "N"⟩,
     ⟨"hybrid_split", "power_out_A", "hybrid_split.power_out_A", "W", "W"⟩,
     ⟨"hybrid_split", "power_out_B", "hybrid_split.power_out_B", "W", "W"⟩,
     ⟨"hybrid_split", "heat_out", "hybrid_split.heat_out", "W", "W"⟩,
     ⟨"hybrid_split", "component_cost", "hybrid_split.component_cost", "USD", "USD"⟩,
     ⟨"hybrid_split", "component_weight", "hybrid_split.component_weight", "kg", "kg"⟩,
     ⟨"hybrid_split", "component_sizing_margin", "hybrid_split.component_sizing_margin", "", ""⟩,
     ⟨"hybrid_split", "power_in", "motors_elec_load", "kW", "W"⟩,
     ⟨"hybrid_split", "power_rating", "hybrid_split.power_rating", "W", "W"⟩,
     ⟨"hybrid_split", "power_split_fraction", "hybrid_split.power_split_fraction", "", ""⟩,
     ⟨"eng1", "shaft_power_out", "eng1.shaft_power_out", "W", "W"⟩, ⟨"eng1", "fuel_flow", "fuel_flow", "kg/s", "kg/s"⟩,
     ⟨"eng1", "component_cost", "eng1.component_cost", "USD", "USD"⟩,
     ⟨"eng1", "component_weight", "eng1.component_weight", "kg", "kg"⟩,
     ⟨"eng1", "component_sizing_margin", "eng1.component_sizing_margin", "", ""⟩,
     ⟨"eng1", "throttle", "eng_throttle_set.eng_throttle", "", ""⟩, ⟨"eng1", "shaft_power_rating", "eng_rating", "kW", "W"⟩,
     ⟨"gen1", "elec_power_out", "gen1.elec_power_out", "W", "W"⟩, ⟨"gen1", "heat_out", "gen1.heat_out", "W", "W"⟩,
     ⟨"gen1", "component_cost", "gen1.component_cost", "USD", "USD"⟩,
     ⟨"gen1", "component_weight", "gen1.component_weight", "kg", "kg"⟩,
     ⟨"gen1", "component_sizing_margin", "gen1.component_sizing_margin", "", ""⟩,
     ⟨"gen1", "shaft_power_in", "eng1.shaft_power_out", "W", "W"⟩, ⟨"gen1", "elec_power_rating", "gen_rating", "kW", "W"⟩,
     ⟨"batt1", "heat_out", "batt1.heat_out", "W", "W"⟩, ⟨"batt1", "component_cost", "batt1.component_cost", "USD", "USD"⟩,
     ⟨"batt1", "component_sizing_margin", "batt1.component_sizing_margin", "", ""⟩,
     ⟨"batt1", "max_energy", "batt1.max_energy", "W*h", "W*h"⟩,
     ⟨"batt1", "dSOCdt", "batt1.dSOCdt", "W / (kJ) ", "W / (kJ) "⟩, ⟨"batt1", "SOC_final", "batt1.SOC_final", "", ""⟩,
     ⟨"batt1", "SOC", "batt1.SOC", "", ""⟩, ⟨"batt1", "battery_weight", "batt_weight", "kg", "kg"⟩,
     ⟨"batt1", "elec_load", "hybrid_split.power_out_A", "W", "W"⟩,
     ⟨"batt1", "specific_energy", "specific_energy", "W*h/kg", "W * h / kg"⟩, ⟨"batt1", "duration", "duration", "s", "s"⟩,
     ⟨"batt1", "SOC_initial", "batt1.SOC_initial", "", ""⟩,
     ⟨"eng_throttle_set", "eng_throttle", "eng_throttle_set.eng_throttle", "", ""⟩,
     ⟨"eng_throttle_set", "gen_power_available", "gen1.elec_power_out", "W", "kW"⟩,
     ⟨"eng_throttle_set", "gen_power_required", "hybrid_split.power_out_B", "W", "kW"⟩,
     ⟨"relabel", "battery_load", "battery_load", "kW", "kW"⟩,
     ⟨"relabel", "hybrid_split_A_in", "hybrid_split.power_out_A", "W", "kW"⟩,
     ⟨"adder", "motors_weight", "motors_weight", "kg", "kg"⟩,
     ⟨"adder", "propellers_weight", "propellers_weight", "kg", "kg"⟩, ⟨"adder", "motors_heat", "motors_heat", "W", "W"⟩,
     ⟨"adder", "motor1_weight", "motor1.component_weight", "kg", "kg"⟩,
     ⟨"adder", "motor2_weight", "motor2.component_weight", "kg", "kg"⟩,
     ⟨"adder", "prop1_weight", "prop1.component_weight", "lb", "kg"⟩,
     ⟨"adder", "prop2_weight", "prop2.component_weight", "lb", "kg"⟩, ⟨"adder", "motor1_heat", "motor1.heat_out", "W", "W"⟩,
     ⟨"adder", "motor2_heat", "motor2.heat_out", "W", "W"⟩,
     ⟨"batteryheatsink", "base.dTdt", "batteryheatsink.base.dTdt", "K/s", "K/s"⟩,
     ⟨"batteryheatsink", "T_final", "batteryheatsink.T_final", "K", "K"⟩,
     ⟨"batteryheatsink", "T", "batteryheatsink.T", "K", "K"⟩,
     ⟨"batteryheatsink", "hex.q", "batteryheatsink.hex.q", "W", "W"⟩,
     ⟨"batteryheatsink", "T_out", "batteryheatsink.T_out", "K", "K"⟩,
     ⟨"batteryheatsink", "q_in", "batt1.heat_out", "W", "W"⟩, ⟨"batteryheatsink", "mass", "batt_weight", "kg", "kg"⟩,
     ⟨"batteryheatsink", "duration", "duration", "s", "s"⟩,
     ⟨"batteryheatsink", "T_initial", "batteryheatsink.T_initial", "K", "K"⟩,
     ⟨"batteryheatsink", "T_in", "reservoir.T_out", "K", "K"⟩,
     ⟨"batteryheatsink", "channel_width", "channel_width", "mm", "m"⟩,
     ⟨"batteryheatsink", "channel_height", "channel_height", "mm", "m"⟩,
     ⟨"batteryheatsink", "channel_length", "channel_length", "m", "m"⟩,
     ⟨"batteryheatsink", "n_parallel", "n_parallel", "", ""⟩,
     ⟨"batteryheatsink", "mdot_coolant", "mdot_coolant", "kg/s", "kg/s"⟩,
     ⟨"motorheatsink", "base.dTdt", "motorheatsink.base.dTdt", "K/s", "K/s"⟩,
     ⟨"motorheatsink", "T_final", "motorheatsink.T_final", "K", "K"⟩, ⟨"motorheatsink", "T", "motorheatsink.T", "K", "K"⟩,
     ⟨"motorheatsink", "hex.q", "motorheatsink.hex.q", "W", "W"⟩,
     ⟨"motorheatsink", "T_out", "motorheatsink.T_out", "K", "K"⟩, ⟨"motorheatsink", "q_in", "motors_heat", "W", "W"⟩,
     ⟨"motorheatsink", "mass", "motors_weight", "kg", "kg"⟩, ⟨"motorheatsink", "duration", "duration", "s", "s"⟩,
     ⟨"motorheatsink", "T_initial", "motorheatsink.T_initial", "K", "K"⟩,
     ⟨"motorheatsink", "T_in", "batteryheatsink.T_out", "K", "K"⟩,
     ⟨"motorheatsink", "channel_width", "channel_width", "mm", "m"⟩,
     ⟨"motorheatsink", "channel_height", "channel_height", "mm", "m"⟩,
     ⟨"motorheatsink", "channel_length", "channel_length", "m", "m"⟩, ⟨"motorheatsink", "n_parallel", "n_parallel", "", ""⟩,
     ⟨"motorheatsink", "mdot_coolant", "mdot_coolant", "kg/s", "kg/s"⟩, ⟨"duct", "mdot", "duct.mdot", "kg/s", "kg/s"⟩,
     ⟨"duct", "drag", "duct.drag", "N", "N"⟩, ⟨"duct", "fltcond|Utrue", "fltcond|Utrue", "m/s", "m/s"⟩,
     ⟨"duct", "fltcond|rho", "fltcond|rho", "kg / m ** 3", "kg/m**3"⟩,
     ⟨"duct", "area_nozzle", "ac|propulsion|thermal|duct|area_nozzle", "inch**2", "m**2"⟩,
     ⟨"duct", "delta_p_hex", "hx.delta_p_cold", "Pa", "Pa"⟩, ⟨"hx", "n_wide_cold", "hx.n_wide_cold", "", ""⟩,
     ⟨"hx", "n_long_cold", "hx.n_long_cold", "", ""⟩, ⟨"hx", "n_tall", "hx.n_tall", "", ""⟩,
     ⟨"hx", "component_weight", "hx.component_weight", "kg", "kg"⟩, ⟨"hx", "length_overall", "hx.length_overall", "m", "m"⟩,
     ⟨"hx", "height_overall", "hx.height_overall", "m", "m"⟩, ⟨"hx", "width_overall", "hx.width_overall", "m", "m"⟩,
     ⟨"hx", "frontal_area", "hx.frontal_area", "m**2", "m**2"⟩, ⟨"hx", "xs_area_cold", "hx.xs_area_cold", "m**2", "m**2"⟩,
     ⟨"hx", "heat_transfer_area_cold", "hx.heat_transfer_area_cold", "m**2", "m**2"⟩,
     ⟨"hx", "dh_cold", "hx.dh_cold", "m", "m"⟩, ⟨"hx", "fin_area_ratio_cold", "hx.fin_area_ratio_cold", "", ""⟩,
     ⟨"hx", "contraction_ratio_cold", "hx.contraction_ratio_cold", "", ""⟩, ⟨"hx", "alpha_cold", "hx.alpha_cold", "", ""⟩,
     ⟨"hx", "delta_cold", "hx.delta_cold", "", ""⟩, ⟨"hx", "gamma_cold", "hx.gamma_cold", "", ""⟩,
     ⟨"hx", "xs_area_hot", "hx.xs_area_hot", "m**2", "m**2"⟩,
     ⟨"hx", "heat_transfer_area_hot", "hx.heat_transfer_area_hot", "m**2", "m**2"⟩, ⟨"hx", "dh_hot", "hx.dh_hot", "m", "m"⟩,
     ⟨"hx", "fin_area_ratio_hot", "hx.fin_area_ratio_hot", "", ""⟩,
     ⟨"hx", "contraction_ratio_hot", "hx.contraction_ratio_hot", "", ""⟩, ⟨"hx", "alpha_hot", "hx.alpha_hot", "", ""⟩,
     ⟨"hx", "delta_hot", "hx.delta_hot", "", ""⟩, ⟨"hx", "gamma_hot", "hx.gamma_hot", "", ""⟩,
     ⟨"hx", "Re_dh_cold", "hx.Re_dh_cold", "", ""⟩, ⟨"hx", "Re_dh_hot", "hx.Re_dh_hot", "", ""⟩,
     ⟨"hx", "j_cold", "hx.j_cold", "", ""⟩, ⟨"hx", "f_cold", "hx.f_cold", "", ""⟩, ⟨"hx", "j_hot", "hx.j_hot", "", ""⟩,
     ⟨"hx", "f_hot", "hx.f_hot", "", ""⟩, ⟨"hx", "Nu_dh_cold", "hx.Nu_dh_cold", "", ""⟩,
     ⟨"hx", "Nu_dh_hot", "hx.Nu_dh_hot", "", ""⟩, ⟨"hx", "h_conv_cold", "hx.h_conv_cold", "W/m**2/K", "W/m**2/K"⟩,
     ⟨"hx", "h_conv_hot", "hx.h_conv_hot", "W/m**2/K", "W/m**2/K"⟩,
     ⟨"hx", "eta_overall_cold", "hx.eta_overall_cold", "", ""⟩, ⟨"hx", "eta_overall_hot", "hx.eta_overall_hot", "", ""⟩,
     ⟨"hx", "UA_overall", "hx.UA_overall", "W/K", "W/K"⟩, ⟨"hx", "NTU", "hx.NTU", "", ""⟩,
     ⟨"hx", "heat_max", "hx.heat_max", "W", "W"⟩, ⟨"hx", "C_ratio", "hx.C_ratio", "", ""⟩,
     ⟨"hx", "effectiveness", "hx.effectiveness", "", ""⟩, ⟨"hx", "heat_transfer", "hx.heat_transfer", "W", "W"⟩,
     ⟨"hx", "T_out_cold", "hx.T_out_cold", "K", "K"⟩, ⟨"hx", "T_out_hot", "hx.T_out_hot", "K", "K"⟩,
     ⟨"hx", "delta_p_cold", "hx.delta_p_cold", "Pa", "Pa"⟩, ⟨"hx", "delta_p_hot", "hx.delta_p_hot", "Pa", "Pa"⟩,
     ⟨"hx", "ac|propulsion|thermal|hx|n_wide_cold", "ac|propulsion|thermal|hx|n_wide_cold", "", ""⟩,
     ⟨"hx", "ac|propulsion|thermal|hx|n_long_cold", "ac|propulsion|thermal|hx|n_long_cold", "", ""⟩,
     ⟨"hx", "ac|propulsion|thermal|hx|n_tall", "ac|propulsion|thermal|hx|n_tall", "", ""⟩,
     ⟨"hx", "channel_width_hot", "hx.channel_width_hot", "mm", "mm"⟩,
     ⟨"hx", "channel_height_hot", "hx.channel_height_hot", "mm", "mm"⟩,
     ⟨"hx", "fin_length_hot", "hx.fin_length_hot", "mm", "mm"⟩,
     ⟨"hx", "channel_width_cold", "hx.channel_width_cold", "mm", "mm"⟩,
     ⟨"hx", "channel_height_cold", "hx.channel_height_cold", "mm", "mm"⟩,
     ⟨"hx", "fin_length_cold", "hx.fin_length_cold", "mm", "mm"⟩, ⟨"hx", "fin_thickness", "hx.fin_thickness", "mm", "mm"⟩,
     ⟨"hx", "plate_thickness", "hx.plate_thickness", "mm", "mm"⟩, ⟨"hx", "case_thickness", "hx.case_thickness", "mm", "mm"⟩,
     ⟨"hx", "material_rho", "hx.material_rho", "kg/m**3", "kg/m**3"⟩, ⟨"hx", "mdot_cold", "duct.mdot", "kg/s", "kg/s"⟩,
     ⟨"hx", "mu_cold", "hx.mu_cold", "kg/m/s", "kg/m/s"⟩, ⟨"hx", "mdot_hot", "mdot_coolant", "kg/s", "kg/s"⟩,
     ⟨"hx", "mu_hot", "hx.mu_hot", "kg/m/s", "kg/m/s"⟩, ⟨"hx", "k_cold", "hx.k_cold", "W/m/K", "W/m/K"⟩,
     ⟨"hx", "cp_cold", "hx.cp_cold", "J/kg/K", "J/kg/K"⟩, ⟨"hx", "k_hot", "hx.k_hot", "W/m/K", "W/m/K"⟩,
     ⟨"hx", "cp_hot", "hx.cp_hot", "J/kg/K", "J/kg/K"⟩, ⟨"hx", "material_k", "hx.material_k", "W/m/K", "W/m/K"⟩,
     ⟨"hx", "T_in_cold", "fltcond|T", "K", "K"⟩, ⟨"hx", "T_in_hot", "motorheatsink.T_out", "K", "K"⟩,
     ⟨"hx", "rho_cold", "fltcond|rho", "kg / m ** 3", "kg/m**3"⟩, ⟨"hx", "rho_hot", "rho_coolant", "kg/m**3", "kg/m**3"⟩,
     ⟨"iv", "rho_coolant", "rho_coolant", "kg/m**3", "kg/m**3"⟩,
     ⟨"iv", "ac|propulsion|thermal|duct|area_nozzle", "ac|propulsion|thermal|duct|area_nozzle", "inch**2", "inch**2"⟩,
     ⟨"reservoir", "rate.dTdt", "reservoir.rate.dTdt", "K/s", "K/s"⟩,
     ⟨"reservoir", "T_final", "reservoir.T_final", "K", "K"⟩, ⟨"reservoir", "T_out", "reservoir.T_out", "K", "K"⟩,
     ⟨"reservoir", "T_in", "hx.T_out_hot", "K", "K"⟩, ⟨"reservoir", "mdot_coolant", "mdot_coolant", "kg/s", "kg/s"⟩,
     ⟨"reservoir", "mass", "coolant_mass", "kg", "kg"⟩, ⟨"reservoir", "duration", "duration", "s", "s"⟩,
     ⟨"reservoir", "T_initial", "reservoir.T_initial", "K", "K"⟩] := by
  decide +kernel

theorem refrigeratedHybrid_links : refrigeratedHybrid.links =
    [⟨"dvs", "eng_rating", "eng_rating", "kW", "kW"⟩, ⟨"dvs", "prop_diameter", "prop_diameter", "m", "m"⟩,
     ⟨"dvs", "motor_rating", "motor_rating", "kW", "kW"⟩, ⟨"dvs", "gen_rating", "gen_rating", "kW", "kW"⟩,
     ⟨"dvs", "batt_weight", "batt_weight", "kg", "kg"⟩, ⟨"dvs", "refrig_rating", "refrig_rating", "kW", "kW"⟩,
     ⟨"dvs", "refrig_spec_pow", "refrig_spec_pow", "W/kg", "W/kg"⟩,
     ⟨"dvs", "refrig_eff_factor", "refrig_eff_factor", "", ""⟩, ⟨"dvs", "mdot_coolant", "mdot_coolant", "kg/s", "kg/s"⟩,
     ⟨"dvs", "coolant_mass", "coolant_mass", "kg", "kg"⟩, ⟨"dvs", "channel_width", "channel_width", "mm", "mm"⟩,
     ⟨"dvs", "channel_height", "channel_height", "mm", "mm"⟩, ⟨"dvs", "channel_length", "channel_length", "m", "m"⟩,
     ⟨"dvs", "n_parallel", "n_parallel", "", ""⟩, ⟨"dvs", "area_nozzle", "area_nozzle", "inch**2", "inch**2"⟩,
     ⟨"dvs", "specific_energy", "specific_energy", "W*h/kg", "W*h/kg"⟩,
     ⟨"dvs", "ac|propulsion|engine|rating", "ac|propulsion|engine|rating", "kW", "kW"⟩,
     ⟨"dvs", "ac|propulsion|propeller|diameter", "ac|propulsion|propeller|diameter", "m", "m"⟩,
     ⟨"dvs", "ac|propulsion|motor|rating", "ac|propulsion|motor|rating", "kW", "kW"⟩,
     ⟨"dvs", "ac|propulsion|generator|rating", "ac|propulsion|generator|rating", "kW", "kW"⟩,
     ⟨"dvs", "ac|weights|W_battery", "ac|weights|W_battery", "kg", "kg"⟩,
     ⟨"dvs", "ac|propulsion|thermal|refrig|rating", "ac|propulsion|thermal|refrig|rating", "kW", "kW"⟩,
     ⟨"dvs", "ac|propulsion|thermal|refrig|specific_power", "ac|propulsion|thermal|refrig|specific_power", "W/kg", "W/kg"⟩,
     ⟨"dvs", "ac|propulsion|thermal|refrig|eff", "ac|propulsion|thermal|refrig|eff", "", ""⟩,
     ⟨"dvs", "ac|propulsion|thermal|hx|mdot_coolant", "ac|propulsion|thermal|hx|mdot_coolant", "kg/s", "kg/s"⟩,
     ⟨"dvs", "ac|propulsion|thermal|hx|coolant_mass", "ac|propulsion|thermal|hx|coolant_mass", "kg", "kg"⟩,
     ⟨"dvs", "ac|propulsion|thermal|hx|channel_width", "ac|propulsion|thermal|hx|channel_width", "mm", "mm"⟩,
     ⟨"dvs", "ac|propulsion|thermal|hx|channel_height", "ac|propulsion|thermal|hx|channel_height", "mm", "mm"⟩,
     ⟨"dvs", "ac|propulsion|thermal|hx|channel_length", "ac|propulsion|thermal|hx|channel_length", "m", "m"⟩,
     ⟨"dvs", "ac|propulsion|thermal|hx|n_parallel", "ac|propulsion|thermal|hx|n_parallel", "", ""⟩,
     ⟨"dvs", "ac|propulsion|thermal|duct|area_nozzle", "ac|propulsion|thermal|duct|area_nozzle", "inch**2", "inch**2"⟩,
     ⟨"dvs", "ac|propulsion|battery|specific_energy", "ac|propulsion|battery|specific_energy", "W*h/kg", "W*h/kg"⟩,
     ⟨"motor1", "shaft_power_out", "motor1.shaft_power_out", "W", "W"⟩, ⟨"motor1", "heat_out", "motor1.heat_out", "W", "W"⟩,
     ⟨"motor1", "elec_load", "motor1.elec_load", "W", "W"⟩,
     ⟨"motor1", "component_cost", "motor1.component_cost", "USD", "USD"⟩,
     ⟨"motor1", "component_weight", "motor1.component_weight", "kg", "kg"⟩,
     ⟨"motor1", "component_sizing_margin", "motor1.component_sizing_margin", "", ""⟩,
     ⟨"motor1", "throttle", "throttle", "", ""⟩, ⟨"motor1", "elec_power_rating", "motor_rating", "kW", "W"⟩,
     ⟨"prop1", "cp", "prop1.cp", "", ""⟩, ⟨"prop1", "J", "prop1.J", "", ""⟩,
     ⟨"prop1", "prop_Vtip", "prop1.prop_Vtip", "", ""⟩, ⟨"prop1", "eta_prop", "prop1.eta_prop", "", ""⟩,
     ⟨"prop1", "ct_over_cp", "prop1.ct_over_cp", "", ""⟩, ⟨"prop1", "thrust", "prop1.thrust", "N", "N"⟩,
     ⟨"prop1", "component_weight", "prop1.component_weight", "lb", "lb"⟩,
     ⟨"prop1", "shaft_power_in", "motor1.shaft_power_out", "W", "W"⟩, ⟨"prop1", "diameter", "prop_diameter", "m", "m"⟩,
     ⟨"prop1", "rpm", "prop1.rpm", "rpm", "rpm"⟩, ⟨"prop1", "fltcond|rho", "fltcond|rho", "kg / m ** 3", "kg / m ** 3"⟩,
     ⟨"prop1", "fltcond|Utrue", "fltcond|Utrue", "m/s", "m/s"⟩, ⟨"prop1", "power_rating", "motor_rating", "kW", "hp"⟩,
     ⟨"failedmotor", "motor2throttle", "failedmotor.motor2throttle", "", ""⟩,
     ⟨"failedmotor", "throttle", "throttle", "", ""⟩, ⟨"failedmotor", "propulsor_active", "propulsor_active", "", ""⟩,
     ⟨"motor2", "shaft_power_out", "motor2.shaft_power_out", "W", "W"⟩, ⟨"motor2", "heat_out", "motor2.heat_out", "W", "W"⟩,
     ⟨"motor2", "elec_load", "motor2.elec_load", "W", "W"⟩,
     ⟨"motor2", "component_cost", "motor2.component_cost", "USD", "USD"⟩,
     ⟨"motor2", "component_weight", "motor2.component_weight", "kg", "kg"⟩,
     ⟨"motor2", "component_sizing_margin", "motor2.component_sizing_margin", "", ""⟩,
     ⟨"motor2", "throttle", "failedmotor.motor2throttle", "", ""⟩,
     ⟨"motor2", "elec_power_rating", "motor_rating", "kW", "W"⟩, ⟨"prop2", "cp", "prop2.cp", "", ""⟩,
     ⟨"prop2", "J", "prop2.J", "", ""⟩, ⟨"prop2", "prop_Vtip", "prop2.prop_Vtip", "", ""⟩,
     ⟨"prop2", "eta_prop", "prop2.eta_prop", "", ""⟩, ⟨"prop2", "ct_over_cp", "prop2.ct_over_cp", "", ""⟩,
     ⟨"prop2", "thrust", "prop2.thrust", "N", "N"⟩, ⟨"prop2", "component_weight", "prop2.component_weight", "lb", "lb"⟩,
     ⟨"prop2", "shaft_power_in", "motor2.shaft_power_out", "W", "W"⟩, ⟨"prop2", "diameter", "prop_diameter", "m", "m"⟩,
     ⟨"prop2", "rpm", "prop2.rpm", "rpm", "rpm"⟩, ⟨"prop2", "fltcond|rho", "fltcond|rho", "kg / m ** 3", "kg / m ** 3"⟩,
     ⟨"prop2", "fltcond|Utrue", "fltcond|Utrue", "m/s", "m/s"⟩, ⟨"prop2", "power_rating", "motor_rating", "kW", "hp"⟩,
     ⟨"add_power", "total_elec_load", "total_elec_load", "kW", "kW"⟩, ⟨"add_power", "thrust", "thrust", "N", "N"⟩,
     ⟨"add_power", "motor1_elec_load", "motor1.elec_load", "W", "kW"⟩,
     ⟨"add_power", "motor2_elec_load", "motor2.elec_load", "W", "kW"⟩,
     ⟨"add_power", "refrig_elec_load", "refrig.elec_load", "W", "kW"⟩,
     ⟨"add_power", "prop1_thrust", "prop1.thrust", "N", "N"⟩, ⟨"add_power", "prop2_thrust", "prop2.thrust", "N", "N"⟩,
     ⟨"hybrid_split", "power_out_A", "hybrid_split.power_out_A", "W", "W"⟩,
     ⟨"hybrid_split", "power_out_B", "hybrid_split.power_out_B", "W", "W"⟩,
     ⟨"hybrid_split", "heat_out", "hybrid_split.heat_out", "W", "W"⟩,
     ⟨"hybrid_split", "component_cost", "hybrid_split.component_cost", "USD", "USD"⟩,
     ⟨"hybrid_split", "component_weight", "hybrid_split.component_weight", "kg", "kg"⟩,
     ⟨"hybrid_split", "component_sizing_margin", "hybrid_split.component_sizing_margin", "", ""⟩,
     ⟨"hybrid_split", "power_in", "total_elec_load", "kW", "W"⟩,
     ⟨"hybrid_split", "power_rating", "hybrid_split.power_rating", "W", "W"⟩,
     ⟨"hybrid_split", "power_split_fraction", "hybrid_split.power_split_fraction", "", ""⟩,
     ⟨"eng1", "shaft_power_out", "eng1.shaft_power_out", "W", "W"⟩, ⟨"eng1", "fuel_flow", "fuel_flow", "kg/s", "kg/s"⟩,
     ⟨"eng1", "component_cost", "eng1.component_cost", "USD", "USD"⟩,
     ⟨"eng1", "component_weight", "eng1.component_weight", "kg", "kg"⟩,
     ⟨"eng1", "component_sizing_margin", "eng1.component_sizing_margin", "", ""⟩,
     ⟨"eng1", "throttle", "eng_throttle_set.eng_throttle", "", ""⟩, ⟨"eng1", "shaft_power_rating", "eng_rating", "kW", "W"⟩,
     ⟨"gen1", "elec_power_out", "gen1.elec_power_out", "W", "W"⟩, ⟨"gen1", "heat_out", "gen1.heat_out", "W", "W"⟩,
     ⟨"gen1", "component_cost", "gen1.component_cost", "USD", "USD"⟩,
     ⟨"gen1", "component_weight", "gen1.component_weight", "kg", "kg"⟩,
     ⟨"gen1", "component_sizing_margin", "gen1.component_sizing_margin", "", ""⟩,
     ⟨"gen1", "shaft_power_in", "eng1.shaft_power_out", "W", "W"⟩, ⟨"gen1", "elec_power_rating", "gen_rating", "kW", "W"⟩,
     ⟨"batt1", "heat_out", "batt1.heat_out", "W", "W"⟩, ⟨"batt1", "component_cost", "batt1.component_cost", "USD", "USD"⟩,
     ⟨"batt1", "component_sizing_margin", "batt1.component_sizing_margin", "", ""⟩,
     ⟨"batt1", "max_energy", "batt1.max_energy", "W*h", "W*h"⟩,
     ⟨"batt1", "dSOCdt", "batt1.dSOCdt", "W / (kJ) ", "W / (kJ) "⟩, ⟨"batt1", "SOC_final", "batt1.SOC_final", "", ""⟩,
     ⟨"batt1", "SOC", "batt1.SOC", "", ""⟩, ⟨"batt1", "battery_weight", "batt_weight", "kg", "kg"⟩,
     ⟨"batt1", "elec_load", "hybrid_split.power_out_A", "W", "W"⟩,
     ⟨"batt1", "specific_energy", "specific_energy", "W*h/kg", "W * h / kg"⟩, ⟨"batt1", "duration", "duration", "s", "s"⟩,
     ⟨"batt1", "SOC_initial", "batt1.SOC_initial", "", ""⟩,
     ⟨"eng_throttle_set", "eng_throttle", "eng_throttle_set.eng_throttle", "", ""⟩,
     ⟨"eng_throttle_set", "gen_power_available", "gen1.elec_power_out", "W", "kW"⟩,
     ⟨"eng_throttle_set", "gen_power_required", "hybrid_split.power_out_B", "W", "kW"⟩,
     ⟨"relabel", "battery_load", "battery_load", "kW", "kW"⟩,
     ⟨"relabel", "hybrid_split_A_in", "hybrid_split.power_out_A", "W", "kW"⟩,
     ⟨"adder", "motors_weight", "motors_weight", "kg", "kg"⟩,
     ⟨"adder", "propellers_weight", "propellers_weight", "kg", "kg"⟩, ⟨"adder", "motors_heat", "motors_heat", "W", "W"⟩,
     ⟨"adder", "motor1_weight", "motor1.component_weight", "kg", "kg"⟩,
     ⟨"adder", "motor2_weight", "motor2.component_weight", "kg", "kg"⟩,
     ⟨"adder", "prop1_weight", "prop1.component_weight", "lb", "kg"⟩,
     ⟨"adder", "prop2_weight", "prop2.component_weight", "lb", "kg"⟩, ⟨"adder", "motor1_heat", "motor1.heat_out", "W", "W"⟩,
     ⟨"adder", "motor2_heat", "motor2.heat_out", "W", "W"⟩,
     ⟨"batteryheatsink", "base.dTdt", "batteryheatsink.base.dTdt", "K/s", "K/s"⟩,
     ⟨"batteryheatsink", "T_final", "batteryheatsink.T_final", "K", "K"⟩,
     ⟨"batteryheatsink", "T", "batteryheatsink.T", "K", "K"⟩,
     ⟨"batteryheatsink", "hex.q", "batteryheatsink.hex.q", "W", "W"⟩,
     ⟨"batteryheatsink", "T_out", "batteryheatsink.T_out", "K", "K"⟩,
     ⟨"batteryheatsink", "q_in", "batt1.heat_out", "W", "W"⟩, ⟨"batteryheatsink", "mass", "batt_weight", "kg", "kg"⟩,
     ⟨"batteryheatsink", "duration", "duration", "s", "s"⟩,
     ⟨"batteryheatsink", "T_initial", "batteryheatsink.T_initial", "K", "K"⟩,
     ⟨"batteryheatsink", "T_in", "refrig.T_out_cold", "K", "K"⟩,
     ⟨"batteryheatsink", "channel_width", "channel_width", "mm", "m"⟩,
     ⟨"batteryheatsink", "channel_height", "channel_height", "mm", "m"⟩,
     ⟨"batteryheatsink", "channel_length", "channel_length", "m", "m"⟩,
     ⟨"batteryheatsink", "n_parallel", "n_parallel", "", ""⟩,
     ⟨"batteryheatsink", "mdot_coolant", "mdot_coolant", "kg/s", "kg/s"⟩,
     ⟨"motorheatsink", "base.dTdt", "motorheatsink.base.dTdt", "K/s", "K/s"⟩,
     ⟨"motorheatsink", "T_final", "motorheatsink.T_final", "K", "K"⟩, ⟨"motorheatsink", "T", "motorheatsink.T", "K", "K"⟩,
     ⟨"motorheatsink", "hex.q", "motorheatsink.hex.q", "W", "W"⟩,
     ⟨"motorheatsink", "T_out", "motorheatsink.T_out", "K", "K"⟩, ⟨"motorheatsink", "q_in", "motors_heat", "W", "W"⟩,
     ⟨"motorheatsink", "mass", "motors_weight", "kg", "kg"⟩, ⟨"motorheatsink", "duration", "duration", "s", "s"⟩,
     ⟨"motorheatsink", "T_initial", "motorheatsink.T_initial", "K", "K"⟩,
     ⟨"motorheatsink", "T_in", "batteryheatsink.T_out", "K", "K"⟩,
     ⟨"motorheatsink", "channel_width", "channel_width", "mm", "m"⟩,
     ⟨"motorheatsink", "channel_height", "channel_height", "mm", "m"⟩,
     ⟨"motorheatsink", "channel_length", "channel_length", "m", "m"⟩, ⟨"motorheatsink", "n_parallel", "n_parallel", "", ""⟩,
     ⟨"motorheatsink", "mdot_coolant", "mdot_coolant", "kg/s", "kg/s"⟩, ⟨"duct", "mdot", "duct.mdot", "kg/s", "kg/s"⟩,
     ⟨"duct", "drag", "duct.drag", "N", "N"⟩, ⟨"duct", "fltcond|Utrue", "fltcond|Utrue", "m/s", "m/s"⟩,
     ⟨"duct", "fltcond|rho", "fltcond|rho", "kg / m ** 3", "kg/m**3"⟩,
     ⟨"duct", "area_nozzle", "duct.area_nozzle", "m**2", "m**2"⟩, ⟨"duct", "delta_p_hex", "hx.delta_p_cold", "Pa", "Pa"⟩,
     ⟨"hx", "n_wide_cold", "hx.n_wide_cold", "", ""⟩, ⟨"hx", "n_long_cold", "hx.n_long_cold", "", ""⟩,
     ⟨"hx", "n_tall", "hx.n_tall", "", ""⟩, ⟨"hx", "component_weight", "hx.component_weight", "kg", "kg"⟩,
     ⟨"hx", "length_overall", "hx.length_overall", "m", "m"⟩, ⟨"hx", "height_overall", "hx.height_overall", "m", "m"⟩,
     ⟨"hx", "width_overall", "hx.width_overall", "m", "m"⟩, ⟨"hx", "frontal_area", "hx.frontal_area", "m**2", "m**2"⟩,
     ⟨"hx", "xs_area_cold", "hx.xs_area_cold", "m**2", "m**2"⟩,
     ⟨"hx", "heat_transfer_area_cold", "hx.heat_transfer_area_cold", "m**2", "m**2"⟩,
     ⟨"hx", "dh_cold", "hx.dh_cold", "m", "m"⟩, ⟨"hx", "fin_area_ratio_cold", "hx.fin_area_ratio_cold", "", ""⟩,
     ⟨"hx", "contraction_ratio_cold", "hx.contraction_ratio_cold", "", ""⟩, ⟨"hx", "alpha_cold", "hx.alpha_cold", "", ""⟩,
     ⟨"hx", "delta_cold", "hx.delta_cold", "", ""⟩, ⟨"hx", "gamma_cold", "hx.gamma_cold", "", ""⟩,
     ⟨"hx", "xs_area_hot", "hx.xs_area_hot", "m**2", "m**2"⟩,
     ⟨"hx", "heat_transfer_area_hot", "hx.heat_transfer_area_hot", "m**2", "m**2"⟩, ⟨"hx", "dh_hot", "hx.dh_hot", "m", "m"⟩,
     ⟨"hx", "fin_area_ratio_hot", "hx.fin_area_ratio_hot", "", ""⟩,
     ⟨"hx", "contraction_ratio_hot", "hx.contraction_ratio_hot", "", ""⟩, ⟨"hx", "alpha_hot", "hx.alpha_hot", "", ""⟩,
     ⟨"hx", "delta_hot", "hx.delta_hot", "", ""⟩, ⟨"hx", "gamma_hot", "hx.gamma_hot", "", ""⟩,
     ⟨"hx", "Re_dh_cold", "hx.Re_dh_cold", "", ""⟩, ⟨"hx", "Re_dh_hot", "hx.Re_dh_hot", "", ""⟩,
     ⟨"hx", "j_cold", "hx.j_cold", "", ""⟩, ⟨"hx", "f_cold", "hx.f_cold", "", ""⟩, ⟨"hx", "j_hot", "hx.j_hot", "", ""⟩,
     ⟨"hx", "f_hot", "hx.f_hot", "", ""⟩, ⟨"hx", "Nu_dh_cold", "hx.Nu_dh_cold", "", ""⟩,
     ⟨"hx", "Nu_dh_hot", "hx.Nu_dh_hot", "", ""⟩, ⟨"hx", "h_conv_cold", "hx.h_conv_cold", "W/m**2/K", "W/m**2/K"⟩,
     ⟨"hx", "h_conv_hot", "hx.h_conv_hot", "W/m**2/K", "W/m**2/K"⟩,
     ⟨"hx", "eta_overall_cold", "hx.eta_overall_cold", "", ""⟩, ⟨"hx", "eta_overall_hot", "hx.eta_overall_hot", "", ""⟩,
     ⟨"hx", "UA_overall", "hx.UA_overall", "W/K", "W/K"⟩, ⟨"hx", "NTU", "hx.NTU", "", ""⟩,
     ⟨"hx", "heat_max", "hx.heat_max", "W", "W"⟩, ⟨"hx", "C_ratio", "hx.C_ratio", "", ""⟩,
     ⟨"hx", "effectiveness", "hx.effectiveness", "", ""⟩, ⟨"hx", "heat_transfer", "hx.heat_transfer", "W", "W"⟩,
     ⟨"hx", "T_out_cold", "hx.T_out_cold", "K", "K"⟩, ⟨"hx", "T_out_hot", "hx.T_out_hot", "K", "K"⟩,
     ⟨"hx", "delta_p_cold", "hx.delta_p_cold", "Pa", "Pa"⟩, ⟨"hx", "delta_p_hot", "hx.delta_p_hot", "Pa", "Pa"⟩,
     ⟨"hx", "ac|propulsion|thermal|hx|n_wide_cold", "ac|propulsion|thermal|hx|n_wide_cold", "", ""⟩,
     ⟨"hx", "ac|propulsion|thermal|hx|n_long_cold", "ac|propulsion|thermal|hx|n_long_cold", "", ""⟩,
     ⟨"hx", "ac|propulsion|thermal|hx|n_tall", "ac|propulsion|thermal|hx|n_tall", "", ""⟩,
     ⟨"hx", "channel_width_hot", "hx.channel_width_hot", "mm", "mm"⟩,
     ⟨"hx", "channel_height_hot", "hx.channel_height_hot", "mm", "mm"⟩,
     ⟨"hx", "fin_length_hot", "hx.fin_length_hot", "mm", "mm"⟩,
     ⟨"hx", "channel_width_cold", "hx.channel_width_cold", "mm", "mm"⟩,
     ⟨"hx", "channel_height_cold", "hx.channel_height_cold", "mm", "mm"⟩,
     ⟨"hx", "fin_length_cold", "hx.fin_length_cold", "mm", "mm"⟩, ⟨"hx", "fin_thickness", "hx.fin_thickness", "mm", "mm"⟩,
     ⟨"hx", "plate_thickness", "hx.plate_thickness", "mm", "mm"⟩, ⟨"hx", "case_thickness", "hx.case_thickness", "mm", "mm"⟩,
     ⟨"hx", "material_rho", "hx.material_rho", "kg/m**3", "kg/m**3"⟩, ⟨"hx", "mdot_cold", "duct.mdot", "kg/s", "kg/s"⟩,
     ⟨"hx", "mu_cold", "hx.mu_cold", "kg/m/s", "kg/m/s"⟩, ⟨"hx", "mdot_hot", "mdot_coolant", "kg/s", "kg/s"⟩,
     ⟨"hx", "mu_hot", "hx.mu_hot", "kg/m/s", "kg/m/s"⟩, ⟨"hx", "k_cold", "hx.k_cold", "W/m/K", "W/m/K"⟩,
     ⟨"hx", "cp_cold", "hx.cp_cold", "J/kg/K", "J/kg/K"⟩, ⟨"hx", "k_hot", "hx.k_hot", "W/m/K", "W/m/K"⟩,
     ⟨"hx", "cp_hot", "hx.cp_hot", "J/kg/K", "J/kg/K"⟩, ⟨"hx", "material_k", "hx.material_k", "W/m/K", "W/m/K"⟩,
     ⟨"hx", "T_in_cold", "fltcond|T", "K", "K"⟩, ⟨"hx", "T_in_hot", "refrig.T_out_hot", "K", "K"⟩,
     ⟨"hx", "rho_cold", "fltcond|rho", "kg / m ** 3", "kg/m**3"⟩, ⟨"hx", "rho_hot", "rho_coolant", "kg/m**3", "kg/m**3"⟩,
     ⟨"iv", "rho_coolant", "rho_coolant", "kg/m**3", "kg/m**3"⟩,
     ⟨"refrig", "control.bypass_start", "refrig.control.bypass_start", "", ""⟩,
     ⟨"refrig", "control.bypass_end", "refrig.control.bypass_end", "", ""⟩, ⟨"refrig", "bypass", "refrig.bypass", "", ""⟩,
     ⟨"refrig", "component_weight", "refrig.component_weight", "kg", "kg"⟩,
     ⟨"refrig", "hot_side.T_out", "refrig.hot_side.T_out", "K", "K"⟩,
     ⟨"refrig", "hot_side.T_average", "refrig.hot_side.T_average", "K", "K"⟩,
     ⟨"refrig", "cold_side.T_out", "refrig.cold_side.T_out", "K", "K"⟩,
     ⟨"refrig", "cold_side.T_average", "refrig.cold_side.T_average", "K", "K"⟩, ⟨"refrig", "COP", "refrig.COP", "", ""⟩,
     ⟨"refrig", "heat_pump.q_in_1", "refrig.heat_pump.q_in_1", "W", "W"⟩,
     ⟨"refrig", "heat_pump.q_in_2", "refrig.heat_pump.q_in_2", "W", "W"⟩,
     ⟨"refrig", "elec_load", "refrig.elec_load", "W", "W"⟩, ⟨"refrig", "T_out_cold", "refrig.T_out_cold", "K", "K"⟩,
     ⟨"refrig", "T_out_hot", "refrig.T_out_hot", "K", "K"⟩, ⟨"refrig", "power_rating", "refrig_rating", "kW", "W"⟩,
     ⟨"refrig", "specific_power", "refrig_spec_pow", "W/kg", "W/kg"⟩, ⟨"refrig", "T_in_hot", "hx.T_out_hot", "K", "K"⟩,
     ⟨"refrig", "mdot_coolant", "mdot_coolant", "kg/s", "kg/s"⟩, ⟨"refrig", "T_in_cold", "motorheatsink.T_out", "K", "K"⟩,
     ⟨"refrig", "eff_factor", "refrig_eff_factor", "", ""⟩] := by
  decide +kernel

end Verif.Wiring
