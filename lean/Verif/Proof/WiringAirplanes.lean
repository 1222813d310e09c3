import Verif.Model.WiringAirplanes
import Verif.Proof.WiringWeights
import Verif.Proof.WiringDrag

/-! Equations of the components of the airplane models, and where the variables are found (evaluated tables). -/

namespace Verif.Wiring

open Verif.Units Verif.VectorComps

theorem polarDrag_rel (b : Bool) (o : Opts) (V : String → ℝ) : (explicit (dPolarDrag b)).rel o V ↔
    V "drag" = Aero.drag ⟨V "fltcond|q", V "ac|geom|wing|S_ref", V "CD0", V "fltcond|CL", V "e", V "ac|geom|wing|AR"⟩ := by
  simp [explicit, dPolarDrag, polarDrag, withOpts, OptVal.get, lit, ref, List.lookup, eq_comm]

theorem weightSys_rel (o : Opts) (V : String → ℝ) (b) : (sum (Aircraft.weightSys 1) b).rel o V ↔
    V "weight" = V "ac|weights|MTOW" - V "fuel_used" := by
  simp [sum, Aircraft.weightSys, AddSys.compute, AddSys.factors, sub_eq_add_neg]

theorem conv_flow (x : ℝ) : conv "kg/s" "(kg) / (s)" x = x := by
  simp [conv, off, fac] <;> ring_nf

theorem conv_m2_ft2 (x : ℝ) : conv "m **2" "ft**2" x = x / 0.3048 ^ 2 := by
  simp [conv, off, fac] <;> ring_nf

theorem caravanGrp_links (cd0 : String) (h : cd0 ∈ ["ac|aero|polar|CD0_TO", "ac|aero|polar|CD0_cruise"]) : (caravanGrp cd0).links =
    [⟨"controls", "prop1rpm", "prop1rpm", "rpm", "rpm"⟩, ⟨"propmodel", "eng1_rating", "propmodel.eng1_rating", "hp", "hp"⟩,
     ⟨"propmodel", "prop1_diameter", "propmodel.prop1_diameter", "m", "m"⟩,
     ⟨"propmodel", "eng1.shaft_power_out", "propmodel.eng1.shaft_power_out", "W", "W"⟩,
     ⟨"propmodel", "fuel_flow", "fuel_flow", "kg/s", "kg/s"⟩,
     ⟨"propmodel", "eng1.component_cost", "propmodel.eng1.component_cost", "USD", "USD"⟩,
     ⟨"propmodel", "eng1.component_weight", "propmodel.eng1.component_weight", "kg", "kg"⟩,
     ⟨"propmodel", "eng1.component_sizing_margin", "propmodel.eng1.component_sizing_margin", "", ""⟩,
     ⟨"propmodel", "prop1.cp", "propmodel.prop1.cp", "", ""⟩, ⟨"propmodel", "prop1.J", "propmodel.prop1.J", "", ""⟩,
     ⟨"propmodel", "prop1.prop_Vtip", "propmodel.prop1.prop_Vtip", "", ""⟩,
     ⟨"propmodel", "prop1.eta_prop", "propmodel.prop1.eta_prop", "", ""⟩,
     ⟨"propmodel", "prop1.ct_over_cp", "propmodel.prop1.ct_over_cp", "", ""⟩, ⟨"propmodel", "thrust", "thrust", "N", "N"⟩,
     ⟨"propmodel", "prop1.component_weight", "propmodel.prop1.component_weight", "lb", "lb"⟩,
     ⟨"propmodel", "ac|propulsion|engine|rating", "ac|propulsion|engine|rating", "hp", "hp"⟩,
     ⟨"propmodel", "ac|propulsion|propeller|diameter", "ac|propulsion|propeller|diameter", "m", "m"⟩,
     ⟨"propmodel", "throttle", "throttle", "", ""⟩, ⟨"propmodel", "prop1.rpm", "prop1rpm", "rpm", "rpm"⟩,
     ⟨"propmodel", "fltcond|rho", "fltcond|rho", "kg / m ** 3", "kg / m ** 3"⟩,
     ⟨"propmodel", "fltcond|Utrue", "fltcond|Utrue", "m/s", "m/s"⟩, ⟨"drag", "drag", "drag", "N", "N"⟩,
     ⟨"drag", "fltcond|CL", "fltcond|CL", "", ""⟩, ⟨"drag", "fltcond|q", "fltcond|q", "N * m**-2", "N * m**-2"⟩,
     ⟨"drag", "ac|geom|wing|S_ref", "ac|geom|wing|S_ref", "m **2", "m **2"⟩, ⟨"drag", "CD0", cd0, "", ""⟩,
     ⟨"drag", "e", "ac|aero|polar|e", "", ""⟩, ⟨"drag", "ac|geom|wing|AR", "ac|geom|wing|AR", "", ""⟩,
     ⟨"OEW", "W_fluids", "OEW.W_fluids", "kg", "kg"⟩, ⟨"OEW", "structural_fudge", "OEW.structural_fudge", "m/m", "m/m"⟩,
     ⟨"OEW", "W_wing", "OEW.W_wing", "lb", "lb"⟩, ⟨"OEW", "W_empennage", "OEW.W_empennage", "lb", "lb"⟩,
     ⟨"OEW", "W_fuselage", "OEW.W_fuselage", "lb", "lb"⟩, ⟨"OEW", "W_nacelle", "OEW.W_nacelle", "lb", "lb"⟩,
     ⟨"OEW", "W_gear", "OEW.W_gear", "lb", "lb"⟩, ⟨"OEW", "W_fuelsystem", "OEW.W_fuelsystem", "lb", "lb"⟩,
     ⟨"OEW", "W_equipment", "OEW.W_equipment", "lb", "lb"⟩, ⟨"OEW", "W_structure", "OEW.W_structure", "lb", "lb"⟩,
     ⟨"OEW", "W_structure_adjusted", "OEW.W_structure_adjusted", "lb * (m/m) ", "lb * (m/m) "⟩,
     ⟨"OEW", "OEW", "OEW", "lb", "lb"⟩, ⟨"OEW", "ac|weights|MTOW", "ac|weights|MTOW", "lb", "lb"⟩,
     ⟨"OEW", "ac|weights|W_fuel_max", "ac|weights|W_fuel_max", "lb", "lb"⟩,
     ⟨"OEW", "ac|geom|wing|S_ref", "ac|geom|wing|S_ref", "m **2", "ft**2"⟩,
     ⟨"OEW", "ac|geom|wing|AR", "ac|geom|wing|AR", "", ""⟩,
     ⟨"OEW", "ac|geom|wing|c4sweep", "ac|geom|wing|c4sweep", "rad", "rad"⟩,
     ⟨"OEW", "ac|geom|wing|taper", "ac|geom|wing|taper", "", ""⟩,
     ⟨"OEW", "ac|geom|wing|toverc", "ac|geom|wing|toverc", "", ""⟩,
     ⟨"OEW", "ac|q_cruise", "ac|q_cruise", "lb*ft**-2", "lb*ft**-2"⟩,
     ⟨"OEW", "ac|geom|hstab|S_ref", "ac|geom|hstab|S_ref", "ft**2", "ft**2"⟩,
     ⟨"OEW", "ac|geom|vstab|S_ref", "ac|geom|vstab|S_ref", "ft**2", "ft**2"⟩,
     ⟨"OEW", "ac|geom|fuselage|length", "ac|geom|fuselage|length", "ft", "ft"⟩,
     ⟨"OEW", "ac|geom|fuselage|height", "ac|geom|fuselage|height", "ft", "ft"⟩,
     ⟨"OEW", "ac|geom|fuselage|width", "ac|geom|fuselage|width", "ft", "ft"⟩,
     ⟨"OEW", "ac|geom|fuselage|S_wet", "ac|geom|fuselage|S_wet", "ft**2", "ft**2"⟩,
     ⟨"OEW", "ac|geom|hstab|c4_to_wing_c4", "ac|geom|hstab|c4_to_wing_c4", "ft", "ft"⟩,
     ⟨"OEW", "P_TO", "ac|propulsion|engine|rating", "hp", "hp"⟩, ⟨"OEW", "ac|weights|MLW", "ac|weights|MLW", "lb", "lb"⟩,
     ⟨"OEW", "ac|geom|maingear|length", "ac|geom|maingear|length", "ft", "ft"⟩,
     ⟨"OEW", "ac|geom|nosegear|length", "ac|geom|nosegear|length", "ft", "ft"⟩,
     ⟨"OEW", "ac|num_passengers_max", "ac|num_passengers_max", "", ""⟩,
     ⟨"OEW", "W_engine", "propmodel.eng1.component_weight", "kg", "lb"⟩,
     ⟨"OEW", "W_propeller", "propmodel.prop1.component_weight", "lb", "lb"⟩,
     ⟨"intfuel", "fuel_used_final", "fuel_used_final", "kg", "kg"⟩, ⟨"intfuel", "fuel_used", "fuel_used", "kg", "kg"⟩,
     ⟨"intfuel", "duration", "duration", "s", "s"⟩, ⟨"intfuel", "fuel_flow", "fuel_flow", "kg/s", "(kg) / (s)"⟩,
     ⟨"intfuel", "fuel_used_initial", "fuel_used_initial", "kg", "kg"⟩, ⟨"weight", "weight", "weight", "kg", "kg"⟩,
     ⟨"weight", "ac|weights|MTOW", "ac|weights|MTOW", "lb", "kg"⟩, ⟨"weight", "fuel_used", "fuel_used", "kg", "kg"⟩] := by
  revert cd0
  decide +kernel

theorem kingAirGrp_links (cd0 : String) (h : cd0 ∈ ["ac|aero|polar|CD0_TO", "ac|aero|polar|CD0_cruise"]) : (kingAirGrp cd0).links =
    [⟨"controls", "prop|rpm", "prop|rpm", "rpm", "rpm"⟩,
     ⟨"propmodel", "eng1.shaft_power_out", "propmodel.eng1.shaft_power_out", "W", "W"⟩,
     ⟨"propmodel", "eng1.fuel_flow", "propmodel.eng1.fuel_flow", "kg/s", "kg/s"⟩,
     ⟨"propmodel", "eng1.component_cost", "propmodel.eng1.component_cost", "USD", "USD"⟩,
     ⟨"propmodel", "eng1.component_weight", "propmodel.eng1.component_weight", "kg", "kg"⟩,
     ⟨"propmodel", "eng1.component_sizing_margin", "propmodel.eng1.component_sizing_margin", "", ""⟩,
     ⟨"propmodel", "prop1.cp", "propmodel.prop1.cp", "", ""⟩, ⟨"propmodel", "prop1.J", "propmodel.prop1.J", "", ""⟩,
     ⟨"propmodel", "prop1.prop_Vtip", "propmodel.prop1.prop_Vtip", "", ""⟩,
     ⟨"propmodel", "prop1.eta_prop", "propmodel.prop1.eta_prop", "", ""⟩,
     ⟨"propmodel", "prop1.ct_over_cp", "propmodel.prop1.ct_over_cp", "", ""⟩,
     ⟨"propmodel", "prop1.thrust", "propmodel.prop1.thrust", "N", "N"⟩,
     ⟨"propmodel", "prop1.component_weight", "propmodel.prop1.component_weight", "lb", "lb"⟩,
     ⟨"propmodel", "eng2.shaft_power_out", "propmodel.eng2.shaft_power_out", "W", "W"⟩,
     ⟨"propmodel", "eng2.fuel_flow", "propmodel.eng2.fuel_flow", "kg/s", "kg/s"⟩,
     ⟨"propmodel", "eng2.component_cost", "propmodel.eng2.component_cost", "USD", "USD"⟩,
     ⟨"propmodel", "eng2.component_weight", "propmodel.eng2.component_weight", "kg", "kg"⟩,
     ⟨"propmodel", "eng2.component_sizing_margin", "propmodel.eng2.component_sizing_margin", "", ""⟩,
     ⟨"propmodel", "prop2.cp", "propmodel.prop2.cp", "", ""⟩, ⟨"propmodel", "prop2.J", "propmodel.prop2.J", "", ""⟩,
     ⟨"propmodel", "prop2.prop_Vtip", "propmodel.prop2.prop_Vtip", "", ""⟩,
     ⟨"propmodel", "prop2.eta_prop", "propmodel.prop2.eta_prop", "", ""⟩,
     ⟨"propmodel", "prop2.ct_over_cp", "propmodel.prop2.ct_over_cp", "", ""⟩,
     ⟨"propmodel", "prop2.thrust", "propmodel.prop2.thrust", "N", "N"⟩,
     ⟨"propmodel", "prop2.component_weight", "propmodel.prop2.component_weight", "lb", "lb"⟩,
     ⟨"propmodel", "failedengine.eng2throttle", "propmodel.failedengine.eng2throttle", "", ""⟩,
     ⟨"propmodel", "fuel_flow", "fuel_flow", "kg/s", "kg/s"⟩, ⟨"propmodel", "thrust", "thrust", "N", "N"⟩,
     ⟨"propmodel", "engines_weight", "propmodel.engines_weight", "kg", "kg"⟩,
     ⟨"propmodel", "propellers_weight", "propmodel.propellers_weight", "kg", "kg"⟩,
     ⟨"propmodel", "throttle", "throttle", "", ""⟩,
     ⟨"propmodel", "ac|propulsion|engine|rating", "ac|propulsion|engine|rating", "hp", "hp"⟩,
     ⟨"propmodel", "ac|propulsion|propeller|diameter", "ac|propulsion|propeller|diameter", "m", "m"⟩,
     ⟨"propmodel", "prop1.rpm", "prop|rpm", "rpm", "rpm"⟩,
     ⟨"propmodel", "fltcond|rho", "fltcond|rho", "kg / m ** 3", "kg / m ** 3"⟩,
     ⟨"propmodel", "fltcond|Utrue", "fltcond|Utrue", "m/s", "m/s"⟩, ⟨"propmodel", "prop2.rpm", "prop|rpm", "rpm", "rpm"⟩,
     ⟨"propmodel", "propulsor_active", "propulsor_active", "", ""⟩, ⟨"drag", "drag", "drag", "N", "N"⟩,
     ⟨"drag", "fltcond|CL", "fltcond|CL", "", ""⟩, ⟨"drag", "fltcond|q", "fltcond|q", "N * m**-2", "N * m**-2"⟩,
     ⟨"drag", "ac|geom|wing|S_ref", "ac|geom|wing|S_ref", "m **2", "m **2"⟩, ⟨"drag", "CD0", cd0, "", ""⟩,
     ⟨"drag", "e", "ac|aero|polar|e", "", ""⟩, ⟨"drag", "ac|geom|wing|AR", "ac|geom|wing|AR", "", ""⟩,
     ⟨"OEW", "W_fluids", "OEW.W_fluids", "kg", "kg"⟩, ⟨"OEW", "structural_fudge", "OEW.structural_fudge", "m/m", "m/m"⟩,
     ⟨"OEW", "W_wing", "OEW.W_wing", "lb", "lb"⟩, ⟨"OEW", "W_empennage", "OEW.W_empennage", "lb", "lb"⟩,
     ⟨"OEW", "W_fuselage", "OEW.W_fuselage", "lb", "lb"⟩, ⟨"OEW", "W_nacelle", "OEW.W_nacelle", "lb", "lb"⟩,
     ⟨"OEW", "W_gear", "OEW.W_gear", "lb", "lb"⟩, ⟨"OEW", "W_fuelsystem", "OEW.W_fuelsystem", "lb", "lb"⟩,
     ⟨"OEW", "W_equipment", "OEW.W_equipment", "lb", "lb"⟩, ⟨"OEW", "W_structure", "OEW.W_structure", "lb", "lb"⟩,
     ⟨"OEW", "W_structure_adjusted", "OEW.W_structure_adjusted", "lb * (m/m) ", "lb * (m/m) "⟩,
     ⟨"OEW", "OEW", "OEW", "lb", "lb"⟩, ⟨"OEW", "ac|weights|MTOW", "ac|weights|MTOW", "lb", "lb"⟩,
     ⟨"OEW", "ac|weights|W_fuel_max", "ac|weights|W_fuel_max", "lb", "lb"⟩,
     ⟨"OEW", "ac|geom|wing|S_ref", "ac|geom|wing|S_ref", "m **2", "ft**2"⟩,
     ⟨"OEW", "ac|geom|wing|AR", "ac|geom|wing|AR", "", ""⟩,
     ⟨"OEW", "ac|geom|wing|c4sweep", "ac|geom|wing|c4sweep", "rad", "rad"⟩,
     ⟨"OEW", "ac|geom|wing|taper", "ac|geom|wing|taper", "", ""⟩,
     ⟨"OEW", "ac|geom|wing|toverc", "ac|geom|wing|toverc", "", ""⟩,
     ⟨"OEW", "ac|q_cruise", "ac|q_cruise", "lb*ft**-2", "lb*ft**-2"⟩,
     ⟨"OEW", "ac|geom|hstab|S_ref", "ac|geom|hstab|S_ref", "ft**2", "ft**2"⟩,
     ⟨"OEW", "ac|geom|vstab|S_ref", "ac|geom|vstab|S_ref", "ft**2", "ft**2"⟩,
     ⟨"OEW", "ac|geom|fuselage|length", "ac|geom|fuselage|length", "ft", "ft"⟩,
     ⟨"OEW", "ac|geom|fuselage|height", "ac|geom|fuselage|height", "ft", "ft"⟩,
     ⟨"OEW", "ac|geom|fuselage|width", "ac|geom|fuselage|width", "ft", "ft"⟩,
     ⟨"OEW", "ac|geom|fuselage|S_wet", "ac|geom|fuselage|S_wet", "ft**2", "ft**2"⟩,
     ⟨"OEW", "ac|geom|hstab|c4_to_wing_c4", "ac|geom|hstab|c4_to_wing_c4", "ft", "ft"⟩,
     ⟨"OEW", "P_TO", "ac|propulsion|engine|rating", "hp", "hp"⟩, ⟨"OEW", "ac|weights|MLW", "ac|weights|MLW", "lb", "lb"⟩,
     ⟨"OEW", "ac|geom|maingear|length", "ac|geom|maingear|length", "ft", "ft"⟩,
     ⟨"OEW", "ac|geom|nosegear|length", "ac|geom|nosegear|length", "ft", "ft"⟩,
     ⟨"OEW", "ac|num_passengers_max", "ac|num_passengers_max", "", ""⟩,
     ⟨"OEW", "W_engine", "propmodel.engines_weight", "kg", "lb"⟩,
     ⟨"OEW", "W_propeller", "propmodel.propellers_weight", "kg", "lb"⟩,
     ⟨"intfuel", "fuel_used_final", "fuel_used_final", "kg", "kg"⟩, ⟨"intfuel", "fuel_used", "fuel_used", "kg", "kg"⟩,
     ⟨"intfuel", "duration", "duration", "s", "s"⟩, ⟨"intfuel", "fuel_flow", "fuel_flow", "kg/s", "(kg) / (s)"⟩,
     ⟨"intfuel", "fuel_used_initial", "fuel_used_initial", "kg", "kg"⟩, ⟨"weight", "weight", "weight", "kg", "kg"⟩,
     ⟨"weight", "ac|weights|MTOW", "ac|weights|MTOW", "lb", "kg"⟩, ⟨"weight", "fuel_used", "fuel_used", "kg", "kg"⟩] := by
  revert cd0
  decide +kernel

theorem tbmGrp_links (cd0 : String) (h : cd0 ∈ ["ac|aero|polar|CD0_TO", "ac|aero|polar|CD0_cruise"]) : (tbmGrp cd0).links =
    [⟨"propmodel", "eng1_rating", "propmodel.eng1_rating", "hp", "hp"⟩,
     ⟨"propmodel", "prop1_diameter", "propmodel.prop1_diameter", "m", "m"⟩,
     ⟨"propmodel", "eng1.shaft_power_out", "propmodel.eng1.shaft_power_out", "W", "W"⟩,
     ⟨"propmodel", "fuel_flow", "propmodel.fuel_flow", "kg/s", "kg/s"⟩,
     ⟨"propmodel", "eng1.component_cost", "propmodel.eng1.component_cost", "USD", "USD"⟩,
     ⟨"propmodel", "eng1.component_weight", "propmodel.eng1.component_weight", "kg", "kg"⟩,
     ⟨"propmodel", "eng1.component_sizing_margin", "propmodel.eng1.component_sizing_margin", "", ""⟩,
     ⟨"propmodel", "prop1.cp", "propmodel.prop1.cp", "", ""⟩, ⟨"propmodel", "prop1.J", "propmodel.prop1.J", "", ""⟩,
     ⟨"propmodel", "prop1.prop_Vtip", "propmodel.prop1.prop_Vtip", "", ""⟩,
     ⟨"propmodel", "prop1.eta_prop", "propmodel.prop1.eta_prop", "", ""⟩,
     ⟨"propmodel", "prop1.ct_over_cp", "propmodel.prop1.ct_over_cp", "", ""⟩, ⟨"propmodel", "thrust", "thrust", "N", "N"⟩,
     ⟨"propmodel", "prop1.component_weight", "propmodel.prop1.component_weight", "lb", "lb"⟩,
     ⟨"propmodel", "ac|propulsion|engine|rating", "ac|propulsion|engine|rating", "hp", "hp"⟩,
     ⟨"propmodel", "ac|propulsion|propeller|diameter", "ac|propulsion|propeller|diameter", "m", "m"⟩,
     ⟨"propmodel", "throttle", "throttle", "", ""⟩, ⟨"propmodel", "prop1.rpm", "propmodel.prop1.rpm", "rpm", "rpm"⟩,
     ⟨"propmodel", "fltcond|rho", "fltcond|rho", "kg / m ** 3", "kg / m ** 3"⟩,
     ⟨"propmodel", "fltcond|Utrue", "fltcond|Utrue", "m/s", "m/s"⟩, ⟨"drag", "drag", "drag", "N", "N"⟩,
     ⟨"drag", "fltcond|CL", "fltcond|CL", "", ""⟩, ⟨"drag", "fltcond|q", "fltcond|q", "N * m**-2", "N * m**-2"⟩,
     ⟨"drag", "ac|geom|wing|S_ref", "ac|geom|wing|S_ref", "m **2", "m **2"⟩, ⟨"drag", "CD0", cd0, "", ""⟩,
     ⟨"drag", "e", "ac|aero|polar|e", "", ""⟩, ⟨"drag", "ac|geom|wing|AR", "ac|geom|wing|AR", "", ""⟩,
     ⟨"OEW", "W_fluids", "OEW.W_fluids", "kg", "kg"⟩, ⟨"OEW", "structural_fudge", "OEW.structural_fudge", "m/m", "m/m"⟩,
     ⟨"OEW", "W_wing", "OEW.W_wing", "lb", "lb"⟩, ⟨"OEW", "W_empennage", "OEW.W_empennage", "lb", "lb"⟩,
     ⟨"OEW", "W_fuselage", "OEW.W_fuselage", "lb", "lb"⟩, ⟨"OEW", "W_nacelle", "OEW.W_nacelle", "lb", "lb"⟩,
     ⟨"OEW", "W_gear", "OEW.W_gear", "lb", "lb"⟩, ⟨"OEW", "W_fuelsystem", "OEW.W_fuelsystem", "lb", "lb"⟩,
     ⟨"OEW", "W_equipment", "OEW.W_equipment", "lb", "lb"⟩, ⟨"OEW", "W_structure", "OEW.W_structure", "lb", "lb"⟩,
     ⟨"OEW", "W_structure_adjusted", "OEW.W_structure_adjusted", "lb * (m/m) ", "lb * (m/m) "⟩,
     ⟨"OEW", "OEW", "OEW", "lb", "lb"⟩, ⟨"OEW", "ac|weights|MTOW", "ac|weights|MTOW", "lb", "lb"⟩,
     ⟨"OEW", "ac|weights|W_fuel_max", "ac|weights|W_fuel_max", "lb", "lb"⟩,
     ⟨"OEW", "ac|geom|wing|S_ref", "ac|geom|wing|S_ref", "m **2", "ft**2"⟩,
     ⟨"OEW", "ac|geom|wing|AR", "ac|geom|wing|AR", "", ""⟩,
     ⟨"OEW", "ac|geom|wing|c4sweep", "ac|geom|wing|c4sweep", "rad", "rad"⟩,
     ⟨"OEW", "ac|geom|wing|taper", "ac|geom|wing|taper", "", ""⟩,
     ⟨"OEW", "ac|geom|wing|toverc", "ac|geom|wing|toverc", "", ""⟩,
     ⟨"OEW", "ac|q_cruise", "ac|q_cruise", "lb*ft**-2", "lb*ft**-2"⟩,
     ⟨"OEW", "ac|geom|hstab|S_ref", "ac|geom|hstab|S_ref", "ft**2", "ft**2"⟩,
     ⟨"OEW", "ac|geom|vstab|S_ref", "ac|geom|vstab|S_ref", "ft**2", "ft**2"⟩,
     ⟨"OEW", "ac|geom|fuselage|length", "ac|geom|fuselage|length", "ft", "ft"⟩,
     ⟨"OEW", "ac|geom|fuselage|height", "ac|geom|fuselage|height", "ft", "ft"⟩,
     ⟨"OEW", "ac|geom|fuselage|width", "ac|geom|fuselage|width", "ft", "ft"⟩,
     ⟨"OEW", "ac|geom|fuselage|S_wet", "ac|geom|fuselage|S_wet", "ft**2", "ft**2"⟩,
     ⟨"OEW", "ac|geom|hstab|c4_to_wing_c4", "ac|geom|hstab|c4_to_wing_c4", "ft", "ft"⟩,
     ⟨"OEW", "P_TO", "ac|propulsion|engine|rating", "hp", "hp"⟩, ⟨"OEW", "ac|weights|MLW", "ac|weights|MLW", "lb", "lb"⟩,
     ⟨"OEW", "ac|geom|maingear|length", "ac|geom|maingear|length", "ft", "ft"⟩,
     ⟨"OEW", "ac|geom|nosegear|length", "ac|geom|nosegear|length", "ft", "ft"⟩,
     ⟨"OEW", "ac|num_passengers_max", "ac|num_passengers_max", "", ""⟩,
     ⟨"OEW", "W_engine", "propmodel.eng1.component_weight", "kg", "lb"⟩,
     ⟨"OEW", "W_propeller", "propmodel.prop1.component_weight", "lb", "lb"⟩,
     ⟨"intfuel", "fuel_used_final", "fuel_used_final", "kg", "kg"⟩,
     ⟨"intfuel", "fuel_used", "intfuel.fuel_used", "kg", "kg"⟩, ⟨"intfuel", "duration", "intfuel.duration", "s", "s"⟩,
     ⟨"intfuel", "fuel_flow", "propmodel.fuel_flow", "kg/s", "(kg) / (s)"⟩,
     ⟨"intfuel", "fuel_used_initial", "intfuel.fuel_used_initial", "kg", "kg"⟩, ⟨"weight", "weight", "weight", "kg", "kg"⟩,
     ⟨"weight", "ac|weights|MTOW", "ac|weights|MTOW", "lb", "kg"⟩, ⟨"weight", "fuel_used", "intfuel.fuel_used", "kg", "kg"⟩] := by
  revert cd0
  decide +kernel

end Verif.Wiring
