import Verif.Model.WiringSizing
import Verif.Proof.WiringAirplanes2
import Verif.Proof.WiringWeights
import Verif.Proof.WiringDrag

/-! Equations of the components of the outer group of the sized Boeing 737-800, and where its variables are found (evaluated table). -/

namespace Verif.Wiring

open Verif.Units Verif.VectorComps

theorem conv_areaFt (x : ℝ) : conv "m**2" "ft**2" x = x / 0.3048 ^ 2 := by
  simp [conv, off, fac]

theorem conv_areaM (x : ℝ) : conv "ft**2" "m**2" x = x * 0.3048 ^ 2 := by
  simp [conv, off, fac]

theorem conv_rad (x : ℝ) : conv "deg" "rad" x = x * (Real.pi / 180) := by
  simp [conv, off, fac]

theorem conv_inch (x : ℝ) : conv "m" "inch" x = x / 0.0254 := by
  simp [conv, off, fac]

theorem conv_burned_lb (x : ℝ) : conv "(kg/s) * (s)" "lb" x = x / 0.45359237 := by
  simp [conv, off, fac]

theorem lever_rel (o : Opts) (V : String → ℝ) (b) : (sum Aircraft.leverSys b).rel o V ↔ V "c4_to_wing_c4" = 0.5 * V "fuselage_length" := by
  simp [sum, Aircraft.leverSys, AddSys.compute, AddSys.factors, mul_comm]

theorem mlw_rel (o : Opts) (V : String → ℝ) (b) : (sum Aircraft.mlwSys b).rel o V ↔ V "ac|weights|MLW" = 0.8 * V "ac|weights|MTOW" := by
  simp [sum, Aircraft.mlwSys, AddSys.compute, AddSys.factors, mul_comm]

theorem mtow_rel (o : Opts) (V : String → ℝ) (b) : (sum Aircraft.mtowSys b).rel o V ↔ V "MTOW" = V "OEW" + V "W_payload" + V "W_fuel" := by
  simp [sum, Aircraft.mtowSys, AddSys.compute, AddSys.factors, add_assoc]

theorem vstabArea_rel (o : Opts) (V : String → ℝ) (c : ℝ) : (explicit dVstab [lit "C_vt" c]).rel o V ↔ V "ac|geom|vstab|S_ref" =
    Geometry.vstab c (V "ac|geom|wing|S_ref") (V "ac|geom|wing|AR") (V "ac|geom|vstab|c4_to_wing_c4") := by
  simp [explicit, dVstab, vstab, withOpts, OptVal.get, lit, ref, List.lookup, eq_comm]

theorem hstabArea_rel (o : Opts) (V : String → ℝ) (c : ℝ) : (explicit dHstab [lit "C_ht" c]).rel o V ↔ V "ac|geom|hstab|S_ref" =
    Geometry.hstab c (V "ac|geom|wing|S_ref") (V "ac|geom|wing|MAC") (V "ac|geom|hstab|c4_to_wing_c4") := by
  simp [explicit, dHstab, hstab, withOpts, OptVal.get, lit, ref, List.lookup, eq_comm]

theorem cylinderArea_rel (o : Opts) (V : String → ℝ) : (explicit dCylinderArea).rel o V ↔ V "A" = Geometry.cylinder (V "L") (V "D") := by
  simp [explicit, dCylinderArea, cylinderArea, withOpts, OptVal.get, lit, ref, List.lookup, eq_comm]

theorem cleanCLmax_rel (o : Opts) (V : String → ℝ) (c : ℝ) : (explicit dCleanCLmax [lit "fudge_factor" c]).rel o V ↔
    V "CL_max_clean" = Aero.cleanCL c (V "ac|aero|airfoil_Cl_max") (V "ac|geom|wing|c4sweep") := by
  simp [explicit, dCleanCLmax, cleanCLmax, withOpts, OptVal.get, lit, ref, List.lookup, eq_comm]

theorem flapCLmax_rel (o : Opts) (V : String → ℝ) (a b c d f : ℝ) : (explicit dFlapCLmax [lit "flap_chord_frac" a,
      lit "wing_area_flapped_frac" b, lit "slat_chord_frac" c, lit "slat_span_frac" d, lit "fudge_factor" f]).rel o V ↔
    V "CL_max_flap" = Aero.flapCL ⟨a, b, c, d, f⟩ ⟨V "flap_extension", V "ac|geom|wing|c4sweep", V "CL_max_clean", V "ac|geom|wing|toverc"⟩ := by
  simp [explicit, dFlapCLmax, flapCLmax, withOpts, OptVal.get, lit, ref, List.lookup, eq_comm]

set_option maxHeartbeats 2000000 in
theorem sizedGrp_links : sizedGrp.links =
    [⟨"ac_vars", "ac|aero|polar|e", "ac|aero|polar|e", "", ""⟩, ⟨"ac_vars", "ac|aero|Mach_max", "ac|aero|Mach_max", "", ""⟩,
     ⟨"ac_vars", "ac|aero|Vstall_land", "ac|aero|Vstall_land", "kn", "kn"⟩,
     ⟨"ac_vars", "ac|aero|airfoil_Cl_max", "ac|aero|airfoil_Cl_max", "", ""⟩,
     ⟨"ac_vars", "ac|aero|takeoff_flap_deg", "ac|aero|takeoff_flap_deg", "deg", "deg"⟩,
     ⟨"ac_vars", "ac|propulsion|engine|rating", "ac|propulsion|engine|rating", "lbf", "lbf"⟩,
     ⟨"ac_vars", "ac|propulsion|num_engines", "ac|propulsion|num_engines", "", ""⟩,
     ⟨"ac_vars", "ac|geom|wing|S_ref", "ac|geom|wing|S_ref", "m**2", "m**2"⟩,
     ⟨"ac_vars", "ac|geom|wing|AR", "ac|geom|wing|AR", "", ""⟩,
     ⟨"ac_vars", "ac|geom|wing|c4sweep", "ac|geom|wing|c4sweep", "deg", "deg"⟩,
     ⟨"ac_vars", "ac|geom|wing|taper", "ac|geom|wing|taper", "", ""⟩,
     ⟨"ac_vars", "ac|geom|wing|toverc", "ac|geom|wing|toverc", "", ""⟩,
     ⟨"ac_vars", "ac|geom|hstab|AR", "ac|geom|hstab|AR", "", ""⟩,
     ⟨"ac_vars", "ac|geom|hstab|c4sweep", "ac|geom|hstab|c4sweep", "deg", "deg"⟩,
     ⟨"ac_vars", "ac|geom|hstab|taper", "ac|geom|hstab|taper", "", ""⟩,
     ⟨"ac_vars", "ac|geom|hstab|toverc", "ac|geom|hstab|toverc", "", ""⟩,
     ⟨"ac_vars", "ac|geom|vstab|AR", "ac|geom|vstab|AR", "", ""⟩,
     ⟨"ac_vars", "ac|geom|vstab|c4sweep", "ac|geom|vstab|c4sweep", "deg", "deg"⟩,
     ⟨"ac_vars", "ac|geom|vstab|taper", "ac|geom|vstab|taper", "", ""⟩,
     ⟨"ac_vars", "ac|geom|vstab|toverc", "ac|geom|vstab|toverc", "", ""⟩,
     ⟨"ac_vars", "ac|geom|fuselage|length", "ac|geom|fuselage|length", "m", "m"⟩,
     ⟨"ac_vars", "ac|geom|fuselage|height", "ac|geom|fuselage|height", "m", "m"⟩,
     ⟨"ac_vars", "ac|geom|nacelle|length", "ac|geom|nacelle|length", "m", "m"⟩,
     ⟨"ac_vars", "ac|geom|nacelle|diameter", "ac|geom|nacelle|diameter", "m", "m"⟩,
     ⟨"ac_vars", "ac|geom|maingear|length", "ac|geom|maingear|length", "m", "m"⟩,
     ⟨"ac_vars", "ac|geom|maingear|num_wheels", "ac|geom|maingear|num_wheels", "", ""⟩,
     ⟨"ac_vars", "ac|geom|maingear|num_shock_struts", "ac|geom|maingear|num_shock_struts", "", ""⟩,
     ⟨"ac_vars", "ac|geom|nosegear|length", "ac|geom|nosegear|length", "m", "m"⟩,
     ⟨"ac_vars", "ac|geom|nosegear|num_wheels", "ac|geom|nosegear|num_wheels", "", ""⟩,
     ⟨"ac_vars", "ac|weights|W_payload", "ac|weights|W_payload", "kg", "kg"⟩,
     ⟨"ac_vars", "ac|num_passengers_max", "ac|num_passengers_max", "", ""⟩,
     ⟨"ac_vars", "ac|num_flight_deck_crew", "ac|num_flight_deck_crew", "", ""⟩,
     ⟨"ac_vars", "ac|num_cabin_crew", "ac|num_cabin_crew", "", ""⟩,
     ⟨"ac_vars", "ac|cabin_pressure", "ac|cabin_pressure", "psi", "psi"⟩,
     ⟨"tail_lever_arm_estimate", "c4_to_wing_c4", "tail_lever_arm_estimate.c4_to_wing_c4", "m", "m"⟩,
     ⟨"tail_lever_arm_estimate", "fuselage_length", "ac|geom|fuselage|length", "m", "m"⟩,
     ⟨"wing_MAC", "MAC", "ac|geom|wing|MAC", "m", "m"⟩, ⟨"wing_MAC", "S_ref", "ac|geom|wing|S_ref", "m**2", "m**2"⟩,
     ⟨"wing_MAC", "AR", "ac|geom|wing|AR", "", ""⟩, ⟨"wing_MAC", "taper", "ac|geom|wing|taper", "", ""⟩,
     ⟨"vstab_area", "ac|geom|vstab|S_ref", "ac|geom|vstab|S_ref", "ft**2", "ft**2"⟩,
     ⟨"vstab_area", "ac|geom|wing|S_ref", "ac|geom|wing|S_ref", "m**2", "ft**2"⟩,
     ⟨"vstab_area", "ac|geom|wing|AR", "ac|geom|wing|AR", "", ""⟩,
     ⟨"vstab_area", "ac|geom|vstab|c4_to_wing_c4", "tail_lever_arm_estimate.c4_to_wing_c4", "m", "ft"⟩,
     ⟨"hstab_area", "ac|geom|hstab|S_ref", "ac|geom|hstab|S_ref", "ft**2", "ft**2"⟩,
     ⟨"hstab_area", "ac|geom|wing|S_ref", "ac|geom|wing|S_ref", "m**2", "ft**2"⟩,
     ⟨"hstab_area", "ac|geom|wing|MAC", "ac|geom|wing|MAC", "m", "ft"⟩,
     ⟨"hstab_area", "ac|geom|hstab|c4_to_wing_c4", "tail_lever_arm_estimate.c4_to_wing_c4", "m", "ft"⟩,
     ⟨"nacelle_wetted_area", "A", "ac|geom|nacelle|S_wet", "m**2", "m**2"⟩,
     ⟨"nacelle_wetted_area", "L", "ac|geom|nacelle|length", "m", "m"⟩,
     ⟨"nacelle_wetted_area", "D", "ac|geom|nacelle|diameter", "m", "m"⟩,
     ⟨"fuselage_wetted_area", "A", "ac|geom|fuselage|S_wet", "m**2", "m**2"⟩,
     ⟨"fuselage_wetted_area", "L", "ac|geom|fuselage|length", "m", "m"⟩,
     ⟨"fuselage_wetted_area", "D", "ac|geom|fuselage|height", "m", "m"⟩,
     ⟨"MLW_calc", "ac|weights|MLW", "ac|weights|MLW", "kg", "kg"⟩,
     ⟨"MLW_calc", "ac|weights|MTOW", "ac|weights|MTOW", "kg", "kg"⟩,
     ⟨"empty_weight", "W_wing", "empty_weight.W_wing", "lb", "lb"⟩,
     ⟨"empty_weight", "hstab.hstab_const.HstabConst", "empty_weight.hstab.hstab_const.HstabConst", "", ""⟩,
     ⟨"empty_weight", "W_hstab", "empty_weight.W_hstab", "lb", "lb"⟩,
     ⟨"empty_weight", "W_vstab", "empty_weight.W_vstab", "lb", "lb"⟩,
     ⟨"empty_weight", "fuselage.K_ws_term.K_ws", "empty_weight.fuselage.K_ws_term.K_ws", "", ""⟩,
     ⟨"empty_weight", "W_fuselage", "empty_weight.W_fuselage", "lb", "lb"⟩,
     ⟨"empty_weight", "W_mlg", "empty_weight.W_mlg", "lb", "lb"⟩,
     ⟨"empty_weight", "W_nlg", "empty_weight.W_nlg", "lb", "lb"⟩,
     ⟨"empty_weight", "single_engine.W_engine", "empty_weight.single_engine.W_engine", "lb", "lb"⟩,
     ⟨"empty_weight", "W_engines", "empty_weight.W_engines", "lb ", "lb "⟩,
     ⟨"empty_weight", "W_thrust_rev", "empty_weight.W_thrust_rev", "lb", "lb"⟩,
     ⟨"empty_weight", "W_eng_control", "empty_weight.W_eng_control", "lb", "lb"⟩,
     ⟨"empty_weight", "W_fuelsystem", "empty_weight.W_fuelsystem", "lb", "lb"⟩,
     ⟨"empty_weight", "W_eng_start", "empty_weight.W_eng_start", "lb", "lb"⟩,
     ⟨"empty_weight", "W_nacelle", "empty_weight.W_nacelle", "lb", "lb"⟩,
     ⟨"empty_weight", "W_furnishings", "empty_weight.W_furnishings", "lb", "lb"⟩,
     ⟨"empty_weight", "cabin_volume.V_pressurized", "empty_weight.cabin_volume.V_pressurized", "ft**3", "ft**3"⟩,
     ⟨"empty_weight", "W_flight_controls", "empty_weight.W_flight_controls", "lb", "lb"⟩,
     ⟨"empty_weight", "W_avionics", "empty_weight.W_avionics", "lb", "lb"⟩,
     ⟨"empty_weight", "W_electrical", "empty_weight.W_electrical", "lb", "lb"⟩,
     ⟨"empty_weight", "W_ac_pressurize_antiice", "empty_weight.W_ac_pressurize_antiice", "lb", "lb"⟩,
     ⟨"empty_weight", "W_oxygen", "empty_weight.W_oxygen", "lb", "lb"⟩,
     ⟨"empty_weight", "W_APU", "empty_weight.W_APU", "lb", "lb"⟩,
     ⟨"empty_weight", "W_structure", "empty_weight.W_structure", "lb", "lb"⟩,
     ⟨"empty_weight", "OEW", "ac|weights|OEW", "lb", "lb"⟩,
     ⟨"empty_weight", "ac|weights|MTOW", "ac|weights|MTOW", "kg", "lb"⟩,
     ⟨"empty_weight", "ac|geom|wing|S_ref", "ac|geom|wing|S_ref", "m**2", "ft**2"⟩,
     ⟨"empty_weight", "ac|geom|wing|AR", "ac|geom|wing|AR", "", ""⟩,
     ⟨"empty_weight", "ac|geom|wing|c4sweep", "ac|geom|wing|c4sweep", "deg", "rad"⟩,
     ⟨"empty_weight", "ac|geom|wing|taper", "ac|geom|wing|taper", "", ""⟩,
     ⟨"empty_weight", "ac|geom|wing|toverc", "ac|geom|wing|toverc", "", ""⟩,
     ⟨"empty_weight", "ac|geom|hstab|S_ref", "ac|geom|hstab|S_ref", "ft**2", "ft**2"⟩,
     ⟨"empty_weight", "ac|geom|hstab|AR", "ac|geom|hstab|AR", "", ""⟩,
     ⟨"empty_weight", "ac|geom|fuselage|height", "ac|geom|fuselage|height", "m", "ft"⟩,
     ⟨"empty_weight", "ac|geom|hstab|c4sweep", "ac|geom|hstab|c4sweep", "deg", "rad"⟩,
     ⟨"empty_weight", "ac|geom|hstab|c4_to_wing_c4", "tail_lever_arm_estimate.c4_to_wing_c4", "m", "ft"⟩,
     ⟨"empty_weight", "ac|geom|vstab|S_ref", "ac|geom|vstab|S_ref", "ft**2", "ft**2"⟩,
     ⟨"empty_weight", "ac|geom|vstab|AR", "ac|geom|vstab|AR", "", ""⟩,
     ⟨"empty_weight", "ac|geom|vstab|c4sweep", "ac|geom|vstab|c4sweep", "deg", "rad"⟩,
     ⟨"empty_weight", "ac|geom|vstab|c4_to_wing_c4", "tail_lever_arm_estimate.c4_to_wing_c4", "m", "ft"⟩,
     ⟨"empty_weight", "ac|geom|vstab|toverc", "ac|geom|vstab|toverc", "", ""⟩,
     ⟨"empty_weight", "ac|geom|fuselage|length", "ac|geom|fuselage|length", "m", "ft"⟩,
     ⟨"empty_weight", "ac|geom|fuselage|S_wet", "ac|geom|fuselage|S_wet", "m**2", "ft**2"⟩,
     ⟨"empty_weight", "ac|geom|maingear|length", "ac|geom|maingear|length", "m", "inch"⟩,
     ⟨"empty_weight", "ac|weights|MLW", "ac|weights|MLW", "kg", "lb"⟩,
     ⟨"empty_weight", "ac|geom|maingear|num_wheels", "ac|geom|maingear|num_wheels", "", ""⟩,
     ⟨"empty_weight", "ac|geom|maingear|num_shock_struts", "ac|geom|maingear|num_shock_struts", "", ""⟩,
     ⟨"empty_weight", "ac|aero|Vstall_land", "ac|aero|Vstall_land", "kn", "kn"⟩,
     ⟨"empty_weight", "ac|geom|nosegear|length", "ac|geom|nosegear|length", "m", "inch"⟩,
     ⟨"empty_weight", "ac|geom|nosegear|num_wheels", "ac|geom|nosegear|num_wheels", "", ""⟩,
     ⟨"empty_weight", "ac|propulsion|engine|rating", "ac|propulsion|engine|rating", "lbf", "lbf"⟩,
     ⟨"empty_weight", "ac|propulsion|num_engines", "ac|propulsion|num_engines", "", ""⟩,
     ⟨"empty_weight", "ac|aero|Mach_max", "ac|aero|Mach_max", "", ""⟩,
     ⟨"empty_weight", "ac|weights|W_fuel_max", "mission.loiter.fuel_burn_integ.fuel_burn_final", "(kg/s) * (s)", "lb"⟩,
     ⟨"empty_weight", "ac|num_passengers_max", "ac|num_passengers_max", "", ""⟩,
     ⟨"empty_weight", "ac|num_flight_deck_crew", "ac|num_flight_deck_crew", "", ""⟩,
     ⟨"empty_weight", "ac|num_cabin_crew", "ac|num_cabin_crew", "", ""⟩,
     ⟨"empty_weight", "ac|cabin_pressure", "ac|cabin_pressure", "psi", "psi"⟩,
     ⟨"CL_max_cruise", "CL_max_clean", "ac|aero|CLmax_cruise", "", ""⟩,
     ⟨"CL_max_cruise", "ac|aero|airfoil_Cl_max", "ac|aero|airfoil_Cl_max", "", ""⟩,
     ⟨"CL_max_cruise", "ac|geom|wing|c4sweep", "ac|geom|wing|c4sweep", "deg", "rad"⟩,
     ⟨"CL_max_takeoff", "CL_max_flap", "ac|aero|CLmax_TO", "", ""⟩,
     ⟨"CL_max_takeoff", "flap_extension", "ac|aero|takeoff_flap_deg", "deg", "deg"⟩,
     ⟨"CL_max_takeoff", "ac|geom|wing|c4sweep", "ac|geom|wing|c4sweep", "deg", "rad"⟩,
     ⟨"CL_max_takeoff", "CL_max_clean", "ac|aero|CLmax_cruise", "", ""⟩,
     ⟨"CL_max_takeoff", "ac|geom|wing|toverc", "ac|geom|wing|toverc", "", ""⟩,
     ⟨"MTOW_calc", "MTOW", "ac|weights|MTOW", "kg", "kg"⟩, ⟨"MTOW_calc", "OEW", "ac|weights|OEW", "lb", "kg"⟩,
     ⟨"MTOW_calc", "W_payload", "ac|weights|W_payload", "kg", "kg"⟩,
     ⟨"MTOW_calc", "W_fuel", "mission.loiter.fuel_burn_integ.fuel_burn_final", "(kg/s) * (s)", "kg"⟩,
     ⟨"mission", "loiter.fuel_burn_integ.fuel_burn_final", "mission.loiter.fuel_burn_integ.fuel_burn_final", "(kg/s) * (s)", "(kg/s) * (s)"⟩,
     ⟨"mission", "ac|geom|fuselage|length", "ac|geom|fuselage|length", "m", "m"⟩,
     ⟨"mission", "ac|geom|fuselage|height", "ac|geom|fuselage|height", "m", "m"⟩,
     ⟨"mission", "ac|geom|hstab|toverc", "ac|geom|hstab|toverc", "", ""⟩,
     ⟨"mission", "ac|geom|vstab|toverc", "ac|geom|vstab|toverc", "", ""⟩,
     ⟨"mission", "ac|geom|wing|toverc", "ac|geom|wing|toverc", "", ""⟩,
     ⟨"mission", "ac|geom|hstab|S_ref", "ac|geom|hstab|S_ref", "ft**2", "m**2"⟩,
     ⟨"mission", "ac|geom|hstab|AR", "ac|geom|hstab|AR", "", ""⟩,
     ⟨"mission", "ac|geom|hstab|taper", "ac|geom|hstab|taper", "", ""⟩,
     ⟨"mission", "ac|geom|vstab|S_ref", "ac|geom|vstab|S_ref", "ft**2", "m**2"⟩,
     ⟨"mission", "ac|geom|vstab|AR", "ac|geom|vstab|AR", "", ""⟩,
     ⟨"mission", "ac|geom|vstab|taper", "ac|geom|vstab|taper", "", ""⟩,
     ⟨"mission", "ac|geom|wing|S_ref", "ac|geom|wing|S_ref", "m**2", "m**2"⟩,
     ⟨"mission", "ac|geom|wing|AR", "ac|geom|wing|AR", "", ""⟩,
     ⟨"mission", "ac|geom|wing|taper", "ac|geom|wing|taper", "", ""⟩,
     ⟨"mission", "ac|geom|nacelle|length", "ac|geom|nacelle|length", "m", "m"⟩,
     ⟨"mission", "ac|geom|fuselage|S_wet", "ac|geom|fuselage|S_wet", "m**2", "m**2"⟩,
     ⟨"mission", "ac|geom|nacelle|S_wet", "ac|geom|nacelle|S_wet", "m**2", "m**2"⟩,
     ⟨"mission", "ac|propulsion|num_engines", "ac|propulsion|num_engines", "", ""⟩,
     ⟨"mission", "ac|aero|takeoff_flap_deg", "ac|aero|takeoff_flap_deg", "deg", "deg"⟩,
     ⟨"mission", "ac|geom|wing|c4sweep", "ac|geom|wing|c4sweep", "deg", "rad"⟩,
     ⟨"mission", "ac|aero|polar|e", "ac|aero|polar|e", "", ""⟩,
     ⟨"mission", "ac|propulsion|engine|rating", "ac|propulsion|engine|rating", "lbf", "lbf"⟩,
     ⟨"mission", "ac|weights|MTOW", "ac|weights|MTOW", "kg", "kg"⟩,
     ⟨"mission", "ac|aero|CLmax_TO", "ac|aero|CLmax_TO", "", ""⟩] := by
  decide +kernel


end Verif.Wiring
