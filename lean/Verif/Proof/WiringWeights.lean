import Verif.Model.WiringWeights
import Verif.Proof.Wiring

/-! Equations of the components of the weight groups, and where the variables are found (evaluated tables). -/

namespace Verif.Wiring

open Verif.Units Verif.VectorComps

theorem wingTP_rel (o : Opts) (V : String → ℝ) : (explicit dWingTP [lit "n_ult" (3.8 * 1.5)]).rel o V ↔
    V "W_wing" = Weights.WingTP.compute ⟨3.8 * 1.5, V "ac|weights|MTOW", V "ac|weights|W_fuel_max", V "ac|geom|wing|S_ref", V "ac|geom|wing|AR",
      V "ac|geom|wing|c4sweep", V "ac|geom|wing|taper", V "ac|geom|wing|toverc", V "ac|q_cruise"⟩ := by
  simp [explicit, dWingTP, wingTP, withOpts, OptVal.get, lit, ref, List.lookup, eq_comm]

theorem empennageTP_rel (o : Opts) (V : String → ℝ) : (explicit dEmpennageTP [lit "n_ult" (3.8 * 1.5)]).rel o V ↔
    V "W_empennage" = Weights.empennage (3.8 * 1.5) (V "ac|geom|vstab|S_ref") (V "ac|geom|hstab|S_ref") := by
  simp [explicit, dEmpennageTP, empennageTP, withOpts, OptVal.get, lit, ref, List.lookup, eq_comm]

theorem fuselageTP_rel (o : Opts) (V : String → ℝ) : (explicit dFuselageTP [lit "n_ult" (3.8 * 1.5)]).rel o V ↔
    V "W_fuselage" = Weights.FusTP.compute ⟨3.8 * 1.5, V "ac|weights|MTOW", V "ac|geom|fuselage|length", V "ac|geom|fuselage|height",
      V "ac|geom|fuselage|width", V "ac|geom|fuselage|S_wet", V "ac|geom|hstab|c4_to_wing_c4", V "ac|q_cruise"⟩ := by
  simp [explicit, dFuselageTP, fuselageTP, withOpts, OptVal.get, lit, ref, List.lookup, eq_comm]

theorem nacelleTP_rel (o : Opts) (V : String → ℝ) : (explicit dNacelleTP [lit "n_ult" (3.8 * 1.5)]).rel o V ↔
    V "W_nacelle" = Weights.nacelle1 (V "P_TO") := by
  simp [explicit, dNacelleTP, nacelleTP, withOpts, OptVal.get, lit, ref, List.lookup, eq_comm]

theorem gearTP_rel (o : Opts) (V : String → ℝ) : (explicit dGearTP [lit "n_ult" (3.8 * 1.5)]).rel o V ↔
    V "W_gear" = Weights.GearTP.compute ⟨3.8 * 1.5, V "ac|weights|MLW", V "ac|geom|maingear|length", V "ac|geom|nosegear|length"⟩ := by
  simp [explicit, dGearTP, gearTP, withOpts, OptVal.get, lit, ref, List.lookup, eq_comm]

theorem fuelSystemTP_rel (o : Opts) (V : String → ℝ) : (explicit dFuelSystemTP [lit "Kfsp" 6.55]).rel o V ↔
    V "W_fuelsystem" = Weights.fuelSystem (6.55) (V "ac|weights|W_fuel_max") := by
  simp [explicit, dFuelSystemTP, fuelSystemTP, withOpts, OptVal.get, lit, ref, List.lookup, eq_comm]

theorem equipmentTP_rel (o : Opts) (V : String → ℝ) : (explicit dEquipmentTP).rel o V ↔
    V "W_equipment" = Weights.EquipTP.compute ⟨V "ac|weights|MTOW", V "ac|num_passengers_max", V "ac|geom|fuselage|length", V "ac|geom|wing|AR",
      V "ac|geom|wing|S_ref", V "W_fuelsystem"⟩ := by
  simp [explicit, dEquipmentTP, equipmentTP, withOpts, OptVal.get, lit, ref, List.lookup, eq_comm]

theorem wingJet_rel (o : Opts) (V : String → ℝ) : (explicit dWingJet).rel o V ↔
    V "W_wing" = Weights.WingJ.compute ⟨o "n_ult", o "control_surface_area_frac", V "ac|weights|MTOW", V "ac|geom|wing|S_ref", V "ac|geom|wing|AR",
      V "ac|geom|wing|c4sweep", V "ac|geom|wing|taper", V "ac|geom|wing|toverc"⟩ := by
  simp [explicit, dWingJet, wingJet, withOpts, OptVal.get, lit, ref, List.lookup, eq_comm]

theorem hstabConstJet_rel (o : Opts) (V : String → ℝ) : (explicit dHstabConstJet).rel o V ↔
    V "HstabConst" = Weights.hstabConst (o "fuselage_width_frac") (V "ac|geom|hstab|S_ref") (V "ac|geom|hstab|AR") (V "ac|geom|fuselage|height") := by
  simp [explicit, dHstabConstJet, hstabConstJet, withOpts, OptVal.get, lit, ref, List.lookup, eq_comm]

theorem hstabJet_rel (o : Opts) (V : String → ℝ) : (explicit dHstabJet).rel o V ↔
    V "W_hstab" = Weights.HstabJ.compute ⟨o "n_ult", o "K_uht", o "elevator_area_frac", V "ac|weights|MTOW", V "ac|geom|hstab|S_ref", V "ac|geom|hstab|AR",
      V "ac|geom|hstab|c4sweep", V "ac|geom|hstab|c4_to_wing_c4", V "HstabConst"⟩ := by
  simp [explicit, dHstabJet, hstabJet, withOpts, OptVal.get, lit, ref, List.lookup, eq_comm]

theorem vstabJet_rel (T : Bool) (o : Opts) (V : String → ℝ) : (explicit (dVstabJet T)).rel o V ↔
    V "W_vstab" = Weights.VstabJ.compute ⟨o "n_ult", T, V "ac|weights|MTOW", V "ac|geom|vstab|S_ref", V "ac|geom|vstab|AR", V "ac|geom|vstab|c4sweep",
      V "ac|geom|vstab|c4_to_wing_c4", V "ac|geom|vstab|toverc"⟩ := by
  simp [explicit, dVstabJet, vstabJet, withOpts, OptVal.get, lit, ref, List.lookup, eq_comm]

theorem kwsJet_rel (o : Opts) (V : String → ℝ) : (explicit dKwsJet).rel o V ↔
    V "K_ws" = Weights.KwsJ.compute ⟨V "ac|geom|wing|taper", V "ac|geom|wing|S_ref", V "ac|geom|wing|AR", V "ac|geom|wing|c4sweep",
      V "ac|geom|fuselage|length"⟩ := by
  simp [explicit, dKwsJet, kwsJet, withOpts, OptVal.get, lit, ref, List.lookup, eq_comm]

theorem fuselageJet_rel (o : Opts) (V : String → ℝ) : (explicit dFuselageJet).rel o V ↔
    V "W_fuselage" = Weights.FusJ.compute ⟨o "n_ult", o "K_door", o "K_lg", V "ac|weights|MTOW", V "ac|geom|fuselage|length", V "ac|geom|fuselage|S_wet",
      V "ac|geom|fuselage|height", V "K_ws"⟩ := by
  simp [explicit, dFuselageJet, fuselageJet, withOpts, OptVal.get, lit, ref, List.lookup, eq_comm]

theorem mainGearJet_rel (o : Opts) (V : String → ℝ) : (explicit dMainGearJet [ref "kneeling_gear_parameter" "kneeling_main_gear_parameter"]).rel o V ↔
    V "W_mlg" = Weights.MainGearJ.compute ⟨o "n_land_ult", o "kneeling_main_gear_parameter", V "ac|weights|MLW", V "ac|geom|maingear|length",
      V "ac|geom|maingear|num_wheels", V "ac|geom|maingear|num_shock_struts", V "ac|aero|Vstall_land"⟩ := by
  simp [explicit, dMainGearJet, mainGearJet, withOpts, OptVal.get, lit, ref, List.lookup, eq_comm]

theorem noseGearJet_rel (o : Opts) (V : String → ℝ) : (explicit dNoseGearJet [ref "kneeling_gear_parameter" "kneeling_nose_gear_parameter"]).rel o V ↔
    V "W_nlg" = Weights.NoseGearJ.compute ⟨o "n_land_ult", o "kneeling_nose_gear_parameter", V "ac|weights|MLW", V "ac|geom|nosegear|length",
      V "ac|geom|nosegear|num_wheels"⟩ := by
  simp [explicit, dNoseGearJet, noseGearJet, withOpts, OptVal.get, lit, ref, List.lookup, eq_comm]

theorem engineJet_rel (o : Opts) (V : String → ℝ) : (explicit dEngineJet).rel o V ↔
    V "W_engine" = Weights.engineJ (V "ac|propulsion|engine|rating") := by
  simp [explicit, dEngineJet, engineJet, withOpts, OptVal.get, lit, ref, List.lookup, eq_comm]

theorem nacelleJet_rel (o : Opts) (V : String → ℝ) : (explicit dNacelleJet).rel o V ↔
    V "W_nacelle" = Weights.nacelleJ (V "ac|propulsion|engine|rating") (V "ac|propulsion|num_engines") := by
  simp [explicit, dNacelleJet, nacelleJet, withOpts, OptVal.get, lit, ref, List.lookup, eq_comm]

theorem cabinBWB_rel (o : Opts) (V : String → ℝ) : (explicit dCabinBWB).rel o V ↔
    V "W_cabin" = Weights.cabinBWB (V "ac|geom|centerbody|S_cabin") (V "ac|weights|MTOW") := by
  simp [explicit, dCabinBWB, cabinBWB, withOpts, OptVal.get, lit, ref, List.lookup, eq_comm]

theorem aftbodyBWB_rel (o : Opts) (V : String → ℝ) : (explicit dAftbodyBWB).rel o V ↔
    V "W_aftbody" = Weights.AftBWB.compute ⟨V "ac|geom|centerbody|S_aftbody", V "ac|geom|centerbody|taper_aftbody", V "ac|propulsion|num_engines",
      V "ac|weights|MTOW"⟩ := by
  simp [explicit, dAftbodyBWB, aftbodyBWB, withOpts, OptVal.get, lit, ref, List.lookup, eq_comm]

theorem engineSystems_rel (o : Opts) (V : String → ℝ) : (explicit dEngineSystems).rel o V ↔
    V "W_thrust_rev" = Weights.thrustRev (V "ac|propulsion|engine|rating") (V "ac|propulsion|num_engines") ∧
    V "W_eng_control" = Weights.engControl (V "ac|propulsion|engine|rating") (V "ac|propulsion|num_engines") ∧
    V "W_fuelsystem" = Weights.fuelSysJ (V "ac|weights|W_fuel_max") (V "ac|propulsion|num_engines") (V "ac|aero|Mach_max") ∧
    V "W_eng_start" = Weights.engStart (V "W_engine") (V "ac|propulsion|num_engines") := by
  simp [explicit, dEngineSystems, engineSystems, withOpts, eq_comm]

theorem furnishing_rel (o : Opts) (V : String → ℝ) : (explicit dFurnishing).rel o V ↔
    V "W_furnishings" = Weights.FurnJ.compute ⟨o "K_lav", o "K_buf", V "ac|num_passengers_max", V "ac|num_flight_deck_crew",
      V "ac|num_cabin_crew", V "ac|cabin_pressure", V "ac|weights|MTOW"⟩ := by
  simp [explicit, dFurnishing, furnishing, withOpts, OptVal.get, List.lookup, eq_comm]

/-- the equipment in the state `V` -/
def equipOf (o : Opts) (V : String → ℝ) : Weights.EquipJ :=
  ⟨o "coeff_fc", o "coeff_avionics", o "APU_weight_frac", V "ac|weights|MTOW", V "ac|num_passengers_max", V "ac|num_cabin_crew",
    V "ac|num_flight_deck_crew", V "ac|propulsion|num_engines", V "ac|geom|V_pressurized", V "W_fuelsystem"⟩

theorem equipment_rel (o : Opts) (V : String → ℝ) : (explicit dEquipment).rel o V ↔
    V "W_flight_controls" = (equipOf o V).fc ∧ V "W_avionics" = (equipOf o V).av ∧ V "W_electrical" = (equipOf o V).elec ∧
    V "W_ac_pressurize_antiice" = (equipOf o V).ac ∧ V "W_oxygen" = (equipOf o V).ox ∧ V "W_APU" = (equipOf o V).APU := by
  simp [explicit, dEquipment, equipment, withOpts, OptVal.get, List.lookup, equipOf, eq_comm]

theorem conv_kg_lb (x : ℝ) : conv "kg" "lb" x = x / 0.45359237 := by
  simp [conv, off, fac] <;> ring_nf

theorem conv_lb1 (x : ℝ) : conv "lb " "lb" x = x := by
  simp [conv, off, fac] <;> ring_nf

theorem conv_lb2 (x : ℝ) : conv "lb * (m/m) " "lb" x = x := by
  simp [conv, off, fac] <;> ring_nf

theorem singleEmpty_links : singleEmpty.links =
    [⟨"const", "W_fluids", "W_fluids", "kg", "kg"⟩, ⟨"const", "structural_fudge", "structural_fudge", "m/m", "m/m"⟩,
     ⟨"wing", "W_wing", "W_wing", "lb", "lb"⟩, ⟨"wing", "ac|weights|MTOW", "ac|weights|MTOW", "lb", "lb"⟩,
     ⟨"wing", "ac|weights|W_fuel_max", "ac|weights|W_fuel_max", "lb", "lb"⟩,
     ⟨"wing", "ac|geom|wing|S_ref", "ac|geom|wing|S_ref", "ft**2", "ft**2"⟩,
     ⟨"wing", "ac|geom|wing|AR", "ac|geom|wing|AR", "", ""⟩,
     ⟨"wing", "ac|geom|wing|c4sweep", "ac|geom|wing|c4sweep", "rad", "rad"⟩,
     ⟨"wing", "ac|geom|wing|taper", "ac|geom|wing|taper", "", ""⟩,
     ⟨"wing", "ac|geom|wing|toverc", "ac|geom|wing|toverc", "", ""⟩,
     ⟨"wing", "ac|q_cruise", "ac|q_cruise", "lb*ft**-2", "lb*ft**-2"⟩,
     ⟨"empennage", "W_empennage", "W_empennage", "lb", "lb"⟩,
     ⟨"empennage", "ac|geom|hstab|S_ref", "ac|geom|hstab|S_ref", "ft**2", "ft**2"⟩,
     ⟨"empennage", "ac|geom|vstab|S_ref", "ac|geom|vstab|S_ref", "ft**2", "ft**2"⟩,
     ⟨"fuselage", "W_fuselage", "W_fuselage", "lb", "lb"⟩, ⟨"fuselage", "ac|weights|MTOW", "ac|weights|MTOW", "lb", "lb"⟩,
     ⟨"fuselage", "ac|geom|fuselage|length", "ac|geom|fuselage|length", "ft", "ft"⟩,
     ⟨"fuselage", "ac|geom|fuselage|height", "ac|geom|fuselage|height", "ft", "ft"⟩,
     ⟨"fuselage", "ac|geom|fuselage|width", "ac|geom|fuselage|width", "ft", "ft"⟩,
     ⟨"fuselage", "ac|geom|fuselage|S_wet", "ac|geom|fuselage|S_wet", "ft**2", "ft**2"⟩,
     ⟨"fuselage", "ac|geom|hstab|c4_to_wing_c4", "ac|geom|hstab|c4_to_wing_c4", "ft", "ft"⟩,
     ⟨"fuselage", "ac|q_cruise", "ac|q_cruise", "lb*ft**-2", "lb*ft**-2"⟩, ⟨"nacelle", "W_nacelle", "W_nacelle", "lb", "lb"⟩,
     ⟨"nacelle", "P_TO", "P_TO", "hp", "hp"⟩, ⟨"gear", "W_gear", "W_gear", "lb", "lb"⟩,
     ⟨"gear", "ac|weights|MLW", "ac|weights|MLW", "lb", "lb"⟩,
     ⟨"gear", "ac|geom|maingear|length", "ac|geom|maingear|length", "ft", "ft"⟩,
     ⟨"gear", "ac|geom|nosegear|length", "ac|geom|nosegear|length", "ft", "ft"⟩,
     ⟨"fuelsystem", "W_fuelsystem", "W_fuelsystem", "lb", "lb"⟩,
     ⟨"fuelsystem", "ac|weights|W_fuel_max", "ac|weights|W_fuel_max", "lb", "lb"⟩,
     ⟨"equipment", "W_equipment", "W_equipment", "lb", "lb"⟩,
     ⟨"equipment", "ac|weights|MTOW", "ac|weights|MTOW", "lb", "lb"⟩,
     ⟨"equipment", "ac|num_passengers_max", "ac|num_passengers_max", "", ""⟩,
     ⟨"equipment", "ac|geom|fuselage|length", "ac|geom|fuselage|length", "ft", "ft"⟩,
     ⟨"equipment", "ac|geom|wing|AR", "ac|geom|wing|AR", "", ""⟩,
     ⟨"equipment", "ac|geom|wing|S_ref", "ac|geom|wing|S_ref", "ft**2", "ft**2"⟩,
     ⟨"equipment", "W_fuelsystem", "W_fuelsystem", "lb", "lb"⟩, ⟨"structural", "W_structure", "W_structure", "lb", "lb"⟩,
     ⟨"structural", "W_wing", "W_wing", "lb", "lb"⟩, ⟨"structural", "W_fuselage", "W_fuselage", "lb", "lb"⟩,
     ⟨"structural", "W_nacelle", "W_nacelle", "lb", "lb"⟩, ⟨"structural", "W_empennage", "W_empennage", "lb", "lb"⟩,
     ⟨"structural", "W_gear", "W_gear", "lb", "lb"⟩,
     ⟨"structural_fudge", "W_structure_adjusted", "W_structure_adjusted", "lb * (m/m) ", "lb * (m/m) "⟩,
     ⟨"structural_fudge", "W_structure", "W_structure", "lb", "lb"⟩,
     ⟨"structural_fudge", "structural_fudge", "structural_fudge", "m/m", "m/m"⟩, ⟨"totalempty", "OEW", "OEW", "lb", "lb"⟩,
     ⟨"totalempty", "W_structure_adjusted", "W_structure_adjusted", "lb * (m/m) ", "lb"⟩,
     ⟨"totalempty", "W_fuelsystem", "W_fuelsystem", "lb", "lb"⟩, ⟨"totalempty", "W_equipment", "W_equipment", "lb", "lb"⟩,
     ⟨"totalempty", "W_engine", "W_engine", "lb", "lb"⟩, ⟨"totalempty", "W_propeller", "W_propeller", "lb", "lb"⟩,
     ⟨"totalempty", "W_fluids", "W_fluids", "kg", "lb"⟩] := by
  decide +kernel

theorem twinEmpty_links : twinEmpty.links =
    [⟨"const", "W_fluids", "W_fluids", "kg", "kg"⟩, ⟨"const", "structural_fudge", "structural_fudge", "m/m", "m/m"⟩,
     ⟨"wing", "W_wing", "W_wing", "lb", "lb"⟩, ⟨"wing", "ac|weights|MTOW", "ac|weights|MTOW", "lb", "lb"⟩,
     ⟨"wing", "ac|weights|W_fuel_max", "ac|weights|W_fuel_max", "lb", "lb"⟩,
     ⟨"wing", "ac|geom|wing|S_ref", "ac|geom|wing|S_ref", "ft**2", "ft**2"⟩,
     ⟨"wing", "ac|geom|wing|AR", "ac|geom|wing|AR", "", ""⟩,
     ⟨"wing", "ac|geom|wing|c4sweep", "ac|geom|wing|c4sweep", "rad", "rad"⟩,
     ⟨"wing", "ac|geom|wing|taper", "ac|geom|wing|taper", "", ""⟩,
     ⟨"wing", "ac|geom|wing|toverc", "ac|geom|wing|toverc", "", ""⟩,
     ⟨"wing", "ac|q_cruise", "ac|q_cruise", "lb*ft**-2", "lb*ft**-2"⟩,
     ⟨"empennage", "W_empennage", "W_empennage", "lb", "lb"⟩,
     ⟨"empennage", "ac|geom|hstab|S_ref", "ac|geom|hstab|S_ref", "ft**2", "ft**2"⟩,
     ⟨"empennage", "ac|geom|vstab|S_ref", "ac|geom|vstab|S_ref", "ft**2", "ft**2"⟩,
     ⟨"fuselage", "W_fuselage", "W_fuselage", "lb", "lb"⟩, ⟨"fuselage", "ac|weights|MTOW", "ac|weights|MTOW", "lb", "lb"⟩,
     ⟨"fuselage", "ac|geom|fuselage|length", "ac|geom|fuselage|length", "ft", "ft"⟩,
     ⟨"fuselage", "ac|geom|fuselage|height", "ac|geom|fuselage|height", "ft", "ft"⟩,
     ⟨"fuselage", "ac|geom|fuselage|width", "ac|geom|fuselage|width", "ft", "ft"⟩,
     ⟨"fuselage", "ac|geom|fuselage|S_wet", "ac|geom|fuselage|S_wet", "ft**2", "ft**2"⟩,
     ⟨"fuselage", "ac|geom|hstab|c4_to_wing_c4", "ac|geom|hstab|c4_to_wing_c4", "ft", "ft"⟩,
     ⟨"fuselage", "ac|q_cruise", "ac|q_cruise", "lb*ft**-2", "lb*ft**-2"⟩, ⟨"nacelle", "W_nacelle", "W_nacelle", "lb", "lb"⟩,
     ⟨"nacelle", "P_TO", "P_TO", "hp", "hp"⟩, ⟨"gear", "W_gear", "W_gear", "lb", "lb"⟩,
     ⟨"gear", "ac|weights|MLW", "ac|weights|MLW", "lb", "lb"⟩,
     ⟨"gear", "ac|geom|maingear|length", "ac|geom|maingear|length", "ft", "ft"⟩,
     ⟨"gear", "ac|geom|nosegear|length", "ac|geom|nosegear|length", "ft", "ft"⟩,
     ⟨"fuelsystem", "W_fuelsystem", "W_fuelsystem", "lb", "lb"⟩,
     ⟨"fuelsystem", "ac|weights|W_fuel_max", "ac|weights|W_fuel_max", "lb", "lb"⟩,
     ⟨"equipment", "W_equipment", "W_equipment", "lb", "lb"⟩,
     ⟨"equipment", "ac|weights|MTOW", "ac|weights|MTOW", "lb", "lb"⟩,
     ⟨"equipment", "ac|num_passengers_max", "ac|num_passengers_max", "", ""⟩,
     ⟨"equipment", "ac|geom|fuselage|length", "ac|geom|fuselage|length", "ft", "ft"⟩,
     ⟨"equipment", "ac|geom|wing|AR", "ac|geom|wing|AR", "", ""⟩,
     ⟨"equipment", "ac|geom|wing|S_ref", "ac|geom|wing|S_ref", "ft**2", "ft**2"⟩,
     ⟨"equipment", "W_fuelsystem", "W_fuelsystem", "lb", "lb"⟩, ⟨"structural", "W_structure", "W_structure", "lb", "lb"⟩,
     ⟨"structural", "W_wing", "W_wing", "lb", "lb"⟩, ⟨"structural", "W_fuselage", "W_fuselage", "lb", "lb"⟩,
     ⟨"structural", "W_nacelle", "W_nacelle", "lb", "lb"⟩, ⟨"structural", "W_empennage", "W_empennage", "lb", "lb"⟩,
     ⟨"structural", "W_gear", "W_gear", "lb", "lb"⟩,
     ⟨"structural_fudge", "W_structure_adjusted", "W_structure_adjusted", "lb * (m/m) ", "lb * (m/m) "⟩,
     ⟨"structural_fudge", "W_structure", "W_structure", "lb", "lb"⟩,
     ⟨"structural_fudge", "structural_fudge", "structural_fudge", "m/m", "m/m"⟩, ⟨"totalempty", "OEW", "OEW", "lb", "lb"⟩,
     ⟨"totalempty", "W_structure_adjusted", "W_structure_adjusted", "lb * (m/m) ", "lb"⟩,
     ⟨"totalempty", "W_fuelsystem", "W_fuelsystem", "lb", "lb"⟩, ⟨"totalempty", "W_equipment", "W_equipment", "lb", "lb"⟩,
     ⟨"totalempty", "W_engine", "W_engine", "lb", "lb"⟩, ⟨"totalempty", "W_motors", "W_motors", "lb", "lb"⟩,
     ⟨"totalempty", "W_generator", "W_generator", "lb", "lb"⟩, ⟨"totalempty", "W_propeller", "W_propeller", "lb", "lb"⟩,
     ⟨"totalempty", "W_fluids", "W_fluids", "kg", "lb"⟩] := by
  decide +kernel

theorem jetEmpty_links (T : Bool) : (jetEmpty T).links =
    [⟨"wing", "W_wing", "W_wing", "lb", "lb"⟩, ⟨"wing", "ac|weights|MTOW", "ac|weights|MTOW", "lb", "lb"⟩,
     ⟨"wing", "ac|geom|wing|S_ref", "ac|geom|wing|S_ref", "ft**2", "ft**2"⟩,
     ⟨"wing", "ac|geom|wing|AR", "ac|geom|wing|AR", "", ""⟩,
     ⟨"wing", "ac|geom|wing|c4sweep", "ac|geom|wing|c4sweep", "rad", "rad"⟩,
     ⟨"wing", "ac|geom|wing|taper", "ac|geom|wing|taper", "", ""⟩,
     ⟨"wing", "ac|geom|wing|toverc", "ac|geom|wing|toverc", "", ""⟩,
     ⟨"hstab", "hstab_const.HstabConst", "hstab.hstab_const.HstabConst", "", ""⟩,
     ⟨"hstab", "W_hstab", "W_hstab", "lb", "lb"⟩, ⟨"hstab", "ac|geom|hstab|S_ref", "ac|geom|hstab|S_ref", "ft**2", "ft**2"⟩,
     ⟨"hstab", "ac|geom|hstab|AR", "ac|geom|hstab|AR", "", ""⟩,
     ⟨"hstab", "ac|geom|fuselage|height", "ac|geom|fuselage|height", "ft", "ft"⟩,
     ⟨"hstab", "ac|weights|MTOW", "ac|weights|MTOW", "lb", "lb"⟩,
     ⟨"hstab", "ac|geom|hstab|c4sweep", "ac|geom|hstab|c4sweep", "rad", "rad"⟩,
     ⟨"hstab", "ac|geom|hstab|c4_to_wing_c4", "ac|geom|hstab|c4_to_wing_c4", "ft", "ft"⟩,
     ⟨"vstab", "W_vstab", "W_vstab", "lb", "lb"⟩, ⟨"vstab", "ac|weights|MTOW", "ac|weights|MTOW", "lb", "lb"⟩,
     ⟨"vstab", "ac|geom|vstab|S_ref", "ac|geom|vstab|S_ref", "ft**2", "ft**2"⟩,
     ⟨"vstab", "ac|geom|vstab|AR", "ac|geom|vstab|AR", "", ""⟩,
     ⟨"vstab", "ac|geom|vstab|c4sweep", "ac|geom|vstab|c4sweep", "rad", "rad"⟩,
     ⟨"vstab", "ac|geom|vstab|c4_to_wing_c4", "ac|geom|vstab|c4_to_wing_c4", "ft", "ft"⟩,
     ⟨"vstab", "ac|geom|vstab|toverc", "ac|geom|vstab|toverc", "", ""⟩,
     ⟨"fuselage", "K_ws_term.K_ws", "fuselage.K_ws_term.K_ws", "", ""⟩, ⟨"fuselage", "W_fuselage", "W_fuselage", "lb", "lb"⟩,
     ⟨"fuselage", "ac|geom|wing|taper", "ac|geom|wing|taper", "", ""⟩,
     ⟨"fuselage", "ac|geom|wing|S_ref", "ac|geom|wing|S_ref", "ft**2", "ft**2"⟩,
     ⟨"fuselage", "ac|geom|wing|AR", "ac|geom|wing|AR", "", ""⟩,
     ⟨"fuselage", "ac|geom|wing|c4sweep", "ac|geom|wing|c4sweep", "rad", "rad"⟩,
     ⟨"fuselage", "ac|geom|fuselage|length", "ac|geom|fuselage|length", "ft", "ft"⟩,
     ⟨"fuselage", "ac|weights|MTOW", "ac|weights|MTOW", "lb", "lb"⟩,
     ⟨"fuselage", "ac|geom|fuselage|S_wet", "ac|geom|fuselage|S_wet", "ft**2", "ft**2"⟩,
     ⟨"fuselage", "ac|geom|fuselage|height", "ac|geom|fuselage|height", "ft", "ft"⟩,
     ⟨"main_gear", "W_mlg", "W_mlg", "lb", "lb"⟩,
     ⟨"main_gear", "ac|geom|maingear|length", "ac|geom|maingear|length", "inch", "inch"⟩,
     ⟨"main_gear", "ac|weights|MLW", "ac|weights|MLW", "lb", "lb"⟩,
     ⟨"main_gear", "ac|geom|maingear|num_wheels", "ac|geom|maingear|num_wheels", "", ""⟩,
     ⟨"main_gear", "ac|geom|maingear|num_shock_struts", "ac|geom|maingear|num_shock_struts", "", ""⟩,
     ⟨"main_gear", "ac|aero|Vstall_land", "ac|aero|Vstall_land", "kn", "kn"⟩, ⟨"nose_gear", "W_nlg", "W_nlg", "lb", "lb"⟩,
     ⟨"nose_gear", "ac|geom|nosegear|length", "ac|geom|nosegear|length", "inch", "inch"⟩,
     ⟨"nose_gear", "ac|weights|MLW", "ac|weights|MLW", "lb", "lb"⟩,
     ⟨"nose_gear", "ac|geom|nosegear|num_wheels", "ac|geom|nosegear|num_wheels", "", ""⟩,
     ⟨"single_engine", "W_engine", "single_engine.W_engine", "lb", "lb"⟩,
     ⟨"single_engine", "ac|propulsion|engine|rating", "ac|propulsion|engine|rating", "lbf", "lbf"⟩,
     ⟨"engine_multiplier", "W_engines", "W_engines", "lb ", "lb "⟩,
     ⟨"engine_multiplier", "W_engine", "single_engine.W_engine", "lb", "lb"⟩,
     ⟨"engine_multiplier", "ac|propulsion|num_engines", "ac|propulsion|num_engines", "", ""⟩,
     ⟨"engine_systems", "W_thrust_rev", "W_thrust_rev", "lb", "lb"⟩,
     ⟨"engine_systems", "W_eng_control", "W_eng_control", "lb", "lb"⟩,
     ⟨"engine_systems", "W_fuelsystem", "W_fuelsystem", "lb", "lb"⟩,
     ⟨"engine_systems", "W_eng_start", "W_eng_start", "lb", "lb"⟩,
     ⟨"engine_systems", "ac|propulsion|engine|rating", "ac|propulsion|engine|rating", "lbf", "lbf"⟩,
     ⟨"engine_systems", "ac|propulsion|num_engines", "ac|propulsion|num_engines", "", ""⟩,
     ⟨"engine_systems", "W_engine", "single_engine.W_engine", "lb", "lb"⟩,
     ⟨"engine_systems", "ac|aero|Mach_max", "ac|aero|Mach_max", "", ""⟩,
     ⟨"engine_systems", "ac|weights|W_fuel_max", "ac|weights|W_fuel_max", "lb", "lb"⟩,
     ⟨"nacelles", "W_nacelle", "W_nacelle", "lb", "lb"⟩,
     ⟨"nacelles", "ac|propulsion|engine|rating", "ac|propulsion|engine|rating", "lbf", "lbf"⟩,
     ⟨"nacelles", "ac|propulsion|num_engines", "ac|propulsion|num_engines", "", ""⟩,
     ⟨"furnishings", "W_furnishings", "W_furnishings", "lb", "lb"⟩,
     ⟨"furnishings", "ac|num_passengers_max", "ac|num_passengers_max", "", ""⟩,
     ⟨"furnishings", "ac|num_flight_deck_crew", "ac|num_flight_deck_crew", "", ""⟩,
     ⟨"furnishings", "ac|num_cabin_crew", "ac|num_cabin_crew", "", ""⟩,
     ⟨"furnishings", "ac|cabin_pressure", "ac|cabin_pressure", "psi", "psi"⟩,
     ⟨"furnishings", "ac|weights|MTOW", "ac|weights|MTOW", "lb", "lb"⟩,
     ⟨"cabin_volume", "V_pressurized", "cabin_volume.V_pressurized", "ft**3", "ft**3"⟩,
     ⟨"cabin_volume", "fus_height", "ac|geom|fuselage|height", "ft", "ft"⟩,
     ⟨"cabin_volume", "fus_length", "ac|geom|fuselage|length", "ft", "ft"⟩,
     ⟨"equipment", "W_flight_controls", "W_flight_controls", "lb", "lb"⟩,
     ⟨"equipment", "W_avionics", "W_avionics", "lb", "lb"⟩, ⟨"equipment", "W_electrical", "W_electrical", "lb", "lb"⟩,
     ⟨"equipment", "W_ac_pressurize_antiice", "W_ac_pressurize_antiice", "lb", "lb"⟩,
     ⟨"equipment", "W_oxygen", "W_oxygen", "lb", "lb"⟩, ⟨"equipment", "W_APU", "W_APU", "lb", "lb"⟩,
     ⟨"equipment", "ac|weights|MTOW", "ac|weights|MTOW", "lb", "lb"⟩,
     ⟨"equipment", "ac|num_passengers_max", "ac|num_passengers_max", "", ""⟩,
     ⟨"equipment", "ac|num_cabin_crew", "ac|num_cabin_crew", "", ""⟩,
     ⟨"equipment", "ac|num_flight_deck_crew", "ac|num_flight_deck_crew", "", ""⟩,
     ⟨"equipment", "ac|propulsion|num_engines", "ac|propulsion|num_engines", "", ""⟩,
     ⟨"equipment", "ac|geom|V_pressurized", "cabin_volume.V_pressurized", "ft**3", "ft**3"⟩,
     ⟨"equipment", "W_fuelsystem", "W_fuelsystem", "lb", "lb"⟩,
     ⟨"structural_adjustment", "W_structure", "W_structure", "lb", "lb"⟩,
     ⟨"structural_adjustment", "W_wing", "W_wing", "lb", "lb"⟩, ⟨"structural_adjustment", "W_hstab", "W_hstab", "lb", "lb"⟩,
     ⟨"structural_adjustment", "W_vstab", "W_vstab", "lb", "lb"⟩,
     ⟨"structural_adjustment", "W_fuselage", "W_fuselage", "lb", "lb"⟩,
     ⟨"structural_adjustment", "W_mlg", "W_mlg", "lb", "lb"⟩, ⟨"structural_adjustment", "W_nlg", "W_nlg", "lb", "lb"⟩,
     ⟨"structural_adjustment", "W_nacelle", "W_nacelle", "lb", "lb"⟩, ⟨"sum_weights", "OEW", "OEW", "lb", "lb"⟩,
     ⟨"sum_weights", "W_structure", "W_structure", "lb", "lb"⟩, ⟨"sum_weights", "W_engines", "W_engines", "lb ", "lb"⟩,
     ⟨"sum_weights", "W_thrust_rev", "W_thrust_rev", "lb", "lb"⟩,
     ⟨"sum_weights", "W_eng_control", "W_eng_control", "lb", "lb"⟩,
     ⟨"sum_weights", "W_fuelsystem", "W_fuelsystem", "lb", "lb"⟩, ⟨"sum_weights", "W_eng_start", "W_eng_start", "lb", "lb"⟩,
     ⟨"sum_weights", "W_furnishings", "W_furnishings", "lb", "lb"⟩,
     ⟨"sum_weights", "W_flight_controls", "W_flight_controls", "lb", "lb"⟩,
     ⟨"sum_weights", "W_avionics", "W_avionics", "lb", "lb"⟩, ⟨"sum_weights", "W_electrical", "W_electrical", "lb", "lb"⟩,
     ⟨"sum_weights", "W_ac_pressurize_antiice", "W_ac_pressurize_antiice", "lb", "lb"⟩,
     ⟨"sum_weights", "W_oxygen", "W_oxygen", "lb", "lb"⟩, ⟨"sum_weights", "W_APU", "W_APU", "lb", "lb"⟩] := by
  cases T <;> decide +kernel

theorem bwbEmpty_links : bwbEmpty.links =
    [⟨"cabin", "W_cabin", "W_cabin", "lb", "lb"⟩,
     ⟨"cabin", "ac|geom|centerbody|S_cabin", "ac|geom|centerbody|S_cabin", "ft**2", "ft**2"⟩,
     ⟨"cabin", "ac|weights|MTOW", "ac|weights|MTOW", "lb", "lb"⟩, ⟨"aftbody", "W_aftbody", "W_aftbody", "lb", "lb"⟩,
     ⟨"aftbody", "ac|geom|centerbody|S_aftbody", "ac|geom|centerbody|S_aftbody", "ft**2", "ft**2"⟩,
     ⟨"aftbody", "ac|geom|centerbody|taper_aftbody", "ac|geom|centerbody|taper_aftbody", "", ""⟩,
     ⟨"aftbody", "ac|propulsion|num_engines", "ac|propulsion|num_engines", "", ""⟩,
     ⟨"aftbody", "ac|weights|MTOW", "ac|weights|MTOW", "lb", "lb"⟩, ⟨"wing", "W_wing", "W_wing", "lb", "lb"⟩,
     ⟨"wing", "ac|weights|MTOW", "ac|weights|MTOW", "lb", "lb"⟩,
     ⟨"wing", "ac|geom|wing|S_ref", "ac|geom|wing|S_ref", "ft**2", "ft**2"⟩,
     ⟨"wing", "ac|geom|wing|AR", "ac|geom|wing|AR", "", ""⟩,
     ⟨"wing", "ac|geom|wing|c4sweep", "ac|geom|wing|c4sweep", "rad", "rad"⟩,
     ⟨"wing", "ac|geom|wing|taper", "ac|geom|wing|taper", "", ""⟩,
     ⟨"wing", "ac|geom|wing|toverc", "ac|geom|wing|toverc", "", ""⟩, ⟨"main_gear", "W_mlg", "W_mlg", "lb", "lb"⟩,
     ⟨"main_gear", "ac|geom|maingear|length", "ac|geom|maingear|length", "inch", "inch"⟩,
     ⟨"main_gear", "ac|weights|MLW", "ac|weights|MLW", "lb", "lb"⟩,
     ⟨"main_gear", "ac|geom|maingear|num_wheels", "ac|geom|maingear|num_wheels", "", ""⟩,
     ⟨"main_gear", "ac|geom|maingear|num_shock_struts", "ac|geom|maingear|num_shock_struts", "", ""⟩,
     ⟨"main_gear", "ac|aero|Vstall_land", "ac|aero|Vstall_land", "kn", "kn"⟩, ⟨"nose_gear", "W_nlg", "W_nlg", "lb", "lb"⟩,
     ⟨"nose_gear", "ac|geom|nosegear|length", "ac|geom|nosegear|length", "inch", "inch"⟩,
     ⟨"nose_gear", "ac|weights|MLW", "ac|weights|MLW", "lb", "lb"⟩,
     ⟨"nose_gear", "ac|geom|nosegear|num_wheels", "ac|geom|nosegear|num_wheels", "", ""⟩,
     ⟨"single_engine", "W_engine", "single_engine.W_engine", "lb", "lb"⟩,
     ⟨"single_engine", "ac|propulsion|engine|rating", "ac|propulsion|engine|rating", "lbf", "lbf"⟩,
     ⟨"engine_multiplier", "W_engines", "W_engines", "lb ", "lb "⟩,
     ⟨"engine_multiplier", "W_engine", "single_engine.W_engine", "lb", "lb"⟩,
     ⟨"engine_multiplier", "ac|propulsion|num_engines", "ac|propulsion|num_engines", "", ""⟩,
     ⟨"engine_systems", "W_thrust_rev", "W_thrust_rev", "lb", "lb"⟩,
     ⟨"engine_systems", "W_eng_control", "W_eng_control", "lb", "lb"⟩,
     ⟨"engine_systems", "W_fuelsystem", "W_fuelsystem", "lb", "lb"⟩,
     ⟨"engine_systems", "W_eng_start", "W_eng_start", "lb", "lb"⟩,
     ⟨"engine_systems", "ac|propulsion|engine|rating", "ac|propulsion|engine|rating", "lbf", "lbf"⟩,
     ⟨"engine_systems", "ac|propulsion|num_engines", "ac|propulsion|num_engines", "", ""⟩,
     ⟨"engine_systems", "W_engine", "single_engine.W_engine", "lb", "lb"⟩,
     ⟨"engine_systems", "ac|aero|Mach_max", "ac|aero|Mach_max", "", ""⟩,
     ⟨"engine_systems", "ac|weights|W_fuel_max", "ac|weights|W_fuel_max", "lb", "lb"⟩,
     ⟨"nacelles", "W_nacelle", "W_nacelle", "lb", "lb"⟩,
     ⟨"nacelles", "ac|propulsion|engine|rating", "ac|propulsion|engine|rating", "lbf", "lbf"⟩,
     ⟨"nacelles", "ac|propulsion|num_engines", "ac|propulsion|num_engines", "", ""⟩,
     ⟨"furnishings", "W_furnishings", "W_furnishings", "lb", "lb"⟩,
     ⟨"furnishings", "ac|num_passengers_max", "ac|num_passengers_max", "", ""⟩,
     ⟨"furnishings", "ac|num_flight_deck_crew", "ac|num_flight_deck_crew", "", ""⟩,
     ⟨"furnishings", "ac|num_cabin_crew", "ac|num_cabin_crew", "", ""⟩,
     ⟨"furnishings", "ac|cabin_pressure", "ac|cabin_pressure", "psi", "psi"⟩,
     ⟨"furnishings", "ac|weights|MTOW", "ac|weights|MTOW", "lb", "lb"⟩,
     ⟨"equipment", "W_flight_controls", "W_flight_controls", "lb", "lb"⟩,
     ⟨"equipment", "W_avionics", "W_avionics", "lb", "lb"⟩, ⟨"equipment", "W_electrical", "W_electrical", "lb", "lb"⟩,
     ⟨"equipment", "W_ac_pressurize_antiice", "W_ac_pressurize_antiice", "lb", "lb"⟩,
     ⟨"equipment", "W_oxygen", "W_oxygen", "lb", "lb"⟩, ⟨"equipment", "W_APU", "W_APU", "lb", "lb"⟩,
     ⟨"equipment", "ac|weights|MTOW", "ac|weights|MTOW", "lb", "lb"⟩,
     ⟨"equipment", "ac|num_passengers_max", "ac|num_passengers_max", "", ""⟩,
     ⟨"equipment", "ac|num_cabin_crew", "ac|num_cabin_crew", "", ""⟩,
     ⟨"equipment", "ac|num_flight_deck_crew", "ac|num_flight_deck_crew", "", ""⟩,
     ⟨"equipment", "ac|propulsion|num_engines", "ac|propulsion|num_engines", "", ""⟩,
     ⟨"equipment", "ac|geom|V_pressurized", "ac|geom|V_pressurized", "ft**3", "ft**3"⟩,
     ⟨"equipment", "W_fuelsystem", "W_fuelsystem", "lb", "lb"⟩,
     ⟨"structural_adjustment", "W_structure", "W_structure", "lb", "lb"⟩,
     ⟨"structural_adjustment", "W_wing", "W_wing", "lb", "lb"⟩, ⟨"structural_adjustment", "W_cabin", "W_cabin", "lb", "lb"⟩,
     ⟨"structural_adjustment", "W_aftbody", "W_aftbody", "lb", "lb"⟩,
     ⟨"structural_adjustment", "W_mlg", "W_mlg", "lb", "lb"⟩, ⟨"structural_adjustment", "W_nlg", "W_nlg", "lb", "lb"⟩,
     ⟨"structural_adjustment", "W_nacelle", "W_nacelle", "lb", "lb"⟩, ⟨"sum_weights", "OEW", "OEW", "lb", "lb"⟩,
     ⟨"sum_weights", "W_structure", "W_structure", "lb", "lb"⟩, ⟨"sum_weights", "W_engines", "W_engines", "lb ", "lb"⟩,
     ⟨"sum_weights", "W_thrust_rev", "W_thrust_rev", "lb", "lb"⟩,
     ⟨"sum_weights", "W_eng_control", "W_eng_control", "lb", "lb"⟩,
     ⟨"sum_weights", "W_fuelsystem", "W_fuelsystem", "lb", "lb"⟩, ⟨"sum_weights", "W_eng_start", "W_eng_start", "lb", "lb"⟩,
     ⟨"sum_weights", "W_furnishings", "W_furnishings", "lb", "lb"⟩,
     ⟨"sum_weights", "W_flight_controls", "W_flight_controls", "lb", "lb"⟩,
     ⟨"sum_weights", "W_avionics", "W_avionics", "lb", "lb"⟩, ⟨"sum_weights", "W_electrical", "W_electrical", "lb", "lb"⟩,
     ⟨"sum_weights", "W_ac_pressurize_antiice", "W_ac_pressurize_antiice", "lb", "lb"⟩,
     ⟨"sum_weights", "W_oxygen", "W_oxygen", "lb", "lb"⟩, ⟨"sum_weights", "W_APU", "W_APU", "lb", "lb"⟩] := by
  decide +kernel

theorem hstabGroup_links : hstabGroup.links =
    [⟨"hstab_const", "HstabConst", "hstab_const.HstabConst", "", ""⟩,
     ⟨"hstab_const", "ac|geom|hstab|S_ref", "ac|geom|hstab|S_ref", "ft**2", "ft**2"⟩,
     ⟨"hstab_const", "ac|geom|hstab|AR", "ac|geom|hstab|AR", "", ""⟩,
     ⟨"hstab_const", "ac|geom|fuselage|height", "ac|geom|fuselage|height", "ft", "ft"⟩,
     ⟨"hstab_calc", "W_hstab", "W_hstab", "lb", "lb"⟩, ⟨"hstab_calc", "ac|weights|MTOW", "ac|weights|MTOW", "lb", "lb"⟩,
     ⟨"hstab_calc", "ac|geom|hstab|S_ref", "ac|geom|hstab|S_ref", "ft**2", "ft**2"⟩,
     ⟨"hstab_calc", "ac|geom|hstab|AR", "ac|geom|hstab|AR", "", ""⟩,
     ⟨"hstab_calc", "ac|geom|hstab|c4sweep", "ac|geom|hstab|c4sweep", "rad", "rad"⟩,
     ⟨"hstab_calc", "ac|geom|hstab|c4_to_wing_c4", "ac|geom|hstab|c4_to_wing_c4", "ft", "ft"⟩,
     ⟨"hstab_calc", "HstabConst", "hstab_const.HstabConst", "", ""⟩] := by
  decide +kernel

theorem fuselageGroup_links : fuselageGroup.links =
    [⟨"K_ws_term", "K_ws", "K_ws_term.K_ws", "", ""⟩, ⟨"K_ws_term", "ac|geom|wing|taper", "ac|geom|wing|taper", "", ""⟩,
     ⟨"K_ws_term", "ac|geom|wing|S_ref", "ac|geom|wing|S_ref", "ft**2", "ft**2"⟩,
     ⟨"K_ws_term", "ac|geom|wing|AR", "ac|geom|wing|AR", "", ""⟩,
     ⟨"K_ws_term", "ac|geom|wing|c4sweep", "ac|geom|wing|c4sweep", "rad", "rad"⟩,
     ⟨"K_ws_term", "ac|geom|fuselage|length", "ac|geom|fuselage|length", "ft", "ft"⟩,
     ⟨"fuselage_calc", "W_fuselage", "W_fuselage", "lb", "lb"⟩,
     ⟨"fuselage_calc", "ac|weights|MTOW", "ac|weights|MTOW", "lb", "lb"⟩,
     ⟨"fuselage_calc", "ac|geom|fuselage|length", "ac|geom|fuselage|length", "ft", "ft"⟩,
     ⟨"fuselage_calc", "ac|geom|fuselage|S_wet", "ac|geom|fuselage|S_wet", "ft**2", "ft**2"⟩,
     ⟨"fuselage_calc", "ac|geom|fuselage|height", "ac|geom|fuselage|height", "ft", "ft"⟩,
     ⟨"fuselage_calc", "K_ws", "K_ws_term.K_ws", "", ""⟩] := by
  decide +kernel

end Verif.Wiring
