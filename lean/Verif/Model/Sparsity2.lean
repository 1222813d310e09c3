import Verif.Model.Sparsity
import Verif.Model.WeightsJet
import Verif.Model.Decks

/-!
Further components for the completeness of the declared sparsity: regressions in fixed units, the standard atmosphere and
implicit components.  For an implicit component the value is the residual, and its state is listed among the inputs.
-/

namespace Verif.Units

/-- aerodynamics/CL_max_estimation.py:114-119 `FlapCLmax` -/
noncomputable def flapCLmax : Comp where
  ins := [("flap_extension", "deg"), ("ac|geom|wing|c4sweep", "rad"), ("CL_max_clean", ""), ("ac|geom|wing|toverc", "")]
  opts := [("flap_chord_frac", ""), ("wing_area_flapped_frac", ""), ("slat_chord_frac", ""), ("slat_span_frac", ""),
    ("fudge_factor", "")]
  outs := [("CL_max_flap", "")]
  consts := []
  run e o :=
    if o = "CL_max_flap" then some (Aero.flapCL ⟨e "flap_chord_frac", e "wing_area_flapped_frac", e "slat_chord_frac", e "slat_span_frac",
      e "fudge_factor"⟩ ⟨e "flap_extension", e "ac|geom|wing|c4sweep", e "CL_max_clean", e "ac|geom|wing|toverc"⟩)
    else none

/-- aerodynamics/CL_max_estimation.py:121-124 `FlapCLmax` -/
noncomputable def dFlapCLmax : Decl where
  comp := flapCLmax
  vecs := []
  parts := every ["CL_max_flap"] ["flap_extension", "ac|geom|wing|c4sweep", "ac|geom|wing|toverc"] .dense ++
    every ["CL_max_flap"] ["CL_max_clean"] .dense

/-- aerodynamics/drag_jet_transport.py:560-565 `SkinFrictionCoefficient_JetTransport` -/
noncomputable def skinFriction : Comp where
  ins := [("L", "m"), ("fltcond|Utrue", "m/s"), ("fltcond|rho", "kg/m**3"), ("fltcond|T", "K")]
  opts := [("laminar_frac", "")]
  outs := [("Cf", "")]
  consts := []
  run e o :=
    if o = "Cf" then some (Aero.cf (e "laminar_frac") ⟨e "L", e "fltcond|Utrue", e "fltcond|rho", e "fltcond|T"⟩)
    else none

/-- aerodynamics/drag_jet_transport.py:566-569 `SkinFrictionCoefficient_JetTransport` -/
noncomputable def dSkinFriction : Decl where
  comp := skinFriction
  vecs := ["fltcond|Utrue", "fltcond|rho", "fltcond|T", "Cf"]
  parts := every ["Cf"] ["fltcond|Utrue", "fltcond|rho", "fltcond|T"] .diag ++
    every ["Cf"] ["L"] .col

/-- atmospherics/pressure_comp.py:38-39 `PressureComp` -/
noncomputable def pressureComp : Comp where
  ins := [("fltcond|h", "m")]
  opts := []
  outs := [("fltcond|p", "Pa")]
  consts := []
  run e o :=
    if o = "fltcond|p" then Atmos.pressure (e "fltcond|h")
    else none

/-- atmospherics/pressure_comp.py:41-42 `PressureComp` -/
noncomputable def dPressureComp : Decl where
  comp := pressureComp
  vecs := ["fltcond|h", "fltcond|p"]
  parts := every ["fltcond|p"] ["fltcond|h"] .diag

/-- atmospherics/temperature_comp.py:40-42 `TemperatureComp` -/
noncomputable def temperatureComp : Comp where
  ins := [("fltcond|h", "m"), ("fltcond|TempIncrement", "degC")]
  opts := []
  outs := [("fltcond|T", "K")]
  consts := []
  run e o :=
    if o = "fltcond|T" then some (Atmos.temperature (e "fltcond|h") (e "fltcond|TempIncrement"))
    else none

/-- atmospherics/temperature_comp.py:44-46 `TemperatureComp` -/
noncomputable def dTemperatureComp : Decl where
  comp := temperatureComp
  vecs := ["fltcond|h", "fltcond|TempIncrement", "fltcond|T"]
  parts := every ["fltcond|T"] ["fltcond|h"] .diag ++
    every ["fltcond|T"] ["fltcond|TempIncrement"] .diag

/-- thermal/manifold.py:37-41 `FlowSplit`; where the fractions are between 0 and 1, else it raises -/
noncomputable def flowSplit : Comp where
  ins := [("mdot_in", "kg/s"), ("mdot_split_fraction", "")]
  opts := []
  outs := [("mdot_out_A", "kg/s"), ("mdot_out_B", "kg/s")]
  consts := []
  run e o :=
    if o = "mdot_out_A" then some (e "mdot_in" * e "mdot_split_fraction")
    else if o = "mdot_out_B" then some (e "mdot_in" * (1 - e "mdot_split_fraction"))
    else none

/-- thermal/manifold.py:43-44 `FlowSplit` -/
noncomputable def dFlowSplit : Decl where
  comp := flowSplit
  vecs := ["mdot_in", "mdot_split_fraction", "mdot_out_A", "mdot_out_B"]
  parts := every ["mdot_out_A"] ["mdot_in", "mdot_split_fraction"] .diag ++
    every ["mdot_out_B"] ["mdot_in", "mdot_split_fraction"] .diag

/-- thermal/thermal.py:157-159 `ThermalComponentMassless`; implicit: the value is the residual, and the state is among the inputs -/
noncomputable def masslessBalance : Comp where
  ins := [("q_in", "W"), ("q_out", "W"), ("T_object", "K")]
  opts := []
  outs := [("T_object", "K")]
  consts := []
  run e o :=
    if o = "T_object" then some (Thermal.masslessResidual (e "q_in") (e "q_out"))
    else none

/-- thermal/thermal.py:161-162 `ThermalComponentMassless` -/
noncomputable def dMasslessBalance : Decl where
  comp := masslessBalance
  vecs := ["q_in", "q_out", "T_object"]
  parts := every ["T_object"] ["q_in"] .diag ++
    every ["T_object"] ["q_out"] .diag

/-- thermal/ducts.py:1088-1089 `FlowMatcher`; implicit -/
noncomputable def flowMatcher : Comp where
  ins := [("mdot_actual", "kg/s"), ("mdot", "kg/s")]
  opts := []
  outs := [("mdot", "kg/s")]
  consts := []
  run e o :=
    if o = "mdot" then some (Ducts.matchRes (e "mdot_actual") (e "mdot"))
    else none

/-- thermal/ducts.py:1091-1092 `FlowMatcher` -/
noncomputable def dFlowMatcher : Decl where
  comp := flowMatcher
  vecs := ["mdot_actual", "mdot"]
  parts := every ["mdot"] ["mdot_actual"] .diag ++
    every ["mdot"] ["mdot"] .diag

/-- thermal/ducts.py:584-589 `MachNumberDuct`; implicit -/
noncomputable def machDuct : Comp where
  ins := [("mdot", "kg/s"), ("a", "m/s"), ("area", "m**2"), ("rho", "kg/m**3"), ("M", "")]
  opts := []
  outs := [("M", "")]
  consts := []
  run e o :=
    if o = "M" then some (Ducts.machRes (e "mdot") (e "M") (e "a") (e "area") (e "rho"))
    else none

/-- thermal/ducts.py:591-593 `MachNumberDuct` -/
noncomputable def dMachDuct : Decl where
  comp := machDuct
  vecs := ["mdot", "a", "rho", "M"]
  parts := every ["M"] ["mdot"] .diag ++
    every ["M"] ["M", "a", "rho"] .diag ++
    every ["M"] ["area"] .col

/-- thermal/ducts.py:631-633 `DuctExitPressureRatioImplicit`; implicit -/
noncomputable def exitRatio : Comp where
  ins := [("p_exit", "Pa"), ("pt", "Pa"), ("nozzle_pressure_ratio", "")]
  opts := []
  outs := [("nozzle_pressure_ratio", "")]
  consts := []
  run e o :=
    if o = "nozzle_pressure_ratio" then some (Ducts.prRes (e "nozzle_pressure_ratio") (e "p_exit") (e "pt"))
    else none

/-- thermal/ducts.py:635-638 `DuctExitPressureRatioImplicit` -/
noncomputable def dExitRatio : Decl where
  comp := exitRatio
  vecs := ["p_exit", "pt", "nozzle_pressure_ratio"]
  parts := every ["nozzle_pressure_ratio"] ["nozzle_pressure_ratio"] .diag ++
    every ["nozzle_pressure_ratio"] ["p_exit", "pt"] .diag

/-- thermal/heat_exchanger.py:1085-1087 `CrossFlowNTUEffectiveness` -/
noncomputable def crossFlow : Comp where
  ins := [("NTU", ""), ("C_ratio", "")]
  opts := []
  outs := [("effectiveness", "")]
  consts := []
  run e o :=
    if o = "effectiveness" then some (HX.eff (e "NTU") (e "C_ratio"))
    else none

/-- thermal/heat_exchanger.py:1088-1089 `CrossFlowNTUEffectiveness` -/
noncomputable def dCrossFlow : Decl where
  comp := crossFlow
  vecs := ["NTU", "C_ratio", "effectiveness"]
  parts := every ["effectiveness"] ["NTU", "C_ratio"] .diag

/-- thermal/heat_exchanger.py:242-253 `OffsetStripFinData`; for positive cold Reynolds numbers, else it raises -/
noncomputable def finData : Comp where
  ins := [("Re_dh_cold", ""), ("alpha_cold", ""), ("delta_cold", ""), ("gamma_cold", ""), ("Re_dh_hot", ""),
    ("alpha_hot", ""), ("delta_hot", ""), ("gamma_hot", "")]
  opts := []
  outs := [("j_cold", ""), ("f_cold", ""), ("j_hot", ""), ("f_hot", "")]
  consts := []
  run e o :=
    if o = "j_cold" then some (HX.colburn (HX.j1 (e "alpha_cold", e "delta_cold", e "gamma_cold")) (HX.j2 (e "alpha_cold", e "delta_cold", e "gamma_cold")) (e "Re_dh_cold"))
    else if o = "f_cold" then some (HX.friction (HX.f1 (e "alpha_cold", e "delta_cold", e "gamma_cold")) (HX.f2 (e "alpha_cold", e "delta_cold", e "gamma_cold")) (e "Re_dh_cold"))
    else if o = "j_hot" then some (HX.colburn (HX.j1 (e "alpha_hot", e "delta_hot", e "gamma_hot")) (HX.j2 (e "alpha_hot", e "delta_hot", e "gamma_hot")) (e "Re_dh_hot"))
    else if o = "f_hot" then some (HX.friction (HX.f1 (e "alpha_hot", e "delta_hot", e "gamma_hot")) (HX.f2 (e "alpha_hot", e "delta_hot", e "gamma_hot")) (e "Re_dh_hot"))
    else none

/-- thermal/heat_exchanger.py:256-259 `OffsetStripFinData` -/
noncomputable def dFinData : Decl where
  comp := finData
  vecs := ["Re_dh_cold", "Re_dh_hot", "j_cold", "f_cold", "j_hot", "f_hot"]
  parts := every ["j_cold", "f_cold"] ["alpha_cold", "delta_cold", "gamma_cold"] .dense ++
    every ["j_hot", "f_hot"] ["alpha_hot", "delta_hot", "gamma_hot"] .dense ++
    every ["j_cold", "f_cold"] ["Re_dh_cold"] .diag ++
    every ["j_hot", "f_hot"] ["Re_dh_hot"] .diag

/-- weights/weights_jet_transport.py:1503-1512 `EngineSystemsWeight_JetTransport` -/
noncomputable def engineSystems : Comp where
  ins := [("ac|propulsion|engine|rating", "lbf"), ("ac|propulsion|num_engines", ""), ("W_engine", "lb"),
    ("ac|aero|Mach_max", ""), ("ac|weights|W_fuel_max", "lb")]
  opts := []
  outs := [("W_thrust_rev", "lb"), ("W_eng_control", "lb"), ("W_fuelsystem", "lb"), ("W_eng_start", "lb")]
  consts := []
  run e o :=
    if o = "W_thrust_rev" then some (Weights.thrustRev (e "ac|propulsion|engine|rating") (e "ac|propulsion|num_engines"))
    else if o = "W_eng_control" then some (Weights.engControl (e "ac|propulsion|engine|rating") (e "ac|propulsion|num_engines"))
    else if o = "W_fuelsystem" then some (Weights.fuelSysJ (e "ac|weights|W_fuel_max") (e "ac|propulsion|num_engines") (e "ac|aero|Mach_max"))
    else if o = "W_eng_start" then some (Weights.engStart (e "W_engine") (e "ac|propulsion|num_engines"))
    else none

/-- weights/weights_jet_transport.py:1514-1519 `EngineSystemsWeight_JetTransport` -/
noncomputable def dEngineSystems : Decl where
  comp := engineSystems
  vecs := []
  parts := every ["W_thrust_rev"] ["ac|propulsion|engine|rating", "ac|propulsion|num_engines"] .dense ++
    every ["W_eng_control"] ["ac|propulsion|engine|rating", "ac|propulsion|num_engines"] .dense ++
    every ["W_fuelsystem"] ["ac|weights|W_fuel_max", "ac|propulsion|num_engines", "ac|aero|Mach_max"] .dense ++
    every ["W_eng_start"] ["W_engine", "ac|propulsion|num_engines"] .dense

/-- weights/weights_jet_transport.py:1624-1629 `FurnishingWeight_JetTransport` -/
noncomputable def furnishing : Comp where
  ins := [("ac|num_passengers_max", ""), ("ac|num_flight_deck_crew", ""), ("ac|num_cabin_crew", ""),
    ("ac|cabin_pressure", "psi"), ("ac|weights|MTOW", "lb")]
  opts := [("K_lav", ""), ("K_buf", "")]
  outs := [("W_furnishings", "lb")]
  consts := []
  run e o :=
    if o = "W_furnishings" then some (Weights.FurnJ.compute ⟨e "K_lav", e "K_buf", e "ac|num_passengers_max", e "ac|num_flight_deck_crew",
      e "ac|num_cabin_crew", e "ac|cabin_pressure", e "ac|weights|MTOW"⟩)
    else none

/-- weights/weights_jet_transport.py:1631-1634 `FurnishingWeight_JetTransport` -/
noncomputable def dFurnishing : Decl where
  comp := furnishing
  vecs := []
  parts := every ["W_furnishings"] ["ac|num_passengers_max", "ac|cabin_pressure"] .dense ++
    every ["W_furnishings"] ["ac|num_flight_deck_crew"] .dense ++
    every ["W_furnishings"] ["ac|num_cabin_crew"] .dense ++
    every ["W_furnishings"] ["ac|weights|MTOW"] .dense

/-- weights/weights_jet_transport.py:1721-1734 `EquipmentWeight_JetTransport` -/
noncomputable def equipment : Comp where
  ins := [("ac|weights|MTOW", "lb"), ("ac|num_passengers_max", ""), ("ac|num_cabin_crew", ""),
    ("ac|num_flight_deck_crew", ""), ("ac|propulsion|num_engines", ""), ("ac|geom|V_pressurized", "ft**3"),
    ("W_fuelsystem", "lb")]
  opts := [("coeff_fc", ""), ("coeff_avionics", ""), ("APU_weight_frac", "")]
  outs := [("W_flight_controls", "lb"), ("W_avionics", "lb"), ("W_electrical", "lb"), ("W_ac_pressurize_antiice", "lb"),
    ("W_oxygen", "lb"), ("W_APU", "lb")]
  consts := []
  run e o :=
    if o = "W_flight_controls" then some (Weights.EquipJ.fc ⟨e "coeff_fc", e "coeff_avionics", e "APU_weight_frac", e "ac|weights|MTOW", e "ac|num_passengers_max",
      e "ac|num_cabin_crew", e "ac|num_flight_deck_crew", e "ac|propulsion|num_engines", e "ac|geom|V_pressurized", e "W_fuelsystem"⟩)
    else if o = "W_avionics" then some (Weights.EquipJ.av ⟨e "coeff_fc", e "coeff_avionics", e "APU_weight_frac", e "ac|weights|MTOW", e "ac|num_passengers_max",
      e "ac|num_cabin_crew", e "ac|num_flight_deck_crew", e "ac|propulsion|num_engines", e "ac|geom|V_pressurized", e "W_fuelsystem"⟩)
    else if o = "W_electrical" then some (Weights.EquipJ.elec ⟨e "coeff_fc", e "coeff_avionics", e "APU_weight_frac", e "ac|weights|MTOW", e "ac|num_passengers_max",
      e "ac|num_cabin_crew", e "ac|num_flight_deck_crew", e "ac|propulsion|num_engines", e "ac|geom|V_pressurized", e "W_fuelsystem"⟩)
    else if o = "W_ac_pressurize_antiice" then some (Weights.EquipJ.ac ⟨e "coeff_fc", e "coeff_avionics", e "APU_weight_frac", e "ac|weights|MTOW", e "ac|num_passengers_max",
      e "ac|num_cabin_crew", e "ac|num_flight_deck_crew", e "ac|propulsion|num_engines", e "ac|geom|V_pressurized", e "W_fuelsystem"⟩)
    else if o = "W_oxygen" then some (Weights.EquipJ.ox ⟨e "coeff_fc", e "coeff_avionics", e "APU_weight_frac", e "ac|weights|MTOW", e "ac|num_passengers_max",
      e "ac|num_cabin_crew", e "ac|num_flight_deck_crew", e "ac|propulsion|num_engines", e "ac|geom|V_pressurized", e "W_fuelsystem"⟩)
    else if o = "W_APU" then some (Weights.EquipJ.APU ⟨e "coeff_fc", e "coeff_avionics", e "APU_weight_frac", e "ac|weights|MTOW", e "ac|num_passengers_max",
      e "ac|num_cabin_crew", e "ac|num_flight_deck_crew", e "ac|propulsion|num_engines", e "ac|geom|V_pressurized", e "W_fuelsystem"⟩)
    else none

/-- weights/weights_jet_transport.py:1736-1754 `EquipmentWeight_JetTransport` -/
noncomputable def dEquipment : Decl where
  comp := equipment
  vecs := []
  parts := every ["W_flight_controls"] ["ac|weights|MTOW"] .dense ++
    every ["W_avionics"] ["ac|num_flight_deck_crew", "ac|weights|MTOW", "ac|propulsion|num_engines"] .dense ++
    every ["W_electrical"] ["W_fuelsystem", "ac|num_flight_deck_crew", "ac|weights|MTOW",
      "ac|propulsion|num_engines"] .dense ++
    every ["W_ac_pressurize_antiice"] ["ac|num_flight_deck_crew", "ac|num_cabin_crew", "ac|num_passengers_max",
      "ac|geom|V_pressurized"] .dense ++
    every ["W_oxygen"] ["ac|num_flight_deck_crew", "ac|num_cabin_crew", "ac|num_passengers_max"] .dense ++
    every ["W_APU"] ["ac|weights|MTOW"] .dense

/-- propulsion/propeller.py:86-88 `WeightCalc` -/
noncomputable def propellerWeight : Comp where
  ins := [("power_rating", "hp"), ("diameter", "ft")]
  opts := [("num_blades", "")]
  outs := [("component_weight", "lb")]
  consts := []
  run e o :=
    if o = "component_weight" then some (Propulsion.propWeight (e "num_blades") (e "power_rating") (e "diameter"))
    else none

/-- propulsion/propeller.py:89 `WeightCalc` -/
noncomputable def dPropellerWeight : Decl where
  comp := propellerWeight
  vecs := []
  parts := every ["component_weight"] ["power_rating", "diameter"] .dense

/-- thermal/chiller.py:324-328 `COPExplicit` -/
noncomputable def copExplicit : Comp where
  ins := [("T_c", "K"), ("T_h", "K"), ("eff_factor", "")]
  opts := []
  outs := [("COP", "")]
  consts := []
  run e o :=
    if o = "COP" then Thermal.cop (e "T_c") (e "T_h") (e "eff_factor")
    else none

/-- thermal/chiller.py:330 `COPExplicit` -/
noncomputable def dCopExplicit : Decl where
  comp := copExplicit
  vecs := ["T_c", "T_h", "COP"]
  parts := every ["COP"] ["T_c", "T_h", "eff_factor"] .dense

/-- thermal/ducts.py:677-678 `DuctExitMachNumber`; for positive pressure ratios, else it raises -/
noncomputable def exitMachComp : Comp where
  ins := [("nozzle_pressure_ratio", "")]
  opts := [("gamma", "")]
  outs := [("M", "")]
  consts := []
  run e o :=
    if o = "M" then Ducts.exitMach (e "gamma") (e "nozzle_pressure_ratio")
    else none

/-- thermal/ducts.py:679 `DuctExitMachNumber` -/
noncomputable def dExitMachComp : Decl where
  comp := exitMachComp
  vecs := ["nozzle_pressure_ratio", "M"]
  parts := every ["M"] ["nozzle_pressure_ratio"] .dense

/-- propulsion/empirical_data/prop_maps.py:106-109 `ConstantPropEfficiency` -/
noncomputable def constantEfficiency : Comp where
  ins := [("cp", ""), ("J", "")]
  opts := []
  outs := [("eta_prop", "")]
  consts := []
  run e o :=
    if o = "eta_prop" then some (Decks.constEta (e "cp") (e "J"))
    else none

/-- propulsion/empirical_data/prop_maps.py:110 `ConstantPropEfficiency` -/
noncomputable def dConstantEfficiency : Decl where
  comp := constantEfficiency
  vecs := ["cp", "J", "eta_prop"]
  parts := every ["eta_prop"] ["cp", "J"] .diag

end Verif.Units
