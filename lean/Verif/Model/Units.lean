import Verif.Model.UnitsCore
import Verif.Model.HeatExchanger
import Verif.Model.Ducts
import Verif.Model.Propulsion
import Verif.Model.Hydrogen
import Verif.Model.Aero
import Verif.Model.Atmosphere
import Verif.Model.Geometry
import Verif.Model.Phases

/-!
Interfaces of components of OpenConcept: the inputs, outputs and units which `setup` declares (one record per component, the
lines of the declarations are cited), the options with the units their documentation gives, and the `compute` of the component
models.  A variable declared without units has the unit `""`.  Only components whose `compute` is a formula of physics are
listed; regressions in fixed units (weights, propeller weight, drag build-ups), tables and the standard atmosphere are not.
-/

namespace Verif.Units

/-- thermal/thermal.py:42-55 `PerfectHeatTransferComp` -/
noncomputable def perfectHeatTransfer : Comp where
  ins := [("T_in", "K"), ("q", "W"), ("mdot_coolant", "kg/s")]
  opts := [("specific_heat", "J/kg/K")]
  outs := [("T_out", "K"), ("T_average", "K")]
  consts := []
  run e o :=
    if o = "T_out" then some (Thermal.phtOut (e "specific_heat") (e "T_in") (e "q") (e "mdot_coolant"))
    else if o = "T_average" then some (Thermal.phtAvg (e "specific_heat") (e "T_in") (e "q") (e "mdot_coolant"))
    else none

/-- thermal/thermal.py:107-110 `ThermalComponentWithMass` -/
noncomputable def thermalMass : Comp where
  ins := [("q_in", "W"), ("q_out", "W"), ("mass", "kg")]
  opts := [("specific_heat", "J/kg/K")]
  outs := [("dTdt", "K/s")]
  consts := []
  run e o :=
    if o = "dTdt" then some (Thermal.massDTdt (e "specific_heat") (e "q_in") (e "q_out") (e "mass"))
    else none

/-- thermal/thermal.py:222-231 `ConstantSurfaceTemperatureColdPlate_NTU` -/
noncomputable def coldPlate : Comp where
  ins := [("T_in", "K"), ("T_surface", "K"), ("channel_width", "m"), ("channel_height", "m"), ("channel_length", "m"),
    ("n_parallel", ""), ("mdot_coolant", "kg/s")]
  opts := [("fluid_k", "W/m/K"), ("nusselt", ""), ("specific_heat", "J/kg/K")]
  outs := [("q", "W"), ("T_out", "K")]
  consts := []
  run e o :=
    let p : Thermal.Plate := ⟨e "fluid_k", e "nusselt", e "specific_heat", e "channel_width", e "channel_height",
      e "channel_length", e "n_parallel"⟩
    if o = "q" then some (Thermal.plateQ p (e "T_in") (e "T_surface") (e "mdot_coolant"))
    else if o = "T_out" then some (Thermal.plateTout p (e "T_in") (e "T_surface") (e "mdot_coolant"))
    else none

/-- thermal/thermal.py:436-440 `CoolantReservoirRate` -/
noncomputable def reservoir : Comp where
  ins := [("T_in", "K"), ("T_out", "K"), ("mdot_coolant", "kg/s"), ("mass", "kg")]
  opts := []
  outs := [("dTdt", "K/s")]
  consts := []
  run e o :=
    if o = "dTdt" then some (Thermal.reservoirRate (e "T_in") (e "T_out") (e "mdot_coolant") (e "mass"))
    else none

/-- thermal/motor_cooling.py:187-199 `MotorCoolingJacket` -/
noncomputable def coolingJacket : Comp where
  ins := [("q_in", "W"), ("T_in", "K"), ("T", "K"), ("mdot_coolant", "kg/s"), ("power_rating", "W"), ("motor_weight", "kg")]
  opts := [("coolant_specific_heat", "J/kg/K"), ("case_cooling_coefficient", "W/m**2/K"), ("case_area_coefficient", "W/m**2"),
    ("motor_specific_heat", "J/kg/K")]
  outs := [("q", "W"), ("T_out", "K"), ("dTdt", "K/s")]
  consts := []
  run e o :=
    let p : Thermal.JacketOpts := ⟨e "coolant_specific_heat", e "case_cooling_coefficient", e "case_area_coefficient",
      e "motor_specific_heat"⟩
    let i : Thermal.JacketIn := ⟨e "q_in", e "T_in", e "T", e "mdot_coolant", e "power_rating", e "motor_weight"⟩
    if o = "q" then some (Thermal.jacketQ p i)
    else if o = "T_out" then some (Thermal.jacketTout p i)
    else if o = "dTdt" then some (Thermal.jacketDTdt p i)
    else none

/-- thermal/battery_cooling.py:229-245 `BandolierCoolingSystem` -/
noncomputable def bandolier : Comp where
  ins := [("q_in", "W"), ("T_in", "K"), ("T_battery", "K"), ("mdot_coolant", "kg/s"), ("battery_weight", "kg"), ("n_cpb", ""),
    ("t_channel", "m")]
  opts := [("coolant_specific_heat", "J/kg/K"), ("fluid_k", "W/m/K"), ("nusselt", ""), ("cell_kr", "W/m/K"),
    ("cell_diameter", "m"), ("cell_height", "m"), ("cell_mass", "kg"), ("cell_specific_heat", "J/kg/K"),
    ("battery_weight_fraction", "")]
  outs := [("dTdt", "K/s"), ("T_surface", "K"), ("T_core", "K"), ("q", "W"), ("T_out", "K")]
  consts := []
  run e o :=
    let p : Thermal.BandOpts := ⟨e "coolant_specific_heat", e "fluid_k", e "nusselt", e "cell_kr", e "cell_diameter",
      e "cell_height", e "cell_mass", e "cell_specific_heat", e "battery_weight_fraction"⟩
    let i : Thermal.BandIn := ⟨e "q_in", e "T_in", e "T_battery", e "mdot_coolant", e "battery_weight", e "n_cpb",
      e "t_channel"⟩
    if o = "dTdt" then some (Thermal.bandDTdt p i)
    else if o = "T_surface" then some (Thermal.bandTs p i)
    else if o = "T_core" then some (Thermal.bandTcore p i)
    else if o = "q" then some (Thermal.bandQ p i)
    else if o = "T_out" then some (Thermal.bandTout p i)
    else none

/-- thermal/manifold.py:98-104 `FlowCombine` -/
noncomputable def flowCombine : Comp where
  ins := [("mdot_in_A", "kg/s"), ("mdot_in_B", "kg/s"), ("T_in_A", "K"), ("T_in_B", "K")]
  opts := []
  outs := [("mdot_out", "kg/s"), ("T_out", "K")]
  consts := []
  run e o :=
    if o = "mdot_out" then some (Thermal.combineMdot (e "mdot_in_A") (e "mdot_in_B"))
    else if o = "T_out" then some (Thermal.combineT (e "mdot_in_A") (e "mdot_in_B") (e "T_in_A") (e "T_in_B"))
    else none

/-- thermal/chiller.py:48-57 `LinearSelector` -/
noncomputable def linearSelector : Comp where
  ins := [("T_in_cold", "K"), ("T_in_hot", "K"), ("T_out_refrig_cold", "K"), ("T_out_refrig_hot", "K"), ("power_rating", "W"),
    ("bypass", "")]
  opts := []
  outs := [("elec_load", "W"), ("T_out_cold", "K"), ("T_out_hot", "K")]
  consts := []
  run e o :=
    let i : Thermal.SelIn := ⟨e "T_in_cold", e "T_in_hot", e "T_out_refrig_cold", e "T_out_refrig_hot", e "power_rating",
      e "bypass"⟩
    if o = "elec_load" then some (Thermal.selLoad i)
    else if o = "T_out_cold" then some (Thermal.selCold i)
    else if o = "T_out_hot" then some (Thermal.selHot i)
    else none

/-- thermal/chiller.py:122-126 `COPHeatPump` -/
noncomputable def heatPump : Comp where
  ins := [("COP", ""), ("power_rating", "W")]
  opts := []
  outs := [("q_in_1", "W"), ("q_in_2", "W")]
  consts := []
  run e o :=
    if o = "q_in_1" then some (Thermal.pumpQ1 (e "COP") (e "power_rating"))
    else if o = "q_in_2" then some (Thermal.pumpQ2 (e "COP") (e "power_rating"))
    else none

/-- thermal/chiller.py:164-166 `HeatPumpWeight` -/
noncomputable def heatPumpWeight : Comp where
  ins := [("power_rating", "W"), ("specific_power", "W/kg")]
  opts := []
  outs := [("component_weight", "kg")]
  consts := []
  run e o :=
    if o = "component_weight" then some (Thermal.pumpWeight (e "power_rating") (e "specific_power"))
    else none

/-- thermal/heat_pipe.py:410-414 `HeatPipeWeight` -/
noncomputable def heatPipeWeight : Comp where
  ins := [("design_pressure", "MPa"), ("inner_diam", "m"), ("length", "m")]
  opts := [("yield_stress", "MPa"), ("stress_safety_factor", ""), ("rho_wall", "kg/m**3")]
  outs := [("heat_pipe_weight", "kg"), ("wall_thickness", "m")]
  consts := []
  run e o :=
    if o = "heat_pipe_weight" then some (Thermal.pipeWeight (e "yield_stress") (e "stress_safety_factor") (e "rho_wall")
      (e "design_pressure") (e "inner_diam") (e "length"))
    else if o = "wall_thickness" then some (Thermal.pipeThickness (e "yield_stress") (e "stress_safety_factor")
      (e "design_pressure") (e "inner_diam"))
    else none

/-- thermal/heat_pipe.py:260-265 `HeatPipeThermalResistance` -/
noncomputable def heatPipeResistance (vapor : Bool) : Comp where
  ins := [("inner_diam", "m"), ("wall_thickness", "m"), ("q", "W"), ("delta_T", "K")]
  opts := [("length_evap", "m"), ("length_cond", "m"), ("wall_conduct", "W/m/K"), ("wick_thickness", "m"),
    ("wick_conduct", "W/m/K")]
  outs := [("thermal_resistance", "K/W")]
  consts := []
  run e o :=
    if o = "thermal_resistance" then Thermal.pipeResistance ⟨e "length_evap", e "length_cond", e "wall_conduct",
      e "wick_thickness", e "wick_conduct", vapor⟩ (e "inner_diam") (e "wall_thickness") (e "q") (e "delta_T")
    else none

/-- thermal/heat_pipe.py:339-345 `HeatPipeVaporTempDrop`; the constant 35.976
(the slope of the boiling curve times the vapour pressure) is a temperature -/
noncomputable def vaporTempDrop : Comp where
  ins := [("q", "W"), ("temp", "degC"), ("rho_vapor", "kg/m**3"), ("vapor_pressure", "Pa"), ("inner_diam", "m"),
    ("length", "m")]
  opts := [("latent_heat", "J/kg"), ("visc_base", "Pa*s"), ("visc_inc", "Pa*s/degC")]
  outs := [("delta_T", "K")]
  consts := [D.K]
  run e o :=
    if o = "delta_T" then Thermal.vaporDrop (e "latent_heat") (e "visc_inc") (e "visc_base") (e "q") (e "temp")
      (e "rho_vapor") (e "vapor_pressure") (e "inner_diam") (e "length")
    else none

/-- thermal/heat_pipe.py:770-775 `QMaxAnalyticalPart` -/
noncomputable def qMaxHeatPipe : Comp where
  ins := [("inner_diam", "m"), ("temp", "degC"), ("rho_liquid", "kg/m**3"), ("rho_vapor", "kg/m**3")]
  opts := [("theta", ""), ("latent_heat", "J/kg"), ("surface_tension_base", "N/m"), ("surface_tension_incr", "N/m/degC")]
  outs := [("q_max", "W")]
  consts := [D.m - D.s - D.s]
  run e o :=
    if o = "q_max" then some (Thermal.qMax (e "latent_heat") (e "theta") (e "surface_tension_base") (e "surface_tension_incr")
      (e "inner_diam") (e "temp") (e "rho_liquid") (e "rho_vapor"))
    else none

/-- thermal/pump.py:53-60 `SimplePump` -/
noncomputable def pump : Comp where
  ins := [("power_rating", "W"), ("mdot_coolant", "kg/s"), ("delta_p", "Pa"), ("rho_coolant", "kg/m**3")]
  opts := [("efficiency", ""), ("weight_base", "kg"), ("weight_inc", "kg/W")]
  outs := [("elec_load", "W"), ("component_weight", "kg"), ("component_sizing_margin", "")]
  consts := []
  run e o :=
    if o = "elec_load" then some (Thermal.pumpLoad (e "efficiency") (e "mdot_coolant") (e "delta_p") (e "rho_coolant"))
    else if o = "component_weight" then some (Thermal.pumpMass (e "weight_base") (e "weight_inc") (e "power_rating"))
    else if o = "component_sizing_margin" then some (Thermal.pumpMargin (e "efficiency") (e "mdot_coolant") (e "delta_p")
      (e "rho_coolant") (e "power_rating"))
    else none

/-- thermal/hose.py:48-57 `SimpleHose` -/
noncomputable def hose : Comp where
  ins := [("hose_diameter", "m"), ("hose_length", "m"), ("hose_design_pressure", "Pa"), ("mdot_coolant", "kg/s"),
    ("rho_coolant", "kg/m**3"), ("mu_coolant", "kg/m/s")]
  opts := [("hose_operating_stress", "Pa"), ("hose_density", "kg/m**3")]
  outs := [("delta_p", "Pa"), ("component_weight", "kg")]
  consts := []
  run e o :=
    if o = "delta_p" then Thermal.hoseDp (e "hose_diameter") (e "hose_length") (e "mdot_coolant") (e "rho_coolant")
      (e "mu_coolant")
    else if o = "component_weight" then some (Thermal.hoseWeight (e "hose_operating_stress") (e "hose_density")
      (e "hose_diameter") (e "hose_length") (e "hose_design_pressure") (e "rho_coolant"))
    else none

/-- thermal/heat_exchanger.py:94-132 `OffsetStripFinGeometry` -/
noncomputable def finGeometry : Comp where
  ins := [("channel_width_hot", "m"), ("channel_height_hot", "m"), ("fin_length_hot", "m"), ("channel_width_cold", "m"),
    ("channel_height_cold", "m"), ("fin_length_cold", "m"), ("fin_thickness", "m"), ("plate_thickness", "m"),
    ("case_thickness", "m"), ("n_wide_cold", ""), ("n_long_cold", ""), ("n_tall", ""), ("material_rho", "kg/m**3")]
  opts := []
  outs := [("component_weight", "kg"), ("length_overall", "m"), ("height_overall", "m"), ("width_overall", "m"),
    ("frontal_area", "m**2"), ("xs_area_cold", "m**2"), ("heat_transfer_area_cold", "m**2"), ("dh_cold", "m"),
    ("fin_area_ratio_cold", ""), ("contraction_ratio_cold", ""), ("alpha_cold", ""), ("delta_cold", ""), ("gamma_cold", ""),
    ("xs_area_hot", "m**2"), ("heat_transfer_area_hot", "m**2"), ("dh_hot", "m"), ("fin_area_ratio_hot", ""),
    ("contraction_ratio_hot", ""), ("alpha_hot", ""), ("delta_hot", ""), ("gamma_hot", "")]
  consts := []
  run e o :=
    let i : HX.Geo := ⟨e "channel_width_cold", e "channel_height_cold", e "fin_length_cold", e "channel_width_hot",
      e "channel_height_hot", e "fin_length_hot", e "fin_thickness", e "plate_thickness", e "case_thickness", e "n_wide_cold",
      e "n_long_cold", e "n_tall", e "material_rho"⟩
    if o = "component_weight" then some (i.weight)
    else if o = "length_overall" then some (i.length)
    else if o = "height_overall" then some (i.height)
    else if o = "width_overall" then some (i.width)
    else if o = "frontal_area" then some (i.frontal)
    else if o = "xs_area_cold" then some (i.xsCold)
    else if o = "heat_transfer_area_cold" then some (i.areaCold)
    else if o = "dh_cold" then some (i.dhCold)
    else if o = "fin_area_ratio_cold" then some (i.finRatioCold)
    else if o = "contraction_ratio_cold" then some (i.contractionCold)
    else if o = "alpha_cold" then some (i.shapeCold.1)
    else if o = "delta_cold" then some (i.shapeCold.2.1)
    else if o = "gamma_cold" then some (i.shapeCold.2.2)
    else if o = "xs_area_hot" then some (i.xsHot)
    else if o = "heat_transfer_area_hot" then some (i.areaHot)
    else if o = "dh_hot" then some (i.dhHot)
    else if o = "fin_area_ratio_hot" then some (i.finRatioHot)
    else if o = "contraction_ratio_hot" then some (i.contractionHot)
    else if o = "alpha_hot" then some (i.shapeHot.1)
    else if o = "delta_hot" then some (i.shapeHot.2.1)
    else if o = "gamma_hot" then some (i.shapeHot.2.2)
    else none

/-- thermal/heat_exchanger.py:409-419 `HydraulicDiameterReynoldsNumber` -/
noncomputable def reynoldsDh : Comp where
  ins := [("mdot_cold", "kg/s"), ("mu_cold", "kg/m/s"), ("xs_area_cold", "m**2"), ("dh_cold", "m"), ("mdot_hot", "kg/s"),
    ("mu_hot", "kg/m/s"), ("xs_area_hot", "m**2"), ("dh_hot", "m")]
  opts := []
  outs := [("Re_dh_cold", ""), ("Re_dh_hot", "")]
  consts := []
  run e o :=
    if o = "Re_dh_cold" then some (HX.reDh (e "mdot_cold") (e "dh_cold") (e "xs_area_cold") (e "mu_cold"))
    else if o = "Re_dh_hot" then some (HX.reDh (e "mdot_hot") (e "dh_hot") (e "xs_area_hot") (e "mu_hot"))
    else none

/-- thermal/heat_exchanger.py:500-512 `NusseltFromColburnJ` -/
noncomputable def nusseltColburn : Comp where
  ins := [("Re_dh_cold", ""), ("j_cold", ""), ("k_cold", "W/m/K"), ("mu_cold", "kg/m/s"), ("cp_cold", "J/kg/K"),
    ("Re_dh_hot", ""), ("j_hot", ""), ("k_hot", "W/m/K"), ("mu_hot", "kg/m/s"), ("cp_hot", "J/kg/K")]
  opts := []
  outs := [("Nu_dh_cold", ""), ("Nu_dh_hot", "")]
  consts := []
  run e o :=
    if o = "Nu_dh_cold" then some (HX.nusselt (e "j_cold") (e "Re_dh_cold") (e "mu_cold") (e "cp_cold") (e "k_cold"))
    else if o = "Nu_dh_hot" then some (HX.nusselt (e "j_hot") (e "Re_dh_hot") (e "mu_hot") (e "cp_hot") (e "k_hot"))
    else none

/-- thermal/heat_exchanger.py:662-670 `ConvectiveCoefficient` -/
noncomputable def convection : Comp where
  ins := [("Nu_dh_cold", ""), ("dh_cold", "m"), ("k_cold", "W/m/K"), ("Nu_dh_hot", ""), ("dh_hot", "m"), ("k_hot", "W/m/K")]
  opts := []
  outs := [("h_conv_cold", "W/m**2/K"), ("h_conv_hot", "W/m**2/K")]
  consts := []
  run e o :=
    if o = "h_conv_cold" then some (HX.hConv (e "Nu_dh_cold") (e "k_cold") (e "dh_cold"))
    else if o = "h_conv_hot" then some (HX.hConv (e "Nu_dh_hot") (e "k_hot") (e "dh_hot"))
    else none

/-- thermal/heat_exchanger.py:742-752 `FinEfficiency` -/
noncomputable def finEfficiency : Comp where
  ins := [("h_conv_cold", "W/m**2/K"), ("fin_area_ratio_cold", ""), ("channel_height_cold", "m"), ("h_conv_hot", "W/m**2/K"),
    ("fin_area_ratio_hot", ""), ("channel_height_hot", "m"), ("fin_thickness", "m"), ("material_k", "W/m/K")]
  opts := []
  outs := [("eta_overall_cold", ""), ("eta_overall_hot", "")]
  consts := []
  run e o :=
    if o = "eta_overall_cold" then some (HX.etaOverall (e "fin_area_ratio_cold") (e "h_conv_cold") (e "channel_height_cold")
      (e "material_k") (e "fin_thickness"))
    else if o = "eta_overall_hot" then some (HX.etaOverall (e "fin_area_ratio_hot") (e "h_conv_hot") (e "channel_height_hot")
      (e "material_k") (e "fin_thickness"))
    else none

/-- thermal/heat_exchanger.py:884-891 `UAOverall` -/
noncomputable def uaOverall : Comp where
  ins := [("h_conv_cold", "W/m**2/K"), ("heat_transfer_area_cold", "m**2"), ("eta_overall_cold", ""),
    ("h_conv_hot", "W/m**2/K"), ("heat_transfer_area_hot", "m**2"), ("eta_overall_hot", "")]
  opts := [("fouling_factor_cold", "m**2*K/W"), ("fouling_factor_hot", "m**2*K/W")]
  outs := [("UA_overall", "W/K")]
  consts := []
  run e o :=
    if o = "UA_overall" then some (HX.ua ⟨e "h_conv_cold", e "heat_transfer_area_cold", e "eta_overall_cold", e "h_conv_hot",
      e "heat_transfer_area_hot", e "eta_overall_hot", e "fouling_factor_cold", e "fouling_factor_hot"⟩)
    else none

/-- thermal/heat_exchanger.py:988-998 `NTUMethod` -/
noncomputable def ntuMethod : Comp where
  ins := [("UA_overall", "W/K"), ("mdot_cold", "kg/s"), ("T_in_cold", "K"), ("cp_cold", "J/kg/K"), ("mdot_hot", "kg/s"),
    ("T_in_hot", "K"), ("cp_hot", "J/kg/K")]
  opts := []
  outs := [("NTU", ""), ("heat_max", "W"), ("C_ratio", "")]
  consts := []
  run e o :=
    let i : HX.NtuIn := ⟨e "UA_overall", e "mdot_cold", e "T_in_cold", e "cp_cold", e "mdot_hot", e "T_in_hot", e "cp_hot"⟩
    if o = "NTU" then some (HX.ntu i)
    else if o = "heat_max" then some (HX.heatMax i)
    else if o = "C_ratio" then some (HX.cRatio i)
    else none

/-- thermal/heat_exchanger.py:1137-1139 `NTUEffectivenessActualHeatTransfer` -/
noncomputable def heatTransfer : Comp where
  ins := [("effectiveness", ""), ("heat_max", "W")]
  opts := []
  outs := [("heat_transfer", "W")]
  consts := []
  run e o :=
    if o = "heat_transfer" then some (HX.heatTransfer (e "effectiveness") (e "heat_max"))
    else none

/-- thermal/heat_exchanger.py:1192-1200 `OutletTemperatures` -/
noncomputable def outletTemperatures : Comp where
  ins := [("heat_transfer", "W"), ("mdot_cold", "kg/s"), ("T_in_cold", "K"), ("cp_cold", "J/kg/K"), ("mdot_hot", "kg/s"),
    ("T_in_hot", "K"), ("cp_hot", "J/kg/K")]
  opts := []
  outs := [("T_out_cold", "K"), ("T_out_hot", "K")]
  consts := []
  run e o :=
    if o = "T_out_cold" then some (HX.toutCold (e "heat_transfer") (e "mdot_cold") (e "T_in_cold") (e "cp_cold"))
    else if o = "T_out_hot" then some (HX.toutHot (e "heat_transfer") (e "mdot_hot") (e "T_in_hot") (e "cp_hot"))
    else none

/-- thermal/heat_exchanger.py:1287-1303 `PressureDrop` -/
noncomputable def pressureDrop : Comp where
  ins := [("length_overall", "m"), ("width_overall", "m"), ("f_cold", ""), ("mdot_cold", "kg/s"), ("rho_cold", "kg/m**3"),
    ("dh_cold", "m"), ("xs_area_cold", "m**2"), ("f_hot", ""), ("mdot_hot", "kg/s"), ("rho_hot", "kg/m**3"), ("dh_hot", "m"),
    ("xs_area_hot", "m**2")]
  opts := [("Kc_cold", ""), ("Ke_cold", ""), ("Kc_hot", ""), ("Ke_hot", "")]
  outs := [("delta_p_cold", "Pa"), ("delta_p_hot", "Pa")]
  consts := []
  run e o :=
    if o = "delta_p_cold" then some (HX.deltaP (e "Kc_cold") (e "Ke_cold") ⟨e "length_overall", e "f_cold", e "mdot_cold",
      e "rho_cold", e "dh_cold", e "xs_area_cold"⟩)
    else if o = "delta_p_hot" then some (HX.deltaP (e "Kc_hot") (e "Ke_hot") ⟨e "width_overall", e "f_hot", e "mdot_hot",
      e "rho_hot", e "dh_hot", e "xs_area_hot"⟩)
    else none

/-- thermal/ducts.py:54-60 `ExplicitIncompressibleDuct` -/
noncomputable def explicitDuct : Comp where
  ins := [("fltcond|Utrue", "m/s"), ("fltcond|rho", "kg/m**3"), ("area_nozzle", "m**2"), ("delta_p_hex", "Pa")]
  opts := [("static_pressure_loss_factor", ""), ("gross_thrust_factor", "")]
  outs := [("mdot", "kg/s"), ("drag", "N")]
  consts := []
  run e o :=
    if o = "mdot" then some (Ducts.ductMdot (e "static_pressure_loss_factor") (e "fltcond|Utrue") (e "fltcond|rho")
      (e "area_nozzle") (e "delta_p_hex"))
    else if o = "drag" then some (Ducts.ductDrag (e "static_pressure_loss_factor") (e "gross_thrust_factor")
      (e "fltcond|Utrue") (e "fltcond|rho") (e "area_nozzle") (e "delta_p_hex"))
    else none

/-- thermal/ducts.py:138-140 `TemperatureIsentropic` -/
noncomputable def ductTemperature : Comp where
  ins := [("Tt", "K"), ("M", "")]
  opts := [("gamma", "")]
  outs := [("T", "K")]
  consts := []
  run e o :=
    if o = "T" then some (Ducts.tStatic (e "gamma") (e "Tt") (e "M"))
    else none

/-- thermal/ducts.py:184-186 `TotalTemperatureIsentropic` -/
noncomputable def ductTotalTemperature : Comp where
  ins := [("T", "K"), ("M", "")]
  opts := [("gamma", "")]
  outs := [("Tt", "K")]
  consts := []
  run e o :=
    if o = "Tt" then some (Ducts.tTotal (e "gamma") (e "T") (e "M"))
    else none

/-- thermal/ducts.py:230-232 `PressureIsentropic` -/
noncomputable def ductPressure : Comp where
  ins := [("pt", "Pa"), ("M", "")]
  opts := [("gamma", "")]
  outs := [("p", "Pa")]
  consts := []
  run e o :=
    if o = "p" then some (Ducts.pStatic (e "gamma") (e "pt") (e "M"))
    else none

/-- thermal/ducts.py:270-272 `TotalPressureIsentropic` -/
noncomputable def ductTotalPressure : Comp where
  ins := [("p", "Pa"), ("M", "")]
  opts := [("gamma", "")]
  outs := [("pt", "Pa")]
  consts := []
  run e o :=
    if o = "pt" then some (Ducts.pTotal (e "gamma") (e "p") (e "M"))
    else none

/-- thermal/ducts.py:323-325 `DensityIdealGas` -/
noncomputable def ductDensity : Comp where
  ins := [("p", "Pa"), ("T", "K")]
  opts := [("R", "J/kg/K")]
  outs := [("rho", "kg/m**3")]
  consts := []
  run e o :=
    if o = "rho" then some (Ducts.density (e "R") (e "p") (e "T"))
    else none

/-- thermal/ducts.py:364-365 `SpeedOfSound` -/
noncomputable def ductSpeedOfSound : Comp where
  ins := [("T", "K")]
  opts := [("R", "J/kg/K"), ("gamma", "")]
  outs := [("a", "m/s")]
  consts := []
  run e o :=
    if o = "a" then some (Ducts.sos (e "R") (e "gamma") (e "T"))
    else none

/-- thermal/ducts.py:411-413 `MachNumberfromSpeed` -/
noncomputable def ductMachFromSpeed : Comp where
  ins := [("a", "m/s"), ("Utrue", "m/s")]
  opts := []
  outs := [("M", "")]
  consts := []
  run e o :=
    if o = "M" then some (Ducts.machFromSpeed (e "a") (e "Utrue"))
    else none

/-- thermal/ducts.py:459-471 `HeatAdditionPressureLoss` -/
noncomputable def heatAddition : Comp where
  ins := [("Tt_in", "K"), ("pt_in", "Pa"), ("mdot", "kg/s"), ("rho", "kg/m**3"), ("area", "m**2"), ("delta_p", "Pa"),
    ("dynamic_pressure_loss_factor", ""), ("pressure_recovery", ""), ("heat_in", "W"), ("cp", "J/kg/K")]
  opts := []
  outs := [("Tt_out", "K"), ("pt_out", "Pa")]
  consts := []
  run e o :=
    let i : Ducts.HeatIn := ⟨e "Tt_in", e "pt_in", e "mdot", e "rho", e "area", e "delta_p", e "dynamic_pressure_loss_factor",
      e "pressure_recovery", e "heat_in", e "cp"⟩
    if o = "Tt_out" then some (Ducts.ttOut i)
    else if o = "pt_out" then some (Ducts.ptOut i)
    else none

/-- thermal/ducts.py:560-564 `MassFlow` -/
noncomputable def massFlow : Comp where
  ins := [("a", "m/s"), ("area", "m**2"), ("rho", "kg/m**3"), ("M", "")]
  opts := []
  outs := [("mdot", "kg/s")]
  consts := []
  run e o :=
    if o = "mdot" then some (Ducts.massFlow (e "M") (e "a") (e "area") (e "rho"))
    else none

/-- thermal/ducts.py:730-737 `NetForce` -/
noncomputable def netForce : Comp where
  ins := [("mdot", "kg/s"), ("Utrue_inf", "m/s"), ("p_inf", "Pa"), ("area_nozzle", "m**2"), ("p_nozzle", "Pa"),
    ("rho_nozzle", "kg/m**3")]
  opts := [("cfg", "")]
  outs := [("F_net", "N")]
  consts := []
  run e o :=
    if o = "F_net" then some (Ducts.netForce (e "cfg") (e "mdot") (e "Utrue_inf") (e "p_inf") (e "area_nozzle") (e "p_nozzle")
      (e "rho_nozzle"))
    else none

/-- thermal/ducts.py:878-884 `NozzlePressureLoss` -/
noncomputable def nozzleLoss : Comp where
  ins := [("pt_in", "Pa"), ("mdot", "kg/s"), ("rho", "kg/m**3"), ("area", "m**2"), ("dynamic_pressure_loss_factor", "")]
  opts := []
  outs := [("pt", "Pa")]
  consts := []
  run e o :=
    if o = "pt" then some (Ducts.nozzlePt (e "pt_in") (e "mdot") (e "rho") (e "area") (e "dynamic_pressure_loss_factor"))
    else none

/-- propulsion/motor.py:59-71 `SimpleMotor` -/
noncomputable def motor : Comp where
  ins := [("throttle", ""), ("elec_power_rating", "W")]
  opts := [("efficiency", ""), ("weight_inc", "kg/W"), ("weight_base", "kg"), ("cost_inc", "USD/W"), ("cost_base", "USD")]
  outs := [("shaft_power_out", "W"), ("heat_out", "W"), ("elec_load", "W"), ("component_cost", "USD"),
    ("component_weight", "kg"), ("component_sizing_margin", "")]
  consts := []
  run e o :=
    let p : Propulsion.MachineOpts := ⟨e "efficiency", e "weight_inc", e "weight_base", e "cost_inc", e "cost_base"⟩
    if o = "shaft_power_out" then some ((Propulsion.motor p (e "throttle") (e "elec_power_rating")).shaft)
    else if o = "heat_out" then some ((Propulsion.motor p (e "throttle") (e "elec_power_rating")).heat)
    else if o = "elec_load" then some ((Propulsion.motor p (e "throttle") (e "elec_power_rating")).elecLoad)
    else if o = "component_cost" then some ((Propulsion.motor p (e "throttle") (e "elec_power_rating")).cost)
    else if o = "component_weight" then some ((Propulsion.motor p (e "throttle") (e "elec_power_rating")).weight)
    else if o = "component_sizing_margin" then some ((Propulsion.motor p (e "throttle") (e "elec_power_rating")).margin)
    else none

/-- propulsion/generator.py:57-69 `SimpleGenerator` -/
noncomputable def generator : Comp where
  ins := [("shaft_power_in", "W"), ("elec_power_rating", "W")]
  opts := [("efficiency", ""), ("weight_inc", "kg/W"), ("weight_base", "kg"), ("cost_inc", "USD/W"), ("cost_base", "USD")]
  outs := [("elec_power_out", "W"), ("heat_out", "W"), ("component_cost", "USD"), ("component_weight", "kg"),
    ("component_sizing_margin", "")]
  consts := []
  run e o :=
    let p : Propulsion.MachineOpts := ⟨e "efficiency", e "weight_inc", e "weight_base", e "cost_inc", e "cost_base"⟩
    if o = "elec_power_out" then some ((Propulsion.generator p (e "shaft_power_in") (e "elec_power_rating")).elec)
    else if o = "heat_out" then some ((Propulsion.generator p (e "shaft_power_in") (e "elec_power_rating")).heat)
    else if o = "component_cost" then some ((Propulsion.generator p (e "shaft_power_in") (e "elec_power_rating")).cost)
    else if o = "component_weight" then some ((Propulsion.generator p (e "shaft_power_in") (e "elec_power_rating")).weight)
    else if o = "component_sizing_margin" then some ((Propulsion.generator p (e "shaft_power_in")
      (e "elec_power_rating")).margin)
    else none

/-- propulsion/turboshaft.py:70-80 `SimpleTurboshaft` -/
noncomputable def turboshaft : Comp where
  ins := [("throttle", ""), ("shaft_power_rating", "W")]
  opts := [("psfc", "kg/W/s"), ("weight_inc", "kg/W"), ("weight_base", "kg"), ("cost_inc", "USD/W"), ("cost_base", "USD")]
  outs := [("shaft_power_out", "W"), ("fuel_flow", "kg/s"), ("component_cost", "USD"), ("component_weight", "kg"),
    ("component_sizing_margin", "")]
  consts := []
  run e o :=
    let p : Propulsion.MachineOpts := ⟨e "psfc", e "weight_inc", e "weight_base", e "cost_inc", e "cost_base"⟩
    if o = "shaft_power_out" then some ((Propulsion.turboshaft p (e "throttle") (e "shaft_power_rating")).shaft)
    else if o = "fuel_flow" then some ((Propulsion.turboshaft p (e "throttle") (e "shaft_power_rating")).fuel)
    else if o = "component_cost" then some ((Propulsion.turboshaft p (e "throttle") (e "shaft_power_rating")).cost)
    else if o = "component_weight" then some ((Propulsion.turboshaft p (e "throttle") (e "shaft_power_rating")).weight)
    else if o = "component_sizing_margin" then some ((Propulsion.turboshaft p (e "throttle") (e "shaft_power_rating")).margin)
    else none

/-- propulsion/splitter.py:74-95 `PowerSplit` with `rule = "fraction"` -/
noncomputable def splitFraction : Comp where
  ins := [("power_in", "W"), ("power_rating", "W"), ("power_split_fraction", "")]
  opts := [("efficiency", ""), ("weight_inc", "kg/W"), ("weight_base", "kg"), ("cost_inc", "USD/W"), ("cost_base", "USD")]
  outs := [("power_out_A", "W"), ("power_out_B", "W"), ("heat_out", "W"), ("component_cost", "USD"),
    ("component_weight", "kg"), ("component_sizing_margin", "")]
  consts := []
  run e o :=
    let p : Propulsion.SplitOpts := ⟨e "efficiency", e "weight_inc", e "weight_base", e "cost_inc", e "cost_base"⟩
    let i : Propulsion.SplitIn := ⟨e "power_in", e "power_rating", e "power_split_fraction"⟩
    if o = "power_out_A" then some ((Propulsion.splitCompute .fraction p i).outA)
    else if o = "power_out_B" then some ((Propulsion.splitCompute .fraction p i).outB)
    else if o = "heat_out" then some ((Propulsion.splitCompute .fraction p i).heat)
    else if o = "component_cost" then some ((Propulsion.splitCompute .fraction p i).cost)
    else if o = "component_weight" then some ((Propulsion.splitCompute .fraction p i).weight)
    else if o = "component_sizing_margin" then some ((Propulsion.splitCompute .fraction p i).margin)
    else none

/-- propulsion/splitter.py:74-95 `PowerSplit` with `rule = "fixed"` -/
noncomputable def splitFixed : Comp where
  ins := [("power_in", "W"), ("power_rating", "W"), ("power_split_amount", "W")]
  opts := [("efficiency", ""), ("weight_inc", "kg/W"), ("weight_base", "kg"), ("cost_inc", "USD/W"), ("cost_base", "USD")]
  outs := [("power_out_A", "W"), ("power_out_B", "W"), ("heat_out", "W"), ("component_cost", "USD"),
    ("component_weight", "kg"), ("component_sizing_margin", "")]
  consts := []
  run e o :=
    let p : Propulsion.SplitOpts := ⟨e "efficiency", e "weight_inc", e "weight_base", e "cost_inc", e "cost_base"⟩
    let i : Propulsion.SplitIn := ⟨e "power_in", e "power_rating", e "power_split_amount"⟩
    if o = "power_out_A" then some ((Propulsion.splitCompute .fixed p i).outA)
    else if o = "power_out_B" then some ((Propulsion.splitCompute .fixed p i).outB)
    else if o = "heat_out" then some ((Propulsion.splitCompute .fixed p i).heat)
    else if o = "component_cost" then some ((Propulsion.splitCompute .fixed p i).cost)
    else if o = "component_weight" then some ((Propulsion.splitCompute .fixed p i).weight)
    else if o = "component_sizing_margin" then some ((Propulsion.splitCompute .fixed p i).margin)
    else none

/-- propulsion/propeller.py:241-254 `PropCoefficients` -/
noncomputable def propCoefficients : Comp where
  ins := [("shaft_power_in", "W"), ("diameter", "m"), ("rpm", "rpm"), ("fltcond|rho", "kg / m ** 3"),
    ("fltcond|Utrue", "m/s")]
  opts := []
  outs := [("cp", ""), ("J", ""), ("prop_Vtip", "")]
  consts := []
  run e o :=
    let i : Propulsion.CoefIn := ⟨e "shaft_power_in", e "diameter", e "rpm", e "fltcond|rho", e "fltcond|Utrue"⟩
    if o = "cp" then some (Propulsion.powerCoef i)
    else if o = "J" then some (Propulsion.advanceRatio i)
    else if o = "prop_Vtip" then some (Propulsion.tipSpeed i)
    else none

/-- propulsion/propeller.py:121-129 `ThrustCalc` -/
noncomputable def thrustCalc : Comp where
  ins := [("cp", ""), ("eta_prop", ""), ("J", ""), ("fltcond|rho", "kg / m ** 3"), ("rpm", "rpm"), ("diameter", "m"),
    ("ct_over_cp", "")]
  opts := []
  outs := [("thrust", "N")]
  consts := []
  run e o :=
    if o = "thrust" then some (Propulsion.thrust ⟨e "cp", e "eta_prop", e "J", e "fltcond|rho", e "rpm", e "diameter",
      e "ct_over_cp"⟩)
    else none

/-- energy_storage/battery.py:167-177 `SimpleBattery` -/
noncomputable def battery : Comp where
  ins := [("battery_weight", "kg"), ("elec_load", "W"), ("specific_energy", "W * h / kg")]
  opts := [("efficiency", ""), ("specific_power", "W/kg"), ("cost_inc", "USD/kg"), ("cost_base", "USD")]
  outs := [("heat_out", "W"), ("component_cost", "USD"), ("component_sizing_margin", ""), ("max_energy", "W*h")]
  consts := []
  run e o :=
    let p : Propulsion.BattOpts := ⟨e "efficiency", e "specific_power", e "cost_inc", e "cost_base"⟩
    if o = "heat_out" then some ((Propulsion.battery p (e "battery_weight") (e "elec_load") (e "specific_energy")).heat)
    else if o = "component_cost" then some ((Propulsion.battery p (e "battery_weight") (e "elec_load")
      (e "specific_energy")).cost)
    else if o = "component_sizing_margin" then some ((Propulsion.battery p (e "battery_weight") (e "elec_load")
      (e "specific_energy")).margin)
    else if o = "max_energy" then some ((Propulsion.battery p (e "battery_weight") (e "elec_load")
      (e "specific_energy")).maxEnergy)
    else none

/-- energy_storage/hydrogen/LH2_tank_no_boil_off.py:228-232 `InitialLH2MassModification` -/
noncomputable def hydrogenMass : Comp where
  ins := [("radius", "m"), ("length", "m"), ("delta_m_liq", "kg")]
  opts := [("fill_level_init", ""), ("LH2_density", "kg/m**3")]
  outs := [("m_liq", "kg"), ("fill_level", "")]
  consts := []
  run e o :=
    if o = "m_liq" then some (Hydrogen.liquidMass (e "fill_level_init") (e "LH2_density") (e "radius") (e "length")
      (e "delta_m_liq"))
    else if o = "fill_level" then some (Hydrogen.fillLevel (e "fill_level_init") (e "LH2_density") (e "radius") (e "length")
      (e "delta_m_liq"))
    else none

/-- energy_storage/hydrogen/structural.py:203-208 `PressureVesselWallThickness` -/
noncomputable def pressureVessel : Comp where
  ins := [("design_pressure_differential", "Pa"), ("radius", "m"), ("length", "m")]
  opts := [("safety_factor", ""), ("yield_stress", "Pa"), ("density", "kg/m**3")]
  outs := [("thickness", "m"), ("weight", "kg")]
  consts := []
  run e o :=
    let p : Hydrogen.VesselOpts := ⟨e "safety_factor", e "yield_stress", e "density"⟩
    if o = "thickness" then some (Hydrogen.vesselThickness p (e "design_pressure_differential") (e "radius"))
    else if o = "weight" then some (Hydrogen.vesselWeight p (e "design_pressure_differential") (e "radius") (e "length"))
    else none

/-- energy_storage/hydrogen/structural.py:314-319 `VacuumWallThickness` -/
noncomputable def vacuumWall : Comp where
  ins := [("design_pressure_differential", "Pa"), ("radius", "m"), ("length", "m")]
  opts := [("safety_factor", ""), ("stiffening_multiplier", ""), ("youngs_modulus", "Pa"), ("density", "kg/m**3")]
  outs := [("thickness", "m"), ("weight", "kg")]
  consts := []
  run e o :=
    let p : Hydrogen.VacuumOpts := ⟨e "safety_factor", e "stiffening_multiplier", e "youngs_modulus", e "density"⟩
    if o = "thickness" then some (Hydrogen.vacThickness p (e "design_pressure_differential") (e "radius") (e "length"))
    else if o = "weight" then some (Hydrogen.vacWeight p (e "design_pressure_differential") (e "radius") (e "length"))
    else none

/-- energy_storage/hydrogen/structural.py:423-427 `MLIWeight` -/
noncomputable def insulation : Comp where
  ins := [("radius", "m"), ("length", "m"), ("N_layers", "")]
  opts := [("foil_layer_areal_weight", "kg/m**2"), ("spacer_layer_areal_weight", "kg/m**2")]
  outs := [("weight", "kg")]
  consts := []
  run e o :=
    if o = "weight" then some (Hydrogen.mliWeight (e "foil_layer_areal_weight") (e "spacer_layer_areal_weight") (e "radius")
      (e "length") (e "N_layers"))
    else none

/-- aerodynamics/aerodynamics.py:49-55 `PolarDrag` -/
noncomputable def polarDrag : Comp where
  ins := [("fltcond|CL", ""), ("fltcond|q", "N * m**-2"), ("ac|geom|wing|S_ref", "m **2"), ("CD0", ""), ("e", ""),
    ("ac|geom|wing|AR", "")]
  opts := []
  outs := [("drag", "N")]
  consts := []
  run e o :=
    let i : Aero.PolarIn := ⟨e "fltcond|q", e "ac|geom|wing|S_ref", e "CD0", e "fltcond|CL", e "e", e "ac|geom|wing|AR"⟩
    if o = "drag" then some (Aero.drag i)
    else none

/-- aerodynamics/aerodynamics.py:129-133 `Lift` -/
noncomputable def lift : Comp where
  ins := [("fltcond|CL", ""), ("fltcond|q", "N * m**-2"), ("ac|geom|wing|S_ref", "m **2")]
  opts := []
  outs := [("lift", "N")]
  consts := []
  run e o :=
    if o = "lift" then some (Aero.lift (e "fltcond|q") (e "ac|geom|wing|S_ref") (e "fltcond|CL"))
    else none

/-- aerodynamics/aerodynamics.py:166-169 `StallSpeed`; the constants are standard gravity and sea level density -/
noncomputable def stallSpeed : Comp where
  ins := [("weight", "kg"), ("ac|geom|wing|S_ref", "m**2"), ("CLmax", "")]
  opts := []
  outs := [("Vstall_eas", "m/s")]
  consts := [D.m - D.s - D.s, D.kg - D.m - D.m - D.m]
  run e o :=
    if o = "Vstall_eas" then some (Aero.vStall (e "weight") (e "ac|geom|wing|S_ref") (e "CLmax"))
    else none

/-- atmospherics/density_comp.py:40-42 `DensityComp`; the constant is the gas constant -/
noncomputable def density : Comp where
  ins := [("fltcond|p", "Pa"), ("fltcond|T", "K")]
  opts := []
  outs := [("fltcond|rho", "kg / m**3")]
  consts := [D.J - D.kg - D.K]
  run e o :=
    if o = "fltcond|rho" then some (Atmos.density (e "fltcond|p") (e "fltcond|T"))
    else none

/-- atmospherics/dynamic_pressure_comp.py:34-36 `DynamicPressureComp` -/
noncomputable def dynamicPressure : Comp where
  ins := [("fltcond|Utrue", "m/s"), ("fltcond|rho", "kg * m**-3")]
  opts := []
  outs := [("fltcond|q", "N * m**-2")]
  consts := []
  run e o :=
    if o = "fltcond|q" then some (Atmos.dynPressure (e "fltcond|rho") (e "fltcond|Utrue"))
    else none

/-- atmospherics/mach_number_comp.py:34-36 `MachNumberComp` -/
noncomputable def machNumber : Comp where
  ins := [("fltcond|a", "m / s"), ("fltcond|Utrue", "m /s")]
  opts := []
  outs := [("fltcond|M", "")]
  consts := []
  run e o :=
    if o = "fltcond|M" then some (Atmos.mach (e "fltcond|Utrue") (e "fltcond|a"))
    else none

/-- atmospherics/speedofsound_comp.py:40-41 `SpeedOfSoundComp`; the constant is the gas constant -/
noncomputable def speedOfSound : Comp where
  ins := [("fltcond|T", "K")]
  opts := []
  outs := [("fltcond|a", "m/s")]
  consts := [D.J - D.kg - D.K]
  run e o :=
    if o = "fltcond|a" then some (Atmos.soundSpeed (e "fltcond|T"))
    else none

/-- atmospherics/true_airspeed.py:34-36 `TrueAirspeedComp`; the constant is sea level density -/
noncomputable def trueAirspeed : Comp where
  ins := [("fltcond|Ueas", "m / s"), ("fltcond|rho", "kg * m**-3")]
  opts := []
  outs := [("fltcond|Utrue", "m / s")]
  consts := [D.kg - D.m - D.m - D.m]
  run e o :=
    if o = "fltcond|Utrue" then some (Atmos.trueAirspeed (e "fltcond|rho") (e "fltcond|Ueas"))
    else none

/-- atmospherics/true_airspeed.py:82-84 `EquivalentAirspeedComp`; the constant is sea level density -/
noncomputable def equivalentAirspeed : Comp where
  ins := [("fltcond|rho", "kg * m**-3"), ("fltcond|Utrue", "m / s")]
  opts := []
  outs := [("fltcond|Ueas", "m / s")]
  consts := [D.kg - D.m - D.m - D.m]
  run e o :=
    if o = "fltcond|Ueas" then some (Atmos.equivAirspeed (e "fltcond|rho") (e "fltcond|Utrue"))
    else none

/-- geometry/wetted_area.py:25-27 `CylinderSurfaceArea` -/
noncomputable def cylinderArea : Comp where
  ins := [("L", "m"), ("D", "m")]
  opts := []
  outs := [("A", "m**2")]
  consts := []
  run e o :=
    if o = "A" then some (Geometry.cylinder (e "L") (e "D"))
    else none

/-- geometry/wing_planform.py:25-28 `WingMACTrapezoidal` -/
noncomputable def wingMAC : Comp where
  ins := [("S_ref", "m**2"), ("AR", ""), ("taper", "")]
  opts := []
  outs := [("MAC", "m")]
  consts := []
  run e o :=
    if o = "MAC" then some (Geometry.macTrap (e "S_ref") (e "AR") (e "taper"))
    else none

/-- geometry/wing_planform.py:78-81 `WingSpan` -/
noncomputable def wingSpan : Comp where
  ins := [("S_ref", "m**2"), ("AR", "")]
  opts := []
  outs := [("span", "m")]
  consts := []
  run e o :=
    if o = "span" then some (Geometry.span (e "S_ref") (e "AR"))
    else none

/-- geometry/wing_planform.py:111-113 `WingAspectRatio` -/
noncomputable def wingAspect : Comp where
  ins := [("S_ref", "m**2"), ("span", "m")]
  opts := []
  outs := [("AR", "")]
  consts := []
  run e o :=
    if o = "AR" then some (Geometry.aspect (e "S_ref") (e "span"))
    else none

/-- stability/tail_volume_coefficient_sizing.py:39-47 `HStabVolumeCoefficientSizing` -/
noncomputable def hstab : Comp where
  ins := [("ac|geom|wing|S_ref", "ft**2"), ("ac|geom|wing|MAC", "ft"), ("ac|geom|hstab|c4_to_wing_c4", "ft")]
  opts := [("C_ht", "")]
  outs := [("ac|geom|hstab|S_ref", "ft**2")]
  consts := []
  run e o :=
    if o = "ac|geom|hstab|S_ref" then some (Geometry.hstab (e "C_ht") (e "ac|geom|wing|S_ref") (e "ac|geom|wing|MAC")
      (e "ac|geom|hstab|c4_to_wing_c4"))
    else none

/-- stability/tail_volume_coefficient_sizing.py:103-111 `VStabVolumeCoefficientSizing` -/
noncomputable def vstab : Comp where
  ins := [("ac|geom|wing|S_ref", "ft**2"), ("ac|geom|wing|AR", ""), ("ac|geom|vstab|c4_to_wing_c4", "ft")]
  opts := [("C_vt", "")]
  outs := [("ac|geom|vstab|S_ref", "ft**2")]
  consts := []
  run e o :=
    if o = "ac|geom|vstab|S_ref" then some (Geometry.vstab (e "C_vt") (e "ac|geom|wing|S_ref") (e "ac|geom|wing|AR")
      (e "ac|geom|vstab|c4_to_wing_c4"))
    else none

/-- mission/phases.py:42-45 `ClimbAngleComp` -/
noncomputable def climbAngle : Comp where
  ins := [("drag", "N"), ("weight", "kg"), ("thrust", "N")]
  opts := []
  outs := [("gamma", "rad")]
  consts := [D.m - D.s - D.s]
  run e o :=
    if o = "gamma" then Phases.climbAngle ⟨e "drag", e "weight", e "thrust"⟩
    else none

/-- mission/phases.py:236-240 `Groundspeeds` -/
noncomputable def groundspeeds : Comp where
  ins := [("fltcond|vs", "m/s"), ("fltcond|Utrue", "m/s")]
  opts := []
  outs := [("fltcond|groundspeed", "m/s"), ("fltcond|cosgamma", ""), ("fltcond|singamma", "")]
  consts := []
  run e o :=
    let i : Phases.GsIn := ⟨e "fltcond|vs", e "fltcond|Utrue"⟩
    if o = "fltcond|groundspeed" then some (Phases.groundspeed i)
    else if o = "fltcond|cosgamma" then some (Phases.cosgamma i)
    else if o = "fltcond|singamma" then some (Phases.singamma i)
    else none

/-- mission/phases.py:314-321 `HorizontalAcceleration` -/
noncomputable def horizontalAcceleration : Comp where
  ins := [("weight", "kg"), ("drag", "N"), ("lift", "N"), ("thrust", "N"), ("fltcond|singamma", ""), ("braking", "")]
  opts := []
  outs := [("accel_horiz", "m/s**2")]
  consts := [D.m - D.s - D.s]
  run e o :=
    let i : Phases.AccelIn := ⟨e "weight", e "drag", e "lift", e "thrust", e "fltcond|singamma", 0, e "braking"⟩
    if o = "accel_horiz" then some (Phases.accelHoriz i)
    else none

/-- mission/phases.py:389-396 `VerticalAcceleration` -/
noncomputable def verticalAcceleration : Comp where
  ins := [("weight", "kg"), ("drag", "N"), ("lift", "N"), ("thrust", "N"), ("fltcond|singamma", ""), ("fltcond|cosgamma", "")]
  opts := []
  outs := [("accel_vert", "m/s**2")]
  consts := [D.m - D.s - D.s]
  run e o :=
    let i : Phases.AccelIn := ⟨e "weight", e "drag", e "lift", e "thrust", e "fltcond|singamma", e "fltcond|cosgamma", 0⟩
    if o = "accel_vert" then some (Phases.accelVert i)
    else none

/-- mission/phases.py:466-470 `SteadyFlightCL` -/
noncomputable def steadyCL : Comp where
  ins := [("weight", "kg"), ("fltcond|q", "N * m**-2"), ("ac|geom|wing|S_ref", "m **2"), ("fltcond|cosgamma", "")]
  opts := []
  outs := [("fltcond|CL", "")]
  consts := [D.m - D.s - D.s]
  run e o :=
    if o = "fltcond|CL" then some (Phases.steadyCL ⟨e "weight", e "fltcond|q", e "ac|geom|wing|S_ref", e "fltcond|cosgamma"⟩)
    else none

/-- mission/phases.py:1179-1183 `TakeoffTransition` -/
noncomputable def takeoffTransition : Comp where
  ins := [("fltcond|Utrue", "m/s"), ("gamma", "rad")]
  opts := [("h_obstacle", "m"), ("load_factor", "")]
  outs := [("s_transition", "m"), ("h_transition", "m"), ("t_transition", "s")]
  consts := [D.m - D.s - D.s]
  run e o :=
    let i : Phases.TransIn := ⟨e "h_obstacle", e "load_factor", e "fltcond|Utrue", e "gamma"⟩
    if o = "s_transition" then some (Phases.sTrans i)
    else if o = "h_transition" then some (Phases.hTrans i)
    else if o = "t_transition" then some (Phases.tTrans i)
    else none

/-- mission/phases.py:1260-1265 `TakeoffClimb` -/
noncomputable def takeoffClimb : Comp where
  ins := [("h_transition", "m"), ("gamma", "rad"), ("fltcond|Utrue", "m/s")]
  opts := [("h_obstacle", "m")]
  outs := [("s_climb", "m"), ("t_climb", "s")]
  consts := []
  run e o :=
    let i : Phases.TClimbIn := ⟨e "h_obstacle", e "h_transition", e "gamma", e "fltcond|Utrue"⟩
    if o = "s_climb" then some (Phases.sClimb i)
    else if o = "t_climb" then some (Phases.tClimb i)
    else none

end Verif.Units
