import Verif.Model.Units

/-!
Declarations of partial derivatives: for the components of `Model/Units.lean`, which variables are vectors over the nodes, and
the pairs given to `declare_partials` with their pattern of rows and columns.  OpenMDAO takes every entry outside the declared
ones as zero.  The wildcard `*` is expanded.  Patterns given with `method="cs"` have no rows and columns and are dense.
The values of the entries are the subject of other files.
-/

namespace Verif.Units

/-- rows and columns given to `declare_partials` -/
inductive Pat
  /-- `rows=arange(nn), cols=arange(nn)` -/
  | diag
  /-- `rows=arange(nn), cols=zeros(nn)` -/
  | col
  /-- `rows=[0], cols=[0]` -/
  | one
  /-- neither: all entries -/
  | dense
  deriving DecidableEq

/-- the declared entries of a block with `r` rows and `c` columns, in a component with `nn` nodes -/
def Pat.entries (nn r c : ℕ) : Pat → List (ℕ × ℕ)
  | .diag => (List.range nn).map fun k => (k, k)
  | .col => (List.range nn).map fun k => (k, 0)
  | .one => [(0, 0)]
  | .dense => (List.range r).flatMap fun i => (List.range c).map fun j => (i, j)

/-- a component with the variables of shape `(nn,)` and the declared partials (output, input, pattern) -/
structure Decl where
  comp : Comp
  vecs : List String
  parts : List (String × String × Pat)

/-- wildcards and lists: every output with every input -/
def every (os vs : List String) (p : Pat) : List (String × String × Pat) := os.flatMap fun o => vs.map fun v => (o, v, p)

/-- number of entries of a variable -/
def Decl.size (d : Decl) (nn : ℕ) (v : String) : ℕ := if v ∈ d.vecs then nn else 1

/-- `compute` of the vectorised component: entry `r` of output `o`.  Formulas are elementwise; scalars are broadcast (and a
scalar output, which has the row 0 only, reads the first entry of a vector, as hose.py:86 does) -/
noncomputable def Decl.compute (d : Decl) (X : String → ℕ → ℝ) (o : String) (r : ℕ) : Option ℝ :=
  d.comp.run (fun v => if v ∈ d.vecs then X v r else X v 0) o

/-- declared entries of the block of output `o` and input `v` -/
def Decl.entries (d : Decl) (nn : ℕ) (o v : String) : List (ℕ × ℕ) :=
  (d.parts.filter fun p => p.1 = o ∧ p.2.1 = v).flatMap fun p => p.2.2.entries nn (d.size nn o) (d.size nn v)

/-- changing one entry of an input -/
def change (X : String → ℕ → ℝ) (v : String) (c : ℕ) (x : ℝ) : String → ℕ → ℝ :=
  fun w k => if w = v ∧ k = c then x else X w k

/-- The declarations are accepted (each position exists and is given once) and leave out only entries of the Jacobian that are
zero: where nothing is declared, the output does not depend on the input. -/
structure Decl.Complete (d : Decl) : Prop where
  names : ∀ p ∈ d.parts, p.1 ∈ d.comp.outs.map Prod.fst ∧ p.2.1 ∈ d.comp.ins.map Prod.fst
  range : ∀ nn > 0, ∀ o v, ∀ e ∈ d.entries nn o v, e.1 < d.size nn o ∧ e.2 < d.size nn v
  once : ∀ nn o v, (d.entries nn o v).Nodup
  zero : ∀ nn, ∀ o ∈ d.comp.outs, ∀ v ∈ d.comp.ins, ∀ r < d.size nn o.1, ∀ c < d.size nn v.1, (r, c) ∉ d.entries nn o.1 v.1 →
    ∀ X x, d.compute (change X v.1 c x) o.1 r = d.compute X o.1 r

/-- thermal/thermal.py:57-59 `PerfectHeatTransferComp` -/
noncomputable def dPerfectHeatTransfer : Decl where
  comp := perfectHeatTransfer
  vecs := ["T_in", "q", "mdot_coolant", "T_out", "T_average"]
  parts := every ["T_out", "T_average"] ["q", "mdot_coolant"] .diag ++
    every ["T_out"] ["T_in"] .diag ++
    every ["T_average"] ["T_in"] .diag

/-- thermal/thermal.py:112-114 `ThermalComponentWithMass` -/
noncomputable def dThermalMass : Decl where
  comp := thermalMass
  vecs := ["q_in", "q_out", "dTdt"]
  parts := every ["dTdt"] ["q_in"] .diag ++
    every ["dTdt"] ["q_out"] .diag ++
    every ["dTdt"] ["mass"] .col

/-- thermal/thermal.py:233-236 `ConstantSurfaceTemperatureColdPlate_NTU` -/
noncomputable def dColdPlate : Decl where
  comp := coldPlate
  vecs := ["T_in", "T_surface", "mdot_coolant", "q", "T_out"]
  parts := every ["q", "T_out"] ["T_in", "T_surface", "mdot_coolant"] .dense ++
    every ["q", "T_out"] ["channel_width", "channel_height", "channel_length", "n_parallel"] .dense

/-- thermal/thermal.py:442-443 `CoolantReservoirRate` -/
noncomputable def dReservoir : Decl where
  comp := reservoir
  vecs := ["T_in", "T_out", "mdot_coolant", "dTdt"]
  parts := every ["dTdt"] ["T_in", "T_out", "mdot_coolant"] .diag ++
    every ["dTdt"] ["mass"] .col

/-- thermal/motor_cooling.py:201-205 `MotorCoolingJacket` -/
noncomputable def dCoolingJacket : Decl where
  comp := coolingJacket
  vecs := ["q_in", "T_in", "T", "mdot_coolant", "q", "T_out", "dTdt"]
  parts := every ["T_out", "q", "dTdt"] ["power_rating"] .col ++
    every ["dTdt"] ["motor_weight"] .col ++
    every ["T_out", "q", "dTdt"] ["T_in", "T", "mdot_coolant"] .diag ++
    every ["dTdt"] ["q_in"] .diag

/-- thermal/battery_cooling.py:247-247 `BandolierCoolingSystem` -/
noncomputable def dBandolier : Decl where
  comp := bandolier
  vecs := ["q_in", "T_in", "T_battery", "mdot_coolant", "dTdt", "T_surface", "T_core", "q", "T_out"]
  parts := every ["dTdt", "T_surface", "T_core", "q", "T_out"] ["q_in", "T_in", "T_battery", "mdot_coolant", "battery_weight", "n_cpb",
      "t_channel"] .dense

/-- thermal/manifold.py:106-107 `FlowCombine` -/
noncomputable def dFlowCombine : Decl where
  comp := flowCombine
  vecs := ["mdot_in_A", "mdot_in_B", "T_in_A", "T_in_B", "mdot_out", "T_out"]
  parts := every ["mdot_out"] ["mdot_in_A", "mdot_in_B"] .diag ++
    every ["T_out"] ["mdot_in_A", "mdot_in_B", "T_in_A", "T_in_B"] .diag

/-- thermal/chiller.py:59-66 `LinearSelector` -/
noncomputable def dLinearSelector : Decl where
  comp := linearSelector
  vecs := ["T_in_cold", "T_in_hot", "T_out_refrig_cold", "T_out_refrig_hot", "bypass", "elec_load", "T_out_cold", "T_out_hot"]
  parts := every ["T_out_cold"] ["bypass", "T_in_hot", "T_out_refrig_cold"] .diag ++
    every ["T_out_hot"] ["bypass", "T_in_cold", "T_out_refrig_hot"] .diag ++
    every ["elec_load"] ["bypass"] .diag ++
    every ["elec_load"] ["power_rating"] .col

/-- thermal/chiller.py:128-129 `COPHeatPump` -/
noncomputable def dHeatPump : Decl where
  comp := heatPump
  vecs := ["COP", "q_in_1", "q_in_2"]
  parts := every ["q_in_1", "q_in_2"] ["COP"] .diag ++
    every ["q_in_1", "q_in_2"] ["power_rating"] .col

/-- thermal/chiller.py:167-167 `HeatPumpWeight` -/
noncomputable def dHeatPumpWeight : Decl where
  comp := heatPumpWeight
  vecs := []
  parts := every ["component_weight"] ["power_rating", "specific_power"] .dense

/-- thermal/heat_pipe.py:417-418 `HeatPipeWeight` -/
noncomputable def dHeatPipeWeight : Decl where
  comp := heatPipeWeight
  vecs := []
  parts := every ["heat_pipe_weight"] ["length", "design_pressure", "inner_diam"] .dense ++
    every ["wall_thickness"] ["design_pressure", "inner_diam"] .dense

/-- thermal/heat_pipe.py:267-267 `HeatPipeThermalResistance` -/
noncomputable def dHeatPipeResistance (vapor : Bool) : Decl where
  comp := heatPipeResistance vapor
  vecs := ["q", "delta_T", "thermal_resistance"]
  parts := every ["thermal_resistance"] ["inner_diam", "wall_thickness", "q", "delta_T"] .dense

/-- thermal/heat_pipe.py:346-346 `HeatPipeVaporTempDrop` -/
noncomputable def dVaporTempDrop : Decl where
  comp := vaporTempDrop
  vecs := ["q", "temp", "rho_vapor", "vapor_pressure", "delta_T"]
  parts := every ["delta_T"] ["q", "temp", "rho_vapor", "vapor_pressure", "inner_diam", "length"] .dense

/-- thermal/heat_pipe.py:777-777 `QMaxAnalyticalPart` -/
noncomputable def dQMaxHeatPipe : Decl where
  comp := qMaxHeatPipe
  vecs := ["temp", "rho_liquid", "rho_vapor", "q_max"]
  parts := every ["q_max"] ["inner_diam", "temp", "rho_liquid", "rho_vapor"] .dense

/-- thermal/pump.py:62-69 `SimplePump` -/
noncomputable def dPump : Decl where
  comp := pump
  vecs := ["mdot_coolant", "delta_p", "rho_coolant", "elec_load", "component_sizing_margin"]
  parts := every ["elec_load", "component_sizing_margin"] ["rho_coolant", "delta_p", "mdot_coolant"] .diag ++
    every ["component_sizing_margin"] ["power_rating"] .col ++
    every ["component_weight"] ["power_rating"] .dense

/-- thermal/hose.py:59-66 `SimpleHose` -/
noncomputable def dHose : Decl where
  comp := hose
  vecs := ["mdot_coolant", "rho_coolant", "delta_p"]
  parts := every ["delta_p"] ["rho_coolant", "mdot_coolant"] .diag ++
    every ["delta_p"] ["hose_diameter", "hose_length", "mu_coolant"] .col ++
    every ["component_weight"] ["hose_design_pressure", "hose_length", "hose_diameter"] .one ++
    every ["component_weight"] ["rho_coolant"] .one

/-- thermal/heat_exchanger.py:134-134 `OffsetStripFinGeometry` -/
noncomputable def dFinGeometry : Decl where
  comp := finGeometry
  vecs := []
  parts := every ["component_weight", "length_overall", "height_overall", "width_overall", "frontal_area", "xs_area_cold",
      "heat_transfer_area_cold", "dh_cold", "fin_area_ratio_cold", "contraction_ratio_cold", "alpha_cold", "delta_cold",
      "gamma_cold", "xs_area_hot", "heat_transfer_area_hot", "dh_hot", "fin_area_ratio_hot", "contraction_ratio_hot",
      "alpha_hot", "delta_hot", "gamma_hot"] ["channel_width_hot", "channel_height_hot", "fin_length_hot",
      "channel_width_cold", "channel_height_cold", "fin_length_cold", "fin_thickness", "plate_thickness", "case_thickness",
      "n_wide_cold", "n_long_cold", "n_tall", "material_rho"] .dense

/-- thermal/heat_exchanger.py:421-428 `HydraulicDiameterReynoldsNumber` -/
noncomputable def dReynoldsDh : Decl where
  comp := reynoldsDh
  vecs := ["mdot_cold", "mdot_hot", "Re_dh_cold", "Re_dh_hot"]
  parts := every ["Re_dh_cold"] ["mdot_cold"] .diag ++
    every ["Re_dh_cold"] ["mu_cold", "xs_area_cold", "dh_cold"] .col ++
    every ["Re_dh_hot"] ["mdot_hot"] .diag ++
    every ["Re_dh_hot"] ["mu_hot", "xs_area_hot", "dh_hot"] .col

/-- thermal/heat_exchanger.py:514-521 `NusseltFromColburnJ` -/
noncomputable def dNusseltColburn : Decl where
  comp := nusseltColburn
  vecs := ["Re_dh_cold", "j_cold", "Re_dh_hot", "j_hot", "Nu_dh_cold", "Nu_dh_hot"]
  parts := every ["Nu_dh_cold"] ["j_cold", "Re_dh_cold"] .diag ++
    every ["Nu_dh_cold"] ["k_cold", "mu_cold", "cp_cold"] .col ++
    every ["Nu_dh_hot"] ["j_hot", "Re_dh_hot"] .diag ++
    every ["Nu_dh_hot"] ["k_hot", "mu_hot", "cp_hot"] .col

/-- thermal/heat_exchanger.py:672-675 `ConvectiveCoefficient` -/
noncomputable def dConvection : Decl where
  comp := convection
  vecs := ["Nu_dh_cold", "Nu_dh_hot", "h_conv_cold", "h_conv_hot"]
  parts := every ["h_conv_cold"] ["Nu_dh_cold"] .diag ++
    every ["h_conv_cold"] ["dh_cold", "k_cold"] .col ++
    every ["h_conv_hot"] ["Nu_dh_hot"] .diag ++
    every ["h_conv_hot"] ["dh_hot", "k_hot"] .col

/-- thermal/heat_exchanger.py:754-767 `FinEfficiency` -/
noncomputable def dFinEfficiency : Decl where
  comp := finEfficiency
  vecs := ["h_conv_cold", "h_conv_hot", "eta_overall_cold", "eta_overall_hot"]
  parts := every ["eta_overall_cold"] ["h_conv_cold"] .diag ++
    every ["eta_overall_cold"] ["fin_area_ratio_cold", "channel_height_cold", "fin_thickness", "material_k"] .col ++
    every ["eta_overall_hot"] ["h_conv_hot"] .diag ++
    every ["eta_overall_hot"] ["fin_area_ratio_hot", "channel_height_hot", "fin_thickness", "material_k"] .col

/-- thermal/heat_exchanger.py:893-904 `UAOverall` -/
noncomputable def dUaOverall : Decl where
  comp := uaOverall
  vecs := ["h_conv_cold", "eta_overall_cold", "h_conv_hot", "eta_overall_hot", "UA_overall"]
  parts := every ["UA_overall"] ["h_conv_cold", "eta_overall_cold", "h_conv_hot", "eta_overall_hot"] .diag ++
    every ["UA_overall"] ["heat_transfer_area_cold", "heat_transfer_area_hot"] .col

/-- thermal/heat_exchanger.py:1001-1008 `NTUMethod` -/
noncomputable def dNtuMethod : Decl where
  comp := ntuMethod
  vecs := ["UA_overall", "mdot_cold", "T_in_cold", "mdot_hot", "T_in_hot", "NTU", "heat_max", "C_ratio"]
  parts := every ["NTU"] ["UA_overall", "mdot_cold", "mdot_hot"] .diag ++
    every ["C_ratio"] ["mdot_cold", "mdot_hot"] .diag ++
    every ["heat_max"] ["mdot_cold", "mdot_hot", "T_in_cold", "T_in_hot"] .diag ++
    every ["heat_max", "NTU", "C_ratio"] ["cp_cold", "cp_hot"] .col

/-- thermal/heat_exchanger.py:1142-1142 `NTUEffectivenessActualHeatTransfer` -/
noncomputable def dHeatTransfer : Decl where
  comp := heatTransfer
  vecs := ["effectiveness", "heat_max", "heat_transfer"]
  parts := every ["heat_transfer"] ["effectiveness", "heat_max"] .diag

/-- thermal/heat_exchanger.py:1203-1208 `OutletTemperatures` -/
noncomputable def dOutletTemperatures : Decl where
  comp := outletTemperatures
  vecs := ["heat_transfer", "mdot_cold", "T_in_cold", "mdot_hot", "T_in_hot", "T_out_cold", "T_out_hot"]
  parts := every ["T_out_cold"] ["heat_transfer", "mdot_cold"] .diag ++
    every ["T_out_cold"] ["T_in_cold"] .diag ++
    every ["T_out_hot"] ["heat_transfer", "mdot_hot"] .diag ++
    every ["T_out_hot"] ["T_in_hot"] .diag ++
    every ["T_out_cold"] ["cp_cold"] .col ++
    every ["T_out_hot"] ["cp_hot"] .col

/-- thermal/heat_exchanger.py:1306-1319 `PressureDrop` -/
noncomputable def dPressureDrop : Decl where
  comp := pressureDrop
  vecs := ["f_cold", "mdot_cold", "rho_cold", "f_hot", "mdot_hot", "rho_hot", "delta_p_cold", "delta_p_hot"]
  parts := every ["delta_p_cold"] ["mdot_cold", "rho_cold", "f_cold"] .diag ++
    every ["delta_p_cold"] ["xs_area_cold", "length_overall", "dh_cold"] .col ++
    every ["delta_p_hot"] ["mdot_hot", "rho_hot", "f_hot"] .diag ++
    every ["delta_p_hot"] ["xs_area_hot", "width_overall", "dh_hot"] .col

/-- thermal/ducts.py:65-66 `ExplicitIncompressibleDuct` -/
noncomputable def dExplicitDuct : Decl where
  comp := explicitDuct
  vecs := ["fltcond|Utrue", "fltcond|rho", "area_nozzle", "delta_p_hex", "mdot", "drag"]
  parts := every ["drag", "mdot"] ["fltcond|Utrue", "fltcond|rho", "delta_p_hex"] .dense ++
    every ["drag", "mdot"] ["area_nozzle"] .dense

/-- thermal/ducts.py:142-142 `TemperatureIsentropic` -/
noncomputable def dDuctTemperature : Decl where
  comp := ductTemperature
  vecs := ["Tt", "M", "T"]
  parts := every ["T"] ["M", "Tt"] .diag

/-- thermal/ducts.py:188-188 `TotalTemperatureIsentropic` -/
noncomputable def dDuctTotalTemperature : Decl where
  comp := ductTotalTemperature
  vecs := ["T", "M", "Tt"]
  parts := every ["Tt"] ["T", "M"] .diag

/-- thermal/ducts.py:233-233 `PressureIsentropic` -/
noncomputable def dDuctPressure : Decl where
  comp := ductPressure
  vecs := ["pt", "M", "p"]
  parts := every ["p"] ["pt", "M"] .dense

/-- thermal/ducts.py:274-274 `TotalPressureIsentropic` -/
noncomputable def dDuctTotalPressure : Decl where
  comp := ductTotalPressure
  vecs := ["p", "M", "pt"]
  parts := every ["pt"] ["p", "M"] .diag

/-- thermal/ducts.py:326-326 `DensityIdealGas` -/
noncomputable def dDuctDensity : Decl where
  comp := ductDensity
  vecs := ["p", "T", "rho"]
  parts := every ["rho"] ["p", "T"] .dense

/-- thermal/ducts.py:367-367 `SpeedOfSound` -/
noncomputable def dDuctSpeedOfSound : Decl where
  comp := ductSpeedOfSound
  vecs := ["T", "a"]
  parts := every ["a"] ["T"] .diag

/-- thermal/ducts.py:414-414 `MachNumberfromSpeed` -/
noncomputable def dDuctMachFromSpeed : Decl where
  comp := ductMachFromSpeed
  vecs := ["a", "Utrue", "M"]
  parts := every ["M"] ["a", "Utrue"] .dense

/-- thermal/ducts.py:475-480 `HeatAdditionPressureLoss` -/
noncomputable def dHeatAddition : Decl where
  comp := heatAddition
  vecs := ["Tt_in", "pt_in", "mdot", "rho", "delta_p", "pressure_recovery", "heat_in", "Tt_out", "pt_out"]
  parts := every ["Tt_out"] ["Tt_in", "heat_in", "mdot"] .diag ++
    every ["Tt_out"] ["cp"] .col ++
    every ["pt_out"] ["pt_in", "pressure_recovery", "delta_p", "rho", "mdot"] .diag ++
    every ["pt_out"] ["area", "dynamic_pressure_loss_factor"] .col

/-- thermal/ducts.py:566-566 `MassFlow` -/
noncomputable def dMassFlow : Decl where
  comp := massFlow
  vecs := ["a", "area", "rho", "M", "mdot"]
  parts := every ["mdot"] ["M", "a", "rho", "area"] .diag

/-- thermal/ducts.py:738-738 `NetForce` -/
noncomputable def dNetForce : Decl where
  comp := netForce
  vecs := ["mdot", "Utrue_inf", "p_inf", "area_nozzle", "p_nozzle", "rho_nozzle", "F_net"]
  parts := every ["F_net"] ["mdot", "Utrue_inf", "p_inf", "area_nozzle", "p_nozzle", "rho_nozzle"] .dense

/-- thermal/ducts.py:888-889 `NozzlePressureLoss` -/
noncomputable def dNozzleLoss : Decl where
  comp := nozzleLoss
  vecs := ["pt_in", "mdot", "rho", "area", "pt"]
  parts := every ["pt"] ["pt_in", "rho", "mdot", "area"] .diag ++
    every ["pt"] ["dynamic_pressure_loss_factor"] .col

/-- propulsion/motor.py:72-82 `SimpleMotor` -/
noncomputable def dMotor : Decl where
  comp := motor
  vecs := ["throttle", "shaft_power_out", "heat_out", "elec_load", "component_sizing_margin"]
  parts := every ["shaft_power_out"] ["elec_power_rating"] .dense ++
    every ["shaft_power_out"] ["throttle"] .diag ++
    every ["heat_out"] ["elec_power_rating"] .dense ++
    every ["heat_out"] ["throttle"] .diag ++
    every ["elec_load"] ["elec_power_rating"] .dense ++
    every ["elec_load"] ["throttle"] .diag ++
    every ["component_cost"] ["elec_power_rating"] .dense ++
    every ["component_weight"] ["elec_power_rating"] .dense ++
    every ["component_sizing_margin"] ["throttle"] .diag

/-- propulsion/generator.py:71-80 `SimpleGenerator` -/
noncomputable def dGenerator : Decl where
  comp := generator
  vecs := ["shaft_power_in", "elec_power_out", "heat_out", "component_sizing_margin"]
  parts := every ["elec_power_out"] ["shaft_power_in"] .diag ++
    every ["heat_out"] ["shaft_power_in"] .diag ++
    every ["component_cost"] ["elec_power_rating"] .dense ++
    every ["component_weight"] ["elec_power_rating"] .dense ++
    every ["component_sizing_margin"] ["shaft_power_in"] .diag ++
    every ["component_sizing_margin"] ["elec_power_rating"] .dense

/-- propulsion/turboshaft.py:82-92 `SimpleTurboshaft` -/
noncomputable def dTurboshaft : Decl where
  comp := turboshaft
  vecs := ["throttle", "shaft_power_out", "fuel_flow", "component_sizing_margin"]
  parts := every ["shaft_power_out"] ["shaft_power_rating"] .dense ++
    every ["shaft_power_out"] ["throttle"] .diag ++
    every ["fuel_flow"] ["shaft_power_rating"] .dense ++
    every ["fuel_flow"] ["throttle"] .diag ++
    every ["component_cost"] ["shaft_power_rating"] .dense ++
    every ["component_weight"] ["shaft_power_rating"] .dense ++
    every ["component_sizing_margin"] ["throttle"] .diag

/-- propulsion/splitter.py:98-109 `PowerSplit` -/
noncomputable def dSplitFraction : Decl where
  comp := splitFraction
  vecs := ["power_in", "power_split_fraction", "power_out_A", "power_out_B", "heat_out", "component_sizing_margin"]
  parts := every ["power_out_A", "power_out_B"] ["power_in", "power_split_fraction"] .diag ++
    every ["heat_out"] ["power_in"] .diag ++
    every ["component_cost"] ["power_rating"] .dense ++
    every ["component_weight"] ["power_rating"] .dense ++
    every ["component_sizing_margin"] ["power_in"] .diag ++
    every ["component_sizing_margin"] ["power_rating"] .dense

/-- propulsion/splitter.py:98-109 `PowerSplit` -/
noncomputable def dSplitFixed : Decl where
  comp := splitFixed
  vecs := ["power_in", "power_split_amount", "power_out_A", "power_out_B", "heat_out", "component_sizing_margin"]
  parts := every ["power_out_A", "power_out_B"] ["power_in", "power_split_amount"] .diag ++
    every ["heat_out"] ["power_in"] .diag ++
    every ["component_cost"] ["power_rating"] .dense ++
    every ["component_weight"] ["power_rating"] .dense ++
    every ["component_sizing_margin"] ["power_in"] .diag ++
    every ["component_sizing_margin"] ["power_rating"] .dense

/-- propulsion/propeller.py:256-262 `PropCoefficients` -/
noncomputable def dPropCoefficients : Decl where
  comp := propCoefficients
  vecs := ["shaft_power_in", "rpm", "fltcond|rho", "fltcond|Utrue", "cp", "J", "prop_Vtip"]
  parts := every ["cp"] ["diameter"] .dense ++
    every ["cp"] ["shaft_power_in"] .diag ++
    every ["cp"] ["fltcond|rho", "rpm"] .diag ++
    every ["J"] ["diameter"] .dense ++
    every ["J"] ["fltcond|Utrue", "rpm"] .diag ++
    every ["prop_Vtip"] ["rpm"] .diag ++
    every ["prop_Vtip"] ["diameter"] .dense

/-- propulsion/propeller.py:131-134 `ThrustCalc` -/
noncomputable def dThrustCalc : Decl where
  comp := thrustCalc
  vecs := ["cp", "eta_prop", "J", "fltcond|rho", "rpm", "ct_over_cp", "thrust"]
  parts := every ["thrust"] ["cp", "eta_prop", "J", "fltcond|rho", "rpm", "ct_over_cp"] .diag ++
    every ["thrust"] ["diameter"] .dense

/-- energy_storage/battery.py:179-183 `SimpleBattery` -/
noncomputable def dBattery : Decl where
  comp := battery
  vecs := ["elec_load", "heat_out", "component_sizing_margin"]
  parts := every ["heat_out"] ["elec_load"] .diag ++
    every ["component_cost"] ["battery_weight"] .dense ++
    every ["component_sizing_margin"] ["battery_weight"] .dense ++
    every ["component_sizing_margin"] ["elec_load"] .diag ++
    every ["max_energy"] ["battery_weight", "specific_energy"] .dense

/-- energy_storage/hydrogen/LH2_tank_no_boil_off.py:235-237 `InitialLH2MassModification` -/
noncomputable def dHydrogenMass : Decl where
  comp := hydrogenMass
  vecs := ["delta_m_liq", "m_liq", "fill_level"]
  parts := every ["m_liq"] ["delta_m_liq"] .diag ++
    every ["fill_level"] ["delta_m_liq"] .diag ++
    every ["m_liq", "fill_level"] ["radius", "length"] .col

/-- energy_storage/hydrogen/structural.py:210-211 `PressureVesselWallThickness` -/
noncomputable def dPressureVessel : Decl where
  comp := pressureVessel
  vecs := []
  parts := every ["thickness"] ["design_pressure_differential", "radius"] .dense ++
    every ["weight"] ["design_pressure_differential", "radius", "length"] .dense

/-- energy_storage/hydrogen/structural.py:321-321 `VacuumWallThickness` -/
noncomputable def dVacuumWall : Decl where
  comp := vacuumWall
  vecs := []
  parts := every ["thickness", "weight"] ["design_pressure_differential", "radius", "length"] .dense

/-- energy_storage/hydrogen/structural.py:429-429 `MLIWeight` -/
noncomputable def dInsulation : Decl where
  comp := insulation
  vecs := []
  parts := every ["weight"] ["radius", "length", "N_layers"] .dense

/-- aerodynamics/aerodynamics.py:57-59 `PolarDrag` -/
noncomputable def dPolarDrag (vecCD0 : Bool) : Decl where
  comp := polarDrag
  vecs := (if vecCD0 then ["CD0"] else []) ++ ["fltcond|CL", "fltcond|q", "drag"]
  parts := every ["drag"] ["fltcond|CL", "fltcond|q"] .diag ++
    every ["drag"] ["ac|geom|wing|S_ref", "ac|geom|wing|AR", "e"] .col ++
    every ["drag"] ["CD0"] (if vecCD0 then .diag else .col)

/-- aerodynamics/aerodynamics.py:134-135 `Lift` -/
noncomputable def dLift : Decl where
  comp := lift
  vecs := ["fltcond|CL", "fltcond|q", "lift"]
  parts := every ["lift"] ["fltcond|CL", "fltcond|q"] .diag ++
    every ["lift"] ["ac|geom|wing|S_ref"] .col

/-- aerodynamics/aerodynamics.py:170-170 `StallSpeed` -/
noncomputable def dStallSpeed : Decl where
  comp := stallSpeed
  vecs := []
  parts := every ["Vstall_eas"] ["weight", "ac|geom|wing|S_ref", "CLmax"] .dense

/-- atmospherics/density_comp.py:45-46 `DensityComp` -/
noncomputable def dDensity : Decl where
  comp := density
  vecs := ["fltcond|p", "fltcond|T", "fltcond|rho"]
  parts := every ["fltcond|rho"] ["fltcond|p"] .diag ++
    every ["fltcond|rho"] ["fltcond|T"] .diag

/-- atmospherics/dynamic_pressure_comp.py:39-40 `DynamicPressureComp` -/
noncomputable def dDynamicPressure : Decl where
  comp := dynamicPressure
  vecs := ["fltcond|Utrue", "fltcond|rho", "fltcond|q"]
  parts := every ["fltcond|q"] ["fltcond|rho"] .diag ++
    every ["fltcond|q"] ["fltcond|Utrue"] .diag

/-- atmospherics/mach_number_comp.py:39-40 `MachNumberComp` -/
noncomputable def dMachNumber : Decl where
  comp := machNumber
  vecs := ["fltcond|a", "fltcond|Utrue", "fltcond|M"]
  parts := every ["fltcond|M"] ["fltcond|a"] .diag ++
    every ["fltcond|M"] ["fltcond|Utrue"] .diag

/-- atmospherics/speedofsound_comp.py:44-44 `SpeedOfSoundComp` -/
noncomputable def dSpeedOfSound : Decl where
  comp := speedOfSound
  vecs := ["fltcond|T", "fltcond|a"]
  parts := every ["fltcond|a"] ["fltcond|T"] .diag

/-- atmospherics/true_airspeed.py:39-40 `TrueAirspeedComp` -/
noncomputable def dTrueAirspeed : Decl where
  comp := trueAirspeed
  vecs := ["fltcond|Ueas", "fltcond|rho", "fltcond|Utrue"]
  parts := every ["fltcond|Utrue"] ["fltcond|Ueas"] .diag ++
    every ["fltcond|Utrue"] ["fltcond|rho"] .diag

/-- atmospherics/true_airspeed.py:87-88 `EquivalentAirspeedComp` -/
noncomputable def dEquivalentAirspeed : Decl where
  comp := equivalentAirspeed
  vecs := ["fltcond|Ueas", "fltcond|rho", "fltcond|Utrue"]
  parts := every ["fltcond|Ueas"] ["fltcond|Utrue"] .diag ++
    every ["fltcond|Ueas"] ["fltcond|rho"] .diag

/-- geometry/wetted_area.py:28-28 `CylinderSurfaceArea` -/
noncomputable def dCylinderArea : Decl where
  comp := cylinderArea
  vecs := []
  parts := every ["A"] ["L", "D"] .dense

/-- geometry/wing_planform.py:29-29 `WingMACTrapezoidal` -/
noncomputable def dWingMAC : Decl where
  comp := wingMAC
  vecs := []
  parts := every ["MAC"] ["S_ref", "AR", "taper"] .dense

/-- geometry/wing_planform.py:82-82 `WingSpan` -/
noncomputable def dWingSpan : Decl where
  comp := wingSpan
  vecs := []
  parts := every ["span"] ["S_ref", "AR"] .dense

/-- geometry/wing_planform.py:114-114 `WingAspectRatio` -/
noncomputable def dWingAspect : Decl where
  comp := wingAspect
  vecs := []
  parts := every ["AR"] ["S_ref", "span"] .dense

/-- stability/tail_volume_coefficient_sizing.py:48-48 `HStabVolumeCoefficientSizing` -/
noncomputable def dHstab : Decl where
  comp := hstab
  vecs := []
  parts := every ["ac|geom|hstab|S_ref"] ["ac|geom|wing|S_ref", "ac|geom|wing|MAC", "ac|geom|hstab|c4_to_wing_c4"] .dense

/-- stability/tail_volume_coefficient_sizing.py:112-112 `VStabVolumeCoefficientSizing` -/
noncomputable def dVstab : Decl where
  comp := vstab
  vecs := []
  parts := every ["ac|geom|vstab|S_ref"] ["ac|geom|wing|S_ref", "ac|geom|wing|AR", "ac|geom|vstab|c4_to_wing_c4"] .dense

/-- mission/phases.py:47-47 `ClimbAngleComp` -/
noncomputable def dClimbAngle : Decl where
  comp := climbAngle
  vecs := ["drag", "weight", "thrust", "gamma"]
  parts := every ["gamma"] ["weight", "thrust", "drag"] .diag

/-- mission/phases.py:241-246 `Groundspeeds` -/
noncomputable def dGroundspeeds : Decl where
  comp := groundspeeds
  vecs := ["fltcond|vs", "fltcond|Utrue", "fltcond|groundspeed", "fltcond|cosgamma", "fltcond|singamma"]
  parts := every ["fltcond|groundspeed", "fltcond|cosgamma", "fltcond|singamma"] ["fltcond|vs", "fltcond|Utrue"] .diag

/-- mission/phases.py:323-328 `HorizontalAcceleration` -/
noncomputable def dHorizontalAcceleration : Decl where
  comp := horizontalAcceleration
  vecs := ["weight", "drag", "lift", "thrust", "fltcond|singamma", "braking", "accel_horiz"]
  parts := every ["accel_horiz"] ["weight", "drag", "lift", "thrust", "braking"] .diag ++
    every ["accel_horiz"] ["fltcond|singamma"] .diag

/-- mission/phases.py:398-403 `VerticalAcceleration` -/
noncomputable def dVerticalAcceleration : Decl where
  comp := verticalAcceleration
  vecs := ["weight", "drag", "lift", "thrust", "fltcond|singamma", "fltcond|cosgamma", "accel_vert"]
  parts := every ["accel_vert"] ["weight", "drag", "lift", "thrust", "fltcond|singamma", "fltcond|cosgamma"] .diag

/-- mission/phases.py:471-472 `SteadyFlightCL` -/
noncomputable def dSteadyCL : Decl where
  comp := steadyCL
  vecs := ["weight", "fltcond|q", "fltcond|cosgamma", "fltcond|CL"]
  parts := every ["fltcond|CL"] ["weight", "fltcond|q", "fltcond|cosgamma"] .diag ++
    every ["fltcond|CL"] ["ac|geom|wing|S_ref"] .col

/-- mission/phases.py:1184-1184 `TakeoffTransition` -/
noncomputable def dTakeoffTransition : Decl where
  comp := takeoffTransition
  vecs := []
  parts := every ["s_transition", "h_transition", "t_transition"] ["fltcond|Utrue", "gamma"] .dense

/-- mission/phases.py:1266-1267 `TakeoffClimb` -/
noncomputable def dTakeoffClimb : Decl where
  comp := takeoffClimb
  vecs := []
  parts := every ["s_climb"] ["h_transition", "gamma"] .dense ++
    every ["t_climb"] ["h_transition", "gamma", "fltcond|Utrue"] .dense

end Verif.Units
