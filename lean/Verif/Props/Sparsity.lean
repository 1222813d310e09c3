import Verif.Proof.Sparse

/-!
C111: the sparsity which components declare for their Jacobians is complete.  OpenMDAO takes the entries outside the declared
rows and columns as zero, so a pair or a pattern left out makes total derivatives wrong without any message.
-/

namespace Verif.Units

/-- `PerfectHeatTransferComp` -/
theorem C111_perfectHeatTransfer : dPerfectHeatTransfer.Complete := by
  refine Decl.complete_of (u := [])
    (by decide +kernel) (by decide +kernel) (by decide +kernel) ?_
  indep dPerfectHeatTransfer perfectHeatTransfer

/-- `ThermalComponentWithMass` -/
theorem C111_thermalMass : dThermalMass.Complete := by
  refine Decl.complete_of (u := [])
    (by decide +kernel) (by decide +kernel) (by decide +kernel) ?_
  indep dThermalMass thermalMass

/-- `ConstantSurfaceTemperatureColdPlate_NTU` -/
theorem C111_coldPlate : dColdPlate.Complete := by
  refine Decl.complete_of (u := [])
    (by decide +kernel) (by decide +kernel) (by decide +kernel) ?_
  indep dColdPlate coldPlate

/-- `CoolantReservoirRate` -/
theorem C111_reservoir : dReservoir.Complete := by
  refine Decl.complete_of (u := [])
    (by decide +kernel) (by decide +kernel) (by decide +kernel) ?_
  indep dReservoir reservoir

/-- `MotorCoolingJacket` -/
theorem C111_coolingJacket : dCoolingJacket.Complete := by
  refine Decl.complete_of (u := [("q", "q_in"), ("q", "motor_weight"), ("T_out", "q_in"), ("T_out", "motor_weight")])
    (by decide +kernel) (by decide +kernel) (by decide +kernel) ?_
  indep dCoolingJacket coolingJacket

/-- `BandolierCoolingSystem` -/
theorem C111_bandolier : dBandolier.Complete := by
  refine Decl.complete_of (u := [])
    (by decide +kernel) (by decide +kernel) (by decide +kernel) ?_
  indep dBandolier bandolier

/-- `FlowCombine` -/
theorem C111_flowCombine : dFlowCombine.Complete := by
  refine Decl.complete_of (u := [("mdot_out", "T_in_A"), ("mdot_out", "T_in_B")])
    (by decide +kernel) (by decide +kernel) (by decide +kernel) ?_
  indep dFlowCombine flowCombine

/-- `LinearSelector` -/
theorem C111_linearSelector : dLinearSelector.Complete := by
  refine Decl.complete_of (u := [("elec_load", "T_in_cold"), ("elec_load", "T_in_hot"), ("elec_load", "T_out_refrig_cold"),
    ("elec_load", "T_out_refrig_hot"), ("T_out_cold", "T_in_cold"), ("T_out_cold", "T_out_refrig_hot"), ("T_out_cold",
    "power_rating"), ("T_out_hot", "T_in_hot"), ("T_out_hot", "T_out_refrig_cold"), ("T_out_hot", "power_rating")])
    (by decide +kernel) (by decide +kernel) (by decide +kernel) ?_
  indep dLinearSelector linearSelector

/-- `COPHeatPump` -/
theorem C111_heatPump : dHeatPump.Complete := by
  refine Decl.complete_of (u := [])
    (by decide +kernel) (by decide +kernel) (by decide +kernel) ?_
  indep dHeatPump heatPump

/-- `HeatPumpWeight` -/
theorem C111_heatPumpWeight : dHeatPumpWeight.Complete := by
  refine Decl.complete_of (u := [])
    (by decide +kernel) (by decide +kernel) (by decide +kernel) ?_
  indep dHeatPumpWeight heatPumpWeight

/-- `HeatPipeWeight` -/
theorem C111_heatPipeWeight : dHeatPipeWeight.Complete := by
  refine Decl.complete_of (u := [("wall_thickness", "length")])
    (by decide +kernel) (by decide +kernel) (by decide +kernel) ?_
  indep dHeatPipeWeight heatPipeWeight

/-- `HeatPipeThermalResistance` -/
theorem C111_heatPipeResistance (vapor : Bool) : (dHeatPipeResistance vapor).Complete := by
  cases vapor
  all_goals refine Decl.complete_of (u := []) (by decide +kernel) (by decide +kernel) (by decide +kernel) ?_
  all_goals indep dHeatPipeResistance heatPipeResistance

/-- `HeatPipeVaporTempDrop` -/
theorem C111_vaporTempDrop : dVaporTempDrop.Complete := by
  refine Decl.complete_of (u := [])
    (by decide +kernel) (by decide +kernel) (by decide +kernel) ?_
  indep dVaporTempDrop vaporTempDrop

/-- `QMaxAnalyticalPart` -/
theorem C111_qMaxHeatPipe : dQMaxHeatPipe.Complete := by
  refine Decl.complete_of (u := [])
    (by decide +kernel) (by decide +kernel) (by decide +kernel) ?_
  indep dQMaxHeatPipe qMaxHeatPipe

/-- `SimplePump` -/
theorem C111_pump : dPump.Complete := by
  refine Decl.complete_of (u := [("elec_load", "power_rating"), ("component_weight", "mdot_coolant"), ("component_weight",
    "delta_p"), ("component_weight", "rho_coolant")])
    (by decide +kernel) (by decide +kernel) (by decide +kernel) ?_
  indep dPump pump

/-- `SimpleHose` -/
theorem C111_hose : dHose.Complete := by
  refine Decl.complete_of (u := [("delta_p", "hose_design_pressure"), ("component_weight", "mdot_coolant"),
    ("component_weight", "mu_coolant")])
    (by decide +kernel) (by decide +kernel) (by decide +kernel) ?_
  indep dHose hose

/-- `OffsetStripFinGeometry` -/
theorem C111_finGeometry : dFinGeometry.Complete := by
  refine Decl.complete_of (u := [])
    (by decide +kernel) (by decide +kernel) (by decide +kernel) ?_
  indep dFinGeometry finGeometry

/-- `HydraulicDiameterReynoldsNumber` -/
theorem C111_reynoldsDh : dReynoldsDh.Complete := by
  refine Decl.complete_of (u := [("Re_dh_cold", "mdot_hot"), ("Re_dh_cold", "mu_hot"), ("Re_dh_cold", "xs_area_hot"),
    ("Re_dh_cold", "dh_hot"), ("Re_dh_hot", "mdot_cold"), ("Re_dh_hot", "mu_cold"), ("Re_dh_hot", "xs_area_cold"),
    ("Re_dh_hot", "dh_cold")])
    (by decide +kernel) (by decide +kernel) (by decide +kernel) ?_
  indep dReynoldsDh reynoldsDh

/-- `NusseltFromColburnJ` -/
theorem C111_nusseltColburn : dNusseltColburn.Complete := by
  refine Decl.complete_of (u := [("Nu_dh_cold", "Re_dh_hot"), ("Nu_dh_cold", "j_hot"), ("Nu_dh_cold", "k_hot"), ("Nu_dh_cold",
    "mu_hot"), ("Nu_dh_cold", "cp_hot"), ("Nu_dh_hot", "Re_dh_cold"), ("Nu_dh_hot", "j_cold"), ("Nu_dh_hot", "k_cold"),
    ("Nu_dh_hot", "mu_cold"), ("Nu_dh_hot", "cp_cold")])
    (by decide +kernel) (by decide +kernel) (by decide +kernel) ?_
  indep dNusseltColburn nusseltColburn

/-- `ConvectiveCoefficient` -/
theorem C111_convection : dConvection.Complete := by
  refine Decl.complete_of (u := [("h_conv_cold", "Nu_dh_hot"), ("h_conv_cold", "dh_hot"), ("h_conv_cold", "k_hot"),
    ("h_conv_hot", "Nu_dh_cold"), ("h_conv_hot", "dh_cold"), ("h_conv_hot", "k_cold")])
    (by decide +kernel) (by decide +kernel) (by decide +kernel) ?_
  indep dConvection convection

/-- `FinEfficiency` -/
theorem C111_finEfficiency : dFinEfficiency.Complete := by
  refine Decl.complete_of (u := [("eta_overall_cold", "h_conv_hot"), ("eta_overall_cold", "fin_area_ratio_hot"),
    ("eta_overall_cold", "channel_height_hot"), ("eta_overall_hot", "h_conv_cold"), ("eta_overall_hot",
    "fin_area_ratio_cold"), ("eta_overall_hot", "channel_height_cold")])
    (by decide +kernel) (by decide +kernel) (by decide +kernel) ?_
  indep dFinEfficiency finEfficiency

/-- `UAOverall` -/
theorem C111_uaOverall : dUaOverall.Complete := by
  refine Decl.complete_of (u := [])
    (by decide +kernel) (by decide +kernel) (by decide +kernel) ?_
  indep dUaOverall uaOverall

/-- `NTUMethod` -/
theorem C111_ntuMethod : dNtuMethod.Complete := by
  refine Decl.complete_of (u := [("NTU", "T_in_cold"), ("NTU", "T_in_hot"), ("heat_max", "UA_overall"), ("C_ratio",
    "UA_overall"), ("C_ratio", "T_in_cold"), ("C_ratio", "T_in_hot")])
    (by decide +kernel) (by decide +kernel) (by decide +kernel) ?_
  indep dNtuMethod ntuMethod

/-- `NTUEffectivenessActualHeatTransfer` -/
theorem C111_heatTransfer : dHeatTransfer.Complete := by
  refine Decl.complete_of (u := [])
    (by decide +kernel) (by decide +kernel) (by decide +kernel) ?_
  indep dHeatTransfer heatTransfer

/-- `OutletTemperatures` -/
theorem C111_outletTemperatures : dOutletTemperatures.Complete := by
  refine Decl.complete_of (u := [("T_out_cold", "mdot_hot"), ("T_out_cold", "T_in_hot"), ("T_out_cold", "cp_hot"),
    ("T_out_hot", "mdot_cold"), ("T_out_hot", "T_in_cold"), ("T_out_hot", "cp_cold")])
    (by decide +kernel) (by decide +kernel) (by decide +kernel) ?_
  indep dOutletTemperatures outletTemperatures

/-- `PressureDrop` -/
theorem C111_pressureDrop : dPressureDrop.Complete := by
  refine Decl.complete_of (u := [("delta_p_cold", "width_overall"), ("delta_p_cold", "f_hot"), ("delta_p_cold", "mdot_hot"),
    ("delta_p_cold", "rho_hot"), ("delta_p_cold", "dh_hot"), ("delta_p_cold", "xs_area_hot"), ("delta_p_hot",
    "length_overall"), ("delta_p_hot", "f_cold"), ("delta_p_hot", "mdot_cold"), ("delta_p_hot", "rho_cold"), ("delta_p_hot",
    "dh_cold"), ("delta_p_hot", "xs_area_cold")])
    (by decide +kernel) (by decide +kernel) (by decide +kernel) ?_
  indep dPressureDrop pressureDrop

/-- `ExplicitIncompressibleDuct` -/
theorem C111_explicitDuct : dExplicitDuct.Complete := by
  refine Decl.complete_of (u := [])
    (by decide +kernel) (by decide +kernel) (by decide +kernel) ?_
  indep dExplicitDuct explicitDuct

/-- `TemperatureIsentropic` -/
theorem C111_ductTemperature : dDuctTemperature.Complete := by
  refine Decl.complete_of (u := [])
    (by decide +kernel) (by decide +kernel) (by decide +kernel) ?_
  indep dDuctTemperature ductTemperature

/-- `TotalTemperatureIsentropic` -/
theorem C111_ductTotalTemperature : dDuctTotalTemperature.Complete := by
  refine Decl.complete_of (u := [])
    (by decide +kernel) (by decide +kernel) (by decide +kernel) ?_
  indep dDuctTotalTemperature ductTotalTemperature

/-- `PressureIsentropic` -/
theorem C111_ductPressure : dDuctPressure.Complete := by
  refine Decl.complete_of (u := [])
    (by decide +kernel) (by decide +kernel) (by decide +kernel) ?_
  indep dDuctPressure ductPressure

/-- `TotalPressureIsentropic` -/
theorem C111_ductTotalPressure : dDuctTotalPressure.Complete := by
  refine Decl.complete_of (u := [])
    (by decide +kernel) (by decide +kernel) (by decide +kernel) ?_
  indep dDuctTotalPressure ductTotalPressure

/-- `DensityIdealGas` -/
theorem C111_ductDensity : dDuctDensity.Complete := by
  refine Decl.complete_of (u := [])
    (by decide +kernel) (by decide +kernel) (by decide +kernel) ?_
  indep dDuctDensity ductDensity

/-- `SpeedOfSound` -/
theorem C111_ductSpeedOfSound : dDuctSpeedOfSound.Complete := by
  refine Decl.complete_of (u := [])
    (by decide +kernel) (by decide +kernel) (by decide +kernel) ?_
  indep dDuctSpeedOfSound ductSpeedOfSound

/-- `MachNumberfromSpeed` -/
theorem C111_ductMachFromSpeed : dDuctMachFromSpeed.Complete := by
  refine Decl.complete_of (u := [])
    (by decide +kernel) (by decide +kernel) (by decide +kernel) ?_
  indep dDuctMachFromSpeed ductMachFromSpeed

/-- `HeatAdditionPressureLoss` -/
theorem C111_heatAddition : dHeatAddition.Complete := by
  refine Decl.complete_of (u := [("Tt_out", "pt_in"), ("Tt_out", "rho"), ("Tt_out", "area"), ("Tt_out", "delta_p"), ("Tt_out",
    "dynamic_pressure_loss_factor"), ("Tt_out", "pressure_recovery"), ("pt_out", "Tt_in"), ("pt_out", "heat_in"), ("pt_out",
    "cp")])
    (by decide +kernel) (by decide +kernel) (by decide +kernel) ?_
  indep dHeatAddition heatAddition

/-- `MassFlow` -/
theorem C111_massFlow : dMassFlow.Complete := by
  refine Decl.complete_of (u := [])
    (by decide +kernel) (by decide +kernel) (by decide +kernel) ?_
  indep dMassFlow massFlow

/-- `NetForce` -/
theorem C111_netForce : dNetForce.Complete := by
  refine Decl.complete_of (u := [])
    (by decide +kernel) (by decide +kernel) (by decide +kernel) ?_
  indep dNetForce netForce

/-- `NozzlePressureLoss` -/
theorem C111_nozzleLoss : dNozzleLoss.Complete := by
  refine Decl.complete_of (u := [])
    (by decide +kernel) (by decide +kernel) (by decide +kernel) ?_
  indep dNozzleLoss nozzleLoss

/-- `SimpleMotor` -/
theorem C111_motor : dMotor.Complete := by
  refine Decl.complete_of (u := [("component_cost", "throttle"), ("component_weight", "throttle"), ("component_sizing_margin",
    "elec_power_rating")])
    (by decide +kernel) (by decide +kernel) (by decide +kernel) ?_
  indep dMotor motor

/-- `SimpleGenerator` -/
theorem C111_generator : dGenerator.Complete := by
  refine Decl.complete_of (u := [("elec_power_out", "elec_power_rating"), ("heat_out", "elec_power_rating"),
    ("component_cost", "shaft_power_in"), ("component_weight", "shaft_power_in")])
    (by decide +kernel) (by decide +kernel) (by decide +kernel) ?_
  indep dGenerator generator

/-- `SimpleTurboshaft` -/
theorem C111_turboshaft : dTurboshaft.Complete := by
  refine Decl.complete_of (u := [("component_cost", "throttle"), ("component_weight", "throttle"), ("component_sizing_margin",
    "shaft_power_rating")])
    (by decide +kernel) (by decide +kernel) (by decide +kernel) ?_
  indep dTurboshaft turboshaft

/-- `PowerSplit` -/
theorem C111_splitFraction : dSplitFraction.Complete := by
  refine Decl.complete_of (u := [("power_out_A", "power_rating"), ("power_out_B", "power_rating"), ("heat_out",
    "power_rating"), ("heat_out", "power_split_fraction"), ("component_cost", "power_in"), ("component_cost",
    "power_split_fraction"), ("component_weight", "power_in"), ("component_weight", "power_split_fraction"),
    ("component_sizing_margin", "power_split_fraction")])
    (by decide +kernel) (by decide +kernel) (by decide +kernel) ?_
  indep dSplitFraction splitFraction

/-- `PowerSplit` -/
theorem C111_splitFixed : dSplitFixed.Complete := by
  refine Decl.complete_of (u := [("power_out_A", "power_rating"), ("power_out_B", "power_rating"), ("heat_out",
    "power_rating"), ("heat_out", "power_split_amount"), ("component_cost", "power_in"), ("component_cost",
    "power_split_amount"), ("component_weight", "power_in"), ("component_weight", "power_split_amount"),
    ("component_sizing_margin", "power_split_amount")])
    (by decide +kernel) (by decide +kernel) (by decide +kernel) ?_
  indep dSplitFixed splitFixed

/-- `PropCoefficients` -/
theorem C111_propCoefficients : dPropCoefficients.Complete := by
  refine Decl.complete_of (u := [("cp", "fltcond|Utrue"), ("J", "shaft_power_in"), ("J", "fltcond|rho"), ("prop_Vtip",
    "shaft_power_in"), ("prop_Vtip", "fltcond|rho"), ("prop_Vtip", "fltcond|Utrue")])
    (by decide +kernel) (by decide +kernel) (by decide +kernel) ?_
  indep dPropCoefficients propCoefficients

/-- `ThrustCalc` -/
theorem C111_thrustCalc : dThrustCalc.Complete := by
  refine Decl.complete_of (u := [])
    (by decide +kernel) (by decide +kernel) (by decide +kernel) ?_
  indep dThrustCalc thrustCalc

/-- `SimpleBattery` -/
theorem C111_battery : dBattery.Complete := by
  refine Decl.complete_of (u := [("heat_out", "battery_weight"), ("heat_out", "specific_energy"), ("component_cost",
    "elec_load"), ("component_cost", "specific_energy"), ("component_sizing_margin", "specific_energy"), ("max_energy",
    "elec_load")])
    (by decide +kernel) (by decide +kernel) (by decide +kernel) ?_
  indep dBattery battery

/-- `InitialLH2MassModification` -/
theorem C111_hydrogenMass : dHydrogenMass.Complete := by
  refine Decl.complete_of (u := [])
    (by decide +kernel) (by decide +kernel) (by decide +kernel) ?_
  indep dHydrogenMass hydrogenMass

/-- `PressureVesselWallThickness` -/
theorem C111_pressureVessel : dPressureVessel.Complete := by
  refine Decl.complete_of (u := [("thickness", "length")])
    (by decide +kernel) (by decide +kernel) (by decide +kernel) ?_
  indep dPressureVessel pressureVessel

/-- `VacuumWallThickness` -/
theorem C111_vacuumWall : dVacuumWall.Complete := by
  refine Decl.complete_of (u := [])
    (by decide +kernel) (by decide +kernel) (by decide +kernel) ?_
  indep dVacuumWall vacuumWall

/-- `MLIWeight` -/
theorem C111_insulation : dInsulation.Complete := by
  refine Decl.complete_of (u := [])
    (by decide +kernel) (by decide +kernel) (by decide +kernel) ?_
  indep dInsulation insulation

/-- `PolarDrag` -/
theorem C111_polarDrag (vecCD0 : Bool) : (dPolarDrag vecCD0).Complete := by
  cases vecCD0
  all_goals refine Decl.complete_of (u := []) (by decide +kernel) (by decide +kernel) (by decide +kernel) ?_
  all_goals indep dPolarDrag polarDrag

/-- `Lift` -/
theorem C111_lift : dLift.Complete := by
  refine Decl.complete_of (u := [])
    (by decide +kernel) (by decide +kernel) (by decide +kernel) ?_
  indep dLift lift

/-- `StallSpeed` -/
theorem C111_stallSpeed : dStallSpeed.Complete := by
  refine Decl.complete_of (u := [])
    (by decide +kernel) (by decide +kernel) (by decide +kernel) ?_
  indep dStallSpeed stallSpeed

/-- `DensityComp` -/
theorem C111_density : dDensity.Complete := by
  refine Decl.complete_of (u := [])
    (by decide +kernel) (by decide +kernel) (by decide +kernel) ?_
  indep dDensity density

/-- `DynamicPressureComp` -/
theorem C111_dynamicPressure : dDynamicPressure.Complete := by
  refine Decl.complete_of (u := [])
    (by decide +kernel) (by decide +kernel) (by decide +kernel) ?_
  indep dDynamicPressure dynamicPressure

/-- `MachNumberComp` -/
theorem C111_machNumber : dMachNumber.Complete := by
  refine Decl.complete_of (u := [])
    (by decide +kernel) (by decide +kernel) (by decide +kernel) ?_
  indep dMachNumber machNumber

/-- `SpeedOfSoundComp` -/
theorem C111_speedOfSound : dSpeedOfSound.Complete := by
  refine Decl.complete_of (u := [])
    (by decide +kernel) (by decide +kernel) (by decide +kernel) ?_
  indep dSpeedOfSound speedOfSound

/-- `TrueAirspeedComp` -/
theorem C111_trueAirspeed : dTrueAirspeed.Complete := by
  refine Decl.complete_of (u := [])
    (by decide +kernel) (by decide +kernel) (by decide +kernel) ?_
  indep dTrueAirspeed trueAirspeed

/-- `EquivalentAirspeedComp` -/
theorem C111_equivalentAirspeed : dEquivalentAirspeed.Complete := by
  refine Decl.complete_of (u := [])
    (by decide +kernel) (by decide +kernel) (by decide +kernel) ?_
  indep dEquivalentAirspeed equivalentAirspeed

/-- `CylinderSurfaceArea` -/
theorem C111_cylinderArea : dCylinderArea.Complete := by
  refine Decl.complete_of (u := [])
    (by decide +kernel) (by decide +kernel) (by decide +kernel) ?_
  indep dCylinderArea cylinderArea

/-- `WingMACTrapezoidal` -/
theorem C111_wingMAC : dWingMAC.Complete := by
  refine Decl.complete_of (u := [])
    (by decide +kernel) (by decide +kernel) (by decide +kernel) ?_
  indep dWingMAC wingMAC

/-- `WingSpan` -/
theorem C111_wingSpan : dWingSpan.Complete := by
  refine Decl.complete_of (u := [])
    (by decide +kernel) (by decide +kernel) (by decide +kernel) ?_
  indep dWingSpan wingSpan

/-- `WingAspectRatio` -/
theorem C111_wingAspect : dWingAspect.Complete := by
  refine Decl.complete_of (u := [])
    (by decide +kernel) (by decide +kernel) (by decide +kernel) ?_
  indep dWingAspect wingAspect

/-- `HStabVolumeCoefficientSizing` -/
theorem C111_hstab : dHstab.Complete := by
  refine Decl.complete_of (u := [])
    (by decide +kernel) (by decide +kernel) (by decide +kernel) ?_
  indep dHstab hstab

/-- `VStabVolumeCoefficientSizing` -/
theorem C111_vstab : dVstab.Complete := by
  refine Decl.complete_of (u := [])
    (by decide +kernel) (by decide +kernel) (by decide +kernel) ?_
  indep dVstab vstab

/-- `ClimbAngleComp` -/
theorem C111_climbAngle : dClimbAngle.Complete := by
  refine Decl.complete_of (u := [])
    (by decide +kernel) (by decide +kernel) (by decide +kernel) ?_
  indep dClimbAngle climbAngle

/-- `Groundspeeds` -/
theorem C111_groundspeeds : dGroundspeeds.Complete := by
  refine Decl.complete_of (u := [])
    (by decide +kernel) (by decide +kernel) (by decide +kernel) ?_
  indep dGroundspeeds groundspeeds

/-- `HorizontalAcceleration` -/
theorem C111_horizontalAcceleration : dHorizontalAcceleration.Complete := by
  refine Decl.complete_of (u := [])
    (by decide +kernel) (by decide +kernel) (by decide +kernel) ?_
  indep dHorizontalAcceleration horizontalAcceleration

/-- `VerticalAcceleration` -/
theorem C111_verticalAcceleration : dVerticalAcceleration.Complete := by
  refine Decl.complete_of (u := [])
    (by decide +kernel) (by decide +kernel) (by decide +kernel) ?_
  indep dVerticalAcceleration verticalAcceleration

/-- `SteadyFlightCL` -/
theorem C111_steadyCL : dSteadyCL.Complete := by
  refine Decl.complete_of (u := [])
    (by decide +kernel) (by decide +kernel) (by decide +kernel) ?_
  indep dSteadyCL steadyCL

/-- `TakeoffTransition` -/
theorem C111_takeoffTransition : dTakeoffTransition.Complete := by
  refine Decl.complete_of (u := [])
    (by decide +kernel) (by decide +kernel) (by decide +kernel) ?_
  indep dTakeoffTransition takeoffTransition

/-- `TakeoffClimb` -/
theorem C111_takeoffClimb : dTakeoffClimb.Complete := by
  refine Decl.complete_of (u := [("s_climb", "fltcond|Utrue")])
    (by decide +kernel) (by decide +kernel) (by decide +kernel) ?_
  indep dTakeoffClimb takeoffClimb

/-! Instances -/

/-- entries declared for the shaft power of a motor with three nodes -/
example : dMotor.entries 3 "shaft_power_out" "throttle" = [(0, 0), (1, 1), (2, 2)] ∧
    dMotor.entries 3 "shaft_power_out" "elec_power_rating" = [(0, 0), (1, 0), (2, 0)] ∧
    dMotor.entries 3 "component_weight" "throttle" = [] := by
  refine ⟨?_, ?_, ?_⟩ <;> decide +kernel

/-- the heat of the battery does not depend on the battery's weight, for which nothing is declared -/
example (X : String → ℕ → ℝ) (w : ℝ) (r : ℕ) (hr : r < 5) :
    dBattery.compute (change X "battery_weight" 0 w) "heat_out" r = dBattery.compute X "heat_out" r :=
  C111_battery.zero 5 ("heat_out", "W") (by simp [dBattery, battery]) ("battery_weight", "kg") (by simp [dBattery, battery])
    r hr 0 (by decide +kernel) (by rw [show dBattery.entries 5 "heat_out" "battery_weight" = [] by decide +kernel]; simp) X w

/-- without the partials with respect to the rating the declarations of the motor would be incomplete -/
example : ¬ Decl.Complete {dMotor with parts := every ["shaft_power_out", "heat_out", "elec_load"] ["throttle"] .diag} := by
  intro h
  have h1 := h.zero 1 ("shaft_power_out", "W") (by simp [dMotor, motor]) ("elec_power_rating", "W") (by simp [dMotor, motor])
    0 (by decide +kernel) 0 (by decide +kernel) (by decide +kernel) (fun _ _ => 1) 2
  simp only [Decl.compute, dMotor, motor, change, Propulsion.motor, reduceIte, String.reduceEq, List.mem_cons,
    List.not_mem_nil, or_false, and_true, Option.some.injEq, or_self] at h1
  norm_num at h1

end Verif.Units
