import Verif.Model.Units
import Verif.Proof.Scale

/-!
C110: the units which components declare are consistent with their formulas.  If the base units are changed in a way that keeps
the dimensional constants of a formula (`g`, the gas constant of air, ...) and the inputs are expressed in the new units, then
the outputs are the old outputs expressed in the new units.  A term of a wrong dimension, a missing factor or a wrong power of a
variable breaks this.
-/

namespace Verif.Units

/-- half a metre as the unit of length -/
noncomputable def halfMetre : Base := ⟨2, 1, 1, 1, 1, 1, 1, 1, by norm_num, by norm_num, by norm_num, by norm_num, by norm_num,
  by norm_num, by norm_num, by norm_num⟩

/-- quarter of a metre and half a second: accelerations keep their numbers -/
noncomputable def sameAccel : Base := ⟨4, 1, 2, 1, 1, 1, 1, 1, by norm_num, by norm_num, by norm_num, by norm_num, by norm_num,
  by norm_num, by norm_num, by norm_num⟩

/-- ducts.py:68-77 where nothing is clipped -/
theorem duct_mdot {k U rho A dp : ℝ} (h : 0 ≤ (rho ^ 2 * U ^ 2 + 2 * rho * dp) / (1 + k)) (hA : 0 ≤ A) :
    Ducts.ductMdot k U rho A dp = A * √((rho ^ 2 * U ^ 2 + 2 * rho * dp) / (1 + k)) := by
  unfold Ducts.ductMdot Ducts.ductInterior
  rw [if_neg (not_lt.2 h), if_neg (not_lt.2 (mul_nonneg hA (Real.sqrt_nonneg _)))]

/-- phases.py:250-256 where the vertical speed does not exceed the airspeed -/
theorem ground_speed {v u : ℝ} (h : v ^ 2 ≤ u ^ 2) :
    Phases.groundspeed ⟨v, u⟩ = √(u ^ 2 - v ^ 2) ∧ Phases.singamma ⟨v, u⟩ = v / u := by
  unfold Phases.groundspeed Phases.singamma Phases.GsIn.inside
  rw [if_neg (not_lt.2 (sub_nonneg.2 h)), if_neg (not_lt.2 (sub_nonneg.2 h))]
  exact ⟨rfl, rfl⟩


/-- `PerfectHeatTransferComp` -/
theorem C110_perfectHeatTransfer : perfectHeatTransfer.Consistent := by
  refine Comp.consistentOn_intro fun b hb env e' hv hd => ?_
  outs
  all_goals simp only [perfectHeatTransfer, Thermal.phtOut, Thermal.phtAvg, reduceIte, String.reduceEq]
  all_goals dims

/-- `ThermalComponentWithMass` -/
theorem C110_thermalMass : thermalMass.Consistent := by
  refine Comp.consistentOn_intro fun b hb env e' hv hd => ?_
  outs
  all_goals simp only [thermalMass, Thermal.massDTdt, reduceIte]
  all_goals dims

/-- `ConstantSurfaceTemperatureColdPlate_NTU` -/
theorem C110_coldPlate : coldPlate.Consistent := by
  refine Comp.consistentOn_intro fun b hb env e' hv hd => ?_
  outs
  all_goals simp only [coldPlate, Thermal.plateQ, Thermal.plateTout, Thermal.Plate.UA, Thermal.Plate.area, Thermal.Plate.dh,
    reduceIte, String.reduceEq]
  all_goals dims

/-- `CoolantReservoirRate` -/
theorem C110_reservoir : reservoir.Consistent := by
  refine Comp.consistentOn_intro fun b hb env e' hv hd => ?_
  outs
  all_goals simp only [reservoir, Thermal.reservoirRate, reduceIte]
  all_goals dims

/-- `MotorCoolingJacket` -/
theorem C110_coolingJacket : coolingJacket.Consistent := by
  refine Comp.consistentOn_intro fun b hb env e' hv hd => ?_
  outs
  all_goals simp only [coolingJacket, Thermal.jacketQ, Thermal.jacketTout, Thermal.jacketDTdt, Thermal.jacketEff,
    Thermal.jacketNTU, reduceIte, String.reduceEq]
  all_goals dims

/-- `BandolierCoolingSystem` -/
theorem C110_bandolier : bandolier.Consistent := by
  refine Comp.consistentOn_intro fun b hb env e' hv hd => ?_
  outs
  all_goals simp only [bandolier, Thermal.bandDTdt, Thermal.bandTs, Thermal.bandTcore, Thermal.bandQ, Thermal.bandTout,
    Thermal.bandK, Thermal.bandKcyl, Thermal.bandNTU, Thermal.bandMdot, Thermal.bandCells, reduceIte, String.reduceEq]
  all_goals dims

/-- `FlowCombine` -/
theorem C110_flowCombine : flowCombine.Consistent := by
  refine Comp.consistentOn_intro fun b hb env e' hv hd => ?_
  outs
  all_goals simp only [flowCombine, Thermal.combineMdot, Thermal.combineT, reduceIte, String.reduceEq]
  all_goals dims

/-- `LinearSelector` -/
theorem C110_linearSelector : linearSelector.Consistent := by
  refine Comp.consistentOn_intro fun b hb env e' hv hd => ?_
  outs
  all_goals simp only [linearSelector, Thermal.selLoad, Thermal.selCold, Thermal.selHot, reduceIte, String.reduceEq]
  all_goals dims

/-- `COPHeatPump` -/
theorem C110_heatPump : heatPump.Consistent := by
  refine Comp.consistentOn_intro fun b hb env e' hv hd => ?_
  outs
  all_goals simp only [heatPump, Thermal.pumpQ1, Thermal.pumpQ2, reduceIte, String.reduceEq]
  all_goals dims

/-- `HeatPumpWeight` -/
theorem C110_heatPumpWeight : heatPumpWeight.Consistent := by
  refine Comp.consistentOn_intro fun b hb env e' hv hd => ?_
  outs
  all_goals simp only [heatPumpWeight, Thermal.pumpWeight, reduceIte]
  all_goals dims

/-- `HeatPipeWeight` -/
theorem C110_heatPipeWeight : heatPipeWeight.Consistent := by
  refine Comp.consistentOn_intro fun b hb env e' hv hd => ?_
  outs
  all_goals simp only [heatPipeWeight, Thermal.pipeWeight, Thermal.pipeThickness, reduceIte, String.reduceEq]
  all_goals dims

/-- `HeatPipeThermalResistance` -/
theorem C110_heatPipeResistance (vapor : Bool) : (heatPipeResistance vapor).Consistent := by
  refine Comp.consistentOn_intro fun b hb env e' hv hd => ?_
  outs
  cases vapor
  · simp only [heatPipeResistance, Thermal.pipeResistance, Thermal.pipeRadial, reduceIte, Bool.false_eq_true, Option.map_some]
    dims
  · have hz : e' "q" = 0 ↔ env "q" = 0 := Sc.ne_zero_iff (hv "q")
    by_cases h0 : env "q" = 0
    · simp only [heatPipeResistance, Thermal.pipeResistance, Thermal.npdiv, reduceIte, if_pos h0, if_pos (hz.2 h0), Option.map_none]
    · simp only [heatPipeResistance, Thermal.pipeResistance, Thermal.pipeRadial, Thermal.npdiv, reduceIte, if_neg h0,
        if_neg (fun c => h0 (hz.1 c)), Option.map_some]
      dims

/-- `HeatPipeVaporTempDrop` -/
theorem C110_vaporTempDrop : vaporTempDrop.Consistent := by
  refine Comp.consistentOn_intro fun b hb env e' hv hd => ?_
  have hc : Sc b D.K (35.976 : ℝ) 35.976 := Sc.const (hb _ (by simp [vaporTempDrop]))
  outs
  all_goals simp only [vaporTempDrop, Thermal.vaporDrop, reduceIte]
  all_goals dims

/-- `QMaxAnalyticalPart` -/
theorem C110_qMaxHeatPipe : qMaxHeatPipe.Consistent := by
  refine Comp.consistentOn_intro fun b hb env e' hv hd => ?_
  have hg : Sc b (D.m - D.s - D.s) grav grav := Sc.const (hb _ (by simp [qMaxHeatPipe]))
  outs
  all_goals simp only [qMaxHeatPipe, Thermal.qMax, reduceIte]
  all_goals dims

/-- `SimplePump` -/
theorem C110_pump : pump.Consistent := by
  refine Comp.consistentOn_intro fun b hb env e' hv hd => ?_
  outs
  all_goals simp only [pump, Thermal.pumpLoad, Thermal.pumpMass, Thermal.pumpMargin, reduceIte, String.reduceEq]
  all_goals dims

/-- `SimpleHose` -/
theorem C110_hose : hose.Consistent := by
  refine Comp.consistentOn_intro fun b hb env e' hv hd => ?_
  outs
  all_goals simp only [hose, Thermal.hoseDp, Thermal.hoseU, Thermal.hoseRe, Thermal.hoseWeight, Thermal.hoseThickness,
    reduceIte, String.reduceEq]
  all_goals dims

/-- `OffsetStripFinGeometry` -/
theorem C110_finGeometry : finGeometry.Consistent := by
  refine Comp.consistentOn_intro fun b hb env e' hv hd => ?_
  outs
  all_goals simp only [finGeometry, HX.Geo.areaCold, HX.Geo.areaHot, HX.Geo.contractionCold, HX.Geo.contractionHot,
    HX.Geo.dhCold, HX.Geo.dhHot, HX.Geo.finRatioCold, HX.Geo.finRatioHot, HX.Geo.frontal, HX.Geo.height, HX.Geo.length,
    HX.Geo.shapeCold, HX.Geo.shapeHot, HX.Geo.weight, HX.Geo.width, HX.Geo.xsCold, HX.Geo.xsHot, HX.Geo.nWideHot,
    HX.Geo.nLongHot, HX.Geo.plateVolume, HX.Geo.finVolume, HX.Geo.caseVolume, reduceIte, String.reduceEq]
  all_goals dims

/-- `HydraulicDiameterReynoldsNumber` -/
theorem C110_reynoldsDh : reynoldsDh.Consistent := by
  refine Comp.consistentOn_intro fun b hb env e' hv hd => ?_
  outs
  all_goals simp only [reynoldsDh, HX.reDh, reduceIte, String.reduceEq]
  all_goals dims

/-- `NusseltFromColburnJ` -/
theorem C110_nusseltColburn : nusseltColburn.Consistent := by
  refine Comp.consistentOn_intro fun b hb env e' hv hd => ?_
  outs
  all_goals simp only [nusseltColburn, HX.nusselt, reduceIte, String.reduceEq]
  all_goals dims

/-- `ConvectiveCoefficient` -/
theorem C110_convection : convection.Consistent := by
  refine Comp.consistentOn_intro fun b hb env e' hv hd => ?_
  outs
  all_goals simp only [convection, HX.hConv, reduceIte, String.reduceEq]
  all_goals dims

/-- `FinEfficiency` -/
theorem C110_finEfficiency : finEfficiency.Consistent := by
  refine Comp.consistentOn_intro fun b hb env e' hv hd => ?_
  outs
  all_goals simp only [finEfficiency, HX.etaOverall, HX.finEta, HX.finM, reduceIte, String.reduceEq]
  all_goals dims

/-- `UAOverall` -/
theorem C110_uaOverall : uaOverall.Consistent := by
  refine Comp.consistentOn_intro fun b hb env e' hv hd => ?_
  outs
  all_goals simp only [uaOverall, HX.ua, HX.UAIn.R, HX.UAIn.Rc, HX.UAIn.Rh, HX.UAIn.Rfc, reduceIte]
  all_goals dims

/-- `NTUMethod` -/
theorem C110_ntuMethod : ntuMethod.Consistent := by
  refine Comp.consistentOn_intro fun b hb env e' hv hd => ?_
  outs
  all_goals simp only [ntuMethod, HX.ntu, HX.heatMax, HX.cRatio, HX.NtuIn.Cmin, HX.NtuIn.Cmax, HX.NtuIn.Cc, HX.NtuIn.Ch,
    reduceIte, String.reduceEq]
  all_goals dims

/-- `NTUEffectivenessActualHeatTransfer` -/
theorem C110_heatTransfer : heatTransfer.Consistent := by
  refine Comp.consistentOn_intro fun b hb env e' hv hd => ?_
  outs
  all_goals simp only [heatTransfer, HX.heatTransfer, reduceIte]
  all_goals dims

/-- `OutletTemperatures` -/
theorem C110_outletTemperatures : outletTemperatures.Consistent := by
  refine Comp.consistentOn_intro fun b hb env e' hv hd => ?_
  outs
  all_goals simp only [outletTemperatures, HX.toutCold, HX.toutHot, reduceIte, String.reduceEq]
  all_goals dims

/-- `PressureDrop` -/
theorem C110_pressureDrop : pressureDrop.Consistent := by
  refine Comp.consistentOn_intro fun b hb env e' hv hd => ?_
  outs
  all_goals simp only [pressureDrop, HX.deltaP, HX.dynP, HX.losses, reduceIte, String.reduceEq]
  all_goals dims

/-- `ExplicitIncompressibleDuct` -/
theorem C110_explicitDuct : explicitDuct.ConsistentOn
    fun e => 0 ≤ e "area_nozzle" ∧
      0 ≤ (e "fltcond|rho" ^ 2 * e "fltcond|Utrue" ^ 2 + 2 * e "fltcond|rho" * e "delta_p_hex")
        / (1 + e "static_pressure_loss_factor") := by
  refine Comp.consistentOn_intro fun b hb env e' hv hd => ?_
  have hi : 0 ≤ (e' "fltcond|rho" ^ 2 * e' "fltcond|Utrue" ^ 2 + 2 * e' "fltcond|rho" * e' "delta_p_hex")
        / (1 + e' "static_pressure_loss_factor") ↔
      0 ≤ (env "fltcond|rho" ^ 2 * env "fltcond|Utrue" ^ 2 + 2 * env "fltcond|rho" * env "delta_p_hex")
        / (1 + env "static_pressure_loss_factor") := by
    apply Sc.le_iff (b := b)
    all_goals dims
  have hm := duct_mdot (hi.2 hd.2) ((Sc.le_iff Sc.zero (hv "area_nozzle") rfl).2 hd.1)
  have hm' := duct_mdot hd.2 hd.1
  outs
  all_goals simp only [explicitDuct, Ducts.ductDrag, hm, hm', reduceIte, String.reduceEq]
  all_goals dims

/-- `TemperatureIsentropic` -/
theorem C110_ductTemperature : ductTemperature.Consistent := by
  refine Comp.consistentOn_intro fun b hb env e' hv hd => ?_
  outs
  all_goals simp only [ductTemperature, Ducts.tStatic, reduceIte]
  all_goals dims

/-- `TotalTemperatureIsentropic` -/
theorem C110_ductTotalTemperature : ductTotalTemperature.Consistent := by
  refine Comp.consistentOn_intro fun b hb env e' hv hd => ?_
  outs
  all_goals simp only [ductTotalTemperature, Ducts.tTotal, reduceIte]
  all_goals dims

/-- `PressureIsentropic` -/
theorem C110_ductPressure : ductPressure.Consistent := by
  refine Comp.consistentOn_intro fun b hb env e' hv hd => ?_
  outs
  all_goals simp only [ductPressure, Ducts.pStatic, reduceIte]
  all_goals dims

/-- `TotalPressureIsentropic` -/
theorem C110_ductTotalPressure : ductTotalPressure.Consistent := by
  refine Comp.consistentOn_intro fun b hb env e' hv hd => ?_
  outs
  all_goals simp only [ductTotalPressure, Ducts.pTotal, reduceIte]
  all_goals dims

/-- `DensityIdealGas` -/
theorem C110_ductDensity : ductDensity.Consistent := by
  refine Comp.consistentOn_intro fun b hb env e' hv hd => ?_
  outs
  all_goals simp only [ductDensity, Ducts.density, reduceIte]
  all_goals dims

/-- `SpeedOfSound` -/
theorem C110_ductSpeedOfSound : ductSpeedOfSound.ConsistentOn
    fun e => 0 ≤ e "T" := by
  refine Comp.consistentOn_intro fun b hb env e' hv hd => ?_
  have hT : Ducts.clipT (e' "T") = e' "T" := if_neg (not_lt.2 ((Sc.le_iff Sc.zero (hv "T") rfl).2 hd))
  have hT' : Ducts.clipT (env "T") = env "T" := if_neg (not_lt.2 hd)
  outs
  all_goals simp only [ductSpeedOfSound, Ducts.sos, hT, hT', reduceIte]
  all_goals dims

/-- `MachNumberfromSpeed` -/
theorem C110_ductMachFromSpeed : ductMachFromSpeed.Consistent := by
  refine Comp.consistentOn_intro fun b hb env e' hv hd => ?_
  outs
  all_goals simp only [ductMachFromSpeed, Ducts.machFromSpeed, reduceIte]
  all_goals dims

/-- `HeatAdditionPressureLoss` -/
theorem C110_heatAddition : heatAddition.Consistent := by
  refine Comp.consistentOn_intro fun b hb env e' hv hd => ?_
  outs
  all_goals simp only [heatAddition, Ducts.ttOut, Ducts.ptOut, reduceIte, String.reduceEq]
  all_goals dims

/-- `MassFlow` -/
theorem C110_massFlow : massFlow.Consistent := by
  refine Comp.consistentOn_intro fun b hb env e' hv hd => ?_
  outs
  all_goals simp only [massFlow, Ducts.massFlow, reduceIte]
  all_goals dims

/-- `NetForce` -/
theorem C110_netForce : netForce.Consistent := by
  refine Comp.consistentOn_intro fun b hb env e' hv hd => ?_
  outs
  all_goals simp only [netForce, Ducts.netForce, reduceIte]
  all_goals dims

/-- `NozzlePressureLoss` -/
theorem C110_nozzleLoss : nozzleLoss.Consistent := by
  refine Comp.consistentOn_intro fun b hb env e' hv hd => ?_
  outs
  all_goals simp only [nozzleLoss, Ducts.nozzlePt, reduceIte]
  all_goals dims

/-- `SimpleMotor` -/
theorem C110_motor : motor.Consistent := by
  refine Comp.consistentOn_intro fun b hb env e' hv hd => ?_
  outs
  all_goals simp only [motor, Propulsion.motor, reduceIte, String.reduceEq]
  all_goals dims

/-- `SimpleGenerator` -/
theorem C110_generator : generator.Consistent := by
  refine Comp.consistentOn_intro fun b hb env e' hv hd => ?_
  outs
  all_goals simp only [generator, Propulsion.generator, reduceIte, String.reduceEq]
  all_goals dims

/-- `SimpleTurboshaft` -/
theorem C110_turboshaft : turboshaft.Consistent := by
  refine Comp.consistentOn_intro fun b hb env e' hv hd => ?_
  outs
  all_goals simp only [turboshaft, Propulsion.turboshaft, reduceIte, String.reduceEq]
  all_goals dims

/-- `PowerSplit` -/
theorem C110_splitFraction : splitFraction.Consistent := by
  refine Comp.consistentOn_intro fun b hb env e' hv hd => ?_
  outs
  all_goals simp only [splitFraction, Propulsion.splitCompute, Propulsion.splitA, Propulsion.splitB, reduceIte,
    String.reduceEq]
  all_goals dims

/-- `PowerSplit` -/
theorem C110_splitFixed : splitFixed.Consistent := by
  refine Comp.consistentOn_intro fun b hb env e' hv hd => ?_
  outs
  all_goals simp only [splitFixed, Propulsion.splitCompute, Propulsion.splitA, Propulsion.splitB, reduceIte, String.reduceEq]
  all_goals dims

/-- `PropCoefficients`: power coefficient and advance ratio -/
theorem C110_propCoefficients_rest : Comp.Consistent {propCoefficients with outs := [("cp", ""), ("J", "")]} := by
  refine Comp.consistentOn_intro fun b hb env e' hv hd => ?_
  outs
  all_goals simp only [propCoefficients, Propulsion.powerCoef, Propulsion.advanceRatio, reduceIte, String.reduceEq]
  all_goals dims

/-- `PropCoefficients`: the tip speed would be consistent if it were declared in `m/s` -/
theorem C110_tipSpeed_unit : Comp.Consistent {propCoefficients with outs := [("prop_Vtip", "m/s")]} := by
  refine Comp.consistentOn_intro fun b hb env e' hv hd => ?_
  outs
  all_goals simp only [propCoefficients, Propulsion.tipSpeed, reduceIte, String.reduceEq]
  all_goals dims

/-- `PropCoefficients` declares the output `prop_Vtip`, a speed, without units: the component is not consistent -/
theorem C110_propCoefficients_negation : ¬ propCoefficients.Consistent := by
  intro h
  have h1 := C110_tipSpeed_unit halfMetre (by simp [propCoefficients]) (fun _ => 1) trivial _ (List.mem_singleton_self _)
  have h2 := h halfMetre (by simp [propCoefficients]) (fun _ => 1) trivial ("prop_Vtip", "") (by simp [propCoefficients])
  have h3 : halfMetre.w (dim "m/s") = 2 := by
    show halfMetre.w (D.m - D.s) = 2
    rw [Base.w_sub]
    norm_num [Base.w, halfMetre, D.m, D.s]
  have h4 : halfMetre.w (dim "") = 1 := halfMetre.w_zero
  have h5 := h1.symm.trans h2
  rw [h3, h4] at h5
  simp only [propCoefficients, Propulsion.tipSpeed, reduceIte, String.reduceEq, Option.map_some, Option.some.injEq] at h5
  have := Real.pi_pos
  linarith

/-- `ThrustCalc` -/
theorem C110_thrustCalc : thrustCalc.Consistent := by
  refine Comp.consistentOn_intro fun b hb env e' hv hd => ?_
  outs
  all_goals simp only [thrustCalc, Propulsion.thrust, Propulsion.thrustCoef, Propulsion.interp1, Propulsion.interp2,
    reduceIte]
  all_goals dims

/-- `SimpleBattery` -/
theorem C110_battery : battery.Consistent := by
  refine Comp.consistentOn_intro fun b hb env e' hv hd => ?_
  outs
  all_goals simp only [battery, Propulsion.battery, reduceIte, String.reduceEq]
  all_goals dims

/-- `InitialLH2MassModification` -/
theorem C110_hydrogenMass : hydrogenMass.Consistent := by
  refine Comp.consistentOn_intro fun b hb env e' hv hd => ?_
  outs
  all_goals simp only [hydrogenMass, Hydrogen.liquidMass, Hydrogen.fillLevel, Hydrogen.tankVolume, reduceIte, String.reduceEq]
  all_goals dims

/-- `PressureVesselWallThickness` -/
theorem C110_pressureVessel : pressureVessel.Consistent := by
  refine Comp.consistentOn_intro fun b hb env e' hv hd => ?_
  outs
  all_goals simp only [pressureVessel, Hydrogen.vesselThickness, Hydrogen.vesselWeight, Hydrogen.surfaceArea, reduceIte,
    String.reduceEq]
  all_goals dims

/-- `VacuumWallThickness` -/
theorem C110_vacuumWall : vacuumWall.Consistent := by
  refine Comp.consistentOn_intro fun b hb env e' hv hd => ?_
  outs
  all_goals simp only [vacuumWall, Hydrogen.vacThickness, Hydrogen.vacWeight, Hydrogen.tCyl, Hydrogen.tSph,
    Hydrogen.surfaceArea, reduceIte, String.reduceEq]
  all_goals dims

/-- `MLIWeight` -/
theorem C110_insulation : insulation.Consistent := by
  refine Comp.consistentOn_intro fun b hb env e' hv hd => ?_
  outs
  all_goals simp only [insulation, Hydrogen.mliWeight, Hydrogen.surfaceArea, reduceIte]
  all_goals dims

/-- `PolarDrag` -/
theorem C110_polarDrag : polarDrag.Consistent := by
  refine Comp.consistentOn_intro fun b hb env e' hv hd => ?_
  outs
  all_goals simp only [polarDrag, Aero.drag, reduceIte]
  all_goals dims

/-- `Lift` -/
theorem C110_lift : lift.Consistent := by
  refine Comp.consistentOn_intro fun b hb env e' hv hd => ?_
  outs
  all_goals simp only [lift, Aero.lift, reduceIte]
  all_goals dims

/-- `StallSpeed` -/
theorem C110_stallSpeed : stallSpeed.Consistent := by
  refine Comp.consistentOn_intro fun b hb env e' hv hd => ?_
  have hg : Sc b (D.m - D.s - D.s) grav grav := Sc.const (hb _ (by simp [stallSpeed]))
  have hr : Sc b (D.kg - D.m - D.m - D.m) (1.225 : ℝ) 1.225 := Sc.const (hb _ (by simp [stallSpeed]))
  outs
  all_goals simp only [stallSpeed, Aero.vStall, reduceIte]
  all_goals dims

/-- `DensityComp` -/
theorem C110_density : density.Consistent := by
  refine Comp.consistentOn_intro fun b hb env e' hv hd => ?_
  have hR : Sc b (D.J - D.kg - D.K) Atmos.R Atmos.R := Sc.const (hb _ (by simp [density]))
  outs
  all_goals simp only [density, Atmos.density, reduceIte]
  all_goals dims

/-- `DynamicPressureComp` -/
theorem C110_dynamicPressure : dynamicPressure.Consistent := by
  refine Comp.consistentOn_intro fun b hb env e' hv hd => ?_
  outs
  all_goals simp only [dynamicPressure, Atmos.dynPressure, reduceIte]
  all_goals dims

/-- `MachNumberComp` -/
theorem C110_machNumber : machNumber.Consistent := by
  refine Comp.consistentOn_intro fun b hb env e' hv hd => ?_
  outs
  all_goals simp only [machNumber, Atmos.mach, reduceIte]
  all_goals dims

/-- `SpeedOfSoundComp` -/
theorem C110_speedOfSound : speedOfSound.Consistent := by
  refine Comp.consistentOn_intro fun b hb env e' hv hd => ?_
  have hR : Sc b (D.J - D.kg - D.K) Atmos.R Atmos.R := Sc.const (hb _ (by simp [speedOfSound]))
  outs
  all_goals simp only [speedOfSound, Atmos.soundSpeed, reduceIte]
  all_goals dims

/-- `TrueAirspeedComp` -/
theorem C110_trueAirspeed : trueAirspeed.Consistent := by
  refine Comp.consistentOn_intro fun b hb env e' hv hd => ?_
  have hr : Sc b (D.kg - D.m - D.m - D.m) (1.225 : ℝ) 1.225 := Sc.const (hb _ (by simp [trueAirspeed]))
  outs
  all_goals simp only [trueAirspeed, Atmos.trueAirspeed, reduceIte]
  all_goals dims

/-- `EquivalentAirspeedComp` -/
theorem C110_equivalentAirspeed : equivalentAirspeed.Consistent := by
  refine Comp.consistentOn_intro fun b hb env e' hv hd => ?_
  have hr : Sc b (D.kg - D.m - D.m - D.m) (1.225 : ℝ) 1.225 := Sc.const (hb _ (by simp [equivalentAirspeed]))
  outs
  all_goals simp only [equivalentAirspeed, Atmos.equivAirspeed, reduceIte]
  all_goals dims

/-- `CylinderSurfaceArea` -/
theorem C110_cylinderArea : cylinderArea.Consistent := by
  refine Comp.consistentOn_intro fun b hb env e' hv hd => ?_
  outs
  all_goals simp only [cylinderArea, Geometry.cylinder, reduceIte]
  all_goals dims

/-- `WingMACTrapezoidal` -/
theorem C110_wingMAC : wingMAC.Consistent := by
  refine Comp.consistentOn_intro fun b hb env e' hv hd => ?_
  outs
  all_goals simp only [wingMAC, Geometry.macTrap, Geometry.cRoot, Geometry.cTip, reduceIte]
  all_goals dims

/-- `WingSpan` -/
theorem C110_wingSpan : wingSpan.Consistent := by
  refine Comp.consistentOn_intro fun b hb env e' hv hd => ?_
  outs
  all_goals simp only [wingSpan, Geometry.span, reduceIte]
  all_goals dims

/-- `WingAspectRatio` -/
theorem C110_wingAspect : wingAspect.Consistent := by
  refine Comp.consistentOn_intro fun b hb env e' hv hd => ?_
  outs
  all_goals simp only [wingAspect, Geometry.aspect, reduceIte]
  all_goals dims

/-- `HStabVolumeCoefficientSizing` -/
theorem C110_hstab : hstab.Consistent := by
  refine Comp.consistentOn_intro fun b hb env e' hv hd => ?_
  outs
  all_goals simp only [hstab, Geometry.hstab, reduceIte]
  all_goals dims

/-- `VStabVolumeCoefficientSizing` -/
theorem C110_vstab : vstab.Consistent := by
  refine Comp.consistentOn_intro fun b hb env e' hv hd => ?_
  outs
  all_goals simp only [vstab, Geometry.vstab, reduceIte]
  all_goals dims

/-- `ClimbAngleComp` -/
theorem C110_climbAngle : climbAngle.Consistent := by
  refine Comp.consistentOn_intro fun b hb env e' hv hd => ?_
  have hg : Sc b (D.m - D.s - D.s) grav grav := Sc.const (hb _ (by simp [climbAngle]))
  have hx : (e' "thrust" - e' "drag") / e' "weight" / grav = (env "thrust" - env "drag") / env "weight" / grav := by
    apply Sc.eq_of (b := b)
    all_goals dims
  have hy : Phases.climbAngle ⟨e' "drag", e' "weight", e' "thrust"⟩ = Phases.climbAngle ⟨env "drag", env "weight", env "thrust"⟩ := by
    unfold Phases.climbAngle Phases.ClimbIn.inner
    simp only [hx]
  outs
  simp only [climbAngle, reduceIte, hy]
  rw [show dim "rad" = 0 from rfl, b.w_zero]
  simp

/-- `Groundspeeds` -/
theorem C110_groundspeeds : groundspeeds.ConsistentOn
    fun e => e "fltcond|vs" ^ 2 ≤ e "fltcond|Utrue" ^ 2 := by
  refine Comp.consistentOn_intro fun b hb env e' hv hd => ?_
  have hi : e' "fltcond|vs" ^ 2 ≤ e' "fltcond|Utrue" ^ 2 ↔ env "fltcond|vs" ^ 2 ≤ env "fltcond|Utrue" ^ 2 := by
    apply Sc.le_iff (b := b)
    all_goals dims
  have hg := ground_speed (hi.2 hd)
  have hg' := ground_speed hd
  outs
  all_goals simp only [groundspeeds, Phases.cosgamma, hg.1, hg'.1, hg.2, hg'.2, reduceIte, String.reduceEq]
  all_goals dims

/-- `HorizontalAcceleration` -/
theorem C110_horizontalAcceleration : horizontalAcceleration.Consistent := by
  refine Comp.consistentOn_intro fun b hb env e' hv hd => ?_
  have hg : Sc b (D.m - D.s - D.s) grav grav := Sc.const (hb _ (by simp [horizontalAcceleration]))
  outs
  all_goals simp only [horizontalAcceleration, Phases.accelHoriz, Phases.AccelIn.floor, reduceIte]
  all_goals dims

/-- `VerticalAcceleration` -/
theorem C110_verticalAcceleration : verticalAcceleration.Consistent := by
  refine Comp.consistentOn_intro fun b hb env e' hv hd => ?_
  have hg : Sc b (D.m - D.s - D.s) grav grav := Sc.const (hb _ (by simp [verticalAcceleration]))
  outs
  all_goals simp only [verticalAcceleration, Phases.accelVert, Phases.accelVertRaw, reduceIte]
  all_goals dims

/-- `SteadyFlightCL` -/
theorem C110_steadyCL : steadyCL.Consistent := by
  refine Comp.consistentOn_intro fun b hb env e' hv hd => ?_
  have hg : Sc b (D.m - D.s - D.s) grav grav := Sc.const (hb _ (by simp [steadyCL]))
  outs
  all_goals simp only [steadyCL, Phases.steadyCL, reduceIte]
  all_goals dims

/-- `TakeoffTransition` -/
theorem C110_takeoffTransition : takeoffTransition.Consistent := by
  refine Comp.consistentOn_intro fun b hb env e' hv hd => ?_
  have hg : Sc b (D.m - D.s - D.s) grav grav := Sc.const (hb _ (by simp [takeoffTransition]))
  outs
  all_goals simp only [takeoffTransition, Phases.sTrans, Phases.hTrans, Phases.tTrans, Phases.TransIn.radius,
    Phases.TransIn.arcHeight, reduceIte, String.reduceEq]
  all_goals dims

/-- `TakeoffClimb` -/
theorem C110_takeoffClimb : takeoffClimb.Consistent := by
  refine Comp.consistentOn_intro fun b hb env e' hv hd => ?_
  outs
  all_goals simp only [takeoffClimb, Phases.sClimb, Phases.tClimb, reduceIte, String.reduceEq]
  all_goals dims

/-! Instances -/

/-- a change of units which keeps `g` exists -/
theorem sameAccel_g : sameAccel.w (D.m - D.s - D.s) = 1 := by
  rw [Base.w_sub, Base.w_sub]
  norm_num [Base.w, sameAccel, D.m, D.s]

/-- 10 K of heating by 40 kW at 1 kg/s, in half metres: the specific heat and the power both become four times larger -/
example : perfectHeatTransfer.run (perfectHeatTransfer.rescale halfMetre
      fun v => if v = "T_in" then 300 else if v = "q" then 40000 else if v = "specific_heat" then 4000 else 1) "T_out"
    = some 310 := by
  have h := C110_perfectHeatTransfer halfMetre (by simp [perfectHeatTransfer])
    (fun v => if v = "T_in" then 300 else if v = "q" then 40000 else if v = "specific_heat" then 4000 else 1) trivial
    ("T_out", "K") (by simp [perfectHeatTransfer])
  rw [h]
  have hK : halfMetre.w (dim "K") = 1 := by simp [halfMetre, Base.w, dim, D.K]
  rw [hK]
  simp only [perfectHeatTransfer, Thermal.phtOut, reduceIte, String.reduceEq, Option.map_some, mul_one]
  norm_num

/-- the specific heat of that example in the new units -/
example : perfectHeatTransfer.rescale halfMetre (fun _ => 4000) "specific_heat" = 16000 := by
  have : halfMetre.w (dim "J/kg/K") = 4 := by
    show halfMetre.w (D.kg + D.m - D.s - D.s + D.m - D.kg - D.K) = 4
    simp only [Base.w_add, Base.w_sub]
    norm_num [Base.w, halfMetre, D.m, D.s, D.kg, D.K]
  show (4000 : ℝ) * halfMetre.w (dim "J/kg/K") = 16000
  rw [this]; norm_num

/-- the lift coefficient does not change with the units -/
example (env : String → ℝ) : steadyCL.run (steadyCL.rescale sameAccel env) "fltcond|CL" = steadyCL.run env "fltcond|CL" := by
  have h := C110_steadyCL sameAccel (by simpa [steadyCL] using sameAccel_g) env trivial ("fltcond|CL", "") (by simp [steadyCL])
  rw [h, show dim "" = 0 from rfl, Base.w_zero]
  simp

/-- a formula of a wrong dimension is not consistent: temperature rise without the mass flow -/
example : ¬ Comp.Consistent {perfectHeatTransfer with
    outs := [("T_out", "K")], run := fun e _ => some (e "T_in" + e "q" / e "specific_heat")} := by
  intro h
  let b : Base := ⟨1, 2, 1, 1, 1, 1, 1, 1, by norm_num, by norm_num, by norm_num, by norm_num, by norm_num, by norm_num,
    by norm_num, by norm_num⟩
  have h1 := h b (by simp [perfectHeatTransfer]) (fun _ => 1) trivial ("T_out", "K") (by simp)
  have hK : b.w (dim "K") = 1 := by simp [b, Base.w, dim, D.K]
  have hW : b.w (dim "W") = 2 := by
    show b.w (D.kg + D.m - D.s - D.s + D.m - D.s) = 2
    simp only [Base.w_add, Base.w_sub]
    norm_num [Base.w, b, D.m, D.s, D.kg]
  have hc : b.w (dim "J/kg/K") = 1 := by
    show b.w (D.kg + D.m - D.s - D.s + D.m - D.kg - D.K) = 1
    simp only [Base.w_add, Base.w_sub]
    norm_num [Base.w, b, D.m, D.s, D.kg, D.K]
  simp only [Comp.rescale, show ∀ v, Comp.unitOf {perfectHeatTransfer with
    outs := [("T_out", "K")], run := fun e _ => some (e "T_in" + e "q" / e "specific_heat")} v
      = perfectHeatTransfer.unitOf v from fun _ => rfl,
    show perfectHeatTransfer.unitOf "T_in" = "K" from rfl, show perfectHeatTransfer.unitOf "q" = "W" from rfl,
    show perfectHeatTransfer.unitOf "specific_heat" = "J/kg/K" from rfl, hK, hW, hc, Option.map_some,
    Option.some.injEq] at h1
  norm_num at h1

end Verif.Units
