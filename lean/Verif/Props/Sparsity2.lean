import Verif.Model.Sparsity2
import Verif.Proof.Sparse

/-! C111 for the components of `Model/Sparsity2.lean`. -/

namespace Verif.Units

/-- `FlapCLmax` -/
theorem C111_flapCLmax : dFlapCLmax.Complete := by
  refine Decl.complete_of (u := [])
    (by decide +kernel) (by decide +kernel) (by decide +kernel) ?_
  indep dFlapCLmax flapCLmax

/-- `SkinFrictionCoefficient_JetTransport` -/
theorem C111_skinFriction : dSkinFriction.Complete := by
  refine Decl.complete_of (u := [])
    (by decide +kernel) (by decide +kernel) (by decide +kernel) ?_
  indep dSkinFriction skinFriction

/-- `PressureComp` -/
theorem C111_pressureComp : dPressureComp.Complete := by
  refine Decl.complete_of (u := [])
    (by decide +kernel) (by decide +kernel) (by decide +kernel) ?_
  indep dPressureComp pressureComp

/-- `TemperatureComp` -/
theorem C111_temperatureComp : dTemperatureComp.Complete := by
  refine Decl.complete_of (u := [])
    (by decide +kernel) (by decide +kernel) (by decide +kernel) ?_
  indep dTemperatureComp temperatureComp

/-- `FlowSplit` -/
theorem C111_flowSplit : dFlowSplit.Complete := by
  refine Decl.complete_of (u := [])
    (by decide +kernel) (by decide +kernel) (by decide +kernel) ?_
  indep dFlowSplit flowSplit

/-- `ThermalComponentMassless` -/
theorem C111_masslessBalance : dMasslessBalance.Complete := by
  refine Decl.complete_of (u := [("T_object", "T_object")])
    (by decide +kernel) (by decide +kernel) (by decide +kernel) ?_
  indep dMasslessBalance masslessBalance

/-- `FlowMatcher` -/
theorem C111_flowMatcher : dFlowMatcher.Complete := by
  refine Decl.complete_of (u := [])
    (by decide +kernel) (by decide +kernel) (by decide +kernel) ?_
  indep dFlowMatcher flowMatcher

/-- `MachNumberDuct` -/
theorem C111_machDuct : dMachDuct.Complete := by
  refine Decl.complete_of (u := [])
    (by decide +kernel) (by decide +kernel) (by decide +kernel) ?_
  indep dMachDuct machDuct

/-- `DuctExitPressureRatioImplicit` -/
theorem C111_exitRatio : dExitRatio.Complete := by
  refine Decl.complete_of (u := [])
    (by decide +kernel) (by decide +kernel) (by decide +kernel) ?_
  indep dExitRatio exitRatio

/-- `CrossFlowNTUEffectiveness` -/
theorem C111_crossFlow : dCrossFlow.Complete := by
  refine Decl.complete_of (u := [])
    (by decide +kernel) (by decide +kernel) (by decide +kernel) ?_
  indep dCrossFlow crossFlow

/-- `OffsetStripFinData` -/
theorem C111_finData : dFinData.Complete := by
  refine Decl.complete_of (u := [("j_cold", "Re_dh_hot"), ("j_cold", "alpha_hot"), ("j_cold", "delta_hot"),
    ("j_cold", "gamma_hot"), ("f_cold", "Re_dh_hot"), ("f_cold", "alpha_hot"), ("f_cold", "delta_hot"),
    ("f_cold", "gamma_hot"), ("j_hot", "Re_dh_cold"), ("j_hot", "alpha_cold"), ("j_hot", "delta_cold"),
    ("j_hot", "gamma_cold"), ("f_hot", "Re_dh_cold"), ("f_hot", "alpha_cold"), ("f_hot", "delta_cold"), ("f_hot", "gamma_cold")])
    (by decide +kernel) (by decide +kernel) (by decide +kernel) ?_
  indep dFinData finData

/-- `EngineSystemsWeight_JetTransport` -/
theorem C111_engineSystems : dEngineSystems.Complete := by
  refine Decl.complete_of (u := [("W_thrust_rev", "W_engine"), ("W_thrust_rev", "ac|aero|Mach_max"),
    ("W_thrust_rev", "ac|weights|W_fuel_max"), ("W_eng_control", "W_engine"), ("W_eng_control", "ac|aero|Mach_max"),
    ("W_eng_control", "ac|weights|W_fuel_max"), ("W_fuelsystem", "ac|propulsion|engine|rating"), ("W_fuelsystem", "W_engine"),
    ("W_eng_start", "ac|propulsion|engine|rating"), ("W_eng_start", "ac|aero|Mach_max"),
    ("W_eng_start", "ac|weights|W_fuel_max")])
    (by decide +kernel) (by decide +kernel) (by decide +kernel) ?_
  indep dEngineSystems engineSystems

/-- `FurnishingWeight_JetTransport` -/
theorem C111_furnishing : dFurnishing.Complete := by
  refine Decl.complete_of (u := [])
    (by decide +kernel) (by decide +kernel) (by decide +kernel) ?_
  indep dFurnishing furnishing

/-- `EquipmentWeight_JetTransport` -/
theorem C111_equipment : dEquipment.Complete := by
  refine Decl.complete_of (u := [("W_flight_controls", "ac|num_passengers_max"), ("W_flight_controls", "ac|num_cabin_crew"),
    ("W_flight_controls", "ac|num_flight_deck_crew"), ("W_flight_controls", "ac|propulsion|num_engines"),
    ("W_flight_controls", "ac|geom|V_pressurized"), ("W_flight_controls", "W_fuelsystem"),
    ("W_avionics", "ac|num_passengers_max"), ("W_avionics", "ac|num_cabin_crew"), ("W_avionics", "ac|geom|V_pressurized"),
    ("W_avionics", "W_fuelsystem"), ("W_electrical", "ac|num_passengers_max"), ("W_electrical", "ac|num_cabin_crew"),
    ("W_electrical", "ac|geom|V_pressurized"), ("W_ac_pressurize_antiice", "ac|weights|MTOW"),
    ("W_ac_pressurize_antiice", "ac|propulsion|num_engines"), ("W_ac_pressurize_antiice", "W_fuelsystem"),
    ("W_oxygen", "ac|weights|MTOW"), ("W_oxygen", "ac|propulsion|num_engines"), ("W_oxygen", "ac|geom|V_pressurized"),
    ("W_oxygen", "W_fuelsystem"), ("W_APU", "ac|num_passengers_max"), ("W_APU", "ac|num_cabin_crew"),
    ("W_APU", "ac|num_flight_deck_crew"), ("W_APU", "ac|propulsion|num_engines"), ("W_APU", "ac|geom|V_pressurized"),
    ("W_APU", "W_fuelsystem")])
    (by decide +kernel) (by decide +kernel) (by decide +kernel) ?_
  indep dEquipment equipment

/-- `WeightCalc` -/
theorem C111_propellerWeight : dPropellerWeight.Complete := by
  refine Decl.complete_of (u := [])
    (by decide +kernel) (by decide +kernel) (by decide +kernel) ?_
  indep dPropellerWeight propellerWeight

/-- `COPExplicit` -/
theorem C111_copExplicit : dCopExplicit.Complete := by
  refine Decl.complete_of (u := [])
    (by decide +kernel) (by decide +kernel) (by decide +kernel) ?_
  indep dCopExplicit copExplicit

/-- `DuctExitMachNumber` -/
theorem C111_exitMachComp : dExitMachComp.Complete := by
  refine Decl.complete_of (u := [])
    (by decide +kernel) (by decide +kernel) (by decide +kernel) ?_
  indep dExitMachComp exitMachComp

/-- `ConstantPropEfficiency` -/
theorem C111_constantEfficiency : dConstantEfficiency.Complete := by
  refine Decl.complete_of (u := [])
    (by decide +kernel) (by decide +kernel) (by decide +kernel) ?_
  indep dConstantEfficiency constantEfficiency

/-- `TurbopropOperatingCost` (costs_commuter.py:54-112) with any number of components and batteries: every output is a function of
the inputs for which a partial is declared alone; `j` stands for other values of all inputs -/
theorem C111_operatingCost {n m : ℕ} (o : Geometry.CostOpts) (b : Bool) (i j : Geometry.CostIn n m) :
    Geometry.fuelCost o { j with fuel := i.fuel } = Geometry.fuelCost o i ∧
    Geometry.airframeNR o { j with oew := i.oew, w := i.w } = Geometry.airframeNR o i ∧
    Geometry.totalNR o { j with oew := i.oew, w := i.w, nr := i.nr } = Geometry.totalNR o i ∧
    Geometry.electricity o { j with battE := i.battE } = Geometry.electricity o i ∧
    Geometry.tripBattery o { j with battNR := i.battNR } = Geometry.tripBattery o i ∧
    Geometry.tripEnergy true o { j with fuel := i.fuel, battE := i.battE } = Geometry.tripEnergy true o i ∧
    Geometry.tripEnergy false o { j with fuel := i.fuel } = Geometry.tripEnergy false o i ∧
    Geometry.tripCost false o { j with fuel := i.fuel, oew := i.oew, w := i.w, nr := i.nr } = Geometry.tripCost false o i :=
  ⟨rfl, rfl, rfl, rfl, rfl, rfl, rfl, rfl⟩

/-- the hot friction factor does not depend on the cold Reynolds number, for which nothing is declared -/
example (X : String → ℕ → ℝ) (x : ℝ) : dFinData.compute (change X "Re_dh_cold" 1 x) "f_hot" 1 = dFinData.compute X "f_hot" 1 :=
  C111_finData.zero 2 ("f_hot", "") (by simp [dFinData, finData]) ("Re_dh_cold", "") (by simp [dFinData, finData]) 1
    (by simp [Decl.size, dFinData]) 1 (by simp [Decl.size, dFinData]) (by decide +kernel) X x

/-- without the declaration for the total pressure the table is not complete: the residual of the
nozzle ratio depends on the total pressure -/
example : ¬ Decl.Complete ⟨exitRatio, ["p_exit", "pt", "nozzle_pressure_ratio"],
    every ["nozzle_pressure_ratio"] ["nozzle_pressure_ratio", "p_exit"] .diag⟩ := by
  intro h
  have := h.zero 1 ("nozzle_pressure_ratio", "") (by simp [exitRatio]) ("pt", "Pa") (by simp [exitRatio]) 0 (by simp [Decl.size]) 0
    (by simp [Decl.size]) (by decide +kernel) (fun _ _ => 1) 2
  simp [Decl.compute, exitRatio, change, Ducts.prRes] at this
  norm_num at this

end Verif.Units
