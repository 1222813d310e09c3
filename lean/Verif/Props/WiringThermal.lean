import Verif.Props.WiringPropulsion

namespace Verif.Wiring

open Verif.Units Verif.VectorComps

/-! ### C114: liquid cooled components -/

theorem C114_liquidCooled_setup : liquidCooled.problems = [] ∧ liquidCooledSteady.problems = [] ∧
    liquidCooled.ins = [⟨"q_in", "W", true, true⟩, ⟨"mass", "kg", false, true⟩, ⟨"duration", "s", false, true⟩,
     ⟨"T_initial", "K", false, true⟩, ⟨"T_in", "K", true, true⟩, ⟨"channel_width", "m", false, true⟩,
     ⟨"channel_height", "m", false, true⟩, ⟨"channel_length", "m", false, true⟩, ⟨"n_parallel", "", false, true⟩,
     ⟨"mdot_coolant", "kg/s", true, true⟩] ∧
    liquidCooledSteady.ins = [⟨"q_in", "W", true, true⟩, ⟨"T_in", "K", true, true⟩, ⟨"channel_width", "m", false, true⟩,
     ⟨"channel_height", "m", false, true⟩, ⟨"channel_length", "m", false, true⟩, ⟨"n_parallel", "", false, true⟩,
     ⟨"mdot_coolant", "kg/s", true, true⟩] := by
  refine ⟨?_, ?_, ?_, ?_⟩ <;> decide +kernel

/-- the channels in the state `e` -/
noncomputable def plateOf (o : Opts) (e : String → ℝ) : Thermal.Plate :=
  ⟨0.405, 7.54, o "specific_heat_coolant", e "channel_width", e "channel_height", e "channel_length", e "n_parallel"⟩

theorem plate_rel (o : Opts) (e : String → ℝ) : plate.sys.rel o e ↔
    e "q" = Thermal.plateQ (plateOf o e) (e "T_in") (e "T_surface") (e "mdot_coolant") ∧
    e "T_out" = Thermal.plateTout (plateOf o e) (e "T_in") (e "T_surface") (e "mdot_coolant") := by
  simp [plate, explicit, dColdPlate, coldPlate, withOpts, OptVal.get, lit, ref, List.lookup, plateOf, eq_comm]

/-- `LiquidCooledComp` with thermal mass: the coolant takes the heat of the cold plate at the temperature of the object, and the
integrator is fed with the heating rate of the object by what remains -/
theorem C114_liquidCooled (o : Opts) (e : String → ℝ) : liquidCooled.rel o e ↔
    e "hex.q" = Thermal.plateQ (plateOf o e) (e "T_in") (e "T") (e "mdot_coolant") ∧
    e "T_out" = Thermal.plateTout (plateOf o e) (e "T_in") (e "T") (e "mdot_coolant") ∧
    e "base.dTdt" = Thermal.massDTdt (o "specific_heat_object") (e "q_in") (e "hex.q") (e "mass") := by
  have hm : ∀ V : String → ℝ, (explicit dThermalMass [ref "specific_heat" "specific_heat_object"]).rel o V ↔
      V "dTdt" = Thermal.massDTdt (o "specific_heat_object") (V "q_in") (V "q_out") (V "mass") := by
    intro V
    simp [explicit, dThermalMass, thermalMass, withOpts, OptVal.get, ref, List.lookup, eq_comm]
  parts liquidCooled [liquidCooled, hm, plate_rel, plateOf, integrator]
  simp only [show plate.name = "hex" from rfl]
  views liquidCooled liquidCooled_links e
  tauto

/-- the integrator's temperature is the one the cold plate sees, its rate is that of the thermal mass -/
theorem C114_liquidCooled_integrator (e : String → ℝ) :
    liquidCooled.view e "ode_integ" "dTdt" = e "base.dTdt" ∧ liquidCooled.view e "hex" "T_surface" = e "T" ∧
    liquidCooled.view e "ode_integ" "T" = e "T" ∧ liquidCooled.view e "ode_integ" "T_initial" = e "T_initial" ∧
    liquidCooled.view e "ode_integ" "duration" = e "duration" := by
  views liquidCooled liquidCooled_links e
  trivial

/-- quasi-steady: the temperature is such that the coolant takes all the heat -/
theorem C114_liquidCooledSteady (o : Opts) (e : String → ℝ) : liquidCooledSteady.rel o e ↔
    e "hex.q" = Thermal.plateQ (plateOf o e) (e "T_in") (e "T") (e "mdot_coolant") ∧
    e "T_out" = Thermal.plateTout (plateOf o e) (e "T_in") (e "T") (e "mdot_coolant") ∧ e "hex.q" = e "q_in" := by
  have hm : ∀ V : String → ℝ, (implicit dMasslessBalance).rel o V ↔ V "q_in" - V "q_out" = 0 := by
    intro V
    simp [implicit, dMasslessBalance, masslessBalance, withOpts, Thermal.masslessResidual]
  parts liquidCooledSteady [liquidCooledSteady, hm, plate_rel, plateOf]
  simp only [show plate.name = "hex" from rfl]
  views liquidCooledSteady liquidCooledSteady_links e
  simp only [sub_eq_zero, eq_comm (a := e "q_in")]
  tauto

/-- a converged state without coolant flow and heat -/
example (o : Opts) : ∃ e, liquidCooledSteady.rel o e ∧ e "T" = 300 ∧ e "T_in" = 290 ∧ e "T_out" = 290 := by
  refine ⟨table [("T", 300), ("T_in", 290), ("T_out", 290)], ?_, ?_, ?_, ?_⟩
  · rw [C114_liquidCooledSteady]
    simp [table, List.lookup, Thermal.plateQ, Thermal.plateTout]
  all_goals simp [table, List.lookup]

theorem C114_reservoir_setup : coolantReservoir.problems = [] ∧
    coolantReservoir.ins = [⟨"T_in", "K", true, true⟩, ⟨"mdot_coolant", "kg/s", true, true⟩, ⟨"mass", "kg", false, true⟩,
     ⟨"duration", "s", false, true⟩, ⟨"T_initial", "K", false, true⟩] := by
  constructor <;> decide +kernel

/-- `CoolantReservoir`: the integrated rate is that of the reservoir at the integrated outlet temperature -/
theorem C114_reservoir (o : Opts) (e : String → ℝ) : coolantReservoir.rel o e ↔
    coolantReservoir.view e "ode_integ" "dTdt" =
      Thermal.reservoirRate (e "T_in") (coolantReservoir.view e "ode_integ" "T_out") (e "mdot_coolant") (e "mass") := by
  have hm : ∀ V : String → ℝ, (explicit dReservoir).rel o V ↔
      V "dTdt" = Thermal.reservoirRate (V "T_in") (V "T_out") (V "mdot_coolant") (V "mass") := by
    intro V
    simp [explicit, dReservoir, reservoir, withOpts, eq_comm]
  parts coolantReservoir [coolantReservoir, hm, integrator]
  views coolantReservoir coolantReservoir_links e

/-! ### C114: chiller -/

theorem C114_chiller_setup : (chiller true).problems = [] ∧ (chiller false).problems = [] ∧
    (chiller true).ins = (chiller false).ins ++ [⟨"bypass", "", true, true⟩] ∧
    (chiller false).ins = [⟨"power_rating", "W", false, true⟩, ⟨"specific_power", "W/kg", false, true⟩,
     ⟨"T_in_hot", "K", true, true⟩, ⟨"mdot_coolant", "kg/s", true, true⟩, ⟨"T_in_cold", "K", true, true⟩,
     ⟨"eff_factor", "", false, true⟩] := by
  refine ⟨?_, ?_, ?_, ?_⟩ <;> decide +kernel

/-- the chiller in the state `e` -/
def chillerOf (o : Opts) (e : String → ℝ) : Thermal.Chiller :=
  ⟨o "specific_heat", e "T_in_hot", e "T_in_cold", e "mdot_coolant", e "power_rating", e "eff_factor", e "bypass", e "COP"⟩

/-- outputs of the chiller in the state `e` -/
structure IsChiller (o : Opts) (e : String → ℝ) : Prop where
  converged : (chillerOf o e).converged
  cold : e "T_out_cold" = Thermal.selCold (chillerOf o e).sel
  hot : e "T_out_hot" = Thermal.selHot (chillerOf o e).sel
  load : e "elec_load" = Thermal.selLoad (chillerOf o e).sel
  weight : e "component_weight" = Thermal.pumpWeight (e "power_rating") (e "specific_power")

theorem pumpWeight_rel (o : Opts) (V : String → ℝ) : (explicit dHeatPumpWeight).rel o V ↔
      V "component_weight" = Thermal.pumpWeight (V "power_rating") (V "specific_power") := by
  simp [explicit, dHeatPumpWeight, heatPumpWeight, withOpts, eq_comm]

theorem transfer_rel (o : Opts) (V : String → ℝ) : (explicit dPerfectHeatTransfer).rel o V ↔
      V "T_out" = Thermal.phtOut (o "specific_heat") (V "T_in") (V "q") (V "mdot_coolant") ∧
      V "T_average" = Thermal.phtAvg (o "specific_heat") (V "T_in") (V "q") (V "mdot_coolant") := by
  simp [explicit, dPerfectHeatTransfer, perfectHeatTransfer, withOpts, OptVal.get, List.lookup, eq_comm]

theorem cop_rel (o : Opts) (V : String → ℝ) : (explicit dCopExplicit).rel o V ↔
      Thermal.cop (V "T_c") (V "T_h") (V "eff_factor") = some (V "COP") := by
  simp [explicit, dCopExplicit, copExplicit, withOpts]

theorem pump_rel (o : Opts) (V : String → ℝ) : (explicit dHeatPump).rel o V ↔
      V "q_in_1" = Thermal.pumpQ1 (V "COP") (V "power_rating") ∧ V "q_in_2" = Thermal.pumpQ2 (V "COP") (V "power_rating") := by
  simp [explicit, dHeatPump, heatPump, withOpts, eq_comm]

theorem selector_rel (o : Opts) (V : String → ℝ) : (explicit dLinearSelector).rel o V ↔
      let i : Thermal.SelIn := ⟨V "T_in_cold", V "T_in_hot", V "T_out_refrig_cold", V "T_out_refrig_hot", V "power_rating",
        V "bypass"⟩
      V "elec_load" = Thermal.selLoad i ∧ V "T_out_cold" = Thermal.selCold i ∧ V "T_out_hot" = Thermal.selHot i := by
  simp [explicit, dLinearSelector, linearSelector, withOpts, eq_comm]

/-- `HeatPumpWithIntegratedCoolantLoop`: converged states are those of the chiller model, whether or not the bypass is
interpolated -/
theorem C114_chiller (o : Opts) (e : String → ℝ) (b : Bool) (h : (chiller b).rel o e) : IsChiller o e := by
  have key : e "component_weight" = Thermal.pumpWeight (e "power_rating") (e "specific_power") ∧
      e "hot_side.T_out" = Thermal.phtOut (o "specific_heat") (e "T_in_hot") (e "heat_pump.q_in_2") (e "mdot_coolant") ∧
      e "cold_side.T_out" = Thermal.phtOut (o "specific_heat") (e "T_in_cold") (e "heat_pump.q_in_1") (e "mdot_coolant") ∧
      Thermal.cop (e "cold_side.T_out") (e "hot_side.T_out") (e "eff_factor") = some (e "COP") ∧
      e "heat_pump.q_in_1" = Thermal.pumpQ1 (e "COP") (e "power_rating") ∧
      e "heat_pump.q_in_2" = Thermal.pumpQ2 (e "COP") (e "power_rating") ∧
      let i : Thermal.SelIn := ⟨e "T_in_cold", e "T_in_hot", e "cold_side.T_out", e "hot_side.T_out", e "power_rating", e "bypass"⟩
      e "elec_load" = Thermal.selLoad i ∧ e "T_out_cold" = Thermal.selCold i ∧ e "T_out_hot" = Thermal.selHot i := by
    revert h
    cases b
    · parts (chiller false) [chiller, pumpWeight_rel, transfer_rel, cop_rel, pump_rel, selector_rel, linearInterp]
      views (chiller false) chiller_false_links e
      tauto
    · parts (chiller true) [chiller, pumpWeight_rel, transfer_rel, cop_rel, pump_rel, selector_rel]
      views (chiller true) chiller_true_links e
      tauto
  obtain ⟨h1, h2, h3, h4, h5, h6, h7, h8, h9⟩ := key
  rw [h5] at h3
  rw [h6] at h2
  have hc' : (chillerOf o e).coldOut = e "cold_side.T_out" := h3.symm
  have hh' : (chillerOf o e).hotOut = e "hot_side.T_out" := h2.symm
  have hsel : (chillerOf o e).sel =
      ⟨e "T_in_cold", e "T_in_hot", e "cold_side.T_out", e "hot_side.T_out", e "power_rating", e "bypass"⟩ := by
    unfold Thermal.Chiller.sel; rw [hc', hh']; rfl
  refine ⟨?_, ?_, ?_, ?_, h1⟩
  · unfold Thermal.Chiller.converged; rw [hc', hh']; exact h4
  · rw [hsel]; exact h8
  · rw [hsel]; exact h9
  · rw [hsel]; exact h7

/-- an idle chiller whose loops run at 300 K and 400 K -/
example : ∃ (o : Opts) (e : String → ℝ), (chiller true).rel o e ∧ e "T_in_cold" = 300 ∧ e "T_out_hot" = 400 := by
  refine ⟨⟨fun _ => 1, fun _ _ => 1⟩, table [("T_in_hot", 400), ("T_in_cold", 300), ("mdot_coolant", 1), ("eff_factor", 1),
    ("COP", Thermal.copSoft (Thermal.copA 3 100 1)),
    ("hot_side.T_out", 400), ("hot_side.T_average", 400), ("cold_side.T_out", 300), ("cold_side.T_average", 300), ("T_out_hot", 400),
    ("T_out_cold", 300)], ?_, ?_, ?_⟩
  · generalize he : table _ = e
    parts (chiller true) [chiller, pumpWeight_rel, transfer_rel, cop_rel, pump_rel, selector_rel]
    views (chiller true) chiller_true_links e
    simp only [← he, table, List.lookup, String.reduceBEq, Option.getD_some, Option.getD_none]
    norm_num [Thermal.pumpWeight, Thermal.phtOut, Thermal.phtAvg, Thermal.cop, Thermal.npdiv, Thermal.pumpQ1, Thermal.pumpQ2, Thermal.selLoad,
      Thermal.selCold, Thermal.selHot]
  all_goals simp [table, List.lookup]

/-! ### C114: cooled motors and batteries -/

theorem C114_cooledMotor_setup : (cooledMotor true).problems = [] ∧ (cooledMotor false).problems = [] ∧
    (cooledMotor true).ins = [⟨"q_in", "W", true, true⟩, ⟨"T_in", "K", true, true⟩, ⟨"mdot_coolant", "kg/s", true, true⟩,
     ⟨"power_rating", "W", false, true⟩, ⟨"motor_weight", "kg", false, true⟩, ⟨"thermal_bal.rhs:T", "K/s", true, false⟩] ∧
    (cooledMotor false).ins = [⟨"q_in", "W", true, true⟩, ⟨"T_in", "K", true, true⟩, ⟨"mdot_coolant", "kg/s", true, true⟩,
     ⟨"power_rating", "W", false, true⟩, ⟨"motor_weight", "kg", false, true⟩, ⟨"duration", "s", false, true⟩,
     ⟨"T_initial", "K", false, true⟩] := by
  refine ⟨?_, ?_, ?_, ?_⟩ <;> decide +kernel

def jacketOpts (o : Opts) : Thermal.JacketOpts :=
  ⟨o "coolant_specific_heat", o "case_cooling_coefficient", o "case_area_coefficient", o "motor_specific_heat"⟩

def jacketOf (e : String → ℝ) : Thermal.JacketIn :=
  ⟨e "q_in", e "T_in", e "T", e "mdot_coolant", e "power_rating", e "motor_weight"⟩

/-- the rate is balanced with 0 -/
theorem balance_zero (x : ℝ) : Propulsion.balanceResidual x 0 = 0 ↔ x = 0 := by
  norm_num [Propulsion.balanceResidual]

/-- `LiquidCooledMotor`: the rate of the jacket at the motor's temperature is integrated, or is zero in the quasi-steady case (the
right hand side of the balance left at 0) -/
theorem C114_cooledMotor (o : Opts) (e : String → ℝ) :
    ((cooledMotor false).rel o e ↔ e "hex.q" = Thermal.jacketQ (jacketOpts o) (jacketOf e) ∧
      e "T_out" = Thermal.jacketTout (jacketOpts o) (jacketOf e) ∧
      (cooledMotor false).view e "ode_integ" "dTdt" = Thermal.jacketDTdt (jacketOpts o) (jacketOf e)) ∧
    (e "thermal_bal.rhs:T" = 0 → ((cooledMotor true).rel o e ↔ e "hex.q" = Thermal.jacketQ (jacketOpts o) (jacketOf e) ∧
      e "T_out" = Thermal.jacketTout (jacketOpts o) (jacketOf e) ∧ e "dTdt" = Thermal.jacketDTdt (jacketOpts o) (jacketOf e) ∧
      Thermal.jacketDTdt (jacketOpts o) (jacketOf e) = 0)) := by
  have hj : ∀ V : String → ℝ, (explicit dCoolingJacket).rel o V ↔ V "q" = Thermal.jacketQ (jacketOpts o) (jacketOf V) ∧
      V "T_out" = Thermal.jacketTout (jacketOpts o) (jacketOf V) ∧ V "dTdt" = Thermal.jacketDTdt (jacketOpts o) (jacketOf V) := by
    intro V
    simp [explicit, dCoolingJacket, coolingJacket, withOpts, OptVal.get, List.lookup, jacketOpts, jacketOf, eq_comm]
  constructor
  · parts (cooledMotor false) [cooledMotor, hj, jacketOf, integrator]
    views (cooledMotor false) cooledMotor_false_links e
  · intro h0
    parts (cooledMotor true) [cooledMotor, hj, jacketOf]
    views (cooledMotor true) cooledMotor_true_links e
    rw [h0, balance_zero]
    constructor
    · rintro ⟨⟨h1, h2, h3⟩, h4⟩
      exact ⟨h1, h2, h3, by rw [← h3, h4]⟩
    · rintro ⟨h1, h2, h3, h4⟩
      exact ⟨⟨h1, h2, h3⟩, by rw [h3, h4]⟩

/-- in equilibrium with the coolant at 300 K -/
example (o : Opts) : ∃ e, (cooledMotor true).rel o e ∧ e "T" = 300 ∧ e "T_out" = 300 ∧ e "mdot_coolant" = 1 := by
  refine ⟨table [("T", 300), ("T_in", 300), ("T_out", 300), ("mdot_coolant", 1), ("power_rating", 1), ("motor_weight", 1)],
    ((C114_cooledMotor o _).2 ?_).2 ?_, ?_, ?_, ?_⟩
  · simp [table, List.lookup]
  · simp [table, List.lookup, jacketOf, Thermal.jacketQ, Thermal.jacketTout, Thermal.jacketDTdt]
  all_goals simp [table, List.lookup]

theorem C114_cooledBattery_setup : (cooledBattery true).problems = [] ∧ (cooledBattery false).problems = [] ∧
    (cooledBattery true).ins = [⟨"q_in", "W", true, true⟩, ⟨"T_in", "K", true, true⟩, ⟨"mdot_coolant", "kg/s", true, true⟩,
     ⟨"battery_weight", "kg", false, true⟩, ⟨"n_cpb", "", false, true⟩, ⟨"t_channel", "m", false, true⟩,
     ⟨"thermal_bal.rhs:T", "K/s", true, false⟩] ∧
    (cooledBattery false).ins = [⟨"q_in", "W", true, true⟩, ⟨"T_in", "K", true, true⟩, ⟨"mdot_coolant", "kg/s", true, true⟩,
     ⟨"battery_weight", "kg", false, true⟩, ⟨"n_cpb", "", false, true⟩, ⟨"t_channel", "m", false, true⟩,
     ⟨"duration", "s", false, true⟩, ⟨"T_initial", "K", false, true⟩] := by
  refine ⟨?_, ?_, ?_, ?_⟩ <;> decide +kernel

def bandOpts (o : Opts) : Thermal.BandOpts :=
  ⟨o "coolant_specific_heat", o "fluid_k", o "nusselt", o "cell_kr", o "cell_diameter", o "cell_height", o "cell_mass",
    o "cell_specific_heat", o "battery_weight_fraction"⟩

def bandOf (e : String → ℝ) : Thermal.BandIn :=
  ⟨e "q_in", e "T_in", e "T", e "mdot_coolant", e "battery_weight", e "n_cpb", e "t_channel"⟩

/-- `LiquidCooledBattery`: likewise with the bandoliers at the battery's temperature -/
theorem C114_cooledBattery (o : Opts) (e : String → ℝ) :
    ((cooledBattery false).rel o e ↔ e "hex.q" = Thermal.bandQ (bandOpts o) (bandOf e) ∧
      e "T_out" = Thermal.bandTout (bandOpts o) (bandOf e) ∧ e "T_surface" = Thermal.bandTs (bandOpts o) (bandOf e) ∧
      e "T_core" = Thermal.bandTcore (bandOpts o) (bandOf e) ∧
      (cooledBattery false).view e "ode_integ" "dTdt" = Thermal.bandDTdt (bandOpts o) (bandOf e)) ∧
    (e "thermal_bal.rhs:T" = 0 → ((cooledBattery true).rel o e ↔ e "hex.q" = Thermal.bandQ (bandOpts o) (bandOf e) ∧
      e "T_out" = Thermal.bandTout (bandOpts o) (bandOf e) ∧ e "T_surface" = Thermal.bandTs (bandOpts o) (bandOf e) ∧
      e "T_core" = Thermal.bandTcore (bandOpts o) (bandOf e) ∧ e "dTdt" = Thermal.bandDTdt (bandOpts o) (bandOf e) ∧
      Thermal.bandDTdt (bandOpts o) (bandOf e) = 0)) := by
  have hj : ∀ V : String → ℝ, (explicit dBandolier).rel o V ↔
      let i : Thermal.BandIn := ⟨V "q_in", V "T_in", V "T_battery", V "mdot_coolant", V "battery_weight", V "n_cpb", V "t_channel"⟩
      V "dTdt" = Thermal.bandDTdt (bandOpts o) i ∧ V "T_surface" = Thermal.bandTs (bandOpts o) i ∧
      V "T_core" = Thermal.bandTcore (bandOpts o) i ∧ V "q" = Thermal.bandQ (bandOpts o) i ∧
      V "T_out" = Thermal.bandTout (bandOpts o) i := by
    intro V
    simp [explicit, dBandolier, bandolier, withOpts, OptVal.get, List.lookup, bandOpts, eq_comm]
  constructor
  · parts (cooledBattery false) [cooledBattery, hj, bandOf, integrator]
    views (cooledBattery false) cooledBattery_false_links e
    tauto
  · intro h0
    parts (cooledBattery true) [cooledBattery, hj, bandOf]
    views (cooledBattery true) cooledBattery_true_links e
    rw [h0, balance_zero]
    constructor
    · rintro ⟨⟨h1, h2, h3, h4, h5⟩, h6⟩
      exact ⟨h4, h5, h2, h3, h1, by rw [← h1, h6]⟩
    · rintro ⟨h4, h5, h2, h3, h1, h6⟩
      exact ⟨⟨h1, h2, h3, h4, h5⟩, by rw [h1, h6]⟩

/-! ### C114: heat pipe -/

theorem C114_heatPipe_setup : qMaxPipe.problems = [] ∧ heatPipe.problems = [] ∧
    heatPipe.ins = [⟨"q", "W", true, true⟩, ⟨"n_pipes", "", false, true⟩, ⟨"T_evap", "degC", true, true⟩,
     ⟨"T_design", "degC", false, true⟩, ⟨"inner_diam", "m", false, true⟩, ⟨"length", "m", false, true⟩] := by
  refine ⟨?_, ?_, ?_⟩ <;> decide +kernel

theorem qMaxCalc_rel (o : Opts) (V : String → ℝ) : (explicit dQMaxHeatPipe).rel o V ↔
    V "q_max" = Thermal.qMax (o "latent_heat") (o "theta") (o "surface_tension_base") (o "surface_tension_incr") (V "inner_diam")
      (V "temp") (V "rho_liquid") (V "rho_vapor") := by
  simp [explicit, dQMaxHeatPipe, qMaxHeatPipe, withOpts, OptVal.get, List.lookup, eq_comm]

theorem pipeWeight_rel (o : Opts) (V : String → ℝ) : (explicit dHeatPipeWeight).rel o V ↔
    V "heat_pipe_weight" = Thermal.pipeWeight (o "yield_stress") (o "stress_safety_factor") (o "rho_wall") (V "design_pressure")
      (V "inner_diam") (V "length") ∧
    V "wall_thickness" = Thermal.pipeThickness (o "yield_stress") (o "stress_safety_factor") (V "design_pressure")
      (V "inner_diam") := by
  simp [explicit, dHeatPipeWeight, heatPipeWeight, withOpts, OptVal.get, List.lookup, eq_comm]

/-- `QMaxHeatPipe`: the limit is taken at the operating temperature, wall and weight are sized for the vapour pressure (in MPa) at the
design temperature -/
theorem C114_qMaxPipe (o : Opts) (e : String → ℝ) (h : qMaxPipe.rel o e) :
    let p := o.map "vapor_pressure" [e "design_temp"] / 1000
    e "q_max" = Thermal.qMax (o "latent_heat") (o "theta") (o "surface_tension_base") (o "surface_tension_incr") (e "inner_diam")
      (e "temp") (o.map "rho_liquid" [e "temp"]) (o.map "rho_vapor" [e "temp"]) ∧
    e "heat_pipe_weight" = Thermal.pipeWeight (o "yield_stress") (o "stress_safety_factor") (o "rho_wall") p (e "inner_diam")
      (e "length") ∧
    e "wall_thickness" = Thermal.pipeThickness (o "yield_stress") (o "stress_safety_factor") p (e "inner_diam") := by
  revert h
  parts qMaxPipe [qMaxPipe, qMaxCalc_rel, pipeWeight_rel, ammonia]
  views qMaxPipe qMaxPipe_links e
  rintro ⟨⟨l, v, -⟩, ⟨-, -, p⟩, q, w, t⟩
  rw [p] at w t
  rw [l, v] at q
  exact ⟨q, w, t⟩

theorem vaporDrop_rel (o : Opts) (V : String → ℝ) : (explicit dVaporTempDrop).rel o V ↔
      Thermal.vaporDrop (o "latent_heat") (o "visc_inc") (o "visc_base") (V "q") (V "temp") (V "rho_vapor") (V "vapor_pressure")
        (V "inner_diam") (V "length") = some (V "delta_T") := by
  simp [explicit, dVaporTempDrop, vaporTempDrop, withOpts, OptVal.get, List.lookup]

theorem resistance_rel (o : Opts) (V : String → ℝ) : (explicit (dHeatPipeResistance true)).rel o V ↔
      Thermal.pipeResistance ⟨o "length_evap", o "length_cond", o "wall_conduct", o "wick_thickness", o "wick_conduct", true⟩
        (V "inner_diam") (V "wall_thickness") (V "q") (V "delta_T") = some (V "thermal_resistance") := by
  simp [explicit, dHeatPipeResistance, heatPipeResistance, withOpts, OptVal.get, List.lookup]

theorem weightTimes_rel (o : Opts) (V : String → ℝ) : (product ⟨"weight", ["single_pipe_weight", "n_pipes"], .all 1, 1, 1, none, some [some "kg", none]⟩
      (fun _ => false)).rel o V ↔ V "weight" = V "single_pipe_weight" * V "n_pipes" := by
  simp [product, MulSys.compute, MulSys.read, MulSys.div]

/-- `HeatPipe`: heat, limit and weight are those of one pipe times the number of pipes -/
theorem C114_heatPipe (o : Opts) (e : String → ℝ) (h : heatPipe.rel o e) :
    let q := e "q" / e "n_pipes"
    let p := o.map "vapor_pressure" [e "T_design"] / 1000
    let t := Thermal.pipeThickness (o "yield_stress") (o "stress_safety_factor") p (e "inner_diam")
    ∃ dT R, Thermal.vaporDrop (o "latent_heat") (o "visc_inc") (o "visc_base") q (e "T_evap") (o.map "rho_vapor" [e "T_evap"])
        (o.map "vapor_pressure" [e "T_evap"] * 1000) (e "inner_diam") (e "length") = some dT ∧
      Thermal.pipeResistance ⟨o "length_evap", o "length_cond", o "wall_conduct", o "wick_thickness", o "wick_conduct", true⟩
        (e "inner_diam") t q dT = some R ∧
      e "T_cond" = Thermal.pipeTcond (e "T_evap") (e "q") (e "n_pipes") R ∧
      e "q_max" = e "n_pipes" * Thermal.qMax (o "latent_heat") (o "theta") (o "surface_tension_base") (o "surface_tension_incr")
        (e "inner_diam") (e "T_evap") (o.map "rho_liquid" [e "T_evap"]) (o.map "rho_vapor" [e "T_evap"]) ∧
      e "weight" = e "n_pipes" * Thermal.pipeWeight (o "yield_stress") (o "stress_safety_factor") (o "rho_wall") p (e "inner_diam")
        (e "length") := by
  revert h
  parts heatPipe [heatPipe, ammonia, vaporDrop_rel, resistance_rel, weightTimes_rel, exec, opaque_]
  rintro ⟨d, q, w, m, a, T, R, c⟩
  replace q := C114_qMaxPipe o _ q
  revert d q w m a T R c
  views heatPipe heatPipe_links e
  rintro d w m ⟨-, a, p⟩ T R c ⟨q1, q2, q3⟩
  rw [a, p, d] at T
  rw [q3, d] at R
  refine ⟨_, _, T, R, ?_, ?_, ?_⟩
  · rw [c, d]; rfl
  · rw [m, q1, mul_comm]
  · rw [w, q2, mul_comm]

/-- one pipe at Reynolds number 1 -/
example : ∃ (o : Opts) (e : String → ℝ), heatPipe.rel o e ∧ e "q" = Real.pi / 4 ∧ e "n_pipes" = 1 ∧
    e "T_cond" = 100 - 35.976 / 1000 * (0.3164 / 2) := by
  refine ⟨⟨table [("latent_heat", 1), ("visc_base", 1)], fun _ _ => 1⟩,
    table [("q", Real.pi / 4), ("n_pipes", 1), ("T_evap", 100), ("inner_diam", 1), ("length", 1), ("heat_divide.q_div", Real.pi / 4),
      ("q_max_calc.ammonia_current.rho_liquid", 1), ("q_max_calc.ammonia_current.rho_vapor", 1),
      ("q_max_calc.vapor_pressure", 1), ("q_max_calc.ammonia_design.rho_liquid", 1),
      ("q_max_calc.ammonia_design.rho_vapor", 1), ("q_max_calc.design_pressure", 1), ("ammonia_surrogate.rho_liquid", 1),
      ("ammonia_surrogate.rho_vapor", 1), ("ammonia_surrogate.vapor_pressure", 1),
      ("delta_T_calc.delta_T", 35.976 / 1000 * (0.3164 / 2)),
      ("resistance.thermal_resistance", 35.976 / 1000 * (0.3164 / 2) / (Real.pi / 4)),
      ("T_cond", 100 - 35.976 / 1000 * (0.3164 / 2))], ?_, ?_, ?_, ?_⟩
  · generalize ho : Opts.mk _ _ = o
    generalize he : table _ = e
    parts heatPipe [heatPipe, ammonia, vaporDrop_rel, resistance_rel, weightTimes_rel, exec, opaque_]
    have hq : qMaxPipe.rel o (heatPipe.view e "q_max_calc") := by
      parts qMaxPipe [qMaxPipe, qMaxCalc_rel, pipeWeight_rel, ammonia]
      generalize hV : heatPipe.view e "q_max_calc" = V
      views qMaxPipe qMaxPipe_links V
      rw [← hV]
      views heatPipe heatPipe_links e
      simp only [← he, table, List.lookup, String.reduceBEq, Option.getD_some, Option.getD_none, ← ho]
      norm_num [Thermal.qMax, Thermal.pipeWeight, Thermal.pipeThickness]
    simp only [hq, true_and]
    views heatPipe heatPipe_links e
    simp only [← he, table, List.lookup, String.reduceBEq, Option.getD_some, Option.getD_none, ← ho]
    norm_num [Thermal.vaporDrop, Thermal.pipeResistance, Thermal.pipeRadial, Thermal.npdiv]
    rw [mul_div_cancel₀ _ (by positivity)]
    norm_num
  all_goals simp [table, List.lookup]

/-! ### C114: hydrogen tank -/

theorem C114_tank_setup : vacuumTank.problems = [] ∧ tankNoBoilOff.problems = [] ∧
    vacuumTank.ins = [⟨"max_expected_operating_pressure", "Pa", false, true⟩, ⟨"radius", "m", false, true⟩,
     ⟨"length", "m", false, true⟩, ⟨"vacuum_gap", "m", false, true⟩, ⟨"environment_design_pressure", "Pa", false, true⟩,
     ⟨"N_layers", "", false, true⟩] ∧
    tankNoBoilOff.ins = [⟨"max_expected_operating_pressure", "Pa", false, true⟩, ⟨"radius", "m", false, true⟩,
     ⟨"length", "m", false, true⟩, ⟨"vacuum_gap", "cm", false, true⟩, ⟨"environment_design_pressure", "Pa", false, true⟩,
     ⟨"N_layers", "", false, true⟩, ⟨"integ.duration", "s", false, false⟩, ⟨"m_dot_liq", "(kg) / (s)", true, true⟩,
     ⟨"integ.delta_m_liq_initial", "kg", false, false⟩] := by
  refine ⟨?_, ?_, ?_, ?_⟩ <;> decide +kernel

def innerOf (o : Opts) : Hydrogen.VesselOpts := ⟨o "inner_safety_factor", o "inner_yield_stress", o "inner_density"⟩

def outerOf (o : Opts) : Hydrogen.VacuumOpts :=
  ⟨o "outer_safety_factor", o "stiffening_multiplier", o "outer_youngs_modulus", o "outer_density"⟩

/-- dimensions of the tank in the state `e`; one unit of the gap is `cm` metres -/
def tankOf (cm : ℝ) (e : String → ℝ) : Hydrogen.TankIn :=
  ⟨e "environment_design_pressure", e "max_expected_operating_pressure", cm * e "vacuum_gap", e "radius", e "length", e "N_layers"⟩

theorem innerWall_rel (o : Opts) (V : String → ℝ) : (explicit dPressureVessel [ref "safety_factor" "inner_safety_factor",
        ref "yield_stress" "inner_yield_stress", ref "density" "inner_density"]).rel o V ↔
      V "thickness" = Hydrogen.vesselThickness (innerOf o) (V "design_pressure_differential") (V "radius") ∧
      V "weight" = Hydrogen.vesselWeight (innerOf o) (V "design_pressure_differential") (V "radius") (V "length") := by
  simp [explicit, dPressureVessel, pressureVessel, withOpts, OptVal.get, ref, List.lookup, innerOf, eq_comm]

theorem outerWall_rel (o : Opts) (V : String → ℝ) : (explicit dVacuumWall [ref "safety_factor" "outer_safety_factor",
        ref "youngs_modulus" "outer_youngs_modulus", ref "density" "outer_density"]).rel o V ↔
      V "thickness" = Hydrogen.vacThickness (outerOf o) (V "design_pressure_differential") (V "radius") (V "length") ∧
      V "weight" = Hydrogen.vacWeight (outerOf o) (V "design_pressure_differential") (V "radius") (V "length") := by
  simp [explicit, dVacuumWall, vacuumWall, withOpts, OptVal.get, ref, List.lookup, outerOf, eq_comm]

theorem tankSum_rel (o : Opts) (V : String → ℝ) : (sumTimes "weight" ["W_outer", "W_inner", "W_MLI"] "kg" "weight_fudge_factor").rel o V ↔
      V "weight" = V "W_outer" * o "weight_fudge_factor" + V "W_inner" * o "weight_fudge_factor"
        + V "W_MLI" * o "weight_fudge_factor" := by
  simp [sumTimes, AddSys.compute, AddSys.factors]

theorem hydrogenMass_rel (o : Opts) (V : String → ℝ) : (explicit dHydrogenMass).rel o V ↔
      V "m_liq" = Hydrogen.liquidMass (o "fill_level_init") (o "LH2_density") (V "radius") (V "length") (V "delta_m_liq") ∧
      V "fill_level" = Hydrogen.fillLevel (o "fill_level_init") (o "LH2_density") (V "radius") (V "length") (V "delta_m_liq") := by
  simp [explicit, dHydrogenMass, hydrogenMass, withOpts, OptVal.get, List.lookup, eq_comm]

theorem totalSum_rel (o : Opts) (V : String → ℝ) : (sum ⟨"total_weight", ["m_liq", "tank_weight"], .each [2, 1], 1, none, ⟨some (some "kg"), none⟩⟩
      (fun n => n != "tank_weight")).rel o V ↔ V "total_weight" = V "m_liq" + V "tank_weight" := by
  simp [sum, AddSys.compute, AddSys.factors]

/-- `VacuumTankWeight` -/
theorem C114_vacuumTank (o : Opts) (e : String → ℝ) (hf : o "foil_layer_areal_weight" = 18e-3)
    (hs : o "spacer_layer_areal_weight" = 12e-3) (h : vacuumTank.rel o e) :
    e "weight" = Hydrogen.tankWeight (o "weight_fudge_factor") (innerOf o) (outerOf o) (tankOf 1 e) := by
  have hm : ∀ V : String → ℝ, (explicit dInsulation).rel o V ↔
      V "weight" = Hydrogen.mliWeight 18e-3 12e-3 (V "radius") (V "length") (V "N_layers") := by
    intro V
    simp [explicit, dInsulation, insulation, withOpts, OptVal.get, List.lookup, hf, hs, eq_comm]
  revert h
  parts vacuumTank [vacuumTank, innerWall_rel, outerWall_rel, hm, tankSum_rel]
  views vacuumTank vacuumTank_links e
  rintro ⟨⟨-, i⟩, r, ⟨-, w⟩, m, t⟩
  rw [r] at w
  rw [t, w, i, m]
  simp only [Hydrogen.tankWeight, tankOf, one_mul, mul_one]
  ring

/-- `LH2TankNoBoilOff`: the gap is given in centimetres, the mass withdrawn is the integrated flow -/
theorem C114_tank (o : Opts) (e : String → ℝ) (hf : o "foil_layer_areal_weight" = 18e-3)
    (hs : o "spacer_layer_areal_weight" = 12e-3) (h : tankNoBoilOff.rel o e) :
    e "tank_weight" = Hydrogen.tankWeight (o "weight_fudge_factor") (innerOf o) (outerOf o) (tankOf 0.01 e) ∧
    e "m_liq" = Hydrogen.liquidMass (o "fill_level_init") (o "LH2_density") (e "radius") (e "length") (e "integ.delta_m_liq") ∧
    e "fill_level" = Hydrogen.fillLevel (o "fill_level_init") (o "LH2_density") (e "radius") (e "length") (e "integ.delta_m_liq") ∧
    e "total_weight" = e "m_liq" + e "tank_weight" := by
  revert h
  parts tankNoBoilOff [tankNoBoilOff, hydrogenMass_rel, totalSum_rel, integrator]
  rintro ⟨t, m, w⟩
  replace t := C114_vacuumTank o _ hf hs t
  revert t m w
  simp only [tankOf]
  views tankNoBoilOff tankNoBoilOff_links e
  rintro ⟨m1, m2⟩ w t
  refine ⟨?_, m1, m2, w⟩
  rw [t]; norm_num [mul_comm]

/-- a spherical tank of radius 1 m without pressure difference, filled with 3 kg/m³: 4π kg minus 1 kg withdrawn -/
example : ∃ (o : Opts) (e : String → ℝ), o "foil_layer_areal_weight" = 18e-3 ∧ o "spacer_layer_areal_weight" = 12e-3 ∧
    tankNoBoilOff.rel o e ∧ e "total_weight" = 4 * Real.pi - 1 + 0.12 * Real.pi := by
  refine ⟨⟨table [("foil_layer_areal_weight", 18e-3), ("spacer_layer_areal_weight", 12e-3), ("fill_level_init", 1),
    ("LH2_density", 3), ("weight_fudge_factor", 1), ("inner_density", 1), ("outer_density", 1)], fun _ _ => 1⟩,
    table [("radius", 1), ("N_layers", 1), ("structure.outer_radius.outer_radius", 1), ("structure.MLI.weight", 0.12 * Real.pi),
      ("tank_weight", 0.12 * Real.pi), ("integ.delta_m_liq", 1), ("m_liq", 4 * Real.pi - 1),
      ("fill_level", (4 * Real.pi - 1) / (4 * Real.pi)), ("total_weight", 4 * Real.pi - 1 + 0.12 * Real.pi)], ?_, ?_, ?_, ?_⟩
  · simp [table, List.lookup]
  · simp [table, List.lookup]
  · generalize ho : Opts.mk _ _ = o
    generalize he : table _ = e
    have hm : ∀ V : String → ℝ, (explicit dInsulation).rel o V ↔
        V "weight" = Hydrogen.mliWeight 18e-3 12e-3 (V "radius") (V "length") (V "N_layers") := by
      intro V
      simp [explicit, dInsulation, insulation, withOpts, OptVal.get, List.lookup, ← ho, table, eq_comm]
    parts tankNoBoilOff [tankNoBoilOff, hydrogenMass_rel, totalSum_rel, integrator]
    refine ⟨?_, ?_⟩
    · parts vacuumTank [vacuumTank, innerWall_rel, outerWall_rel, hm, tankSum_rel]
      generalize hV : tankNoBoilOff.view e "structure" = V
      views vacuumTank vacuumTank_links V
      rw [← hV]
      views tankNoBoilOff tankNoBoilOff_links e
      simp only [← he, table, List.lookup, String.reduceBEq, Option.getD_some, Option.getD_none, ← ho, innerOf, outerOf]
      norm_num [Hydrogen.vesselThickness, Hydrogen.vesselWeight, Hydrogen.vacThickness, Hydrogen.vacWeight, Hydrogen.tCyl,
        Hydrogen.tSph, Hydrogen.mliWeight, Hydrogen.surfaceArea]
      ring
    · views tankNoBoilOff tankNoBoilOff_links e
      simp only [← he, table, List.lookup, String.reduceBEq, Option.getD_some, Option.getD_none, ← ho]
      have h3 : 4 / 3 * Real.pi * 3 = 4 * Real.pi := by ring
      have h4 : 3 * (4 / 3 * Real.pi) = 4 * Real.pi := by ring
      norm_num [Hydrogen.liquidMass, Hydrogen.fillLevel, Hydrogen.tankVolume, h3, h4]
  · simp [table, List.lookup]

end Verif.Wiring
