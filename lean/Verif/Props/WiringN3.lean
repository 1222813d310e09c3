import Verif.Proof.WiringN3
import Verif.Props.WiringHybrids3

namespace Verif.Wiring

set_option maxRecDepth 10000

open Verif.Units Verif.VectorComps

variable {m : ℕ}

/-! ### C127: the refrigerated hybrid single aisle -/

/-- motor of one side -/
noncomputable def n3Motor (e : String → ℝ) : Propulsion.MotorOut :=
  Propulsion.motor ⟨0.95, 1 / 5000, 0, 100 / 745, 1⟩ (e "hybrid_throttle.vec") (e "ac|propulsion|motor|rating")

/-- options of the battery -/
noncomputable def n3Battery : Propulsion.BattOpts := ⟨0.95, 5000, 50, 1⟩

/-- geometry of the heat exchanger `s` -/
def n3Geo (s wide long tall : String) (e : String → ℝ) : HX.Geo :=
  ⟨e (s ++ ".channel_width_cold") * 0.001, e (s ++ ".channel_height_cold") * 0.001, e (s ++ ".fin_length_cold") * 0.001,
    e (s ++ ".channel_width_hot") * 0.001, e (s ++ ".channel_height_hot") * 0.001, e (s ++ ".fin_length_hot") * 0.001,
    e (s ++ ".fin_thickness") * 0.001, e (s ++ ".plate_thickness") * 0.001, e (s ++ ".case_thickness") * 0.001,
    e wide, e long, e tall, e (s ++ ".material_rho")⟩

/-- heat from the hot side (flow `mh`, temperature `Th`) to the cold side -/
noncomputable def n3Heat (s : String) (e : String → ℝ) (g : HX.Geo) (mc Tc mh Th : ℝ) : ℝ :=
  HX.groupQ (HX.groupNtu g (e (s ++ ".material_k")) ⟨mc, Tc, e (s ++ ".cp_cold"), e (s ++ ".k_cold"), e (s ++ ".mu_cold")⟩
    ⟨mh, Th, e (s ++ ".cp_hot"), e (s ++ ".k_hot"), e (s ++ ".mu_hot")⟩)

/-- the heat exchanger `s` between air (flow `mc`, temperature `Tc`, density `rc`) and coolant (`mh`, `Th`, `rh`) -/
structure N3Exchanger (o : Opts) (s : String) (e : String → ℝ) (g : HX.Geo) (mc Tc rc mh Th rh : ℝ) : Prop where
  heat : e (s ++ ".heat_transfer") = n3Heat s e g mc Tc mh Th
  cold : e (s ++ ".T_out_cold") = HX.toutCold (n3Heat s e g mc Tc mh Th) mc Tc (e (s ++ ".cp_cold"))
  hot : e (s ++ ".T_out_hot") = HX.toutHot (n3Heat s e g mc Tc mh Th) mh Th (e (s ++ ".cp_hot"))
  frontal : e (s ++ ".frontal_area") = g.frontal
  weight : e (s ++ ".component_weight") = g.weight
  dpCold : e (s ++ ".delta_p_cold") = HX.deltaP (o "Kc_cold") (o "Ke_cold") ⟨g.length,
      HX.friction (HX.f1 g.shapeCold) (HX.f2 g.shapeCold) (HX.reDh mc g.dhCold g.xsCold (e (s ++ ".mu_cold"))), mc, rc, g.dhCold, g.xsCold⟩
  dpHot : e (s ++ ".delta_p_hot") = HX.deltaP (o "Kc_hot") (o "Ke_hot") ⟨g.width,
      HX.friction (HX.f1 g.shapeHot) (HX.f2 g.shapeHot) (HX.reDh mh g.dhHot g.xsHot (e (s ++ ".mu_hot"))), mh, rh, g.dhHot, g.xsHot⟩

/-- the duct `s`, built with the coefficient `cfg`, with a heat exchanger of the frontal area `area` -/
def n3Duct (s : String) (cfg area areaN : ℝ) (e : String → ℝ) : Ducts.DuctIn where
  pInf := e "fltcond|p"
  TInf := e "fltcond|T"
  U := e "fltcond|Utrue"
  cp := e (s ++ ".cp")
  area1 := e (s ++ ".area_1") * 0.0254 ^ 2
  dp1 := e (s ++ ".delta_p_1")
  q1 := e (s ++ ".heat_in_1")
  rec1 := e (s ++ ".pressure_recovery_1")
  loss1 := e (s ++ ".loss_factor_1")
  area2 := area
  dp2 := e (s ++ ".delta_p_2")
  q2 := e (s ++ ".heat_in_2")
  rec2 := e (s ++ ".pressure_recovery_2")
  area3 := area
  rec3 := e (s ++ ".pressure_recovery_3")
  areaN := areaN * 0.0254 ^ 2
  hack := e (s ++ ".convergence_hack")
  cfg := cfg

/-- unknowns of the duct `s` -/
def n3DuctState (s : String) (e : String → ℝ) : Ducts.DuctState where
  mdot := e (s ++ ".mdot")
  rho1 := e (s ++ ".sta1.rho")
  M1 := e (s ++ ".sta1.M")
  rho2 := e (s ++ ".sta2.rho")
  M2 := e (s ++ ".sta2.M")
  rho3 := e (s ++ ".sta3.rho")
  M3 := e (s ++ ".sta3.M")
  prN := e (s ++ ".nozzle.nozzle_pressure_ratio")
  MN := e (s ++ ".nozzle.M")
  rhoN := e (s ++ ".nozzle.rho")

/-- the inputs which the duct `s` leaves open have their declared values, and air flows (see `C114_duct`) -/
structure N3Open (s : String) (e : String → ℝ) : Prop where
  ram : e (s ++ ".inlet.totalpressure.eta_ram") = 1
  loss2 : e (s ++ ".sta2.dynamic_pressure_loss_factor") = 0
  loss3 : e (s ++ ".sta3.dynamic_pressure_loss_factor") = 0
  lossN : e (s ++ ".nozzle.dynamic_pressure_loss_factor") = 0
  flow : 0 < e (s ++ ".mdot")
  ratio : 0 < e (s ++ ".nozzle.nozzle_pressure_ratio")

/-- heat pump between the loops of the battery (cold) and of its heat exchanger (hot) -/
def n3Refrig (o : Opts) (e : String → ℝ) : Thermal.Chiller :=
  ⟨o "specific_heat", e "hx_battery.T_out_hot", e "batteryheatsink.T_out", e "mdot_coolant_battery",
    e "ac|propulsion|thermal|heatpump|power_rating", e "heat_pump_eff_factor", e "refrig.bypass", e "refrig.COP"⟩

/-- electric power (W) of a pump with the mass flow `mdot` and the pressure difference `drop` -/
noncomputable def n3Pump (o : Opts) (mdot drop rho : ℝ) : ℝ := Thermal.pumpLoad (o "efficiency") mdot drop rho

def motorGeo (e : String → ℝ) : HX.Geo := n3Geo "hx_motor" "ac|propulsion|thermal|hx_motor|n_wide_cold"
  "ac|propulsion|thermal|hx_motor|n_long_cold" "ac|propulsion|thermal|hx_motor|n_tall" e
def faultGeo (e : String → ℝ) : HX.Geo := n3Geo "hx_fault_prot" "ac|propulsion|thermal|hx_motor|n_wide_cold"
  "ac|propulsion|thermal|hx_fault_prot|n_long_cold" "ac|propulsion|thermal|hx_motor|n_tall" e
def batteryGeo (e : String → ℝ) : HX.Geo := n3Geo "hx_battery" "ac|propulsion|thermal|hx|n_wide_cold"
  "ac|propulsion|thermal|hx|n_long_cold" "ac|propulsion|thermal|hx|n_tall" e

/-- electric load of one side (W): motor, 0.5 % for its fault protection, heat pump and the pumps of both loops -/
noncomputable def n3Load (o : Opts) (e : String → ℝ) : ℝ :=
  (n3Motor e).elecLoad + Thermal.selLoad (n3Refrig o e).sel + 0.005 * (n3Motor e).elecLoad
    + n3Pump o (e "mdot_coolant_battery") (e "battery_hose.delta_p" - e "hx_battery.delta_p_hot") (e "rho_coolant")
    + n3Pump o (e "mdot_coolant_motor") (e "motor_hose.delta_p" - e "hx_motor.delta_p_hot") (e "rho_coolant")

/-- cooling jacket of the motor -/
noncomputable def n3JacketOpts (o : Opts) : Thermal.JacketOpts :=
  ⟨o "coolant_specific_heat", 2100, o "case_area_coefficient", o "motor_specific_heat"⟩
noncomputable def n3Jacket (e : String → ℝ) : Thermal.JacketIn :=
  ⟨(n3Motor e).heat, e "hx_motor.T_out_hot", e "motorheatsink.T", e "mdot_coolant_motor", e "ac|propulsion|motor|rating", (n3Motor e).weight⟩

/-- cooling of the battery: its coolant comes from the cold side of the heat pump -/
noncomputable def n3Band (o : Opts) (e : String → ℝ) : Thermal.BandIn :=
  ⟨(Propulsion.battery n3Battery (e "ac|propulsion|battery|weight") (n3Load o e) (e "battery.specific_energy")).heat,
    Thermal.selCold (n3Refrig o e).sel, e "batteryheatsink.T", e "mdot_coolant_battery", e "ac|propulsion|battery|weight",
    e "batteryheatsink.n_cpb", e "batteryheatsink.t_channel"⟩

/-- what holds at every node -/
structure N3Node (o : Opts) (cd0 : String) (e : String → ℝ) : Prop where
  /-- two engines, each helped by the shaft power (kW) of its motor; lbf to kN -/
  thrust : e "thrust" = 2 * (o.map "thrust" [e "throttle", e "fltcond|h", e "fltcond|M", (n3Motor e).shaft / 1000]
    * (0.45359237 * 9.80665) / 1000)
  flow : e "fuel_flow" = 2 * (o.map "fuel_flow" [e "throttle", e "fltcond|h", e "fltcond|M", (n3Motor e).shaft / 1000] * 0.45359237)
  /-- the net forces of the ducts of both sides are thrust -/
  drag : e "drag" = Aero.drag ⟨e "fltcond|q", e "ac|geom|wing|S_ref", e cd0, e "fltcond|CL", e "ac|aero|polar|e", e "ac|geom|wing|AR"⟩
    - 2 * e "variable_duct.force.F_net" - 2 * e "motor_duct.force.F_net"
  load : e "elec_load" * 1000 = n3Load o e
  charge : e "battery.dSOCdt" / 1000 = Propulsion.dSOCdt n3Battery (e "ac|propulsion|battery|weight") (e "battery.specific_energy") (n3Load o e)
  motorRate : e "motorheatsink.dTdt" = Thermal.jacketDTdt (n3JacketOpts o) (n3Jacket e)
  motorOut : e "motorheatsink.T_out" = Thermal.jacketTout (n3JacketOpts o) (n3Jacket e)
  /-- the fault protection heats its own coolant -/
  faultOut : e "motorfaultprot.T_out" = Thermal.phtOut (o "specific_heat") (e "hx_fault_prot.T_out_hot") (0.005 * (n3Motor e).elecLoad)
    (e "mdot_coolant_fault_prot")
  batteryRate : e "batteryheatsink.dTdt" = Thermal.bandDTdt (bandOpts o) (n3Band o e)
  batteryOut : e "batteryheatsink.T_out" = Thermal.bandTout (bandOpts o) (n3Band o e)
  refrig : (n3Refrig o e).converged
  /-- in the motor's duct the fault protection's exchanger is in front of the motor's -/
  motorHx : N3Exchanger o "hx_motor" e (motorGeo e) (e "motor_duct.mdot") (e "hx_fault_prot.T_out_cold") (e "motor_duct.sta2.rho")
    (e "mdot_coolant_motor") (e "motorheatsink.T_out") (e "rho_coolant")
  faultHx : N3Exchanger o "hx_fault_prot" e (faultGeo e) (e "motor_duct.mdot") (e "motor_duct.sta2.T") (e "motor_duct.sta2.rho")
    (e "mdot_coolant_fault_prot") (e "motorfaultprot.T_out") (e "rho_coolant")
  batteryHx : N3Exchanger o "hx_battery" e (batteryGeo e) (e "variable_duct.mdot") (e "variable_duct.sta2.T") (e "variable_duct.sta2.rho")
    (e "mdot_coolant_battery") (Thermal.selHot (n3Refrig o e).sel) (e "rho_coolant")
  /-- both exchangers of the stack slow and heat the air of the motor's duct -/
  motorDuct : N3Open "motor_duct" e → let d := n3Duct "motor_duct" 0.90 (motorGeo e).frontal (e "motor_duct_area_nozzle_in") e
    let dp := e "hx_motor.delta_p_cold" + e "hx_fault_prot.delta_p_cold"
    let q := e "hx_motor.heat_transfer" + e "hx_fault_prot.heat_transfer"
    d.Converged (o "R") (o "gamma") dp q (n3DuctState "motor_duct" e) ∧
      e "motor_duct.force.F_net" = d.force (o "R") (o "gamma") dp q (n3DuctState "motor_duct" e)
  variableDuct : N3Open "variable_duct" e → let d := n3Duct "variable_duct" 0.95 (batteryGeo e).frontal (e "variable_duct_nozzle_area") e
    let dp := e "hx_battery.delta_p_cold"
    let q := e "hx_battery.heat_transfer"
    d.Converged (o "R") (o "gamma") dp q (n3DuctState "variable_duct" e) ∧
      e "variable_duct.force.F_net" = d.force (o "R") (o "gamma") dp q (n3DuctState "variable_duct" e)
  hoses : Thermal.hoseDp (e "ac|geom|thermal|hx_to_motor_diameter") (e "ac|geom|thermal|hx_to_motor_length") (e "mdot_coolant_motor")
      (e "rho_coolant") (e "motor_hose.mu_coolant") = some (e "motor_hose.delta_p") ∧
    Thermal.hoseDp (e "ac|geom|thermal|hx_to_battery_diameter") (e "ac|geom|thermal|hx_to_battery_length") (e "mdot_coolant_battery")
      (e "rho_coolant") (e "battery_hose.mu_coolant") = some (e "battery_hose.delta_p")
  /-- both sides carry heat pump, exchangers, hoses, pumps and motor -/
  empty : e "OEW" = e "ac|weights|OEW" + 2 * (
    Thermal.pumpWeight (e "ac|propulsion|thermal|heatpump|power_rating") (e "heat_pump_specific_power")
    + (motorGeo e).weight + (batteryGeo e).weight + (faultGeo e).weight + e "battery_hose.component_weight"
    + e "motor_hose.component_weight"
    + Thermal.pumpMass (o "weight_base") (o "weight_inc") (e "ac|propulsion|thermal|hx|pump_power_rating")
    + Thermal.pumpMass (o "weight_base") (o "weight_inc") (e "ac|propulsion|thermal|hx_motor|pump_power_rating") + (n3Motor e).weight)
  weight : e "weight" = e "ac|design_mission|TOW" - e "fuel_used"
  margin : e "margin" = e "ac|design_mission|TOW" - e "OEW" - e "fuel_used_final" - 2 * e "ac|propulsion|battery|weight"

/-! components -/

theorem n3Drag_rel (o : Opts) (V : String → ℝ) (v) : (sum Aircraft.n3Drag.sys v).rel o V ↔
    V "drag" = V "_temp0" - 2 * V "_temp1" - 2 * V "_temp2" := by
  obtain ⟨r0, r1, r2, r3, r4, r5, r6, r7, r8, r9⟩ := Aircraft.repr_lits
  simp [sum, Aircraft.n3Drag, Mission.AddCall.sys, AddSys.compute, AddSys.factors, List.zipIdx, Mission.temp, List.range, List.range.loop,
    r0, r1, r2, sub_eq_add_neg, mul_comm]

theorem n3Load_rel (o : Opts) (V : String → ℝ) (v) : (sum Aircraft.n3Load.sys v).rel o V ↔
    V "elec_load" = V "_temp0" + V "_temp1" + V "_temp2" + V "_temp3" + V "_temp4" := by
  obtain ⟨r0, r1, r2, r3, r4, r5, r6, r7, r8, r9⟩ := Aircraft.repr_lits
  simp [sum, Aircraft.n3Load, Mission.AddCall.sys, AddSys.compute, AddSys.factors, List.zipIdx, Mission.temp, List.range, List.range.loop,
    r0, r1, r2, r3, r4]

theorem n3Pressure_rel (o : Opts) (V : String → ℝ) (v) (a b c : String) : (sum (Aircraft.n3Pressure a b c).sys v).rel o V ↔
    V c = V "_temp0" - V "_temp1" := by
  obtain ⟨r0, r1, r2, r3, r4, r5, r6, r7, r8, r9⟩ := Aircraft.repr_lits
  simp [sum, Aircraft.n3Pressure, Mission.AddCall.sys, AddSys.compute, AddSys.factors, List.zipIdx, Mission.temp, List.range,
    List.range.loop, r0, r1, sub_eq_add_neg]

theorem n3Oew_rel (o : Opts) (V : String → ℝ) (v) : (sum Aircraft.n3Oew.sys v).rel o V ↔
    V "OEW" = 2 * V "_temp0" + 2 * V "_temp1" + 2 * V "_temp2" + 2 * V "_temp3" + 2 * V "_temp4" + 2 * V "_temp5" + 2 * V "_temp6"
      + 2 * V "_temp7" + 2 * V "_temp8" + V "_temp9" := by
  obtain ⟨r0, r1, r2, r3, r4, r5, r6, r7, r8, r9⟩ := Aircraft.repr_lits
  simp [sum, Aircraft.n3Oew, Mission.AddCall.sys, AddSys.compute, AddSys.factors, List.zipIdx, Mission.temp, List.range,
    List.range.loop, r0, r1, r2, r3, r4, r5, r6, r7, r8, r9, mul_comm]

theorem n3Margin_rel (o : Opts) (V : String → ℝ) (v) : (sum Aircraft.n3Margin.sys v).rel o V ↔
    V "margin" = V "_temp0" - V "_temp1" - V "_temp2" - 2 * V "_temp3" := by
  obtain ⟨r0, r1, r2, r3, r4, r5, r6, r7, r8, r9⟩ := Aircraft.repr_lits
  simp [sum, Aircraft.n3Margin, Mission.AddCall.sys, AddSys.compute, AddSys.factors, List.zipIdx, Mission.temp, List.range,
    List.range.loop, r0, r1, r2, r3, sub_eq_add_neg, mul_comm]

theorem towWeight_rel (o : Opts) (V : String → ℝ) (b) : (sum towWeight b).rel o V ↔
    V "weight" = V "ac|design_mission|TOW" - V "fuel_used" := by
  simp [sum, towWeight, AddSys.compute, AddSys.factors, sub_eq_add_neg]

theorem twice_rel (o : Opts) (V : String → ℝ) (out units : String) (v) :
    (product (Mission.MultCall.sys ⟨"", out, 2, .all 1, some units, 1, none, none⟩) v).rel o V ↔ V out = 2 * V "_temp" := by
  simp [product, Mission.MultCall.sys, MulSys.compute, MulSys.div, MulSys.read, mul_comm]

theorem hybridDeck_rel (o : Opts) (V : String → ℝ) (t u : String) : (engineDeck true t u).rel o V ↔
    V "thrust" = o.map "thrust" [V "throttle", V "fltcond|h", V "fltcond|M", V "hybrid_power"] ∧
    V "fuel_flow" = o.map "fuel_flow" [V "throttle", V "fltcond|h", V "fltcond|M", V "hybrid_power"] ∧
    V t = o.map t [V "throttle", V "fltcond|h", V "fltcond|M", V "hybrid_power"] := by
  simp [engineDeck, deckIns]

theorem motor95_rel (o : Opts) (V : String → ℝ) : (explicit dMotor ([lit "efficiency" 0.95] ++ motorDefaults)).rel o V ↔
    let r := Propulsion.motor ⟨0.95, 1 / 5000, 0, 100 / 745, 1⟩ (V "throttle") (V "elec_power_rating")
    V "shaft_power_out" = r.shaft ∧ V "heat_out" = r.heat ∧ V "elec_load" = r.elecLoad ∧ V "component_cost" = r.cost ∧
    V "component_weight" = r.weight ∧ V "component_sizing_margin" = r.margin := by
  simp [motorDefaults, explicit, dMotor, motor, withOpts, OptVal.get, lit, List.lookup, eq_comm]

theorem coolantPump_rel (o : Opts) (V : String → ℝ) : (explicit dPump).rel o V ↔
    V "elec_load" = Thermal.pumpLoad (o "efficiency") (V "mdot_coolant") (V "delta_p") (V "rho_coolant") ∧
    V "component_weight" = Thermal.pumpMass (o "weight_base") (o "weight_inc") (V "power_rating") ∧
    V "component_sizing_margin" = Thermal.pumpMargin (o "efficiency") (V "mdot_coolant") (V "delta_p") (V "rho_coolant")
      (V "power_rating") := by
  simp [explicit, dPump, pump, withOpts, OptVal.get, List.lookup, eq_comm]

/-- **C127** (fault protection).  `MotorFaultProtection` is set up without problems; it takes 0.5 % of the motor's power, which heats its
coolant, and adds up the pressure drops and the heat of the two exchangers in the duct. -/
theorem C127_fault (o : Opts) (e : String → ℝ) : faultProtection.problems = [] ∧ (faultProtection.rel o e ↔
    e "T_out" = Thermal.phtOut (o "specific_heat") (e "T_in") (e "elec_load") (e "mdot_coolant") ∧
    e "coolant_temps.T_average" = Thermal.phtAvg (o "specific_heat") (e "T_in") (e "elec_load") (e "mdot_coolant") ∧
    e "elec_load" = 0.005 * e "motor_power" ∧ e "delta_p_stack" = e "delta_p_motor_hx" + e "delta_p_fault_prot_hx" ∧
    e "heat_transfer" = e "heat_transfer_motor_hx" + e "heat_transfer_fault_prot_hx") := by
  refine ⟨by decide +kernel, ?_⟩
  have hs : ∀ (V : String → ℝ) (x a b u : String) (v : String → Bool), (sum ⟨x, [a, b], .all 1, 1, none, ⟨some (some u), none⟩⟩ v).rel o V ↔
      V x = V a + V b := by
    intro V x a b u v
    simp [sum, AddSys.compute, AddSys.factors]
  parts faultProtection [faultProtection, transfer_rel, hs]
  views faultProtection faultProtection_links e
  simp only [Aircraft.faultLoad, show (1 - 0.995 : ℝ) = 0.005 by norm_num, and_assoc]

/-- **C127** (battery).  `SOCBattery` with the efficiency 0.95. -/
theorem C127_battery (o : Opts) (e : String → ℝ) : (socBattery 0.95).rel o e →
    e "heat_out" = (Propulsion.battery n3Battery (e "battery_weight") (e "elec_load") (e "specific_energy")).heat ∧
    e "dSOCdt" / 1000 = Propulsion.dSOCdt n3Battery (e "battery_weight") (e "specific_energy") (e "elec_load") := by
  have hb : ∀ V : String → ℝ, (explicit dBattery ([lit "efficiency" 0.95] ++ batteryDefaults)).rel o V ↔
      let b := Propulsion.battery n3Battery (V "battery_weight") (V "elec_load") (V "specific_energy")
      V "heat_out" = b.heat ∧ V "component_cost" = b.cost ∧ V "component_sizing_margin" = b.margin ∧
      V "max_energy" = b.maxEnergy := by
    intro V
    simp [explicit, dBattery, battery, withOpts, OptVal.get, lit, List.lookup, batteryDefaults, n3Battery, eq_comm]
  have hd : ∀ V : String → ℝ, (product socRate fun n => n != "max_energy").rel o V ↔
      V "dSOCdt" = -(V "elec_load" / V "max_energy") := by
    intro V
    simp [product, socRate, MulSys.compute, MulSys.div, MulSys.read]
  have hs : (socBattery 0.95).subs = [⟨"batt_base", explicit dBattery ([lit "efficiency" 0.95] ++ batteryDefaults), .all, .all⟩,
     ⟨"divider", product socRate fun n => n != "max_energy", .all, .all⟩,
     ⟨"ode_integ", integrator "SOC" "" "dSOCdt" "(s)** -1" "SOC_initial" "SOC_final", .all, .all⟩] := rfl
  unfold Grp.rel
  rw [hs]
  simp only [List.forall_mem_cons, List.not_mem_nil, false_imp_iff, implies_true, and_true, hb, hd, integrator, opaque_]
  views (socBattery 0.95) socBattery95_links e
  simp only [Propulsion.dSOCdt, Propulsion.battery]
  rintro ⟨⟨h1, h2, h3, h4⟩, h5⟩
  refine ⟨h1, ?_⟩
  rw [h5, h4]
  ring

theorem conv_flow' (x : ℝ) : conv "kg/s " "(kg) / (s)" x = x := by
  simp [conv, off, fac]

/-- the options of a system built with the option `n` -/
theorem withOption_rel (s : Sys) (n : String) (x : ℝ) (o : Opts) (V : String → ℝ) :
    (withOption s n x).rel o V ↔ s.rel ⟨fun k => if k = n then x else o k, o.map⟩ V := Iff.rfl

theorem motorSink_rel (o : Opts) (e : String → ℝ) (h : (cooledMotor false).rel o e) :
    e "T_out" = Thermal.jacketTout (jacketOpts o) (jacketOf e) ∧ e "dTdt" = Thermal.jacketDTdt (jacketOpts o) (jacketOf e) := by
  obtain ⟨_, h1, h2⟩ := (C114_cooledMotor o e).1.1 h
  refine ⟨h1, ?_⟩
  views (cooledMotor false) cooledMotor_false_links e at h2
  exact h2

theorem batterySink_rel (o : Opts) (e : String → ℝ) (h : (cooledBattery false).rel o e) :
    e "T_out" = Thermal.bandTout (bandOpts o) (bandOf e) ∧ e "dTdt" = Thermal.bandDTdt (bandOpts o) (bandOf e) := by
  obtain ⟨_, h1, _, _, h2⟩ := (C114_cooledBattery o e).1.1 h
  refine ⟨h1, ?_⟩
  views (cooledBattery false) cooledBattery_false_links e at h2
  exact h2

theorem hose_rel (o : Opts) (V : String → ℝ) : hoseSys.rel o V ↔
    Thermal.hoseDp (V "hose_diameter") (V "hose_length") (V "mdot_coolant") (V "rho_coolant") (V "mu_coolant") =
      some (V "delta_p") := Iff.rfl

set_option maxHeartbeats 8000000 in
theorem n3_node (c : String) (hc : c ∈ cd0Names) (o : Opts) (e : String → ℝ) (h1 : o "fouling_factor_cold" = 0)
    (h2 : o "fouling_factor_hot" = 0) (h : (n3Grp c).rel o e) : N3Node o c e := by
  have hl := (n3Grp_eval c hc).1
  revert h
  parts (n3Grp c) [n3Grp, adder, twiceSub, polarSub, polarDrag_rel, integ_rel, n3Params, interp, n3Drag_rel, n3Load_rel, n3Pressure_rel, n3Oew_rel,
    n3Margin_rel, towWeight_rel, twice_rel, hybridDeck_rel, motor95_rel, coolantPump_rel, hose_rel, withOption_rel]
  rintro ⟨d, a0, mo, ⟨e1, e2, -⟩, t1, t2, b, a3, ms, fp, xm, xf, dm, hm, ⟨pm1, pm2, -⟩, a4, bs, xb, rf, dv, hb, ⟨pb1, pb2, -⟩, a5, a6, w, a7⟩
  obtain ⟨mo1, mo2, mo3, -, mo4, -⟩ := (motor95_rel o _).1 mo
  obtain ⟨b1, b2⟩ := C127_battery o _ b
  obtain ⟨ms1, ms2⟩ := motorSink_rel _ _ ms
  obtain ⟨fp1, -, fp2, fp3, fp4⟩ := (C127_fault o _).2.1 fp
  obtain ⟨xm1, xm2, xm3, xm4, xm5, xm6, xm7⟩ := C114_hx o _ xm h1 h2
  obtain ⟨xf1, xf2, xf3, xf4, xf5, xf6, xf7⟩ := C114_hx o _ xf h1 h2
  obtain ⟨xb1, xb2, xb3, xb4, xb5, xb6, xb7⟩ := C114_hx o _ xb h1 h2
  obtain ⟨bs1, bs2⟩ := batterySink_rel _ _ bs
  obtain ⟨rf1, rf2, rf3, rf4, rf5⟩ := C114_chiller o _ _ rf
  have dm' := fun a b c d => C114_duct _ _ dm ⟨a, b, c, d⟩
  have dv' := fun a b c d => C114_duct _ _ dv ⟨a, b, c, d⟩
  clear mo b ms fp xm xf xb bs rf dm dv
  simp only [ductOf, ductState, geoOf, coldOf, hotOf, chillerOf, jacketOf, jacketOpts, bandOf, String.reduceEq, reduceIte] at *
  viewsOnce (n3Grp c) hl (n3Grp_nodup c hc) e at *
  clear hl
  have hload : e "elec_load" * 1000 = n3Load o e := by
    rw [a3, fp2, pm1, pb1, a4, a5, mo3, rf4]
    simp only [n3Load, n3Motor, n3Pump, n3Refrig]
    ring
  rw [hload] at b1 b2
  rw [b1, rf2] at bs1 bs2
  rw [mo2, mo4] at ms1 ms2
  rw [fp2, mo3] at fp1
  rw [rf3] at xb1 xb2 xb3
  simp only [conv_lbf_kN, conv_lbm_kg] at t1 t2
  refine ⟨?_, ?_, ?_, hload, b2, ms2, ms1, fp1, bs2, bs1, rf1, ?_, ?_, ?_, ?_, ?_, ⟨hm, hb⟩, ?_, w, a7⟩
  · rw [t1, e1, mo1]; rfl
  · rw [t2, e2, mo1]; rfl
  · rw [a0, d]
  · constructor <;> simp only [n3Heat, motorGeo, n3Geo, String.reduceAppend] <;> assumption
  · constructor <;> simp only [n3Heat, faultGeo, n3Geo, String.reduceAppend] <;> assumption
  · constructor <;> simp only [n3Heat, batteryGeo, n3Geo, String.reduceAppend] <;> assumption
  · intro h
    have h1 := h.ram
    have h2 := h.loss2
    have h3 := h.loss3
    have h4 := h.lossN
    have h5 := h.flow
    have h6 := h.ratio
    simp only [String.reduceAppend] at h1 h2 h3 h4 h5 h6
    obtain ⟨k1, k2, k3⟩ := dm' h1 h2 h3 h4 h5 h6
    rw [xm4, k2, fp3, fp4] at k1 k3
    simp only [n3Duct, n3DuctState, motorGeo, n3Geo, String.reduceAppend]
    exact ⟨k1, k3⟩
  · intro h
    have h1 := h.ram
    have h2 := h.loss2
    have h3 := h.loss3
    have h4 := h.lossN
    have h5 := h.flow
    have h6 := h.ratio
    simp only [String.reduceAppend] at h1 h2 h3 h4 h5 h6
    obtain ⟨k1, k2, k3⟩ := dv' h1 h2 h3 h4 h5 h6
    rw [xb4, k2] at k1 k3
    simp only [n3Duct, n3DuctState, batteryGeo, n3Geo, String.reduceAppend]
    exact ⟨k1, k3⟩
  · rw [a6, rf5, xm5, xb5, xf5, pb2, pm2, mo4]
    simp only [motorGeo, faultGeo, batteryGeo, n3Geo, n3Motor, String.reduceAppend]
    ring

end Verif.Wiring
