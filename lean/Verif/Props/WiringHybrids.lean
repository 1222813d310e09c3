import Verif.Proof.WiringHybrids
import Verif.Props.WiringSizing
import Verif.Props.Utils

namespace Verif.Wiring

set_option maxRecDepth 4000

open Verif.Units Verif.VectorComps

variable {m : ℕ}

/-! ### C126: hybrid twins with thermal management

The hypotheses on the fouling factors are those of `C114_hx`. -/

theorem hxAdder_rel (o : Opts) (V : String → ℝ) : hxAdder.rel o V ↔
    V "OEW" = V "OEW_orig" + V "W_hx" + V "W_coolant" ∧ V "drag" = V "drag_orig" + V "drag_hx" ∧
    V "area_constraint" = V "hx_frontal_area" - V "nozzle_area" := by
  simp [hxAdder, sums, Aircraft.hxOew, Aircraft.hxDrag, Aircraft.hxArea, AddSys.compute, AddSys.factors, List.zipIdx, sub_eq_add_neg]

/-- channels of the heat sinks; width and height are given in millimetres -/
noncomputable def coolPlate (o : Opts) (e : String → ℝ) : Thermal.Plate :=
  ⟨0.405, 7.54, o "specific_heat_coolant", e "ac|propulsion|thermal|hx|channel_width" * 0.001,
    e "ac|propulsion|thermal|hx|channel_height" * 0.001, e "ac|propulsion|thermal|hx|channel_length",
    e "ac|propulsion|thermal|hx|n_parallel"⟩

/-- the heat exchanger -/
def coolGeo (e : String → ℝ) : HX.Geo :=
  ⟨e "propmodel.hx.channel_width_cold" * 0.001, e "propmodel.hx.channel_height_cold" * 0.001, e "propmodel.hx.fin_length_cold" * 0.001,
    e "propmodel.hx.channel_width_hot" * 0.001, e "propmodel.hx.channel_height_hot" * 0.001, e "propmodel.hx.fin_length_hot" * 0.001,
    e "propmodel.hx.fin_thickness" * 0.001, e "propmodel.hx.plate_thickness" * 0.001, e "propmodel.hx.case_thickness" * 0.001,
    e "ac|propulsion|thermal|hx|n_wide_cold", e "ac|propulsion|thermal|hx|n_long_cold", e "ac|propulsion|thermal|hx|n_tall",
    e "propmodel.hx.material_rho"⟩

/-- coolant temperature behind the heat exchanger if it is `T` before -/
noncomputable def cooled (e : String → ℝ) (T : ℝ) : ℝ :=
  HX.toutHot (HX.groupQ (HX.groupNtu (coolGeo e) (e "propmodel.hx.material_k")
    ⟨e "propmodel.duct.mdot", e "fltcond|T", e "propmodel.hx.cp_cold", e "propmodel.hx.k_cold", e "propmodel.hx.mu_cold"⟩
    ⟨e "ac|propulsion|thermal|hx|mdot_coolant", T, e "propmodel.hx.cp_hot", e "propmodel.hx.k_hot", e "propmodel.hx.mu_hot"⟩))
    (e "ac|propulsion|thermal|hx|mdot_coolant") T (e "propmodel.hx.cp_hot")

/-- the hybrid power train at a node: both propellers at 2000 rpm; `split` the share of the battery, `extra` the load besides the motors -/
noncomputable def trainOut (o : Opts) (e : String → ℝ) (split extra : ℝ) : Propulsion.HybridOut :=
  Propulsion.twinHybrid o.maps ⟨e "ac|propulsion|propeller|diameter", 2000, e "fltcond|rho", e "fltcond|Utrue"⟩
    ⟨e "ac|propulsion|propeller|diameter", 2000, e "fltcond|rho", e "fltcond|Utrue"⟩
    ⟨e "throttle", e "propulsor_active", e "ac|propulsion|motor|rating" * 1000, e "ac|propulsion|generator|rating" * 1000,
      e "ac|propulsion|engine|rating" * 1000, split, e "propmodel.hybrid_split.power_rating",
      e "propmodel.eng_throttle_set.eng_throttle", extra⟩

/-- what holds at every node: the power train `out`, coolant that enters the battery's heat sink at `Tin` and the heat exchanger at
`Thot`, and a nozzle of the area `area` (m²) behind the heat exchanger -/
structure ThermalNode (o : Opts) (flight : Bool) (cd0 : String) (e : String → ℝ) (out : Propulsion.HybridOut) (Tin Thot area : ℝ) :
    Prop where
  hyb : e "hybridization" = if flight then 0 else 1
  coolant : e "ac|propulsion|thermal|hx|mdot_coolant" = 0.1
  thrust : e "thrust" = out.thrust
  flow : e "fuel_flow" = out.fuel
  balanced : out.residual = 0
  rate : e "propmodel.batt1.dSOCdt" / 1000 = Propulsion.dSOCdt HybridTwin.battOpts (e "ac|weights|W_battery")
    (e "ac|propulsion|battery|specific_energy") out.batteryLoad
  /-- the drag of the duct adds to that of the airframe -/
  drag : e "drag" = Aero.drag ⟨e "fltcond|q", e "ac|geom|wing|S_ref", e cd0, e "fltcond|CL", e "ac|aero|polar|e", e "ac|geom|wing|AR"⟩
    + Ducts.ductDrag 0.15 0.98 (e "fltcond|Utrue") (e "fltcond|rho") area (e "propmodel.hx.delta_p_cold")
  weight : e "weight" = e "ac|weights|MTOW" * 0.45359237 - e "fuel_used"
  /-- the heat exchanger and the coolant add to the empty weight -/
  empty : e "OEW" = Weights.runTwin ((hybridEmptyOf e
    ((0.14 / 1000 * (e "ac|propulsion|engine|rating" * 1000) + 104) / 0.45359237)
    (2 * Propulsion.propWeight 4 (e "ac|propulsion|motor|rating" * 1000 / 745.7) (e "ac|propulsion|propeller|diameter" / 0.3048))
    (2 * (e "ac|propulsion|motor|rating" * 1000 * (1 / 5000)) / 0.45359237)
    (e "ac|propulsion|generator|rating" * 1000 * (1 / 5000) / 0.45359237)).env e) "OEW" * 0.45359237
    + (coolGeo e).weight + e "ac|propulsion|thermal|hx|coolant_mass"
  battery : e "propmodel.batteryheatsink.base.dTdt" = Thermal.massDTdt (o "specific_heat_object") (0.03 * out.batteryLoad)
    (Thermal.plateQ (coolPlate o e) Tin (e "propmodel.batteryheatsink.T") 0.1) (e "ac|weights|W_battery")
  batteryOut : e "propmodel.batteryheatsink.T_out" = Thermal.plateTout (coolPlate o e) Tin (e "propmodel.batteryheatsink.T") 0.1
  motors : e "propmodel.motorheatsink.base.dTdt" = Thermal.massDTdt (o "specific_heat_object") out.motorHeat
    (Thermal.plateQ (coolPlate o e) (e "propmodel.batteryheatsink.T_out") (e "propmodel.motorheatsink.T") 0.1)
    (2 * (e "ac|propulsion|motor|rating" * 1000 * (1 / 5000)))
  motorsOut : e "propmodel.motorheatsink.T_out" =
    Thermal.plateTout (coolPlate o e) (e "propmodel.batteryheatsink.T_out") (e "propmodel.motorheatsink.T") 0.1
  exchanger : e "propmodel.hx.T_out_hot" = cooled e Thot
  air : e "propmodel.duct.mdot" =
    Ducts.ductMdot 0.15 (e "fltcond|Utrue") (e "fltcond|rho") area (e "propmodel.hx.delta_p_cold")
  constraint : e "hxadder.area_constraint" = (coolGeo e).frontal - e "nozzle_area.max"

theorem two_mul_div (x : ℝ) : 2 * (0.45359237 * x) / 0.45359237 = 2 * x := by
  field_simp

set_option maxHeartbeats 4000000 in
theorem passive_node (flight : Bool) (c : String) (hc : c ∈ cd0Names) (o : Opts) (e : String → ℝ)
    (h1 : o "fouling_factor_cold" = 0) (h2 : o "fouling_factor_hot" = 0) (h : (passiveTwinGrp flight c).rel o e) :
    ThermalNode o flight c e (trainOut o e (e "hybrid_factor.vec") 0) (e "propmodel.reservoir.T_out")
      (e "propmodel.motorheatsink.T_out") (e "ac|propulsion|thermal|duct|area_nozzle" * 0.0254 ^ 2) ∧
    e "propmodel.reservoir.rate.dTdt" = Thermal.reservoirRate (e "propmodel.hx.T_out_hot") (e "propmodel.reservoir.T_out") 0.1
      (e "ac|propulsion|thermal|hx|coolant_mass") := by
  have hl := (passiveTwinGrp_eval flight c hc).1
  revert h
  parts (passiveTwinGrp flight c) [passiveTwinGrp, thermalTwin, thermalControls, consts, polarSub, polarDrag_rel, interp, maxComp,
    hxAdder_rel, weightSub, weightSys_rel, integ_rel]
  rintro ⟨⟨r1, r2, r3⟩, p, d, w, ⟨a1, a2, a3⟩, v⟩
  have hW := empty_of_twin (e := e) w
  obtain ⟨p, ⟨b, s⟩, x, rr, c1, c2, c3, c4, c5, c6⟩ := C114_passiveHybrid o _ h1 h2 p
  have p1 := p.thrust
  have p2 := p.fuel
  have p3 := p.balanced
  have p4 := p.rate
  have p5 := p.motors
  have p6 := p.propellers
  have p7 := p.engine
  have p8 := p.generator
  have b1 := b.heat
  have b2 := b.out
  have b3 := b.rate
  have s1 := s.heat
  have s2 := s.out
  have s3 := s.rate
  have x1 := x.heat
  have x2 := x.out
  have x4 := x.air
  have x5 := x.drag
  have x6 := x.weight
  have x7 := x.frontal
  clear p w b s x
  simp only [inputsTP, List.map_cons, List.map_nil, List.forall_mem_cons, List.not_mem_nil, false_imp_iff, implies_true] at hW
  simp only [sinkPlate, String.reduceAppend] at b1 b2 b3 s1 s2 s3
  simp only [sysGeo, String.reduceAppend] at x1 x2 x4 x5 x6 x7
  rw [c1] at b1 b2 s1 s2 x1 x2 rr
  rw [c2] at rr
  rw [c3, c4, c5, c6] at b1 b2 s1 s2
  clear c1 c2 c3 c4 c5 c6
  revert r1 r2 r3 d v a1 a2 a3 p1 p2 p3 p4 p5 p6 p7 p8 hW b1 b2 b3 s1 s2 s3 x1 x2 x4 x5 x6 x7 rr
  simp only [sideOf, hybridOf]
  viewsOnce (passiveTwinGrp flight c) hl (passiveTwinGrp_nodup flight c hc) e
  simp only [ne_eq, not_true_eq_false, false_imp_iff, implies_true, conv_m2_ft2, conv_kg_lb, true_imp_iff, and_true]
  intro r1 r2 r3 d v a1 a2 a3 rr p1 p2 p3 p4 p5 p6 p7 p8 b1 b2 b3 s1 s2 s3 x1 x2 x4 x5 x6 x7 hW
  rw [r1] at p1 p2 p3 p4 b3 s3
  rw [r2] at rr b1 b2 s1 s2
  rw [b1] at b3
  rw [s1] at s3
  rw [x1] at x2
  rw [p5, p6, p7, p8, two_mul_div] at hW
  refine ⟨⟨r3, r2, p1, p2, p3, p4, ?_, v, ?_, b3, b2, s3, s2, x2, x4, ?_⟩, rr⟩
  · rw [a2, d, x5]
  · rw [a1, hW, x6]
    rfl
  · rw [a3, x7]
    rfl

/-- the refrigerator, rated in kW -/
noncomputable def refrigNode (o : Opts) (e : String → ℝ) : Thermal.Chiller :=
  ⟨o "specific_heat", e "propmodel.hx.T_out_hot", e "propmodel.motorheatsink.T_out", 0.1,
    e "ac|propulsion|thermal|refrig|rating" * 1000, e "ac|propulsion|thermal|refrig|eff", e "propmodel.refrig.bypass",
    e "propmodel.refrig.COP"⟩

set_option maxHeartbeats 4000000 in
theorem active_node (flight : Bool) (c : String) (hc : c ∈ cd0Names) (o : Opts) (e : String → ℝ)
    (h1 : o "fouling_factor_cold" = 0) (h2 : o "fouling_factor_hot" = 0) (h : (activeTwinGrp flight c).rel o e) :
    ThermalNode o flight c e (trainOut o e (e "hybrid_factor.vec") (Thermal.selLoad (refrigNode o e).sel))
      (Thermal.selCold (refrigNode o e).sel) (Thermal.selHot (refrigNode o e).sel) (e "propmodel.duct.area_nozzle") ∧
    (refrigNode o e).converged ∧ e "propmodel.refrig.component_weight" =
      Thermal.pumpWeight (e "ac|propulsion|thermal|refrig|rating" * 1000) (e "ac|propulsion|thermal|refrig|specific_power") ∧
    e "propmodel.area_nozzle" = e "ac|propulsion|thermal|duct|area_nozzle" := by
  have hl := (activeTwinGrp_eval flight c hc).1
  revert h
  parts (activeTwinGrp flight c) [activeTwinGrp, thermalTwin, thermalControls, consts, polarSub, polarDrag_rel, interp, maxComp,
    hxAdder_rel, weightSub, weightSys_rel, integ_rel]
  rintro ⟨⟨r1, r2, r3⟩, p, d, w, ⟨a1, a2, a3⟩, v⟩
  have hW := empty_of_twin (e := e) w
  obtain ⟨p, ⟨b, s⟩, x, q1, q2, q3, q4, ⟨c1, c2, c3, c4, c5, c6⟩, y⟩ := C114_refrigeratedHybrid o _ h1 h2 p
  have p1 := p.thrust
  have p2 := p.fuel
  have p3 := p.balanced
  have p4 := p.rate
  have p5 := p.motors
  have p6 := p.propellers
  have p7 := p.engine
  have p8 := p.generator
  have b1 := b.heat
  have b2 := b.out
  have b3 := b.rate
  have s1 := s.heat
  have s2 := s.out
  have s3 := s.rate
  have x1 := x.heat
  have x2 := x.out
  have x4 := x.air
  have x5 := x.drag
  have x6 := x.weight
  have x7 := x.frontal
  clear p w b s x
  simp only [inputsTP, List.map_cons, List.map_nil, List.forall_mem_cons, List.not_mem_nil, false_imp_iff, implies_true] at hW
  simp only [sinkPlate, String.reduceAppend] at b1 b2 b3 s1 s2 s3
  simp only [sysGeo, String.reduceAppend] at x1 x2 x4 x5 x6 x7
  simp only [refrigOf] at q1 q2 q3 p1 p2 p3 p4 b3 s3
  rw [c1] at b1 b2 s1 s2 x1 x2 q1 q2 q3 p1 p2 p3 p4 b3 s3
  rw [c3, c4, c5, c6] at b1 b2 s1 s2
  clear c1 c2 c3 c4 c5 c6
  revert r1 r2 r3 d v a1 a2 a3 p1 p2 p3 p4 p5 p6 p7 p8 hW b1 b2 b3 s1 s2 s3 x1 x2 x4 x5 x6 x7 q1 q2 q3 q4 y
  simp only [sideOf, hybridOf]
  viewsOnce (activeTwinGrp flight c) hl (activeTwinGrp_nodup flight c hc) e
  simp only [ne_eq, not_true_eq_false, false_imp_iff, implies_true, conv_m2_ft2, conv_kg_lb, true_imp_iff, and_true]
  intro r1 r2 r3 d v a1 a2 a3 q1 q2 q3 q4 y p1 p2 p3 p4 p5 p6 p7 p8 b1 b2 b3 s1 s2 s3 x1 x2 x4 x5 x6 x7 hW
  rw [r1] at p1 p2 p3 p4 b3 s3
  rw [r2] at q1 q2 q3 p1 p2 p3 p4 b1 b2 b3 s1 s2 s3
  rw [q2] at b1 b2
  rw [q3] at x1 x2
  rw [b1] at b3
  rw [s1] at s3
  rw [x1] at x2
  rw [p5, p6, p7, p8, two_mul_div] at hW
  refine ⟨⟨r3, r2, p1, p2, p3, p4, ?_, v, ?_, b3, b2, s3, s2, x2, x4, ?_⟩, q1, q4, y⟩
  · rw [a2, d, x5]
  · rw [a1, hW, x6]
    rfl
  · rw [a3, x7]
    rfl

end Verif.Wiring
