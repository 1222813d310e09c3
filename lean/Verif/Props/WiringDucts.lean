import Verif.Proof.WiringDucts
import Verif.Model.DuctGroup

namespace Verif.Wiring

open Verif.Units Verif.VectorComps

/-! ### C114: the groups connect what the models of the groups assume -/

theorem C114_inlet_setup : inlet.problems = [] ∧
    inlet.ins = [⟨"T", "K", true, true⟩, ⟨"Utrue", "m/s", true, true⟩, ⟨"p", "Pa", true, true⟩,
      ⟨"totalpressure.eta_ram", "", true, false⟩] := by
  constructor <;> decide +kernel

/-- `Inlet`, for every state: the components are converged exactly if the outputs are those of the inlet model -/
theorem C114_inlet (o : Opts) (e : String → ℝ) : inlet.rel o e ↔
    e "a" = Ducts.sos (o "R") (o "gamma") (e "T") ∧
    e "M" = Ducts.inletM (o "R") (o "gamma") (e "T") (e "Utrue") ∧
    e "Tt" = Ducts.inletTt (o "R") (o "gamma") (e "T") (e "Utrue") ∧
    e "freestreamtotalpressure.pt" = Ducts.inletPt (o "R") (o "gamma") 1 (e "p") (e "T") (e "Utrue") ∧
    e "pt" = Ducts.inletPt (o "R") (o "gamma") (e "totalpressure.eta_ram") (e "p") (e "T") (e "Utrue") := by
  wire inlet inlet_links [ramRecovery, dDuctSpeedOfSound, ductSpeedOfSound, dDuctMachFromSpeed, ductMachFromSpeed,
    dDuctTotalTemperature, ductTotalTemperature, dDuctTotalPressure, ductTotalPressure]
  simp only [Ducts.inletTt, Ducts.inletPt, Ducts.inletM, mul_one]
  constructor
  · rintro ⟨h1, h2, h3, h4, h5⟩
    rw [h1, h2]
    exact ⟨rfl, rfl, h3.symm, h4.symm, by rw [h5, ← h4]⟩
  · rintro ⟨h1, h2, h3, h4, h5⟩
    rw [← h1] at h2 h3 h4 h5
    rw [← h2] at h3 h4 h5
    exact ⟨h1.symm, h2.symm, h3.symm, h4.symm, by rw [h5, h4]⟩

/-- connecting from a misspelt output is noticed, and so is an input with two sources -/
example : ({ inlet with conns := [("freestreamtotalpressure.p", "totalpressure.pt_in")] } : Grp).problems
    = [.badConnect "freestreamtotalpressure.p" "totalpressure.pt_in"] := by decide +kernel
example : ({ inlet with conns := inlet.conns ++ [("Tt", "totalpressure.pt_in")] } : Grp).problems
    = [.doubleSource "totalpressure.pt_in"] := by decide +kernel
/-- connecting a temperature to a pressure is noticed -/
example : ({ inlet with conns := [("Tt", "totalpressure.pt_in")] } : Grp).problems
    = [.units "Tt" "totalpressure.pt_in"] := by decide +kernel

/-- a converged inlet at rest -/
example (o : Opts) : ∃ e, inlet.rel o e ∧ e "Utrue" = 0 ∧ e "p" = 101325 ∧ e "T" = 288 ∧ e "M" = 0 ∧ e "pt" = 101325 * 0.9 := by
  refine ⟨table [("Utrue", 0), ("p", 101325), ("T", 288), ("a", Ducts.sos (o "R") (o "gamma") 288), ("M", 0), ("Tt", 288),
    ("freestreamtotalpressure.pt", 101325), ("pt", 101325 * 0.9), ("totalpressure.eta_ram", 0.9)], ?_, ?_, ?_, ?_, ?_, ?_⟩
  · rw [C114_inlet]
    simp [table, List.lookup, Ducts.inletPt, Ducts.inletTt, Ducts.inletM, Ducts.machFromSpeed, Ducts.tTotal, Ducts.pTotal]
  all_goals simp [table, List.lookup]

theorem C114_station_setup : station.problems = [] ∧
    station.ins.map Var.name = ["Tt_in", "pt_in", "mdot", "area", "delta_p", "dynamic_pressure_loss_factor", "pressure_recovery",
      "heat_in", "cp"] := by
  constructor <;> decide +kernel

/-- inputs of a station in the state `e` -/
def staHeat (e : String → ℝ) : Ducts.HeatIn :=
  ⟨e "Tt_in", e "pt_in", e "mdot", e "rho", e "area", e "delta_p", e "dynamic_pressure_loss_factor", e "pressure_recovery",
    e "heat_in", e "cp"⟩

/-- `DuctStation`: converged exactly if the Mach number and the density solve the station, and the outputs are the total and the
static quantities behind it -/
theorem C114_station (o : Opts) (e : String → ℝ) : station.rel o e ↔
    Ducts.Station (o "R") (o "gamma") (staHeat e) (e "M") ∧
    e "Tt_out" = Ducts.ttOut (staHeat e) ∧ e "pt_out" = Ducts.ptOut (staHeat e) ∧
    e "T" = Ducts.tStatic (o "gamma") (e "Tt_out") (e "M") ∧ e "p" = Ducts.pStatic (o "gamma") (e "pt_out") (e "M") ∧
    e "a" = Ducts.sos (o "R") (o "gamma") (e "T") := by
  wire station station_links [dHeatAddition, heatAddition, dDuctTemperature, ductTemperature, dDuctPressure, ductPressure,
    dDuctDensity, ductDensity, dDuctSpeedOfSound, ductSpeedOfSound, dMachDuct, machDuct]
  constructor
  · rintro ⟨⟨h1, h2⟩, h3, h4, h5, h6, h7⟩
    refine ⟨⟨?_, ?_⟩, h1.symm, h2.symm, h3.symm, h4.symm, h6.symm⟩
    · change e "rho" = _
      rw [← h5, ← h4, ← h3, ← h1, ← h2]; rfl
    · rw [← h6, ← h3, ← h1] at h7; exact h7
  · rintro ⟨⟨h1, h2⟩, h3, h4, h5, h6, h7⟩
    refine ⟨⟨h3.symm, h4.symm⟩, h5.symm, h6.symm, ?_, h7.symm, ?_⟩
    · change e "rho" = _ at h1
      rw [h1, h6, h5, h3, h4]
    · rw [h7, h5, h3]; exact h2

theorem C114_nozzle_setup : nozzle.problems = [] ∧
    nozzle.ins.map Var.name = ["pt_in", "mdot", "area", "dynamic_pressure_loss_factor", "p_exit", "Tt"] := by
  constructor <;> decide +kernel

/-- state of the nozzle -/
def nozzleOf (e : String → ℝ) : Ducts.Nozzle :=
  ⟨e "pt_in", e "Tt", e "p_exit", e "area", e "dynamic_pressure_loss_factor", e "mdot", e "nozzle_pressure_ratio", e "M"⟩

/-- `OutletNozzle`, if no component raises: with its mass flow matched, converged exactly if the nozzle model is -/
theorem C114_nozzle (o : Opts) (e : String → ℝ) (hpr : 0 < e "nozzle_pressure_ratio") :
    (nozzle.rel o e ∧ e "mdot_actual" = e "mdot") ↔
    (nozzleOf e).Converged (o "R") (o "gamma") (e "rho") ∧ e "pt" = (nozzleOf e).pt (e "rho") ∧
    e "T" = (nozzleOf e).T (o "gamma") ∧ e "p" = (nozzleOf e).p (o "gamma") (e "rho") ∧
    e "a" = Ducts.sos (o "R") (o "gamma") (e "T") ∧
    e "mdot_actual" = Ducts.massFlow (e "M") (e "a") (e "area") (e "rho") := by
  wire nozzle nozzle_links [dNozzleLoss, nozzleLoss, dExitRatio, exitRatio, dExitMachComp, exitMachComp, dDuctTemperature,
    ductTemperature, dDuctPressure, ductPressure, dDuctDensity, ductDensity, dDuctSpeedOfSound, ductSpeedOfSound, dMassFlow,
    massFlow]
  constructor
  · rintro ⟨⟨h1, h2, h3, h4, h5, h6, h7, h8⟩, h9⟩
    refine ⟨⟨?_, ⟨hpr, h3⟩, ?_, ?_⟩, h1.symm, h4.symm, ?_, h7.symm, h8.symm⟩
    · rw [← h1] at h2; exact h2
    · rw [← h5, ← h4, ← h1] at h6; exact h6.symm
    · rw [← h7, ← h4] at h8
      change Ducts.matchRes _ (e "mdot") = 0
      rw [← h9, ← h8]; exact sub_self _
    · rw [← h1] at h5; exact h5.symm
  · rintro ⟨⟨h1, h2, h3, h4⟩, h5, h6, h7, h8, h9⟩
    refine ⟨⟨h5.symm, ?_, h2.2, h6.symm, ?_, ?_, h8.symm, h9.symm⟩, ?_⟩
    · rw [h5]; exact h1
    · rw [h5]; exact h7.symm
    · rw [h7, h6]; exact h3.symm
    · rw [h9, h8, h6]; exact sub_eq_zero.1 h4

theorem C114_duct_setup : duct.problems = [] := by decide +kernel

/-- inputs of the duct in the state `e`; areas of the intake and the nozzle are given in square inches -/
def ductOf (o : Opts) (e : String → ℝ) : Ducts.DuctIn where
  pInf := e "p_inf"
  TInf := e "T_inf"
  U := e "Utrue"
  cp := e "cp"
  area1 := e "area_1" * 0.0254 ^ 2
  dp1 := e "delta_p_1"
  q1 := e "heat_in_1"
  rec1 := e "pressure_recovery_1"
  loss1 := e "loss_factor_1"
  area2 := e "area_2"
  dp2 := e "delta_p_2"
  q2 := e "heat_in_2"
  rec2 := e "pressure_recovery_2"
  area3 := e "area_3"
  rec3 := e "pressure_recovery_3"
  areaN := e "area_nozzle" * 0.0254 ^ 2
  hack := e "convergence_hack"
  cfg := o "cfg"

/-- unknowns of the duct in the state `e` -/
def ductState (e : String → ℝ) : Ducts.DuctState where
  mdot := e "mdot"
  rho1 := e "sta1.rho"
  M1 := e "sta1.M"
  rho2 := e "sta2.rho"
  M2 := e "sta2.M"
  rho3 := e "sta3.rho"
  M3 := e "sta3.M"
  prN := e "nozzle.nozzle_pressure_ratio"
  MN := e "nozzle.M"
  rhoN := e "nozzle.rho"

/-- the inputs which the duct groups leave open have their declared values (ducts.py:468, 792, 883) -/
structure Open (e : String → ℝ) : Prop where
  ram : e "inlet.totalpressure.eta_ram" = 1
  loss2 : e "sta2.dynamic_pressure_loss_factor" = 0
  loss3 : e "sta3.dynamic_pressure_loss_factor" = 0
  lossN : e "nozzle.dynamic_pressure_loss_factor" = 0

/-- A converged state of `ImplicitCompressibleDuct_ExternalHX` is a converged state of the duct model with the pressure change and
the heat given to station 3; the net force is that of the model. -/
theorem C114_duct (o : Opts) (e : String → ℝ) (h : duct.rel o e) (hd : Open e) (hm : 0 < e "mdot")
    (hpr : 0 < e "nozzle.nozzle_pressure_ratio") :
    (ductOf o e).Converged (o "R") (o "gamma") (e "sta3.delta_p") (e "sta3.heat_in") (ductState e) ∧
    e "area_nozzle" = e "area_nozzle_in" ∧
    e "force.F_net" = (ductOf o e).force (o "R") (o "gamma") (e "sta3.delta_p") (e "sta3.heat_in") (ductState e) := by
  revert h
  wire duct duct_links [ductVars, dFlowMatcher, flowMatcher, exitPressure, dNetForce, netForce, AddSys.compute, AddSys.factors]
  intro hN hF hI h1 h2 h3 hE hZ hf
  have hZ' := fun hp => (C114_nozzle o (duct.view e "nozzle") hp).1
  simp only [C114_station, C114_inlet, staHeat, nozzleOf] at hI h1 h2 h3 hZ'
  links duct_links at hI h1 h2 h3 hZ'
  simp only [hd.ram, hd.loss2, hd.loss3, hd.lossN] at hI h2 h3 hZ'
  obtain ⟨hz, hpt, hT, hp, ha, hmf⟩ := hZ' hpr ⟨hZ, sub_eq_zero.1 hF⟩
  have e1 : Ducts.HeatIn.mk (e "inlet.Tt") (e "inlet.pt") (e "mdot") (e "sta1.rho") (e "area_1" * 0.0254 ^ 2) (e "delta_p_1")
      (e "loss_factor_1") (e "pressure_recovery_1") (e "heat_in_1") (e "cp")
      = (ductOf o e).sta1 (o "R") (o "gamma") (ductState e) := by
    rw [hI.2.2.1, hI.2.2.2.2]; rfl
  rw [e1] at h1
  have e2 : Ducts.HeatIn.mk (e "sta1.Tt_out") (e "sta1.pt_out") (e "mdot") (e "sta2.rho") (e "area_2") (e "delta_p_2")
      0 (e "pressure_recovery_2") (e "heat_in_2") (e "cp")
      = (ductOf o e).sta2 (o "R") (o "gamma") (ductState e) := by
    rw [h1.2.1, h1.2.2.1]; rfl
  rw [e2] at h2
  have e3 : Ducts.HeatIn.mk (e "sta2.Tt_out") (e "sta2.pt_out") (e "mdot") (e "sta3.rho") (e "area_3") (e "sta3.delta_p")
      0 (e "pressure_recovery_3") (e "sta3.heat_in") (e "cp")
      = (ductOf o e).sta3 (o "R") (o "gamma") (e "sta3.delta_p") (e "sta3.heat_in") (ductState e) := by
    rw [h2.2.1, h2.2.2.1]; rfl
  rw [e3] at h3
  have e4 : Ducts.Nozzle.mk (e "sta3.pt_out") (e "sta3.Tt_out") (e "p_exit") (e "area_nozzle" * 0.0254 ^ 2) 0 (e "mdot")
      (e "nozzle.nozzle_pressure_ratio") (e "nozzle.M")
      = (ductOf o e).nozzle (o "R") (o "gamma") (e "sta3.delta_p") (e "sta3.heat_in") (ductState e) := by
    rw [h3.2.1, h3.2.2.1, hE]; rfl
  rw [e4] at hz hp
  exact ⟨⟨hm, h1.1, h2.1, h3.1, hz⟩, hN, by rw [← hf, hp]; rfl⟩

local macro "ok" : tactic => `(tactic| first | rfl | trivial)

/-- Conversely every converged state of the duct model is one of the group. -/
theorem C114_duct_exists (o : Opts) (d : Ducts.DuctIn) (dp q : ℝ) (s : Ducts.DuctState) (hcfg : d.cfg = o "cfg")
    (h : d.Converged (o "R") (o "gamma") dp q s) :
    ∃ e, duct.rel o e ∧ Open e ∧ ductOf o e = d ∧ ductState e = s ∧ e "sta3.delta_p" = dp ∧ e "sta3.heat_in" = q := by
  let R := o "R"
  let g := o "gamma"
  let z := d.nozzle R g dp q s
  let i1 := d.sta1 R g s
  let i2 := d.sta2 R g s
  let i3 := d.sta3 R g dp q s
  have hA : (0.0254 : ℝ) ^ 2 ≠ 0 := by norm_num
  obtain ⟨e, he⟩ : ∃ e, e = table [("cp", d.cp), ("area_1", d.area1 / 0.0254 ^ 2), ("delta_p_1", d.dp1), ("heat_in_1", d.q1),
    ("pressure_recovery_1", d.rec1), ("loss_factor_1", d.loss1), ("delta_p_2", d.dp2), ("heat_in_2", d.q2),
    ("pressure_recovery_2", d.rec2), ("pressure_recovery_3", d.rec3), ("convergence_hack", d.hack),
    ("area_nozzle", d.areaN / 0.0254 ^ 2), ("area_nozzle_in", d.areaN / 0.0254 ^ 2), ("mdot", s.mdot), ("mdot_actual", s.mdot),
    ("p_inf", d.pInf), ("T_inf", d.TInf), ("Utrue", d.U), ("inlet.a", Ducts.sos R g d.TInf), ("inlet.M", Ducts.inletM R g d.TInf d.U),
    ("inlet.Tt", Ducts.inletTt R g d.TInf d.U), ("inlet.freestreamtotalpressure.pt", Ducts.inletPt R g 1 d.pInf d.TInf d.U),
    ("inlet.pt", Ducts.inletPt R g 1 d.pInf d.TInf d.U), ("inlet.totalpressure.eta_ram", 1), ("sta1.rho", s.rho1), ("sta1.M", s.M1),
    ("sta1.Tt_out", Ducts.ttOut i1), ("sta1.pt_out", Ducts.ptOut i1), ("sta1.T", Ducts.tStatic g (Ducts.ttOut i1) s.M1),
    ("sta1.p", Ducts.pStatic g (Ducts.ptOut i1) s.M1), ("sta1.a", Ducts.sos R g (Ducts.tStatic g (Ducts.ttOut i1) s.M1)),
    ("area_2", d.area2), ("sta2.rho", s.rho2), ("sta2.M", s.M2), ("sta2.dynamic_pressure_loss_factor", 0),
    ("sta2.Tt_out", Ducts.ttOut i2), ("sta2.pt_out", Ducts.ptOut i2), ("sta2.T", Ducts.tStatic g (Ducts.ttOut i2) s.M2),
    ("sta2.p", Ducts.pStatic g (Ducts.ptOut i2) s.M2), ("sta2.a", Ducts.sos R g (Ducts.tStatic g (Ducts.ttOut i2) s.M2)),
    ("area_3", d.area3), ("sta3.rho", s.rho3), ("sta3.M", s.M3), ("sta3.dynamic_pressure_loss_factor", 0),
    ("sta3.delta_p", dp), ("sta3.heat_in", q),
    ("sta3.Tt_out", Ducts.ttOut i3), ("sta3.pt_out", Ducts.ptOut i3), ("sta3.T", Ducts.tStatic g (Ducts.ttOut i3) s.M3),
    ("sta3.p", Ducts.pStatic g (Ducts.ptOut i3) s.M3), ("sta3.a", Ducts.sos R g (Ducts.tStatic g (Ducts.ttOut i3) s.M3)),
    ("p_exit", d.pInf + d.hack), ("nozzle.nozzle_pressure_ratio", s.prN), ("nozzle.M", s.MN), ("nozzle.rho", s.rhoN),
    ("nozzle.dynamic_pressure_loss_factor", 0), ("nozzle.pt", z.pt s.rhoN), ("nozzle.T", z.T g), ("nozzle.p", z.p g s.rhoN),
    ("nozzle.a", Ducts.sos R g (z.T g)), ("force.F_net", d.force R g dp q s)] := ⟨_, rfl⟩
  have hpr : 0 < s.prN := h.nz.mach.1
  have hflow := sub_eq_zero.1 h.nz.flow
  refine ⟨e, ?_, ?_, ?_, ?_, ?_, ?_⟩
  · wire duct duct_links [ductVars, dFlowMatcher, flowMatcher, exitPressure, dNetForce, netForce, AddSys.compute, AddSys.factors]
    have hZ' := fun hp => (C114_nozzle o (duct.view e "nozzle") hp).2
    simp only [C114_station, C114_inlet, staHeat, nozzleOf] at hZ' ⊢
    links duct_links at hZ' ⊢
    simp only [he, table, List.lookup, String.reduceBEq, Option.getD_some, div_mul_cancel₀ _ hA] at hZ' ⊢
    refine ⟨by ok, sub_self _, ⟨by ok, by ok, by ok, by ok, by ok⟩, ⟨h.s1, by ok, by ok, by ok, by ok, by ok⟩, ⟨h.s2, by ok, by ok, by ok, by ok, by ok⟩,
      ⟨h.s3, by ok, by ok, by ok, by ok, by ok⟩, by ok, ?_, ?_⟩
    · exact (hZ' hpr ⟨h.nz, by ok, by ok, by ok, by ok, hflow.symm⟩).1
    · rw [← hcfg]; rfl
  · constructor <;> simp only [he, table, List.lookup, String.reduceBEq, Option.getD_some]
  · simp only [ductOf, he, table, List.lookup, String.reduceBEq, Option.getD_some, div_mul_cancel₀ _ hA, ← hcfg]
  · simp only [ductState, he, table, List.lookup, String.reduceBEq, Option.getD_some]
  · simp only [he, table, List.lookup, String.reduceBEq, Option.getD_some]
  · simp only [he, table, List.lookup, String.reduceBEq, Option.getD_some]

theorem C114_hx_setup : hxGroup.problems = [] := by decide +kernel

/-- geometry of the heat exchanger; the lengths are given in millimetres -/
def geoOf (e : String → ℝ) : HX.Geo :=
  ⟨e "channel_width_cold" * 0.001, e "channel_height_cold" * 0.001, e "fin_length_cold" * 0.001, e "channel_width_hot" * 0.001,
    e "channel_height_hot" * 0.001, e "fin_length_hot" * 0.001, e "fin_thickness" * 0.001, e "plate_thickness" * 0.001,
    e "case_thickness" * 0.001, e "ac|propulsion|thermal|hx|n_wide_cold", e "ac|propulsion|thermal|hx|n_long_cold",
    e "ac|propulsion|thermal|hx|n_tall", e "material_rho"⟩

def coldOf (e : String → ℝ) : HX.Fluid := ⟨e "mdot_cold", e "T_in_cold", e "cp_cold", e "k_cold", e "mu_cold"⟩
def hotOf (e : String → ℝ) : HX.Fluid := ⟨e "mdot_hot", e "T_in_hot", e "cp_hot", e "k_hot", e "mu_hot"⟩

theorem C114_hx (o : Opts) (e : String → ℝ) (h : hxGroup.rel o e) (hc : o "fouling_factor_cold" = 0) (hh : o "fouling_factor_hot" = 0) :
    let g := geoOf e
    let q := HX.groupQ (HX.groupNtu g (e "material_k") (coldOf e) (hotOf e))
    e "heat_transfer" = q ∧ e "T_out_cold" = HX.toutCold q (e "mdot_cold") (e "T_in_cold") (e "cp_cold") ∧
    e "T_out_hot" = HX.toutHot q (e "mdot_hot") (e "T_in_hot") (e "cp_hot") ∧
    e "frontal_area" = g.frontal ∧ e "component_weight" = g.weight ∧
    e "delta_p_cold" = HX.deltaP (o "Kc_cold") (o "Ke_cold") ⟨g.length,
      HX.friction (HX.f1 g.shapeCold) (HX.f2 g.shapeCold) (HX.reDh (e "mdot_cold") g.dhCold g.xsCold (e "mu_cold")), e "mdot_cold",
      e "rho_cold", g.dhCold, g.xsCold⟩ ∧
    e "delta_p_hot" = HX.deltaP (o "Kc_hot") (o "Ke_hot") ⟨g.width,
      HX.friction (HX.f1 g.shapeHot) (HX.f2 g.shapeHot) (HX.reDh (e "mdot_hot") g.dhHot g.xsHot (e "mu_hot")), e "mdot_hot",
      e "rho_hot", g.dhHot, g.xsHot⟩ := by
  revert h
  wire hxGroup hxGroup_links [dFinGeometry, finGeometry, dReynoldsDh, reynoldsDh, dFinData, finData, dNusseltColburn, nusseltColburn,
    dConvection, convection, dFinEfficiency, finEfficiency, dUaOverall, uaOverall, dNtuMethod, ntuMethod, dCrossFlow, crossFlow,
    dHeatTransfer, heatTransfer, dOutletTemperatures, outletTemperatures, dPressureDrop, pressureDrop]
  intro n1 n2 n3 g1 g2 g3 g4 g5 g6 g7 g8 g9 g10 g11 g12 g13 g14 g15 g16 g17 g18 g19 g20 g21 r1 r2 j1 j2 j3 j4 u1 u2 v1 v2 f1 f2 ua m1
    m2 m3 ef q t1 t2 p1 p2
  simp only [hc, hh] at ua
  have hq : e "heat_transfer" = HX.groupQ (HX.groupNtu (geoOf e) (e "material_k") (coldOf e) (hotOf e)) := by
    rw [← q, ← ef, ← m1, ← m2, ← m3, ← ua, ← f1, ← f2, ← v1, ← v2, ← u1, ← u2, ← j1, ← j3, ← r1, ← r2, ← g6, ← g7, ← g8, ← g9, ← g11, ← g12,
      ← g13, ← g14, ← g15, ← g16, ← g17, ← g19, ← g20, ← g21, n1, n2, n3]
    rfl
  refine ⟨hq, ?_, ?_, ?_, ?_, ?_, ?_⟩
  · rw [← t1, hq]
  · rw [← t2, hq]
  · rw [← g5, n1, n2, n3]; rfl
  · rw [← g1, n1, n2, n3]; rfl
  · rw [← p1, ← j2, ← r1, ← g2, ← g6, ← g8, ← g11, ← g12, ← g13, n1, n2, n3]; rfl
  · rw [← p2, ← j4, ← r2, ← g4, ← g14, ← g16, ← g19, ← g20, ← g21, n1, n2, n3]; rfl

theorem C114_ductHx_setup : ductHx.problems = [] := by decide +kernel

/-- the heat exchanger inside the duct: its variables are found under `hx`, except for the number of cold channels and the coolant -/
def ductGeo (e : String → ℝ) : HX.Geo :=
  ⟨e "hx.channel_width_cold" * 0.001, e "hx.channel_height_cold" * 0.001, e "hx.fin_length_cold" * 0.001,
    e "hx.channel_width_hot" * 0.001, e "hx.channel_height_hot" * 0.001, e "hx.fin_length_hot" * 0.001, e "hx.fin_thickness" * 0.001,
    e "hx.plate_thickness" * 0.001, e "hx.case_thickness" * 0.001, e "ac|propulsion|thermal|hx|n_wide_cold",
    e "hx.ac|propulsion|thermal|hx|n_long_cold", e "hx.ac|propulsion|thermal|hx|n_tall", e "hx.material_rho"⟩

def ductHxIn (o : Opts) (e : String → ℝ) : Ducts.HxIn where
  geo := ductGeo e
  km := e "hx.material_k"
  cpc := e "hx.cp_cold"
  kc := e "hx.k_cold"
  muc := e "hx.mu_cold"
  hot := ⟨e "mdot_hot", e "T_in_hot", e "hx.cp_hot", e "hx.k_hot", e "hx.mu_hot"⟩
  Kc := o "Kc_cold"
  Ke := o "Ke_cold"

/-- inputs of the duct: stations 2 and 3 have the frontal area of the heat exchanger -/
def ductHxOf (o : Opts) (e : String → ℝ) : Ducts.DuctIn :=
  { ductOf o e with area2 := e "hx.frontal_area", area3 := e "hx.frontal_area" }

/-- A converged state of `ImplicitCompressibleDuct` is a converged state of the model of the duct with its heat exchanger. -/
theorem C114_ductHx (o : Opts) (e : String → ℝ) (h : ductHx.rel o e) (hd : Open e) (hm : 0 < e "mdot")
    (hpr : 0 < e "nozzle.nozzle_pressure_ratio") (hc : o "fouling_factor_cold" = 0) (hh : o "fouling_factor_hot" = 0) :
    (ductHxOf o e).ConvergedHx (o "R") (o "gamma") (ductHxIn o e) (ductState e) ∧
    e "T_out_hot" = (ductHxIn o e).tHotOut (o "R") (o "gamma") (ductHxOf o e) (ductState e) ∧
    e "hx.T_out_cold" = (ductHxIn o e).tColdOut (o "R") (o "gamma") (ductHxOf o e) (ductState e) ∧
    e "force.F_net" = (ductHxOf o e).force (o "R") (o "gamma") ((ductHxIn o e).dp (ductState e))
      ((ductHxIn o e).q (o "R") (o "gamma") (ductHxOf o e) (ductState e)) (ductState e) := by
  revert h
  wire ductHx ductHx_links [ductVars, dFlowMatcher, flowMatcher, exitPressure, dNetForce, netForce, AddSys.compute, AddSys.factors]
  intro hF hI h1 h2 hX h3 hE hZ hf
  have hZ' := fun hp => (C114_nozzle o (ductHx.view e "nozzle") hp).1
  have hX' := C114_hx o _ hX hc hh
  simp only [C114_station, C114_inlet, staHeat, nozzleOf, geoOf, coldOf, hotOf] at hI h1 h2 h3 hZ' hX'
  links ductHx_links at hI h1 h2 h3 hZ' hX'
  simp only [hd.ram, hd.loss2, hd.loss3, hd.lossN] at hI h2 h3 hZ'
  obtain ⟨hz, hpt, hT, hp, ha, hmf⟩ := hZ' hpr ⟨hZ, sub_eq_zero.1 hF⟩
  obtain ⟨x1, x2, x3, x4, x5, x6, x7⟩ := hX'
  have e1 : Ducts.HeatIn.mk (e "inlet.Tt") (e "inlet.pt") (e "mdot") (e "sta1.rho") (e "area_1" * 0.0254 ^ 2) (e "delta_p_1")
      (e "loss_factor_1") (e "pressure_recovery_1") (e "heat_in_1") (e "cp")
      = (ductHxOf o e).sta1 (o "R") (o "gamma") (ductState e) := by
    rw [hI.2.2.1, hI.2.2.2.2]; rfl
  rw [e1] at h1
  have e2 : Ducts.HeatIn.mk (e "sta1.Tt_out") (e "sta1.pt_out") (e "mdot") (e "sta2.rho") (e "hx.frontal_area") (e "delta_p_2")
      0 (e "pressure_recovery_2") (e "heat_in_2") (e "cp")
      = (ductHxOf o e).sta2 (o "R") (o "gamma") (ductState e) := by
    rw [h1.2.1, h1.2.2.1]; rfl
  rw [e2] at h2
  have hq : e "hx.heat_transfer" = (ductHxIn o e).q (o "R") (o "gamma") (ductHxOf o e) (ductState e) := by
    rw [x1, h2.2.2.2.1, h2.2.1]; rfl
  have hdp : e "hx.delta_p_cold" = (ductHxIn o e).dp (ductState e) := by rw [x6]; rfl
  rw [hq, hdp] at h3
  have e3 : Ducts.HeatIn.mk (e "sta2.Tt_out") (e "sta2.pt_out") (e "mdot") (e "sta3.rho") (e "hx.frontal_area")
      ((ductHxIn o e).dp (ductState e))
      0 (e "pressure_recovery_3") ((ductHxIn o e).q (o "R") (o "gamma") (ductHxOf o e) (ductState e)) (e "cp")
      = (ductHxOf o e).sta3 (o "R") (o "gamma") ((ductHxIn o e).dp (ductState e))
        ((ductHxIn o e).q (o "R") (o "gamma") (ductHxOf o e) (ductState e)) (ductState e) := by
    rw [h2.2.1, h2.2.2.1]; rfl
  rw [e3] at h3
  have e4 : Ducts.Nozzle.mk (e "sta3.pt_out") (e "sta3.Tt_out") (e "p_exit") (e "area_nozzle" * 0.0254 ^ 2) 0 (e "mdot")
      (e "nozzle.nozzle_pressure_ratio") (e "nozzle.M")
      = (ductHxOf o e).nozzle (o "R") (o "gamma") ((ductHxIn o e).dp (ductState e))
        ((ductHxIn o e).q (o "R") (o "gamma") (ductHxOf o e) (ductState e)) (ductState e) := by
    rw [h3.2.1, h3.2.2.1, hE]; rfl
  rw [e4] at hz hp
  refine ⟨⟨x4, x4, hm, h1.1, h2.1, h3.1, hz⟩, ?_, ?_, ?_⟩
  · rw [x3, ← x1, hq]; rfl
  · rw [x2, ← x1, hq, h2.2.2.2.1, h2.2.1]; rfl
  · rw [← hf, hp]; rfl

end Verif.Wiring
