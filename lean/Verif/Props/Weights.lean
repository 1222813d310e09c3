import Mathlib.Analysis.Real.Pi.Bounds
import Verif.Model.Weights
import Verif.Proof.HDeriv

/-! C72: the weight build-up of turboprop aircraft. -/

namespace Verif.Weights

open Real VectorComps

/-! ### exact partials of the components -/

/-- the inputs for which the wing weight is a real number: everything positive and a sweep below 90 degrees -/
def WingTP.Ok (i : WingTP) : Prop :=
  0 < i.nult ∧ 0 < i.MTOW ∧ 0 < i.Wf ∧ 0 < i.S ∧ 0 < i.AR ∧ 0 < cos i.sweep ∧ 0 < i.taper ∧ 0 < i.toverc ∧ 0 < i.q

/-- C72.  All eight partials of the wing weight are the derivatives. -/
theorem C72_wing_partials (i : WingTP) (h : i.Ok) :
    HasDerivAt (fun x => WingTP.compute { i with MTOW := x }) i.dMTOW i.MTOW ∧
    HasDerivAt (fun x => WingTP.compute { i with Wf := x }) i.dWf i.Wf ∧
    HasDerivAt (fun x => WingTP.compute { i with S := x }) i.dS i.S ∧
    HasDerivAt (fun x => WingTP.compute { i with AR := x }) i.dAR i.AR ∧
    HasDerivAt (fun x => WingTP.compute { i with sweep := x }) i.dsweep i.sweep ∧
    HasDerivAt (fun x => WingTP.compute { i with taper := x }) i.dtaper i.taper ∧
    HasDerivAt (fun x => WingTP.compute { i with toverc := x }) i.dtoverc i.toverc ∧
    HasDerivAt (fun x => WingTP.compute { i with q := x }) i.dq i.q := by
  obtain ⟨n, M, Wf, S, AR, s, t, tc, q⟩ := i
  obtain ⟨h1, h2, h3, h4, h5, h6, h7, h8, h9⟩ := h
  simp only at h1 h2 h3 h4 h5 h6 h7 h8 h9
  have hA : AR / cos s ^ 2 ≠ 0 := by positivity
  have hB : 100 * tc / cos s ≠ 0 := by positivity
  have hM : n * M ≠ 0 := by positivity
  have hc := h6.ne'
  have hc2 : cos s ^ 2 ≠ 0 := by positivity
  refine ⟨?_, ?_, ?_, ?_, ?_, ?_, ?_, ?_⟩ <;>
    simp only [WingTP.compute, WingTP.dMTOW, WingTP.dWf, WingTP.dS, WingTP.dAR, WingTP.dsweep, WingTP.dtaper,
      WingTP.dtoverc, WingTP.dq] <;> hderiv
  all_goals try (ring; done)
  all_goals
    generalize S ^ (0.758 : ℝ) = a1
    generalize Wf ^ (0.0035 : ℝ) = a2
    generalize q ^ (0.006 : ℝ) = a3
    generalize t ^ (0.04 : ℝ) = a4
    generalize (AR / cos s ^ 2) ^ (0.6 : ℝ) = a5
    generalize (AR / cos s ^ 2) ^ (0.6 - 1 : ℝ) = a6
    generalize (100 * tc / cos s) ^ (-0.3 : ℝ) = a7
    generalize (100 * tc / cos s) ^ (-0.3 - 1 : ℝ) = a8
    generalize (n * M) ^ (0.49 : ℝ) = a9
    push_cast
    field_simp
  all_goals try ring

example : (WingTP.Ok ⟨5.7, 7394, 2000, 193.75, 8.9, 0, 0.622, 0.16, 90⟩) := by
  unfold WingTP.Ok; norm_num

/-- C72.  Both partials of the empennage weight. -/
theorem C72_empennage_partials {n Sv Sh : ℝ} (hn : 0 < n) (hS : 0 < Sv + Sh) :
    HasDerivAt (fun x => empennage n x Sh) (empennage_d n Sv Sh) Sv ∧
    HasDerivAt (fun x => empennage n Sv x) (empennage_d n Sv Sh) Sh := by
  have h : n * (Sv + Sh) ^ 2 ≠ 0 := by positivity
  constructor <;> unfold empennage empennage_d <;> hderiv <;> (push_cast; ring)

example := C72_empennage_partials (n := 5.7) (Sv := 31) (Sh := 47) (by norm_num) (by norm_num)

/-- positive inputs of the fuselage component -/
def FusTP.Ok (i : FusTP) : Prop :=
  0 < i.nult ∧ 0 < i.MTOW ∧ 0 < i.length ∧ 0 < i.height ∧ 0 < i.width ∧ 0 < i.Swet ∧ 0 < i.arm ∧ 0 < i.q

/-- C72.  All seven partials of the fuselage weight. -/
theorem C72_fuselage_partials (i : FusTP) (h : i.Ok) :
    HasDerivAt (fun x => FusTP.compute { i with MTOW := x }) i.dMTOW i.MTOW ∧
    HasDerivAt (fun x => FusTP.compute { i with width := x }) i.dwidth i.width ∧
    HasDerivAt (fun x => FusTP.compute { i with height := x }) i.dheight i.height ∧
    HasDerivAt (fun x => FusTP.compute { i with length := x }) i.dlength i.length ∧
    HasDerivAt (fun x => FusTP.compute { i with Swet := x }) i.dSwet i.Swet ∧
    HasDerivAt (fun x => FusTP.compute { i with arm := x }) i.darm i.arm ∧
    HasDerivAt (fun x => FusTP.compute { i with q := x }) i.dq i.q := by
  obtain ⟨n, M, L, H, w, S, a, q⟩ := i
  obtain ⟨h1, h2, h3, h4, h5, h6, h7, h8⟩ := h
  simp only at h1 h2 h3 h4 h5 h6 h7 h8
  have hA : L / H ≠ 0 := by positivity
  have hB : π * (w + H) / 2 * L * 0.8 * 8 ≠ 0 := by positivity
  have hM : n * M ≠ 0 := by positivity
  refine ⟨?_, ?_, ?_, ?_, ?_, ?_, ?_⟩ <;>
    simp only [FusTP.compute, FusTP.vol, FusTP.dMTOW, FusTP.dwidth, FusTP.dheight, FusTP.dlength, FusTP.dSwet, FusTP.darm,
      FusTP.dq] <;> hderiv
  all_goals ring

example : FusTP.Ok ⟨5.7, 7394, 27, 5.5, 4.6, 350, 17.6, 90⟩ := by unfold FusTP.Ok; norm_num

/-- C72.  Nacelle weights. -/
theorem C72_nacelle_partials {P : ℝ} (hP : 0 < P) :
    HasDerivAt nacelle1 (nacelle1_d P) P ∧ HasDerivAt nacelle2 nacelle2_d P := by
  constructor
  · unfold nacelle1 nacelle1_d; hderiv; ring
  · unfold nacelle2 nacelle2_d; hderiv; ring

example := C72_nacelle_partials (P := 850) (by norm_num)

/-- C72.  All three partials of the landing gear weight. -/
theorem C72_gear_partials (i : GearTP) (h1 : 0 < i.nult) (h2 : 0 < i.MLW) (h3 : 0 < i.main) (h4 : 0 < i.nose) :
    HasDerivAt (fun x => GearTP.compute { i with MLW := x }) i.dMLW i.MLW ∧
    HasDerivAt (fun x => GearTP.compute { i with main := x }) i.dmain i.main ∧
    HasDerivAt (fun x => GearTP.compute { i with nose := x }) i.dnose i.nose := by
  obtain ⟨n, M, m, o⟩ := i
  simp only at h1 h2 h3 h4
  have hM : n * M ≠ 0 := by positivity
  have hm : m / 12 ≠ 0 := by positivity
  have ho : o / 12 ≠ 0 := by positivity
  refine ⟨?_, ?_, ?_⟩ <;> simp only [GearTP.compute, GearTP.dMLW, GearTP.dmain, GearTP.dnose] <;> hderiv <;> ring

example := C72_gear_partials ⟨5.7, 7000, 3, 3⟩ (by norm_num) (by norm_num) (by norm_num) (by norm_num)

/-- C72.  Partial of the fuel system weight. -/
theorem C72_fuelsystem_partials {K W : ℝ} (hK : 0 < K) (hW : 0 < W) :
    HasDerivAt (fuelSystem K) (fuelSystem_d K W) W := by
  have h : W * 1.0 / K ≠ 0 := by positivity
  have e : (1.0 : ℝ) = 1 := by norm_num
  unfold fuelSystem fuelSystem_d
  simp only [e] at h ⊢
  hderiv
  ring

example := C72_fuelsystem_partials (K := 6.55) (W := 2000) (by norm_num) (by norm_num)

theorem avionics_pos : 0 < avionics := by unfold avionics; positivity

/-- positive inputs of the equipment component -/
def EquipTP.Ok (i : EquipTP) : Prop :=
  0 < i.MTOW ∧ 0 < i.pax ∧ 0 < i.length ∧ 0 < i.AR ∧ 0 < i.S ∧ 0 < i.Wfs

/-- C72.  All six partials of the equipment weight. -/
theorem C72_equipment_partials (i : EquipTP) (h : i.Ok) :
    HasDerivAt (fun x => EquipTP.compute { i with MTOW := x }) i.dMTOW i.MTOW ∧
    HasDerivAt (fun x => EquipTP.compute { i with pax := x }) i.dpax i.pax ∧
    HasDerivAt (fun x => EquipTP.compute { i with length := x }) i.dlength i.length ∧
    HasDerivAt (fun x => EquipTP.compute { i with Wfs := x }) i.dWfs i.Wfs ∧
    HasDerivAt (fun x => EquipTP.compute { i with S := x }) i.dS i.S ∧
    HasDerivAt (fun x => EquipTP.compute { i with AR := x }) i.dAR i.AR := by
  obtain ⟨M, p, L, A, S, W⟩ := i
  obtain ⟨h1, h2, h3, h4, h5, h6⟩ := h
  simp only at h1 h2 h3 h4 h5 h6
  have hav := avionics_pos
  have hSA : S * A ≠ 0 := by positivity
  have hsq : 0 < √(S * A) := by positivity
  have hL : L * √(S * A) ≠ 0 := by positivity
  have hW : W + avionics ≠ 0 := by positivity
  refine ⟨?_, ?_, ?_, ?_, ?_, ?_⟩ <;>
    simp only [EquipTP.compute, EquipTP.b, EquipTP.dMTOW, EquipTP.dpax, EquipTP.dlength, EquipTP.dWfs, EquipTP.dS,
      EquipTP.dAR] <;> hderiv
  all_goals ring

example : EquipTP.Ok ⟨7394, 6, 27, 8.9, 193.75, 100⟩ := by unfold EquipTP.Ok; norm_num

/-! ### the operating empty weight -/

/-- C72.  For every state of the other variables, the `OEW` of the single turboprop group is the fudge factor times the
five structural weights plus the remaining weights, and no variable is changed but the three outputs. -/
theorem C72_single_total (e : Env) :
    runSingle e "OEW" = e "structural_fudge" * (e "W_wing" + e "W_fuselage" + e "W_nacelle" + e "W_empennage" + e "W_gear")
      + e "W_fuelsystem" + e "W_equipment" + e "W_engine" + e "W_propeller" + e "W_fluids" ∧
    ∀ v, v ≠ "W_structure" → v ≠ "W_structure_adjusted" → v ≠ "OEW" → runSingle e v = e v := by
  constructor
  · simp [runSingle, runAdd, runMul, totalSingle, fudgeTP, structTP, AddSys.compute, MulSys.compute, MulSys.read, Env.arr,
      AddSys.factors, MulSys.div, List.zipIdx]
    ring
  · intro v h1 h2 h3
    have e1 : v ≠ totalSingle.output := h3
    have e2 : v ≠ fudgeTP.output := h2
    have e3 : v ≠ structTP.output := h1
    simp only [runSingle, runAdd, runMul, if_neg e1, if_neg e2, if_neg e3]

/-- C72.  The same for the twin series hybrid group, which also has motors and a generator. -/
theorem C72_twin_total (e : Env) :
    runTwin e "OEW" = e "structural_fudge" * (e "W_wing" + e "W_fuselage" + e "W_nacelle" + e "W_empennage" + e "W_gear")
      + e "W_fuelsystem" + e "W_equipment" + e "W_engine" + e "W_motors" + e "W_generator" + e "W_propeller"
      + e "W_fluids" ∧
    ∀ v, v ≠ "W_structure" → v ≠ "W_structure_adjusted" → v ≠ "OEW" → runTwin e v = e v := by
  constructor
  · simp [runTwin, runAdd, runMul, totalTwin, fudgeTP, structTP, AddSys.compute, MulSys.compute, MulSys.read, Env.arr,
      AddSys.factors, MulSys.div, List.zipIdx]
    ring
  · intro v h1 h2 h3
    have e1 : v ≠ totalTwin.output := h3
    have e2 : v ≠ fudgeTP.output := h2
    have e3 : v ≠ structTP.output := h1
    simp only [runTwin, runAdd, runMul, if_neg e1, if_neg e2, if_neg e3]

/-- a group state in which the structure weighs 100 lb, everything else 10 lb -/
example : runTwin (fun v => if v = "structural_fudge" then 1.6 else if v = "W_wing" then 100 else 10) "OEW" = 294 := by
  rw [(C72_twin_total _).1]; simp; norm_num

/-- all inputs positive, sweep below 90 degrees -/
def AircraftTP.Ok (a : AircraftTP) : Prop :=
  0 < a.MTOW ∧ 0 < a.MLW ∧ 0 < a.Wf ∧ 0 < a.S ∧ 0 < a.AR ∧ 0 < cos a.sweep ∧ 0 < a.taper ∧ 0 < a.toverc ∧ 0 < a.q ∧
    0 < a.length ∧ 0 < a.height ∧ 0 < a.width ∧ 0 < a.Swet ∧ 0 < a.arm ∧ 0 < a.pax ∧ 0 < a.fudge ∧ 0 < a.main ∧ 0 < a.nose

theorem nultTP_pos : 0 < nultTP := by unfold nultTP; norm_num

/-- C72.  Wiring of the group: every component weight is computed from the airplane's data of the same name, with the ultimate
load factor 5.7 and fuel of 6.55 lb/gal; the equipment reads the weight of the fuel system. -/
theorem C72_wiring (a : AircraftTP) (o : Env) :
    a.env o "W_wing" = WingTP.compute {
      nult := 5.7, MTOW := a.MTOW, Wf := a.Wf, S := a.S, AR := a.AR, sweep := a.sweep
      taper := a.taper, toverc := a.toverc, q := a.q } ∧
    a.env o "W_fuselage" = FusTP.compute {
      nult := 5.7, MTOW := a.MTOW, length := a.length, height := a.height
      width := a.width, Swet := a.Swet, arm := a.arm, q := a.q } ∧
    a.env o "W_nacelle" = 2.5 * √a.P ∧
    a.env o "W_empennage" = empennage 5.7 a.Sv a.Sh ∧
    a.env o "W_gear" = GearTP.compute { nult := 5.7, MLW := a.MLW, main := a.main, nose := a.nose } ∧
    a.env o "W_fuelsystem" = fuelSystem 6.55 a.Wf ∧
    a.env o "W_equipment" = EquipTP.compute {
      MTOW := a.MTOW, pax := a.pax, length := a.length, AR := a.AR, S := a.S
      Wfs := a.env o "W_fuelsystem" } := by
  have e : nultTP = 5.7 := by unfold nultTP; norm_num
  simp only [AircraftTP.env, String.reduceEq, if_true, if_false, AircraftTP.wing, AircraftTP.fus, AircraftTP.gear,
    AircraftTP.equip, KfspTP, e, true_and, and_true, nacelle1]
  rw [show (0.5 : ℝ) = 1 / 2 by norm_num, ← Real.sqrt_eq_rpow]

/-- C72.  Whole group: for positive inputs, a heavier aircraft (greater MTOW, everything else equal) has a strictly
greater empty weight. -/
theorem C72_total_mono (a : AircraftTP) (o : Env) (h : a.Ok) {M : ℝ} (hM : a.MTOW < M) :
    runSingle (a.env o) "OEW" < runSingle (AircraftTP.env { a with MTOW := M } o) "OEW" ∧
    runTwin (a.env o) "OEW" < runTwin (AircraftTP.env { a with MTOW := M } o) "OEW" := by
  obtain ⟨h1, -, h3, h4, h5, h6, h7, h8, h9, h10, h11, h12, h13, h14, h15, h16, -, -⟩ := h
  have hn := nultTP_pos
  have hav := avionics_pos
  have hp : ∀ p : ℝ, 0 < p → a.MTOW ^ p < M ^ p := fun p hp => rpow_lt_rpow h1.le hM hp
  have hpn : ∀ p : ℝ, 0 < p → (nultTP * a.MTOW) ^ p < (nultTP * M) ^ p := fun p hp =>
    rpow_lt_rpow (by positivity) (mul_lt_mul_of_pos_left hM hn) hp
  have hw : (a.wing nultTP).compute < (AircraftTP.wing { a with MTOW := M } nultTP).compute := by
    simp only [AircraftTP.wing, WingTP.compute]
    exact mul_lt_mul_of_pos_left (hpn _ (by norm_num)) (by positivity)
  have hf : (a.fus nultTP).compute < (AircraftTP.fus { a with MTOW := M } nultTP).compute := by
    simp only [AircraftTP.fus, FusTP.compute, FusTP.vol]
    have := hpn 0.177 (by norm_num)
    gcongr
  have he : a.equip.compute < (AircraftTP.equip { a with MTOW := M }).compute := by
    simp only [AircraftTP.equip, EquipTP.compute, EquipTP.b]
    have a1 := hp 0.666 (by norm_num)
    have a2 : 0.265 * a.MTOW ^ (0.52 : ℝ) * a.pax ^ (0.68 : ℝ) * avionics ^ (0.17 : ℝ) * 0.95 <
        0.265 * M ^ (0.52 : ℝ) * a.pax ^ (0.68 : ℝ) * avionics ^ (0.17 : ℝ) * 0.95 := by
      gcongr
    have a3 : 0.412 * a.pax ^ (1.145 : ℝ) * a.MTOW ^ (0.489 : ℝ) < 0.412 * a.pax ^ (1.145 : ℝ) * M ^ (0.489 : ℝ) :=
      mul_lt_mul_of_pos_left (hp _ (by norm_num)) (by positivity)
    linarith
  have hs := mul_lt_mul_of_pos_left (add_lt_add hw hf) h16
  rw [(C72_single_total _).1, (C72_single_total _).1, (C72_twin_total _).1, (C72_twin_total _).1]
  simp only [AircraftTP.env, String.reduceEq, if_false, if_true]
  have hg : AircraftTP.gear { a with MTOW := M } nultTP = a.gear nultTP := rfl
  rw [hg]
  constructor <;> linarith

example : AircraftTP.Ok ⟨7394, 7000, 2000, 193.75, 8.9, 0, 0.622, 0.16, 90, 31, 47, 27, 5.5, 4.6, 350, 17.6, 850, 3, 3, 6,
    400, 150, 0, 0, 44, 1.6⟩ := by unfold AircraftTP.Ok; norm_num

/-- C72.  The gear length is declared in ft and still divided by 12: the main term is `12 ^ 0.409` times and the nose term
`12 ^ 0.845` times smaller than the same formula on the length in ft.  (Raymer's formula takes inches and divides by 12;
see DESIGN.md.) -/
theorem C72_gear_length_unit (n W main nose : ℝ) (hm : 0 < main) (ho : 0 < nose) :
    GearTP.compute ⟨n, W, main, nose⟩ =
      0.095 * (n * W) ^ (0.768 : ℝ) * main ^ (0.409 : ℝ) / 12 ^ (0.409 : ℝ)
      + 0.125 * (n * W) ^ (0.566 : ℝ) * nose ^ (0.845 : ℝ) / 12 ^ (0.845 : ℝ) := by
  simp only [GearTP.compute]
  rw [div_rpow hm.le (by norm_num), div_rpow ho.le (by norm_num)]
  ring

example := C72_gear_length_unit 5.7 7000 3 4 (by norm_num) (by norm_num)

end Verif.Weights
