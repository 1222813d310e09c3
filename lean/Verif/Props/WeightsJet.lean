import Mathlib.Analysis.Real.Pi.Bounds
import Verif.Model.WeightsJet
import Verif.Props.Weights
import Verif.Proof.HDeriv

/-! C73: the weight build-up of jet transports and blended wing bodies. -/

namespace Verif.Weights

open Real VectorComps

/-! ### exact partials of the components -/

/-- inputs for which the wing weight is a real number -/
def WingJ.Ok (i : WingJ) : Prop :=
  0 < i.nult ∧ 0 < i.cs ∧ 0 < i.MTOW ∧ 0 < i.S ∧ 0 < i.AR ∧ 0 < cos i.sweep ∧ 0 < 1 + i.taper ∧ 0 < i.toverc

/-- C73.  All six partials of the wing weight. -/
theorem C73_wing_partials (i : WingJ) (h : i.Ok) :
    HasDerivAt (fun x => WingJ.compute { i with MTOW := x }) i.dMTOW i.MTOW ∧
    HasDerivAt (fun x => WingJ.compute { i with S := x }) i.dS i.S ∧
    HasDerivAt (fun x => WingJ.compute { i with AR := x }) i.dAR i.AR ∧
    HasDerivAt (fun x => WingJ.compute { i with sweep := x }) i.dsweep i.sweep ∧
    HasDerivAt (fun x => WingJ.compute { i with taper := x }) i.dtaper i.taper ∧
    HasDerivAt (fun x => WingJ.compute { i with toverc := x }) i.dtoverc i.toverc := by
  obtain ⟨n, cs, M, S, A, s, t, tc⟩ := i
  obtain ⟨h1, h2, h3, h4, h5, h6, h7, h8⟩ := h
  simp only at h1 h2 h3 h4 h5 h6 h7 h8
  have hM : M * n ≠ 0 := by positivity
  have hS : cs * S ≠ 0 := by positivity
  have hc := h6.ne'
  have ht := h7.ne'
  have eM : (M * n) ^ (0.557 - 1 : ℝ) * n = M ^ (0.557 - 1 : ℝ) * n ^ (0.557 : ℝ) := by
    rw [rpow_sub_one hM, rpow_sub_one h3.ne', mul_rpow h3.le h1.le]; field_simp
  have eC : (cs * S) ^ (0.1 : ℝ) = cs ^ (0.1 : ℝ) * S ^ (0.1 : ℝ) := mul_rpow h2.le h4.le
  have eS : S ^ (0.649 + 0.1 : ℝ) = S ^ (0.649 : ℝ) * S ^ (0.1 : ℝ) := rpow_add h4 _ _
  have eS1 : S ^ (0.649 + 0.1 - 1 : ℝ) = S ^ (0.649 : ℝ) * S ^ (0.1 : ℝ) / S := by rw [rpow_sub_one h4.ne', eS]
  have eC1 : (cs * S) ^ (0.1 - 1 : ℝ) * cs = cs ^ (0.1 : ℝ) * S ^ (0.1 : ℝ) / S := by
    rw [rpow_sub_one hS, eC]; field_simp
  refine ⟨?_, ?_, ?_, ?_, ?_, ?_⟩ <;>
    simp only [WingJ.compute, WingJ.dMTOW, WingJ.dS, WingJ.dAR, WingJ.dsweep, WingJ.dtaper, WingJ.dtoverc] <;> hderiv
  · linear_combination 0.0051 * 0.557 * S ^ (0.649 : ℝ) * A ^ (0.5 : ℝ) * tc ^ (-0.4 : ℝ) * (1 + t) ^ (0.1 : ℝ)
      * (cos s)⁻¹ * (cs * S) ^ (0.1 : ℝ) * eM
  · rw [eS1, rpow_sub_one h4.ne', eC]
    linear_combination 0.0051 * (M * n) ^ (0.557 : ℝ) * S ^ (0.649 : ℝ) * A ^ (0.5 : ℝ) * tc ^ (-0.4 : ℝ)
      * (1 + t) ^ (0.1 : ℝ) * (cos s)⁻¹ * 0.1 * eC1
  · rw [eC]; ring
  · rw [eC, eS]; ring
  · rw [eC]; ring
  · rw [eC]; ring

example : WingJ.Ok ⟨3.75, 0.1, 170000, 1300, 9.5, 0, 0.2, 0.12⟩ := by unfold WingJ.Ok; norm_num

/-- C73.  Partials of the constant of the horizontal tail. -/
theorem C73_hstab_const_partials {f S A H : ℝ} (hS : 0 < S) (hA : 0 < A) :
    HasDerivAt (fun x => hstabConst f x A H) (hstabConst_dS f S A H) S ∧
    HasDerivAt (fun x => hstabConst f S x H) (hstabConst_dAR f S A H) A ∧
    HasDerivAt (fun x => hstabConst f S A x) (hstabConst_dheight f S A) H := by
  have h : S * A ≠ 0 := by positivity
  have hq : √(S * A) ≠ 0 := by positivity
  refine ⟨?_, ?_, ?_⟩ <;> unfold hstabConst <;> simp only [hstabConst_dS, hstabConst_dAR, hstabConst_dheight] <;> hderiv <;>
    field_simp <;> ring

example := C73_hstab_const_partials (f := 0.5) (S := 350) (A := 4) (H := 13) (by norm_num) (by norm_num)

/-- inputs for which the horizontal tail weight is a real number -/
def HstabJ.Ok (i : HstabJ) : Prop :=
  0 < i.nult ∧ 0 < 1 + i.SeSht ∧ 0 < i.MTOW ∧ 0 < i.S ∧ 0 < i.AR ∧ 0 < cos i.sweep ∧ 0 < i.arm ∧ 0 < i.hc

/-- C73.  All six partials of the horizontal tail weight. -/
theorem C73_hstab_partials (i : HstabJ) (h : i.Ok) :
    HasDerivAt (fun x => HstabJ.compute { i with MTOW := x }) i.dMTOW i.MTOW ∧
    HasDerivAt (fun x => HstabJ.compute { i with S := x }) i.dS i.S ∧
    HasDerivAt (fun x => HstabJ.compute { i with AR := x }) i.dAR i.AR ∧
    HasDerivAt (fun x => HstabJ.compute { i with sweep := x }) i.dsweep i.sweep ∧
    HasDerivAt (fun x => HstabJ.compute { i with arm := x }) i.darm i.arm ∧
    HasDerivAt (fun x => HstabJ.compute { i with hc := x }) i.dhc i.hc := by
  obtain ⟨n, K, e, M, S, A, s, a, hc⟩ := i
  obtain ⟨h1, h2, h3, h4, h5, h6, h7, h8⟩ := h
  simp only at h1 h2 h3 h4 h5 h6 h7 h8
  have h3a : (0.3 * a : ℝ) ≠ 0 := by positivity
  have hco := h6.ne'
  have e1 : a ^ (-1.296 : ℝ) = a ^ (0.704 : ℝ) / a / a := by
    rw [show (-1.296 : ℝ) = 0.704 - 1 - 1 by norm_num, rpow_sub_one h7.ne', rpow_sub_one h7.ne']
  have e2 : (0.3 * a) ^ (0.704 : ℝ) = 0.3 ^ (0.704 : ℝ) * a ^ (0.704 : ℝ) := mul_rpow (by norm_num) h7.le
  have e3 : (0.3 * a) ^ (0.704 - 1 : ℝ) * 0.3 = 0.3 ^ (0.704 : ℝ) * a ^ (0.704 : ℝ) / a := by
    rw [rpow_sub_one h3a, e2]; field_simp
  refine ⟨?_, ?_, ?_, ?_, ?_, ?_⟩ <;>
    simp only [HstabJ.compute, HstabJ.dMTOW, HstabJ.dS, HstabJ.dAR, HstabJ.dsweep, HstabJ.darm, HstabJ.dhc] <;> hderiv
  · ring
  · ring
  · ring
  · ring
  · rw [e1, e2]
    linear_combination 0.0379 * K * hc ^ (-0.25 : ℝ) * M ^ (0.639 : ℝ) * n ^ (0.10 : ℝ) * S ^ (0.75 : ℝ) * 0.704 * a⁻¹
      * (cos s)⁻¹ * A ^ (0.166 : ℝ) * (1 + e) ^ (0.1 : ℝ) * e3
  · ring

example : HstabJ.Ok ⟨3.75, 1, 0.2, 170000, 350, 4, 0, 50, 1.2⟩ := by unfold HstabJ.Ok; norm_num

/-- inputs for which the vertical tail weight is a real number -/
def VstabJ.Ok (i : VstabJ) : Prop :=
  0 < i.nult ∧ 0 < i.MTOW ∧ 0 < i.S ∧ 0 < i.AR ∧ 0 < cos i.sweep ∧ 0 < i.arm ∧ 0 < i.toverc

/-- C73.  All six partials of the vertical tail weight. -/
theorem C73_vstab_partials (i : VstabJ) (h : i.Ok) :
    HasDerivAt (fun x => VstabJ.compute { i with MTOW := x }) i.dMTOW i.MTOW ∧
    HasDerivAt (fun x => VstabJ.compute { i with S := x }) i.dS i.S ∧
    HasDerivAt (fun x => VstabJ.compute { i with AR := x }) i.dAR i.AR ∧
    HasDerivAt (fun x => VstabJ.compute { i with sweep := x }) i.dsweep i.sweep ∧
    HasDerivAt (fun x => VstabJ.compute { i with arm := x }) i.darm i.arm ∧
    HasDerivAt (fun x => VstabJ.compute { i with toverc := x }) i.dtoverc i.toverc := by
  obtain ⟨n, T, M, S, A, s, a, tc⟩ := i
  obtain ⟨h1, h3, h4, h5, h6, h7, h8⟩ := h
  simp only at h1 h3 h4 h5 h6 h7 h8
  have hco := h6.ne'
  have e1 : tc ^ (-1.5 : ℝ) = tc ^ (-0.5 : ℝ) / tc := by
    rw [← rpow_sub_one h8.ne']; norm_num
  have e2 : S ^ (-0.5 : ℝ) = S ^ (0.5 : ℝ) / S := by rw [← rpow_sub_one h4.ne']; norm_num
  cases T <;> refine ⟨?_, ?_, ?_, ?_, ?_, ?_⟩ <;>
    simp only [VstabJ.compute, VstabJ.HtHv, VstabJ.dMTOW, VstabJ.dS, VstabJ.dAR, VstabJ.dsweep, VstabJ.darm,
      VstabJ.dtoverc, if_true, Bool.false_eq_true, if_false] <;> hderiv <;>
    (try rw [e1]) <;> (try rw [e2]) <;> (try rw [rpow_sub_one h4.ne']) <;> (try rw [rpow_sub_one h8.ne']) <;> ring

example : VstabJ.Ok ⟨3.75, true, 170000, 280, 1.9, 0, 50, 0.12⟩ := by unfold VstabJ.Ok; norm_num

/-- inputs for which `K_ws` is defined -/
def KwsJ.Ok (i : KwsJ) : Prop := 0 < 1 + i.taper ∧ 0 < i.S ∧ 0 < i.AR ∧ 0 < cos i.sweep ∧ 0 < i.length

/-- C73.  All five partials of `K_ws`. -/
theorem C73_kws_partials (i : KwsJ) (h : i.Ok) :
    HasDerivAt (fun x => KwsJ.compute { i with taper := x }) i.dtaper i.taper ∧
    HasDerivAt (fun x => KwsJ.compute { i with S := x }) i.dS i.S ∧
    HasDerivAt (fun x => KwsJ.compute { i with AR := x }) i.dAR i.AR ∧
    HasDerivAt (fun x => KwsJ.compute { i with sweep := x }) i.dsweep i.sweep ∧
    HasDerivAt (fun x => KwsJ.compute { i with length := x }) i.dlength i.length := by
  obtain ⟨t, S, A, s, L⟩ := i
  obtain ⟨h1, h2, h3, h4, h5⟩ := h
  simp only at h1 h2 h3 h4 h5
  have ht := h1.ne'
  have hco := h4.ne'
  refine ⟨?_, ?_, ?_, ?_, ?_⟩ <;>
    simp only [KwsJ.compute, KwsJ.dtaper, KwsJ.dS, KwsJ.dAR, KwsJ.dsweep, KwsJ.dlength] <;> hderiv <;>
    generalize S ^ (0.5 : ℝ) = a1 <;> generalize A ^ (0.5 : ℝ) = a2 <;> generalize tan s = a3 <;> (field_simp; try ring)

example : KwsJ.Ok ⟨0.2, 1300, 9.5, 0, 120⟩ := by unfold KwsJ.Ok; norm_num

/-- inputs for which the fuselage weight is a real number -/
def FusJ.Ok (i : FusJ) : Prop :=
  0 < i.nult ∧ 0 < i.MTOW ∧ 0 < i.length ∧ 0 < i.Swet ∧ 0 < i.height ∧ 0 < 1 + i.Kws

/-- C73.  All five partials of the fuselage weight. -/
theorem C73_fuselage_partials (i : FusJ) (h : i.Ok) :
    HasDerivAt (fun x => FusJ.compute { i with MTOW := x }) i.dMTOW i.MTOW ∧
    HasDerivAt (fun x => FusJ.compute { i with length := x }) i.dlength i.length ∧
    HasDerivAt (fun x => FusJ.compute { i with Swet := x }) i.dSwet i.Swet ∧
    HasDerivAt (fun x => FusJ.compute { i with height := x }) i.dheight i.height ∧
    HasDerivAt (fun x => FusJ.compute { i with Kws := x }) i.dKws i.Kws := by
  obtain ⟨n, Kd, Kl, M, L, S, H, K⟩ := i
  obtain ⟨h1, h2, h3, h4, h5, h6⟩ := h
  simp only at h1 h2 h3 h4 h5 h6
  have hK := h6.ne'
  have e1 : M ^ (-0.5 : ℝ) = M ^ (0.5 : ℝ) / M := by rw [← rpow_sub_one h2.ne']; norm_num
  have e2 : H ^ (-1.10 : ℝ) = H ^ (-0.10 : ℝ) / H := by rw [← rpow_sub_one h5.ne']; norm_num
  refine ⟨?_, ?_, ?_, ?_, ?_⟩ <;>
    simp only [FusJ.compute, FusJ.dMTOW, FusJ.dlength, FusJ.dSwet, FusJ.dheight, FusJ.dKws] <;> hderiv <;>
    simp only [e1, e2, rpow_sub_one h2.ne', rpow_sub_one h3.ne', rpow_sub_one h4.ne', rpow_sub_one h5.ne', rpow_sub_one hK] <;>
    generalize M ^ (0.5 : ℝ) = a1 <;> generalize n ^ (0.5 : ℝ) = a2 <;> generalize L ^ (0.25 + 0.1 : ℝ) = a3 <;>
    generalize S ^ (0.302 : ℝ) = a4 <;> generalize (1 + K) ^ (0.04 : ℝ) = a5 <;> generalize H ^ (-0.10 : ℝ) = a6 <;>
    field_simp <;> ring

example : FusJ.Ok ⟨3.75, 1, 1, 170000, 120, 4000, 13, 0.3⟩ := by unfold FusJ.Ok; norm_num

/-- positive inputs of the main gear -/
def MainGearJ.Ok (i : MainGearJ) : Prop :=
  0 < i.nland ∧ 0 < i.kneel ∧ 0 < i.MLW ∧ 0 < i.length ∧ 0 < i.wheels ∧ 0 < i.struts ∧ 0 < i.Vstall

/-- C73.  All five partials of the main gear weight. -/
theorem C73_main_gear_partials (i : MainGearJ) (h : i.Ok) :
    HasDerivAt (fun x => MainGearJ.compute { i with MLW := x }) i.dMLW i.MLW ∧
    HasDerivAt (fun x => MainGearJ.compute { i with length := x }) i.dlength i.length ∧
    HasDerivAt (fun x => MainGearJ.compute { i with wheels := x }) i.dwheels i.wheels ∧
    HasDerivAt (fun x => MainGearJ.compute { i with struts := x }) i.dstruts i.struts ∧
    HasDerivAt (fun x => MainGearJ.compute { i with Vstall := x }) i.dVstall i.Vstall := by
  obtain ⟨n, k, W, L, w, s, V⟩ := i
  obtain ⟨h1, hk, h2, h3, h4, h5, h6⟩ := h
  simp only at h1 hk h2 h3 h4 h5 h6
  have e1 : s ^ (-1.5 : ℝ) = s ^ (-0.5 : ℝ) / s := by rw [← rpow_sub_one h5.ne']; norm_num
  refine ⟨?_, ?_, ?_, ?_, ?_⟩ <;>
    simp only [MainGearJ.compute, MainGearJ.dMLW, MainGearJ.dlength, MainGearJ.dwheels, MainGearJ.dstruts,
      MainGearJ.dVstall] <;> hderiv <;>
    (try rw [e1]) <;> (try rw [rpow_sub_one h5.ne']) <;> ring

example : MainGearJ.Ok ⟨4.2, 1, 140000, 100, 4, 2, 115⟩ := by unfold MainGearJ.Ok; norm_num

/-- C73.  All three partials of the nose gear weight. -/
theorem C73_nose_gear_partials (i : NoseGearJ) (h1 : 0 < i.MLW) (h2 : 0 < i.length) (h3 : 0 < i.wheels) :
    HasDerivAt (fun x => NoseGearJ.compute { i with MLW := x }) i.dMLW i.MLW ∧
    HasDerivAt (fun x => NoseGearJ.compute { i with length := x }) i.dlength i.length ∧
    HasDerivAt (fun x => NoseGearJ.compute { i with wheels := x }) i.dwheels i.wheels := by
  obtain ⟨n, k, W, L, w⟩ := i
  simp only at h1 h2 h3
  have e1 : L ^ (-0.5 : ℝ) = L ^ (0.5 : ℝ) / L := by rw [← rpow_sub_one h2.ne']; norm_num
  refine ⟨?_, ?_, ?_⟩ <;>
    simp only [NoseGearJ.compute, NoseGearJ.dMLW, NoseGearJ.dlength, NoseGearJ.dwheels] <;> hderiv <;>
    (try rw [e1]) <;> (try rw [rpow_sub_one h2.ne']) <;> ring

example := C73_nose_gear_partials ⟨4.2, 1, 140000, 60, 2⟩ (by norm_num) (by norm_num) (by norm_num)

/-- C73.  Partials of the engine weight, the engine systems and the nacelles. -/
theorem C73_engine_partials {T N W Wf M : ℝ} (hT : 0 < T) (hN : 0 < N) (hW : 0 < W) (hWf : 0 < Wf) (hM : 0 < M) :
    HasDerivAt engineJ engineJ_d T ∧
    HasDerivAt (fun x => thrustRev x N) (thrustRev_dT N) T ∧ HasDerivAt (fun x => thrustRev T x) (thrustRev_dN T) N ∧
    HasDerivAt (fun x => engControl x N) (engControl_dT T N) T ∧
    HasDerivAt (fun x => engControl T x) (engControl_dN T) N ∧
    HasDerivAt (fun x => fuelSysJ x N M) (fuelSysJ_dWf Wf N M) Wf ∧
    HasDerivAt (fun x => fuelSysJ Wf x M) (fuelSysJ_dN Wf N M) N ∧
    HasDerivAt (fun x => fuelSysJ Wf N x) (fuelSysJ_dM Wf N M) M ∧
    HasDerivAt (fun x => engStart x N) (engStart_dW W N) W ∧ HasDerivAt (fun x => engStart W x) (engStart_dN W) N ∧
    HasDerivAt (fun x => nacelleJ x N) (nacelleJ_dT N) T ∧ HasDerivAt (fun x => nacelleJ T x) (nacelleJ_dN T) N := by
  have hT2 : T ^ (0.5 : ℝ) * T ^ (0.5 : ℝ) = T := by rw [← rpow_add hT]; norm_num
  have hTp : 0 < T ^ (0.5 : ℝ) := by positivity
  have hW1 : W / 1000 ≠ 0 := by positivity
  have e1 : W ^ (0.078 : ℝ) = W ^ (1.078 : ℝ) / W := by rw [← rpow_sub_one hW.ne']; norm_num
  refine ⟨?_, ?_, ?_, ?_, ?_, ?_, ?_, ?_, ?_, ?_, ?_, ?_⟩
  · unfold engineJ engineJ_d; hderiv
  · unfold thrustRev thrustRev_dT; hderiv; ring
  · unfold thrustRev thrustRev_dN; hderiv; ring
  · unfold engControl engControl_dT; hderiv
    have e : T ^ (0.5 - 1 : ℝ) = 1 / T ^ (0.5 : ℝ) := by
      rw [rpow_sub_one hT.ne', div_eq_div_iff hT.ne' hTp.ne', hT2, one_mul]
    rw [e]; ring
  · unfold engControl engControl_dN; hderiv; ring
  · unfold fuelSysJ fuelSysJ_dWf; hderiv; ring
  · unfold fuelSysJ fuelSysJ_dN; hderiv; ring
  · unfold fuelSysJ fuelSysJ_dM; hderiv; ring
  · unfold engStart engStart_dW; hderiv
    rw [e1, rpow_sub_one hW1, div_rpow hW.le (by norm_num)]
    field_simp
  · unfold engStart engStart_dN; hderiv; ring
  · unfold nacelleJ nacelleJ_dT; hderiv; ring
  · unfold nacelleJ nacelleJ_dN; hderiv; ring

example := C73_engine_partials (T := 27000) (N := 2) (W := 5000) (Wf := 46000) (M := 0.82) (by norm_num) (by norm_num)
  (by norm_num) (by norm_num) (by norm_num)

/-- C73.  All five partials of the furnishing weight. -/
theorem C73_furnishing_partials (i : FurnJ) (h1 : 0 < i.pax) (h2 : 0 < 1 + i.press) :
    HasDerivAt (fun x => FurnJ.compute { i with pax := x }) i.dpax i.pax ∧
    HasDerivAt (fun x => FurnJ.compute { i with press := x }) i.dpress i.press ∧
    HasDerivAt (fun x => FurnJ.compute { i with deck := x }) FurnJ.ddeck i.deck ∧
    HasDerivAt (fun x => FurnJ.compute { i with cabin := x }) FurnJ.dcabin i.cabin ∧
    HasDerivAt (fun x => FurnJ.compute { i with MTOW := x }) FurnJ.dMTOW i.MTOW := by
  obtain ⟨Kl, Kb, p, d, c, pr, M⟩ := i
  simp only at h1 h2
  have h3 : p * (1 + pr) / 100 ≠ 0 := by positivity
  have h3' : p * ((1 + pr) / 100) ≠ 0 := by positivity
  have e1 : p ^ (0.33 : ℝ) = p ^ (1.33 - 1 : ℝ) := by norm_num
  have e2 : p ^ (0.12 : ℝ) = p ^ (1.12 - 1 : ℝ) := by norm_num
  refine ⟨?_, ?_, ?_, ?_, ?_⟩ <;>
    simp only [FurnJ.compute, FurnJ.dpax, FurnJ.dpress, FurnJ.ddeck, FurnJ.dcabin, FurnJ.dMTOW] <;> hderiv
  · rw [e1, e2, rpow_sub_one h3, rpow_sub_one h1.ne' 0.505, mul_div_assoc p,
      mul_rpow h1.le (by positivity)]
    have := h2.ne'
    field_simp
  · rw [rpow_sub_one h3, rpow_sub_one h2.ne' 0.505, show p * (1 + pr) / 100 = p / 100 * (1 + pr) by ring,
      mul_rpow (by positivity) h2.le]
    have := h2.ne'
    field_simp
  all_goals ring

example := C73_furnishing_partials ⟨0.7, 4, 180, 2, 4, 9, 170000⟩ (by norm_num) (by norm_num)

/-- inputs of the equipment weight: positive masses, volume and numbers -/
def EquipJ.Ok (i : EquipJ) : Prop :=
  0 < i.cav ∧ 0 < i.MTOW ∧ 0 < i.pax ∧ 0 < i.cabin ∧ 0 < i.deck ∧ 0 < i.neng ∧ 0 < i.V ∧ 0 < i.Wfs

theorem EquipJ.Ok.av_pos {i : EquipJ} (h : i.Ok) : 0 < i.av := by
  obtain ⟨h1, h2, h3, h4, h5, h6, h7, h8⟩ := h
  unfold EquipJ.av; positivity

/-- C73.  All partials of the equipment weights: flight controls, avionics, electrics, air conditioning, oxygen, APU. -/
theorem C73_equipment_partials (i : EquipJ) (h : i.Ok) :
    HasDerivAt (fun x => EquipJ.fc { i with MTOW := x }) i.fc_dMTOW i.MTOW ∧
    HasDerivAt (fun x => EquipJ.av { i with deck := x }) i.av_ddeck i.deck ∧
    HasDerivAt (fun x => EquipJ.av { i with neng := x }) i.av_dneng i.neng ∧
    HasDerivAt (fun x => EquipJ.av { i with MTOW := x }) i.av_dMTOW i.MTOW ∧
    HasDerivAt (fun x => EquipJ.elec { i with Wfs := x }) i.elec_dWfs i.Wfs ∧
    HasDerivAt (fun x => EquipJ.elec { i with deck := x }) i.elec_ddeck i.deck ∧
    HasDerivAt (fun x => EquipJ.elec { i with neng := x }) i.elec_dneng i.neng ∧
    HasDerivAt (fun x => EquipJ.elec { i with MTOW := x }) i.elec_dMTOW i.MTOW ∧
    HasDerivAt (fun x => EquipJ.ac { i with deck := x }) i.ac_dpeople i.deck ∧
    HasDerivAt (fun x => EquipJ.ac { i with cabin := x }) i.ac_dpeople i.cabin ∧
    HasDerivAt (fun x => EquipJ.ac { i with pax := x }) i.ac_dpeople i.pax ∧
    HasDerivAt (fun x => EquipJ.ac { i with V := x }) i.ac_dV i.V ∧
    HasDerivAt (fun x => EquipJ.ox { i with deck := x }) i.ox_dpeople i.deck ∧
    HasDerivAt (fun x => EquipJ.ox { i with cabin := x }) i.ox_dpeople i.cabin ∧
    HasDerivAt (fun x => EquipJ.ox { i with pax := x }) i.ox_dpeople i.pax ∧
    HasDerivAt (fun x => EquipJ.APU { i with MTOW := x }) i.APU_dMTOW i.MTOW := by
  have hav := h.av_pos
  obtain ⟨cf, ca, ap, M, p, c, d, n, V, W⟩ := i
  obtain ⟨h1, h2, h3, h4, h5, h6, h7, h8⟩ := h
  simp only at h1 h2 h3 h4 h5 h6 h7 h8
  simp only [EquipJ.av] at hav
  have ha : 0.001 * (W + ca * (d * (15 + 0.000032 * M) + n * (5 + 0.000006 * M) + (0.00015 + 0.012) * M)) ≠ 0 := by
    positivity
  have hp : d + c + p ≠ 0 := by positivity
  have hV : 0.0001 * V * (d + c + p) ≠ 0 := by positivity
  have e1 : M ^ (-1 / 3 : ℝ) = M ^ (2 / 3 - 1 : ℝ) := by norm_num
  refine ⟨?_, ?_, ?_, ?_, ?_, ?_, ?_, ?_, ?_, ?_, ?_, ?_, ?_, ?_, ?_, ?_⟩ <;>
    simp only [EquipJ.fc, EquipJ.av, EquipJ.elec, EquipJ.people, EquipJ.ac, EquipJ.ox, EquipJ.APU, EquipJ.fc_dMTOW,
      EquipJ.av_ddeck, EquipJ.av_dneng, EquipJ.av_dMTOW, EquipJ.elec_dWfs, EquipJ.elec_ddeck, EquipJ.elec_dneng,
      EquipJ.elec_dMTOW, EquipJ.ac_dpeople, EquipJ.ac_dV, EquipJ.ox_dpeople, EquipJ.APU_dMTOW, e1] <;> hderiv <;> ring

example : EquipJ.Ok ⟨0.768, 0.5, 0.0085, 170000, 180, 4, 2, 2, 11000, 900⟩ := by unfold EquipJ.Ok; norm_num

/-- C73.  Partials of the cabin and aft body weights of a blended wing body. -/
theorem C73_bwb_partials (i : AftBWB) (hM : 0 < i.MTOW) {S : ℝ} (hS : 0 < S) :
    HasDerivAt (fun x => cabinBWB x i.MTOW) (cabinBWB_dS S i.MTOW) S ∧
    HasDerivAt (fun x => cabinBWB S x) (cabinBWB_dM S i.MTOW) i.MTOW ∧
    HasDerivAt (fun x => AftBWB.compute { i with S := x }) i.dS i.S ∧
    HasDerivAt (fun x => AftBWB.compute { i with taper := x }) i.dtaper i.taper ∧
    HasDerivAt (fun x => AftBWB.compute { i with neng := x }) i.dneng i.neng ∧
    HasDerivAt (fun x => AftBWB.compute { i with MTOW := x }) i.dMTOW i.MTOW := by
  obtain ⟨Sa, t, n, M⟩ := i
  simp only at hM
  have e1 : S ^ (0.061158 : ℝ) = S ^ (1.061158 - 1 : ℝ) := by norm_num
  refine ⟨?_, ?_, ?_, ?_, ?_, ?_⟩ <;>
    simp only [cabinBWB, cabinBWB_dS, cabinBWB_dM, AftBWB.compute, AftBWB.dS, AftBWB.dtaper, AftBWB.dneng, AftBWB.dMTOW,
      e1] <;> hderiv <;> ring

example := C73_bwb_partials ⟨1000, 0.8, 2, 500000⟩ (by norm_num) (S := 3000) (by norm_num)

/-! ### the operating empty weight -/

/-- C73.  For every state of the other variables: jet transport `OEW` is `total_fudge` times the sum of all weights, in
which the structural weights have the factor `structural_fudge` and the wing the further factor
`wing_weight_multiplier`; only `W_structure` and `OEW` change. -/
theorem C73_jet_total (f w t : ℝ) (e : Env) :
    runOEW structNamesJ f w t e "OEW" =
      t * (f * (w * e "W_wing" + e "W_hstab" + e "W_vstab" + e "W_fuselage" + e "W_mlg" + e "W_nlg" + e "W_nacelle")
        + e "W_engines" + e "W_thrust_rev" + e "W_eng_control" + e "W_fuelsystem" + e "W_eng_start" + e "W_furnishings"
        + e "W_flight_controls" + e "W_avionics" + e "W_electrical" + e "W_ac_pressurize_antiice" + e "W_oxygen"
        + e "W_APU") ∧
    ∀ v, v ≠ "W_structure" → v ≠ "OEW" → runOEW structNamesJ f w t e v = e v := by
  constructor
  · simp [runOEW, runAdd, totalSys, structSys, structNamesJ, finalNames, structFactors, AddSys.compute, Env.arr,
      AddSys.factors, List.zipIdx, List.replicate]
    ring
  · intro v h1 h2
    have e1 : v ≠ (totalSys t).output := h2
    have e2 : v ≠ (structSys structNamesJ f w).output := h1
    simp only [runOEW, runAdd, if_neg e1, if_neg e2]

/-- C73.  The same for the blended wing body, whose structure is wing, cabin, aft body, gear and nacelles. -/
theorem C73_bwb_total (f w t : ℝ) (e : Env) :
    runOEW structNamesBWB f w t e "OEW" =
      t * (f * (w * e "W_wing" + e "W_cabin" + e "W_aftbody" + e "W_mlg" + e "W_nlg" + e "W_nacelle")
        + e "W_engines" + e "W_thrust_rev" + e "W_eng_control" + e "W_fuelsystem" + e "W_eng_start" + e "W_furnishings"
        + e "W_flight_controls" + e "W_avionics" + e "W_electrical" + e "W_ac_pressurize_antiice" + e "W_oxygen"
        + e "W_APU") ∧
    ∀ v, v ≠ "W_structure" → v ≠ "OEW" → runOEW structNamesBWB f w t e v = e v := by
  constructor
  · simp [runOEW, runAdd, totalSys, structSys, structNamesBWB, finalNames, structFactors, AddSys.compute, Env.arr,
      AddSys.factors, List.zipIdx, List.replicate]
    ring
  · intro v h1 h2
    have e1 : v ≠ (totalSys t).output := h2
    have e2 : v ≠ (structSys structNamesBWB f w).output := h1
    simp only [runOEW, runAdd, if_neg e1, if_neg e2]

/-- wing 100 lb, everything else 10 lb -/
example : runOEW structNamesBWB 1.2 2 1.5 (fun v => if v = "W_wing" then 100 else 10) "OEW" = 630 := by
  rw [(C73_bwb_total _ _ _ _).1]; simp; norm_num

/-! ### monotonicity -/

/-- admissible options: all factors positive -/
def OptJ.Ok (o : OptJ) : Prop :=
  0 < o.fudge ∧ 0 < o.total ∧ 0 < o.wingMult ∧ 0 < o.nult ∧ 0 < o.nland ∧ 0 < o.cs ∧ 0 < o.Kuht ∧ 0 < 1 + o.elev ∧
    0 < o.Kdoor ∧ 0 < o.Klg ∧ 0 < o.kneelMain ∧ 0 < o.kneelNose ∧ 0 < o.cfc ∧ 0 < o.cav ∧ 0 ≤ o.apu ∧ 0 ≤ o.widthFrac

/-- inputs of a jet transport: everything positive, sweeps in [0°, 90°) -/
def AircraftJ.Ok (a : AircraftJ) : Prop :=
  0 < a.MTOW ∧ 0 < a.MLW ∧ 0 < a.Wf ∧ 0 < a.S ∧ 0 < a.AR ∧ 0 < cos a.sweep ∧ 0 ≤ sin a.sweep ∧ 0 < a.taper ∧ 0 < a.toverc ∧
    0 < a.Sh ∧ 0 < a.ARh ∧ 0 < cos a.sweeph ∧ 0 < a.armh ∧ 0 < a.Sv ∧ 0 < a.ARv ∧ 0 < cos a.sweepv ∧ 0 < a.armv ∧
    0 < a.tocv ∧ 0 < a.length ∧ 0 < a.height ∧ 0 < a.Swet ∧ 0 < a.mainLen ∧ 0 < a.mainWheels ∧ 0 < a.struts ∧
    0 < a.noseLen ∧ 0 < a.noseWheels ∧ 0 < a.Vstall ∧ 0 < a.Mmax ∧ 0 < a.T ∧ 0 < a.neng ∧ 0 < a.deck ∧
    0 < a.Scabin ∧ 0 < a.Saft ∧ 0 < a.taperAft

/-- C73.  Every structural and system weight that depends on MTOW grows with it. -/
theorem C73_components_mono (o : OptJ) (a : AircraftJ) (ho : o.Ok) (ha : a.Ok) (V : ℝ) {M : ℝ} (hM : a.MTOW < M) :
    (a.wing o).compute < (AircraftJ.wing o { a with MTOW := M }).compute ∧
    (a.hstab o).compute < (AircraftJ.hstab o { a with MTOW := M }).compute ∧
    (a.vstab o).compute < (AircraftJ.vstab o { a with MTOW := M }).compute ∧
    (a.fus o).compute < (AircraftJ.fus o { a with MTOW := M }).compute ∧
    (a.furn o).compute < (AircraftJ.furn o { a with MTOW := M }).compute ∧
    (a.equip o V).fc < (AircraftJ.equip o { a with MTOW := M } V).fc ∧
    (a.equip o V).av < (AircraftJ.equip o { a with MTOW := M } V).av ∧
    (a.equip o V).elec < (AircraftJ.equip o { a with MTOW := M } V).elec ∧
    (a.equip o V).APU ≤ (AircraftJ.equip o { a with MTOW := M } V).APU ∧
    cabinBWB a.Scabin a.MTOW < cabinBWB a.Scabin M ∧
    AftBWB.compute ⟨a.Saft, a.taperAft, a.neng, a.MTOW⟩ < AftBWB.compute ⟨a.Saft, a.taperAft, a.neng, M⟩ := by
  obtain ⟨o1, o2, o3, o4, o5, o6, o7, o8, o9, o10, o11, o12, o13, o14, o15, o16⟩ := ho
  obtain ⟨a1, a2, a3, a4, a5, a6, a6', a7, a8, a9, a10, a11, a12, a13, a14, a15, a16, a17, a18, a19, a20, a21, a22, a23,
    a24, a25, a26, a27, a28, a29, a30, a31, a32, a33⟩ := ha
  have hp : ∀ p : ℝ, 0 < p → a.MTOW ^ p < M ^ p := fun p hp => rpow_lt_rpow a1.le hM hp
  have ht : 0 ≤ tan a.sweep := by rw [tan_eq_sin_div_cos]; positivity
  have hav : (a.equip o V).av < (AircraftJ.equip o { a with MTOW := M } V).av := by
    simp only [AircraftJ.equip, EquipJ.av]
    refine mul_lt_mul_of_pos_left ?_ o14
    have := mul_lt_mul_of_pos_left hM a30
    have := mul_lt_mul_of_pos_left hM a29
    nlinarith
  refine ⟨?_, ?_, ?_, ?_, ?_, ?_, hav, ?_, ?_, ?_, ?_⟩
  · simp only [AircraftJ.wing, WingJ.compute]
    have : (a.MTOW * o.nult) ^ (0.557 : ℝ) < (M * o.nult) ^ (0.557 : ℝ) :=
      rpow_lt_rpow (by positivity) (mul_lt_mul_of_pos_right hM o4) (by norm_num)
    have ht1 : 0 < 1 + a.taper := by positivity
    gcongr
  · simp only [AircraftJ.hstab, HstabJ.compute, hstabConst]
    have := hp 0.639 (by norm_num)
    gcongr
  · simp only [AircraftJ.vstab, VstabJ.compute]
    have := hp 0.556 (by norm_num)
    have h1 : 0 < (1 + VstabJ.HtHv ⟨o.nult, o.Ttail, a.MTOW, a.Sv, a.ARv, a.sweepv, a.armv, a.tocv⟩) := by
      unfold VstabJ.HtHv; split_ifs <;> norm_num
    have h2 : VstabJ.HtHv ⟨o.nult, o.Ttail, M, a.Sv, a.ARv, a.sweepv, a.armv, a.tocv⟩ =
      VstabJ.HtHv ⟨o.nult, o.Ttail, a.MTOW, a.Sv, a.ARv, a.sweepv, a.armv, a.tocv⟩ := rfl
    rw [h2]
    gcongr
  · simp only [AircraftJ.fus, FusJ.compute]
    have := hp 0.5 (by norm_num)
    have hK : 0 ≤ KwsJ.compute ⟨a.taper, a.S, a.AR, a.sweep, a.length⟩ := by unfold KwsJ.compute; positivity
    gcongr
  · simp only [AircraftJ.furn, FurnJ.compute]; linarith
  · simp only [AircraftJ.equip, EquipJ.fc]
    exact mul_lt_mul_of_pos_left (hp _ (by norm_num)) o13
  · simp only [EquipJ.elec]
    have h0 : 0 < (a.equip o V).av := by simp only [AircraftJ.equip, EquipJ.av]; positivity
    have h1 : 0 < (a.equip o V).Wfs := by simp only [AircraftJ.equip, fuelSysJ]; positivity
    have h2 : (AircraftJ.equip o { a with MTOW := M } V).Wfs = (a.equip o V).Wfs := rfl
    rw [h2]
    refine mul_lt_mul_of_pos_left (rpow_lt_rpow (by positivity) ?_ (by norm_num)) (by norm_num)
    linarith
  · simp only [AircraftJ.equip, EquipJ.APU]
    exact mul_le_mul_of_nonneg_left hM.le o15
  · unfold cabinBWB
    have := hp 0.166552 (by norm_num)
    gcongr
  · simp only [AftBWB.compute]
    have := hp 0.2 (by norm_num)
    gcongr

/-- C73.  Whole groups: a heavier aircraft (greater MTOW, everything else equal) has a strictly greater operating empty
weight, for both the jet transport and the blended wing body. -/
theorem C73_total_mono (o : OptJ) (a : AircraftJ) (e : Env) (ho : o.Ok) (ha : a.Ok) {M : ℝ} (hM : a.MTOW < M) :
    a.OEW o e < AircraftJ.OEW o { a with MTOW := M } e ∧ a.OEWBWB o e < AircraftJ.OEWBWB o { a with MTOW := M } e := by
  obtain ⟨h1, h2, h3, h4, h5, h6, h7, h8, h9, h10, h11⟩ :=
    C73_components_mono o a ho ha (cabinVolume a.height a.length o.cabinFrac) hM
  obtain ⟨-, -, -, -, -, k6, k7, k8, k9, -, -⟩ := C73_components_mono o a ho ha a.Vpress hM
  obtain ⟨o1, o2, o3, -⟩ := ho
  have hw := mul_lt_mul_of_pos_left h1 o3
  constructor
  · unfold AircraftJ.OEW
    rw [(C73_jet_total _ _ _ _).1, (C73_jet_total _ _ _ _).1]
    simp only [AircraftJ.envJ, AircraftJ.common, String.reduceEq, if_false, if_true]
    have q1 : AircraftJ.mlg o { a with MTOW := M } = a.mlg o := rfl
    have q2 : AircraftJ.nlg o { a with MTOW := M } = a.nlg o := rfl
    have q3 : ∀ V, (AircraftJ.equip o { a with MTOW := M } V).ac = (a.equip o V).ac := fun _ => rfl
    have q4 : ∀ V, (AircraftJ.equip o { a with MTOW := M } V).ox = (a.equip o V).ox := fun _ => rfl
    rw [q1, q2, q3, q4]
    refine mul_lt_mul_of_pos_left ?_ o2
    have := mul_lt_mul_of_pos_left (add_lt_add (add_lt_add (add_lt_add hw h2) h3) h4) o1
    linarith
  · unfold AircraftJ.OEWBWB
    rw [(C73_bwb_total _ _ _ _).1, (C73_bwb_total _ _ _ _).1]
    simp only [AircraftJ.envBWB, AircraftJ.common, String.reduceEq, if_false, if_true]
    have q1 : AircraftJ.mlg o { a with MTOW := M } = a.mlg o := rfl
    have q2 : AircraftJ.nlg o { a with MTOW := M } = a.nlg o := rfl
    have q3 : ∀ V, (AircraftJ.equip o { a with MTOW := M } V).ac = (a.equip o V).ac := fun _ => rfl
    have q4 : ∀ V, (AircraftJ.equip o { a with MTOW := M } V).ox = (a.equip o V).ox := fun _ => rfl
    rw [q1, q2, q3, q4]
    refine mul_lt_mul_of_pos_left ?_ o2
    have := mul_lt_mul_of_pos_left (add_lt_add (add_lt_add hw h10) h11) o1
    linarith

/-- C73.  Both gear weights grow with the landing weight. -/
theorem C73_gear_mono (o : OptJ) (a : AircraftJ) (ho : o.Ok) (ha : a.Ok) {W : ℝ} (hW : a.MLW < W) :
    (a.mlg o).compute < (AircraftJ.mlg o { a with MLW := W }).compute ∧
    (a.nlg o).compute < (AircraftJ.nlg o { a with MLW := W }).compute := by
  obtain ⟨o1, o2, o3, o4, o5, o6, o7, o8, o9, o10, o11, o12, o13, o14, o15, o16⟩ := ho
  obtain ⟨a1, a2, a3, a4, a5, a6, a6', a7, a8, a9, a10, a11, a12, a13, a14, a15, a16, a17, a18, a19, a20, a21, a22, a23,
    a24, a25, a26, a27, a28, a29, a30, a31, a32, a33⟩ := ha
  constructor
  · simp only [AircraftJ.mlg, MainGearJ.compute]
    have : a.MLW ^ (0.888 : ℝ) < W ^ (0.888 : ℝ) := rpow_lt_rpow a2.le hW (by norm_num)
    gcongr
  · simp only [AircraftJ.nlg, NoseGearJ.compute]
    have : a.MLW ^ (0.646 : ℝ) < W ^ (0.646 : ℝ) := rpow_lt_rpow a2.le hW (by norm_num)
    gcongr

/-- the default options with a B738-like aircraft -/
example : OptJ.Ok ⟨1.2, 1.15, 1, 3.75, 4.2, 0.1, 0.5, 1, 0.2, false, 1, 1, 1, 1, 0.7, 4, 0.768, 0.5, 0.75, 0.0085⟩ := by
  unfold OptJ.Ok; norm_num

example : AircraftJ.Ok ⟨170000, 140000, 46000, 1340, 9.45, 0, 0.159, 0.12, 350, 6, 0, 55, 280, 1.9, 0, 52, 0.12, 125, 12.3,
    4200, 70, 4, 2, 50, 2, 115, 0.82, 27000, 2, 189, 2, 4, 9, 3000, 1000, 0.8, 20000⟩ := by
  unfold AircraftJ.Ok; norm_num

end Verif.Weights
