import Verif.Model.Aero
import Verif.Proof.HDeriv
import Mathlib.Analysis.SpecialFunctions.Trigonometric.Deriv
import Mathlib.Analysis.SpecialFunctions.Log.Deriv
import Mathlib.Analysis.Complex.ExponentialBounds
import Mathlib.Analysis.Calculus.ContDiff.Basic
import Mathlib.Analysis.Calculus.IteratedDeriv.Defs
import Mathlib.Tactic.NormNum

/-! Properties C60-C63: aerodynamics. -/

namespace Verif.Aero

open Real

/-! ### C60 -/

/-- C60.  At the stall speed and sea level density, lift at CLmax is the weight. -/
theorem C60_stall (W S CL : ℝ) (hW : 0 < W) (hS : 0 < S) (hC : 0 < CL) :
    lift (1 / 2 * 1.225 * vStall W S CL ^ 2) S CL = W * grav := by
  have : (0 : ℝ) < grav := by norm_num [grav]
  unfold lift vStall
  rw [sq_sqrt (by positivity)]
  field_simp

/-- C60.  Slower than the stall speed the wing cannot carry the weight at any lift coefficient up to CLmax. -/
theorem C60_below_stall (W S CLmax V CL : ℝ) (hW : 0 < W) (hS : 0 < S) (hC : 0 < CLmax) (h0 : 0 ≤ V)
    (hV : V < vStall W S CLmax) (hCL : CL ≤ CLmax) : lift (1 / 2 * 1.225 * V ^ 2) S CL < W * grav := by
  rw [← C60_stall W S CLmax hW hS hC]
  unfold lift
  have h1 : V ^ 2 < vStall W S CLmax ^ 2 := by nlinarith
  have h2 : 1 / 2 * 1.225 * V ^ 2 * S * CL ≤ 1 / 2 * 1.225 * V ^ 2 * S * CLmax := by
    refine mul_le_mul_of_nonneg_left hCL (by positivity)
  have h3 : 1 / 2 * 1.225 * V ^ 2 * S * CLmax < 1 / 2 * 1.225 * vStall W S CLmax ^ 2 * S * CLmax := by
    have : 0 < S * CLmax := by positivity
    nlinarith
  linarith

/-- C60.  Declared partials of the stall speed. -/
theorem C60_stall_partials (W S CL : ℝ) (hW : 0 < W) (hS : 0 < S) (hC : 0 < CL) :
    HasDerivAt (fun x => vStall x S CL) (vStallDW W S CL) W ∧
    HasDerivAt (fun x => vStall W x CL) (vStallDS W S CL) S ∧
    HasDerivAt (fun x => vStall W S x) (vStallDCL W S CL) CL := by
  have hg : (0 : ℝ) < grav := by norm_num [grav]
  have hp : 0 < 2 * W * grav / 1.225 / S / CL := by positivity
  have hs := sqrt_pos.2 hp
  refine ⟨?_, ?_, ?_⟩
  · refine hd_congr (HasDerivAt.sqrt (((((((hasDerivAt_id' W).const_mul 2).mul_const grav).div_const 1.225).div_const S).div_const CL)) hp.ne') ?_
    unfold vStallDW
    generalize √(2 * W * grav / 1.225 / S / CL) = r at *
    field_simp
  · refine hd_congr (HasDerivAt.sqrt ((hd_const_div (2 * W * grav / 1.225) (hasDerivAt_id' S) hS.ne').div_const CL) hp.ne') ?_
    unfold vStallDS
    generalize √(2 * W * grav / 1.225 / S / CL) = r at *
    field_simp
  · refine hd_congr (HasDerivAt.sqrt (hd_const_div (2 * W * grav / 1.225 / S) (hasDerivAt_id' CL) hC.ne') hp.ne') ?_
    unfold vStallDCL
    generalize √(2 * W * grav / 1.225 / S / CL) = r at *
    field_simp

/-- C60.  Drag is even in CL, at least the zero-lift drag, and equal to it only without lift. -/
theorem C60_drag (i : PolarIn) (hq : 0 < i.q) (hS : 0 < i.S) (he : 0 < i.e) (hA : 0 < i.AR) :
    drag {i with CL := -i.CL} = drag i ∧ i.q * i.S * i.CD0 ≤ drag i ∧ (drag i = i.q * i.S * i.CD0 ↔ i.CL = 0) := by
  have hpi := pi_pos
  have e : drag i = i.q * i.S * i.CD0 + i.q * i.S / (π * i.e * i.AR) * i.CL ^ 2 := by
    unfold drag; field_simp
  have hk : 0 < i.q * i.S / (π * i.e * i.AR) := by positivity
  refine ⟨by simp [drag], ?_, ?_⟩
  · rw [e]; nlinarith [mul_nonneg hk.le (sq_nonneg i.CL)]
  · rw [e]
    constructor
    · intro h
      have : i.CL ^ 2 = 0 := by
        have : i.q * i.S / (π * i.e * i.AR) * i.CL ^ 2 = 0 := by linarith
        rcases mul_eq_zero.1 this with h | h
        · exact absurd h hk.ne'
        · exact h
      exact pow_eq_zero_iff (by norm_num) |>.1 this
    · intro h; rw [h]; ring

/-- C60.  The best glide: for positive lift coefficients the drag per unit lift is smallest exactly at
`CL² = π e AR CD0`. -/
theorem C60_best_glide (i : PolarIn) (c : ℝ) (hq : 0 < i.q) (hS : 0 < i.S) (he : 0 < i.e) (hA : 0 < i.AR)
    (hD : 0 < i.CD0) (hC : 0 < i.CL) (hc : 0 < c) (hcc : c ^ 2 = π * i.e * i.AR * i.CD0) :
    drag {i with CL := c} / lift i.q i.S c ≤ drag i / lift i.q i.S i.CL ∧
    (drag {i with CL := c} / lift i.q i.S c = drag i / lift i.q i.S i.CL ↔ i.CL = c) := by
  have hpi := pi_pos
  have hK : 0 < π * i.e * i.AR := by positivity
  have e : ∀ x, 0 < x → drag {i with CL := x} / lift i.q i.S x = (c ^ 2 + x ^ 2) / (π * i.e * i.AR * x) := by
    intro x hx
    unfold drag lift
    rw [hcc]; field_simp
  have e1 := e c hc
  have e2 : drag i / lift i.q i.S i.CL = _ := e i.CL hC
  rw [e1, e2]
  have key : (c ^ 2 + i.CL ^ 2) / (π * i.e * i.AR * i.CL) - (c ^ 2 + c ^ 2) / (π * i.e * i.AR * c)
      = (i.CL - c) ^ 2 / (π * i.e * i.AR * i.CL) := by
    field_simp; ring
  have hpos : 0 ≤ (i.CL - c) ^ 2 / (π * i.e * i.AR * i.CL) := by positivity
  refine ⟨by linarith, ?_⟩
  constructor
  · intro h
    have : (i.CL - c) ^ 2 / (π * i.e * i.AR * i.CL) = 0 := by linarith
    rcases div_eq_zero_iff.1 this with h | h
    · have := pow_eq_zero_iff (n := 2) (by norm_num) |>.1 h
      linarith
    · exact absurd h (by positivity)
  · intro h; rw [h]

/-- C60.  Declared partials of the polar. -/
theorem C60_drag_partials (i : PolarIn) (he : i.e ≠ 0) (hA : i.AR ≠ 0) :
    HasDerivAt (fun x => drag {i with q := x}) (dragDq i) i.q ∧
    HasDerivAt (fun x => drag {i with CL := x}) (dragDCL i) i.CL ∧
    HasDerivAt (fun x => drag {i with CD0 := x}) (dragDCD0 i) i.CD0 ∧
    HasDerivAt (fun x => drag {i with e := x}) (dragDe i) i.e ∧
    HasDerivAt (fun x => drag {i with S := x}) (dragDS i) i.S ∧
    HasDerivAt (fun x => drag {i with AR := x}) (dragDAR i) i.AR := by
  have hpi := pi_ne_zero
  unfold drag dragDq dragDCL dragDCD0 dragDe dragDS dragDAR
  refine ⟨?_, ?_, ?_, ?_, ?_, ?_⟩ <;> hderiv
  all_goals (push_cast; ring)

example : lift (1 / 2 * 1.225 * vStall 5000 25 2 ^ 2) 25 2 = 5000 * grav :=
  C60_stall 5000 25 2 (by norm_num) (by norm_num) (by norm_num)

/-! ### C61 -/

/-- C61.  Form factor and flap drag partials. -/
theorem C61_form_partials (Q L D tc cf area delta sweep : ℝ) (hL : L ≠ 0) (hD : D ≠ 0) :
    HasDerivAt (fun x => fusFF Q x D) (fusFFDL Q L D) L ∧ HasDerivAt (fun x => fusFF Q L x) (fusFFDD Q L D) D ∧
    HasDerivAt (fun x => wingFF Q x) (wingFFD Q tc) tc ∧
    HasDerivAt (fun x => flapDrag cf area Q x sweep) (flapDragDdelta cf area Q delta sweep) delta ∧
    HasDerivAt (fun x => flapDrag cf area Q delta x) (flapDragDsweep cf area Q delta sweep) sweep := by
  have key : ∀ {f : ℝ → ℝ} {d x : ℝ}, HasDerivAt f d x → f x = L / D → HasDerivAt
      (fun y => Q * (1 + 2.2 / f y + 3.8 / f y ^ 3)) (Q * (-2.2 / (L / D) ^ 2 - 3 * 3.8 / (L / D) ^ 4) * d) x := by
    intro f d x h hx
    have hne : f x ≠ 0 := by rw [hx]; exact div_ne_zero hL hD
    refine hd_congr ((((hd_const_div 2.2 h hne).const_add 1).add
      (hd_const_div 3.8 (h.pow 3) (pow_ne_zero 3 hne))).const_mul Q) ?_
    simp only [Pi.pow_apply]
    rw [← hx]
    generalize f x = z at *
    field_simp
    ring
  refine ⟨?_, ?_, ?_, ?_, ?_⟩
  · exact key ((hasDerivAt_id' L).div_const D) rfl
  · refine hd_congr (key (hd_const_div L (hasDerivAt_id' D) hD) rfl) ?_
    unfold fusFFDD; ring
  · unfold wingFF wingFFD
    hderiv
    all_goals (push_cast; ring)
  · refine hd_congr (((((hasDerivAt_pow 2 delta).const_mul (flapQuad cf)).mul_const (cos sweep)).mul_const area).mul_const Q) ?_
    unfold flapDragDdelta; push_cast; ring
  · refine hd_congr ((((hasDerivAt_cos sweep).const_mul (flapQuad cf * delta ^ 2)).mul_const area).mul_const Q) ?_
    unfold flapDragDsweep; ring

/-- C61.  Form factors of slender bodies and thin wings tend to the interference factor from above; flaps never reduce drag:
the fitted coefficient is positive for every flap chord. -/
theorem C61_signs (Q L D tc cf area delta sweep : ℝ) (hQ : 0 < Q) (hL : 0 < L) (hD : 0 < D) (ht : 0 ≤ tc) (ha : 0 ≤ area)
    (hc : 0 ≤ cos sweep) : Q < fusFF Q L D ∧ Q ≤ wingFF Q tc ∧ 0 < flapQuad cf ∧ 0 ≤ flapDrag cf area Q delta sweep := by
  have hq : 0 < flapQuad cf := by
    unfold flapQuad
    nlinarith [sq_nonneg (cf - 7.45e-5 / (2 * 5.75e-4))]
  refine ⟨?_, ?_, hq, ?_⟩
  · unfold fusFF
    have : 0 < 2.2 / (L / D) + 3.8 / (L / D) ^ 3 := by positivity
    nlinarith
  · unfold wingFF
    have : 0 ≤ 2.7 * tc + 100 * tc ^ 4 := by positivity
    nlinarith
  · unfold flapDrag; positivity

/-- the exact derivative of the turbulent fit -/
noncomputable def dTurbTrue (Re : ℝ) : ℝ := -1.046 / (Re * log (0.06 * Re) ^ 3)

theorem turb_hd {Re : ℝ} (h0 : 0 < Re) (h1 : log (0.06 * Re) ≠ 0) : HasDerivAt turb (dTurbTrue Re) Re := by
  have h2 : (0.06 : ℝ) * Re ≠ 0 := by positivity
  have hl : HasDerivAt (fun x => log (0.06 * x)) (1 / Re) Re := by
    refine hd_congr (((hasDerivAt_id' Re).const_mul 0.06).log h2) ?_
    field_simp
  refine hd_congr (hd_const_div 0.523 (hl.pow 2) (pow_ne_zero 2 h1)) ?_
  unfold dTurbTrue
  generalize log (0.06 * Re) = z at *
  push_cast
  field_simp
  norm_num

theorem blasius_hd {Re : ℝ} (h0 : 0 < Re) : HasDerivAt blasius (dBlasius Re) Re := by
  have hs := sqrt_pos.2 h0
  refine hd_congr (hd_const_div 1.32824 (hasDerivAt_sqrt h0.ne') hs.ne') ?_
  unfold dBlasius
  have e : Re ^ (1.5 : ℝ) = √Re ^ 3 := by rw [sqrt_eq_rpow, ← rpow_natCast, ← rpow_mul h0.le]; norm_num
  rw [e]
  generalize √Re = r at *
  field_simp
  norm_num

/-- `2.81341` is not `-log 0.06`: it is smaller, by less than 1e-6 -/
theorem log_const : 2.81341 < -log 0.06 ∧ -log 0.06 < 2.81341 + 1e-6 := by
  have e1 := exp_one_gt_d9
  have e2 := exp_one_lt_d9
  have h3 : exp 3 = exp 1 ^ 3 := by rw [← exp_nat_mul]; norm_num
  have c1 : (2.7182818283 : ℝ) ^ 3 < exp 3 := by rw [h3]; exact pow_lt_pow_left₀ e1 (by norm_num) (by norm_num)
  have c2 : exp 3 < (2.7182818286 : ℝ) ^ 3 := by rw [h3]; exact pow_lt_pow_left₀ e2 (exp_pos 1).le (by norm_num)
  have l1 := sum_le_exp_of_nonneg (x := 0.18659) (by norm_num) 9
  have l2 := exp_bound' (x := 0.186589) (by norm_num) (by norm_num) (n := 9) (by norm_num)
  norm_num [Finset.sum_range_succ, Nat.factorial] at l1 l2
  have k1 : 0.06 * exp 3 < exp 0.18659 := by norm_num at c2 ⊢; linarith
  have k2 : exp 0.186589 < 0.06 * exp 3 := by norm_num at c1 ⊢; linarith
  have j1 := log_lt_log (by positivity) k1
  have j2 := log_lt_log (exp_pos _) k2
  rw [log_mul (by norm_num) (exp_pos 3).ne', log_exp, log_exp] at j1 j2
  constructor <;> [linarith; (norm_num at *; linarith)]

/-- C61.  The skin friction partials are the reported factor `dcfRe` times the derivatives of the Reynolds number, and those
are exact; with the exact derivative of the turbulent fit in place of `dTurb` the partials would be exact. -/
theorem C61_reynolds_partials (lam : ℝ) (i : FricIn) (hL : 0 < i.L) (hU : 0 < i.U) (hr : 0 < i.rho) (hT : 0 < i.T)
    (h1 : log (0.06 * reynolds i) ≠ 0) (h2 : 0 < lam → log (0.06 * (reynolds i * lam)) ≠ 0) :
    ∃ d : ℝ, HasDerivAt (fun x => cf lam {i with T := x}) (d * dReT i) i.T ∧
      HasDerivAt (fun x => cf lam {i with rho := x}) (d * dRerho i) i.rho ∧
      HasDerivAt (fun x => cf lam {i with U := x}) (d * dReU i) i.U ∧
      HasDerivAt (fun x => cf lam {i with L := x}) (d * dReL i) i.L ∧
      (d = if 0 < lam then dTurbTrue (reynolds i)
        + lam * (dBlasius (reynolds i * lam) - dTurbTrue (reynolds i * lam)) * lam else dTurbTrue (reynolds i)) := by
  classical
  have hv : 0 < viscDyn i.T := by unfold viscDyn; positivity
  have hk : 0 < viscKin i := by unfold viscKin; positivity
  have hR : 0 < reynolds i := by unfold reynolds; positivity
  have hd : HasDerivAt (fun y => cfRe lam y) (if 0 < lam then dTurbTrue (reynolds i)
      + lam * (dBlasius (reynolds i * lam) - dTurbTrue (reynolds i * lam)) * lam else dTurbTrue (reynolds i)) (reynolds i) := by
    unfold cfRe
    by_cases h : 0 < lam
    · simp only [gt_iff_lt, h, if_true]
      have hm := (hasDerivAt_id' (reynolds i)).mul_const lam
      have hb' : HasDerivAt blasius (dBlasius (reynolds i * lam)) (reynolds i * lam) := blasius_hd (mul_pos hR h)
      have ht' : HasDerivAt turb (dTurbTrue (reynolds i * lam)) (reynolds i * lam) := turb_hd (mul_pos hR h) (h2 h)
      have hb := HasDerivAt.comp (h₂ := blasius) (h := fun y => y * lam) (reynolds i) hb' hm
      have ht := HasDerivAt.comp (h₂ := turb) (h := fun y => y * lam) (reynolds i) ht' hm
      refine hd_congr ((turb_hd hR h1).add ((hb.sub ht).mul_const lam)) ?_
      ring
    · simp only [gt_iff_lt, h, if_false]
      exact turb_hd hR h1
  have eR : ∀ j : FricIn, cf lam j = cfRe lam (reynolds j) := fun _ => rfl
  have comp : ∀ {f : ℝ → ℝ} {d x : ℝ}, HasDerivAt f d x → f x = reynolds i → HasDerivAt (fun y => cfRe lam (f y))
      ((if 0 < lam then dTurbTrue (reynolds i)
      + lam * (dBlasius (reynolds i * lam) - dTurbTrue (reynolds i * lam)) * lam else dTurbTrue (reynolds i)) * d) x := by
    intro f d x hf hx
    refine HasDerivAt.comp (h₂ := cfRe lam) x ?_ hf
    rw [hx]; exact hd
  refine ⟨_, ?_, ?_, ?_, ?_, rfl⟩
  · simp only [eR]
    refine comp ?_ rfl
    have hvd : HasDerivAt viscDyn (dviscDynT i.T) i.T := by
      have hp : HasDerivAt (fun x : ℝ => x ^ (3 / 2 : ℝ)) (3 / 2 * i.T ^ (3 / 2 - 1 : ℝ)) i.T :=
        hasDerivAt_rpow_const (Or.inl hT.ne')
      have hne : i.T + 100.4 ≠ 0 := by positivity
      refine hd_congr (hd_div (hp.const_mul 1.458e-6) ((hasDerivAt_id' i.T).add_const 100.4) hne) ?_
      unfold dviscDynT
      have e1 : i.T ^ (3 / 2 - 1 : ℝ) = √i.T := by rw [sqrt_eq_rpow]; norm_num
      have e2 : i.T ^ (3 / 2 : ℝ) = √i.T * i.T := by
        rw [sqrt_eq_rpow]
        nth_rw 3 [← rpow_one i.T]
        rw [← rpow_add hT]; norm_num
      have hne' : 100.4 + i.T ≠ 0 := by positivity
      rw [e1, e2]
      generalize √i.T = r at *
      field_simp
      ring
    refine hd_congr (hd_const_div (i.U * i.L) (hvd.div_const i.rho) hk.ne') ?_
    unfold dReT viscKin
    ring
  · simp only [eR]
    refine comp ?_ rfl
    refine hd_congr (hd_const_div (i.U * i.L) (hd_const_div (viscDyn i.T) (hasDerivAt_id' i.rho) hr.ne') hk.ne') ?_
    unfold dRerho viscKin
    ring
  · simp only [eR]
    refine comp ?_ rfl
    refine hd_congr (((hasDerivAt_id' i.U).mul_const i.L).div_const (viscKin i)) ?_
    unfold dReU; ring
  · simp only [eR]
    refine comp ?_ rfl
    refine hd_congr (((hasDerivAt_id' i.L).const_mul i.U).div_const (viscKin i)) ?_
    unfold dReL; ring

/-- C61.  The reported derivative of the turbulent fit is never the derivative (negation of exactness) ... -/
theorem C61_turb_inexact (Re : ℝ) (h0 : 0 < Re) (h1 : log (0.06 * Re) ≠ 0) (h2 : log Re ≠ 2.81341) :
    ¬ HasDerivAt turb (dTurb Re) Re := by
  intro h
  have := (turb_hd h0 h1).unique h
  unfold dTurbTrue dTurb at this
  have e : log (0.06 * Re) = log 0.06 + log Re := log_mul (by norm_num) h0.ne'
  have hc := log_const
  have h3 : log Re - 2.81341 ≠ 0 := sub_ne_zero.2 h2
  rw [div_eq_div_iff (mul_ne_zero h0.ne' (pow_ne_zero 3 h1)) (mul_ne_zero h0.ne' (pow_ne_zero 3 h3))] at this
  have h4 : (log Re - 2.81341) ^ 3 = log (0.06 * Re) ^ 3 := by
    have : Re * (log Re - 2.81341) ^ 3 = Re * log (0.06 * Re) ^ 3 := by linarith
    exact mul_left_cancel₀ h0.ne' this
  have h5 : log Re - 2.81341 = log (0.06 * Re) := (Odd.strictMono_pow (by decide : Odd 3)).injective h4
  linarith [hc.1]

/-- C61.  ... but it is within a relative 3e-6 of it once `log (0.06 Re) ≥ 1`, in particular for every Reynolds number of
at least 50. -/
theorem C61_turb_accuracy (Re : ℝ) (h0 : 0 < Re) (h1 : 1 ≤ log (0.06 * Re)) :
    |dTurb Re - dTurbTrue Re| ≤ 3e-6 * |dTurbTrue Re| ∧ dTurb Re < 0 ∧ dTurbTrue Re < 0 := by
  have e : log (0.06 * Re) = log 0.06 + log Re := log_mul (by norm_num) h0.ne'
  have hc := log_const
  obtain ⟨ε, hε⟩ : ∃ ε, ε = -log 0.06 - 2.81341 := ⟨_, rfl⟩
  have he0 : 0 < ε := by linarith [hc.1]
  have he1 : ε < 1e-6 := by linarith [hc.2]
  have ex : log Re - 2.81341 = log (0.06 * Re) + ε := by rw [e, hε]; ring
  unfold dTurb dTurbTrue
  rw [ex]
  generalize log (0.06 * Re) = x at *
  have hx : 0 < x := by linarith
  have hy : 0 < x + ε := by linarith
  have d1 : 0 < 1.046 / (Re * x ^ 3) := by positivity
  have d2 : 0 < 1.046 / (Re * (x + ε) ^ 3) := by positivity
  refine ⟨?_, by rw [neg_div]; linarith, by rw [neg_div]; linarith⟩
  rw [neg_div, neg_div, abs_neg, abs_of_pos d1]
  have hle : 1.046 / (Re * (x + ε) ^ 3) ≤ 1.046 / (Re * x ^ 3) := by
    refine div_le_div_of_nonneg_left (by norm_num) (by positivity) ?_
    refine mul_le_mul_of_nonneg_left ?_ h0.le
    exact pow_le_pow_left₀ hx.le (by linarith) 3
  have hge : (1 - 3e-6) * (1.046 / (Re * x ^ 3)) ≤ 1.046 / (Re * (x + ε) ^ 3) := by
    rw [← mul_div_assoc, div_le_div_iff₀ (by positivity) (by positivity)]
    have key : (1 - 3e-6) * (x + ε) ^ 3 ≤ x ^ 3 := by
      have hb : x + ε ≤ x * (1 + 1e-6) := by nlinarith
      have hb3 := pow_le_pow_left₀ hy.le hb 3
      have hx3 : 0 < x ^ 3 := by positivity
      calc (1 - 3e-6) * (x + ε) ^ 3 ≤ (1 - 3e-6) * (x * (1 + 1e-6)) ^ 3 := by
            refine mul_le_mul_of_nonneg_left hb3 (by norm_num)
        _ = ((1 - 3e-6) * (1 + 1e-6) ^ 3) * x ^ 3 := by ring
        _ ≤ 1 * x ^ 3 := by
            refine mul_le_mul_of_nonneg_right (by norm_num) hx3.le
        _ = x ^ 3 := one_mul _
    have := mul_le_mul_of_nonneg_left key (show 0 ≤ 1.046 * Re by positivity)
    linarith
  rw [abs_le]
  constructor <;> linarith

/-- C61.  The factor the component reports for its four partials is within a relative 3e-6 (of its turbulent terms) of the
derivative of the skin friction coefficient with respect to the Reynolds number, for every laminar fraction. -/
theorem C61_reported_factor (lam Re : ℝ) (h0 : 0 < Re) (h1 : 1 ≤ log (0.06 * Re))
    (h2 : 0 < lam → 1 ≤ log (0.06 * (Re * lam))) :
    ∃ d e : ℝ, HasDerivAt (fun y => cfRe lam y) d Re ∧ HasDerivAt turb e Re ∧
    (¬ 0 < lam → |dcfRe lam Re - d| ≤ 3e-6 * |e|) ∧
    (0 < lam → ∃ f, HasDerivAt turb f (Re * lam) ∧ |dcfRe lam Re - d| ≤ 3e-6 * (|e| + lam ^ 2 * |f|)) := by
  classical
  have ht := turb_hd h0 (by linarith : log (0.06 * Re) ≠ 0)
  have a1 := (C61_turb_accuracy Re h0 h1).1
  by_cases h : 0 < lam
  · have hm := (hasDerivAt_id' Re).mul_const lam
    have hl : 0 < Re * lam := mul_pos h0 h
    have hb' : HasDerivAt blasius (dBlasius (Re * lam)) (Re * lam) := blasius_hd hl
    have ht' : HasDerivAt turb (dTurbTrue (Re * lam)) (Re * lam) := turb_hd hl (by linarith [h2 h])
    have hb := HasDerivAt.comp (h₂ := blasius) (h := fun y => y * lam) Re hb' hm
    have htl := HasDerivAt.comp (h₂ := turb) (h := fun y => y * lam) Re ht' hm
    have a2 := (C61_turb_accuracy (Re * lam) hl (h2 h)).1
    refine ⟨dTurbTrue Re + (dBlasius (Re * lam) * (1 * lam) - dTurbTrue (Re * lam) * (1 * lam)) * lam, _, ?_, ht,
      fun hc => absurd h hc, fun _ => ⟨_, ht', ?_⟩⟩
    · have e : (fun y => cfRe lam y) = fun y => turb y + (blasius (y * lam) - turb (y * lam)) * lam := by
        funext y; unfold cfRe; rw [if_pos h]
      rw [e]
      exact ht.add ((hb.sub htl).mul_const lam)
    · unfold dcfRe
      rw [if_pos h]
      have e : dTurb Re + lam * (dBlasius (Re * lam) - dTurb (Re * lam)) * lam -
          (dTurbTrue Re + (dBlasius (Re * lam) * (1 * lam) - dTurbTrue (Re * lam) * (1 * lam)) * lam)
          = (dTurb Re - dTurbTrue Re) - lam ^ 2 * (dTurb (Re * lam) - dTurbTrue (Re * lam)) := by ring
      rw [e]
      refine (abs_sub _ _).trans ?_
      rw [abs_mul, abs_of_nonneg (sq_nonneg lam), mul_add]
      have := mul_le_mul_of_nonneg_left a2 (sq_nonneg lam)
      linarith
  · refine ⟨dTurbTrue Re, _, ?_, ht, fun _ => ?_, fun hc => absurd hc h⟩
    · have e : (fun y => cfRe lam y) = turb := by funext y; unfold cfRe; rw [if_neg h]
      rw [e]; exact ht
    · unfold dcfRe; rw [if_neg h]; exact a1

/-- C61.  A fully laminar surface has the Blasius coefficient, a fully turbulent one the Spalding coefficient, which falls
with the Reynolds number. -/
theorem C61_limits (Re Re' : ℝ) (h1 : 1 < 0.06 * Re) (h : Re < Re') :
    cfRe 1 Re = blasius Re ∧ cfRe 0 Re = turb Re ∧ turb Re' < turb Re ∧ 0 < turb Re := by
  have h0 : 0 < Re := by linarith
  have l1 : 0 < log (0.06 * Re) := log_pos h1
  have l2 : log (0.06 * Re) < log (0.06 * Re') := log_lt_log (by linarith) (by linarith)
  refine ⟨by simp [cfRe], by simp [cfRe], ?_, by unfold turb; positivity⟩
  unfold turb
  refine div_lt_div_of_pos_left (by norm_num) (by positivity) ?_
  exact pow_lt_pow_left₀ l2 l1.le (by norm_num)

/-- C61.  In the takeoff configuration CD0 is the clean CD0 plus flap drag and gear drag; the increment is at least 0.02
times the fudge factor. -/
theorem C61_takeoff (i : ParasiteIn) (hf : 0 ≤ i.fudge) (ha : 0 ≤ i.flapArea) (hQ : 0 ≤ i.Qflap) (hc : 0 ≤ cos i.sweep) :
    cd0 {i with takeoff := true} = cd0 {i with takeoff := false}
      + i.fudge * (flapDrag i.flapChord i.flapArea i.Qflap i.flapDeg i.sweep + 0.02) ∧
    cd0 {i with takeoff := false} + i.fudge * 0.02 ≤ cd0 {i with takeoff := true} := by
  have e : cd0 {i with takeoff := true} = cd0 {i with takeoff := false}
      + i.fudge * (flapDrag i.flapChord i.flapArea i.Qflap i.flapDeg i.sweep + 0.02) := by
    simp only [cd0, cdFlap, cdGear, if_true, cdFus, cdH, cdV, cdN, cdW, Bool.false_eq_true, if_false]
    ring
  refine ⟨e, ?_⟩
  rw [e]
  have hq : 0 < flapQuad i.flapChord := by
    unfold flapQuad
    nlinarith [sq_nonneg (i.flapChord - 7.45e-5 / (2 * 5.75e-4))]
  have : 0 ≤ flapDrag i.flapChord i.flapArea i.Qflap i.flapDeg i.sweep := by
    unfold flapDrag; positivity
  nlinarith [mul_nonneg hf this]

/-- C61.  Wing and tail surfaces count twice their planform area, with the Reynolds number of their own mean aerodynamic
chord. -/
theorem C61_surfaces (i : ParasiteIn) (hS : i.wS ≠ 0) (w : 0 < i.wtaper) (h : 0 < i.htaper) (v : 0 < i.vtaper) :
    cdW i * i.wS = 2 * i.wS * wingFF i.Qwing i.wtc *
      cf i.lamW ⟨4 / 3 * (1 + i.wtaper + i.wtaper ^ 2) / (1 + i.wtaper) ^ 2 * √(i.wS / i.wAR), i.U, i.rho, i.T⟩ ∧
    cdH i * i.wS = 2 * i.hS * wingFF i.Qtail i.htc *
      cf i.lamH ⟨4 / 3 * (1 + i.htaper + i.htaper ^ 2) / (1 + i.htaper) ^ 2 * √(i.hS / i.hAR), i.U, i.rho, i.T⟩ ∧
    cdV i * i.wS = 2 * i.vS * wingFF i.Qtail i.vtc *
      cf i.lamV ⟨4 / 3 * (1 + i.vtaper + i.vtaper ^ 2) / (1 + i.vtaper) ^ 2 * √(i.vS / i.vAR), i.U, i.rho, i.T⟩ := by
  have e : ∀ S AR t : ℝ, 0 < t → Geometry.macTrap S AR t = 4 / 3 * (1 + t + t ^ 2) / (1 + t) ^ 2 * √(S / AR) := by
    intro S AR t ht
    unfold Geometry.macTrap Geometry.cTip Geometry.cRoot
    by_cases hz : √(S / AR) = 0
    · simp [hz]
    · have h3 : 1 + t ≠ 0 := by positivity
      field_simp
      ring
  unfold cdW cdH cdV
  rw [e _ _ _ w, e _ _ _ h, e _ _ _ v]
  refine ⟨?_, ?_, ?_⟩ <;> field_simp

/-- C61.  The dimensional fuselage, tail and nacelle drag areas do not depend on the wing reference area. -/
theorem C61_reference_area (i : ParasiteIn) (S : ℝ) (h : i.wS ≠ 0) (hS : S ≠ 0) :
    cdFus {i with wS := S} * S = cdFus i * i.wS ∧ cdH {i with wS := S} * S = cdH i * i.wS ∧
    cdV {i with wS := S} * S = cdV i * i.wS ∧ cdN {i with wS := S} * S = cdN i * i.wS := by
  simp only [cdFus, cdH, cdV, cdN]
  refine ⟨?_, ?_, ?_, ?_⟩ <;> field_simp

example : ¬ HasDerivAt turb (dTurb 1000000) 1000000 := by
  refine C61_turb_inexact 1000000 (by norm_num) (log_pos (by norm_num)).ne' ?_
  intro h
  have h1 : log (exp 3) < log 1000000 := by
    refine log_lt_log (exp_pos 3) ?_
    have : exp 3 = exp 1 ^ 3 := by rw [← exp_nat_mul]; norm_num
    rw [this]
    have := pow_lt_pow_left₀ exp_one_lt_d9 (exp_pos 1).le (n := 3) (by norm_num)
    norm_num at this ⊢; linarith
  rw [log_exp, h] at h1
  norm_num at h1

/-! ### C62 -/

/-- C62.  Declared partials of the clean CLmax. -/
theorem C62_clean_partials (fudge Cl sweep : ℝ) :
    HasDerivAt (fun x => cleanCL fudge x sweep) (cleanCLDCl fudge sweep) Cl ∧
    HasDerivAt (fun x => cleanCL fudge Cl x) (cleanCLDsweep fudge Cl sweep) sweep := by
  constructor
  · refine hd_congr (((hasDerivAt_id' Cl).const_mul (fudge * 0.9)).mul_const (cos sweep)) ?_
    unfold cleanCLDCl; ring
  · refine hd_congr ((hasDerivAt_cos sweep).const_mul (fudge * 0.9 * Cl)) ?_
    unfold cleanCLDsweep; ring

/-- C62.  Declared partials of the flapped CLmax. -/
theorem C62_flap_partials (o : FlapOpts) (i : FlapIn) (hc : 0 < cos i.sweep) :
    HasDerivAt (fun x => flapCL o {i with delta := x}) (flapCLDdelta o i) i.delta ∧
    HasDerivAt (fun x => flapCL o {i with sweep := x}) (flapCLDsweep o i) i.sweep ∧
    HasDerivAt (fun x => flapCL o {i with tc := x}) (flapCLDtc o i) i.tc ∧
    HasDerivAt (fun x => flapCL o {i with clean := x}) (flapCLDclean o) i.clean := by
  refine ⟨?_, ?_, ?_, ?_⟩
  · have k2 : HasDerivAt flapK2 (flapK2D i.delta) i.delta := by
      unfold flapK2 flapK2D
      hderiv
      all_goals (push_cast; ring)
    have k3 : HasDerivAt flapK3 (flapK3D i.delta) i.delta := by
      refine hd_congr ((k2.const_mul 1.36).sub ((k2.pow 2).const_mul 0.389)) ?_
      unfold flapK3D; push_cast; ring
    refine hd_congr ((((((((k2.const_mul (flapBase i.tc * (4 * o.flapChord))).fun_mul k3).mul_const o.flapArea).mul_const
      (1 - 0.08 * cos i.sweep ^ 2)).mul_const (cos i.sweep ^ (0.75 : ℝ))).const_add i.clean).add_const
      (slatInc o i)).const_mul o.fudge) ?_
    unfold flapCLDdelta flapIncDdcl flapDclDdelta; ring
  · have h1 : HasDerivAt (fun x => 1 - 0.08 * cos x ^ 2) (0.16 * cos i.sweep * sin i.sweep) i.sweep := by
      refine hd_congr ((((hasDerivAt_cos i.sweep).pow 2).const_mul 0.08).const_sub 1) ?_
      push_cast; ring
    have h2 : HasDerivAt (fun x => cos x ^ (0.75 : ℝ)) (-sin i.sweep * 0.75 * cos i.sweep ^ (0.75 - 1 : ℝ)) i.sweep :=
      (hasDerivAt_cos i.sweep).rpow_const (Or.inl hc.ne')
    have h3 : HasDerivAt (fun x => 7.11 * o.slatChord * o.slatSpan ^ 2 * cos x ^ 2)
        (-(7.11 * o.slatChord * o.slatSpan ^ 2 * 2 * cos i.sweep * sin i.sweep)) i.sweep := by
      refine hd_congr (((hasDerivAt_cos i.sweep).pow 2).const_mul (7.11 * o.slatChord * o.slatSpan ^ 2)) ?_
      push_cast; ring
    refine hd_congr ((((((h1.const_mul (flapDcl o i * o.flapArea)).fun_mul h2).const_add i.clean).add h3)).const_mul o.fudge) ?_
    unfold flapCLDsweep
    have e1 : cos i.sweep ^ (0.75 : ℝ) = cos i.sweep ^ (-0.25 : ℝ) * cos i.sweep := by
      rw [← rpow_add_one hc.ne']; norm_num
    have e2 : cos i.sweep ^ (0.25 : ℝ) = (cos i.sweep ^ (-0.25 : ℝ))⁻¹ := by
      rw [← rpow_neg hc.le]; norm_num
    rw [e1, e2, show (0.75 - 1 : ℝ) = -0.25 by norm_num]
    have : 0 < cos i.sweep ^ (-0.25 : ℝ) := by positivity
    generalize cos i.sweep ^ (-0.25 : ℝ) = p at *
    generalize cos i.sweep = c at *
    generalize sin i.sweep = s at *
    generalize flapDcl o i = d at *
    rw [div_inv_eq_mul]
    ring
  · have h1 : HasDerivAt flapBase (2.33 - 2 * 77.9 * i.tc + 3 * 1120 * i.tc ^ 2 - 4 * 3430 * i.tc ^ 3) i.tc := by
      unfold flapBase
      hderiv
      all_goals (push_cast; ring)
    refine hd_congr ((((((((((h1.mul_const (4 * o.flapChord)).mul_const (flapK2 i.delta)).mul_const (flapK3 i.delta)).mul_const
      o.flapArea).mul_const (1 - 0.08 * cos i.sweep ^ 2)).mul_const (cos i.sweep ^ (0.75 : ℝ))).const_add i.clean)).add_const
      (slatInc o i)).const_mul o.fudge) ?_
    unfold flapCLDtc flapIncDdcl flapDclDtc; ring
  · refine hd_congr ((((hasDerivAt_id' i.clean).add_const (flapInc o i)).add_const (slatInc o i)).const_mul o.fudge) ?_
    unfold flapCLDclean; ring

theorem flapDcl_pos (o : FlapOpts) (i : FlapIn) (ho : 0 < o.flapChord) (ht : 0 ≤ i.tc) (ht' : i.tc ≤ 0.25)
    (hd : 0 ≤ i.delta) (hd' : i.delta ≤ 100) : 0 < flapDcl o i := by
  have h1 : 0 < flapBase i.tc := by
    unfold flapBase
    nlinarith [sq_nonneg (i.tc - 0.08), mul_nonneg ht (sq_nonneg (i.tc - 0.08)), mul_nonneg (mul_nonneg ht ht) (sub_nonneg.2 ht'),
      mul_nonneg (mul_nonneg ht (sq_nonneg i.tc)) (sub_nonneg.2 ht'), mul_nonneg ht (sub_nonneg.2 ht')]
  have h2 : 0 < flapK2 i.delta := by unfold flapK2; nlinarith
  have h2' : flapK2 i.delta ≤ 1.1 := by unfold flapK2; nlinarith [sq_nonneg (i.delta - 57)]
  have h3 : 0 < flapK3 i.delta := by unfold flapK3; nlinarith
  unfold flapDcl
  positivity

/-- C62.  Flap increments are positive and grow with the flapped area, slat increments with the slat span, for thickness
ratios up to 25 % and deflections up to 100 degrees. -/
theorem C62_monotone (o : FlapOpts) (i : FlapIn) (area : ℝ) (hf : 0 < o.fudge) (ho : 0 < o.flapChord) (ht : 0 ≤ i.tc)
    (ht' : i.tc ≤ 0.25) (hd : 0 ≤ i.delta) (hd' : i.delta ≤ 100) (hc : 0 < cos i.sweep) (h : o.flapArea < area) :
    flapCL o i < flapCL {o with flapArea := area} i := by
  have h1 := flapDcl_pos o i ho ht ht' hd hd'
  have h2 : 0 < 1 - 0.08 * cos i.sweep ^ 2 := by
    have := cos_le_one i.sweep
    nlinarith
  have h3 : 0 < cos i.sweep ^ (0.75 : ℝ) := by positivity
  unfold flapCL
  refine mul_lt_mul_of_pos_left ?_ hf
  have e : flapInc {o with flapArea := area} i - flapInc o i
      = flapDcl o i * (area - o.flapArea) * (1 - 0.08 * cos i.sweep ^ 2) * cos i.sweep ^ (0.75 : ℝ) := by
    unfold flapInc flapDcl; ring
  have e' : slatInc {o with flapArea := area} i = slatInc o i := rfl
  have : 0 < flapInc {o with flapArea := area} i - flapInc o i := by
    rw [e]
    have : 0 < area - o.flapArea := by linarith
    positivity
  linarith

/-- C62.  Zero flap deflection does NOT return the clean value: with flaps present the increment is positive even at zero
deflection (negation). -/
theorem C62_zero_deflection (o : FlapOpts) (i : FlapIn) (ho : 0 < o.flapChord) (ha : 0 < o.flapArea) (ht : 0 ≤ i.tc)
    (ht' : i.tc ≤ 0.25) (hc : 0 < cos i.sweep) (hf : 0 < o.fudge) (hs : 0 ≤ o.slatChord) :
    o.fudge * i.clean < flapCL o {i with delta := 0} := by
  have h1 := flapDcl_pos o {i with delta := 0} ho ht ht' le_rfl (by norm_num)
  have h2 : 0 < 1 - 0.08 * cos i.sweep ^ 2 := by
    have := cos_le_one i.sweep
    nlinarith
  have h3 : 0 < cos i.sweep ^ (0.75 : ℝ) := by positivity
  have h4 : 0 < flapInc o {i with delta := 0} := by
    unfold flapInc; positivity
  have h5 : 0 ≤ slatInc o {i with delta := 0} := by
    unfold slatInc; positivity
  unfold flapCL
  refine mul_lt_mul_of_pos_left ?_ hf
  show i.clean < i.clean + _ + _
  linarith

/-- C62.  What does return the clean value: no flap chord (or area) and no slat chord (or span). -/
theorem C62_clean_partial (o : FlapOpts) (i : FlapIn) (h1 : o.flapChord = 0 ∨ o.flapArea = 0)
    (h2 : o.slatChord = 0 ∨ o.slatSpan = 0) : flapCL o i = o.fudge * i.clean := by
  unfold flapCL flapInc slatInc flapDcl
  rcases h1 with h1 | h1 <;> rcases h2 with h2 | h2 <;> rw [h1, h2] <;> ring

/-- C62.  Deflecting the flaps further raises CLmax only up to about 57 degrees; beyond, the fit decreases. -/
theorem C62_deflection_peak (delta : ℝ) : (0 < flapK2D delta ↔ delta < 0.0234 / (2 * 2.04e-4)) ∧
    (57 : ℝ) < 0.0234 / (2 * 2.04e-4) ∧ (0.0234 / (2 * 2.04e-4) : ℝ) < 58 := by
  refine ⟨?_, by norm_num, by norm_num⟩
  rw [lt_div_iff₀ (by norm_num)]
  unfold flapK2D
  constructor <;> intro h <;> linarith

example : (1 : ℝ) * 1.5 < flapCL ⟨0.2, 0.9, 0.1, 0.8, 1⟩ ⟨0, 0, 1.5, 0.12⟩ :=
  C62_zero_deflection ⟨0.2, 0.9, 0.1, 0.8, 1⟩ ⟨0, 0, 1.5, 0.12⟩ (by norm_num) (by norm_num) (by norm_num) (by norm_num)
    (by norm_num) (by norm_num) (by norm_num)

/-! ### C63 -/

/-- consecutive sections satisfy `P` -/
def WPairs (P : WSec → WSec → Prop) : List WSec → Prop
  | a :: b :: l => P a b ∧ WPairs P (b :: l)
  | _ => True

theorem wSum_le {f g : WSec → WSec → ℝ} {l : List WSec} (h : WPairs (fun a b => f a b ≤ g a b) l) : wSum f l ≤ wSum g l := by
  induction l with
  | nil => exact le_rfl
  | cons a l ih =>
    cases l with
    | nil => exact le_rfl
    | cons b l => exact add_le_add h.1 (ih h.2)

theorem WPairs.mono {P Q : WSec → WSec → Prop} (h : ∀ a b, P a b → Q a b) {l : List WSec} (hp : WPairs P l) : WPairs Q l := by
  induction l with
  | nil => trivial
  | cons a l ih =>
    cases l with
    | nil => trivial
    | cons b l => exact ⟨h _ _ hp.1, ih hp.2⟩

theorem wSum_mul (k : ℝ) (f : WSec → WSec → ℝ) (l : List WSec) : wSum (fun a b => k * f a b) l = k * wSum f l := by
  induction l with
  | nil => simp [wSum]
  | cons a l ih =>
    cases l with
    | nil => simp [wSum]
    | cons b l => simp only [wSum] at ih ⊢; rw [ih]; ring

/-- closed form of the sampled integral of a product of two linear functions -/
theorem trapz_lin (N : ℕ) (hN : 0 < N) (a b c d y1 y2 : ℝ) :
    trapz (N + 1) (fun j => linspace a b (N + 1) j * linspace c d (N + 1) j) (fun j => linspace y1 y2 (N + 1) j)
      = (y2 - y1) * ((2 * a * c + a * d + b * c + 2 * b * d) / 6 + (b - a) * (d - c) / (6 * N ^ 2)) := by
  have hN' : (N : ℝ) ≠ 0 := by positivity
  have part : ∀ m : ℕ, ∑ j ∈ Finset.range m,
      (linspace y1 y2 (N + 1) (j + 1) - linspace y1 y2 (N + 1) j)
        * (linspace a b (N + 1) (j + 1) * linspace c d (N + 1) (j + 1) + linspace a b (N + 1) j * linspace c d (N + 1) j) / 2
      = (y2 - y1) / N * (a * c * m + (a * (d - c) + c * (b - a)) / N * (m ^ 2 / 2)
          + (b - a) * (d - c) / N ^ 2 * (m ^ 3 / 3 + m / 6)) := by
    intro m
    induction m with
    | zero => simp
    | succ m ih =>
      rw [Finset.sum_range_succ, ih]
      unfold linspace
      push_cast
      rw [add_sub_cancel_right]
      field_simp
      ring
  have h := part N
  unfold trapz
  rw [Nat.add_sub_cancel, h]
  field_simp
  ring

/-- C63.  The 500 point quadrature of a panel: the exact integral of t/c times chord plus a known remainder. -/
theorem C63_quadrature (a b : WSec) (hA : wPanelArea a b ≠ 0) : wPanelTc 500 a b * wPanelArea a b
    = (b.y - a.y) * ((2 * a.tc * a.c + a.tc * b.c + b.tc * a.c + 2 * b.tc * b.c) / 6
      + (b.tc - a.tc) * (b.c - a.c) / (6 * 499 ^ 2)) := by
  unfold wPanelTc
  rw [div_mul_cancel₀ _ hA]
  have := trapz_lin 499 (by norm_num) a.tc b.tc a.c b.c a.y b.y
  push_cast at this
  exact this

/-- C63.  The averaged thickness ratio lies between the smallest and largest section thickness ratio, whatever the
sampling; a uniform ratio is returned unchanged. -/
theorem C63_average_bounds (N : ℕ) (hN : 0 < N) (l : List WSec) (lo hi : ℝ)
    (h : WPairs (fun a b => a.y < b.y ∧ 0 < a.c ∧ 0 < b.c ∧ lo ≤ a.tc ∧ a.tc ≤ hi ∧ lo ≤ b.tc ∧ b.tc ≤ hi) l)
    (hA : 0 < wSum wPanelArea l) : lo ≤ avgTc (N + 1) l ∧ avgTc (N + 1) l ≤ hi := by
  have hN1 : (1 : ℝ) ≤ N := by exact_mod_cast hN
  have key : ∀ a b : WSec, a.y < b.y ∧ 0 < a.c ∧ 0 < b.c ∧ lo ≤ a.tc ∧ a.tc ≤ hi ∧ lo ≤ b.tc ∧ b.tc ≤ hi →
      lo * wPanelArea a b ≤ wPanelTc (N + 1) a b * wPanelArea a b ∧
      wPanelTc (N + 1) a b * wPanelArea a b ≤ hi * wPanelArea a b := by
    intro a b ⟨hy, hc1, hc2, l1, l2, l3, l4⟩
    have hpa : 0 < wPanelArea a b := by
      unfold wPanelArea
      have : 0 < b.y - a.y := by linarith
      positivity
    have e : wPanelTc (N + 1) a b * wPanelArea a b = (b.y - a.y) * (a.tc * ((2 * a.c + b.c) / 6 - (b.c - a.c) / (6 * N ^ 2))
        + b.tc * ((a.c + 2 * b.c) / 6 + (b.c - a.c) / (6 * N ^ 2))) := by
      unfold wPanelTc
      rw [div_mul_cancel₀ _ hpa.ne', trapz_lin N hN]
      ring
    have hr : 0 ≤ 1 / (6 * (N : ℝ) ^ 2) := by positivity
    have hr' : 1 / (6 * (N : ℝ) ^ 2) ≤ 1 / 6 := by
      apply one_div_le_one_div_of_le (by norm_num); nlinarith
    obtain ⟨r, hre⟩ : ∃ r, r = 1 / (6 * (N : ℝ) ^ 2) := ⟨_, rfl⟩
    have er : (b.c - a.c) / (6 * (N : ℝ) ^ 2) = (b.c - a.c) * r := by rw [hre]; ring
    rw [e, er]
    rw [← hre] at hr hr'
    have w1 : 0 ≤ (2 * a.c + b.c) / 6 - (b.c - a.c) * r := by nlinarith
    have w2 : 0 ≤ (a.c + 2 * b.c) / 6 + (b.c - a.c) * r := by nlinarith
    have hy' : 0 ≤ b.y - a.y := by linarith
    have ea : ∀ k, k * wPanelArea a b = (b.y - a.y) * (k * ((2 * a.c + b.c) / 6 - (b.c - a.c) * r)
        + k * ((a.c + 2 * b.c) / 6 + (b.c - a.c) * r)) := by
      intro k; unfold wPanelArea; ring
    rw [ea, ea]
    constructor
    · refine mul_le_mul_of_nonneg_left ?_ hy'
      exact add_le_add (mul_le_mul_of_nonneg_right l1 w1) (mul_le_mul_of_nonneg_right l3 w2)
    · refine mul_le_mul_of_nonneg_left ?_ hy'
      exact add_le_add (mul_le_mul_of_nonneg_right l2 w1) (mul_le_mul_of_nonneg_right l4 w2)
  unfold avgTc
  constructor
  · rw [le_div_iff₀ hA, ← wSum_mul]
    exact wSum_le (h.mono fun a b hab => (key a b hab).1)
  · rw [div_le_iff₀ hA, ← wSum_mul]
    exact wSum_le (h.mono fun a b hab => (key a b hab).2)

/-- C63.  Wave drag vanishes exactly up to the critical Mach number, is positive above and grows with Mach. -/
theorem C63_onset (M M' Mc : ℝ) : (cdWave M Mc = 0 ↔ M ≤ Mc) ∧ (Mc < M → 0 < cdWave M Mc) ∧ (M ≤ M' → cdWave M Mc ≤ cdWave M' Mc) := by
  classical
  have hpos : Mc < M → 0 < cdWave M Mc := by
    intro h
    have : 0 < M - Mc := by linarith
    simp only [cdWave, gt_iff_lt, h, if_true]; positivity
  refine ⟨⟨?_, ?_⟩, hpos, ?_⟩
  · intro h
    by_contra hc
    exact (hpos (not_le.1 hc)).ne' h
  · intro h; simp [cdWave, not_lt.2 h]
  · intro h
    unfold cdWave
    by_cases h1 : M > Mc
    · have h2 : M' > Mc := lt_of_lt_of_le h1 h
      simp only [h1, h2, if_true]
      have : (M - Mc) ^ 4 ≤ (M' - Mc) ^ 4 := pow_le_pow_left₀ (by linarith) (by linarith) 4
      linarith
    · simp only [h1, if_false]
      rw [zero_mul]; split_ifs <;> positivity

open Classical in
/-- truncated power -/
noncomputable def tpow (n : ℕ) (x : ℝ) : ℝ := if 0 < x then x ^ n else 0

theorem tpow_hd (n : ℕ) (hn : 1 ≤ n) (x : ℝ) : HasDerivAt (tpow (n + 1)) ((n + 1) * tpow n x) x := by
  classical
  rcases lt_trichotomy x 0 with h | h | h
  · have e : tpow (n + 1) =ᶠ[nhds x] fun _ => 0 := by
      filter_upwards [eventually_lt_nhds h] with y hy
      simp [tpow, not_lt.2 hy.le]
    refine (HasDerivAt.congr_of_eventuallyEq (hasDerivAt_const x (0 : ℝ)) e).congr_deriv ?_
    simp [tpow, not_lt.2 h.le]
  · subst h
    have e0 : ((n : ℝ) + 1) * tpow n 0 = 0 := by simp [tpow]
    rw [e0]
    rw [hasDerivAt_iff_isLittleO_nhds_zero]
    simp only [zero_add, smul_eq_mul, mul_zero, sub_zero]
    have e1 : tpow (n + 1) 0 = 0 := by simp [tpow]
    rw [e1]
    simp only [sub_zero]
    have hl : (fun h : ℝ => h ^ (n + 1)) =o[nhds 0] fun h : ℝ => h := by
      have := Asymptotics.isLittleO_pow_pow (𝕜 := ℝ) (show 1 < n + 1 by omega)
      simpa using this
    refine Asymptotics.IsBigO.trans_isLittleO ?_ hl
    refine Asymptotics.isBigO_of_le _ fun y => ?_
    unfold tpow
    split_ifs
    · exact le_rfl
    · simp
  · have e : tpow (n + 1) =ᶠ[nhds x] fun y => y ^ (n + 1) := by
      filter_upwards [eventually_gt_nhds h] with y hy
      simp [tpow, hy]
    refine (HasDerivAt.congr_of_eventuallyEq (hasDerivAt_pow (n + 1) x) e).congr_deriv ?_
    simp [tpow, h]

theorem tpow_contDiff (n : ℕ) : ContDiff ℝ n (tpow (n + 1)) := by
  induction n with
  | zero =>
    rw [Nat.cast_zero, contDiff_zero]
    have : tpow (0 + 1) = fun x => max x 0 := by
      funext x
      unfold tpow
      split_ifs with h
      · rw [max_eq_left h.le]; simp
      · rw [max_eq_right (not_lt.1 h)]
    rw [this]; fun_prop
  | succ n ih =>
    have hd : deriv (tpow (n + 1 + 1)) = fun x => ((n + 1 : ℕ) + 1 : ℝ) * tpow (n + 1) x := by
      funext x; exact (tpow_hd (n + 1) (by omega) x).deriv
    rw [Nat.cast_succ, contDiff_succ_iff_deriv]
    refine ⟨fun x => (tpow_hd (n + 1) (by omega) x).differentiableAt, by simp, ?_⟩
    rw [hd]
    exact contDiff_const.mul ih

/-- C63.  The wave drag is three times continuously differentiable in Mach number, including at the critical Mach number. -/
theorem C63_smooth (Mc : ℝ) : ContDiff ℝ 3 (fun M => cdWave M Mc) := by
  classical
  have e : (fun M => cdWave M Mc) = fun M => 40 * tpow 4 (M - Mc) := by
    funext M
    unfold cdWave tpow
    by_cases h : M > Mc
    · have : 0 < M - Mc := by linarith
      simp only [h, this, if_true]; ring
    · have : ¬ 0 < M - Mc := by linarith
      simp only [h, this, if_false]; ring
  rw [e]
  exact contDiff_const.mul ((tpow_contDiff 3).comp (contDiff_id.sub contDiff_const))

/-- C63.  The normalisation area is applied the wrong way round (negation): whenever there is wave drag, the dimensional
wave drag `CD S q` obtained with a specified reference area `S` equals the one of the region only if `S` is the region's
area; for every other positive area it is different, and it scales with the square of the reference area. -/
theorem C63_normalisation (M Mc S q : ℝ) (l : List WSec) (hA : 0 < wSum wPanelArea l) (hM : Mc < M) (hS : 0 < S) (hq : 0 < q) :
    (cdWaveNorm M Mc S l * S * q = cdWave M Mc * (2 * wSum wPanelArea l) * q ↔ S = 2 * wSum wPanelArea l) ∧
    cdWaveNorm M Mc S l * S * q = cdWave M Mc * (2 * wSum wPanelArea l) * q * (S / (2 * wSum wPanelArea l)) ^ 2 := by
  have hp := (C63_onset M M Mc).2.1 hM
  have e : cdWaveNorm M Mc S l * S * q = cdWave M Mc * (2 * wSum wPanelArea l) * q * (S / (2 * wSum wPanelArea l)) ^ 2 := by
    unfold cdWaveNorm
    generalize wSum wPanelArea l = A at *
    field_simp
  refine ⟨?_, e⟩
  rw [e]
  generalize wSum wPanelArea l = A at *
  generalize cdWave M Mc = D at *
  have hk : 0 < D * (2 * A) * q := by positivity
  constructor
  · intro h
    have h1 : (S / (2 * A)) ^ 2 = 1 := mul_left_cancel₀ hk.ne' (by rw [h, mul_one])
    have h2 : S / (2 * A) = 1 := by
      have : 0 < S / (2 * A) := by positivity
      nlinarith
    rwa [div_eq_one_iff_eq (by positivity)] at h2
  · intro h
    have h2 : 2 * A ≠ 0 := by positivity
    rw [h, div_self h2]; ring

/-- C63.  Without a specified area, or with the region's own area, the dimensional wave drag is that of the region. -/
theorem C63_normalisation_partial (M Mc : ℝ) (l : List WSec) (hA : 0 < wSum wPanelArea l) :
    cdWaveNorm M Mc (2 * wSum wPanelArea l) l = cdWave M Mc := by
  unfold cdWaveNorm
  have h2 : 2 * wSum wPanelArea l ≠ 0 := by positivity
  rw [div_self h2, mul_one]

example : cdWaveNorm 0.9 0.8 60 [⟨2, -10, 0.12⟩, ⟨4, 0, 0.12⟩] * 60 * 1000
    ≠ cdWave 0.9 0.8 * (2 * wSum wPanelArea [⟨2, -10, 0.12⟩, ⟨4, 0, 0.12⟩]) * 1000 ∨
    cdWaveNorm 0.9 0.8 120 [⟨2, -10, 0.12⟩, ⟨4, 0, 0.12⟩] * 120 * 1000
    ≠ cdWave 0.9 0.8 * (2 * wSum wPanelArea [⟨2, -10, 0.12⟩, ⟨4, 0, 0.12⟩]) * 1000 := by
  right
  intro h
  have hs : wSum wPanelArea [⟨2, -10, 0.12⟩, ⟨4, 0, 0.12⟩] = 30 := by norm_num [wSum, wPanelArea]
  have := (C63_normalisation 0.9 0.8 120 1000 [⟨2, -10, 0.12⟩, ⟨4, 0, 0.12⟩] (by rw [hs]; norm_num) (by norm_num) (by norm_num)
    (by norm_num)).1.1 h
  rw [hs] at this
  norm_num at this

end Verif.Aero
