import Verif.Model.Atmosphere
import Verif.Proof.HDeriv
import Mathlib.Analysis.Calculus.Deriv.MeanValue
import Mathlib.Topology.Order.OrderClosed
import Mathlib.LinearAlgebra.Matrix.Determinant.Basic
import Mathlib.Tactic.NormNum
import Mathlib.Tactic.FinCases

/-! Lemmas on the blended standard atmosphere. -/

namespace Verif

/-- two formulas that agree to first order at the join give a differentiable function -/
theorem hd_piece {f g f' g' : ℝ → ℝ} (a : ℝ) (hf : ∀ x ≤ a, HasDerivAt f (f' x) x)
    (hg : ∀ x, a ≤ x → HasDerivAt g (g' x) x) (e : f a = g a) (e' : f' a = g' a) (x : ℝ) :
    HasDerivAt (fun y => if y ≤ a then f y else g y) (if x ≤ a then f' x else g' x) x := by
  rcases lt_trichotomy x a with h | h | h
  · rw [if_pos h.le]
    exact hd_ite_pos ((eventually_lt_nhds h).mono fun _ hy => hy.le) (hf x h.le)
  · subst h
    rw [if_pos le_rfl]
    have h1 : HasDerivWithinAt (fun y => if y ≤ x then f y else g y) (f' x) (Set.Iic x) x := by
      refine (hf x le_rfl).hasDerivWithinAt.congr (fun y hy => ?_) ?_
      · rw [if_pos (show y ≤ x from hy)]
      · rw [if_pos le_rfl]
    have h2 : HasDerivWithinAt (fun y => if y ≤ x then f y else g y) (f' x) (Set.Ici x) x := by
      rw [e']
      refine (hg x le_rfl).hasDerivWithinAt.congr (fun y hy => ?_) ?_
      · rcases eq_or_lt_of_le (show x ≤ y from hy) with r | r
        · subst r; rw [if_pos le_rfl, e]
        · rw [if_neg (not_le.2 r)]
      · rw [if_pos le_rfl, e]
    have := h1.union h2
    rw [Set.Iic_union_Ici] at this
    exact hasDerivWithinAt_univ.1 this
  · rw [if_neg (not_le.2 h)]
    exact hd_ite_neg ((eventually_gt_nhds h).mono fun _ hy => not_le.2 hy) (hg x h.le)

theorem cont_piece {f g : ℝ → ℝ} (a : ℝ) (hf : Continuous f) (hg : Continuous g) (e : f a = g a) :
    Continuous (fun y => if y ≤ a then f y else g y) := by
  refine Continuous.if_le hf hg continuous_id continuous_const ?_
  intro x hx
  rw [hx, e]

end Verif

namespace Verif.Atmos

open Matrix

theorem tropo_det : tropoMatrix.det ≠ 0 := by
  simp [tropoMatrix, Matrix.det_succ_row_zero, Fin.sum_univ_succ, hLower, hUpper, hTrans, epsilon,
    Fin.succAbove]
  norm_num

theorem tropo_solve (b : Fin 4 → ℝ) : tropoMatrix *ᵥ (tropoMatrix⁻¹ *ᵥ b) = b := by
  rw [Matrix.mulVec_mulVec, Matrix.mul_nonsing_inv _ (isUnit_iff_ne_zero.2 tropo_det), Matrix.one_mulVec]

/-- the cubic obtained from the linear system has the prescribed end values and slopes -/
theorem cubic_spec (b : Fin 4 → ℝ) :
    cubic (tropoMatrix⁻¹ *ᵥ b) hLower = b 0 ∧ cubic (tropoMatrix⁻¹ *ᵥ b) hUpper = b 1 ∧
    cubicDeriv (tropoMatrix⁻¹ *ᵥ b) hLower = b 2 ∧ cubicDeriv (tropoMatrix⁻¹ *ᵥ b) hUpper = b 3 := by
  have h := tropo_solve b
  generalize tropoMatrix⁻¹ *ᵥ b = c at h
  have h0 := congrFun h 0
  have h1 := congrFun h 1
  have h2 := congrFun h 2
  have h3 := congrFun h 3
  simp [tropoMatrix, Matrix.mulVec, dotProduct, Fin.sum_univ_succ] at h0 h1 h2 h3
  refine ⟨?_, ?_, ?_, ?_⟩
  · rw [← h0]; simp only [cubic]; ring
  · rw [← h1]; simp only [cubic]; ring
  · rw [← h2]; simp only [cubicDeriv]; ring
  · rw [← h3]; simp only [cubicDeriv]; ring

theorem hd_cubic (c : Fin 4 → ℝ) (x : ℝ) : HasDerivAt (cubic c) (cubicDeriv c x) x := by
  unfold cubic cubicDeriv
  hderiv!

theorem cont_cubicDeriv (c : Fin 4 → ℝ) : Continuous (cubicDeriv c) := by
  unfold cubicDeriv; fun_prop

/-- the troposphere and stratosphere formulas and their slopes -/
noncomputable def ptrop (h : ℝ) : ℝ := 101325 * (1 - 0.0065 * h / 288.16) ^ (5.2561 : ℝ)
noncomputable def ptropD (h : ℝ) : ℝ :=
  101325 * 5.2561 * (-0.0065 / 288.16) * (1 - 0.0065 * h / 288.16) ^ (4.2561 : ℝ)
noncomputable def pstrat (h : ℝ) : ℝ := 22632 * Real.exp (-9.81 * (h - hTrans) / (288 * 216.65))
noncomputable def pstratD (h : ℝ) : ℝ :=
  22632 * (-9.81 / (288 * 216.65)) * Real.exp (9.81 * 11000 / (288 * 216.65))
    * Real.exp (-9.81 * h / (288 * 216.65))

open Classical in
noncomputable def pblend (h : ℝ) : ℝ :=
  if h ≤ hUpper then (if h ≤ hLower then ptrop h else cubic pressureCoeffs h) else pstrat h
open Classical in
noncomputable def pblendD (h : ℝ) : ℝ :=
  if h ≤ hUpper then (if h ≤ hLower then ptropD h else cubicDeriv pressureCoeffs h) else pstratD h

open Classical in
noncomputable def tblend (h : ℝ) : ℝ :=
  if h ≤ hUpper then (if h ≤ hLower then 288.16 - 6.5e-3 * h else cubic tempCoeffs h) else 216.65
open Classical in
noncomputable def tblendD (h : ℝ) : ℝ :=
  if h ≤ hUpper then (if h ≤ hLower then -6.5e-3 else cubicDeriv tempCoeffs h) else 0

theorem hLower_lt : hLower < hUpper := by norm_num [hLower, hUpper, hTrans, epsilon]

/-- the altitude at which the troposphere formula ends -/
noncomputable def hMax : ℝ := 288.16 / 0.0065

theorem base_pos_iff (h : ℝ) : 0 < 1 - 0.0065 * h / 288.16 ↔ h < hMax := by
  unfold hMax
  rw [lt_div_iff₀ (by norm_num), sub_pos, div_lt_one (by norm_num), mul_comm]

theorem base_neg_iff (h : ℝ) : 1 - 0.0065 * h / 288.16 < 0 ↔ hMax < h := by
  unfold hMax
  rw [div_lt_iff₀ (by norm_num), sub_neg, one_lt_div (by norm_num), mul_comm]

theorem pressure_eq (h : ℝ) : pressure h = if hMax < h then none else some (pblend h) := by
  unfold pressure pressureWith npow
  by_cases hm : hMax < h
  · simp [if_pos hm, (base_neg_iff h).2 hm]
  · have hn : ¬ 1 - 0.0065 * h / 288.16 < 0 := fun hh => hm ((base_neg_iff h).1 hh)
    rw [if_neg hm, if_neg hn]
    simp only [Option.map_some, Option.some.injEq]
    have := hLower_lt
    unfold pblend getMasks b2r
    by_cases h1 : h ≤ hLower
    · have h2 : h ≤ hUpper := by linarith
      simp [h1, h2, ptrop]
    · by_cases h2 : h ≤ hUpper
      · simp [h1, h2]
      · simp [h1, h2, lt_of_not_ge h2, pstrat]

theorem pressureD_eq (h : ℝ) :
    pressureDerivWith (getMasks h) h = if hMax < h then none else some (pblendD h) := by
  unfold pressureDerivWith npow
  by_cases hm : hMax < h
  · simp [if_pos hm, (base_neg_iff h).2 hm]
  · have hn : ¬ 1 - 0.0065 * h / 288.16 < 0 := fun hh => hm ((base_neg_iff h).1 hh)
    rw [if_neg hm, if_neg hn]
    simp only [Option.map_some, Option.some.injEq]
    have := hLower_lt
    unfold pblendD getMasks b2r
    by_cases h1 : h ≤ hLower
    · have h2 : h ≤ hUpper := by linarith
      simp [h1, h2, ptropD]
    · by_cases h2 : h ≤ hUpper
      · simp [h1, h2]
      · simp [h1, h2, lt_of_not_ge h2, pstratD]

theorem temp_eq (h : ℝ) : tempWith (getMasks h) h = tblend h := by
  have := hLower_lt
  unfold tempWith tblend getMasks b2r
  by_cases h1 : h ≤ hLower
  · have h2 : h ≤ hUpper := by linarith
    simp [h1, h2]
  · by_cases h2 : h ≤ hUpper
    · simp [h1, h2]
    · simp [h1, h2, lt_of_not_ge h2]

theorem tempD_eq (h : ℝ) : tempDerivWith (getMasks h) h = tblendD h := by
  have := hLower_lt
  unfold tempDerivWith tblendD getMasks b2r
  by_cases h1 : h ≤ hLower
  · have h2 : h ≤ hUpper := by linarith
    simp [h1, h2]
  · by_cases h2 : h ≤ hUpper
    · simp [h1, h2]
    · simp [h1, h2, lt_of_not_ge h2]

theorem hLower_lt_hMax : hLower < hMax := by norm_num [hLower, hTrans, epsilon, hMax]

theorem hd_ptrop (h : ℝ) (hh : h < hMax) : HasDerivAt ptrop (ptropD h) h := by
  unfold ptrop ptropD
  have := (base_pos_iff h).2 hh
  hderiv
  norm_num
  ring_nf

theorem hd_pstrat (h : ℝ) : HasDerivAt pstrat (pstratD h) h := by
  unfold pstrat pstratD
  hderiv
  rw [mul_assoc _ (Real.exp _) (Real.exp _), ← Real.exp_add]
  rw [show (9.81 * 11000 / (288 * 216.65) + -9.81 * h / (288 * 216.65) : ℝ)
    = -9.81 * (h - hTrans) / (288 * 216.65) by unfold hTrans; ring]
  ring

theorem exp_join : 22632 * Real.exp (-9.81 * (hUpper - hTrans) / (288 * 216.65)) = 22632 * tmp2 := by
  unfold tmp2; rw [show hUpper - hTrans = epsilon by simp [hUpper]]

theorem hd_pblend (h : ℝ) : HasDerivAt pblend (pblendD h) h := by
  obtain ⟨c0, c1, c2, c3⟩ := cubic_spec pressureRhs
  have inner : ∀ x, HasDerivAt (fun y => if y ≤ hLower then ptrop y else cubic pressureCoeffs y)
      (if x ≤ hLower then ptropD x else cubicDeriv pressureCoeffs x) x := by
    intro x
    refine hd_piece hLower (fun x hx => hd_ptrop x (hx.trans_lt hLower_lt_hMax))
      (fun x _ => hd_cubic _ x) ?_ ?_ x
    · refine Eq.trans ?_ c0.symm
      simp [ptrop, pressureRhs, tmp1]
    · refine Eq.trans ?_ c2.symm
      simp [ptropD, pressureRhs, tmp1]
      norm_num
  have nl : ¬ hUpper ≤ hLower := not_le.2 hLower_lt
  refine hd_piece hUpper (fun x _ => inner x) (fun x _ => hd_pstrat x) ?_ ?_ h
  · simp only [if_neg nl]
    refine c1.trans ?_
    simp only [pressureRhs, pstrat, exp_join]
    simp
  · simp only [if_neg nl]
    refine c3.trans ?_
    simp only [pressureRhs, pstratD]
    rw [mul_assoc _ (Real.exp _) (Real.exp _), ← Real.exp_add]
    rw [show (9.81 * 11000 / (288 * 216.65) + -9.81 * hUpper / (288 * 216.65) : ℝ)
      = -9.81 * epsilon / (288 * 216.65) by unfold hUpper hTrans; ring]
    simp [tmp2]

theorem cont_pblendD : Continuous pblendD := by
  obtain ⟨c0, c1, c2, c3⟩ := cubic_spec pressureRhs
  have ct : Continuous ptropD := by
    unfold ptropD
    refine continuous_const.mul ?_
    refine (Real.continuous_rpow_const (by norm_num)).comp ?_
    simp only [div_eq_mul_inv]; fun_prop
  have cs : Continuous pstratD := by
    unfold pstratD
    simp only [div_eq_mul_inv]; fun_prop
  have nl : ¬ hUpper ≤ hLower := not_le.2 hLower_lt
  refine cont_piece hUpper (cont_piece hLower ct (cont_cubicDeriv _) ?_) cs ?_
  · refine Eq.trans ?_ c2.symm
    simp [ptropD, pressureRhs, tmp1]
    norm_num
  · simp only [if_neg nl]
    refine c3.trans ?_
    simp only [pressureRhs, pstratD]
    rw [mul_assoc _ (Real.exp _) (Real.exp _), ← Real.exp_add]
    rw [show (9.81 * 11000 / (288 * 216.65) + -9.81 * hUpper / (288 * 216.65) : ℝ)
      = -9.81 * epsilon / (288 * 216.65) by unfold hUpper hTrans; ring]
    simp [tmp2]

theorem hd_tblend (h : ℝ) : HasDerivAt tblend (tblendD h) h := by
  obtain ⟨c0, c1, c2, c3⟩ := cubic_spec tempRhs
  have inner : ∀ x, HasDerivAt (fun y => if y ≤ hLower then 288.16 - 6.5e-3 * y else cubic tempCoeffs y)
      (if x ≤ hLower then -6.5e-3 else cubicDeriv tempCoeffs x) x := by
    intro x
    refine hd_piece (f' := fun _ => -6.5e-3) hLower (fun x hx => ?_) (fun x _ => hd_cubic _ x) ?_ ?_ x
    · hderiv!
    · exact c0.symm
    · exact c2.symm
  have nl : ¬ hUpper ≤ hLower := not_le.2 hLower_lt
  refine hd_piece (g' := fun _ => 0) hUpper (fun x _ => inner x) (fun x _ => hasDerivAt_const _ _) ?_ ?_ h
  · simp only [if_neg nl]
    exact c1
  · simp only [if_neg nl]
    exact c3

theorem cont_tblendD : Continuous tblendD := by
  obtain ⟨c0, c1, c2, c3⟩ := cubic_spec tempRhs
  have nl : ¬ hUpper ≤ hLower := not_le.2 hLower_lt
  refine cont_piece hUpper (cont_piece hLower continuous_const (cont_cubicDeriv _) ?_) continuous_const ?_
  · exact c2.symm
  · simp only [if_neg nl]
    exact c3

/-- slope of the cubic through its end data, `s` the relative position -/
theorem cubicDeriv_hermite (c : Fin 4 → ℝ) (h : ℝ) :
    cubicDeriv c h = cubicDeriv c hLower * (1 - (h - hLower) / 1000) + cubicDeriv c hUpper * ((h - hLower) / 1000)
      + (6 * (cubic c hUpper - cubic c hLower) / 1000 - 3 * cubicDeriv c hLower - 3 * cubicDeriv c hUpper)
        * ((h - hLower) / 1000 * (1 - (h - hLower) / 1000)) := by
  simp only [cubic, cubicDeriv, hLower, hUpper, hTrans, epsilon]
  ring

theorem tmp1_val : tmp1 = 1 - 0.0065 * 10500 / 288.16 := by
  norm_num [tmp1, hLower, hTrans, epsilon]

theorem tmp1_pow_lower : (0.236 : ℝ) ≤ tmp1 ^ (5.2561 : ℝ) := by
  have h0 : 0 < tmp1 := by rw [tmp1_val]; norm_num
  have h1 : tmp1 ≤ 1 := by rw [tmp1_val]; norm_num
  have : tmp1 ^ (16 / 3 : ℝ) ≤ tmp1 ^ (5.2561 : ℝ) :=
    Real.rpow_le_rpow_of_exponent_ge h0 h1 (by norm_num)
  refine le_trans ?_ this
  have e : (tmp1 ^ (16 / 3 : ℝ)) ^ 3 = tmp1 ^ 16 := by
    rw [← Real.rpow_natCast, ← Real.rpow_mul h0.le, ← Real.rpow_natCast]
    norm_num
  by_contra hc
  have hc := lt_of_not_ge hc
  have : (tmp1 ^ (16 / 3 : ℝ)) ^ 3 < 0.236 ^ 3 :=
    pow_lt_pow_left₀ hc (Real.rpow_nonneg h0.le _) (by norm_num)
  rw [e, tmp1_val] at this
  norm_num at this

theorem tmp1_pow4 : (0.2588 : ℝ) ≤ tmp1 ^ (4.2561 : ℝ) ∧ tmp1 ^ (4.2561 : ℝ) ≤ 0.3393 := by
  have h0 : 0 < tmp1 := by rw [tmp1_val]; norm_num
  have h1 : tmp1 ≤ 1 := by rw [tmp1_val]; norm_num
  constructor
  · have : tmp1 ^ (5 : ℝ) ≤ tmp1 ^ (4.2561 : ℝ) :=
      Real.rpow_le_rpow_of_exponent_ge h0 h1 (by norm_num)
    refine le_trans ?_ this
    rw [show (5 : ℝ) = ((5 : ℕ) : ℝ) by norm_num, Real.rpow_natCast, tmp1_val]
    norm_num
  · have : tmp1 ^ (4.2561 : ℝ) ≤ tmp1 ^ (4 : ℝ) :=
      Real.rpow_le_rpow_of_exponent_ge h0 h1 (by norm_num)
    refine le_trans this ?_
    rw [show (4 : ℝ) = ((4 : ℕ) : ℝ) by norm_num, Real.rpow_natCast, tmp1_val]
    norm_num

theorem tmp2_bounds : (0.92 : ℝ) ≤ tmp2 ∧ tmp2 ≤ 0.928 := by
  unfold tmp2 epsilon
  constructor
  · have := Real.add_one_le_exp (-9.81 * 500 / (288 * 216.65))
    refine le_trans ?_ this
    norm_num
  · rw [show (-9.81 * 500 / (288 * 216.65) : ℝ) = -(9.81 * 500 / (288 * 216.65)) by ring, Real.exp_neg]
    have := Real.add_one_le_exp (9.81 * 500 / (288 * 216.65))
    rw [inv_le_comm₀ (Real.exp_pos _) (by norm_num)]
    refine le_trans ?_ this
    norm_num

theorem pcubicD_neg (h : ℝ) (h1 : hLower ≤ h) (h2 : h ≤ hUpper) : cubicDeriv pressureCoeffs h < 0 := by
  obtain ⟨c0, c1, c2, c3⟩ := cubic_spec pressureRhs
  rw [cubicDeriv_hermite, show pressureCoeffs = tropoMatrix⁻¹ *ᵥ pressureRhs from rfl, c0, c1, c2, c3]
  have a0 := tmp1_pow_lower
  obtain ⟨a1, a2⟩ := tmp1_pow4
  obtain ⟨a3, a4⟩ := tmp2_bounds
  have s0 : 0 ≤ (h - hLower) / 1000 := by apply div_nonneg <;> linarith
  have s1 : (h - hLower) / 1000 ≤ 1 := by
    rw [div_le_one (by norm_num)]
    unfold hLower; unfold hUpper epsilon at h2; unfold epsilon; linarith
  generalize (h - hLower) / 1000 = s at s0 s1
  have m0 : pressureRhs 2 ≤ -3 := by simp [pressureRhs]; norm_num; linarith
  have m0' : -5 ≤ pressureRhs 2 := by simp [pressureRhs]; norm_num; linarith
  have m1 : pressureRhs 3 ≤ -3 := by simp [pressureRhs]; norm_num; linarith
  have m1' : -4 ≤ pressureRhs 3 := by simp [pressureRhs]; norm_num; linarith
  have dd : pressureRhs 1 - pressureRhs 0 ≤ -2800 := by simp [pressureRhs]; linarith
  have k : 6 * (pressureRhs 1 - pressureRhs 0) / 1000 - 3 * pressureRhs 2 - 3 * pressureRhs 3 ≤ 11 := by
    linarith
  have q0 : 0 ≤ s * (1 - s) := mul_nonneg s0 (by linarith)
  have q1 : s * (1 - s) ≤ 1 / 4 := by nlinarith [sq_nonneg (s - 1 / 2)]
  have t1 : pressureRhs 2 * (1 - s) ≤ -3 * (1 - s) := mul_le_mul_of_nonneg_right m0 (by linarith)
  have t2 : pressureRhs 3 * s ≤ -3 * s := mul_le_mul_of_nonneg_right m1 s0
  have t3 := mul_le_mul_of_nonneg_right k q0
  linarith

theorem pblendD_neg (h : ℝ) : pblendD h < 0 := by
  unfold pblendD
  split_ifs with h1 h2
  · unfold ptropD
    have := Real.rpow_pos_of_pos ((base_pos_iff h).2 (h2.trans_lt hLower_lt_hMax)) 4.2561
    nlinarith
  · exact pcubicD_neg h (le_of_not_ge h2) h1
  · unfold pstratD
    have e1 := Real.exp_pos (9.81 * 11000 / (288 * 216.65))
    have e2 := Real.exp_pos (-9.81 * h / (288 * 216.65))
    have := mul_pos e1 e2
    nlinarith

theorem pblend_anti : StrictAnti pblend :=
  strictAnti_of_deriv_neg fun x => by rw [(hd_pblend x).deriv]; exact pblendD_neg x

theorem pblend_pos (h : ℝ) : 0 < pblend h := by
  have key : ∀ x, hUpper < x → 0 < pblend x := by
    intro x hx
    unfold pblend
    rw [if_neg (not_le.2 hx)]
    unfold pstrat
    positivity
  have := key (max h hUpper + 1) (by linarith [le_max_right h hUpper])
  refine this.trans (pblend_anti ?_)
  linarith [le_max_left h hUpper]

theorem tcubicD_nonpos (h : ℝ) (h1 : hLower ≤ h) (h2 : h ≤ hUpper) : cubicDeriv tempCoeffs h ≤ 0 := by
  obtain ⟨c0, c1, c2, c3⟩ := cubic_spec tempRhs
  rw [cubicDeriv_hermite, show tempCoeffs = tropoMatrix⁻¹ *ᵥ tempRhs from rfl, c0, c1, c2, c3]
  have s0 : 0 ≤ (h - hLower) / 1000 := by apply div_nonneg <;> linarith
  have s1 : (h - hLower) / 1000 ≤ 1 := by
    rw [div_le_one (by norm_num)]
    unfold hLower; unfold hUpper epsilon at h2; unfold epsilon; linarith
  generalize (h - hLower) / 1000 = s at s0 s1
  simp [tempRhs, hLower, hTrans, epsilon]
  norm_num
  nlinarith

theorem tblendD_nonpos (h : ℝ) : tblendD h ≤ 0 := by
  unfold tblendD
  split_ifs with h1 h2
  · norm_num
  · exact tcubicD_nonpos h (le_of_not_ge h2) h1
  · exact le_rfl

theorem tblend_anti : Antitone tblend :=
  antitone_of_deriv_nonpos (fun x => (hd_tblend x).differentiableAt)
    fun x => by rw [(hd_tblend x).deriv]; exact tblendD_nonpos x

theorem tblend_ge (h : ℝ) : 216.65 ≤ tblend h := by
  have key : ∀ x, hUpper < x → tblend x = 216.65 := by
    intro x hx
    unfold tblend
    rw [if_neg (not_le.2 hx)]
  rw [← key (max h hUpper + 1) (by linarith [le_max_right h hUpper])]
  exact tblend_anti (by linarith [le_max_left h hUpper])

end Verif.Atmos
