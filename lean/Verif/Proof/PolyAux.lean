import Mathlib.Algebra.Polynomial.Derivative
import Mathlib.Algebra.Polynomial.Eval.Degree
import Mathlib.Algebra.Polynomial.BigOperators
import Mathlib.MeasureTheory.Integral.IntervalIntegral.FundThmCalculus
import Mathlib.Analysis.Calculus.Deriv.Polynomial
import Mathlib.Topology.Algebra.Polynomial
import Mathlib.Tactic.Ring
import Mathlib.Tactic.NormNum

/-! Values, derivatives and integrals of low degree real polynomials. -/

namespace Verif

open Finset Polynomial

theorem eval_cubic {p : ℝ[X]} (hp : p.natDegree ≤ 3) (x : ℝ) :
    p.eval x = p.coeff 0 + p.coeff 1 * x + p.coeff 2 * x ^ 2 + p.coeff 3 * x ^ 3 := by
  rw [Polynomial.eval_eq_sum_range' (n := 4) (by omega)]
  simp [Finset.sum_range_succ]

theorem eval_deriv_cubic {p : ℝ[X]} (hp : p.natDegree ≤ 3) (x : ℝ) :
    p.derivative.eval x = p.coeff 1 + 2 * p.coeff 2 * x + 3 * p.coeff 3 * x ^ 2 := by
  have h : p.derivative.natDegree < 3 := by
    have := p.natDegree_derivative_le
    omega
  rw [Polynomial.eval_eq_sum_range' h]
  simp [Finset.sum_range_succ, Polynomial.coeff_derivative]
  ring

theorem eval_quartic {p : ℝ[X]} (hp : p.natDegree ≤ 4) (x : ℝ) :
    p.eval x = p.coeff 0 + p.coeff 1 * x + p.coeff 2 * x ^ 2 + p.coeff 3 * x ^ 3
      + p.coeff 4 * x ^ 4 := by
  rw [Polynomial.eval_eq_sum_range' (n := 5) (by omega)]
  simp [Finset.sum_range_succ]

theorem eval_deriv_quartic {p : ℝ[X]} (hp : p.natDegree ≤ 4) (x : ℝ) :
    p.derivative.eval x = p.coeff 1 + 2 * p.coeff 2 * x + 3 * p.coeff 3 * x ^ 2
      + 4 * p.coeff 4 * x ^ 3 := by
  have h : p.derivative.natDegree < 4 := by
    have := p.natDegree_derivative_le
    omega
  rw [Polynomial.eval_eq_sum_range' h]
  simp [Finset.sum_range_succ, Polynomial.coeff_derivative]
  ring

theorem integral_cubic {p : ℝ[X]} (hp : p.natDegree ≤ 3) (a b : ℝ) :
    ∫ t in a..b, p.eval t =
      (p.coeff 0 * b + p.coeff 1 * b ^ 2 / 2 + p.coeff 2 * b ^ 3 / 3 + p.coeff 3 * b ^ 4 / 4) -
      (p.coeff 0 * a + p.coeff 1 * a ^ 2 / 2 + p.coeff 2 * a ^ 3 / 3 + p.coeff 3 * a ^ 4 / 4) := by
  have hd : ∀ x ∈ Set.uIcc a b, HasDerivAt (fun x : ℝ => p.coeff 0 * x + p.coeff 1 * x ^ 2 / 2 +
      p.coeff 2 * x ^ 3 / 3 + p.coeff 3 * x ^ 4 / 4) (p.eval x) x := by
    intro x _
    have h := ((((hasDerivAt_id' x).const_mul (p.coeff 0)).fun_add
      (((hasDerivAt_pow 2 x).const_mul (p.coeff 1)).div_const 2)).fun_add
      (((hasDerivAt_pow 3 x).const_mul (p.coeff 2)).div_const 3)).fun_add
      (((hasDerivAt_pow 4 x).const_mul (p.coeff 3)).div_const 4)
    refine h.congr_deriv ?_
    rw [eval_cubic hp]
    norm_num
    ring
  rw [intervalIntegral.integral_eq_sub_of_hasDerivAt hd
    ((p.continuous_aeval.congr (fun x => by simp)).intervalIntegrable _ _)]

end Verif
