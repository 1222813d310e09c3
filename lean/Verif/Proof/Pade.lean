import Mathlib.Analysis.SpecialFunctions.ExpDeriv
import Mathlib.Analysis.Calculus.Deriv.MeanValue
import Mathlib.Analysis.Calculus.Deriv.Pow
import Mathlib.Analysis.SpecialFunctions.Complex.LogBounds

/-! The Padé approximation of the exponential which Simpson's rule produces for a linear rate. -/

namespace Verif.Pade

open Real

/-- the growth factor of two steps -/
noncomputable def ratio (x : ℝ) : ℝ := (3 - 3 * x + x ^ 2) / (3 + 3 * x + x ^ 2)

theorem den_pos (x : ℝ) : 0 < 3 + 3 * x + x ^ 2 := by nlinarith [sq_nonneg (x + 3 / 2)]
theorem num_pos (x : ℝ) : 0 < 3 - 3 * x + x ^ 2 := by nlinarith [sq_nonneg (x - 3 / 2)]

theorem ratio_pos (x : ℝ) : 0 < ratio x := div_pos (num_pos x) (den_pos x)
theorem ratio_le_one {x : ℝ} (hx : 0 ≤ x) : ratio x ≤ 1 := by
  unfold ratio; rw [div_le_one (den_pos x)]; linarith

/-- a function which vanishes at 0 and has a nonnegative derivative on the right of 0 is nonnegative there -/
theorem nonneg_of_deriv {f f' : ℝ → ℝ} (h0 : f 0 = 0) (hd : ∀ x, HasDerivAt f (f' x) x) (hp : ∀ x, 0 ≤ x → 0 ≤ f' x)
    {x : ℝ} (hx : 0 ≤ x) : 0 ≤ f x := by
  have hm : MonotoneOn f (Set.Ici 0) := by
    apply monotoneOn_of_deriv_nonneg (convex_Ici 0)
    · exact fun y _ => (hd y).continuousAt.continuousWithinAt
    · exact fun y _ => (hd y).differentiableAt.differentiableWithinAt
    · intro y hy
      rw [(hd y).deriv]
      exact hp y (by rw [interior_Ici] at hy; exact le_of_lt hy)
  rw [← h0]
  exact hm Set.self_mem_Ici hx hx

noncomputable def G (x : ℝ) : ℝ := (3 - 3 * x + x ^ 2) - exp (-2 * x) * (3 + 3 * x + x ^ 2)
noncomputable def G1 (x : ℝ) : ℝ := -3 + 2 * x + exp (-2 * x) * (3 + 4 * x + 2 * x ^ 2)
noncomputable def G2 (x : ℝ) : ℝ := 2 - exp (-2 * x) * (2 + 4 * x + 4 * x ^ 2)
noncomputable def G3 (x : ℝ) : ℝ := 8 * x ^ 2 * exp (-2 * x)

theorem hexp (x : ℝ) : HasDerivAt (fun x => exp (-2 * x)) (exp (-2 * x) * -2) x := by
  have := ((hasDerivAt_id' x).const_mul (-2)).exp
  simpa using this

theorem hpoly (a b c x : ℝ) : HasDerivAt (fun x => a + b * x + c * x ^ 2) (b + 2 * c * x) x := by
  have := (((hasDerivAt_id' x).const_mul b).const_add a).add (((hasDerivAt_id' x).pow 2).const_mul c)
  exact this.congr_deriv (by simp; ring)

theorem hG (x : ℝ) : HasDerivAt G (G1 x) x := by
  have := (hpoly 3 (-3) 1 x).sub ((hexp x).mul (hpoly 3 3 1 x))
  have e : G = (fun x => 3 + -3 * x + 1 * x ^ 2) - (fun x => exp (-2 * x)) * fun x => 3 + 3 * x + 1 * x ^ 2 := by
    funext y; simp only [G, Pi.sub_apply, Pi.mul_apply]; ring
  rw [e]
  exact this.congr_deriv (by unfold G1; ring)
theorem hG1 (x : ℝ) : HasDerivAt G1 (G2 x) x := by
  have := (hpoly (-3) 2 0 x).add ((hexp x).mul (hpoly 3 4 2 x))
  have e : G1 = (fun x => -3 + 2 * x + 0 * x ^ 2) + (fun x => exp (-2 * x)) * fun x => 3 + 4 * x + 2 * x ^ 2 := by
    funext y; simp only [G1, Pi.add_apply, Pi.mul_apply]; ring
  rw [e]
  exact this.congr_deriv (by unfold G2; ring)
theorem hG2 (x : ℝ) : HasDerivAt G2 (G3 x) x := by
  have := (hasDerivAt_const x (2 : ℝ)).sub ((hexp x).mul (hpoly 2 4 4 x))
  exact this.congr_deriv (by unfold G3; ring)

theorem G_nonneg {x : ℝ} (hx : 0 ≤ x) : 0 ≤ G x := by
  refine nonneg_of_deriv (by norm_num [G]) hG (fun y hy => ?_) hx
  refine nonneg_of_deriv (by norm_num [G1]) hG1 (fun y hy => ?_) hy
  refine nonneg_of_deriv (by norm_num [G2]) hG2 (fun y hy => ?_) hy
  unfold G3; positivity

theorem hmon (c : ℝ) (n : ℕ) (x : ℝ) : HasDerivAt (fun x => c * x ^ (n + 1)) (c * (n + 1) * x ^ n) x := by
  have := ((hasDerivAt_id' x).pow (n + 1)).const_mul c
  exact this.congr_deriv (by push_cast; simp; ring)

theorem G_le {x : ℝ} (hx : 0 ≤ x) : G x ≤ 2 / 15 * x ^ 5 := by
  suffices h : 0 ≤ 2 / 15 * x ^ 5 - G x by linarith
  refine nonneg_of_deriv (f := fun x => 2 / 15 * x ^ 5 - G x) (by norm_num [G])
    (fun y => (hmon (2 / 15) 4 y).sub (hG y)) (fun y hy => ?_) hx
  have e1 : (2 / 15 * ((4 : ℕ) + 1) * y ^ 4 - G1 y : ℝ) = 2 / 3 * y ^ 4 - G1 y := by push_cast; ring
  rw [e1]
  refine nonneg_of_deriv (f := fun x => 2 / 3 * x ^ 4 - G1 x) (by norm_num [G1])
    (fun y => (hmon (2 / 3) 3 y).sub (hG1 y)) (fun z hz => ?_) hy
  have e2 : (2 / 3 * ((3 : ℕ) + 1) * z ^ 3 - G2 z : ℝ) = 8 / 3 * z ^ 3 - G2 z := by push_cast; ring
  rw [e2]
  refine nonneg_of_deriv (f := fun x => 8 / 3 * x ^ 3 - G2 x) (by norm_num [G2])
    (fun y => (hmon (8 / 3) 2 y).sub (hG2 y)) (fun w hw => ?_) hz
  have he : exp (-2 * w) ≤ 1 := exp_le_one_iff.2 (by linarith)
  unfold G3
  push_cast
  nlinarith [sq_nonneg w, mul_le_mul_of_nonneg_left he (sq_nonneg w)]

theorem ratio_sub (x : ℝ) : ratio x - exp (-2 * x) = G x / (3 + 3 * x + x ^ 2) := by
  have := (den_pos x).ne'
  unfold ratio G
  rw [sub_div, mul_div_assoc, div_self this, mul_one]

theorem exp_le_ratio {x : ℝ} (hx : 0 ≤ x) : exp (-2 * x) ≤ ratio x := by
  have := ratio_sub x
  have := div_nonneg (G_nonneg hx) (den_pos x).le
  linarith

theorem ratio_le {x : ℝ} (hx : 0 ≤ x) : ratio x - exp (-2 * x) ≤ 2 / 45 * x ^ 5 := by
  rw [ratio_sub, div_le_iff₀ (den_pos x)]
  have h := G_le hx
  have h5 : 0 ≤ x ^ 5 := pow_nonneg hx 5
  nlinarith [mul_nonneg h5 hx, mul_nonneg h5 (sq_nonneg x)]

theorem pow_sub_le {a b : ℝ} (hb : 0 ≤ b) (hab : b ≤ a) (ha : a ≤ 1) (n : ℕ) : a ^ n - b ^ n ≤ n * (a - b) := by
  induction n with
  | zero => simp
  | succ n ih =>
    have h1 : a ^ n ≤ 1 := pow_le_one₀ (hb.trans hab) ha
    have h2 : b * (a ^ n - b ^ n) ≤ 1 * (a ^ n - b ^ n) :=
      mul_le_mul_of_nonneg_right (hab.trans ha) (sub_nonneg.2 (pow_le_pow_left₀ hb hab n))
    have h3 : a ^ n * (a - b) ≤ 1 * (a - b) := mul_le_mul_of_nonneg_right h1 (sub_nonneg.2 hab)
    push_cast
    calc a ^ (n + 1) - b ^ (n + 1) = a ^ n * (a - b) + b * (a ^ n - b ^ n) := by ring
      _ ≤ 1 * (a - b) + 1 * (a ^ n - b ^ n) := add_le_add h3 h2
      _ ≤ (n + 1) * (a - b) := by linarith

/-- `n` pairs of steps of size `y / (2 n)` against the exponential -/
theorem ratio_pow (y : ℝ) (hy : 0 ≤ y) (n : ℕ) (hn : n ≠ 0) :
    exp (-y) ≤ ratio (y / (2 * n)) ^ n ∧ ratio (y / (2 * n)) ^ n - exp (-y) ≤ y ^ 5 / (720 * n ^ 4) := by
  have hn' : (0 : ℝ) < n := by exact_mod_cast Nat.pos_of_ne_zero hn
  have hx : 0 ≤ y / (2 * n) := by positivity
  have e : exp (-y) = exp (-2 * (y / (2 * n))) ^ n := by
    rw [← exp_nat_mul]; congr 1; field_simp
  rw [e]
  refine ⟨pow_le_pow_left₀ (exp_pos _).le (exp_le_ratio hx) n, ?_⟩
  refine (pow_sub_le (exp_pos _).le (exp_le_ratio hx) (ratio_le_one hx) n).trans ?_
  refine (mul_le_mul_of_nonneg_left (ratio_le hx) hn'.le).trans (le_of_eq ?_)
  field_simp
  ring

end Verif.Pade
