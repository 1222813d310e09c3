import Mathlib.Analysis.SpecialFunctions.Pow.Deriv
import Mathlib.Analysis.SpecialFunctions.Sqrt
import Mathlib.Analysis.SpecialFunctions.Trigonometric.Deriv
import Mathlib.Analysis.SpecialFunctions.Trigonometric.ArctanDeriv
import Mathlib.Analysis.SpecialFunctions.Exp
import Mathlib.Analysis.SpecialFunctions.Log.Deriv
import Mathlib.Tactic.FieldSimp
import Mathlib.Tactic.Ring
import Mathlib.Tactic.Positivity
import Mathlib.Tactic.Linarith

/-!
Helper tactic for differentiating explicit real formulas.  `hderiv` turns a goal
`HasDerivAt f f' x` into side conditions and one equation between the
derivative computed by the standard rules and `f'`.
-/

namespace Verif

theorem hd_congr {f : ℝ → ℝ} {f' g' x : ℝ} (h : HasDerivAt f g' x) (e : g' = f') :
    HasDerivAt f f' x := e ▸ h

theorem hd_mul_const {f : ℝ → ℝ} {f' x : ℝ} (c : ℝ) (h : HasDerivAt f f' x) :
    HasDerivAt (fun y => f y * c) (f' * c) x := h.mul_const c

theorem hd_const_mul {f : ℝ → ℝ} {f' x : ℝ} (c : ℝ) (h : HasDerivAt f f' x) :
    HasDerivAt (fun y => c * f y) (c * f') x := h.const_mul c

theorem hd_div_const {f : ℝ → ℝ} {f' x : ℝ} (c : ℝ) (h : HasDerivAt f f' x) :
    HasDerivAt (fun y => f y / c) (f' / c) x := h.div_const c

theorem hd_const_div {f : ℝ → ℝ} {f' x : ℝ} (c : ℝ) (h : HasDerivAt f f' x) (h0 : f x ≠ 0) :
    HasDerivAt (fun y => c / f y) (-(c * f') / (f x) ^ 2) x := by
  have := (hasDerivAt_const x c).fun_div h h0
  refine hd_congr this ?_
  ring

theorem hd_pow {f : ℝ → ℝ} {f' x : ℝ} (n : ℕ) (h : HasDerivAt f f' x) :
    HasDerivAt (fun y => f y ^ n) (n * f x ^ (n - 1) * f') x := h.fun_pow n

theorem hd_rpow {f : ℝ → ℝ} {f' x : ℝ} (p : ℝ) (h : HasDerivAt f f' x) (h0 : f x ≠ 0) :
    HasDerivAt (fun y => f y ^ p) (f' * p * f x ^ (p - 1)) x := h.rpow_const (Or.inl h0)

theorem hd_const_rpow {f : ℝ → ℝ} {f' x : ℝ} (a : ℝ) (h : HasDerivAt f f' x) (h0 : 0 < a) :
    HasDerivAt (fun y => a ^ f y) (Real.log a * f' * a ^ f x) x := h.const_rpow h0

theorem hd_tan {f : ℝ → ℝ} {f' x : ℝ} (h : HasDerivAt f f' x) (h0 : Real.cos (f x) ≠ 0) :
    HasDerivAt (fun y => Real.tan (f y)) (1 / Real.cos (f x) ^ 2 * f') x :=
  (Real.hasDerivAt_tan h0).comp x h


section
variable {f g : ℝ → ℝ} {f' g' x : ℝ}
theorem hd_mul (hf : HasDerivAt f f' x) (hg : HasDerivAt g g' x) :
    HasDerivAt (fun y => f y * g y) (f' * g x + f x * g') x := hf.fun_mul hg
theorem hd_div (hf : HasDerivAt f f' x) (hg : HasDerivAt g g' x) (h0 : g x ≠ 0) :
    HasDerivAt (fun y => f y / g y) ((f' * g x - f x * g') / g x ^ 2) x := hf.fun_div hg h0
theorem hd_add (hf : HasDerivAt f f' x) (hg : HasDerivAt g g' x) :
    HasDerivAt (fun y => f y + g y) (f' + g') x := hf.fun_add hg
theorem hd_sub (hf : HasDerivAt f f' x) (hg : HasDerivAt g g' x) :
    HasDerivAt (fun y => f y - g y) (f' - g') x := hf.fun_sub hg
theorem hd_const_add (c : ℝ) (hf : HasDerivAt f f' x) :
    HasDerivAt (fun y => c + f y) f' x := hf.const_add c
theorem hd_add_const (c : ℝ) (hf : HasDerivAt f f' x) :
    HasDerivAt (fun y => f y + c) f' x := hf.add_const c
theorem hd_const_sub (c : ℝ) (hf : HasDerivAt f f' x) :
    HasDerivAt (fun y => c - f y) (-f') x := hf.const_sub c
theorem hd_sub_const (c : ℝ) (hf : HasDerivAt f f' x) :
    HasDerivAt (fun y => f y - c) f' x := hf.sub_const c
theorem hd_neg (hf : HasDerivAt f f' x) : HasDerivAt (fun y => -f y) (-f') x := hf.fun_neg
theorem hd_inv (hf : HasDerivAt f f' x) (h0 : f x ≠ 0) :
    HasDerivAt (fun y => (f y)⁻¹) (-f' / f x ^ 2) x := hf.fun_inv h0
end

section
open Filter Topology
/-- derivative of a formula chosen by a condition that holds near the point -/
theorem hd_ite_pos {p : ℝ → Prop} [∀ y, Decidable (p y)] {f g : ℝ → ℝ} {f' x : ℝ}
    (hp : ∀ᶠ y in 𝓝 x, p y) (hf : HasDerivAt f f' x) :
    HasDerivAt (fun y => if p y then f y else g y) f' x := by
  apply hf.congr_of_eventuallyEq
  filter_upwards [hp] with y hy
  rw [if_pos hy]

/-- derivative of a formula chosen by a condition that fails near the point -/
theorem hd_ite_neg {p : ℝ → Prop} [∀ y, Decidable (p y)] {f g : ℝ → ℝ} {g' x : ℝ}
    (hp : ∀ᶠ y in 𝓝 x, ¬ p y) (hg : HasDerivAt g g' x) :
    HasDerivAt (fun y => if p y then f y else g y) g' x := by
  apply hg.congr_of_eventuallyEq
  filter_upwards [hp] with y hy
  rw [if_neg hy]

theorem ev_lt {f g : ℝ → ℝ} {x : ℝ} (hf : ContinuousAt f x) (hg : ContinuousAt g x) (h : f x < g x) :
    ∀ᶠ y in 𝓝 x, f y < g y := hf.eventually_lt hg h

theorem ev_not_lt {f g : ℝ → ℝ} {x : ℝ} (hf : ContinuousAt f x) (hg : ContinuousAt g x) (h : g x < f x) :
    ∀ᶠ y in 𝓝 x, ¬ f y < g y := (ev_lt hg hf h).mono fun _ hy => not_lt.2 hy.le

theorem ev_not_le {f g : ℝ → ℝ} {x : ℝ} (hf : ContinuousAt f x) (hg : ContinuousAt g x) (h : g x < f x) :
    ∀ᶠ y in 𝓝 x, ¬ f y ≤ g y := (ev_lt hg hf h).mono fun _ hy => not_le.2 hy

theorem ev_le {f g : ℝ → ℝ} {x : ℝ} (hf : ContinuousAt f x) (hg : ContinuousAt g x) (h : f x < g x) :
    ∀ᶠ y in 𝓝 x, f y ≤ g y := (ev_lt hf hg h).mono fun _ hy => hy.le
end

/-- one differentiation step on the first goal -/
macro "hderiv_step" : tactic => `(tactic| first
  | with_reducible exact hasDerivAt_const _ _
  | with_reducible exact hasDerivAt_id' _
  | with_reducible apply hd_const_mul
  | with_reducible apply hd_mul_const
  | with_reducible apply hd_div_const
  | with_reducible apply hd_const_add
  | with_reducible apply hd_add_const
  | with_reducible apply hd_const_sub
  | with_reducible apply hd_sub_const
  | with_reducible apply hd_const_div
  | with_reducible apply hd_mul
  | with_reducible apply hd_div
  | with_reducible apply hd_add
  | with_reducible apply hd_sub
  | with_reducible apply hd_neg
  | with_reducible apply hd_inv
  | with_reducible apply hd_pow
  | with_reducible apply hd_rpow
  | with_reducible apply hd_const_rpow
  | with_reducible apply HasDerivAt.sqrt
  | with_reducible apply HasDerivAt.exp
  | with_reducible apply HasDerivAt.log
  | with_reducible apply HasDerivAt.sin
  | with_reducible apply HasDerivAt.cos
  | with_reducible apply hd_tan
  | with_reducible apply HasDerivAt.arctan)

/-- `hderiv` : see module comment; leaves side conditions that `positivity`/`assumption` cannot do
and finally the equation of the derivative values. -/
macro "hderiv" : tactic => `(tactic|
  (apply hd_congr
   on_goal 1 => repeat' hderiv_step
   any_goals try first | with_reducible rfl | assumption | positivity))

/-- `hderiv` and the usual ways of closing the final equation -/
macro "hderiv!" : tactic => `(tactic|
  (hderiv
   all_goals first
     | (simp; done) | (ring_nf; done) | (norm_num; done) | (field_simp; done) | (field_simp; ring_nf; done)
     | (norm_num; ring_nf; done) | (norm_num; field_simp; ring_nf; done) | skip))

end Verif
