import Verif.Model.UnitsCore
import Mathlib.Analysis.SpecialFunctions.Trigonometric.Basic
import Mathlib.Analysis.Real.Sqrt

/-! Dimensional analysis as rules: `Sc b d x y` says that `y` is the number `x` of dimension `d` in the base units `b`. -/

namespace Verif.Units

variable {b : Base} {d d' : Dim} {x y x' y' : ℝ}

theorem Base.w_pos (b : Base) (d : Dim) : 0 < b.w d := by
  obtain ⟨_, _, _, _, _, _, _, _, h1, h2, h3, h4, h5, h6, h7, h8⟩ := b
  unfold Base.w
  positivity

theorem Base.w_zero (b : Base) : b.w 0 = 1 := by
  show b.w {} = 1
  simp [Base.w]

theorem Base.w_add (b : Base) (d d' : Dim) : b.w (d + d') = b.w d * b.w d' := by
  show b.w ⟨d.m + d'.m, d.kg + d'.kg, d.s + d'.s, d.K + d'.K, d.usd + d'.usd, d.ft + d'.ft, d.hr + d'.hr, d.mega + d'.mega⟩ = _
  simp only [Base.w, Rat.cast_add, Real.rpow_add b.hm, Real.rpow_add b.hkg, Real.rpow_add b.hs, Real.rpow_add b.hK, Real.rpow_add b.husd, Real.rpow_add b.hft, Real.rpow_add b.hhr, Real.rpow_add b.hmega]
  ring

theorem Base.w_sub (b : Base) (d d' : Dim) : b.w (d - d') = b.w d / b.w d' := by
  show b.w ⟨d.m - d'.m, d.kg - d'.kg, d.s - d'.s, d.K - d'.K, d.usd - d'.usd, d.ft - d'.ft, d.hr - d'.hr, d.mega - d'.mega⟩ = _
  simp only [Base.w, Rat.cast_sub, Real.rpow_sub b.hm, Real.rpow_sub b.hkg, Real.rpow_sub b.hs, Real.rpow_sub b.hK, Real.rpow_sub b.husd, Real.rpow_sub b.hft, Real.rpow_sub b.hhr, Real.rpow_sub b.hmega]
  have := Real.rpow_pos_of_pos b.hm d'.m
  have := Real.rpow_pos_of_pos b.hkg d'.kg
  have := Real.rpow_pos_of_pos b.hs d'.s
  have := Real.rpow_pos_of_pos b.hK d'.K
  have := Real.rpow_pos_of_pos b.husd d'.usd
  have := Real.rpow_pos_of_pos b.hft d'.ft
  have := Real.rpow_pos_of_pos b.hhr d'.hr
  have := Real.rpow_pos_of_pos b.hmega d'.mega
  field_simp

theorem Base.w_smul (b : Base) (q : ℚ) (d : Dim) : b.w (q • d) = b.w d ^ (q : ℝ) := by
  show b.w ⟨q * d.m, q * d.kg, q * d.s, q * d.K, q * d.usd, q * d.ft, q * d.hr, q * d.mega⟩ = _
  have h1 := (Real.rpow_pos_of_pos b.hm d.m).le
  have h2 := (Real.rpow_pos_of_pos b.hkg d.kg).le
  have h3 := (Real.rpow_pos_of_pos b.hs d.s).le
  have h4 := (Real.rpow_pos_of_pos b.hK d.K).le
  have h5 := (Real.rpow_pos_of_pos b.husd d.usd).le
  have h6 := (Real.rpow_pos_of_pos b.hft d.ft).le
  have h7 := (Real.rpow_pos_of_pos b.hhr d.hr).le
  have h8 := (Real.rpow_pos_of_pos b.hmega d.mega).le
  simp only [Base.w, Rat.cast_mul]
  rw [Real.mul_rpow (by positivity) h8, Real.mul_rpow (by positivity) h7, Real.mul_rpow (by positivity) h6,
    Real.mul_rpow (by positivity) h5, Real.mul_rpow (by positivity) h4, Real.mul_rpow (by positivity) h3,
    Real.mul_rpow h1 h2, ← Real.rpow_mul b.hm.le, ← Real.rpow_mul b.hkg.le, ← Real.rpow_mul b.hs.le, ← Real.rpow_mul b.hK.le,
    ← Real.rpow_mul b.husd.le, ← Real.rpow_mul b.hft.le, ← Real.rpow_mul b.hhr.le, ← Real.rpow_mul b.hmega.le]
  simp only [mul_comm]

/-- `y` is `x`, of dimension `d`, expressed in the units `b` -/
def Sc (b : Base) (d : Dim) (x y : ℝ) : Prop := y = x * b.w d

theorem Sc.lit : Sc b 0 x x := by simp [Sc, b.w_zero]
theorem Sc.zero : Sc b d 0 0 := by simp [Sc]
theorem Sc.const (h : b.w d = 1) : Sc b d x x := by simp [Sc, h]
theorem Sc.mul (h : Sc b d x y) (h' : Sc b d' x' y') : Sc b (d + d') (x * x') (y * y') := by
  unfold Sc at *; rw [h, h', b.w_add]; ring
theorem Sc.div (h : Sc b d x y) (h' : Sc b d' x' y') : Sc b (d - d') (x / x') (y / y') := by
  unfold Sc at *; rw [h, h', b.w_sub, mul_div_mul_comm]
theorem Sc.inv (h : Sc b d x y) : Sc b (0 - d) x⁻¹ y⁻¹ := by
  unfold Sc at *; rw [h, b.w_sub, b.w_zero, mul_inv, one_div]
theorem Sc.add (h : Sc b d x y) (h' : Sc b d' x' y') (e : d' = d) : Sc b d (x + x') (y + y') := by
  unfold Sc at *; rw [h, h', e]; ring
theorem Sc.sub (h : Sc b d x y) (h' : Sc b d' x' y') (e : d' = d) : Sc b d (x - x') (y - y') := by
  unfold Sc at *; rw [h, h', e]; ring
theorem Sc.neg (h : Sc b d x y) : Sc b d (-x) (-y) := by
  unfold Sc at *; rw [h]; ring
theorem Sc.pow (n : ℕ) (h : Sc b d x y) : Sc b ((n : ℚ) • d) (x ^ n) (y ^ n) := by
  unfold Sc at *; rw [h, b.w_smul, mul_pow, Rat.cast_natCast, Real.rpow_natCast]

theorem mul_rpow_pos {c : ℝ} (hc : 0 < c) (p : ℝ) : (x * c) ^ p = x ^ p * c ^ p := by
  rcases lt_trichotomy x 0 with h | h | h
  · rw [Real.rpow_def_of_neg h, Real.rpow_def_of_neg (mul_neg_of_neg_of_pos h hc), Real.rpow_def_of_pos hc,
      Real.log_mul h.ne hc.ne', add_mul, Real.exp_add]
    ring
  · subst h
    rw [zero_mul]
    by_cases hp : p = 0
    · simp [hp]
    · rw [Real.zero_rpow hp, zero_mul]
  · exact Real.mul_rpow h.le hc.le

theorem Sc.rpow (q : ℚ) {p : ℝ} (hp : p = (q : ℝ)) (h : Sc b d x y) : Sc b (q • d) (x ^ p) (y ^ p) := by
  unfold Sc at *; rw [h, b.w_smul, mul_rpow_pos (b.w_pos d), hp]

theorem Sc.sqrt (h : Sc b d x y) : Sc b ((1 / 2 : ℚ) • d) (√x) (√y) := by
  unfold Sc at *
  rw [h, b.w_smul, Real.sqrt_mul' _ (b.w_pos d).le, Real.sqrt_eq_rpow (b.w d)]
  norm_num

/-- functions of pure numbers -/
theorem Sc.fn (f : ℝ → ℝ) (h : Sc b d x y) (e : d = 0) : Sc b 0 (f x) (f y) := by
  subst e
  unfold Sc at *
  rw [h, b.w_zero, mul_one, mul_one]

theorem Sc.lt_iff (h : Sc b d x y) (h' : Sc b d' x' y') (e : d' = d) : y < y' ↔ x < x' := by
  unfold Sc at *
  subst e
  rw [h, h', mul_lt_mul_iff_left₀ (b.w_pos d')]

theorem Sc.le_iff (h : Sc b d x y) (h' : Sc b d' x' y') (e : d' = d) : y ≤ y' ↔ x ≤ x' := by
  unfold Sc at *
  subst e
  rw [h, h', mul_le_mul_iff_left₀ (b.w_pos d')]

theorem Sc.max (h : Sc b d x y) (h' : Sc b d' x' y') (e : d' = d) : Sc b d (max x x') (max y y') := by
  unfold Sc at *
  subst e
  rw [h, h', max_mul_of_nonneg _ _ (b.w_pos d').le]

theorem Sc.min (h : Sc b d x y) (h' : Sc b d' x' y') (e : d' = d) : Sc b d (min x x') (min y y') := by
  unfold Sc at *
  subst e
  rw [h, h', min_mul_of_nonneg _ _ (b.w_pos d').le]

theorem Sc.ite {p q : Prop} {_ : Decidable p} {_ : Decidable q} (hpq : q ↔ p) (h : Sc b d x y) (h' : Sc b d' x' y') (e : d' = d) :
    Sc b d (if p then x else x') (if q then y else y') := by
  subst e
  by_cases hp : p
  · rw [if_pos hp, if_pos (hpq.2 hp)]; exact h
  · rw [if_neg hp, if_neg (fun c => hp (hpq.1 c))]; exact h'

theorem Sc.cast (h : Sc b d x y) (e : d = d') : Sc b d' x y := e ▸ h

theorem Sc.ne_zero_iff (h : Sc b d x y) : y = 0 ↔ x = 0 := by
  unfold Sc at h
  rw [h, mul_eq_zero, or_iff_left (b.w_pos d).ne']

theorem Sc.var (c : Comp) (b : Base) (env : String → ℝ) (v : String) :
    Sc b (dim (c.unitOf v)) (env v) (c.rescale b env v) := rfl

theorem Sc.out (h : Sc b d x y) (e : d = d') : some y = (some x).map (· * b.w d') := by
  subst e; unfold Sc at h; rw [h]; rfl

theorem Comp.consistentOn_intro {c : Comp} {dom : (String → ℝ) → Prop}
    (h : ∀ b : Base, (∀ d ∈ c.consts, b.w d = 1) → ∀ env e' : String → ℝ, (∀ v, Sc b (dim (c.unitOf v)) (env v) (e' v)) →
      dom env → ∀ o ∈ c.outs, c.run e' o.1 = (c.run env o.1).map (· * b.w (dim o.2))) : c.ConsistentOn dom :=
  fun b hb env henv => h b hb env _ (Sc.var c b env) henv

theorem Sc.rpow_pure {p p' : ℝ} (h : Sc b d x y) (e : d = 0) (h' : Sc b d' p p') (e' : d' = 0) : Sc b 0 (x ^ p) (y ^ p') := by
  subst e e'
  unfold Sc at *
  rw [b.w_zero, mul_one] at *
  rw [h, h']

theorem Sc.eq_of (h : Sc b d x y) (e : d = 0) : y = x := by
  subst e; unfold Sc at h; rw [h, b.w_zero, mul_one]

theorem Sc.out_some (h : Sc b d x y) (e : d = d') : some y = some (x * b.w d') := Sc.out h e

theorem Sc.out_ite {p q : Prop} {_ : Decidable p} {_ : Decidable q} (hpq : q ↔ p) (h : Sc b d x y) (e : d = d') :
    (if q then none else some y) = (if p then none else some x).map (· * b.w d') := by
  by_cases hp : p
  · rw [if_pos hp, if_pos (hpq.2 hp)]; rfl
  · rw [if_neg hp, if_neg (fun c => hp (hpq.1 c))]; exact Sc.out h e

/-- one goal per output -/
macro "outs" : tactic => `(tactic| repeat' first | refine List.forall_mem_cons.2 ⟨?_, ?_⟩ | exact List.forall_mem_nil _)

/-- derive the dimension of an arithmetic expression -/
macro "dims" : tactic => `(tactic| repeat' first
  | with_reducible apply Sc.out
  | with_reducible apply Sc.out_some
  | with_reducible apply (by assumption : ∀ v, Sc _ (dim (Comp.unitOf _ v)) _ _)
  | with_reducible assumption
  | with_reducible apply Sc.zero
  | with_reducible apply Sc.mul
  | with_reducible apply Sc.div
  | with_reducible apply Sc.add
  | with_reducible apply Sc.sub
  | with_reducible apply Sc.neg
  | with_reducible apply Sc.inv
  | with_reducible apply Sc.pow
  | with_reducible apply Sc.sqrt
  | with_reducible apply Sc.max
  | with_reducible apply Sc.min
  | with_reducible apply Sc.lt_iff
  | with_reducible apply Sc.le_iff
  | (apply Sc.rpow (1 / 2); focus (norm_num; done))
  | (apply Sc.rpow (1 / 3); focus (norm_num; done))
  | (apply Sc.rpow (1 / 4); focus (norm_num; done))
  | (apply Sc.rpow (-1 / 4); focus (norm_num; done))
  | (apply Sc.rpow (3 / 2); focus (norm_num; done))
  | (apply Sc.rpow (2 / 5); focus (norm_num; done))
  | with_reducible apply Sc.rpow_pure
  | with_reducible exact Sc.lit
  | with_reducible apply Sc.fn Real.exp
  | with_reducible apply Sc.fn Real.tanh
  | with_reducible apply Sc.fn Real.log
  | with_reducible apply Sc.fn Real.sin
  | with_reducible apply Sc.fn Real.cos
  | with_reducible apply Sc.fn Real.tan
  | with_reducible rfl
  | apply Sc.ite
  | apply Sc.out_ite
  | decide +kernel)

end Verif.Units
