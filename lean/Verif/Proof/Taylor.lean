import Mathlib.Analysis.Calculus.MeanValue
import Mathlib.Analysis.Calculus.Deriv.Pow
import Mathlib.Analysis.Calculus.ContDiff.Basic
import Mathlib.Analysis.Calculus.IteratedDeriv.Defs
import Mathlib.MeasureTheory.Integral.IntervalIntegral.FundThmCalculus

/-!
Taylor's theorem with a bound on the remainder, for a chain of derivatives `g 0, g 1, …, g n`.
-/

namespace Verif.Taylor

open Set Finset

/-- A function that starts at zero and whose derivative is bounded by the derivative of `B`. -/
theorem abs_le_of_deriv_le {F F' B B' : ℝ → ℝ} {a b : ℝ}
    (hF : ∀ x, HasDerivAt F (F' x) x) (hB : ∀ x, HasDerivAt B (B' x) x)
    (h0 : F a = 0) (hB0 : B a = 0) (h : ∀ x ∈ Icc a b, |F' x| ≤ B' x) :
    ∀ x ∈ Icc a b, |F x| ≤ B x := by
  intro x hx
  have := image_norm_le_of_norm_deriv_right_le_deriv_boundary (f := F) (f' := F') (a := a) (b := b)
    (fun y _ => (hF y).continuousAt.continuousWithinAt)
    (fun y _ => (hF y).hasDerivWithinAt) (B := B) (B' := B') (by simp [h0, hB0]) hB
    (fun y hy => by simpa using h y ⟨hy.1, hy.2.le⟩) hx
  simpa using this

theorem hasDerivAt_taylor (c : ℕ → ℝ) (n : ℕ) (a x : ℝ) :
    HasDerivAt (fun x => ∑ i ∈ range (n + 1), c i * (x - a) ^ i / (i.factorial : ℝ))
      (∑ i ∈ range n, c (i + 1) * (x - a) ^ i / (i.factorial : ℝ)) x := by
  induction n with
  | zero => simpa using hasDerivAt_const x (c 0)
  | succ n ih =>
    have h1 : HasDerivAt (fun x => c (n + 1) * (x - a) ^ (n + 1) / ((n + 1).factorial : ℝ))
        (c (n + 1) * (x - a) ^ n / (n.factorial : ℝ)) x := by
      have := ((((hasDerivAt_id x).sub_const a).pow (n + 1)).const_mul (c (n + 1))).div_const
        ((n + 1).factorial : ℝ)
      refine this.congr_deriv ?_
      have hf : ((n.factorial : ℝ)) ≠ 0 := by exact_mod_cast Nat.factorial_ne_zero n
      have hn : ((n : ℝ) + 1) ≠ 0 := by positivity
      simp only [id, Nat.add_sub_cancel, Nat.factorial_succ]
      push_cast
      field_simp
    have h2 := ih.add h1
    simp only [Finset.sum_range_succ (n := n + 1)]
    rw [Finset.sum_range_succ (n := n)]
    exact h2

/-- Taylor bound to the right of the expansion point. -/
theorem taylor_right (n : ℕ) : ∀ (g : ℕ → ℝ → ℝ) (a b M : ℝ),
    (∀ i < n, ∀ t, HasDerivAt (g i) (g (i + 1) t) t) → (∀ t ∈ Icc a b, |g n t| ≤ M) →
    ∀ x ∈ Icc a b, |g 0 x - ∑ i ∈ range n, g i a * (x - a) ^ i / (i.factorial : ℝ)|
      ≤ M * (x - a) ^ n / (n.factorial : ℝ) := by
  induction n with
  | zero => intro g a b M _ hM x hx; simpa using hM x hx
  | succ n ih =>
    intro g a b M hg hM
    have hd := ih (fun i => g (i + 1)) a b M (fun i hi t => hg (i + 1) (by omega) t) hM
    refine abs_le_of_deriv_le
      (F := fun x => g 0 x - ∑ i ∈ range (n + 1), g i a * (x - a) ^ i / (i.factorial : ℝ))
      (F' := fun x => g 1 x - ∑ i ∈ range n, g (i + 1) a * (x - a) ^ i / (i.factorial : ℝ))
      (B := fun x => M * (x - a) ^ (n + 1) / ((n + 1).factorial : ℝ))
      (B' := fun x => M * (x - a) ^ n / (n.factorial : ℝ)) ?_ ?_ ?_ ?_ ?_
    · exact fun x => (hg 0 (by omega) x).sub (hasDerivAt_taylor (fun i => g i a) n a x)
    · intro x
      have := ((((hasDerivAt_id x).sub_const a).pow (n + 1)).const_mul M).div_const
        ((n + 1).factorial : ℝ)
      refine this.congr_deriv ?_
      have hf : ((n.factorial : ℝ)) ≠ 0 := by exact_mod_cast Nat.factorial_ne_zero n
      have hn : ((n : ℝ) + 1) ≠ 0 := by positivity
      simp only [id, Nat.add_sub_cancel, Nat.factorial_succ]
      push_cast
      field_simp
    · simp [Finset.sum_range_succ']
    · simp
    · exact fun x hx => hd x hx

/-- Taylor bound on both sides of the expansion point. -/
theorem taylor_bound (n : ℕ) (g : ℕ → ℝ → ℝ) (a b M : ℝ)
    (hg : ∀ i < n, ∀ t, HasDerivAt (g i) (g (i + 1) t) t) (hM : ∀ t ∈ Icc a b, |g n t| ≤ M)
    {c x : ℝ} (hc : c ∈ Icc a b) (hx : x ∈ Icc a b) :
    |g 0 x - ∑ i ∈ range n, g i c * (x - c) ^ i / (i.factorial : ℝ)|
      ≤ M * |x - c| ^ n / (n.factorial : ℝ) := by
  rcases le_total c x with h | h
  · rw [abs_of_nonneg (sub_nonneg.2 h)]
    exact taylor_right n g c b M hg (fun t ht => hM t ⟨hc.1.trans ht.1, ht.2⟩) x ⟨h, hx.2⟩
  · have := taylor_right n (fun i t => (-1) ^ i * g i (-t)) (-c) (-a) M
      (fun i hi t => by
        have h1 : HasDerivAt (fun t : ℝ => -t) (-1) t := (hasDerivAt_id t).neg
        have h2 := ((hg i hi (-t)).comp t h1).const_mul ((-1 : ℝ) ^ i)
        refine h2.congr_deriv ?_
        rw [pow_succ]; ring)
      (fun t ht => by
        rw [abs_mul, abs_pow, abs_neg, abs_one, one_pow, one_mul]
        exact hM _ ⟨by linarith [ht.2], by linarith [ht.1, hc.2]⟩)
      (-x) ⟨by linarith, by linarith [hx.1]⟩
    rw [abs_of_nonpos (sub_nonpos.2 h)]
    simp only [pow_zero, one_mul, neg_neg] at this
    have e : -x - -c = -(x - c) := by ring
    rw [e] at this
    refine le_of_eq_of_le ?_ this
    congr 2
    refine Finset.sum_congr rfl fun i _ => ?_
    rw [neg_pow (x - c) i, ← mul_assoc, mul_right_comm ((-1) ^ i) (g i c), ← mul_pow]
    norm_num

/-- The chain of derivatives `q0 + ∫ f, f, f', f'', …` of an integrated rate. -/
noncomputable def chain (q0 t0 : ℝ) (f : ℝ → ℝ) : ℕ → ℝ → ℝ
  | 0, t => q0 + ∫ s in t0..t, f s
  | i + 1, t => iteratedDeriv i f t

theorem chain_deriv {n : ℕ} {f : ℝ → ℝ} (hf : ContDiff ℝ n f) (q0 t0 : ℝ) :
    ∀ i < n + 1, ∀ t, HasDerivAt (chain q0 t0 f i) (chain q0 t0 f (i + 1) t) t := by
  intro i hi t
  cases i with
  | zero =>
    have : HasDerivAt (fun t => q0 + ∫ s in t0..t, f s) (f t) t :=
      (intervalIntegral.integral_hasDerivAt_right (hf.continuous.intervalIntegrable _ _)
        (hf.continuous.stronglyMeasurableAtFilter _ _) hf.continuous.continuousAt).const_add q0
    exact this.congr_deriv (by simp [chain])
  | succ i =>
    have hd : Differentiable ℝ (iteratedDeriv i f) :=
      hf.differentiable_iteratedDeriv i (by exact_mod_cast (by omega : i < n))
    exact (hd t).hasDerivAt.congr_deriv (by simp [chain, iteratedDeriv_succ])

/-- The chain of derivatives `q, q', q'', …`. -/
theorem iter_deriv {n : ℕ} {f : ℝ → ℝ} (hf : ContDiff ℝ n f) :
    ∀ i < n, ∀ t, HasDerivAt (iteratedDeriv i f) (iteratedDeriv (i + 1) f t) t := by
  intro i hi t
  have hd : Differentiable ℝ (iteratedDeriv i f) :=
    hf.differentiable_iteratedDeriv i (by exact_mod_cast hi)
  exact (hd t).hasDerivAt.congr_deriv (by simp [iteratedDeriv_succ])

end Verif.Taylor
