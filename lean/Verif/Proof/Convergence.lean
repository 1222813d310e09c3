import Verif.Proof.Taylor
import Verif.Proof.Integrals
import Mathlib.Tactic.Linarith
import Mathlib.Tactic.FieldSimp

/-!
Sequence lemmas behind the convergence properties of the integrators: the recursions that the matrices
solve, their stability, and the local defects of the formulas for a smooth rate.
-/

namespace Verif.Integrals

open Matrix Set Verif.Taylor

/-! ### Recursions -/

/-- The sequence solved by the BDF3 matrices (without the factor `h` and the initial value). -/
noncomputable def bdfRun (r : ℕ → ℝ) : ℕ → ℝ
  | 0 => 0
  | 1 => 23 / 12 * r 1 - 4 / 3 * r 2 + 5 / 12 * r 3
  | 2 => 7 / 3 * r 1 - 2 / 3 * r 2 + 1 / 3 * r 3
  | 3 => 9 / 4 * r 1 + 3 / 4 * r 3
  | k + 4 => 18 / 11 * bdfRun r (k + 3) - 9 / 11 * bdfRun r (k + 2) + 2 / 11 * bdfRun r (k + 1)
      + 6 / 11 * r (k + 4)

theorem bdfRun_eq {m : ℕ} (hm : 3 ≤ m) (r : ℕ → ℝ) (a : Fin (m + 1)) :
    (bdf3Tri false m *ᵥ fun b : Fin (m + 1) => r b) a = bdfRun r a := by
  refine bdf3Tri_eq hm (bdfRun r) r ?_ ?_ ?_ ?_ ?_ a
  · simp [bdfRun]
  · simp only [bdfRun]; ring
  · simp only [bdfRun]; ring
  · simp only [bdfRun]; ring
  · intro k _; rw [bdfRun]; ring

/-- The sequence solved by the Simpson matrices. -/
noncomputable def simRun (r : ℕ → ℝ) : ℕ → ℝ
  | 0 => 0
  | k + 1 => simRun r k +
      (if k % 2 = 0 then 5 / 12 * r k + 8 / 12 * r (k + 1) - 1 / 12 * r (k + 2)
       else -1 / 12 * r (k - 1) + 8 / 12 * r k + 5 / 12 * r (k + 1))

theorem simRun_even (r : ℕ → ℝ) (k : ℕ) : simRun r (2 * k + 1) - simRun r (2 * k) =
    5 / 12 * r (2 * k) + 8 / 12 * r (2 * k + 1) - 1 / 12 * r (2 * k + 2) := by
  rw [simRun, if_pos (by omega)]; ring

theorem simRun_odd (r : ℕ → ℝ) (k : ℕ) : simRun r (2 * k + 2) - simRun r (2 * k + 1) =
    -1 / 12 * r (2 * k) + 8 / 12 * r (2 * k + 1) + 5 / 12 * r (2 * k + 2) := by
  rw [show 2 * k + 2 = (2 * k + 1) + 1 by ring, simRun, if_neg (by omega)]
  simp only [Nat.add_sub_cancel]
  ring

theorem simRun_pair (r : ℕ → ℝ) (k : ℕ) : simRun r (2 * k + 2) - simRun r (2 * k) =
    1 / 3 * r (2 * k) + 4 / 3 * r (2 * k + 1) + 1 / 3 * r (2 * k + 2) := by
  have h1 := simRun_even r k
  have h2 := simRun_odd r k
  linarith

theorem simRun_eq {m : ℕ} (hm : m % 2 = 0) (r : ℕ → ℝ) (a : Fin (m + 1)) :
    (simpsonTri m *ᵥ fun b : Fin (m + 1) => r b) a = simRun r a :=
  simpsonTri_eq hm (simRun r) r rfl (fun k _ => simRun_even r k) (fun k _ => simRun_odd r k) a

/-! ### Stability -/

/-- The BDF3 equations with right hand sides `τ`: every step of the solution is bounded.  `B` bounds the
two starting rows, `C` the rows of the BDF formula. -/
theorem bdf_stable {m : ℕ} (e τ : ℕ → ℝ) (B C D : ℝ) (h00 : e 0 = 0)
    (h0 : -1 / 2 * e 1 + e 2 - 1 / 6 * e 3 = τ 1)
    (h1 : - e 1 + 1 / 2 * e 2 + 1 / 3 * e 3 = τ 2)
    (h2 : 9 / 11 * e 1 - 18 / 11 * e 2 + e 3 = τ 3)
    (h3 : ∀ k, k + 4 ≤ m → -2 / 11 * e (k + 1) + 9 / 11 * e (k + 2) - 18 / 11 * e (k + 3) + e (k + 4)
      = τ (k + 4))
    (b1 : |τ 1| ≤ B) (b2 : |τ 2| ≤ B) (b3 : ∀ k, 3 ≤ k → k ≤ m → |τ k| ≤ C) (hm : 3 ≤ m)
    (hD : 13 / 4 * B + 55 / 72 * C ≤ D) (hD' : 11 / 2 * C ≤ D) :
    ∀ k, k + 1 ≤ m → |e (k + 1) - e k| ≤ D := by
  have e1 : e 1 = 23 / 12 * τ 1 - 4 / 3 * τ 2 + 5 / 12 * (11 / 6 * τ 3) := by linarith
  have e2 : e 2 = 7 / 3 * τ 1 - 2 / 3 * τ 2 + 1 / 3 * (11 / 6 * τ 3) := by linarith
  have e3 : e 3 = 9 / 4 * τ 1 + 3 / 4 * (11 / 6 * τ 3) := by linarith
  have b33 := abs_le.1 (b3 3 le_rfl hm)
  have b1' := abs_le.1 b1
  have b2' := abs_le.1 b2
  have s1 : |e 1 - e 0| ≤ D := by rw [h00, e1, abs_le]; constructor <;> linarith
  have s2 : |e 2 - e 1| ≤ D := by rw [e2, e1, abs_le]; constructor <;> linarith
  have s3 : |e 3 - e 2| ≤ D := by rw [e2, e3, abs_le]; constructor <;> linarith
  have key : ∀ k, (k + 2 ≤ m → |e (k + 2) - e (k + 1)| ≤ D) ∧
      (k + 3 ≤ m → |e (k + 3) - e (k + 2)| ≤ D) := by
    intro k
    induction k with
    | zero => exact ⟨fun _ => s2, fun _ => s3⟩
    | succ k ih =>
      refine ⟨ih.2, fun hk => ?_⟩
      have i1 := abs_le.1 (ih.1 (by omega))
      have i2 := abs_le.1 (ih.2 (by omega))
      have i3 := abs_le.1 (b3 (k + 4) (by omega) hk)
      have i4 := h3 k hk
      rw [show k + 1 + 3 = k + 4 by ring, show k + 1 + 2 = k + 3 by ring, abs_le]
      constructor <;> linarith
  intro k hk
  rcases k with _ | k
  · exact s1
  · exact (key k).1 hk

/-- Bounded steps add up. -/
theorem abs_le_of_steps {m : ℕ} (e : ℕ → ℝ) (D : ℝ) (h0 : e 0 = 0)
    (h : ∀ k, k + 1 ≤ m → |e (k + 1) - e k| ≤ D) : ∀ k, k ≤ m → |e k| ≤ k * D := by
  intro k
  induction k with
  | zero => intro _; simp [h0]
  | succ k ih =>
    intro hk
    have h1 := abs_le.1 (ih (by omega))
    have h2 := abs_le.1 (h k hk)
    rw [abs_le]; push_cast
    constructor <;> linarith

/-! ### Local defects -/

/-- third order Taylor polynomial of the chain -/
noncomputable def P3 (g : ℕ → ℝ → ℝ) (c s : ℝ) : ℝ := g 0 c + g 1 c * s + g 2 c * s ^ 2 / 2 + g 3 c * s ^ 3 / 6

theorem taylor4 {g : ℕ → ℝ → ℝ} {a b M : ℝ}
    (hg : ∀ i < 4, ∀ t, HasDerivAt (g i) (g (i + 1) t) t) (hM : ∀ t ∈ Icc a b, |g 4 t| ≤ M)
    {c s : ℝ} (hc : c ∈ Icc a b) (hx : c + s ∈ Icc a b) :
    |g 0 (c + s) - P3 g c s| ≤ M * |s| ^ 4 / 24 := by
  have := taylor_bound 4 g a b M hg hM hc hx
  simp only [Finset.sum_range_succ, Finset.sum_range_zero, add_sub_cancel_left, Nat.factorial] at this
  norm_num at this
  refine le_of_eq_of_le ?_ this
  congr 1

theorem taylor3 {g : ℕ → ℝ → ℝ} {a b M : ℝ}
    (hg : ∀ i < 4, ∀ t, HasDerivAt (g i) (g (i + 1) t) t) (hM : ∀ t ∈ Icc a b, |g 4 t| ≤ M)
    {c s : ℝ} (hc : c ∈ Icc a b) (hx : c + s ∈ Icc a b) :
    |g 1 (c + s) - (g 1 c + g 2 c * s + g 3 c * s ^ 2 / 2)| ≤ M * |s| ^ 3 / 6 := by
  have := taylor_bound 3 (fun i => g (i + 1)) a b M (fun i hi t => hg (i + 1) (by omega) t) hM hc hx
  simp only [Finset.sum_range_succ, Finset.sum_range_zero, add_sub_cancel_left, Nat.factorial] at this
  norm_num at this
  refine le_of_eq_of_le ?_ this
  congr 1

section defects
variable {g : ℕ → ℝ → ℝ} {a b M h : ℝ}

/-- first starting row -/
theorem defect_row0 (hg : ∀ i < 4, ∀ t, HasDerivAt (g i) (g (i + 1) t) t)
    (hM : ∀ t ∈ Icc a b, |g 4 t| ≤ M) (hh : 0 ≤ h) (c : ℝ) (h1 : a ≤ c - h) (h2 : c + 2 * h ≤ b) :
    |h * g 1 c - (-1 / 3 * g 0 (c - h) - 1 / 2 * g 0 c + g 0 (c + h) - 1 / 6 * g 0 (c + 2 * h))|
      ≤ M * h ^ 4 / 6 := by
  have hc : c ∈ Icc a b := ⟨by linarith, by linarith⟩
  have t1 := taylor4 hg hM (s := -h) hc ⟨by linarith, by linarith⟩
  have t2 := taylor4 hg hM (s := h) hc ⟨by linarith, by linarith⟩
  have t3 := taylor4 hg hM (s := 2 * h) hc ⟨by linarith, by linarith⟩
  rw [abs_neg, abs_of_nonneg hh] at t1
  rw [abs_of_nonneg hh] at t2
  rw [abs_of_nonneg (by linarith : (0 : ℝ) ≤ 2 * h)] at t3
  rw [← sub_eq_add_neg] at t1
  simp only [P3] at t1 t2 t3
  rw [abs_le] at *
  constructor <;> nlinarith only [t1, t2, t3]

/-- second starting row -/
theorem defect_row1 (hg : ∀ i < 4, ∀ t, HasDerivAt (g i) (g (i + 1) t) t)
    (hM : ∀ t ∈ Icc a b, |g 4 t| ≤ M) (hh : 0 ≤ h) (c : ℝ) (h1 : a ≤ c - 2 * h) (h2 : c + h ≤ b) :
    |h * g 1 c - (1 / 6 * g 0 (c - 2 * h) - g 0 (c - h) + 1 / 2 * g 0 c + 1 / 3 * g 0 (c + h))|
      ≤ M * h ^ 4 / 6 := by
  have hc : c ∈ Icc a b := ⟨by linarith, by linarith⟩
  have t1 := taylor4 hg hM (s := -h) hc ⟨by linarith, by linarith⟩
  have t2 := taylor4 hg hM (s := h) hc ⟨by linarith, by linarith⟩
  have t3 := taylor4 hg hM (s := -(2 * h)) hc ⟨by linarith, by linarith⟩
  rw [abs_neg, abs_of_nonneg hh] at t1
  rw [abs_of_nonneg hh] at t2
  rw [abs_neg, abs_of_nonneg (by linarith : (0 : ℝ) ≤ 2 * h)] at t3
  rw [← sub_eq_add_neg] at t1 t3
  simp only [P3] at t1 t2 t3
  rw [abs_le] at *
  constructor <;> nlinarith only [t1, t2, t3]

/-- row of the BDF formula -/
theorem defect_bdf (hg : ∀ i < 4, ∀ t, HasDerivAt (g i) (g (i + 1) t) t)
    (hM : ∀ t ∈ Icc a b, |g 4 t| ≤ M) (hh : 0 ≤ h) (c : ℝ) (h1 : a ≤ c - 3 * h) (h2 : c ≤ b) :
    |6 / 11 * (h * g 1 c) - (-2 / 11 * g 0 (c - 3 * h) + 9 / 11 * g 0 (c - 2 * h) - 18 / 11 * g 0 (c - h)
        + g 0 c)| ≤ 27 / 22 * (M * h ^ 4) := by
  have hc : c ∈ Icc a b := ⟨by linarith, by linarith⟩
  have t1 := taylor4 hg hM (s := -h) hc ⟨by linarith, by linarith⟩
  have t2 := taylor4 hg hM (s := -(2 * h)) hc ⟨by linarith, by linarith⟩
  have t3 := taylor4 hg hM (s := -(3 * h)) hc ⟨by linarith, by linarith⟩
  rw [abs_neg, abs_of_nonneg hh] at t1
  rw [abs_neg, abs_of_nonneg (by linarith : (0 : ℝ) ≤ 2 * h)] at t2
  rw [abs_neg, abs_of_nonneg (by linarith : (0 : ℝ) ≤ 3 * h)] at t3
  rw [← sub_eq_add_neg] at t1 t2 t3
  simp only [P3] at t1 t2 t3
  rw [abs_le] at *
  constructor <;> nlinarith only [t1, t2, t3]

/-- first half of a Simpson interval -/
theorem defect_half (hg : ∀ i < 4, ∀ t, HasDerivAt (g i) (g (i + 1) t) t)
    (hM : ∀ t ∈ Icc a b, |g 4 t| ≤ M) (hh : 0 ≤ h) (c : ℝ) (h1 : a ≤ c - h) (h2 : c + h ≤ b) :
    |h * (5 / 12 * g 1 (c - h) + 8 / 12 * g 1 c - 1 / 12 * g 1 (c + h)) - (g 0 c - g 0 (c - h))|
      ≤ M * h ^ 4 / 8 := by
  have hc : c ∈ Icc a b := ⟨by linarith, by linarith⟩
  have t1 := taylor4 hg hM (s := -h) hc ⟨by linarith, by linarith⟩
  have t2 := taylor3 hg hM (s := h) hc ⟨by linarith, by linarith⟩
  have t3 := taylor3 hg hM (s := -h) hc ⟨by linarith, by linarith⟩
  rw [abs_neg, abs_of_nonneg hh] at t1 t3
  rw [abs_of_nonneg hh] at t2
  rw [← sub_eq_add_neg] at t1 t3
  simp only [P3] at t1
  generalize g 0 (c - h) = A at *
  generalize g 1 (c - h) = A1 at *
  generalize g 1 (c + h) = A2 at *
  have k2 := abs_le.1 t2
  have k3 := abs_le.1 t3
  have k1 := abs_le.1 t1
  have l2 := mul_le_mul_of_nonneg_left k2.1 hh
  have l2' := mul_le_mul_of_nonneg_left k2.2 hh
  have l3 := mul_le_mul_of_nonneg_left k3.1 hh
  have l3' := mul_le_mul_of_nonneg_left k3.2 hh
  rw [abs_le]
  constructor <;> nlinarith only [k1, l2, l2', l3, l3']

/-- second half of a Simpson interval -/
theorem defect_half' (hg : ∀ i < 4, ∀ t, HasDerivAt (g i) (g (i + 1) t) t)
    (hM : ∀ t ∈ Icc a b, |g 4 t| ≤ M) (hh : 0 ≤ h) (c : ℝ) (h1 : a ≤ c - h) (h2 : c + h ≤ b) :
    |h * (-1 / 12 * g 1 (c - h) + 8 / 12 * g 1 c + 5 / 12 * g 1 (c + h)) - (g 0 (c + h) - g 0 c)|
      ≤ M * h ^ 4 / 8 := by
  have hc : c ∈ Icc a b := ⟨by linarith, by linarith⟩
  have t1 := taylor4 hg hM (s := h) hc ⟨by linarith, by linarith⟩
  have t2 := taylor3 hg hM (s := h) hc ⟨by linarith, by linarith⟩
  have t3 := taylor3 hg hM (s := -h) hc ⟨by linarith, by linarith⟩
  rw [abs_neg, abs_of_nonneg hh] at t3
  rw [abs_of_nonneg hh] at t1 t2
  rw [← sub_eq_add_neg] at t3
  simp only [P3] at t1
  generalize g 0 (c + h) = A at *
  generalize g 1 (c - h) = A1 at *
  generalize g 1 (c + h) = A2 at *
  have k2 := abs_le.1 t2
  have k3 := abs_le.1 t3
  have k1 := abs_le.1 t1
  have l2 := mul_le_mul_of_nonneg_left k2.1 hh
  have l2' := mul_le_mul_of_nonneg_left k2.2 hh
  have l3 := mul_le_mul_of_nonneg_left k3.1 hh
  have l3' := mul_le_mul_of_nonneg_left k3.2 hh
  rw [abs_le]
  constructor <;> nlinarith only [k1, l2, l2', l3, l3']

/-- a whole Simpson interval, with the sharp constant -/
theorem defect_simpson {g : ℕ → ℝ → ℝ} (hg : ∀ i < 5, ∀ t, HasDerivAt (g i) (g (i + 1) t) t)
    (hM : ∀ t ∈ Icc a b, |g 5 t| ≤ M) (hh : 0 ≤ h) (c : ℝ) (h1 : a ≤ c - h) (h2 : c + h ≤ b) :
    |h * (1 / 3 * g 1 (c - h) + 4 / 3 * g 1 c + 1 / 3 * g 1 (c + h)) - (g 0 (c + h) - g 0 (c - h))|
      ≤ M * h ^ 5 / 90 := by
  have dp : ∀ i < 5, ∀ s : ℝ, HasDerivAt (fun s => g i (c + s)) (g (i + 1) (c + s)) s := by
    intro i hi s
    exact ((hg i hi (c + s)).comp s ((hasDerivAt_id s).const_add c)).congr_deriv (by simp)
  have dm : ∀ i < 5, ∀ s : ℝ, HasDerivAt (fun s => g i (c - s)) (-g (i + 1) (c - s)) s := by
    intro i hi s
    exact ((hg i hi (c - s)).comp s ((hasDerivAt_id s).const_sub c)).congr_deriv (by simp)
  have L : ∀ s ∈ Icc 0 h, |g 4 (c + s) - g 4 (c - s)| ≤ M * (2 * s) := by
    intro s hs
    have := taylor_bound 1 (fun i => g (i + 4)) a b M
      (fun i hi t => hg (i + 4) (by omega) t) hM
      (c := c - s) (x := c + s) ⟨by linarith [hs.2], by linarith [hs.1]⟩
      ⟨by linarith [hs.1], by linarith [hs.2]⟩
    rw [show c + s - (c - s) = 2 * s by ring, abs_of_nonneg (by linarith [hs.1] : (0 : ℝ) ≤ 2 * s)] at this
    simpa using this
  have S3 := abs_le_of_deriv_le (a := 0) (b := h)
    (F := fun s => 1 / 3 * (g 2 (c + s) - g 2 (c - s)) - s / 3 * (g 3 (c + s) + g 3 (c - s)))
    (F' := fun s => - (s / 3) * (g 4 (c + s) - g 4 (c - s)))
    (B := fun s => 2 / 9 * M * s ^ 3) (B' := fun s => 2 / 3 * M * s ^ 2)
    (fun s => by
      have := (((dp 2 (by omega) s).sub (dm 2 (by omega) s)).const_mul (1 / 3)).sub
        (((hasDerivAt_id s).div_const 3).mul ((dp 3 (by omega) s).add (dm 3 (by omega) s)))
      refine this.congr_deriv ?_
      simp only [id, Pi.add_apply]
      ring)
    (fun s => ((hasDerivAt_pow 3 s).const_mul (2 / 9 * M)).congr_deriv (by norm_num; ring))
    (by simp) (by simp)
    (fun s hs => by
      rw [abs_mul, abs_neg, abs_of_nonneg (by linarith [hs.1] : (0 : ℝ) ≤ s / 3)]
      have := mul_le_mul_of_nonneg_left (L s hs) (by linarith [hs.1] : (0 : ℝ) ≤ s / 3)
      nlinarith only [this])
  have S2 := abs_le_of_deriv_le (a := 0) (b := h)
    (F := fun s => 2 / 3 * (g 1 (c + s) + g 1 (c - s)) - 4 / 3 * g 1 c - s / 3 * (g 2 (c + s) - g 2 (c - s)))
    (F' := fun s => 1 / 3 * (g 2 (c + s) - g 2 (c - s)) - s / 3 * (g 3 (c + s) + g 3 (c - s)))
    (B := fun s => 1 / 18 * M * s ^ 4) (B' := fun s => 2 / 9 * M * s ^ 3)
    (fun s => by
      have := ((((dp 1 (by omega) s).add (dm 1 (by omega) s)).const_mul (2 / 3)).sub_const
        (4 / 3 * g 1 c)).sub
        (((hasDerivAt_id s).div_const 3).mul ((dp 2 (by omega) s).sub (dm 2 (by omega) s)))
      refine this.congr_deriv ?_
      simp only [id, Pi.sub_apply]
      ring)
    (fun s => ((hasDerivAt_pow 4 s).const_mul (1 / 18 * M)).congr_deriv (by norm_num; ring))
    (by norm_num; ring) (by simp) S3
  have S1 := abs_le_of_deriv_le (a := 0) (b := h)
    (F := fun s => g 0 (c + s) - g 0 (c - s) - s / 3 * (g 1 (c - s) + 4 * g 1 c + g 1 (c + s)))
    (F' := fun s => 2 / 3 * (g 1 (c + s) + g 1 (c - s)) - 4 / 3 * g 1 c
      - s / 3 * (g 2 (c + s) - g 2 (c - s)))
    (B := fun s => 1 / 90 * M * s ^ 5) (B' := fun s => 1 / 18 * M * s ^ 4)
    (fun s => by
      have := ((dp 0 (by omega) s).sub (dm 0 (by omega) s)).sub
        (((hasDerivAt_id s).div_const 3).mul
          (((dm 1 (by omega) s).add_const (4 * g 1 c)).add (dp 1 (by omega) s)))
      refine this.congr_deriv ?_
      simp only [id, Pi.add_apply]
      ring)
    (fun s => ((hasDerivAt_pow 5 s).const_mul (1 / 90 * M)).congr_deriv (by norm_num; ring))
    (by simp) (by simp) S2
  have := S1 h ⟨hh, le_rfl⟩
  rw [abs_sub_comm]
  refine le_of_eq_of_le ?_ (this.trans (le_of_eq (by ring)))
  congr 1
  ring

end defects

end Verif.Integrals
