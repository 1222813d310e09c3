import Verif.Proof.Convergence
import Mathlib.Topology.ContinuousMap.Weierstrass
import Mathlib.Analysis.Calculus.ContDiff.Polynomial
import Mathlib.Analysis.Complex.ExponentialBounds
import Mathlib.Analysis.SpecialFunctions.ExpDeriv

/-! Property C98: the integrators are stable and converge to the exact integral of the rate. -/

namespace Verif.Integrals

open Matrix Set Verif.Taylor

section
variable {m : ℕ} {M : Matrix (Fin (m + 1)) (Fin (m + 1)) ℝ}

theorem node_mem {t0 h : ℝ} (hh : 0 ≤ h) {k : ℕ} (hk : k ≤ m) :
    t0 + k * h ∈ Icc t0 (t0 + m * h) :=
  ⟨by have := mul_nonneg (Nat.cast_nonneg (α := ℝ) k) hh; linarith,
   by have := mul_le_mul_of_nonneg_right (Nat.cast_le (α := ℝ).2 hk) hh; linarith⟩

/-- C98.  Error of the BDF3 integrator for a rate with three continuous derivatives: third order in the
time step, at every node.  `K` bounds the third derivative of the rate over the phase. -/
theorem C98_bdf3_error (hM : methodMatrix .bdf3 m = some M) (f : ℝ → ℝ) (hf : ContDiff ℝ 3 f)
    (t : TimeInput ℝ) (hh : 0 ≤ t.step m) (t0 q0 K : ℝ)
    (hK : ∀ s ∈ Icc t0 (t0 + m * t.step m), |iteratedDeriv 3 f s| ≤ K) (a : Fin (m + 1)) :
    |integratorCompute M q0 t (fun b => f (t0 + (b : ℕ) * t.step m)) a
        - (q0 + ∫ s in t0..(t0 + (a : ℕ) * t.step m), f s)|
      ≤ 27 / 4 * K * t.step m ^ 3 * ((a : ℕ) * t.step m) := by
  obtain ⟨_, hm, rfl⟩ := methodMatrix_bdf3.1 hM
  rw [integratorCompute_eq, bdfRun_eq hm (fun k => f (t0 + k * t.step m))]
  revert hK hh
  generalize t.step m = h
  intro hh hK
  set g := chain 0 t0 f with hgdef
  have hg : ∀ i < 4, ∀ t, HasDerivAt (g i) (g (i + 1) t) t := chain_deriv hf 0 t0
  have g0 : g 0 t0 = 0 := by simp [hgdef, chain]
  have g1 : ∀ s, g 1 s = f s := fun s => by simp [hgdef, chain]
  have hK' : ∀ s ∈ Icc t0 (t0 + m * h), |g 4 s| ≤ K := hK
  have hmem := fun (k : ℕ) (hk : k ≤ m) => node_mem (t0 := t0) hh hk
  set x := bdfRun (fun k => f (t0 + k * h)) with hx
  set e : ℕ → ℝ := fun k => h * x k - g 0 (t0 + k * h) with he
  have e0 : e 0 = 0 := by simp [he, hx, bdfRun, g0]
  have hm3 := (hmem 3 hm).2
  norm_num at hm3
  have d0 := defect_row0 hg hK' hh (t0 + h) (by linarith) (by linarith)
  have d1 := defect_row1 hg hK' hh (t0 + 2 * h) (by linarith) (by linarith)
  rw [show t0 + h - h = t0 by ring, show t0 + h + h = t0 + 2 * h by ring,
    show t0 + h + 2 * h = t0 + 3 * h by ring, g0, g1] at d0
  rw [show t0 + 2 * h - 2 * h = t0 by ring, show t0 + 2 * h - h = t0 + h by ring,
    show t0 + 2 * h + h = t0 + 3 * h by ring, g0, g1] at d1
  have db : ∀ k : ℕ, k + 3 ≤ m → |6 / 11 * (h * f (t0 + ((k + 3 : ℕ) : ℝ) * h)) -
      (-2 / 11 * g 0 (t0 + k * h) + 9 / 11 * g 0 (t0 + ((k + 1 : ℕ) : ℝ) * h)
        - 18 / 11 * g 0 (t0 + ((k + 2 : ℕ) : ℝ) * h) + g 0 (t0 + ((k + 3 : ℕ) : ℝ) * h))|
        ≤ 27 / 22 * (K * h ^ 4) := by
    intro k hk
    have c1 := (hmem k (by omega)).1
    have c2 := (hmem (k + 3) hk).2
    have := defect_bdf hg hK' hh (t0 + ((k + 3 : ℕ) : ℝ) * h) (by push_cast; linarith) c2
    rw [g1] at this
    convert this using 7 <;> push_cast <;> ring
  have st := bdf_stable (m := m) e
    (fun k => match k with
      | 0 => 0
      | 1 => h * f (t0 + h) - (-1 / 3 * 0 - 1 / 2 * g 0 (t0 + h) + g 0 (t0 + 2 * h)
          - 1 / 6 * g 0 (t0 + 3 * h))
      | 2 => h * f (t0 + 2 * h) - (1 / 6 * 0 - g 0 (t0 + h) + 1 / 2 * g 0 (t0 + 2 * h)
          + 1 / 3 * g 0 (t0 + 3 * h))
      | k + 3 => 6 / 11 * (h * f (t0 + ((k + 3 : ℕ) : ℝ) * h)) -
          (-2 / 11 * g 0 (t0 + k * h) + 9 / 11 * g 0 (t0 + ((k + 1 : ℕ) : ℝ) * h)
          - 18 / 11 * g 0 (t0 + ((k + 2 : ℕ) : ℝ) * h) + g 0 (t0 + ((k + 3 : ℕ) : ℝ) * h)))
    (K * h ^ 4 / 6) (27 / 22 * (K * h ^ 4)) (27 / 4 * (K * h ^ 4)) e0
    (by simp only [he, hx, bdfRun]; norm_num; ring)
    (by simp only [he, hx, bdfRun]; norm_num; ring)
    (by simp only [he, hx, bdfRun]; norm_num [g0]; ring)
    (fun k _ => by
      simp only [he, hx]
      rw [bdfRun]
      ring)
    d0 d1
    (fun k h3 hk => by
      obtain ⟨j, rfl⟩ : ∃ j, k = j + 3 := ⟨k - 3, by omega⟩
      exact db j hk)
    hm
    (by
      have : 0 ≤ K * h ^ 4 := mul_nonneg ((abs_nonneg _).trans (hK' _ (hmem 0 (by omega)))) (by positivity)
      linarith)
    (by linarith)
  have fin := abs_le_of_steps e _ e0 st a (Nat.lt_succ_iff.1 a.2)
  refine le_of_eq_of_le ?_ (fin.trans (le_of_eq (by ring)))
  simp only [he, hgdef, chain]
  congr 1
  ring

/-- Common part of the Simpson error bounds. -/
theorem simpson_steps {f : ℝ → ℝ} (hf : ContDiff ℝ 3 f) {t0 h K : ℝ} (hh : 0 ≤ h)
    (hK : ∀ s ∈ Icc t0 (t0 + m * h), |iteratedDeriv 3 f s| ≤ K) (hm : m % 2 = 0) (k : ℕ) (hk : k + 1 ≤ m) :
    |h * (simRun (fun k => f (t0 + k * h)) (k + 1) - simRun (fun k => f (t0 + k * h)) k)
      - ((∫ s in t0..(t0 + ((k + 1 : ℕ) : ℝ) * h), f s) - ∫ s in t0..(t0 + k * h), f s)|
      ≤ K * h ^ 4 / 8 := by
  set g := chain 0 t0 f with hgdef
  have hg : ∀ i < 4, ∀ t, HasDerivAt (g i) (g (i + 1) t) t := chain_deriv hf 0 t0
  have g0 : ∀ s, (∫ s in t0..s, f s) = g 0 s := fun s => by simp [hgdef, chain]
  have g1 : ∀ s, f s = g 1 s := fun s => by simp [hgdef, chain]
  have hmem := fun (k : ℕ) (hk : k ≤ m) => node_mem (t0 := t0) hh hk
  rcases Nat.even_or_odd' k with ⟨j, rfl | rfl⟩
  · have c1 := (hmem (2 * j) (by omega)).1
    have c2 := (hmem (2 * j + 2) (by omega)).2
    push_cast at c1 c2
    have := defect_half hg hK hh (t0 + ((2 * j + 1 : ℕ) : ℝ) * h) (by push_cast; linarith)
      (by push_cast; linarith)
    rw [show t0 + ((2 * j + 1 : ℕ) : ℝ) * h - h = t0 + ((2 * j : ℕ) : ℝ) * h by push_cast; ring,
      show t0 + ((2 * j + 1 : ℕ) : ℝ) * h + h = t0 + ((2 * j + 2 : ℕ) : ℝ) * h by push_cast; ring] at this
    rw [simRun_even, g0, g0]
    simp only [g1]
    exact this
  · have c1 := (hmem (2 * j) (by omega)).1
    have c2 := (hmem (2 * j + 2) (by omega)).2
    push_cast at c1 c2
    have := defect_half' hg hK hh (t0 + ((2 * j + 1 : ℕ) : ℝ) * h) (by push_cast; linarith)
      (by push_cast; linarith)
    rw [show t0 + ((2 * j + 1 : ℕ) : ℝ) * h - h = t0 + ((2 * j : ℕ) : ℝ) * h by push_cast; ring,
      show t0 + ((2 * j + 1 : ℕ) : ℝ) * h + h = t0 + ((2 * j + 2 : ℕ) : ℝ) * h by push_cast; ring] at this
    rw [simRun_odd, g0, g0]
    simp only [g1]
    exact this

/-- C98.  Error of the Simpson integrator for a rate with three continuous derivatives, at every node. -/
theorem C98_simpson_error_c3 (hM : methodMatrix .simpson m = some M) (f : ℝ → ℝ) (hf : ContDiff ℝ 3 f)
    (t : TimeInput ℝ) (hh : 0 ≤ t.step m) (t0 q0 K : ℝ)
    (hK : ∀ s ∈ Icc t0 (t0 + m * t.step m), |iteratedDeriv 3 f s| ≤ K) (a : Fin (m + 1)) :
    |integratorCompute M q0 t (fun b => f (t0 + (b : ℕ) * t.step m)) a
        - (q0 + ∫ s in t0..(t0 + (a : ℕ) * t.step m), f s)|
      ≤ 1 / 8 * K * t.step m ^ 3 * ((a : ℕ) * t.step m) := by
  obtain ⟨hm, rfl⟩ := methodMatrix_simpson.1 hM
  rw [integratorCompute_eq, simRun_eq hm (fun k => f (t0 + k * t.step m))]
  revert hK hh
  generalize t.step m = h
  intro hh hK
  have fin := abs_le_of_steps (m := m)
    (fun k => h * simRun (fun k => f (t0 + k * h)) k - ∫ s in t0..(t0 + k * h), f s)
    (K * h ^ 4 / 8) (by simp [simRun])
    (fun k hk => by
      refine le_of_eq_of_le ?_ (simpson_steps hf hh hK hm k hk)
      congr 1
      ring) a (Nat.lt_succ_iff.1 a.2)
  refine le_of_eq_of_le ?_ (fin.trans (le_of_eq (by ring)))
  congr 1
  ring

theorem simpson_even_error {f : ℝ → ℝ} (hf : ContDiff ℝ 4 f) {t0 h K : ℝ} (hh : 0 ≤ h)
    (hK : ∀ s ∈ Icc t0 (t0 + m * h), |iteratedDeriv 4 f s| ≤ K) (k : ℕ) (hk : 2 * k ≤ m) :
    |h * simRun (fun k => f (t0 + k * h)) (2 * k) - ∫ s in t0..(t0 + ((2 * k : ℕ) : ℝ) * h), f s|
      ≤ k * (K * h ^ 5 / 90) := by
  set g := chain 0 t0 f with hgdef
  have hg : ∀ i < 5, ∀ t, HasDerivAt (g i) (g (i + 1) t) t := chain_deriv hf 0 t0
  have g0 : ∀ s, (∫ s in t0..s, f s) = g 0 s := fun s => by simp [hgdef, chain]
  have g1 : ∀ s, f s = g 1 s := fun s => by simp [hgdef, chain]
  have hmem := fun (k : ℕ) (hk : k ≤ m) => node_mem (t0 := t0) hh hk
  induction k with
  | zero => simp [simRun]
  | succ k ih =>
    have c1 := (hmem (2 * k) (by omega)).1
    have c2 := (hmem (2 * k + 2) (by omega)).2
    push_cast at c1 c2
    have := defect_simpson hg hK hh (t0 + ((2 * k + 1 : ℕ) : ℝ) * h) (by push_cast; linarith)
      (by push_cast; linarith)
    have i1 := abs_le.1 (ih (by omega))
    have i2 := simRun_pair (fun k => f (t0 + k * h)) k
    rw [show t0 + ((2 * k + 1 : ℕ) : ℝ) * h - h = t0 + ((2 * k : ℕ) : ℝ) * h by push_cast; ring,
      show t0 + ((2 * k + 1 : ℕ) : ℝ) * h + h = t0 + ((2 * k + 2 : ℕ) : ℝ) * h by push_cast; ring,
      ← g0, ← g0, ← g1, ← g1, ← g1] at this
    rw [show 2 * (k + 1) = 2 * k + 2 by ring]
    have i3 := abs_le.1 this
    rw [← i2] at i3
    rw [abs_le]
    push_cast at *
    constructor <;> linarith

/-- C98.  Simpson's rule is of fourth order at every node: the classical bound at the even nodes, and one
extra local term at the midpoints of the intervals.  `K₃`, `K₄` bound the third and fourth derivative of
the rate. -/
theorem C98_simpson_error (hM : methodMatrix .simpson m = some M) (f : ℝ → ℝ) (hf : ContDiff ℝ 4 f)
    (t : TimeInput ℝ) (hh : 0 ≤ t.step m) (t0 q0 K₃ K₄ : ℝ)
    (hK₃ : ∀ s ∈ Icc t0 (t0 + m * t.step m), |iteratedDeriv 3 f s| ≤ K₃)
    (hK₄ : ∀ s ∈ Icc t0 (t0 + m * t.step m), |iteratedDeriv 4 f s| ≤ K₄) (a : Fin (m + 1)) :
    |integratorCompute M q0 t (fun b => f (t0 + (b : ℕ) * t.step m)) a
        - (q0 + ∫ s in t0..(t0 + (a : ℕ) * t.step m), f s)|
      ≤ K₄ * t.step m ^ 4 * ((a : ℕ) * t.step m) / 180
        + if (a : ℕ) % 2 = 0 then 0 else K₃ * t.step m ^ 4 / 8 := by
  obtain ⟨hm, rfl⟩ := methodMatrix_simpson.1 hM
  rw [integratorCompute_eq, simRun_eq hm (fun k => f (t0 + k * t.step m))]
  revert hK₃ hK₄ hh
  generalize t.step m = h
  intro hh hK₃ hK₄
  have ha := Nat.lt_succ_iff.1 a.2
  generalize (a : ℕ) = n at *
  have hr : simRun (fun k => f (t0 + k * h)) n * h + q0 - (q0 + ∫ s in t0..(t0 + (n : ℝ) * h), f s)
      = h * simRun (fun k => f (t0 + k * h)) n - ∫ s in t0..(t0 + (n : ℝ) * h), f s := by ring
  rw [hr]
  have hK4 : 0 ≤ K₄ := (abs_nonneg _).trans (hK₄ _ (node_mem hh (Nat.zero_le m)))
  rcases Nat.even_or_odd' n with ⟨j, rfl | rfl⟩
  · have := simpson_even_error hf hh hK₄ j ha
    rw [if_pos (by omega), add_zero]
    refine this.trans (le_of_eq ?_)
    push_cast; ring
  · have h1 := abs_le.1 (simpson_even_error hf hh hK₄ j (by omega))
    have h2 := abs_le.1 (simpson_steps (hf.of_le (by norm_num)) hh hK₃ hm (2 * j) ha)
    have h3 : 0 ≤ K₄ * h ^ 5 := by positivity
    rw [if_neg (by omega), abs_le]
    push_cast at *
    constructor <;> nlinarith only [h1, h2, h3]

/-- C98.  Both integrators are stable: errors in the rate enter the state with a factor that does not
depend on the number of nodes. -/
theorem C98_stable {method : Method} (hM : methodMatrix method m = some M) (t : TimeInput ℝ)
    (hh : 0 ≤ t.step m) (q0 ε : ℝ) (r r' : Fin (m + 1) → ℝ) (hr : ∀ b, |r b - r' b| ≤ ε)
    (a : Fin (m + 1)) :
    |integratorCompute M q0 t r a - integratorCompute M q0 t r' a|
      ≤ (if method = .bdf3 then 11 / 3 else 7 / 6) * ((a : ℕ) * t.step m) * ε := by
  have hε : 0 ≤ ε := (abs_nonneg _).trans (hr 0)
  have hlin : integratorCompute M q0 t r a - integratorCompute M q0 t r' a
      = (M *ᵥ fun b => r b - r' b) a * t.step m := by
    rw [integratorCompute_eq, integratorCompute_eq]
    have : (M *ᵥ fun b => r b - r' b) = M *ᵥ r - M *ᵥ r' := by
      rw [← Matrix.mulVec_sub]; rfl
    rw [this, Pi.sub_apply]; ring
  rw [hlin]
  generalize t.step m = h at *
  set d : ℕ → ℝ := fun k => if hk : k < m + 1 then r ⟨k, hk⟩ - r' ⟨k, hk⟩ else 0 with hd
  have hd1 : (fun b : Fin (m + 1) => r b - r' b) = fun b : Fin (m + 1) => d b := by
    funext b; simp only [hd]; rw [dif_pos b.2]
  have hd2 : ∀ k, |d k| ≤ ε := by
    intro k; simp only [hd]; split_ifs
    · exact hr _
    · simpa using hε
  rw [hd1, abs_mul, abs_of_nonneg hh]
  have ha := Nat.lt_succ_iff.1 a.2
  cases method with
  | bdf3 =>
    obtain ⟨_, hm, rfl⟩ := methodMatrix_bdf3.1 hM
    rw [bdfRun_eq hm d]
    have st := bdf_stable (m := m) (bdfRun d)
      (fun k => if k = 1 then d 1 else if k = 2 then d 2 else 6 / 11 * d k) ε (6 / 11 * ε) (11 / 3 * ε)
      (by simp [bdfRun])
      (by simp only [bdfRun]; norm_num; ring) (by simp only [bdfRun]; norm_num; ring)
      (by simp only [bdfRun]; norm_num; ring)
      (fun k _ => by rw [if_neg (by omega), if_neg (by omega), bdfRun]; ring)
      (by simpa using hd2 1) (by simpa using hd2 2)
      (fun k h3 _ => by
        rw [if_neg (by omega), if_neg (by omega), abs_mul, abs_of_nonneg (by norm_num)]
        linarith [hd2 k])
      hm (by linarith) (by linarith)
    have := abs_le_of_steps _ _ (by simp [bdfRun]) st a ha
    have := mul_le_mul_of_nonneg_right this hh
    rw [if_pos rfl]
    linarith
  | simpson =>
    obtain ⟨hm, rfl⟩ := methodMatrix_simpson.1 hM
    rw [simRun_eq hm d]
    have := abs_le_of_steps (m := m) (simRun d) (7 / 6 * ε) (by simp [simRun])
      (fun k _ => by
        rcases Nat.even_or_odd' k with ⟨j, rfl | rfl⟩
        · have h1 := abs_le.1 (hd2 (2 * j))
          have h2 := abs_le.1 (hd2 (2 * j + 1))
          have h3 := abs_le.1 (hd2 (2 * j + 2))
          rw [simRun_even, abs_le]; constructor <;> linarith
        · have h1 := abs_le.1 (hd2 (2 * j))
          have h2 := abs_le.1 (hd2 (2 * j + 1))
          have h3 := abs_le.1 (hd2 (2 * j + 2))
          rw [simRun_odd, abs_le]; constructor <;> linarith) a ha
    have := mul_le_mul_of_nonneg_right this hh
    rw [if_neg (by decide)]
    linarith

end

/-- C98.  Convergence: for every rate that is continuous over the phase, the whole history computed by
either integrator converges, uniformly over the nodes, to the exact integral when the number of nodes
grows (no smoothness needed). -/
theorem C98_converges (method : Method) (f : ℝ → ℝ) (t0 q0 d : ℝ) (hd : 0 ≤ d)
    (hf : ContinuousOn f (Icc t0 (t0 + d))) (ε : ℝ) (hε : 0 < ε) :
    ∃ N : ℕ, ∀ m, N ≤ m → ∀ M : Matrix (Fin (m + 1)) (Fin (m + 1)) ℝ, methodMatrix method m = some M →
      ∀ a : Fin (m + 1),
        |integratorCompute M q0 (.duration d) (fun b => f (t0 + (b : ℕ) * (d / m))) a
          - (q0 + ∫ s in t0..(t0 + (a : ℕ) * (d / m)), f s)| < ε := by
  obtain ⟨p, hp⟩ := exists_polynomial_near_of_continuousOn t0 (t0 + d) f hf (ε / (10 * (d + 1)))
    (by positivity)
  have hpc : ContDiff ℝ 3 (fun s => p.eval s) := by simpa [Polynomial.coe_aeval_eq_eval] using p.contDiff_aeval (𝕜 := ℝ) 3
  have hcont : Continuous (iteratedDeriv 3 fun s => p.eval s) :=
    hpc.continuous_iteratedDeriv 3 le_rfl
  obtain ⟨K, hK⟩ := (isCompact_Icc (a := t0) (b := t0 + d)).exists_bound_of_continuousOn
    hcont.continuousOn
  have hK0 : 0 ≤ K := (norm_nonneg _).trans (hK t0 ⟨le_rfl, by linarith⟩)
  obtain ⟨N, hN⟩ := exists_nat_gt (27 / 4 * K * d ^ 4 / (ε / 4) + 1)
  refine ⟨N, fun m hm M hM a => ?_⟩
  have hNm : (N : ℝ) ≤ m := Nat.cast_le.2 hm
  have hpos : (1 : ℝ) < m := by
    have : 0 ≤ 27 / 4 * K * d ^ 4 / (ε / 4) := by positivity
    linarith
  have hm0 : (m : ℝ) ≠ 0 := by positivity
  have hT : (m : ℝ) * (d / m) = d := by field_simp
  have hstep : 0 ≤ d / (m : ℝ) := by positivity
  have hK' : ∀ s ∈ Icc t0 (t0 + m * (TimeInput.duration d).step m), |iteratedDeriv 3 (fun s => p.eval s) s| ≤ K := by
    intro s hs
    simp only [TimeInput.step, hT] at hs
    exact hK s hs
  have hah : (a : ℕ) * (d / m) ≤ d := by
    have h1 : ((a : ℕ) : ℝ) ≤ m := Nat.cast_le.2 (Nat.lt_succ_iff.1 a.2)
    calc ((a : ℕ) : ℝ) * (d / m) ≤ m * (d / m) := mul_le_mul_of_nonneg_right h1 hstep
      _ = d := hT
  have hah0 : 0 ≤ ((a : ℕ) : ℝ) * (d / m) := by positivity
  -- error of the scheme for the polynomial
  have e1 : |integratorCompute M q0 (.duration d) (fun b => p.eval (t0 + (b : ℕ) * (d / m))) a
      - (q0 + ∫ s in t0..(t0 + (a : ℕ) * (d / m)), p.eval s)| ≤ ε / 4 := by
    have : |integratorCompute M q0 (.duration d) (fun b => p.eval (t0 + (b : ℕ) * (d / m))) a
      - (q0 + ∫ s in t0..(t0 + (a : ℕ) * (d / m)), p.eval s)|
        ≤ 27 / 4 * K * (d / m) ^ 3 * ((a : ℕ) * (d / m)) := by
      cases method with
      | bdf3 => exact C98_bdf3_error hM _ hpc (.duration d) hstep t0 q0 K hK' a
      | simpson =>
        refine (C98_simpson_error_c3 hM _ hpc (.duration d) hstep t0 q0 K hK' a).trans ?_
        simp only [TimeInput.step]
        have : 0 ≤ K * (d / m) ^ 3 * ((a : ℕ) * (d / m)) := by positivity
        nlinarith only [this]
    refine this.trans ?_
    have h1 : 27 / 4 * K * (d / m) ^ 3 * ((a : ℕ) * (d / m)) ≤ 27 / 4 * K * (d / m) ^ 3 * d := by
      gcongr
    have h2 : 27 / 4 * K * (d / m) ^ 3 * d ≤ 27 / 4 * K * d ^ 4 / m := by
      have h3 : (m : ℝ) ≤ m ^ 3 := by
        have : 0 ≤ (m : ℝ) * ((m - 1) * (m + 1)) := by
          have : (0 : ℝ) ≤ m - 1 := by linarith
          positivity
        nlinarith only [this]
      have : 27 / 4 * K * (d / m) ^ 3 * d = 27 / 4 * K * d ^ 4 / m ^ 3 := by ring
      rw [this]
      gcongr
    have h4 : 27 / 4 * K * d ^ 4 / m ≤ ε / 4 := by
      rw [div_le_iff₀ (by linarith)]
      have : 27 / 4 * K * d ^ 4 / (ε / 4) < m := by linarith
      rw [div_lt_iff₀ (by positivity)] at this
      linarith
    linarith
  -- effect of replacing the rate by the polynomial
  have hnode : ∀ b : Fin (m + 1), t0 + ((b : ℕ) : ℝ) * (d / m) ∈ Icc t0 (t0 + d) := by
    intro b
    have := node_mem (t0 := t0) hstep (Nat.lt_succ_iff.1 b.2)
    rwa [hT] at this
  have e2 : |integratorCompute M q0 (.duration d) (fun b => f (t0 + (b : ℕ) * (d / m))) a
      - integratorCompute M q0 (.duration d) (fun b => p.eval (t0 + (b : ℕ) * (d / m))) a| ≤ 2 * ε / 5 := by
    have := C98_stable hM (.duration d) hstep q0 (ε / (10 * (d + 1)))
      (fun b => f (t0 + (b : ℕ) * (d / m))) (fun b => p.eval (t0 + (b : ℕ) * (d / m)))
      (fun b => by rw [abs_sub_comm]; exact (hp _ (hnode b)).le) a
    refine this.trans ?_
    have hc : (if method = .bdf3 then (11 / 3 : ℝ) else 7 / 6) ≤ 4 := by
      split_ifs <;> norm_num
    have hc0 : 0 ≤ (if method = .bdf3 then (11 / 3 : ℝ) else 7 / 6) := by
      split_ifs <;> norm_num
    simp only [TimeInput.step]
    calc _ ≤ 4 * (d + 1) * (ε / (10 * (d + 1))) :=
          mul_le_mul_of_nonneg_right (mul_le_mul hc (by linarith) hah0 (by norm_num)) (by positivity)
      _ = 2 * ε / 5 := by field_simp; ring
  -- effect on the exact integral
  have e3 : |(∫ s in t0..(t0 + (a : ℕ) * (d / m)), f s)
      - ∫ s in t0..(t0 + (a : ℕ) * (d / m)), p.eval s| ≤ ε / 10 := by
    have hsub : uIcc t0 (t0 + ((a : ℕ) : ℝ) * (d / m)) ⊆ Icc t0 (t0 + d) := by
      rw [uIcc_of_le (by linarith)]
      exact Icc_subset_Icc_right (by linarith)
    rw [← intervalIntegral.integral_sub ((hf.mono hsub).intervalIntegrable)
      (p.continuous.intervalIntegrable _ _)]
    have := intervalIntegral.norm_integral_le_of_norm_le_const (a := t0)
      (b := t0 + ((a : ℕ) : ℝ) * (d / m)) (C := ε / (10 * (d + 1)))
      (f := fun s => f s - p.eval s) (fun s hs => by
        rw [Real.norm_eq_abs, abs_sub_comm]
        exact (hp s (hsub (uIoc_subset_uIcc hs))).le)
    rw [Real.norm_eq_abs, add_sub_cancel_left, abs_of_nonneg hah0] at this
    refine this.trans ?_
    calc ε / (10 * (d + 1)) * (((a : ℕ) : ℝ) * (d / m)) ≤ ε / (10 * (d + 1)) * (d + 1) := by
          gcongr
          linarith
      _ = ε / 10 := by field_simp
  have k1 := abs_le.1 e1
  have k2 := abs_le.1 e2
  have k3 := abs_le.1 e3
  rw [abs_lt]
  constructor <;> linarith

/-- Instance of C98: the rate `exp` over one second with 11 nodes, whole history within 2.1 %
(BDF3) of the exact state. -/
example (M : Matrix (Fin 11) (Fin 11) ℝ) (hM : methodMatrix .bdf3 10 = some M) (a : Fin 11) :
    |integratorCompute M 1 (.duration 1) (fun b => Real.exp (0 + (b : ℕ) * (1 / 10))) a
      - (1 + ∫ s in (0 : ℝ)..(0 + (a : ℕ) * (1 / 10)), Real.exp s)| ≤ 0.021 := by
  have hs : (TimeInput.duration (1 : ℝ)).step 10 = 1 / 10 := by simp [TimeInput.step]
  have hb : ∀ s ∈ Icc (0 : ℝ) (0 + (10 : ℕ) * (TimeInput.duration (1 : ℝ)).step 10),
      |iteratedDeriv 3 Real.exp s| ≤ 3 := by
    intro s hs'
    rw [hs] at hs'
    rw [iteratedDeriv_eq_iterate, Real.iter_deriv_exp, abs_of_pos (Real.exp_pos s)]
    have h1 : s ≤ 1 := by have := hs'.2; norm_num at this; exact this
    have := Real.exp_one_lt_d9
    exact (Real.exp_le_exp.2 h1).trans (by linarith)
  have := C98_bdf3_error hM Real.exp Real.contDiff_exp (.duration 1) (by rw [hs]; norm_num) 0 1 3 hb a
  rw [hs] at this
  refine this.trans ?_
  have ha : ((a : ℕ) : ℝ) ≤ 10 := by exact_mod_cast Nat.lt_succ_iff.1 a.2
  norm_num
  linarith

/-- Instance of C98: the convergence theorem applies to rates without any derivative at a point, such as a
throttle ramp `|s - 1|`. -/
example (ε : ℝ) (hε : 0 < ε) : ∃ N : ℕ, ∀ m, N ≤ m → ∀ M : Matrix (Fin (m + 1)) (Fin (m + 1)) ℝ,
    methodMatrix .simpson m = some M → ∀ a : Fin (m + 1),
      |integratorCompute M 0 (.duration 2) (fun b => |(0 + (b : ℕ) * (2 / m) : ℝ) - 1|) a
        - (0 + ∫ s in (0 : ℝ)..(0 + (a : ℕ) * (2 / m)), |s - 1|)| < ε :=
  C98_converges .simpson (fun s => |s - 1|) 0 0 2 (by norm_num)
    ((continuous_abs.comp (continuous_id.sub continuous_const)).continuousOn) ε hε

end Verif.Integrals
