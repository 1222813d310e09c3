import Verif.Proof.Integrals
import Verif.Proof.PolyAux
import Mathlib.Analysis.SpecialFunctions.Integrals.Basic

/-! Properties C01 - C04: accuracy, linearity and segment structure of the integrators. -/

namespace Verif.Integrals

open Matrix Finset Polynomial

/-! ### C01 -/

/-- C01.  The Simpson integrator is exact at every node for rates of degree at most 2.
`methodMatrix .simpson m = some M` says that the component with `num_nodes = m + 1` exists
(`m` even); `t.step m` is the step for any of the three `time_setup` modes. -/
theorem C01_simpson_exact_quadratic {m : ℕ} {M : Matrix (Fin (m + 1)) (Fin (m + 1)) ℝ}
    (hM : methodMatrix .simpson m = some M) (p : ℝ[X]) (hp : p.natDegree ≤ 2)
    (t : TimeInput ℝ) (t0 q0 : ℝ) (a : Fin (m + 1)) :
    integratorCompute M q0 t (fun b => p.eval (t0 + (b : ℕ) * t.step m)) a
      = q0 + ∫ s in t0..(t0 + (a : ℕ) * t.step m), p.eval s := by
  obtain ⟨hm, rfl⟩ := methodMatrix_simpson.1 hM
  rw [integratorCompute_eq, integral_cubic (by omega)]
  have h3 : p.coeff 3 = 0 := Polynomial.coeff_eq_zero_of_natDegree_lt (by omega)
  generalize t.step m = h
  by_cases hh : h = 0
  · subst hh; simp
  · rw [simpsonTri_eq hm (fun k => ((p.coeff 0 * (t0 + k * h) + p.coeff 1 * (t0 + k * h) ^ 2 / 2 +
        p.coeff 2 * (t0 + k * h) ^ 3 / 3) - (p.coeff 0 * t0 + p.coeff 1 * t0 ^ 2 / 2 +
        p.coeff 2 * t0 ^ 3 / 3)) / h) (fun k => p.eval (t0 + k * h)) (by simp)]
    · rw [h3]; field_simp; ring
    · intro k _
      simp only [eval_cubic (show p.natDegree ≤ 3 by omega), h3]
      push_cast
      field_simp
      ring
    · intro k _
      simp only [eval_cubic (show p.natDegree ≤ 3 by omega), h3]
      push_cast
      field_simp
      ring

/-- C01.  For rates of degree 3 the Simpson integrator is still exact at every even node. -/
theorem C01_simpson_exact_cubic_even {m : ℕ} {M : Matrix (Fin (m + 1)) (Fin (m + 1)) ℝ}
    (hM : methodMatrix .simpson m = some M) (p : ℝ[X]) (hp : p.natDegree ≤ 3)
    (t : TimeInput ℝ) (t0 q0 : ℝ) (a : Fin (m + 1)) (ha : (a : ℕ) % 2 = 0) :
    integratorCompute M q0 t (fun b => p.eval (t0 + (b : ℕ) * t.step m)) a
      = q0 + ∫ s in t0..(t0 + (a : ℕ) * t.step m), p.eval s := by
  obtain ⟨hm, rfl⟩ := methodMatrix_simpson.1 hM
  rw [integratorCompute_eq, integral_cubic (by omega)]
  generalize t.step m = h
  by_cases hh : h = 0
  · subst hh; simp
  · -- at odd nodes the cubic term has the defect `c₃ h⁴ / 4`
    rw [simpsonTri_eq hm (fun k => ((p.coeff 0 * (t0 + k * h) + p.coeff 1 * (t0 + k * h) ^ 2 / 2 +
        p.coeff 2 * (t0 + k * h) ^ 3 / 3 + p.coeff 3 * (t0 + k * h) ^ 4 / 4
          - (if k % 2 = 0 then 0 else p.coeff 3 * h ^ 4 / 4)) -
        (p.coeff 0 * t0 + p.coeff 1 * t0 ^ 2 / 2 +
        p.coeff 2 * t0 ^ 3 / 3 + p.coeff 3 * t0 ^ 4 / 4)) / h) (fun k => p.eval (t0 + k * h)) (by simp)]
    · simp only [ha, if_true]; field_simp; ring
    · intro k _
      simp only [eval_cubic hp]
      have e1 : (2 * k + 1) % 2 = 1 := by omega
      have e2 : (2 * k) % 2 = 0 := by omega
      simp only [e1, e2, one_ne_zero, if_false, if_true]
      push_cast
      field_simp
      ring
    · intro k _
      simp only [eval_cubic hp]
      have e1 : (2 * k + 1) % 2 = 1 := by omega
      have e2 : (2 * k + 2) % 2 = 0 := by omega
      simp only [e1, e2, one_ne_zero, if_false, if_true]
      push_cast
      field_simp
      ring

/-- C01.  The `*_final` output for a cubic rate given over `[t_initial, t_final]`. -/
theorem C01_simpson_final_cubic {m : ℕ} {M : Matrix (Fin (m + 1)) (Fin (m + 1)) ℝ}
    (hM : methodMatrix .simpson m = some M) (hm0 : m ≠ 0) (p : ℝ[X]) (hp : p.natDegree ≤ 3)
    (ti tf q0 : ℝ) :
    integratorFinal M q0 (.bounds ti tf) (fun b => p.eval (ti + (b : ℕ) * ((tf - ti) / m)))
      = q0 + ∫ s in ti..tf, p.eval s := by
  have hm := (methodMatrix_simpson.1 hM).1
  have := C01_simpson_exact_cubic_even hM p hp (.bounds ti tf) ti q0 (Fin.last m) (by simpa using hm)
  unfold integratorFinal
  simp only [TimeInput.step, Fin.val_last] at this
  rw [this]
  congr 2
  have : (m : ℝ) ≠ 0 := by exact_mod_cast hm0
  field_simp
  ring

/-- C01 is about something: the component exists for every even number of steps. -/
example : ∃ M : Matrix (Fin 11) (Fin 11) ℝ, methodMatrix .simpson 10 = some M :=
  ⟨_, methodMatrix_simpson.2 ⟨rfl, rfl⟩⟩

/-- The restriction to even nodes in the cubic case is needed: node 1 of three nodes, rate `t³`. -/
theorem C01_simpson_cubic_odd_defect :
    integratorCompute (simpsonTri 2) (0 : ℝ) (.dt 1) (fun b => ((b : ℕ) : ℝ) ^ 3) 1 ≠
      ∫ s in (0 : ℝ)..1, s ^ 3 := by
  rw [integratorCompute_eq]
  rw [simpsonTri_eq (by norm_num) (fun k => if k = 1 then 0 else if k = 2 then 4 else 0)
    (fun k => (k : ℝ) ^ 3) (by simp)
    (by intro k hk; have : k = 0 := by omega
        subst this; norm_num)
    (by intro k hk; have : k = 0 := by omega
        subst this; norm_num)]
  rw [integral_pow]
  norm_num [TimeInput.step]

/-! ### C02 -/

/-- C02.  The BDF3 matrices are nonsingular for every admissible node count. -/
theorem C02_bdf3_nonsingular {m : ℕ} (hm : 3 ≤ m) :
    IsUnit (bdf3A m : Matrix (Fin m) (Fin m) ℝ).det ∧ IsUnit (allBdfA m : Matrix (Fin m) (Fin m) ℝ).det :=
  ⟨(Matrix.isUnit_iff_isUnit_det _).1 (bdf3A_isUnit hm),
   (Matrix.isUnit_iff_isUnit_det _).1 allBdfA_isUnit⟩

/-- C02.  If the rate is the derivative of a polynomial `q` of degree at most 3, the BDF3 integrator
returns `q` (shifted to the given initial value) at every node. -/
theorem C02_bdf3_exact_cubic {m : ℕ} {M : Matrix (Fin (m + 1)) (Fin (m + 1)) ℝ}
    (hM : methodMatrix .bdf3 m = some M) (q : ℝ[X]) (hq : q.natDegree ≤ 3)
    (t : TimeInput ℝ) (t0 q0 : ℝ) (a : Fin (m + 1)) :
    integratorCompute M q0 t (fun b => q.derivative.eval (t0 + (b : ℕ) * t.step m)) a
      = q0 + (q.eval (t0 + (a : ℕ) * t.step m) - q.eval t0) := by
  obtain ⟨_, hm, rfl⟩ := methodMatrix_bdf3.1 hM
  rw [integratorCompute_eq]
  generalize t.step m = h
  by_cases hh : h = 0
  · subst hh; simp
  · rw [bdf3Tri_eq hm (fun k => (q.eval (t0 + k * h) - q.eval t0) / h)
      (fun k => q.derivative.eval (t0 + k * h)) (by simp)]
    · field_simp; ring
    all_goals
      (try intro k _)
      simp only [eval_cubic hq, eval_deriv_cubic hq]
      push_cast
      field_simp
      ring

/-- C02.  The rate at node 0 has no influence on any output of the BDF3 integrator. -/
theorem C02_bdf3_ignores_first_rate {m : ℕ} {M : Matrix (Fin (m + 1)) (Fin (m + 1)) ℝ}
    (hM : methodMatrix .bdf3 m = some M) (q0 : ℝ) (t : TimeInput ℝ) (r r' : Fin (m + 1) → ℝ)
    (hr : ∀ b, b ≠ 0 → r b = r' b) (a : Fin (m + 1)) :
    integratorCompute M q0 t r a = integratorCompute M q0 t r' a := by
  obtain ⟨_, hm, rfl⟩ := methodMatrix_bdf3.1 hM
  rw [integratorCompute_eq, integratorCompute_eq]
  congr 2
  simp only [bdf3Tri, Bool.false_eq_true, if_false]
  refine Fin.cases ?_ (fun i => ?_) a
  · rw [shiftBoth_zero, shiftBoth_zero]
  · rw [shiftBoth_succ, shiftBoth_succ]
    congr 2
    funext j
    exact hr _ (Fin.succ_ne_zero j)

/-- C02, error branch: with three nodes the BDF3 component cannot be created. -/
theorem C02_bdf3_three_nodes : methodMatrix (K := ℝ) .bdf3 2 = none := by simp [methodMatrix]

/-- C02.  The `all_bdf` start reproduces linear states ... -/
theorem C02_allBdf_exact_linear {m : ℕ} (c0 c1 h q0 : ℝ) (a : Fin (m + 1)) :
    integratorCompute (bdf3Tri true m) q0 (.dt h) (fun _ => c1) a
      = q0 + ((c0 + c1 * ((a : ℕ) * h)) - c0) := by
  rw [integratorCompute_eq]
  rw [allBdfTri_eq (fun k => c1 * k) (fun _ => c1) (by simp) (by simp)
    (by intro _; push_cast; ring) (by intro _; push_cast; ring) (by intro k _; push_cast; ring)]
  simp only [TimeInput.step]
  ring

/-- ... but not quadratic ones, on any grid with at least one step. -/
theorem C02_allBdf_not_exact_quadratic {m : ℕ} (hm : 1 ≤ m) :
    integratorCompute (bdf3Tri true m) (0 : ℝ) (.dt 1) (fun b => 2 * ((b : ℕ) : ℝ)) ⟨1, by omega⟩
      ≠ ((1 : ℕ) : ℝ) ^ 2 := by
  rw [integratorCompute_eq]
  -- the first row of the scheme is backward Euler: x 1 = h * r 1 = 2
  have key : (bdf3Tri true m *ᵥ fun b : Fin (m + 1) => (2 * ((b : ℕ) : ℝ))) ⟨1, by omega⟩ = 2 := by
    obtain ⟨k, rfl⟩ : ∃ k, m = k + 1 := ⟨m - 1, by omega⟩
    simp only [bdf3Tri, if_true]
    have e1 : (⟨1, by omega⟩ : Fin (k + 1 + 1)) = (0 : Fin (k + 1)).succ := rfl
    rw [e1, shiftBoth_succ, ← Matrix.mulVec_mulVec]
    set v := (allBdfB (k + 1) : Matrix _ _ ℝ) *ᵥ fun j : Fin (k + 1) => 2 * (((j.succ : Fin (k + 1 + 1)) : ℕ) : ℝ) with hv
    set y := (allBdfA (k + 1) : Matrix _ _ ℝ)⁻¹ *ᵥ v with hy
    have hA : (allBdfA (k + 1) : Matrix _ _ ℝ) *ᵥ y = v := by
      rw [hy, Matrix.mulVec_mulVec, Matrix.mul_nonsing_inv _
        ((Matrix.isUnit_iff_isUnit_det _).1 allBdfA_isUnit), Matrix.one_mulVec]
    have h0 := congrFun hA 0
    rw [← ext0_eq y, allBdfA_row] at h0
    rw [hv] at h0
    have := allBdfB_row (m := k + 1) (fun j : ℕ => (2 * ((j + 1 : ℕ) : ℝ))) 0
    simp only [Fin.val_succ] at h0
    rw [this] at h0
    simpa [ext0] using h0
  rw [key]
  norm_num [TimeInput.step]

example : ∃ M : Matrix (Fin 5) (Fin 5) ℝ, methodMatrix .bdf3 4 = some M :=
  ⟨_, methodMatrix_bdf3.2 ⟨rfl, by norm_num, rfl⟩⟩

/-! ### C03 -/

/-- C03.  The first node carries the initial value, for every method that can be set up. -/
theorem C03_first_node {method : Method} {m : ℕ} {M : Matrix (Fin (m + 1)) (Fin (m + 1)) ℝ}
    (hM : methodMatrix method m = some M) (q0 : ℝ) (t : TimeInput ℝ) (r : Fin (m + 1) → ℝ) :
    integratorCompute M q0 t r 0 = q0 := by
  rw [integratorCompute_eq]
  have : (M *ᵥ r) 0 = 0 := by
    cases method with
    | bdf3 =>
      obtain ⟨_, hm, rfl⟩ := methodMatrix_bdf3.1 hM
      simp only [bdf3Tri, Bool.false_eq_true, if_false, shiftBoth_zero]
    | simpson =>
      obtain ⟨_, rfl⟩ := methodMatrix_simpson.1 hM
      simp [simpsonTri, Matrix.mulVec, dotProduct]
  rw [this]; ring

/-- C03.  Affine dependence: output of a linear combination of rates and a shifted initial value. -/
theorem C03_affine {m : ℕ} (M : Matrix (Fin (m + 1)) (Fin (m + 1)) ℝ) (t : TimeInput ℝ)
    (q0 q1 c d : ℝ) (r s : Fin (m + 1) → ℝ) (a : Fin (m + 1)) :
    integratorCompute M (c * q0 + d * q1) t (fun b => c * r b + d * s b) a
      = c * integratorCompute M q0 t r a + d * integratorCompute M q1 t s a := by
  simp only [integratorCompute_eq]
  have : (M *ᵥ fun b => c * r b + d * s b) = c • (M *ᵥ r) + d • (M *ᵥ s) := by
    rw [← Matrix.mulVec_smul, ← Matrix.mulVec_smul, ← Matrix.mulVec_add]
    rfl
  rw [this]
  simp only [Pi.add_apply, Pi.smul_apply, smul_eq_mul]
  ring

/-- C03.  Shifting the initial value shifts every node; scaling time scales every increment. -/
theorem C03_shift_and_time_scale {m : ℕ} (M : Matrix (Fin (m + 1)) (Fin (m + 1)) ℝ)
    (q0 δ c h : ℝ) (r : Fin (m + 1) → ℝ) (a : Fin (m + 1)) :
    integratorCompute M (q0 + δ) (.dt h) r a = integratorCompute M q0 (.dt h) r a + δ ∧
    integratorCompute M q0 (.dt (c * h)) r a - q0 = c * (integratorCompute M q0 (.dt h) r a - q0) := by
  simp only [integratorCompute_eq, TimeInput.step]
  constructor <;> ring

/-- C03.  The three time modes agree: `duration = m dt` and `bounds` with `t_final - t_initial = m dt`
give the same history as `dt`. -/
theorem C03_time_modes_agree {m : ℕ} (hm : m ≠ 0) (M : Matrix (Fin (m + 1)) (Fin (m + 1)) ℝ)
    (q0 h ti : ℝ) (r : Fin (m + 1) → ℝ) (a : Fin (m + 1)) :
    integratorCompute M q0 (.duration (m * h)) r a = integratorCompute M q0 (.dt h) r a ∧
    integratorCompute M q0 (.bounds ti (ti + m * h)) r a = integratorCompute M q0 (.dt h) r a := by
  have : (m : ℝ) ≠ 0 := by exact_mod_cast hm
  simp only [integratorCompute_eq, TimeInput.step]
  constructor
  · congr 2; field_simp
  · congr 2; field_simp; ring

/-! ### C04 -/

section segments
variable {S m : ℕ} {method : Method} {M : Matrix (Fin (m + 1)) (Fin (m + 1)) ℝ}

theorem mulVec_first (hM : methodMatrix method m = some M) (r : Fin (m + 1) → ℝ) :
    (M *ᵥ r) 0 = 0 := by
  have := C03_first_node hM 0 (.dt 1) r
  rw [integratorCompute_eq] at this
  simpa [TimeInput.step] using this

/-- C04.  The first node of a segment has the value of the last node of the previous segment
(for any counted/uncounted choice). -/
theorem C04_continuous (hM : methodMatrix method m = some M) (count : Fin S → Bool) (q0 : ℝ)
    (dts : Fin S → ℝ) (dqdt : Fin S → Fin (m + 1) → ℝ) (i i' : Fin S) (hi : (i' : ℕ) = i + 1) :
    integrate M count q0 dts dqdt i' 0 = integrate M count q0 dts dqdt i (Fin.last m) := by
  rw [integrate_eq, integrate_eq]
  congr 1
  refine Finset.sum_congr rfl fun j _ => ?_
  unfold contrib
  rw [mulVec_first hM]
  by_cases hc : count j = true
  · simp only [hc, and_true]
    rcases lt_trichotomy j i with h | h | h
    · rw [if_pos (show j < i' by rw [Fin.lt_def] at *; omega), if_pos h]
    · subst h
      rw [if_pos (show j < i' by rw [Fin.lt_def]; omega), if_neg (lt_irrefl _), if_pos rfl]
    · have h1 : ¬ j < i' := by rw [Fin.lt_def] at *; omega
      have h2 : ¬ j < i := by rw [Fin.lt_def] at *; omega
      have h3 : i ≠ j := by rintro rfl; exact lt_irrefl _ h
      rw [if_neg h1, if_neg h2, if_neg h3]
      split_ifs <;> simp
  · simp [hc]

/-- C04.  A counted segment's history is the single-segment history started from the value with
which the segment begins. -/
theorem C04_restart (hM : methodMatrix method m = some M) (count : Fin S → Bool) (q0 : ℝ)
    (dts : Fin S → ℝ) (dqdt : Fin S → Fin (m + 1) → ℝ) (i : Fin S) (hc : count i = true)
    (a : Fin (m + 1)) :
    integrate M count q0 dts dqdt i a
      = integratorCompute M (integrate M count q0 dts dqdt i 0) (.dt (dts i)) (dqdt i) a := by
  rw [integratorCompute_eq, integrate_eq, integrate_eq, TimeInput.step]
  have : ∑ j, contrib M count dts dqdt i a j
      = (M *ᵥ dqdt i) a * dts i + ∑ j, contrib M count dts dqdt i 0 j := by
    rw [← Finset.sum_erase_add _ _ (Finset.mem_univ i),
      ← Finset.sum_erase_add _ (fun j => contrib M count dts dqdt i 0 j) (Finset.mem_univ i)]
    have e1 : contrib M count dts dqdt i a i = (M *ᵥ dqdt i) a * dts i := by
      simp [contrib, hc]
    have e2 : contrib M count dts dqdt i 0 i = 0 := by
      simp [contrib, hc, mulVec_first hM]
    rw [e1, e2]
    have e3 : ∀ j ∈ Finset.univ.erase i, contrib M count dts dqdt i a j
        = contrib M count dts dqdt i 0 j := by
      intro j hj
      have : i ≠ j := (Finset.ne_of_mem_erase hj).symm
      simp [contrib, this]
    rw [Finset.sum_congr rfl e3]
    ring
  rw [this]; ring

/-- C04.  The first node of the first segment carries the initial value. -/
theorem C04_initial (hM : methodMatrix method m = some M) (count : Fin (S + 1) → Bool) (q0 : ℝ)
    (dts : Fin (S + 1) → ℝ) (dqdt : Fin (S + 1) → Fin (m + 1) → ℝ) :
    integrate M count q0 dts dqdt 0 0 = q0 := by
  rw [integrate_eq]
  have : ∑ j, contrib M count dts dqdt 0 0 j = 0 := by
    refine Finset.sum_eq_zero fun j _ => ?_
    simp [contrib, mulVec_first hM]
  rw [this]; ring

/-- C04.  Across an uncounted segment the state is constant. -/
theorem C04_uncounted_constant (M : Matrix (Fin (m + 1)) (Fin (m + 1)) ℝ) (count : Fin S → Bool)
    (q0 : ℝ) (dts : Fin S → ℝ) (dqdt : Fin S → Fin (m + 1) → ℝ) (i : Fin S) (hc : count i = false)
    (a b : Fin (m + 1)) :
    integrate M count q0 dts dqdt i a = integrate M count q0 dts dqdt i b := by
  rw [integrate_eq, integrate_eq]
  congr 1
  refine Finset.sum_congr rfl fun j _ => ?_
  unfold contrib
  by_cases h : i = j
  · subst h; simp [hc]
  · simp [h]

/-- C04.  An uncounted segment influences nothing: neither its rates nor its time step matter for
any node of any segment. -/
theorem C04_uncounted_no_influence (M : Matrix (Fin (m + 1)) (Fin (m + 1)) ℝ) (count : Fin S → Bool)
    (q0 : ℝ) (dts dts' : Fin S → ℝ) (dqdt dqdt' : Fin S → Fin (m + 1) → ℝ)
    (h1 : ∀ j, count j = true → dts j = dts' j) (h2 : ∀ j, count j = true → dqdt j = dqdt' j)
    (i : Fin S) (a : Fin (m + 1)) :
    integrate M count q0 dts dqdt i a = integrate M count q0 dts' dqdt' i a := by
  rw [integrate_eq, integrate_eq]
  congr 1
  refine Finset.sum_congr rfl fun j _ => ?_
  unfold contrib
  by_cases h : count j = true
  · rw [h1 j h, h2 j h]
  · simp [h]

/-- C04.  Later segments never influence earlier ones. -/
theorem C04_causal (M : Matrix (Fin (m + 1)) (Fin (m + 1)) ℝ) (count : Fin S → Bool)
    (q0 : ℝ) (dts dts' : Fin S → ℝ) (dqdt dqdt' : Fin S → Fin (m + 1) → ℝ) (i : Fin S)
    (h1 : ∀ j ≤ i, dts j = dts' j) (h2 : ∀ j ≤ i, dqdt j = dqdt' j) (a : Fin (m + 1)) :
    integrate M count q0 dts dqdt i a = integrate M count q0 dts' dqdt' i a := by
  rw [integrate_eq, integrate_eq]
  congr 1
  refine Finset.sum_congr rfl fun j _ => ?_
  unfold contrib
  by_cases h : j ≤ i
  · rw [h1 j h, h2 j h]
  · have h3 : ¬ j < i := fun h' => h h'.le
    have h4 : i ≠ j := fun h' => h h'.ge
    simp [h3, h4]

/-- C04.  Which segments count: exactly those named in `segments_to_count` when both lists are
given, all of them otherwise. -/
theorem C04_counted_iff (names : Option (Fin S → String)) (counted : Option (List String)) (j : Fin S) :
    countCol names counted j = true ↔ ∀ nm l, names = some nm → counted = some l → nm j ∈ l := by
  cases names <;> cases counted <;> simp [countCol]

/-- a two-segment configuration with an uncounted first segment -/
example : countCol (S := 2) (some ![("taxi"), ("climb")]) (some ["climb"]) 0 = false ∧
    countCol (S := 2) (some ![("taxi"), ("climb")]) (some ["climb"]) 1 = true := by
  simp [countCol]

end segments

end Verif.Integrals
