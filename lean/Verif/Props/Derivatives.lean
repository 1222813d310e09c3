import Verif.Proof.Derivatives
import Verif.Props.Integrals
import Verif.Proof.HDeriv

/-! Properties C09 - C11: finite difference differentiation. -/

namespace Verif.Derivatives

open Finset Polynomial

/-! ### C09 -/

/-- C09.  Order 4: on samples of polynomials of degree at most 4 (one per segment) the result is the
exact derivative at every node. -/
theorem C09_order4_exact {S n : ℕ} (hn : 2 ≤ n) (dts : Fin S → ℝ) (hdt : ∀ i, dts i ≠ 0)
    (p : Fin S → ℝ[X]) (hp : ∀ i, (p i).natDegree ≤ 4) (t0 : Fin S → ℝ) (i : Fin S) (a : Fin (2 * n + 1)) :
    firstDeriv .four dts (fun j b => (p j).eval (t0 j + (b : ℕ) * dts j)) i a
      = (p i).derivative.eval (t0 i + (a : ℕ) * dts i) := by
  rw [firstDeriv_eq, stencil_apply (o := .four) hn (fun k => (p i).eval (t0 i + k * dts i)),
    row4_apply hn (fun k => (p i).eval (t0 i + k * dts i))]
  have hd := hdt i
  have ha := a.isLt
  simp only [eval_quartic (hp i), eval_deriv_quartic (hp i)]
  generalize dts i = h at *
  generalize t0 i = t
  obtain ⟨k, rfl⟩ : ∃ k, n = k + 2 := ⟨n - 2, by omega⟩
  have c0 : 2 * (k + 2) - 4 = 2 * k := by omega
  have c1 : 2 * (k + 2) - 3 = 2 * k + 1 := by omega
  have c2 : 2 * (k + 2) - 2 = 2 * k + 2 := by omega
  have c3 : 2 * (k + 2) - 1 = 2 * k + 3 := by omega
  rw [c0, c1, c2, c3]
  split_ifs with h0 h1 h2 h3
  · rw [h0]; push_cast; field_simp; ring
  · rw [h1]; push_cast; field_simp; ring
  · rw [h2]; push_cast; field_simp; ring
  · rw [h3]; push_cast; field_simp; ring
  · obtain ⟨c, hc⟩ : ∃ c, (a : ℕ) = c + 2 := ⟨a - 2, by omega⟩
    have d0 : c + 2 - 2 = c := by omega
    have d1 : c + 2 - 1 = c + 1 := by omega
    rw [hc, d0, d1]; push_cast; field_simp; ring

/-- C09.  Order 2: exact on samples of polynomials of degree at most 2. -/
theorem C09_order2_exact {S n : ℕ} (hn : 1 ≤ n) (dts : Fin S → ℝ) (hdt : ∀ i, dts i ≠ 0)
    (p : Fin S → ℝ[X]) (hp : ∀ i, (p i).natDegree ≤ 2) (t0 : Fin S → ℝ) (i : Fin S) (a : Fin (2 * n + 1)) :
    firstDeriv .two dts (fun j b => (p j).eval (t0 j + (b : ℕ) * dts j)) i a
      = (p i).derivative.eval (t0 i + (a : ℕ) * dts i) := by
  rw [firstDeriv_eq, stencil_apply (o := .two) hn (fun k => (p i).eval (t0 i + k * dts i)),
    row2_apply hn (fun k => (p i).eval (t0 i + k * dts i))]
  have hd := hdt i
  have ha := a.isLt
  have h3 : (p i).coeff 3 = 0 :=
    Polynomial.coeff_eq_zero_of_natDegree_lt (lt_of_le_of_lt (hp i) (by norm_num))
  have hp3 : (p i).natDegree ≤ 3 := (hp i).trans (by norm_num)
  simp only [eval_cubic hp3, eval_deriv_cubic hp3, h3]
  generalize dts i = h at *
  generalize t0 i = t
  obtain ⟨k, rfl⟩ : ∃ k, n = k + 1 := ⟨n - 1, by omega⟩
  have c2 : 2 * (k + 1) - 2 = 2 * k := by omega
  have c3 : 2 * (k + 1) - 1 = 2 * k + 1 := by omega
  rw [c2, c3]
  split_ifs with h0 h1
  · rw [h0]; push_cast; field_simp; ring
  · rw [h1]; push_cast; field_simp; ring
  · obtain ⟨c, hc⟩ : ∃ c, (a : ℕ) = c + 1 := ⟨a - 1, by omega⟩
    have d0 : c + 1 - 1 = c := by omega
    rw [hc, d0]; push_cast; field_simp; ring

/-- The degree bound of the order 2 scheme is sharp at the ends for every number of nodes: for `t³` the
derivative 0 at the first node is reported as `-2 h²` (here `h = 1`). -/
theorem C09_order2_cubic_defect {n : ℕ} (hn : 1 ≤ n) :
    firstDeriv .two (S := 1) (n := n) (fun _ => (1 : ℝ)) (fun _ b => ((b : ℕ) : ℝ) ^ 3) 0 0 = -2 := by
  rw [firstDeriv_eq, stencil_apply (o := .two) hn (fun k => (k : ℝ) ^ 3),
    row2_apply hn (fun k => (k : ℝ) ^ 3)]
  norm_num

example : ∃ dts : Fin 2 → ℝ, ∀ i, dts i ≠ 0 := ⟨![1, 2], by intro i; fin_cases i <;> norm_num⟩

/-! ### C10 -/

section
variable {S n : ℕ}

/-- C10.  A node depends only on the data of its own segment. -/
theorem C10_segment_independent (o : Order) (dts dts' : Fin S → ℝ) (q q' : Fin S → Fin (2 * n + 1) → ℝ)
    (i : Fin S) (h1 : dts i = dts' i) (h2 : q i = q' i) (a : Fin (2 * n + 1)) :
    firstDeriv o dts q i a = firstDeriv o dts' q' i a := by
  rw [firstDeriv_eq, firstDeriv_eq, h1, h2]

/-- C10.  The result is linear in the differentiated quantity. -/
theorem C10_linear (o : Order) (dts : Fin S → ℝ) (q q' : Fin S → Fin (2 * n + 1) → ℝ) (c c' : ℝ)
    (i : Fin S) (a : Fin (2 * n + 1)) :
    firstDeriv o dts (fun j b => c * q j b + c' * q' j b) i a
      = c * firstDeriv o dts q i a + c' * firstDeriv o dts q' i a := by
  simp only [firstDeriv_eq, ← mul_div_assoc, ← add_div, Finset.mul_sum, ← Finset.sum_add_distrib]
  congr 1
  exact Finset.sum_congr rfl fun b _ => by ring

/-- C10.  The assembled sparse Jacobian `d dqdt / d q` is the derivative. -/
theorem C10_partial_q {o : Order} (hn : Admissible o n) (dts : Fin S → ℝ)
    (q : Fin S → Fin (2 * n + 1) → ℝ) (i j : Fin S) (a b : Fin (2 * n + 1)) :
    HasDerivAt (fun x => firstDeriv o dts (Function.update q j (Function.update (q j) b x)) i a)
      (dense (partialsQ o n dts) (a + (i : ℕ) * (2 * n + 1)) (b + (j : ℕ) * (2 * n + 1))) (q j b) := by
  rw [dense_partialsQ hn]
  simp only [firstDeriv_eq]
  by_cases h : i = j
  · subst h
    simp only [Function.update_self, if_true]
    have : ∀ x, (∑ c : Fin (2 * n + 1), dense (stencilCoo o (2 * n + 1)) a c * Function.update (q i) b x c)
        = dense (stencilCoo o (2 * n + 1)) a b * x +
          ∑ c ∈ univ.erase b, dense (stencilCoo o (2 * n + 1)) a c * q i c := by
      intro x
      rw [← Finset.add_sum_erase _ _ (Finset.mem_univ b)]
      simp only [Function.update_self]
      congr 1
      exact Finset.sum_congr rfl fun c hc => by rw [Function.update_of_ne (Finset.ne_of_mem_erase hc)]
    simp only [this]
    hderiv
    ring
  · simp only [if_neg h, Function.update_of_ne h]
    exact hasDerivAt_const _ _

/-- C10.  The partials with respect to the time steps are the derivatives. -/
theorem C10_partial_dt (o : Order) (dts : Fin S → ℝ) (hdt : ∀ i, dts i ≠ 0)
    (q : Fin S → Fin (2 * n + 1) → ℝ) (i j : Fin S) (a : Fin (2 * n + 1)) :
    HasDerivAt (fun x => firstDeriv o (Function.update dts j x) q i a) (partialDt o dts q j i a) (dts j) := by
  simp only [firstDeriv_eq, partialDt]
  by_cases h : i = j
  · subst h
    have := hdt i
    simp only [Function.update_self, if_true]
    hderiv
    field_simp
  · simp only [if_neg h, Function.update_of_ne h]
    exact hasDerivAt_const _ _

/-- C10.  The declared coordinates of `d dqdt / d q` lie inside the square matrix. -/
theorem C10_coordinates_in_range {o : Order} (hn : Admissible o n) (dts : Fin S → ℝ) :
    ∀ e ∈ partialsQ o n dts, e.row < S * (2 * n + 1) ∧ e.col < S * (2 * n + 1) := by
  intro e he
  simp only [partialsQ, List.mem_flatMap, List.mem_map] at he
  obtain ⟨i, -, e', he', rfl⟩ := he
  have h1 := coo_row_lt he'
  have h2 := coo_col_lt hn he'
  have h3 : ((i : ℕ) + 1) * (2 * n + 1) ≤ S * (2 * n + 1) := Nat.mul_le_mul_right _ i.isLt
  rw [Nat.add_mul, Nat.one_mul] at h3
  exact ⟨by show e'.row + (i : ℕ) * (2 * n + 1) < _; omega, by show e'.col + (i : ℕ) * (2 * n + 1) < _; omega⟩

/-- C10.  The call is accepted exactly for consistent lengths, order 2 or 4 and enough points. -/
theorem C10_validation (order nseg n lenQ lenDts : ℕ) :
    (∃ o, firstDerivCheck order nseg n lenQ lenDts = .ok o ∧ Admissible o n) ↔
      lenQ = nseg * (2 * n + 1) ∧ lenDts = nseg ∧ ((order = 4 ∧ 2 ≤ n) ∨ (order = 2 ∧ 1 ≤ n)) := by
  unfold firstDerivCheck
  constructor
  · rintro ⟨o, h, ha⟩
    split_ifs at h <;> simp_all <;> omega
  · rintro ⟨h1, h2, h3 | h3⟩
    · exact ⟨.four, by simp [h1, h2, h3]; omega, h3.2⟩
    · refine ⟨.two, ?_, h3.2⟩
      have : n ≠ 0 := by omega
      simp [h1, h2, h3, this]

/-- C10.  Everything else raises. -/
theorem C10_rejects (order nseg n lenQ lenDts : ℕ)
    (h : ¬ (lenQ = nseg * (2 * n + 1) ∧ lenDts = nseg ∧ ((order = 4 ∧ 2 ≤ n) ∨ (order = 2 ∧ 1 ≤ n)))) :
    ∃ e, firstDerivCheck order nseg n lenQ lenDts = .error e := by
  unfold firstDerivCheck
  split_ifs <;> first | exact ⟨_, rfl⟩ | (exfalso; apply h; omega)

example : ∃ o, firstDerivCheck 4 3 5 33 3 = .ok o := ⟨.four, rfl⟩

end

/-! ### C11 -/

section
open Verif.Integrals

/-- C11.  Order 4 differentiation of the (multi-segment) Simpson or BDF3 history of a rate that is
quadratic on each segment returns the rate at every node of every counted segment. -/
theorem C11_round_trip {S n : ℕ} (hn : 2 ≤ n) {method : Method}
    {M : Matrix (Fin (2 * n + 1)) (Fin (2 * n + 1)) ℝ}
    (hM : methodMatrix method (2 * n) = some M) (count : Fin S → Bool) (q0 : ℝ)
    (dts : Fin S → ℝ) (hdt : ∀ i, dts i ≠ 0) (p : Fin S → ℝ[X]) (hp : ∀ i, (p i).natDegree ≤ 2)
    (t0 : Fin S → ℝ) (i : Fin S) (hc : count i = true) (a : Fin (2 * n + 1)) :
    firstDeriv .four dts
      (integrate M count q0 dts fun j b => (p j).eval (t0 j + (b : ℕ) * dts j)) i a
      = (p i).eval (t0 i + (a : ℕ) * dts i) := by
  set r : Fin S → Fin (2 * n + 1) → ℝ := fun j b => (p j).eval (t0 j + (b : ℕ) * dts j) with hr
  -- an antiderivative
  set c : ℝ := integrate M count q0 dts r i 0 with hcdef
  set P : ℝ[X] := C ((p i).coeff 0) * X + C ((p i).coeff 1 / 2) * X ^ 2 + C ((p i).coeff 2 / 3) * X ^ 3 with hP
  have hPdeg : P.natDegree ≤ 3 := by rw [hP]; compute_degree
  have hPd : ∀ x, P.derivative.eval x = (p i).eval x := by
    intro x
    have h3 : (p i).coeff 3 = 0 :=
      Polynomial.coeff_eq_zero_of_natDegree_lt (lt_of_le_of_lt (hp i) (by norm_num))
    rw [eval_cubic ((hp i).trans (by norm_num)), h3, hP]
    simp [derivative_pow]
    ring
  have hQ : ∀ b : Fin (2 * n + 1), integrate M count q0 dts r i b
      = (C (c - P.eval (t0 i)) + P).eval (t0 i + (b : ℕ) * dts i) := by
    intro b
    rw [C04_restart hM count q0 dts r i hc b]
    have : integratorCompute M c (.dt (dts i)) (r i) b
        = c + (P.eval (t0 i + (b : ℕ) * dts i) - P.eval (t0 i)) := by
      cases method with
      | bdf3 =>
        have := C02_bdf3_exact_cubic hM P hPdeg (.dt (dts i)) (t0 i) c b
        simp only [TimeInput.step, hPd] at this
        exact this
      | simpson =>
        have := C01_simpson_exact_quadratic hM (p i) (hp i) (.dt (dts i)) (t0 i) c b
        simp only [TimeInput.step] at this
        rw [hr]
        rw [this, integral_cubic ((hp i).trans (by norm_num))]
        have h3 : (p i).coeff 3 = 0 :=
          Polynomial.coeff_eq_zero_of_natDegree_lt (lt_of_le_of_lt (hp i) (by norm_num))
        rw [h3, hP]
        simp
        ring
    rw [this]
    simp
    ring
  have := C09_order4_exact hn dts hdt (fun j => if j = i then C (c - P.eval (t0 i)) + P else 0)
    (by
      intro j
      split_ifs
      · have : (C (c - P.eval (t0 i)) + P).natDegree ≤ 3 :=
          (natDegree_add_le _ _).trans (max_le (by simp) hPdeg)
        omega
      · simp) t0 i a
  simp only [if_true] at this
  rw [show (C (c - P.eval (t0 i)) + P).derivative = P.derivative by simp, hPd] at this
  rw [← this]
  refine C10_segment_independent _ _ _ _ _ i rfl ?_ a
  funext b
  simp only [if_true]
  exact hQ b

/-- both methods give admissible matrices -/
example : (∃ M : Matrix (Fin 11) (Fin 11) ℝ, methodMatrix .simpson 10 = some M) ∧
    ∃ M : Matrix (Fin 11) (Fin 11) ℝ, methodMatrix .bdf3 10 = some M :=
  ⟨⟨_, methodMatrix_simpson.2 ⟨rfl, rfl⟩⟩, ⟨_, methodMatrix_bdf3.2 ⟨rfl, by norm_num, rfl⟩⟩⟩

end

end Verif.Derivatives
