import Verif.Proof.Taylor
import Verif.Proof.Derivatives
import Mathlib.Analysis.SpecialFunctions.ExpDeriv
import Mathlib.Analysis.Complex.ExponentialBounds
import Mathlib.Tactic.Linarith
import Mathlib.Tactic.FieldSimp

/-! Property C99: accuracy of the finite difference derivative on smooth histories. -/

namespace Verif.Derivatives

open Set Verif.Taylor

theorem taylor5 {q : ℝ → ℝ} (hq : ContDiff ℝ 5 q) {a b K : ℝ} (hK : ∀ t ∈ Icc a b, |iteratedDeriv 5 q t| ≤ K)
    {c s : ℝ} (hc : c ∈ Icc a b) (hx : c + s ∈ Icc a b) :
    |q (c + s) - (q c + deriv q c * s + iteratedDeriv 2 q c * s ^ 2 / 2 + iteratedDeriv 3 q c * s ^ 3 / 6
      + iteratedDeriv 4 q c * s ^ 4 / 24)| ≤ K * |s| ^ 5 / 120 := by
  have := taylor_bound 5 (fun i => iteratedDeriv i q) a b K (iter_deriv hq) hK hc hx
  simp only [Finset.sum_range_succ, Finset.sum_range_zero, add_sub_cancel_left, Nat.factorial,
    iteratedDeriv_zero, iteratedDeriv_one] at this
  norm_num at this
  exact this

theorem taylor3' {q : ℝ → ℝ} (hq : ContDiff ℝ 3 q) {a b K : ℝ} (hK : ∀ t ∈ Icc a b, |iteratedDeriv 3 q t| ≤ K)
    {c s : ℝ} (hc : c ∈ Icc a b) (hx : c + s ∈ Icc a b) :
    |q (c + s) - (q c + deriv q c * s + iteratedDeriv 2 q c * s ^ 2 / 2)| ≤ K * |s| ^ 3 / 6 := by
  have := taylor_bound 3 (fun i => iteratedDeriv i q) a b K (iter_deriv hq) hK hc hx
  simp only [Finset.sum_range_succ, Finset.sum_range_zero, add_sub_cancel_left, Nat.factorial,
    iteratedDeriv_zero, iteratedDeriv_one] at this
  norm_num at this
  exact this

theorem abs_div_sub_le {E D h B : ℝ} (hh : 0 < h) (H : |E - h * D| ≤ B * h) : |E / h - D| ≤ B := by
  have : E / h - D = (E - h * D) / h := by field_simp
  rw [this, abs_div, abs_of_pos hh, div_le_iff₀ hh]
  exact H

theorem node_mem' {t0 h : ℝ} (hh : 0 ≤ h) {N k : ℕ} (hk : k ≤ N) :
    t0 + k * h ∈ Icc t0 (t0 + N * h) :=
  ⟨by have := mul_nonneg (Nat.cast_nonneg (α := ℝ) k) hh; linarith,
   by have := mul_le_mul_of_nonneg_right (Nat.cast_le (α := ℝ).2 hk) hh; linarith⟩

/-- C99.  The order 4 scheme is fourth order accurate at every node of every segment, including the
one-sided stencils at the segment ends.  `K` bounds the fifth derivative of the history of that
segment. -/
theorem C99_order4_error {S n : ℕ} (hn : 2 ≤ n) (dts : Fin S → ℝ) (i : Fin S) (hdt : 0 < dts i)
    (q : Fin S → ℝ → ℝ) (hq : ContDiff ℝ 5 (q i)) (t0 : Fin S → ℝ) (K : ℝ)
    (hK : ∀ t ∈ Icc (t0 i) (t0 i + (2 * n : ℕ) * dts i), |iteratedDeriv 5 (q i) t| ≤ K)
    (a : Fin (2 * n + 1)) :
    |firstDeriv .four dts (fun j b => q j (t0 j + (b : ℕ) * dts j)) i a
      - deriv (q i) (t0 i + (a : ℕ) * dts i)| ≤ 17 / 3 * K * dts i ^ 4 := by
  rw [firstDeriv_eq, stencil_apply (o := .four) hn (fun k => q i (t0 i + k * dts i)),
    row4_apply hn (fun k => q i (t0 i + k * dts i))]
  generalize dts i = h at *
  generalize t0 i = t at *
  generalize q i = q at *
  have ha := Nat.lt_succ_iff.1 a.isLt
  generalize (a : ℕ) = k at *
  refine abs_div_sub_le hdt ?_
  have T : ∀ (c : ℝ) (s : ℝ), c ∈ Icc t (t + (2 * n : ℕ) * h) → c + s ∈ Icc t (t + (2 * n : ℕ) * h) →
      |q (c + s) - (q c + deriv q c * s + iteratedDeriv 2 q c * s ^ 2 / 2 + iteratedDeriv 3 q c * s ^ 3 / 6
      + iteratedDeriv 4 q c * s ^ 4 / 24)| ≤ K * |s| ^ 5 / 120 := fun c s hc hx => taylor5 hq hK hc hx
  have mem := fun (j : ℕ) (hj : j ≤ 2 * n) => node_mem' (t0 := t) hdt.le hj
  have hK0 : 0 ≤ K * h ^ 5 :=
    mul_nonneg ((abs_nonneg _).trans (hK _ (mem 0 (Nat.zero_le _)))) (by positivity)
  -- Taylor at node `k` for node `k + z`
  have N : ∀ (j : ℕ) (z : ℝ), j ≤ 2 * n → (j : ℝ) = k + z →
      |q (t + j * h) - (q (t + k * h) + deriv q (t + k * h) * (z * h)
        + iteratedDeriv 2 q (t + k * h) * (z * h) ^ 2 / 2 + iteratedDeriv 3 q (t + k * h) * (z * h) ^ 3 / 6
        + iteratedDeriv 4 q (t + k * h) * (z * h) ^ 4 / 24)| ≤ |z| ^ 5 / 120 * (K * h ^ 5) := by
    intro j z hj hz
    have e : t + (j : ℝ) * h = t + k * h + z * h := by rw [hz]; ring
    have := T (t + k * h) (z * h) (mem k ha) (by rw [← e]; exact mem j hj)
    rw [abs_mul, abs_of_pos hdt] at this
    rw [e]
    exact this.trans (le_of_eq (by ring))
  obtain ⟨l, rfl⟩ : ∃ l, n = l + 2 := ⟨n - 2, by omega⟩
  have c0 : 2 * (l + 2) - 4 = 2 * l := by omega
  have c1 : 2 * (l + 2) - 3 = 2 * l + 1 := by omega
  have c2 : 2 * (l + 2) - 2 = 2 * l + 2 := by omega
  have c3 : 2 * (l + 2) - 1 = 2 * l + 3 := by omega
  rw [c0, c1, c2, c3]
  have hB : 17 / 3 * K * h ^ 4 * h = 17 / 3 * (K * h ^ 5) := by ring
  rw [hB]
  split_ifs with h0 h1 h2 h3
  · subst h0
    have n1 := N 1 1 (by omega) (by norm_num)
    have n2 := N 2 2 (by omega) (by norm_num)
    have n3 := N 3 3 (by omega) (by norm_num)
    have n4 := N 4 4 (by omega) (by norm_num)
    simp only [Nat.abs_ofNat, abs_one] at n1 n2 n3 n4
    generalize K * h ^ 5 = KK at *
    rw [abs_le] at *
    constructor <;> linarith only [n1, n2, n3, n4, hK0]
  · subst h1
    have n1 := N 0 (-1) (by omega) (by norm_num)
    have n2 := N 2 1 (by omega) (by norm_num)
    have n3 := N 3 2 (by omega) (by norm_num)
    have n4 := N 4 3 (by omega) (by norm_num)
    simp only [abs_neg, Nat.abs_ofNat, abs_one] at n1 n2 n3 n4
    generalize K * h ^ 5 = KK at *
    rw [abs_le] at *
    constructor <;> linarith only [n1, n2, n3, n4, hK0]
  · subst h2
    have n1 := N (2 * l) (-3) (by omega) (by push_cast; ring)
    have n2 := N (2 * l + 1) (-2) (by omega) (by push_cast; ring)
    have n3 := N (2 * l + 2) (-1) (by omega) (by push_cast; ring)
    have n4 := N (2 * (l + 2)) 1 (by omega) (by push_cast; ring)
    simp only [abs_neg, Nat.abs_ofNat, abs_one] at n1 n2 n3 n4
    generalize K * h ^ 5 = KK at *
    rw [abs_le] at *
    constructor <;> linarith only [n1, n2, n3, n4, hK0]
  · subst h3
    have n1 := N (2 * l) (-4) (by omega) (by push_cast; ring)
    have n2 := N (2 * l + 1) (-3) (by omega) (by push_cast; ring)
    have n3 := N (2 * l + 2) (-2) (by omega) (by push_cast; ring)
    have n4 := N (2 * l + 3) (-1) (by omega) (by push_cast; ring)
    simp only [abs_neg, Nat.abs_ofNat, abs_one] at n1 n2 n3 n4
    generalize K * h ^ 5 = KK at *
    rw [abs_le] at *
    constructor <;> linarith only [n1, n2, n3, n4, hK0]
  · obtain ⟨c, rfl⟩ : ∃ c, k = c + 2 := ⟨k - 2, by omega⟩
    have d0 : c + 2 - 2 = c := by omega
    have d1 : c + 2 - 1 = c + 1 := by omega
    rw [d0, d1]
    have n1 := N c (-2) (by omega) (by push_cast; ring)
    have n2 := N (c + 1) (-1) (by omega) (by push_cast; ring)
    have n3 := N (c + 2 + 1) 1 (by omega) (by push_cast; ring)
    have n4 := N (c + 2 + 2) 2 (by omega) (by push_cast; ring)
    simp only [abs_neg, Nat.abs_ofNat, abs_one] at n1 n2 n3 n4
    generalize K * h ^ 5 = KK at *
    rw [abs_le] at *
    constructor <;> linarith only [n1, n2, n3, n4, hK0]

/-- C99.  The order 2 scheme is second order accurate at every node. -/
theorem C99_order2_error {S n : ℕ} (hn : 1 ≤ n) (dts : Fin S → ℝ) (i : Fin S) (hdt : 0 < dts i)
    (q : Fin S → ℝ → ℝ) (hq : ContDiff ℝ 3 (q i)) (t0 : Fin S → ℝ) (K : ℝ)
    (hK : ∀ t ∈ Icc (t0 i) (t0 i + (2 * n : ℕ) * dts i), |iteratedDeriv 3 (q i) t| ≤ K)
    (a : Fin (2 * n + 1)) :
    |firstDeriv .two dts (fun j b => q j (t0 j + (b : ℕ) * dts j)) i a
      - deriv (q i) (t0 i + (a : ℕ) * dts i)| ≤ K * dts i ^ 2 := by
  rw [firstDeriv_eq, stencil_apply (o := .two) hn (fun k => q i (t0 i + k * dts i)),
    row2_apply hn (fun k => q i (t0 i + k * dts i))]
  generalize dts i = h at *
  generalize t0 i = t at *
  generalize q i = q at *
  have ha := Nat.lt_succ_iff.1 a.isLt
  generalize (a : ℕ) = k at *
  refine abs_div_sub_le hdt ?_
  have mem := fun (j : ℕ) (hj : j ≤ 2 * n) => node_mem' (t0 := t) hdt.le hj
  have hK0 : 0 ≤ K * h ^ 3 :=
    mul_nonneg ((abs_nonneg _).trans (hK _ (mem 0 (Nat.zero_le _)))) (by positivity)
  have N : ∀ (j : ℕ) (z : ℝ), j ≤ 2 * n → (j : ℝ) = k + z →
      |q (t + j * h) - (q (t + k * h) + deriv q (t + k * h) * (z * h)
        + iteratedDeriv 2 q (t + k * h) * (z * h) ^ 2 / 2)| ≤ |z| ^ 3 / 6 * (K * h ^ 3) := by
    intro j z hj hz
    have e : t + (j : ℝ) * h = t + k * h + z * h := by rw [hz]; ring
    have := taylor3' hq hK (c := t + k * h) (s := z * h) (mem k ha) (by rw [← e]; exact mem j hj)
    rw [abs_mul, abs_of_pos hdt] at this
    rw [e]
    exact this.trans (le_of_eq (by ring))
  obtain ⟨l, rfl⟩ : ∃ l, n = l + 1 := ⟨n - 1, by omega⟩
  have c2 : 2 * (l + 1) - 2 = 2 * l := by omega
  have c3 : 2 * (l + 1) - 1 = 2 * l + 1 := by omega
  rw [c2, c3]
  have hB : K * h ^ 2 * h = K * h ^ 3 := by ring
  rw [hB]
  split_ifs with h0 h1
  · subst h0
    have n1 := N 1 1 (by omega) (by norm_num)
    have n2 := N 2 2 (by omega) (by norm_num)
    simp only [Nat.abs_ofNat, abs_one] at n1 n2
    generalize K * h ^ 3 = KK at *
    rw [abs_le] at *
    constructor <;> linarith only [n1, n2, hK0]
  · subst h1
    have n1 := N (2 * l) (-2) (by omega) (by push_cast; ring)
    have n2 := N (2 * l + 1) (-1) (by omega) (by push_cast; ring)
    simp only [abs_neg, Nat.abs_ofNat, abs_one] at n1 n2
    generalize K * h ^ 3 = KK at *
    rw [abs_le] at *
    constructor <;> linarith only [n1, n2, hK0]
  · obtain ⟨c, rfl⟩ : ∃ c, k = c + 1 := ⟨k - 1, by omega⟩
    have d0 : c + 1 - 1 = c := by omega
    rw [d0]
    have n1 := N c (-1) (by omega) (by push_cast; ring)
    have n2 := N (c + 1 + 1) 1 (by omega) (by push_cast; ring)
    simp only [abs_neg, abs_one] at n1 n2
    generalize K * h ^ 3 = KK at *
    rw [abs_le] at *
    constructor <;> linarith only [n1, n2, hK0]

/-- C99.  The differentiator amplifies errors in the history by at most a fixed multiple of `1/dt`
(order 4), so the accuracy bound degrades gracefully for histories that are themselves approximate. -/
theorem C99_order4_noise {S n : ℕ} (hn : 2 ≤ n) (dts : Fin S → ℝ) (i : Fin S) (hdt : 0 < dts i)
    (q q' : Fin S → Fin (2 * n + 1) → ℝ) (ε : ℝ) (hε : ∀ b, |q i b - q' i b| ≤ ε) (a : Fin (2 * n + 1)) :
    |firstDeriv .four dts q i a - firstDeriv .four dts q' i a| ≤ 32 / 3 * ε / dts i := by
  have hlin : firstDeriv .four dts q i a - firstDeriv .four dts q' i a
      = (∑ b : Fin (2 * n + 1), dense (stencilCoo .four (2 * n + 1)) a b * (q i b - q' i b)) / dts i := by
    rw [firstDeriv_eq, firstDeriv_eq, ← sub_div, ← Finset.sum_sub_distrib]
    congr 1
    exact Finset.sum_congr rfl fun b _ => by ring
  set d : ℕ → ℝ := fun k => if hk : k < 2 * n + 1 then q i ⟨k, hk⟩ - q' i ⟨k, hk⟩ else 0 with hd
  have hε0 : 0 ≤ ε := (abs_nonneg _).trans (hε a)
  have hd1 : ∀ b : Fin (2 * n + 1), q i b - q' i b = d b := by
    intro b; simp only [hd]; rw [dif_pos b.2]
  have hd2 : ∀ k, |d k| ≤ ε := by
    intro k; simp only [hd]; split_ifs
    · exact hε _
    · simpa using hε0
  simp only [hd1] at hlin
  rw [stencil_apply (o := .four) hn d, row4_apply hn d] at hlin
  rw [hlin, abs_div, abs_of_pos hdt]
  gcongr
  clear hlin hd1
  clear_value d
  split_ifs
  · have h0 := abs_le.1 (hd2 0); have h1 := abs_le.1 (hd2 1); have h2 := abs_le.1 (hd2 2)
    have h3 := abs_le.1 (hd2 3); have h4 := abs_le.1 (hd2 4)
    rw [abs_le]; constructor <;> linarith
  · have h0 := abs_le.1 (hd2 0); have h1 := abs_le.1 (hd2 1); have h2 := abs_le.1 (hd2 2)
    have h3 := abs_le.1 (hd2 3); have h4 := abs_le.1 (hd2 4)
    rw [abs_le]; constructor <;> linarith
  · have h0 := abs_le.1 (hd2 (2 * n - 4)); have h1 := abs_le.1 (hd2 (2 * n - 3))
    have h2 := abs_le.1 (hd2 (2 * n - 2)); have h3 := abs_le.1 (hd2 (2 * n - 1))
    have h4 := abs_le.1 (hd2 (2 * n))
    rw [abs_le]; constructor <;> linarith
  · have h0 := abs_le.1 (hd2 (2 * n - 4)); have h1 := abs_le.1 (hd2 (2 * n - 3))
    have h2 := abs_le.1 (hd2 (2 * n - 2)); have h3 := abs_le.1 (hd2 (2 * n - 1))
    have h4 := abs_le.1 (hd2 (2 * n))
    rw [abs_le]; constructor <;> linarith
  · have h0 := abs_le.1 (hd2 (a - 2)); have h1 := abs_le.1 (hd2 (a - 1))
    have h2 := abs_le.1 (hd2 (a + 1)); have h3 := abs_le.1 (hd2 (a + 2))
    rw [abs_le]; constructor <;> linarith

/-- Instance of C99: `exp` on `[0, 1]` with 11 nodes is differentiated to 0.2 % everywhere. -/
example (a : Fin 11) :
    |firstDeriv (n := 5) .four (fun _ : Fin 1 => (1 / 10 : ℝ))
        (fun _ b => Real.exp (0 + (b : ℕ) * (1 / 10))) 0 a
      - deriv Real.exp (0 + (a : ℕ) * (1 / 10))| ≤ 0.002 := by
  have := C99_order4_error (S := 1) (n := 5) (by norm_num) (fun _ => (1 / 10 : ℝ)) 0 (by norm_num)
    (fun _ => Real.exp) Real.contDiff_exp (fun _ => 0) 3
    (by
      intro s hs
      rw [iteratedDeriv_eq_iterate, Real.iter_deriv_exp, abs_of_pos (Real.exp_pos s)]
      have h1 : s ≤ 1 := by have := hs.2; norm_num at this; exact this
      have := Real.exp_one_lt_three
      exact (Real.exp_le_exp.2 h1).trans this.le) a
  refine this.trans ?_
  norm_num

end Verif.Derivatives
