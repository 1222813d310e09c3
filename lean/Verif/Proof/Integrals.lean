import Verif.Model.Integrals
import Mathlib.Algebra.CharZero.Defs
import Mathlib.Tactic.Ring
import Mathlib.Tactic.Linarith
import Mathlib.Tactic.LinearCombination
import Mathlib.Tactic.FieldSimp
import Mathlib.Tactic.IntervalCases
import Mathlib.LinearAlgebra.Matrix.ToLin

/-! Lemmas on the integrator matrices. -/

namespace Verif.Integrals

open Matrix Finset

variable {K : Type*} [Field K]

/-- A diagonal acts on a vector by picking one neighbour. -/
theorem sum_diag (m i : ℕ) (o : ℤ) (d : ℕ → K) (y : ℕ → K) :
    (∑ j ∈ range m, (if (j : ℤ) - i = o then d (min i j) else 0) * y j) =
      if 0 ≤ (i : ℤ) + o ∧ (i : ℤ) + o < m then
        d (min i ((i : ℤ) + o).toNat) * y ((i : ℤ) + o).toNat else 0 := by
  split_ifs with h
  · rw [Finset.sum_eq_single ((i : ℤ) + o).toNat]
    · rw [if_pos (by omega)]
    · intro b _ hb
      rw [if_neg (by omega), zero_mul]
    · intro hb
      simp only [Finset.mem_range] at hb
      omega
  · apply Finset.sum_eq_zero
    intro j hj
    simp only [Finset.mem_range] at hj
    rw [if_neg (by omega), zero_mul]

theorem sum_spDiags (m i : ℕ) (l : List (ℤ × (ℕ → K))) (y : ℕ → K) :
    (∑ j ∈ range m, spDiags l i j * y j) =
      (l.map fun p => if 0 ≤ (i : ℤ) + p.1 ∧ (i : ℤ) + p.1 < m then
        p.2 (min i ((i : ℤ) + p.1).toNat) * y ((i : ℤ) + p.1).toNat else 0).sum := by
  induction l with
  | nil => simp [spDiags]
  | cons p l ih =>
    have hstep : ∀ j : ℕ, spDiags (p :: l) i j
        = (if (j : ℤ) - i = p.1 then p.2 (min i j) else 0) + spDiags l i j := by
      intro j; simp [spDiags]
    simp only [hstep, add_mul, Finset.sum_add_distrib, ih, List.map_cons, List.sum_cons, sum_diag]

/-- the contribution of one diagonal to row `i` -/
def dterm (m i : ℕ) (y : ℕ → K) (o : ℤ) (d : ℕ → K) : K :=
  if 0 ≤ (i : ℤ) + o ∧ (i : ℤ) + o < m then
    d (min i ((i : ℤ) + o).toNat) * y ((i : ℤ) + o).toNat else 0

theorem mulVec_spDiags {m : ℕ} (l : List (ℤ × (ℕ → K))) (y : ℕ → K) (i : Fin m) :
    ((Matrix.of fun i j : Fin m => spDiags l i j) *ᵥ fun j : Fin m => y j) i =
      (l.map fun p => dterm m i y p.1 p.2).sum := by
  unfold dterm
  rw [← sum_spDiags, Matrix.mulVec, dotProduct,
    ← Fin.sum_univ_eq_sum_range (fun j => spDiags l i j * y j)]
  rfl

/-- Extend a finite vector by zero. -/
def ext0 {m : ℕ} (y : Fin m → K) (j : ℕ) : K := if h : j < m then y ⟨j, h⟩ else 0

theorem ext0_fin {m : ℕ} (y : Fin m → K) (j : Fin m) : ext0 y j = y j := by
  simp [ext0]

theorem ext0_eq {m : ℕ} (y : Fin m → K) : (fun j : Fin m => ext0 y j) = y := by
  funext j; exact ext0_fin y j

theorem dterm_eq {m i : ℕ} {o : ℤ} {d : ℕ → K} {y : ℕ → K} (j k : ℕ) (hj : (i : ℤ) + o = j)
    (hk : min i j = k) (h : j < m) : dterm m i y o d = d k * y j := by
  unfold dterm
  rw [if_pos (by omega)]
  have : ((i : ℤ) + o).toNat = j := by omega
  rw [this, hk]

theorem dterm_neg {m i : ℕ} {o : ℤ} {d : ℕ → K} {y : ℕ → K} (h : (i : ℤ) + o < 0) :
    dterm m i y o d = 0 := by
  unfold dterm
  rw [if_neg (by omega)]

theorem dterm_zero {m i : ℕ} {o : ℤ} {d : ℕ → K} {y : ℕ → K}
    (h : d (min i ((i : ℤ) + o).toNat) = 0) : dterm m i y o d = 0 := by
  unfold dterm
  rw [h, zero_mul, ite_self]

/-- rows of `bdf3A` -/
theorem bdf3A_row {m : ℕ} (hm : 3 ≤ m) (y : ℕ → K) (i : Fin m) :
    (bdf3A m *ᵥ fun j : Fin m => y j) i =
      if (i : ℕ) = 0 then -1 / 2 * y 0 + y 1 - 1 / 6 * y 2
      else if (i : ℕ) = 1 then - y 0 + 1 / 2 * y 1 + 1 / 3 * y 2
      else if (i : ℕ) = 2 then 9 / 11 * y 0 - 18 / 11 * y 1 + y 2
      else -2 / 11 * y (i - 3) + 9 / 11 * y (i - 2) - 18 / 11 * y (i - 1) + y i := by
  rw [bdf3A, mulVec_spDiags]
  obtain ⟨i, hi⟩ := i
  simp only [List.map_cons, List.map_nil, List.sum_cons, List.sum_nil]
  rcases i with _ | _ | _ | i
  · rw [dterm_eq 2 0 (by norm_num) (by omega) (by omega),
      dterm_eq 1 0 (by norm_num) (by omega) (by omega),
      dterm_eq 0 0 (by norm_num) (by omega) (by omega),
      dterm_neg (by norm_num), dterm_neg (by norm_num), dterm_neg (by norm_num)]
    simp
    ring
  · rw [dterm_zero (by simp), dterm_eq 2 1 (by norm_num) (by omega) (by omega),
      dterm_eq 1 1 (by norm_num) (by omega) (by omega),
      dterm_eq 0 0 (by norm_num) (by omega) (by omega),
      dterm_neg (by norm_num), dterm_neg (by norm_num)]
    simp
    ring
  · rw [dterm_zero (by simp), dterm_zero (by simp),
      dterm_eq 2 2 (by norm_num) (by omega) (by omega),
      dterm_eq 1 1 (by norm_num) (by omega) (by omega),
      dterm_eq 0 0 (by norm_num) (by omega) (by omega),
      dterm_neg (by norm_num)]
    simp
    ring
  · rw [dterm_zero (if_neg (by omega)),
      dterm_zero (by rw [if_neg (by omega), if_neg (by omega)]),
      dterm_eq (i + 3) (i + 3) (by push_cast; ring) (by omega) (by omega),
      dterm_eq (i + 2) (i + 2) (by push_cast; ring) (by omega) (by omega),
      dterm_eq (i + 1) (i + 1) (by push_cast; ring) (by omega) (by omega),
      dterm_eq i i (by push_cast; ring) (by omega) (by omega)]
    simp
    ring

/-- rows of `allBdfA` -/
theorem allBdfA_row {m : ℕ} (y : ℕ → K) (i : Fin m) :
    (allBdfA m *ᵥ fun j : Fin m => y j) i =
      if (i : ℕ) = 0 then y 0
      else if (i : ℕ) = 1 then - 4 / 3 * y 0 + y 1
      else if (i : ℕ) = 2 then 9 / 11 * y 0 - 18 / 11 * y 1 + y 2
      else -2 / 11 * y (i - 3) + 9 / 11 * y (i - 2) - 18 / 11 * y (i - 1) + y i := by
  rw [allBdfA, mulVec_spDiags]
  obtain ⟨i, hi⟩ := i
  simp only [List.map_cons, List.map_nil, List.sum_cons, List.sum_nil]
  rw [dterm_zero rfl]
  rcases i with _ | _ | _ | i
  · rw [dterm_eq 0 0 (by norm_num) (by omega) (by omega),
      dterm_neg (by norm_num), dterm_neg (by norm_num), dterm_neg (by norm_num)]
    simp
  · rw [dterm_eq 1 1 (by norm_num) (by omega) (by omega),
      dterm_eq 0 0 (by norm_num) (by omega) (by omega),
      dterm_neg (by norm_num), dterm_neg (by norm_num)]
    simp
    ring
  · rw [dterm_eq 2 2 (by norm_num) (by omega) (by omega),
      dterm_eq 1 1 (by norm_num) (by omega) (by omega),
      dterm_eq 0 0 (by norm_num) (by omega) (by omega),
      dterm_neg (by norm_num)]
    simp
    ring
  · rw [dterm_eq (i + 3) (i + 3) (by push_cast; ring) (by omega) (by omega),
      dterm_eq (i + 2) (i + 2) (by push_cast; ring) (by omega) (by omega),
      dterm_eq (i + 1) (i + 1) (by push_cast; ring) (by omega) (by omega),
      dterm_eq i i (by push_cast; ring) (by omega) (by omega)]
    simp
    ring

theorem simpsonA_row {m : ℕ} (y : ℕ → K) (i : Fin m) :
    (simpsonA m *ᵥ fun j : Fin m => y j) i =
      if (i : ℕ) = 0 then y 0 else y i - y (i - 1) := by
  rw [simpsonA, mulVec_spDiags]
  obtain ⟨i, hi⟩ := i
  simp only [List.map_cons, List.map_nil, List.sum_cons, List.sum_nil]
  rcases i with _ | i
  · rw [dterm_neg (by norm_num), dterm_eq 0 0 (by norm_num) (by omega) (by omega)]
    simp
  · rw [dterm_eq i i (by push_cast; ring) (by omega) (by omega),
      dterm_eq (i + 1) (i + 1) (by push_cast; ring) (by omega) (by omega)]
    simp
    ring

theorem bdf3B_row {m : ℕ} (y : ℕ → K) (i : Fin m) :
    (bdf3B m *ᵥ fun j : Fin m => y j) i =
      (if (i : ℕ) = 0 then 1 else if (i : ℕ) = 1 then 1 else 6 / 11) * y i := by
  rw [bdf3B, mulVec_spDiags]
  obtain ⟨i, hi⟩ := i
  simp [dterm, hi]

theorem allBdfB_row {m : ℕ} (y : ℕ → K) (i : Fin m) :
    (allBdfB m *ᵥ fun j : Fin m => y j) i =
      (if (i : ℕ) = 0 then 1 else if (i : ℕ) = 1 then 2 / 3 else 6 / 11) * y i := by
  rw [allBdfB, mulVec_spDiags]
  obtain ⟨i, hi⟩ := i
  simp [dterm, hi]

theorem isUnit_of_ker {m : ℕ} (A : Matrix (Fin m) (Fin m) K)
    (key : ∀ y : Fin m → K, A *ᵥ y = 0 → ∀ i, y i = 0) : IsUnit A := by
  rw [← Matrix.mulVec_injective_iff_isUnit]
  intro u v huv
  have h : A *ᵥ (u - v) = 0 := by
    rw [Matrix.mulVec_sub, sub_eq_zero]; exact huv
  funext i
  have := key _ h i
  simpa [sub_eq_zero] using this

/-- `A` of the default scheme is nonsingular. -/
theorem bdf3A_isUnit [CharZero K] {m : ℕ} (hm : 3 ≤ m) :
    IsUnit (bdf3A m : Matrix (Fin m) (Fin m) K) := by
  apply isUnit_of_ker
  intro y hy
  have hrow : ∀ i : Fin m, (bdf3A m *ᵥ fun j : Fin m => ext0 y j) i = 0 := by
    intro i; rw [ext0_eq, hy]; rfl
  have r0 := hrow ⟨0, by omega⟩
  have r1 := hrow ⟨1, by omega⟩
  have r2 := hrow ⟨2, by omega⟩
  rw [bdf3A_row hm] at r0 r1 r2
  simp only [one_ne_zero, OfNat.ofNat_ne_zero, OfNat.ofNat_ne_one,
    ↓reduceIte] at r0 r1 r2
  have y0 : ext0 y 0 = 0 := by linear_combination (23 / 12 : K) * r0 - (4 / 3 : K) * r1 + (55 / 72 : K) * r2
  have y1 : ext0 y 1 = 0 := by linear_combination (7 / 3 : K) * r0 - (2 / 3 : K) * r1 + (11 / 18 : K) * r2
  have y2 : ext0 y 2 = 0 := by linear_combination (9 / 4 : K) * r0 + (11 / 8 : K) * r2
  have all : ∀ j, j < m → ext0 y j = 0 := by
    intro j
    induction j using Nat.strong_induction_on with
    | _ j ih =>
      intro hj
      rcases j with _ | _ | _ | j
      · exact y0
      · exact y1
      · exact y2
      · have r := hrow ⟨j + 3, hj⟩
        rw [bdf3A_row hm] at r
        rw [if_neg (by simp), if_neg (by simp), if_neg (by simp)] at r
        simp only [Nat.add_sub_cancel] at r
        rw [ih j (by omega) (by omega), show j + 3 - 2 = j + 1 by omega,
          ih (j + 1) (by omega) (by omega), show j + 3 - 1 = j + 2 by omega,
          ih (j + 2) (by omega) (by omega)] at r
        simpa using r
  intro i
  rw [← ext0_fin y i]
  exact all i i.2

/-- `A` of the `all_bdf` scheme is nonsingular. -/
theorem allBdfA_isUnit {m : ℕ} : IsUnit (allBdfA m : Matrix (Fin m) (Fin m) K) := by
  apply isUnit_of_ker
  intro y hy
  have hrow : ∀ i : Fin m, (allBdfA m *ᵥ fun j : Fin m => ext0 y j) i = 0 := by
    intro i; rw [ext0_eq, hy]; rfl
  have all : ∀ j, j < m → ext0 y j = 0 := by
    intro j
    induction j using Nat.strong_induction_on with
    | _ j ih =>
      intro hj
      have r := hrow ⟨j, hj⟩
      rw [allBdfA_row] at r
      rcases j with _ | _ | _ | j
      · simpa using r
      · have := ih 0 (by omega) (by omega)
        simpa [this] using r
      · have h0 := ih 0 (by omega) (by omega)
        have h1 := ih 1 (by omega) (by omega)
        simpa [h0, h1] using r
      · rw [if_neg (by simp), if_neg (by simp), if_neg (by simp)] at r
        simp only [Nat.add_sub_cancel] at r
        rw [show j + 1 + 1 + 1 - 3 = j by omega, ih j (by omega) (by omega), 
          show j + 1 + 1 + 1 - 2 = j + 1 by omega,
          ih (j + 1) (by omega) (by omega), 
          ih (j + 1 + 1) (by omega) (by omega)] at r
        simpa using r
  intro i
  rw [← ext0_fin y i]
  exact all i i.2

theorem simpsonA_isUnit {m : ℕ} : IsUnit (simpsonA m : Matrix (Fin m) (Fin m) K) := by
  apply isUnit_of_ker
  intro y hy
  have hrow : ∀ i : Fin m, (simpsonA m *ᵥ fun j : Fin m => ext0 y j) i = 0 := by
    intro i; rw [ext0_eq, hy]; rfl
  have all : ∀ j, j < m → ext0 y j = 0 := by
    intro j
    induction j with
    | zero => intro hj; simpa [simpsonA_row] using hrow ⟨0, hj⟩
    | succ j ih =>
      intro hj
      have r := hrow ⟨j + 1, hj⟩
      rw [simpsonA_row] at r
      simp only [Nat.add_sub_cancel] at r
      rw [if_neg (by simp), ih (by omega)] at r
      simpa using r
  intro i
  rw [← ext0_fin y i]
  exact all i i.2

theorem inv_mulVec_eq {m : ℕ} {A : Matrix (Fin m) (Fin m) K} (hA : IsUnit A) {y v : Fin m → K}
    (h : A *ᵥ y = v) : A⁻¹ *ᵥ v = y := by
  rw [← h, Matrix.mulVec_mulVec, Matrix.nonsing_inv_mul _ ((Matrix.isUnit_iff_isUnit_det _).1 hA),
    Matrix.one_mulVec]

theorem shiftBoth_zero {m : ℕ} (C : Matrix (Fin m) (Fin m) K) (v : Fin (m + 1) → K) :
    (shiftBoth C *ᵥ v) 0 = 0 := by
  simp [shiftBoth, Matrix.mulVec, dotProduct]

theorem shiftBoth_succ {m : ℕ} (C : Matrix (Fin m) (Fin m) K) (v : Fin (m + 1) → K) (i : Fin m) :
    (shiftBoth C *ᵥ v) i.succ = (C *ᵥ fun j => v j.succ) i := by
  simp [shiftBoth, Matrix.mulVec, dotProduct, Fin.sum_univ_succ]

/-- Characterisation of the BDF3 result by the difference equations of the scheme. -/
theorem bdf3Tri_eq [CharZero K] {m : ℕ} (hm : 3 ≤ m) (x r : ℕ → K) (hx : x 0 = 0)
    (h0 : -1 / 2 * x 1 + x 2 - 1 / 6 * x 3 = r 1)
    (h1 : - x 1 + 1 / 2 * x 2 + 1 / 3 * x 3 = r 2)
    (h2 : 9 / 11 * x 1 - 18 / 11 * x 2 + x 3 = 6 / 11 * r 3)
    (h3 : ∀ k, k + 3 < m → -2 / 11 * x (k + 1) + 9 / 11 * x (k + 2) - 18 / 11 * x (k + 3) + x (k + 4)
      = 6 / 11 * r (k + 4)) (a : Fin (m + 1)) :
    (bdf3Tri false m *ᵥ fun b : Fin (m + 1) => r b) a = x a := by
  simp only [bdf3Tri, Bool.false_eq_true, if_false]
  refine Fin.cases ?_ (fun i => ?_) a
  · rw [shiftBoth_zero]; simp [hx]
  · rw [shiftBoth_succ, ← Matrix.mulVec_mulVec]
    have : (bdf3A m : Matrix (Fin m) (Fin m) K) *ᵥ (fun j : Fin m => (fun k : ℕ => x (k + 1)) j) =
        bdf3B m *ᵥ fun j : Fin m => (fun k : ℕ => r (k + 1)) j := by
      funext i
      rw [bdf3A_row hm (fun k => x (k + 1)), bdf3B_row (fun k => r (k + 1))]
      obtain ⟨i, hi⟩ := i
      rcases i with _ | _ | _ | i
      · simpa using h0
      · simpa using h1
      · simpa using h2
      · rw [if_neg (by simp), if_neg (by simp), if_neg (by simp), if_neg (by simp), if_neg (by simp)]
        exact h3 i hi
    have := inv_mulVec_eq (bdf3A_isUnit hm) this
    have e : (fun j : Fin m => r (j.succ : ℕ)) = fun j : Fin m => (fun k : ℕ => r (k + 1)) j := by
      funext j; simp
    rw [e, this]
    simp

/-- Characterisation of the `all_bdf` result. -/
theorem allBdfTri_eq {m : ℕ} (x r : ℕ → K) (hx : x 0 = 0)
    (h0 : x 1 = r 1)
    (h1 : 1 < m → - 4 / 3 * x 1 + x 2 = 2 / 3 * r 2)
    (h2 : 2 < m → 9 / 11 * x 1 - 18 / 11 * x 2 + x 3 = 6 / 11 * r 3)
    (h3 : ∀ k, k + 3 < m → -2 / 11 * x (k + 1) + 9 / 11 * x (k + 2) - 18 / 11 * x (k + 3) + x (k + 4)
      = 6 / 11 * r (k + 4)) (a : Fin (m + 1)) :
    (bdf3Tri true m *ᵥ fun b : Fin (m + 1) => r b) a = x a := by
  simp only [bdf3Tri, if_true]
  refine Fin.cases ?_ (fun i => ?_) a
  · rw [shiftBoth_zero]; simp [hx]
  · rw [shiftBoth_succ, ← Matrix.mulVec_mulVec]
    have : (allBdfA m : Matrix (Fin m) (Fin m) K) *ᵥ (fun j : Fin m => (fun k : ℕ => x (k + 1)) j) =
        allBdfB m *ᵥ fun j : Fin m => (fun k : ℕ => r (k + 1)) j := by
      funext i
      rw [allBdfA_row (fun k => x (k + 1)), allBdfB_row (fun k => r (k + 1))]
      obtain ⟨i, hi⟩ := i
      rcases i with _ | _ | _ | i
      · simpa using h0
      · simpa using h1 hi
      · simpa using h2 hi
      · rw [if_neg (by simp), if_neg (by simp), if_neg (by simp), if_neg (by simp), if_neg (by simp)]
        exact h3 i hi
    have := inv_mulVec_eq allBdfA_isUnit this
    have e : (fun j : Fin m => r (j.succ : ℕ)) = fun j : Fin m => (fun k : ℕ => r (k + 1)) j := by
      funext j; simp
    rw [e, this]
    simp

/-- One row of the Simpson increments. -/
theorem simpsonBase_row {m : ℕ} (hm : m % 2 = 0) (r : ℕ → K) (i : Fin m) :
    (simpsonBase m *ᵥ fun b : Fin (m + 1) => r b) i =
      if (i : ℕ) % 2 = 0 then 5 / 12 * r i + 8 / 12 * r (i + 1) - 1 / 12 * r (i + 2)
      else -1 / 12 * r (i - 1) + 8 / 12 * r i + 5 / 12 * r (i + 1) := by
  obtain ⟨i, hi⟩ := i
  set k := 2 * (i / 2) with hk
  have e : (simpsonBase m *ᵥ fun b : Fin (m + 1) => r b) ⟨i, hi⟩ =
      ∑ c ∈ range (m + 1), (if c = k then (if i % 2 = 0 then 5 / 12 else -1 / 12)
        else if c = k + 1 then 8 / 12
        else if c = k + 2 then (if i % 2 = 0 then -1 / 12 else 5 / 12) else 0) * r c := by
    rw [Matrix.mulVec, dotProduct, ← Fin.sum_univ_eq_sum_range
      (fun c => (if c = k then (if i % 2 = 0 then 5 / 12 else -1 / 12)
        else if c = k + 1 then 8 / 12
        else if c = k + 2 then (if i % 2 = 0 then -1 / 12 else 5 / 12) else 0) * r c)]
    rfl
  rw [e]
  have split : ∀ c : ℕ, (if c = k then (if i % 2 = 0 then (5 / 12 : K) else -1 / 12)
        else if c = k + 1 then 8 / 12
        else if c = k + 2 then (if i % 2 = 0 then -1 / 12 else 5 / 12) else 0) * r c =
      (if c = k then (if i % 2 = 0 then (5 / 12 : K) else -1 / 12) * r k else 0) +
      (if c = k + 1 then 8 / 12 * r (k + 1) else 0) +
      (if c = k + 2 then (if i % 2 = 0 then (-1 / 12 : K) else 5 / 12) * r (k + 2) else 0) := by
    intro c
    by_cases h1 : c = k
    · have a1 : ¬ (k = k + 1) := by omega
      have a2 : ¬ (k = k + 2) := by omega
      simp only [h1, if_true, a1, a2, if_false, add_zero]
    · by_cases h2 : c = k + 1
      · have a1 : ¬ (k + 1 = k) := by omega
        have a2 : ¬ (k + 1 = k + 2) := by omega
        simp only [h2, if_true, a1, a2, if_false, add_zero, zero_add]
      · by_cases h3 : c = k + 2
        · rw [if_neg h1, if_neg h2, if_pos h3, if_neg h1, if_neg h2, if_pos h3, h3]; ring
        · simp [h1, h2, h3]
  simp only [split, Finset.sum_add_distrib, Finset.sum_ite_eq', Finset.mem_range]
  have b0 : k < m + 1 := by omega
  have b1 : k + 1 < m + 1 := by omega
  have b2 : k + 2 < m + 1 := by omega
  rw [if_pos b0, if_pos b1, if_pos b2]
  by_cases hpar : i % 2 = 0
  · have : k = i := by omega
    simp only [hpar, if_true, this]
    ring
  · have h1 : k = i - 1 := by omega
    have h2 : i - 1 + 1 = i := by omega
    have h3 : i - 1 + 2 = i + 1 := by omega
    simp only [hpar, if_false, h1, h2, h3]

/-- Characterisation of the Simpson result by its increments. -/
theorem simpsonTri_eq {m : ℕ} (hm : m % 2 = 0) (x r : ℕ → K) (hx : x 0 = 0)
    (he : ∀ k, 2 * k < m → x (2 * k + 1) - x (2 * k) =
      5 / 12 * r (2 * k) + 8 / 12 * r (2 * k + 1) - 1 / 12 * r (2 * k + 2))
    (ho : ∀ k, 2 * k < m → x (2 * k + 2) - x (2 * k + 1) =
      -1 / 12 * r (2 * k) + 8 / 12 * r (2 * k + 1) + 5 / 12 * r (2 * k + 2)) (a : Fin (m + 1)) :
    (simpsonTri m *ᵥ fun b : Fin (m + 1) => r b) a = x a := by
  refine Fin.cases ?_ (fun i => ?_) a
  · simp [simpsonTri, Matrix.mulVec, dotProduct, hx]
  · have e : (simpsonTri m *ᵥ fun b : Fin (m + 1) => r b) i.succ =
        (((simpsonA m : Matrix (Fin m) (Fin m) K)⁻¹ * simpsonBase m) *ᵥ
          fun b : Fin (m + 1) => r b) i := by
      simp [simpsonTri, Matrix.mulVec, dotProduct]
    rw [e, ← Matrix.mulVec_mulVec]
    have : (simpsonA m : Matrix (Fin m) (Fin m) K) *ᵥ (fun j : Fin m => (fun k : ℕ => x (k + 1)) j) =
        simpsonBase m *ᵥ fun b : Fin (m + 1) => r b := by
      funext i
      rw [simpsonA_row (fun k => x (k + 1)), simpsonBase_row hm]
      obtain ⟨i, hi⟩ := i
      rcases Nat.even_or_odd' i with ⟨k, hk | hk⟩
      · subst hk
        have := he k hi
        rcases k with _ | k
        · simp [hx] at this ⊢
          rw [this]
        · have h1 : 2 * (k + 1) - 1 + 1 = 2 * (k + 1) := by omega
          have h2 : ¬ (2 * (k + 1) = 0) := by omega
          simp only [h1, h2, if_false, Nat.mul_mod_right, if_true]
          exact this
      · subst hk
        have := ho k (by omega)
        have h1 : (2 * k + 1) % 2 = 1 := by omega
        simp only [h1, Nat.add_sub_cancel, one_ne_zero, if_false, Nat.add_eq_zero_iff, and_false]
        exact this
    rw [inv_mulVec_eq simpsonA_isUnit this]
    simp

theorem methodMatrix_simpson {m : ℕ} {M : Matrix (Fin (m + 1)) (Fin (m + 1)) K} :
    methodMatrix .simpson m = some M ↔ m % 2 = 0 ∧ M = simpsonTri m := by
  unfold methodMatrix
  by_cases h1 : m % 2 > 0
  · simp [h1]; omega
  · simp only [h1, if_false, Option.some.injEq]
    constructor
    · intro h; exact ⟨by omega, h.symm⟩
    · intro h; exact h.2.symm

theorem methodMatrix_bdf3 {m : ℕ} {M : Matrix (Fin (m + 1)) (Fin (m + 1)) K} :
    methodMatrix .bdf3 m = some M ↔ m % 2 = 0 ∧ 3 ≤ m ∧ M = bdf3Tri false m := by
  unfold methodMatrix
  by_cases h1 : m % 2 > 0
  · simp [h1]; omega
  · by_cases h2 : m < 3
    · simp [h1, h2]
    · simp only [h1, h2, if_false, Option.some.injEq]
      constructor
      · intro h; exact ⟨by omega, by omega, h.symm⟩
      · intro h; exact h.2.2.symm

section integrate
variable {S m : ℕ} (tri : Matrix (Fin (m + 1)) (Fin (m + 1)) K)

/-- contribution of segment `j` to node `(i, a)` -/
def contrib (count : Fin S → Bool) (dts : Fin S → K) (dqdt : Fin S → Fin (m + 1) → K)
    (i : Fin S) (a : Fin (m + 1)) (j : Fin S) : K :=
  if j < i ∧ count j = true then (tri *ᵥ dqdt j) (Fin.last m) * dts j
  else if i = j ∧ count j = true then (tri *ᵥ dqdt j) a * dts j
  else 0

theorem sum_block (count : Fin S → Bool) (dts : Fin S → K) (dqdt : Fin S → Fin (m + 1) → K)
    (i : Fin S) (a : Fin (m + 1)) (j : Fin S) :
    ∑ b, blockRate tri count dts i j a b * dqdt j b = contrib tri count dts dqdt i a j := by
  unfold blockRate contrib
  split_ifs
  · simp only [repeatMat, Matrix.of_apply, Matrix.mulVec, dotProduct, Finset.sum_mul]
    exact Finset.sum_congr rfl fun b _ => by ring
  · simp only [Matrix.mulVec, dotProduct, Finset.sum_mul]
    exact Finset.sum_congr rfl fun b _ => by ring
  · simp

theorem integrate_eq (count : Fin S → Bool) (q0 : K) (dts : Fin S → K)
    (dqdt : Fin S → Fin (m + 1) → K) (i : Fin S) (a : Fin (m + 1)) :
    integrate tri count q0 dts dqdt i a = (∑ j, contrib tri count dts dqdt i a j) + q0 := by
  unfold integrate
  rw [Finset.sum_congr rfl fun j _ => sum_block tri count dts dqdt i a j]

theorem dtPartial_mul (count : Fin S → Bool) (dts : Fin S → K) (dqdt : Fin S → Fin (m + 1) → K)
    (i : Fin S) (a : Fin (m + 1)) (j : Fin S) :
    contrib tri count dts dqdt i a j = dtPartial tri count dqdt j i a * dts j := by
  rw [← sum_block]
  unfold blockRate dtPartial
  rw [Finset.sum_mul]
  refine Finset.sum_congr rfl fun b _ => ?_
  split_ifs <;> ring

theorem integratorCompute_eq (q0 : K) (t : TimeInput K) (rate : Fin (m + 1) → K) (a : Fin (m + 1)) :
    integratorCompute tri q0 t rate a = (tri *ᵥ rate) a * t.step m + q0 := by
  unfold integratorCompute
  rw [integrate_eq]
  simp [contrib]

end integrate

end Verif.Integrals
