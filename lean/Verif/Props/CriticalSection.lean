import Verif.Model.CriticalSection
import Verif.Props.Aero
import Mathlib.Algebra.BigOperators.Field
import Mathlib.Analysis.Real.Pi.Bounds

/-!
C82: the critical section method gives a conservative maximum lift coefficient.
C84: blended wing body parasite drag.
-/

namespace Verif.Aero

open Real Verif.VectorComps

/-! ### C82 -/

theorem clLimit_eq (n : ℕ) (vec : Bool) (Cl ClMax : ℕ → ℝ) {i : ℕ} (hi : i < n) :
    clLimit n vec Cl ClMax i = Cl i - ClMax (if vec then i else 0) := by
  have h0 : n = 1 → i = 0 := fun h => by omega
  cases vec <;>
    simp [clLimit, clLimitSys, clMaxShape, AddSys.compute, AddSys.factors, VecSize.get, List.zipIdx]
  · by_cases h : n = 1
    · simp [h, h0 h, sub_eq_add_neg]
    · simp [h, sub_eq_add_neg]
  · by_cases h : n = 1
    · simp [h, h0 h, sub_eq_add_neg]
    · simp [h, sub_eq_add_neg]

theorem maxUpTo_le (g : ℕ → ℝ) (n : ℕ) : ∀ i ≤ n, g i ≤ maxUpTo g n := by
  induction n with
  | zero => intro i hi; have : i = 0 := by omega
            subst this; exact le_rfl
  | succ n ih =>
    intro i hi
    rcases Nat.lt_or_ge i (n + 1) with h | h
    · exact (ih i (by omega)).trans (le_max_left _ _)
    · have : i = n + 1 := by omega
      subst this; exact le_max_right _ _

theorem maxUpTo_mem (g : ℕ → ℝ) (n : ℕ) : ∃ i ≤ n, maxUpTo g n = g i := by
  induction n with
  | zero => exact ⟨0, le_rfl, rfl⟩
  | succ n ih =>
    obtain ⟨i, hi, e⟩ := ih
    rcases le_total (maxUpTo g n) (g (n + 1)) with h | h
    · exact ⟨n + 1, le_rfl, max_eq_right h⟩
    · exact ⟨i, by omega, by rw [maxUpTo, max_eq_left h, e]⟩

/-- the aggregate does not depend on the shift by the maximum -/
theorem ks_eq (rho : ℝ) (hr : 0 < rho) (n : ℕ) (hn : 0 < n) (g : ℕ → ℝ) :
    ks rho n g = 1 / rho * log (∑ i ∈ Finset.range n, exp (rho * g i)) := by
  have hne : (Finset.range n).Nonempty := ⟨0, Finset.mem_range.2 hn⟩
  have hpos : 0 < ∑ i ∈ Finset.range n, exp (rho * g i) := Finset.sum_pos (fun i _ => exp_pos _) hne
  have : ∑ i ∈ Finset.range n, exp (rho * (g i - maxUpTo g (n - 1)))
      = (∑ i ∈ Finset.range n, exp (rho * g i)) / exp (rho * maxUpTo g (n - 1)) := by
    rw [Finset.sum_div]
    refine Finset.sum_congr rfl fun i _ => ?_
    rw [← exp_sub]; ring_nf
  unfold ks
  rw [this, log_div hpos.ne' (exp_pos _).ne', log_exp]
  field_simp
  ring

/-- C82.  KS aggregation brackets the maximum: no entry exceeds the aggregate, and the aggregate exceeds the largest entry
by at most `log n / rho`. -/
theorem C82_ks_bounds (rho : ℝ) (hr : 0 < rho) (n : ℕ) (hn : 0 < n) (g : ℕ → ℝ) :
    (∀ i < n, g i ≤ ks rho n g) ∧ ∃ i < n, ks rho n g ≤ g i + log n / rho := by
  have hne : (Finset.range n).Nonempty := ⟨0, Finset.mem_range.2 hn⟩
  have hpos : 0 < ∑ i ∈ Finset.range n, exp (rho * g i) := Finset.sum_pos (fun i _ => exp_pos _) hne
  rw [ks_eq rho hr n hn]
  constructor
  · intro i hi
    have : exp (rho * g i) ≤ ∑ i ∈ Finset.range n, exp (rho * g i) :=
      Finset.single_le_sum (f := fun i => exp (rho * g i)) (fun i _ => (exp_pos _).le) (Finset.mem_range.2 hi)
    have := log_le_log (exp_pos _) this
    rw [log_exp] at this
    rw [one_div, inv_mul_eq_div, le_div_iff₀ hr]
    linarith
  · obtain ⟨i, hi, e⟩ := maxUpTo_mem g (n - 1)
    refine ⟨i, by omega, ?_⟩
    have hle : ∑ j ∈ Finset.range n, exp (rho * g j) ≤ n * exp (rho * g i) := by
      have : ∑ j ∈ Finset.range n, exp (rho * g j) ≤ ∑ _j ∈ Finset.range n, exp (rho * g i) := by
        refine Finset.sum_le_sum fun j hj => exp_le_exp.2 (mul_le_mul_of_nonneg_left ?_ hr.le)
        rw [← e]; exact maxUpTo_le g _ j (by have := Finset.mem_range.1 hj; omega)
      simpa using this
    have hn' : (0 : ℝ) < n := by exact_mod_cast hn
    have := log_le_log hpos hle
    rw [log_mul hn'.ne' (exp_pos _).ne', log_exp] at this
    rw [one_div, inv_mul_eq_div, div_le_iff₀ hr]
    have : (g i + log n / rho) * rho = log n + rho * g i := by field_simp; ring
    linarith

/-- C82.  At a converged angle of attack no section exceeds its maximum lift coefficient (so the reported `CL_max` is
attainable), and some section is within `log num_y / rho` of its limit: the method underestimates by no more than that
margin.  `vec` is the option `vec_Cl_max`; without it the single limit applies to all sections. -/
theorem C82_conservative (rho : ℝ) (hr : 0 < rho) (n : ℕ) (hn : 0 < n) (vec : Bool) (Cl : ℝ → ℕ → ℝ) (ClMax : ℕ → ℝ) (a : ℝ)
    (h : critResidual rho n vec Cl ClMax a = 0) :
    (∀ i < n, Cl a i ≤ ClMax (if vec then i else 0)) ∧
    ∃ i < n, ClMax (if vec then i else 0) - log n / rho ≤ Cl a i := by
  unfold critResidual at h
  rw [sub_zero] at h
  obtain ⟨h1, i, hi, h2⟩ := C82_ks_bounds rho hr n hn (clLimit n vec (Cl a) ClMax)
  constructor
  · intro j hj
    have := h1 j hj
    rw [h, clLimit_eq n vec _ _ hj] at this
    linarith
  · refine ⟨i, hi, ?_⟩
    rw [h, clLimit_eq n vec _ _ hi] at h2
    linarith

/-- C82.  With one spanwise panel the limit is met exactly. -/
theorem C82_single (rho : ℝ) (hr : 0 < rho) (vec : Bool) (Cl : ℝ → ℕ → ℝ) (ClMax : ℕ → ℝ) (a : ℝ) :
    critResidual rho 1 vec Cl ClMax a = 0 ↔ Cl a 0 = ClMax 0 := by
  unfold critResidual
  rw [sub_zero, ks_eq rho hr 1 one_pos]
  simp only [Finset.range_one, Finset.sum_singleton, log_exp]
  rw [clLimit_eq 1 vec _ _ one_pos]
  have : (if vec = true then 0 else 0) = 0 := by simp
  rw [this]
  constructor
  · intro h
    have : 1 / rho * (rho * (Cl a 0 - ClMax 0)) = Cl a 0 - ClMax 0 := by field_simp
    linarith
  · intro h; rw [h]; simp

/-- C82.  If every sectional lift coefficient increases with the angle of attack, the balance has at most one solution. -/
theorem C82_unique (rho : ℝ) (hr : 0 < rho) (n : ℕ) (hn : 0 < n) (vec : Bool) (Cl : ℝ → ℕ → ℝ) (ClMax : ℕ → ℝ)
    (hm : ∀ i < n, StrictMono fun a => Cl a i) :
    StrictMono (critResidual rho n vec Cl ClMax) ∧
    ∀ a b, critResidual rho n vec Cl ClMax a = 0 → critResidual rho n vec Cl ClMax b = 0 → a = b := by
  have hs : StrictMono (critResidual rho n vec Cl ClMax) := by
    intro a b hab
    unfold critResidual
    rw [sub_zero, sub_zero, ks_eq rho hr n hn, ks_eq rho hr n hn]
    have hne : (Finset.range n).Nonempty := ⟨0, Finset.mem_range.2 hn⟩
    refine mul_lt_mul_of_pos_left (log_lt_log (Finset.sum_pos (fun i _ => exp_pos _) hne) ?_) (by positivity)
    refine Finset.sum_lt_sum_of_nonempty hne fun i hi => exp_lt_exp.2 (mul_lt_mul_of_pos_left ?_ hr)
    have hi' := Finset.mem_range.1 hi
    rw [clLimit_eq n vec _ _ hi', clLimit_eq n vec _ _ hi']
    have := hm i hi' hab
    simp only at this
    linarith
  exact ⟨hs, fun a b ha hb => hs.injective (ha.trans hb.symm)⟩

/-- two sections with lift slopes 6 and 5, limit 1.5, default aggregation factor: the residual has a zero between 0 and the
angle where the first section reaches its limit -/
example : critResidual 200 2 false (fun a i => if i = 0 then 6 * a else 5 * a) (fun _ => 1.5) 0 < 0 ∧
    0 < critResidual 200 2 false (fun a i => if i = 0 then 6 * a else 5 * a) (fun _ => 1.5) 0.25 := by
  constructor
  · obtain ⟨-, i, hi, h⟩ := C82_ks_bounds 200 (by norm_num) 2 (by norm_num)
      (clLimit 2 false (fun i => if i = 0 then 6 * (0 : ℝ) else 5 * 0) (fun _ => 1.5))
    unfold critResidual
    rw [clLimit_eq 2 false _ _ hi] at h
    have hl : log 2 < 1 := by
      have := log_two_lt_d9; linarith
    have : (if i = 0 then 6 * (0 : ℝ) else 5 * 0) = 0 := by split_ifs <;> simp
    rw [this] at h
    push_cast at h
    linarith
  · unfold critResidual
    rw [sub_zero, ks_eq 200 (by norm_num) 2 (by norm_num)]
    refine mul_pos (by norm_num) (log_pos ?_)
    rw [Finset.sum_range_succ, Finset.sum_range_one, clLimit_eq 2 false _ _ (by norm_num), clLimit_eq 2 false _ _ (by norm_num)]
    norm_num
    positivity

/-! ### C84 -/

/-- C84.  The parasite drag coefficient is the fudge factor times the sum of nacelle, flap and gear coefficients. -/
theorem C84_total (i : BWBIn) :
    bwbCD0 i = i.fudge * (i.nacWet * i.FFnac * cf i.lamN ⟨i.nacL, i.U, i.rho, i.T⟩ * i.nEng / i.S
      + (if i.takeoff then flapDrag i.flapChord i.flapArea i.Qflap i.flapDeg i.sweep else 0)
      + (if i.takeoff then 0.01 else 0)) := by
  simp [bwbCD0, bwbSum, bwbNacelle, bwbNacSys, bwbNacEnv, bwbFlap, bwbGear, AddSys.compute, MulSys.compute, MulSys.read,
    MulSys.div, AddSys.factors, List.zipIdx, List.replicate]
  cases i.takeoff <;> simp <;> ring

/-- C84.  Extending flaps and gear adds at least 0.01 times the fudge factor; the clean aircraft has nacelle drag only. -/
theorem C84_takeoff (i : BWBIn) (hf : 0 ≤ i.fudge) (ha : 0 ≤ i.flapArea) (hQ : 0 ≤ i.Qflap) (hc : 0 ≤ cos i.sweep) :
    bwbCD0 {i with takeoff := false}
      = i.fudge * (i.nacWet * i.FFnac * cf i.lamN ⟨i.nacL, i.U, i.rho, i.T⟩ * i.nEng / i.S) ∧
    bwbCD0 {i with takeoff := true} = bwbCD0 {i with takeoff := false}
      + i.fudge * (flapDrag i.flapChord i.flapArea i.Qflap i.flapDeg i.sweep + 0.01) ∧
    bwbCD0 {i with takeoff := false} + i.fudge * 0.01 ≤ bwbCD0 {i with takeoff := true} := by
  have e : bwbCD0 {i with takeoff := true} = bwbCD0 {i with takeoff := false}
      + i.fudge * (flapDrag i.flapChord i.flapArea i.Qflap i.flapDeg i.sweep + 0.01) := by
    rw [C84_total, C84_total]; simp; ring
  refine ⟨by rw [C84_total]; simp, e, ?_⟩
  rw [e]
  have hq : 0 < flapQuad i.flapChord := by
    unfold flapQuad
    nlinarith [sq_nonneg (i.flapChord - 7.45e-5 / (2 * 5.75e-4))]
  have : 0 ≤ flapDrag i.flapChord i.flapArea i.Qflap i.flapDeg i.sweep := by unfold flapDrag; positivity
  nlinarith [mul_nonneg hf this]

/-- C84.  The drag force of the clean aircraft, `q S CD0`, does not depend on the reference area and is proportional to the
number of engines. -/
theorem C84_reference_area (i : BWBIn) (q S N : ℝ) (h : i.S ≠ 0) (hS : S ≠ 0) :
    bwbCD0 {i with takeoff := false, S := S} * S * q = bwbCD0 {i with takeoff := false} * i.S * q ∧
    bwbCD0 {i with takeoff := false, nEng := N} * i.nEng = bwbCD0 {i with takeoff := false} * N := by
  rw [C84_total, C84_total, C84_total]
  simp only [Bool.false_eq_true, if_false, add_zero]
  constructor <;> field_simp

/-- C84.  Derivatives of the whole buildup with respect to the geometry inputs. -/
theorem C84_geometry_derivative (i : BWBIn) (hS : i.S ≠ 0) :
    let c := cf i.lamN ⟨i.nacL, i.U, i.rho, i.T⟩
    HasDerivAt (fun x => bwbCD0 {i with nacWet := x}) (i.fudge * (i.FFnac * c * i.nEng / i.S)) i.nacWet ∧
    HasDerivAt (fun x => bwbCD0 {i with nEng := x}) (i.fudge * (i.nacWet * i.FFnac * c / i.S)) i.nEng ∧
    HasDerivAt (fun x => bwbCD0 {i with S := x}) (-(i.fudge * (i.nacWet * i.FFnac * c * i.nEng / i.S ^ 2))) i.S ∧
    (i.takeoff = true → HasDerivAt (fun x => bwbCD0 {i with flapDeg := x})
      (i.fudge * flapDragDdelta i.flapChord i.flapArea i.Qflap i.flapDeg i.sweep) i.flapDeg) ∧
    (i.takeoff = true → HasDerivAt (fun x => bwbCD0 {i with sweep := x})
      (i.fudge * flapDragDsweep i.flapChord i.flapArea i.Qflap i.flapDeg i.sweep) i.sweep) := by
  intro c
  have hf := C61_form_partials i.Qflap 1 1 0 i.flapChord i.flapArea i.flapDeg i.sweep one_ne_zero one_ne_zero
  obtain ⟨-, -, -, hd, hs⟩ := hf
  let fl := if i.takeoff then flapDrag i.flapChord i.flapArea i.Qflap i.flapDeg i.sweep else 0
  let ge : ℝ := if i.takeoff then 0.01 else 0
  refine ⟨?_, ?_, ?_, ?_, ?_⟩
  · simp only [C84_total]
    refine hd_congr (((((((hasDerivAt_id' i.nacWet).mul_const i.FFnac).mul_const c).mul_const i.nEng).div_const i.S).add_const
      fl).add_const ge |>.const_mul i.fudge) ?_
    ring
  · simp only [C84_total]
    refine hd_congr (((((hasDerivAt_id' i.nEng).const_mul (i.nacWet * i.FFnac * c)).div_const i.S).add_const
      fl).add_const ge |>.const_mul i.fudge) ?_
    ring
  · simp only [C84_total]
    refine hd_congr ((((hd_const_div (i.nacWet * i.FFnac * c * i.nEng) (hasDerivAt_id' i.S) hS).add_const
      fl).add_const ge).const_mul i.fudge) ?_
    ring
  · intro ht
    simp only [C84_total, ht, if_true]
    exact ((hd.const_add _).add_const _).const_mul i.fudge
  · intro ht
    simp only [C84_total, ht, if_true]
    exact ((hs.const_add _).add_const _).const_mul i.fudge

example : bwbCD0 ⟨true, 1, 1.5, 0.2, 1.25, 0.6, 0, 200, 0.4, 220, 800, 0.5, 5, 40, 2, 15⟩ ≥
    bwbCD0 ⟨false, 1, 1.5, 0.2, 1.25, 0.6, 0, 200, 0.4, 220, 800, 0.5, 5, 40, 2, 15⟩ + 0.01 := by
  have := (C84_takeoff ⟨true, 1, 1.5, 0.2, 1.25, 0.6, 0, 200, 0.4, 220, 800, 0.5, 5, 40, 2, 15⟩ (by norm_num) (by norm_num)
    (by norm_num) (cos_nonneg_of_mem_Icc ⟨by linarith [pi_gt_three], by linarith [pi_gt_three]⟩)).2.2
  norm_num at this ⊢
  exact this

end Verif.Aero
