import Verif.Model.Mesh
import Verif.Proof.HDeriv
import Mathlib.Analysis.SpecialFunctions.Trigonometric.Deriv
import Mathlib.Analysis.SpecialFunctions.Trigonometric.ComplexDeriv
import Mathlib.Analysis.SpecialFunctions.Pow.Deriv
import Mathlib.Tactic.NormNum

/-! Properties C64-C66: mesh generation. -/

namespace Verif.Mesh

open Real

/-! ### spacing -/

theorem linspace_zero (a b : ℝ) (n : ℕ) : linspace a b n 0 = a := by simp [linspace]

theorem linspace_last (a b : ℝ) (n : ℕ) (hn : 0 < n) : linspace a b (n + 1) n = b := by
  have : (n : ℝ) ≠ 0 := by positivity
  unfold linspace; push_cast; rw [add_sub_cancel_right]; field_simp; ring

/-- every spacing is the affine combination of its ends with weights independent of the ends -/
theorem linspace_w (a b : ℝ) (n j : ℕ) : linspace a b n j = a + (b - a) * linspace 0 1 n j := by
  unfold linspace; ring

theorem cosSpace_w (a b : ℝ) (n j : ℕ) : cosSpace a b n j = a + (b - a) * cosDEnd n j := by
  unfold cosSpace cosDEnd; ring

theorem cosDStart_eq (n j : ℕ) : cosDStart n j = 1 - cosDEnd n j := by unfold cosDStart cosDEnd; ring

theorem cosDEnd_zero (n : ℕ) : cosDEnd n 0 = 0 := by simp [cosDEnd, linspace_zero]

theorem cosDEnd_last (n : ℕ) (hn : 0 < n) : cosDEnd (n + 1) n = 1 := by
  unfold cosDEnd; rw [linspace_last 0 π n hn, cos_pi]; norm_num

theorem nodal_w (c : Bool) (a b : ℝ) (n j : ℕ) : nodal c a b n j = a + (b - a) * nodalDEnd c n j := by
  cases c
  · simp only [nodal, nodalDEnd, Bool.false_eq_true, if_false]; exact linspace_w a b n j
  · simp only [nodal, nodalDEnd, if_true]; exact cosSpace_w a b n j

theorem nodalDStart_eq (c : Bool) (n j : ℕ) : nodalDStart c n j = 1 - nodalDEnd c n j := by
  cases c
  · simp only [nodalDStart, nodalDEnd, Bool.false_eq_true, if_false]; unfold linspace; ring
  · simp only [nodalDStart, nodalDEnd, if_true]; exact cosDStart_eq n j

theorem nodalDEnd_zero (c : Bool) (n : ℕ) : nodalDEnd c n 0 = 0 := by
  cases c
  · simp [nodalDEnd, linspace_zero]
  · simp [nodalDEnd, cosDEnd_zero]

theorem nodalDEnd_last (c : Bool) (n : ℕ) (hn : 0 < n) : nodalDEnd c (n + 1) n = 1 := by
  cases c
  · simp only [nodalDEnd, Bool.false_eq_true, if_false]; exact linspace_last 0 1 n hn
  · simp only [nodalDEnd, if_true]; exact cosDEnd_last n hn

theorem lin01_bounds {n j : ℕ} (hn : 0 < n) (hj : j ≤ n) : 0 ≤ linspace 0 1 (n + 1) j ∧ linspace 0 1 (n + 1) j ≤ 1 := by
  have h : (0 : ℝ) < n := by exact_mod_cast hn
  have hj' : (j : ℝ) ≤ n := by exact_mod_cast hj
  unfold linspace; push_cast
  rw [add_sub_cancel_right]
  constructor
  · positivity
  · rw [zero_add, sub_zero, mul_one_div, div_le_one h]; exact hj'

theorem cosDEnd_strictMono {n j k : ℕ} (hn : 0 < n) (hjk : j < k) (hk : k ≤ n) : cosDEnd (n + 1) j < cosDEnd (n + 1) k := by
  have h : (0 : ℝ) < n := by exact_mod_cast hn
  have hk' : (k : ℝ) ≤ n := by exact_mod_cast hk
  have hjk' : (j : ℝ) < k := by exact_mod_cast hjk
  have hpi := pi_pos
  have e : ∀ m : ℕ, linspace 0 π (n + 1) m = m / n * π := by
    intro m; unfold linspace; push_cast; rw [add_sub_cancel_right]; ring
  unfold cosDEnd
  rw [e, e]
  have : cos (k / n * π) < cos (j / n * π) := by
    refine cos_lt_cos_of_nonneg_of_le_pi (by positivity) ?_ ?_
    · have : (k : ℝ) / n ≤ 1 := by rw [div_le_one h]; exact hk'
      nlinarith
    · exact mul_lt_mul_of_pos_right (div_lt_div_of_pos_right hjk' h) hpi
  linarith

/-- C66.  Cosine and linear spacing: start and end points are hit exactly, the points increase strictly from start to end
when `s < e` (so they stay in between), the derivative weights are the derivatives with respect to start and end, are
between 0 and 1 and sum to 1. -/
theorem C66_spacing (c : Bool) (n : ℕ) (hn : 0 < n) (s e : ℝ) :
    nodal c s e (n + 1) 0 = s ∧ nodal c s e (n + 1) n = e ∧
    (s < e → ∀ j k, j < k → k ≤ n → nodal c s e (n + 1) j < nodal c s e (n + 1) k) ∧
    (∀ j, j ≤ n → 0 ≤ nodalDEnd c (n + 1) j ∧ nodalDEnd c (n + 1) j ≤ 1) ∧
    (∀ j, nodalDStart c (n + 1) j + nodalDEnd c (n + 1) j = 1) ∧
    (∀ j, HasDerivAt (fun x => nodal c x e (n + 1) j) (nodalDStart c (n + 1) j) s ∧
      HasDerivAt (fun x => nodal c s x (n + 1) j) (nodalDEnd c (n + 1) j) e) := by
  have mono : ∀ j k, j < k → k ≤ n → nodalDEnd c (n + 1) j < nodalDEnd c (n + 1) k := by
    intro j k hjk hk
    cases c
    · simp only [nodalDEnd, Bool.false_eq_true, if_false]
      have h : (0 : ℝ) < n := by exact_mod_cast hn
      have hjk' : (j : ℝ) < k := by exact_mod_cast hjk
      unfold linspace; push_cast
      rw [add_sub_cancel_right]
      have : (0 : ℝ) < (1 - 0) / n := by positivity
      nlinarith
    · simp only [nodalDEnd, if_true]; exact cosDEnd_strictMono hn hjk hk
  refine ⟨?_, ?_, ?_, ?_, ?_, ?_⟩
  · rw [nodal_w, nodalDEnd_zero]; ring
  · rw [nodal_w, nodalDEnd_last c n hn]; ring
  · intro h j k hjk hk
    rw [nodal_w, nodal_w]
    have := mono j k hjk hk
    have : 0 < e - s := by linarith
    nlinarith
  · intro j hj
    constructor
    · rcases Nat.eq_zero_or_pos j with h | h
      · rw [h, nodalDEnd_zero]
      · have := mono 0 j h hj
        rw [nodalDEnd_zero] at this; exact this.le
    · rcases Nat.eq_or_lt_of_le hj with h | h
      · rw [h, nodalDEnd_last c n hn]
      · have := mono j n h le_rfl
        rw [nodalDEnd_last c n hn] at this; exact this.le
  · intro j; rw [nodalDStart_eq]; ring
  · intro j
    simp only [nodal_w]
    constructor
    · refine hd_congr ((hasDerivAt_id' s).add (((hasDerivAt_id' s).const_sub e).mul_const _)) ?_
      rw [nodalDStart_eq]; ring
    · refine hd_congr (((((hasDerivAt_id' e).sub_const s).mul_const _)).const_add s) ?_
      ring

/-! ### C64: trapezoidal mesh -/

/-- signed area of the quadrilateral panel `(i, j)` from the cross product of its diagonals -/
noncomputable def panel (x y : ℕ → ℕ → ℝ) (i j : ℕ) : ℝ :=
  ((x (i + 1) (j + 1) - x i j) * (y i (j + 1) - y (i + 1) j) - (y (i + 1) (j + 1) - y i j) * (x i (j + 1) - x (i + 1) j)) / 2

/-- area of a mesh with `N` by `M` panels -/
noncomputable def meshArea (x y : ℕ → ℕ → ℝ) (N M : ℕ) : ℝ := ∑ i ∈ Finset.range N, ∑ j ∈ Finset.range M, panel x y i j

theorem meshArea_lift (u : ℕ → ℝ) (c x0 y : ℕ → ℝ) (N M : ℕ) (h0 : u 0 = 0) (h1 : u N = 1) :
    meshArea (fun i j => u i * c j + x0 j) (fun _ j => y j) N M
      = ∑ j ∈ Finset.range M, (y (j + 1) - y j) * (c j + c (j + 1)) / 2 := by
  unfold meshArea
  rw [Finset.sum_comm]
  refine Finset.sum_congr rfl fun j _ => ?_
  have e : ∀ i, panel (fun i j => u i * c j + x0 j) (fun _ j => y j) i j
      = (u (i + 1) - u i) * ((y (j + 1) - y j) * (c j + c (j + 1)) / 2) := by
    intro i; unfold panel; ring
  simp only [e]
  rw [← Finset.sum_mul, Finset.sum_range_sub, h0, h1]; ring

theorem strip_sum (w : ℕ → ℝ) (n : ℕ) (y dy c dc : ℝ) (h0 : w 0 = 0) (h1 : w n = 1) :
    ∑ j ∈ Finset.range n, ((y + dy * w (j + 1)) - (y + dy * w j)) * ((c + dc * w j) + (c + dc * w (j + 1))) / 2
      = dy * (c + dc / 2) := by
  have e : ∀ j, ((y + dy * w (j + 1)) - (y + dy * w j)) * ((c + dc * w j) + (c + dc * w (j + 1))) / 2
      = (dy * (c * w (j + 1) + dc / 2 * w (j + 1) ^ 2)) - (dy * (c * w j + dc / 2 * w j ^ 2)) := by
    intro j; ring
  simp only [e]
  rw [Finset.sum_range_sub (fun j => dy * (c * w j + dc / 2 * w j ^ 2)), h0, h1]; ring

theorem halfSpan_pos {S AR : ℝ} (hS : 0 < S) (hA : 0 < AR) : 0 < halfSpan S AR := by
  unfold halfSpan
  have := sqrt_pos.2 (mul_pos hA hS)
  positivity

/-- C64.  The trapezoidal mesh with any numbers of panels `N`, `M` ≥ 1 realises the requested planform: half the area, the
half span `√(S AR)/2`, the taper ratio, the requested sweep of the quarter chord line at every station, with the root
quarter chord at the origin. -/
theorem C64_planform (N M : ℕ) (hN : 0 < N) (hM : 0 < M) (S AR taper sweep : ℝ) (hS : 0 < S) (hA : 0 < AR) (ht : 0 ≤ taper) :
    meshArea (trapX (N + 1) (M + 1) S AR taper sweep) (fun _ => trapY (M + 1) S AR) N M = S / 2 ∧
    trapY (M + 1) S AR 0 = -(√(AR * S) / 2) ∧ trapY (M + 1) S AR M = 0 ∧
    (let chord := fun j => trapX (N + 1) (M + 1) S AR taper sweep N j - trapX (N + 1) (M + 1) S AR taper sweep 0 j
     let quarter := fun j => trapX (N + 1) (M + 1) S AR taper sweep 0 j + chord j / 4
     chord 0 = taper * chord M ∧ 0 < chord M ∧ quarter M = 0 ∧
     ∀ j, quarter j = -trapY (M + 1) S AR j * tan (sweep * π / 180)) := by
  have hb := halfSpan_pos hS hA
  have h1 : 0 < 1 + taper := by linarith
  have hcr : 0 < cRoot S AR taper := by unfold cRoot; positivity
  have hx : ∀ i j, trapX (N + 1) (M + 1) S AR taper sweep i j = linspace 0 1 (N + 1) i
      * (cRoot S AR taper * taper + (cRoot S AR taper - cRoot S AR taper * taper) * linspace 0 1 (M + 1) j)
      + (-(linspace (cRoot S AR taper * taper) (cRoot S AR taper) (M + 1) j) / 4
        + linspace (halfSpan S AR) 0 (M + 1) j * tan (sweep * π / 180)) := by
    intro i j
    unfold trapX
    rw [linspace_w taper 1]; ring
  have hy : ∀ j, trapY (M + 1) S AR j = -halfSpan S AR + halfSpan S AR * linspace 0 1 (M + 1) j := by
    intro j; unfold trapY; rw [linspace_w (-1) 0]; ring
  have hch : ∀ j, trapX (N + 1) (M + 1) S AR taper sweep N j - trapX (N + 1) (M + 1) S AR taper sweep 0 j
      = cRoot S AR taper * taper + (cRoot S AR taper - cRoot S AR taper * taper) * linspace 0 1 (M + 1) j := by
    intro j; rw [hx, hx, linspace_last 0 1 N hN, linspace_zero]; ring
  have hq : ∀ j, trapX (N + 1) (M + 1) S AR taper sweep 0 j
      + (trapX (N + 1) (M + 1) S AR taper sweep N j - trapX (N + 1) (M + 1) S AR taper sweep 0 j) / 4
      = -trapY (M + 1) S AR j * tan (sweep * π / 180) := by
    intro j
    rw [hch, hx, hy, linspace_zero, linspace_w (cRoot S AR taper * taper), linspace_w (halfSpan S AR)]; ring
  refine ⟨?_, ?_, ?_, ?_, ?_, ?_, hq⟩
  · have e1 : trapX (N + 1) (M + 1) S AR taper sweep = fun i j => linspace 0 1 (N + 1) i
      * (cRoot S AR taper * taper + (cRoot S AR taper - cRoot S AR taper * taper) * linspace 0 1 (M + 1) j)
      + (-(linspace (cRoot S AR taper * taper) (cRoot S AR taper) (M + 1) j) / 4
        + linspace (halfSpan S AR) 0 (M + 1) j * tan (sweep * π / 180)) := by funext i j; exact hx i j
    have e2 : trapY (M + 1) S AR = fun j => -halfSpan S AR + halfSpan S AR * linspace 0 1 (M + 1) j := by
      funext j; exact hy j
    rw [e1, e2]
    rw [meshArea_lift (linspace 0 1 (N + 1))
      (fun j => cRoot S AR taper * taper + (cRoot S AR taper - cRoot S AR taper * taper) * linspace 0 1 (M + 1) j)
      (fun j => -(linspace (cRoot S AR taper * taper) (cRoot S AR taper) (M + 1) j) / 4
        + linspace (halfSpan S AR) 0 (M + 1) j * tan (sweep * π / 180))
      (fun j => -halfSpan S AR + halfSpan S AR * linspace 0 1 (M + 1) j) N M (linspace_zero 0 1 _) (linspace_last 0 1 N hN)]
    rw [strip_sum (linspace 0 1 (M + 1)) M _ _ _ _ (linspace_zero 0 1 _) (linspace_last 0 1 M hM)]
    unfold cRoot
    field_simp
    ring
  · unfold trapY; rw [linspace_zero]; unfold halfSpan; ring
  · unfold trapY; rw [linspace_last _ _ _ hM]; ring
  · simp only []
    rw [hch, hch, linspace_zero, linspace_last 0 1 M hM]; ring
  · simp only []
    rw [hch, linspace_last 0 1 M hM]; linarith
  · simp only []
    rw [hq, hy, linspace_last 0 1 M hM]; ring

/-- C64.  Declared partials of every mesh coordinate. -/
theorem C64_partials (nx ny : ℕ) (S AR taper sweep : ℝ) (i j : ℕ) (hS : 0 < S) (hA : 0 < AR) (ht : 0 ≤ taper)
    (hc : cos (sweep * π / 180) ≠ 0) :
    HasDerivAt (fun x => trapX nx ny x AR taper sweep i j) (trapXDS nx ny S AR taper sweep i j) S ∧
    HasDerivAt (fun x => trapX nx ny S x taper sweep i j) (trapXDAR nx ny S AR taper sweep i j) AR ∧
    HasDerivAt (fun x => trapX nx ny S AR x sweep i j) (trapXDtaper nx ny S AR taper i j) taper ∧
    HasDerivAt (fun x => trapX nx ny S AR taper x i j) (trapXDsweep ny S AR sweep j) sweep ∧
    HasDerivAt (fun x => trapY ny x AR j) (trapYDS ny S AR j) S ∧
    HasDerivAt (fun x => trapY ny S x j) (trapYDAR ny S AR j) AR := by
  have hb := halfSpan_pos hS hA
  have h1 : 0 < 1 + taper := by linarith
  have hs := sqrt_pos.2 (mul_pos hA hS)
  have bS : HasDerivAt (fun x => halfSpan x AR) (dbS S AR) S := by
    refine hd_congr ((HasDerivAt.sqrt ((hasDerivAt_id' S).const_mul AR) (mul_pos hA hS).ne').div_const 2) ?_
    unfold dbS; field_simp; norm_num
  have bA : HasDerivAt (fun x => halfSpan S x) (dbAR S AR) AR := by
    refine hd_congr ((HasDerivAt.sqrt ((hasDerivAt_id' AR).mul_const S) (mul_pos hA hS).ne').div_const 2) ?_
    unfold dbAR; field_simp; norm_num
  have cS : HasDerivAt (fun x => cRoot x AR taper) (dcrS S AR taper) S := by
    refine hd_congr (hd_div (hasDerivAt_id' S) (bS.mul_const (1 + taper)) (by positivity)) ?_
    unfold dcrS; field_simp
  have cA : HasDerivAt (fun x => cRoot S x taper) (dcrAR S AR taper) AR := by
    refine hd_congr (hd_const_div S (bA.mul_const (1 + taper)) (by positivity)) ?_
    unfold dcrAR; field_simp
  have cT : HasDerivAt (fun x => cRoot S AR x) (dcrtaper S AR taper) taper := by
    refine hd_congr (hd_const_div S (((hasDerivAt_id' taper).const_add 1).const_mul (halfSpan S AR)) (by positivity)) ?_
    unfold dcrtaper; field_simp
  have hx : ∀ S' A' t' sw', trapX nx ny S' A' t' sw' i j = linspace 0 1 nx i * cRoot S' A' t' * (t' + (1 - t') * linspace 0 1 ny j)
      - cRoot S' A' t' * (t' + (1 - t') * linspace 0 1 ny j) / 4
      + halfSpan S' A' * (1 - linspace 0 1 ny j) * tan (sw' * π / 180) := by
    intro S' A' t' sw'
    unfold trapX
    rw [linspace_w t' 1, linspace_w (cRoot S' A' t' * t'), linspace_w (halfSpan S' A')]; ring
  refine ⟨?_, ?_, ?_, ?_, ?_, ?_⟩
  · simp only [hx]
    refine hd_congr (((((cS.const_mul (linspace 0 1 nx i)).mul_const _).sub ((cS.mul_const _).div_const 4))).add
      ((bS.mul_const _).mul_const _)) ?_
    unfold trapXDS
    rw [linspace_w taper 1, linspace_w (dcrS S AR taper * taper), linspace_w (dbS S AR)]; ring
  · simp only [hx]
    refine hd_congr (((((cA.const_mul (linspace 0 1 nx i)).mul_const _).sub ((cA.mul_const _).div_const 4))).add
      ((bA.mul_const _).mul_const _)) ?_
    unfold trapXDAR
    rw [linspace_w taper 1, linspace_w (dcrAR S AR taper * taper), linspace_w (dbAR S AR)]; ring
  · simp only [hx]
    have hl : HasDerivAt (fun t => t + (1 - t) * linspace 0 1 ny j) (1 - linspace 0 1 ny j) taper := by
      refine hd_congr ((hasDerivAt_id' taper).add (((hasDerivAt_id' taper).const_sub 1).mul_const _)) ?_
      ring
    refine hd_congr (((((cT.const_mul (linspace 0 1 nx i)).fun_mul hl).sub ((cT.fun_mul hl).div_const 4))).add_const _) ?_
    unfold trapXDtaper
    rw [linspace_w taper 1, linspace_w (dcrtaper S AR taper * taper), linspace_w (cRoot S AR taper), linspace_w 1 0]; ring
  · simp only [hx]
    have ht : HasDerivAt (fun x => tan (x * π / 180)) (1 / cos (sweep * π / 180) ^ 2 * (π / 180)) sweep := by
      have h2 : HasDerivAt (fun x : ℝ => x * π / 180) (π / 180) sweep := by
        refine hd_congr (((hasDerivAt_id' sweep).mul_const π).div_const 180) ?_
        ring
      exact HasDerivAt.comp (h₂ := tan) (h := fun x => x * π / 180) sweep (hasDerivAt_tan hc) h2
    refine hd_congr ((ht.const_mul (halfSpan S AR * (1 - linspace 0 1 ny j))).const_add _) ?_
    unfold trapXDsweep
    rw [linspace_w (halfSpan S AR)]; ring
  · exact bS.const_mul _
  · exact bA.const_mul _

example : meshArea (trapX 3 7 100 9 0.3 25) (fun _ => trapY 7 100 9) 2 6 = 50 := by
  have := (C64_planform 2 6 (by norm_num) (by norm_num) 100 9 0.3 25 (by norm_num) (by norm_num) (by norm_num)).1
  norm_num at this ⊢; exact this

/-! ### region bookkeeping -/

theorem off_succ (ny : ℕ → ℕ) (i : ℕ) : off ny (i + 1) = off ny i + ny i := by unfold off; rw [Finset.sum_range_succ]

theorem off_mono (ny : ℕ → ℕ) {i k : ℕ} (h : i ≤ k) : off ny i ≤ off ny k := by
  induction h with
  | refl => exact le_rfl
  | step _ ih => rw [off_succ]; omega

/-- node `j` lies in exactly one region (closed on the inboard side, the first region closed on both) -/
theorem region_exists (ny : ℕ → ℕ) (n j : ℕ) (hn : 0 < n) (hj : j ≤ off ny n) :
    ∃ i, i < n ∧ off ny i + (if i = 0 then 0 else 1) ≤ j ∧ j ≤ off ny i + ny i := by
  induction n with
  | zero => omega
  | succ n ih =>
    rw [off_succ] at hj
    rcases Nat.eq_zero_or_pos n with h | h
    · subst h
      exact ⟨0, by omega, by simp [off], by simpa [off] using hj⟩
    · by_cases hle : j ≤ off ny n
      · obtain ⟨i, h1, h2, h3⟩ := ih h hle
        exact ⟨i, by omega, h2, h3⟩
      · refine ⟨n, by omega, ?_, by omega⟩
        rw [if_neg (by omega)]; omega

theorem region_unique (ny : ℕ → ℕ) {i k j : ℕ} (h1 : off ny i + (if i = 0 then 0 else 1) ≤ j) (h2 : j ≤ off ny i + ny i)
    (h3 : off ny k + (if k = 0 then 0 else 1) ≤ j) (h4 : j ≤ off ny k + ny k) : i = k := by
  have aux : ∀ {a b : ℕ}, a < b → j ≤ off ny a + ny a → off ny b + (if b = 0 then 0 else 1) ≤ j → False := by
    intro a b hab ha hb
    rw [if_neg (by omega)] at hb
    have := off_mono ny (show a + 1 ≤ b from hab)
    rw [off_succ] at this
    omega
  rcases lt_trichotomy i k with h | h | h
  · exact (aux h h2 h3).elim
  · exact h
  · exact (aux h h4 h1).elim

/-- panel `j` lies in exactly one region -/
theorem panel_exists (ny : ℕ → ℕ) (n j : ℕ) (hj : j < off ny n) : ∃ i, i < n ∧ off ny i ≤ j ∧ j < off ny i + ny i := by
  induction n with
  | zero => simp [off] at hj
  | succ n ih =>
    rw [off_succ] at hj
    by_cases hle : j < off ny n
    · obtain ⟨i, h1, h2, h3⟩ := ih hle
      exact ⟨i, by omega, h2, h3⟩
    · exact ⟨n, by omega, by omega, by omega⟩

theorem panel_unique (ny : ℕ → ℕ) {i k j : ℕ} (h1 : off ny i ≤ j) (h2 : j < off ny i + ny i)
    (h3 : off ny k ≤ j) (h4 : j < off ny k + ny k) : i = k := by
  have aux : ∀ {a b : ℕ}, a < b → j < off ny a + ny a → off ny b ≤ j → False := by
    intro a b hab ha hb
    have := off_mono ny (show a + 1 ≤ b from hab)
    rw [off_succ] at this
    omega
  rcases lt_trichotomy i k with h | h | h
  · exact (aux h h2 h3).elim
  · exact h
  · exact (aux h h4 h1).elim

/-- generic form of the overwriting loops: region ends agree, so the overwritten node keeps its value -/
theorem loop_value (ny : ℕ → ℕ) (v : ℕ → ℕ → ℝ) (arr : ℕ → ℕ → ℝ)
    (hs : ∀ m, arr (m + 1) = writeSlice (arr m) (off ny m) (ny m + 1) (v m))
    (hv : ∀ m, v m (ny m) = v (m + 1) 0) (hny : ∀ m, 0 < ny m) (n : ℕ) :
    ∀ i j, i < n → j ≤ ny i → arr n (off ny i + j) = v i j := by
  induction n with
  | zero => intro i j h; omega
  | succ n ih =>
    intro i j hi hj
    rw [hs]
    unfold writeSlice
    by_cases h : i = n
    · subst h
      rw [if_pos (by omega), Nat.add_sub_cancel_left]
    · have hin : i < n := by omega
      by_cases hw : off ny n ≤ off ny i + j ∧ off ny i + j < off ny n + (ny n + 1)
      · have h1 := off_mono ny (show i + 1 ≤ n from hin)
        have h2 : i + 1 = n := by
          by_contra hne
          have h3 := off_mono ny (show i + 1 + 1 ≤ n by omega)
          rw [off_succ, off_succ] at h3
          have := hny (i + 1)
          omega
        rw [off_succ] at h1
        have hjn : j = ny i := by omega
        have e : off ny i + j = off ny n := by rw [← h2, off_succ, hjn]
        rw [if_pos hw, e, Nat.sub_self, hjn, hv, h2]
      · rw [if_neg hw]
        exact ih i j hin hj

/-! ### C66: interpolation of section values -/

theorem interp_value (c : Bool) (ny : ℕ → ℕ) (p : ℕ → ℝ) (n : ℕ) (hny : ∀ m, 0 < ny m) (i j : ℕ) (hi : i < n)
    (hj : j ≤ ny i) : interpArr c ny p n (off ny i + j) = nodal c (p i) (p (i + 1)) (ny i + 1) j := by
  refine loop_value ny (fun m => nodal c (p m) (p (m + 1)) (ny m + 1)) (interpArr c ny p) (fun m => rfl) ?_ hny n i j hi hj
  intro m
  rw [nodal_w, nodal_w, nodalDEnd_last c (ny m) (hny m), nodalDEnd_zero]; ring

/-- C66.  `SectionLinearInterp` returns the section values at the sections, stays between the two neighbouring section
values everywhere, and follows the spacing of each region; for any number of regions with any positive panel counts. -/
theorem C66_interp (c : Bool) (ny : ℕ → ℕ) (p : ℕ → ℝ) (n : ℕ) (hn : 0 < n) (hny : ∀ m, 0 < ny m) :
    (∀ i, i ≤ n → interpArr c ny p n (off ny i) = p i) ∧
    (∀ i j, i < n → j ≤ ny i → interpArr c ny p n (off ny i + j) = nodal c (p i) (p (i + 1)) (ny i + 1) j ∧
      min (p i) (p (i + 1)) ≤ interpArr c ny p n (off ny i + j) ∧
      interpArr c ny p n (off ny i + j) ≤ max (p i) (p (i + 1))) := by
  constructor
  · intro i hi
    rcases Nat.lt_or_ge i n with h | h
    · have := interp_value c ny p n hny i 0 h (by omega)
      rw [Nat.add_zero] at this
      rw [this, nodal_w, nodalDEnd_zero]; ring
    · have : i = n := by omega
      subst this
      obtain ⟨k, rfl⟩ : ∃ k, i = k + 1 := ⟨i - 1, by omega⟩
      rw [off_succ, interp_value c ny p (k + 1) hny k (ny k) (by omega) le_rfl, nodal_w, nodalDEnd_last c _ (hny k)]; ring
  · intro i j hi hj
    have e := interp_value c ny p n hny i j hi hj
    refine ⟨e, ?_, ?_⟩
    all_goals
      rw [e, nodal_w]
      obtain ⟨h0, h1⟩ := (C66_spacing c (ny i) (hny i) (p i) (p (i + 1))).2.2.2.1 j hj
    · rcases le_total (p i) (p (i + 1)) with h | h
      · rw [min_eq_left h]; nlinarith
      · rw [min_eq_right h]; nlinarith
    · rcases le_total (p i) (p (i + 1)) with h | h
      · rw [max_eq_right h]; nlinarith
      · rw [max_eq_left h]; nlinarith

theorem tc_value (c : Bool) (ny : ℕ → ℕ) (p : ℕ → ℝ) (n : ℕ) : ∀ i j, i < n → j < ny i →
    tcArr c ny p n (off ny i + j)
      = 0.5 * (nodal c (p i) (p (i + 1)) (ny i + 1) j + nodal c (p i) (p (i + 1)) (ny i + 1) (j + 1)) := by
  induction n with
  | zero => intro i j h; omega
  | succ n ih =>
    intro i j hi hj
    simp only [tcArr]
    unfold writeSlice
    by_cases h : i = n
    · subst h
      rw [if_pos (by omega), Nat.add_sub_cancel_left]
    · have h1 := off_mono ny (show i + 1 ≤ n by omega)
      rw [off_succ] at h1
      rw [if_neg (by omega)]
      exact ih i j (by omega) hj

/-- C66.  `ThicknessChordRatioInterp`: each panel gets the mean of its two node values, which lies between the neighbouring
section values. -/
theorem C66_toverc (c : Bool) (ny : ℕ → ℕ) (p : ℕ → ℝ) (n i j : ℕ) (hny : ∀ m, 0 < ny m) (hi : i < n) (hj : j < ny i) :
    tcArr c ny p n (off ny i + j) = (interpArr c ny p n (off ny i + j) + interpArr c ny p n (off ny i + j + 1)) / 2 ∧
    min (p i) (p (i + 1)) ≤ tcArr c ny p n (off ny i + j) ∧ tcArr c ny p n (off ny i + j) ≤ max (p i) (p (i + 1)) := by
  have hI := (C66_interp c ny p n (by omega) hny).2
  have e : tcArr c ny p n (off ny i + j) = (interpArr c ny p n (off ny i + j) + interpArr c ny p n (off ny i + j + 1)) / 2 := by
    rw [tc_value c ny p n i j hi hj, (hI i j hi hj.le).1, add_assoc, (hI i (j + 1) hi hj).1]; ring
  have a1 := hI i j hi hj.le
  have a2 := hI i (j + 1) hi hj
  rw [← add_assoc] at a2
  refine ⟨e, ?_, ?_⟩
  · rw [e]; linarith [a1.2.1, a2.2.1]
  · rw [e]; linarith [a1.2.2, a2.2.2]

/-! declared sparse partials -/

theorem jac_append (a b : List (ℕ × ℕ × ℝ)) (r c : ℕ) : jac (a ++ b) r c = jac a r c + jac b r c := by
  unfold jac; rw [List.map_append, List.sum_append]

theorem jac_range (m s col r c : ℕ) (v : ℕ → ℝ) : jac ((List.range m).map fun j => (s + j, col, v j)) r c
    = if s ≤ r ∧ r < s + m ∧ col = c then v (r - s) else 0 := by
  unfold jac
  rw [List.map_map]
  have : ((List.range m).map ((fun e : ℕ × ℕ × ℝ => if e.1 = r ∧ e.2.1 = c then e.2.2 else 0) ∘ fun j => (s + j, col, v j))).sum
      = ∑ j ∈ Finset.range m, if s + j = r ∧ col = c then v j else 0 := by
    rw [← List.sum_toFinset _ (List.nodup_range)]
    congr 1
    ext x; simp
  rw [this]
  by_cases h : s ≤ r ∧ r < s + m ∧ col = c
  · rw [if_pos h, Finset.sum_eq_single (r - s)]
    · rw [if_pos ⟨by omega, h.2.2⟩]
    · intro b _ hb
      rw [if_neg (by rintro ⟨h1, _⟩; omega)]
    · intro hb
      exact absurd (Finset.mem_range.2 (by omega)) hb
  · rw [if_neg h]
    refine Finset.sum_eq_zero fun j hj => ?_
    rw [if_neg]
    rintro ⟨h1, h2⟩
    have := Finset.mem_range.1 hj
    exact h ⟨by omega, by omega, h2⟩

theorem jac_flatMap (f : ℕ → List (ℕ × ℕ × ℝ)) (n r c : ℕ) :
    jac ((List.range n).flatMap f) r c = ∑ i ∈ Finset.range n, jac (f i) r c := by
  induction n with
  | zero => simp [jac]
  | succ n ih => rw [List.range_succ, List.flatMap_append, jac_append, ih, Finset.sum_range_succ]; simp

/-- the derivative of a region value with respect to a section value -/
theorem region_hd (c : Bool) (p : ℕ → ℝ) (i k m j : ℕ) :
    HasDerivAt (fun x => nodal c (Function.update p k x i) (Function.update p k x (i + 1)) m j)
      ((if k = i then nodalDStart c m j else 0) + (if k = i + 1 then nodalDEnd c m j else 0)) (p k) := by
  simp only [nodal_w]
  by_cases h1 : k = i
  · subst h1
    have h2 : ¬ k = k + 1 := by omega
    simp only [Function.update_self, Function.update_of_ne (show k + 1 ≠ k by omega), if_true, h2, if_false]
    refine hd_congr ((hasDerivAt_id' (p k)).add (((hasDerivAt_id' (p k)).const_sub (p (k + 1))).mul_const _)) ?_
    rw [nodalDStart_eq]; ring
  · by_cases h2 : k = i + 1
    · subst h2
      simp only [Function.update_self, Function.update_of_ne (show i ≠ i + 1 by omega), if_true, h1, if_false]
      refine hd_congr (((((hasDerivAt_id' (p (i + 1))).sub_const (p i)).mul_const _)).const_add (p i)) ?_
      ring
    · simp only [Function.update_of_ne (show i ≠ k by omega), Function.update_of_ne (show i + 1 ≠ k by omega), h1, h2, if_false]
      rw [add_zero]; exact hasDerivAt_const _ _

/-- C66.  The sparse partials declared by `SectionLinearInterp` are the derivatives of the output, for every node and
section; every (row, column) pair is declared once; and the allocated number of nonzeros is the number filled. -/
theorem C66_interp_partials (c : Bool) (ny : ℕ → ℕ) (p : ℕ → ℝ) (n : ℕ) (hn : 0 < n) (hny : ∀ m, 0 < ny m) :
    (∀ r k, r ≤ off ny n → HasDerivAt (fun x => interpArr c ny (Function.update p k x) n r) (jac (interpTrip c ny n) r k) (p k)) ∧
    ((interpTrip c ny n).map fun t => (t.1, t.2.1)).Nodup ∧ ((interpTrip c ny n).length : ℤ) = interpNnz ny n := by
  refine ⟨?_, ?_, ?_⟩
  · intro r k hr
    obtain ⟨i, hi, h1, h2⟩ := region_exists ny n r hn hr
    have hr' : r = off ny i + (r - off ny i) := by split_ifs at h1 <;> omega
    have hj : r - off ny i ≤ ny i := by omega
    have e : (fun x => interpArr c ny (Function.update p k x) n r)
        = fun x => nodal c (Function.update p k x i) (Function.update p k x (i + 1)) (ny i + 1) (r - off ny i) := by
      funext x
      conv_lhs => rw [hr']
      rw [interp_value c ny _ n hny i _ hi hj]
    rw [e]
    refine hd_congr (region_hd c p i k (ny i + 1) (r - off ny i)) ?_
    unfold interpTrip
    rw [jac_flatMap, Finset.sum_eq_single i]
    · unfold interpTrip1
      simp only []
      rw [jac_append, jac_range, jac_range _ (off ny i + 1) (i + 1) r k (fun j => nodalDEnd c (ny i + 1) (j + 1))]
      congr 1
      · by_cases hk : k = i
        · rw [if_pos hk]
          by_cases hl : r = off ny i + ny i
          · rw [if_neg (by split_ifs <;> omega), nodalDStart_eq, hl, Nat.add_sub_cancel_left, nodalDEnd_last c _ (hny i)]; ring
          · rw [if_pos (by split_ifs at h1 ⊢ <;> refine ⟨by omega, by omega, hk.symm⟩)]
            congr 1
            split_ifs at h1 ⊢ <;> omega
        · rw [if_neg hk, if_neg (by rintro ⟨_, _, h⟩; exact hk h.symm)]
      · by_cases hk : k = i + 1
        · rw [if_pos hk]
          by_cases hl : r = off ny i
          · rw [if_neg (by omega), hl, Nat.sub_self, nodalDEnd_zero]
          · have : off ny i ≤ r := by split_ifs at h1 <;> omega
            rw [if_pos ⟨by omega, by omega, hk.symm⟩]
            congr 1
            omega
        · rw [if_neg hk, if_neg (by rintro ⟨_, _, h⟩; exact hk h.symm)]
    · intro b _ hb
      unfold interpTrip1
      simp only []
      rw [jac_append, jac_range, jac_range _ (off ny b + 1) (b + 1) r k (fun j => nodalDEnd c (ny b + 1) (j + 1))]
      have nope : ¬ (off ny b + (if b = 0 then 0 else 1) ≤ r ∧ r ≤ off ny b + ny b) := by
        rintro ⟨a1, a2⟩
        exact hb (region_unique ny a1 a2 h1 h2)
      rw [if_neg, if_neg, add_zero]
      · rintro ⟨a1, a2, _⟩
        exact nope ⟨by split_ifs <;> omega, by omega⟩
      · rintro ⟨a1, a2, _⟩
        exact nope ⟨a1, by split_ifs at a2 <;> omega⟩
    · intro h; exact absurd (Finset.mem_range.2 hi) h
  · unfold interpTrip
    rw [List.map_flatMap, List.nodup_flatMap]
    have mem : ∀ i x, x ∈ (interpTrip1 c ny i).map (fun t => (t.1, t.2.1)) →
        (off ny i + (if i = 0 then 0 else 1) ≤ x.1 ∧ x.1 ≤ off ny i + ny i) := by
      intro i x hx
      unfold interpTrip1 at hx
      simp only [List.map_append, List.map_map, List.mem_append, List.mem_map, List.mem_range, Function.comp] at hx
      rcases hx with ⟨j, hj, rfl⟩ | ⟨j, hj, rfl⟩
      · simp only []
        split_ifs at hj ⊢ <;> omega
      · simp only []
        split_ifs <;> omega
    constructor
    · intro i _
      unfold interpTrip1
      simp only [List.map_append, List.map_map]
      rw [List.nodup_append]
      refine ⟨?_, ?_, ?_⟩
      · refine List.Nodup.map ?_ List.nodup_range
        intro a b hab
        simp only [Function.comp, Prod.mk.injEq] at hab
        omega
      · refine List.Nodup.map ?_ List.nodup_range
        intro a b hab
        simp only [Function.comp, Prod.mk.injEq] at hab
        omega
      · intro x hx y hy hxy
        simp only [List.mem_map, List.mem_range, Function.comp] at hx hy
        obtain ⟨a, _, rfl⟩ := hx
        obtain ⟨b, _, rfl⟩ := hy
        simp only [Prod.mk.injEq] at hxy
        omega
    · refine List.nodup_range.pairwise_of_forall_ne ?_
      intro a _ b _ hab x hxa hxb
      have m1 := mem a x hxa
      have m2 := mem b x hxb
      exact hab (region_unique ny m1.1 m1.2 m2.1 m2.2)
  · have len : ∀ m, ((interpTrip c ny m).length : ℤ)
        = (∑ i ∈ Finset.range m, ((ny i : ℤ) - 1)) * 2 + (if m = 0 then 0 else m + 1) := by
      intro m
      induction m with
      | zero => simp [interpTrip]
      | succ m ih =>
        have e : interpTrip c ny (m + 1) = interpTrip c ny m ++ interpTrip1 c ny m := by
          unfold interpTrip; rw [List.range_succ, List.flatMap_append]; simp
        rw [e, List.length_append, Nat.cast_add, ih, Finset.sum_range_succ]
        have h1 := hny m
        unfold interpTrip1
        simp only [List.length_append, List.length_map, List.length_range]
        rcases Nat.eq_zero_or_pos m with h | h
        · subst h; simp; ring
        · have h0 : m ≠ 0 := by omega
          simp only [h0, if_false, Nat.succ_ne_zero]
          push_cast [Nat.cast_sub (show 1 ≤ ny m from h1)]
          ring
    rw [len, if_neg (by omega)]
    unfold interpNnz; rfl

/-- C66.  The sparse partials declared by `ThicknessChordRatioInterp` are the derivatives of the output, and twice the number
of panels entries are declared, as allocated. -/
theorem C66_toverc_partials (c : Bool) (ny : ℕ → ℕ) (p : ℕ → ℝ) (n : ℕ) :
    (∀ r k, r < off ny n → HasDerivAt (fun x => tcArr c ny (Function.update p k x) n r) (jac (tcTrip c ny n) r k) (p k)) ∧
    (tcTrip c ny n).length = off ny n * 2 := by
  constructor
  · intro r k hr
    obtain ⟨i, hi, h1, h2⟩ := panel_exists ny n r hr
    have hr' : r = off ny i + (r - off ny i) := by omega
    have hj : r - off ny i < ny i := by omega
    have e : (fun x => tcArr c ny (Function.update p k x) n r)
        = fun x => 0.5 * (nodal c (Function.update p k x i) (Function.update p k x (i + 1)) (ny i + 1) (r - off ny i)
          + nodal c (Function.update p k x i) (Function.update p k x (i + 1)) (ny i + 1) (r - off ny i + 1)) := by
      funext x
      conv_lhs => rw [hr']
      rw [tc_value c ny _ n i _ hi hj]
    rw [e]
    refine hd_congr (((region_hd c p i k (ny i + 1) (r - off ny i)).add
      (region_hd c p i k (ny i + 1) (r - off ny i + 1))).const_mul 0.5) ?_
    unfold tcTrip
    rw [jac_flatMap, Finset.sum_eq_single i]
    · unfold tcTrip1
      rw [jac_append, jac_range _ (off ny i) i r k (fun j => 0.5 * (nodalDStart c (ny i + 1) j + nodalDStart c (ny i + 1) (j + 1))),
        jac_range _ (off ny i) (i + 1) r k (fun j => 0.5 * (nodalDEnd c (ny i + 1) j + nodalDEnd c (ny i + 1) (j + 1)))]
      have A : (off ny i ≤ r ∧ r < off ny i + ny i ∧ i = k) ↔ k = i := ⟨fun h => h.2.2.symm, fun h => ⟨h1, h2, h.symm⟩⟩
      have B : (off ny i ≤ r ∧ r < off ny i + ny i ∧ i + 1 = k) ↔ k = i + 1 :=
        ⟨fun h => h.2.2.symm, fun h => ⟨h1, h2, h.symm⟩⟩
      simp only [A, B]
      split_ifs <;> ring
    · intro b _ hb
      unfold tcTrip1
      rw [jac_append, jac_range _ (off ny b) b r k (fun j => 0.5 * (nodalDStart c (ny b + 1) j + nodalDStart c (ny b + 1) (j + 1))),
        jac_range _ (off ny b) (b + 1) r k (fun j => 0.5 * (nodalDEnd c (ny b + 1) j + nodalDEnd c (ny b + 1) (j + 1)))]
      have nope : ¬ (off ny b ≤ r ∧ r < off ny b + ny b) := by
        rintro ⟨a1, a2⟩
        exact hb (panel_unique ny a1 a2 h1 h2)
      rw [if_neg (fun h => nope ⟨h.1, h.2.1⟩), if_neg (fun h => nope ⟨h.1, h.2.1⟩), add_zero]
    · intro h; exact absurd (Finset.mem_range.2 hi) h
  · induction n with
    | zero => simp [tcTrip, off]
    | succ m ih =>
      have e : tcTrip c ny (m + 1) = tcTrip c ny m ++ tcTrip1 c ny m := by
        unfold tcTrip; rw [List.range_succ, List.flatMap_append]; simp
      rw [e, List.length_append, ih, off_succ]
      unfold tcTrip1
      simp only [List.length_append, List.length_map, List.length_range]
      ring

/-- C66.  A region without panels breaks the interpolation (nothing rejects it): with panel counts (1, 0) and three
sections the last node carries the middle section's value, not the root's. -/
theorem C66_zero_panels (p : ℕ → ℝ) (c : Bool) :
    interpArr c (fun i => if i = 0 then 1 else 0) p 2 (off (fun i => if i = 0 then 1 else 0) 2) = p 1 := by
  have e : off (fun i => if i = 0 then 1 else 0) 2 = 1 := by decide
  have e1 : off (fun i => if i = 0 then 1 else 0) 1 = 1 := by decide
  rw [e]
  show writeSlice _ (off _ 1) _ _ 1 = _
  rw [e1]
  simp [writeSlice, nodal_w, nodalDEnd_zero]

example : interpArr true (fun _ => 3) (fun k => k + 1) 2 3 = 2 := by
  have := (C66_interp true (fun _ => 3) (fun k => (k : ℝ) + 1) 2 (by norm_num) (fun _ => by norm_num)).1 1 (by norm_num)
  have e : off (fun _ => 3) 1 = 3 := by decide
  rw [e] at this
  rw [this]; norm_num

end Verif.Mesh
