import Verif.Proof.Convergence
import Verif.Proof.Pade
import Mathlib.LinearAlgebra.FiniteDimensional.Basic
import Mathlib.Tactic.LinearCombination

/-!
Implicit Simpson integration of a linear relaxation `dT/dt = g - lam T`.
-/

namespace Verif.Integrals

open Matrix Verif.Pade

variable {m : ℕ}

/-- `T` solves the implicit integration of `g - lam T` with step `h` from `T0` -/
def Relaxes (h T0 : ℝ) (lam g T : Fin (m + 1) → ℝ) : Prop :=
  ∀ a, T a = T0 + (simpsonTri m *ᵥ fun b => g b - lam b * T b) a * h

theorem relaxes_iff {T0 d : ℝ} {lam g T : Fin (m + 1) → ℝ} :
    (∀ a, T a = integratorCompute (simpsonTri m) T0 (.duration d) (fun b => g b - lam b * T b) a)
      ↔ Relaxes (d / m) T0 lam g T := by
  simp only [integratorCompute_eq, Relaxes, TimeInput.step, add_comm T0]

/-- extension of a node vector by zero -/
noncomputable def ext (r : Fin (m + 1) → ℝ) (k : ℕ) : ℝ := if hk : k < m + 1 then r ⟨k, hk⟩ else 0

theorem ext_apply (r : Fin (m + 1) → ℝ) (b : Fin (m + 1)) : ext r b = r b := by
  unfold ext; rw [dif_pos b.2]

theorem ext_of_lt (r : Fin (m + 1) → ℝ) {k : ℕ} (hk : k < m + 1) : ext r k = r ⟨k, hk⟩ := by
  unfold ext; rw [dif_pos hk]

/-- the two equations of a Simpson interval -/
theorem relaxes_step (hm : m % 2 = 0) {h T0 : ℝ} {lam g T : Fin (m + 1) → ℝ} (H : Relaxes h T0 lam g T) :
    T 0 = T0 ∧ ∀ k (hk : 2 * k + 2 < m + 1),
      let r : ℕ → ℝ := fun j => ext (fun b => g b - lam b * T b) j
      T ⟨2 * k + 1, by omega⟩ - T ⟨2 * k, by omega⟩
        = (5 / 12 * r (2 * k) + 8 / 12 * r (2 * k + 1) - 1 / 12 * r (2 * k + 2)) * h ∧
      T ⟨2 * k + 2, hk⟩ - T ⟨2 * k, by omega⟩
        = (1 / 3 * r (2 * k) + 4 / 3 * r (2 * k + 1) + 1 / 3 * r (2 * k + 2)) * h := by
  have e : (fun b => g b - lam b * T b) = fun b : Fin (m + 1) => ext (fun b => g b - lam b * T b) b := by
    funext b; rw [ext_apply]
  have H' : ∀ a, T a = T0 + simRun (ext (fun b => g b - lam b * T b)) a * h := by
    intro a
    rw [H a, e, simRun_eq hm, ← e]
  refine ⟨by rw [H' 0]; simp [simRun], fun k hk => ?_⟩
  intro r
  constructor
  · have := simRun_even r k
    rw [H', H' ⟨2 * k, _⟩]
    simp only
    linear_combination h * this
  · have := simRun_pair r k
    rw [H', H' ⟨2 * k, _⟩]
    simp only
    linear_combination h * this

theorem det_pos {x y : ℝ} (hx : 0 ≤ x) (hy : 0 ≤ y) : 0 < (1 + 2 * x / 3) * (1 + y / 3) + x * y / 9 := by
  have := mul_nonneg hx hy
  nlinarith

theorem relax_unique_zero (hm : m % 2 = 0) {h : ℝ} (hh : 0 ≤ h) {lam T : Fin (m + 1) → ℝ} (hl : ∀ b, 0 ≤ lam b)
    (H : Relaxes h 0 lam 0 T) : T = 0 := by
  obtain ⟨h0, hs⟩ := relaxes_step hm H
  have key : ∀ k, ∀ hk : 2 * k < m + 1, T ⟨2 * k, hk⟩ = 0 ∧ ∀ hk' : 2 * k - 1 < m + 1, T ⟨2 * k - 1, hk'⟩ = 0 := by
    intro k
    induction k with
    | zero => exact fun _ => ⟨h0, fun _ => h0⟩
    | succ k ih =>
      intro hk
      obtain ⟨e0, -⟩ := ih (by omega)
      obtain ⟨e1, e2⟩ := hs k (by omega)
      simp only at e1 e2
      rw [ext_of_lt _ (by omega : 2 * k < m + 1), ext_of_lt _ (by omega : 2 * k + 1 < m + 1),
        ext_of_lt _ (by omega : 2 * k + 2 < m + 1), e0] at e1 e2
      simp only [Pi.zero_apply] at e1 e2
      have l1 := mul_nonneg (hl ⟨2 * k + 1, by omega⟩) hh
      have l2 := mul_nonneg (hl ⟨2 * k + 2, by omega⟩) hh
      have hd := det_pos l1 l2
      have d1 : T ⟨2 * k + 1, by omega⟩ = 0 := by
        refine (mul_eq_zero.1 (?_ : _ * ((1 + 2 * (lam ⟨2 * k + 1, by omega⟩ * h) / 3)
          * (1 + lam ⟨2 * k + 2, by omega⟩ * h / 3)
          + lam ⟨2 * k + 1, by omega⟩ * h * (lam ⟨2 * k + 2, by omega⟩ * h) / 9) = 0)).resolve_right hd.ne'
        linear_combination (1 + lam ⟨2 * k + 2, by omega⟩ * h / 3) * e1 + lam ⟨2 * k + 2, by omega⟩ * h / 12 * e2
      have d2 : T ⟨2 * k + 2, by omega⟩ = 0 := by
        rw [d1] at e2
        refine (mul_eq_zero.1 (?_ : _ * (1 + lam ⟨2 * k + 2, by omega⟩ * h / 3) = 0)).resolve_right (by positivity)
        linear_combination e2
      exact ⟨d2, fun _ => d1⟩
  funext a
  obtain ⟨a, ha⟩ := a
  rcases Nat.even_or_odd' a with ⟨k, rfl | rfl⟩
  · exact (key k ha).1
  · exact (key (k + 1) (by omega)).2 (by omega)

/-- the implicit equations have exactly one solution -/
theorem relax_existsUnique (hm : m % 2 = 0) {h : ℝ} (hh : 0 ≤ h) (T0 : ℝ) {lam : Fin (m + 1) → ℝ} (hl : ∀ b, 0 ≤ lam b)
    (g : Fin (m + 1) → ℝ) : ∃! T, Relaxes h T0 lam g T := by
  let L : (Fin (m + 1) → ℝ) →ₗ[ℝ] (Fin (m + 1) → ℝ) :=
    LinearMap.id + h • ((simpsonTri m).mulVecLin.comp (LinearMap.pi fun b => lam b • LinearMap.proj b))
  have hL : ∀ T a, L T a = T a + h * (simpsonTri m *ᵥ fun b => lam b * T b) a := by
    intro T a
    simp only [L, LinearMap.add_apply, LinearMap.id_apply, LinearMap.smul_apply, LinearMap.comp_apply, Pi.add_apply,
      Pi.smul_apply, Matrix.mulVecLin_apply, smul_eq_mul]
    rfl
  have hR : ∀ T, Relaxes h T0 lam g T ↔ L T = fun a => T0 + (simpsonTri m *ᵥ g) a * h := by
    intro T
    rw [funext_iff]
    refine forall_congr' fun a => ?_
    rw [hL]
    have : (fun b => g b - lam b * T b) = g - fun b => lam b * T b := rfl
    rw [this, Matrix.mulVec_sub, Pi.sub_apply]
    constructor <;> intro e <;> linear_combination e
  have inj : Function.Injective L := by
    rw [← LinearMap.ker_eq_bot, LinearMap.ker_eq_bot']
    intro T hT
    refine relax_unique_zero hm hh hl (T := T) fun a => ?_
    have := congrFun hT a
    rw [hL] at this
    have e : (fun b => (0 : Fin (m + 1) → ℝ) b - lam b * T b) = -fun b => lam b * T b := by
      funext b; simp
    rw [e, Matrix.mulVec_neg, Pi.neg_apply]
    simp only [Pi.zero_apply] at this
    linear_combination this
  obtain ⟨T, hT⟩ := (LinearMap.injective_iff_surjective.1 inj) fun a => T0 + (simpsonTri m *ᵥ g) a * h
  exact ⟨T, (hR T).2 hT, fun T' hT' => inj (((hR T').1 hT').trans hT.symm)⟩

/-- constant data: even nodes follow the (2,2) Padé approximant, odd nodes the factor `(1 - z²/6)/(1 + z + z²/3)` -/
theorem relax_const (hm : m % 2 = 0) {h T0 lam Te : ℝ} (hh : 0 ≤ h) (hl : 0 ≤ lam) {T : Fin (m + 1) → ℝ}
    (H : Relaxes h T0 (fun _ => lam) (fun _ => lam * Te) T) (k : ℕ) :
    (∀ hk : 2 * k < m + 1, T ⟨2 * k, hk⟩ - Te = (T0 - Te) * ratio (lam * h) ^ k) ∧
    (∀ hk : 2 * k + 1 < m + 1, T ⟨2 * k + 1, hk⟩ - Te
      = (T0 - Te) * ratio (lam * h) ^ k * ((6 - (lam * h) ^ 2) / (2 * (3 + 3 * (lam * h) + (lam * h) ^ 2)))) := by
  obtain ⟨h0, hs⟩ := relaxes_step hm H
  have hz := mul_nonneg hl hh
  have hd := den_pos (lam * h)
  have step : ∀ k (hk : 2 * k + 2 < m + 1), T ⟨2 * k + 2, hk⟩ - Te = (T ⟨2 * k, by omega⟩ - Te) * ratio (lam * h) ∧
      T ⟨2 * k + 1, by omega⟩ - Te = (T ⟨2 * k, by omega⟩ - Te)
        * ((6 - (lam * h) ^ 2) / (2 * (3 + 3 * (lam * h) + (lam * h) ^ 2))) := by
    intro k hk
    obtain ⟨e1, e2⟩ := hs k hk
    simp only at e1 e2
    rw [ext_of_lt _ (by omega : 2 * k < m + 1), ext_of_lt _ (by omega : 2 * k + 1 < m + 1),
      ext_of_lt _ (by omega : 2 * k + 2 < m + 1)] at e1 e2
    generalize T ⟨2 * k, _⟩ = a at *
    generalize T ⟨2 * k + 1, _⟩ = b at *
    generalize T ⟨2 * k + 2, _⟩ = c at *
    constructor
    · rw [ratio, ← mul_div_assoc, eq_div_iff hd.ne']
      linear_combination (3 + 2 * (lam * h)) * e2 - 4 * (lam * h) * e1
    · rw [← mul_div_assoc, eq_div_iff (by positivity)]
      linear_combination (6 + 2 * (lam * h)) * e1 + lam * h / 2 * e2
  have even : ∀ k, ∀ hk : 2 * k < m + 1, T ⟨2 * k, hk⟩ - Te = (T0 - Te) * ratio (lam * h) ^ k := by
    intro k
    induction k with
    | zero => intro _; rw [pow_zero, mul_one, ← h0]; rfl
    | succ k ih =>
      intro hk
      rw [pow_succ, ← mul_assoc, ← ih (by omega)]
      exact (step k hk).1
  refine ⟨even k, fun hk => ?_⟩
  rw [(step k (by omega)).2, even k]

/-- the exact solution of the relaxation -/
theorem relax_ode {lam Te T0 : ℝ} {θ : ℝ → ℝ} (h0 : θ 0 = T0) (hθ : ∀ t, HasDerivAt θ (lam * Te - lam * θ t) t) (t : ℝ) :
    θ t - Te = (T0 - Te) * Real.exp (-(lam * t)) := by
  have hc : ∀ x, HasDerivAt (fun x => (θ x - Te) * Real.exp (lam * x)) 0 x := by
    intro x
    have e : HasDerivAt (fun x => Real.exp (lam * x)) (Real.exp (lam * x) * lam) x := by
      have := ((hasDerivAt_id' x).const_mul lam).exp
      exact this.congr_deriv (by simp)
    exact (((hθ x).sub_const Te).mul e).congr_deriv (by ring)
  have := is_const_of_deriv_eq_zero (fun x => (hc x).differentiableAt) (fun x => (hc x).deriv) t 0
  simp only [h0, mul_zero, Real.exp_zero, mul_one] at this
  rw [← this, mul_assoc, ← Real.exp_add]
  simp

theorem ratio_lt_one {x : ℝ} (hx : 0 < x) : ratio x < 1 := by
  unfold ratio; rw [div_lt_one (den_pos x)]; linarith

theorem seg_mem {a b r x : ℝ} (h0 : 0 ≤ r) (h1 : r ≤ 1) (hx : x - b = (a - b) * r) : x ∈ Set.uIcc a b := by
  rw [Set.mem_uIcc]
  rcases le_total a b with h | h
  · left; constructor <;> nlinarith
  · right; constructor <;> nlinarith

/-- ends of Simpson intervals: no overshoot, strict approach, accuracy -/
theorem relax_settles (hm : m % 2 = 0) {h T0 lam Te : ℝ} (hh : 0 < h) (hl : 0 < lam) {T : Fin (m + 1) → ℝ}
    (H : Relaxes h T0 (fun _ => lam) (fun _ => lam * Te) T) :
    (∀ k (hk : 2 * k < m + 1), T ⟨2 * k, hk⟩ ∈ Set.uIcc T0 Te) ∧
    (T0 ≠ Te → ∀ k (hk : 2 * k + 2 < m + 1), |T ⟨2 * k + 2, hk⟩ - Te| < |T ⟨2 * k, by omega⟩ - Te|) ∧
    (∀ θ : ℝ → ℝ, θ 0 = T0 → (∀ t, HasDerivAt θ (lam * Te - lam * θ t) t) → ∀ k (hk : 2 * k < m + 1),
      |T ⟨2 * k, hk⟩ - θ ((2 * k : ℕ) * h)| ≤ |T0 - Te| * (lam * h) ^ 4 * (lam * ((2 * k : ℕ) * h)) / 45) := by
  have ev := fun k => (relax_const hm hh.le hl.le H k).1
  have hz := mul_pos hl hh
  have r0 := ratio_pos (lam * h)
  have r1 := ratio_lt_one hz
  refine ⟨fun k hk => ?_, fun hne k hk => ?_, fun θ h0 hθ k hk => ?_⟩
  · exact seg_mem (pow_pos r0 k).le (pow_le_one₀ r0.le r1.le) (ev k hk)
  · have e1 := ev (k + 1) hk
    have e0 := ev k (by omega)
    have : T ⟨2 * k + 2, hk⟩ - Te = (T0 - Te) * ratio (lam * h) ^ (k + 1) := e1
    rw [this, e0, abs_mul, abs_mul, abs_of_pos (pow_pos r0 _), abs_of_pos (pow_pos r0 _), pow_succ]
    have := mul_pos (abs_pos.2 (sub_ne_zero.2 hne)) (pow_pos r0 k)
    nlinarith
  · have e1 := ev k hk
    have e2 := relax_ode h0 hθ ((2 * k : ℕ) * h)
    have e3 : T ⟨2 * k, hk⟩ - θ ((2 * k : ℕ) * h)
        = (T0 - Te) * (ratio (lam * h) ^ k - Real.exp (-(lam * ((2 * k : ℕ) * h)))) := by
      linear_combination e1 - e2
    rcases Nat.eq_zero_or_pos k with rfl | hk0
    · rw [e3]; simp
    have hkr : (0 : ℝ) < k := by exact_mod_cast hk0
    obtain ⟨b1, b2⟩ := ratio_pow (lam * ((2 * k : ℕ) * h)) (by positivity) k hk0.ne'
    have ez : lam * ((2 * k : ℕ) * h) / (2 * k) = lam * h := by push_cast; field_simp
    rw [ez] at b1 b2
    rw [e3, abs_mul, abs_of_nonneg (sub_nonneg.2 b1)]
    refine (mul_le_mul_of_nonneg_left b2 (abs_nonneg _)).trans (le_of_eq ?_)
    push_cast
    field_simp
    ring

/-- all nodes stay between the initial value and the equilibrium while `lam h ≤ √6` … -/
theorem relax_between (hm : m % 2 = 0) {h T0 lam Te : ℝ} (hh : 0 < h) (hl : 0 < lam) {T : Fin (m + 1) → ℝ}
    (H : Relaxes h T0 (fun _ => lam) (fun _ => lam * Te) T) (hz : (lam * h) ^ 2 ≤ 6) (a : Fin (m + 1)) :
    T a ∈ Set.uIcc T0 Te := by
  have r0 := ratio_pos (lam * h)
  have r1 := ratio_lt_one (mul_pos hl hh)
  have zp := mul_pos hl hh
  obtain ⟨a, ha⟩ := a
  rcases Nat.even_or_odd' a with ⟨k, rfl | rfl⟩
  · exact (relax_settles hm hh hl H).1 k ha
  · have hd := den_pos (lam * h)
    have e := (relax_const hm hh.le hl.le H k).2 ha
    rw [mul_assoc] at e
    refine seg_mem ?_ ?_ e
    · exact mul_nonneg (pow_pos r0 k).le (div_nonneg (by linarith) (by positivity))
    · refine mul_le_one₀ (pow_le_one₀ r0.le r1.le) (div_nonneg (by linarith) (by positivity)) ?_
      rw [div_le_one (by positivity)]
      nlinarith

/-- … and the middle of every interval lies strictly beyond the equilibrium when `lam h > √6` -/
theorem relax_overshoot (hm : m % 2 = 0) {h T0 lam Te : ℝ} (hh : 0 < h) (hl : 0 < lam) {T : Fin (m + 1) → ℝ}
    (H : Relaxes h T0 (fun _ => lam) (fun _ => lam * Te) T) (hz : 6 < (lam * h) ^ 2) (k : ℕ) (hk : 2 * k + 1 < m + 1) :
    (Te < T0 → T ⟨2 * k + 1, hk⟩ < Te) ∧ (T0 < Te → Te < T ⟨2 * k + 1, hk⟩) := by
  have e := (relax_const hm hh.le hl.le H k).2 hk
  have r0 := pow_pos (ratio_pos (lam * h)) k
  have hd := den_pos (lam * h)
  have hf : (6 - (lam * h) ^ 2) / (2 * (3 + 3 * (lam * h) + (lam * h) ^ 2)) < 0 :=
    div_neg_of_neg_of_pos (by linarith) (by positivity)
  constructor <;> intro hT
  · have := mul_neg_of_pos_of_neg (mul_pos (sub_pos.2 hT) r0) hf
    linarith
  · have := mul_pos_of_neg_of_neg (mul_neg_of_neg_of_pos (sub_neg.2 hT) r0) hf
    linarith

end Verif.Integrals
