import Verif.Model.Breguet
import Verif.Proof.Pade
import Verif.Props.Integrals
import Verif.Props.IntegralsPartials

/-! Property C93: the minimal example aircraft obeys the force balance and the Breguet range equation. -/

namespace Verif.Breguet

open Verif.Phases Verif.Integrals Verif.Pade

variable {m : ℕ} {M : Matrix (Fin (m + 1)) (Fin (m + 1)) ℝ}

/-- C93.  In a converged steady phase the lift carries the weight's component across the flight path, the drag is the lift
divided by `L_over_D`, and the throttle provides drag plus the component along the path. -/
theorem C93_forces (p : Plane) (f : Flight m) (h : f.Converged p M) (a : Fin (m + 1)) (hw : f.weight a ≠ 0)
    (hq : f.q a ≠ 0) (hs : p.sref ≠ 0) :
    (f.accel p a).lift = f.weight a * grav * cosgamma (f.gs a) ∧
    (f.accel p a).drag = (f.accel p a).lift / p.lod ∧
    thrust p (f.throttle a) = f.weight a * grav * (cosgamma (f.gs a) / p.lod + singamma (f.gs a)) := by
  have hl : lift (f.cl p a) (f.q a) p.sref = f.weight a * grav * cosgamma (f.gs a) := by
    simp only [lift, Flight.cl, steadyCL]; field_simp
  have hd : drag p (f.q a) (f.cl p a) = lift (f.cl p a) (f.q a) p.sref / p.lod := by
    simp only [drag, lift]; ring
  refine ⟨hl, hd, ?_⟩
  have h0 := h.steady a
  simp only [accelHoriz, Flight.accel, mul_zero, zero_mul, sub_zero] at h0
  rw [hd, hl] at h0
  have e : thrust p (f.throttle a) / f.weight a
      = f.weight a * grav * cosgamma (f.gs a) / p.lod / f.weight a + grav * singamma (f.gs a) := by linarith
  rw [div_eq_iff hw] at e
  rw [e]
  have e2 : f.weight a * grav * cosgamma (f.gs a) / p.lod / f.weight a = grav * cosgamma (f.gs a) / p.lod := by
    field_simp
  rw [e2]; ring

/-- fuel flow per unit weight on a flight path -/
noncomputable def burnRate (p : Plane) (g : GsIn) : ℝ := p.tsfc * grav * (cosgamma g / p.lod + singamma g)

/-- the differences of consecutive values of the Simpson matrix -/
theorem simpson_diff (hm : m % 2 = 0) (r : Fin (m + 1) → ℝ) (k : ℕ) (hk : 2 * k + 2 ≤ m) :
    (simpsonTri m).mulVec r ⟨2 * k + 1, by omega⟩ - (simpsonTri m).mulVec r ⟨2 * k, by omega⟩
      = 5 / 12 * r ⟨2 * k, by omega⟩ + 8 / 12 * r ⟨2 * k + 1, by omega⟩ - 1 / 12 * r ⟨2 * k + 2, by omega⟩ := by
  let x : ℕ → ℝ := fun n => ∑ i ∈ Finset.range n,
    if i % 2 = 0 then 5 / 12 * ext0 r i + 8 / 12 * ext0 r (i + 1) - 1 / 12 * ext0 r (i + 2)
    else -1 / 12 * ext0 r (i - 1) + 8 / 12 * ext0 r i + 5 / 12 * ext0 r (i + 1)
  have hx : ∀ n, x (n + 1) = x n + (if n % 2 = 0 then 5 / 12 * ext0 r n + 8 / 12 * ext0 r (n + 1) - 1 / 12 * ext0 r (n + 2)
    else -1 / 12 * ext0 r (n - 1) + 8 / 12 * ext0 r n + 5 / 12 * ext0 r (n + 1)) := by
    intro n; simp only [x, Finset.sum_range_succ]
  have he : ∀ k, x (2 * k + 1) - x (2 * k) =
      5 / 12 * ext0 r (2 * k) + 8 / 12 * ext0 r (2 * k + 1) - 1 / 12 * ext0 r (2 * k + 2) := by
    intro k
    rw [hx, if_pos (by omega)]; ring
  have ho : ∀ k, x (2 * k + 2) - x (2 * k + 1) =
      -1 / 12 * ext0 r (2 * k) + 8 / 12 * ext0 r (2 * k + 1) + 5 / 12 * ext0 r (2 * k + 2) := by
    intro k
    rw [show 2 * k + 2 = (2 * k + 1) + 1 by ring, hx, if_neg (by omega)]; simp
  have key := fun a => simpsonTri_eq hm x (ext0 r) (by simp [x]) (fun k _ => he k) (fun k _ => ho k) a
  have hr : (fun b : Fin (m + 1) => ext0 r b) = r := by funext b; simp only [ext0, dif_pos b.2]
  rw [hr] at key
  rw [key, key]
  have := he k
  have e : ∀ i, ∀ hi : i < m + 1, ext0 r i = r ⟨i, hi⟩ := fun i hi => by simp [ext0, hi]
  rw [e _ (by omega), e _ (by omega), e _ (by omega)] at this
  exact this

/-- C93.  With constant speeds, at every pair of intervals the weight is multiplied by the same factor, the (2,2)-Padé
approximation of the exponential; `x` is the relative fuel consumption of one interval. -/
theorem C93_decay (hM : methodMatrix .simpson m = some M) (p : Plane) (f : Flight m) (h : f.Converged p M) (g : GsIn)
    (hg : ∀ a, f.gs a = g) (hw : ∀ a, f.weight a ≠ 0) (hq : ∀ a, f.q a ≠ 0) (hs : p.sref ≠ 0)
    (k : ℕ) (hk : 2 * k ≤ m) :
    f.weight ⟨2 * k, by omega⟩ = (p.tow - f.burned0) * ratio (burnRate p g * (f.duration / m)) ^ k := by
  obtain ⟨hm, rfl⟩ := methodMatrix_simpson.1 hM
  have hflow : (fun b => fuelFlow p (thrust p (f.throttle b))) = fun b => burnRate p g * f.weight b := by
    funext b
    rw [(C93_forces p f h b (hw b) (hq b) hs).2.2, hg]
    simp only [fuelFlow, burnRate]; ring
  have hW : ∀ a, f.weight a = p.tow - f.burned0
      - (simpsonTri m).mulVec (fun b => burnRate p g * f.weight b) a * (f.duration / m) := by
    intro a
    have := h.weight a
    rw [hflow, integratorCompute_eq] at this
    rw [this]
    simp only [weightCalc, TimeInput.step]; ring
  induction k with
  | zero =>
    have e0 : (⟨2 * 0, by omega⟩ : Fin (m + 1)) = 0 := rfl
    rw [e0, hW 0, mulVec_first hM]; simp
  | succ k ih =>
    have ih := ih (by omega)
    have d1 := simpson_diff hm (fun b => burnRate p g * f.weight b) k (by omega)
    have d2 := simpson_two_steps hm (fun b => burnRate p g * f.weight b) k (by omega)
    have w0 := hW ⟨2 * k, by omega⟩
    have w1 := hW ⟨2 * k + 1, by omega⟩
    have w2 := hW ⟨2 * k + 2, by omega⟩
    have e2 : (⟨2 * (k + 1), by omega⟩ : Fin (m + 1)) = ⟨2 * k + 2, by omega⟩ := rfl
    rw [e2]
    generalize hd : f.duration / m = d at *
    generalize hr : burnRate p g = r at *
    generalize f.weight ⟨2 * k, by omega⟩ = W0 at *
    generalize f.weight ⟨2 * k + 1, by omega⟩ = W1 at *
    generalize f.weight ⟨2 * k + 2, by omega⟩ = W2 at *
    have q1 : W1 = W0 - (5 / 12 * (r * W0) + 8 / 12 * (r * W1) - 1 / 12 * (r * W2)) * d := by
      rw [← d1]; linarith
    have q2 : W2 = W0 - (r * W0 + 4 * (r * W1) + r * W2) / 3 * d := by
      rw [← d2]; linarith
    have hden := den_pos (r * d)
    have key : W2 * (3 + 3 * (r * d) + (r * d) ^ 2) = W0 * (3 - 3 * (r * d) + (r * d) ^ 2) := by
      linear_combination (3 * (1 + 2 / 3 * (r * d))) * q2 + (-4 * (r * d)) * q1
    rw [pow_succ, ← mul_assoc, ← ih, ratio, mul_div_assoc', eq_div_iff hden.ne']
    exact key

theorem level_gs {u : ℝ} (hu : 0 < u) : cosgamma ⟨0, u⟩ = 1 ∧ singamma ⟨0, u⟩ = 0 ∧ groundspeed ⟨0, u⟩ = u := by
  have h : ¬ ((⟨0, u⟩ : GsIn).inside < 0) := by
    simp only [GsIn.inside, not_lt]; nlinarith [sq_nonneg u]
  have hgs : groundspeed ⟨0, u⟩ = u := by
    simp only [groundspeed, if_neg h]
    simp only [GsIn.inside]
    rw [show u ^ 2 - 0 ^ 2 = u ^ 2 by ring, Real.sqrt_sq hu.le]
  refine ⟨?_, ?_, hgs⟩
  · rw [cosgamma, hgs, div_self hu.ne']
  · rw [singamma, if_neg h]; simp

/-- C93.  Level cruise at constant speed: the computed weight at the end of the phase against the Breguet range equation
`W₁ = W₀ exp(-TSFC g R / (V L/D))`.  It is never below, and the error is at most `W₀ y⁵ / (45 (nn - 1)⁴)`; `R` is the distance
which the phase's own integrator computes. -/
theorem C93_breguet (hM : methodMatrix .simpson m = some M) (hm0 : m ≠ 0) (p : Plane) (f : Flight m)
    (h : f.Converged p M) (u r0 R : ℝ) (hu : 0 < u) (hlev : ∀ a, f.vs a = 0 ∧ f.utrue a = u) (hw : ∀ a, f.weight a ≠ 0)
    (hq : ∀ a, f.q a ≠ 0) (hs : p.sref ≠ 0) (hT : 0 ≤ f.duration) (hc : 0 ≤ p.tsfc) (hl : 0 < p.lod)
    (hW : f.burned0 ≤ p.tow)
    (hR : R = integratorFinal M r0 (.duration f.duration) (fun a => groundspeed ⟨f.vs a, f.utrue a⟩) - r0) :
    let y := p.tsfc * grav * R / (u * p.lod)
    let W0 := p.tow - f.burned0
    f.weight 0 = W0 ∧ W0 * Real.exp (-y) ≤ f.weight (Fin.last m) ∧
    f.weight (Fin.last m) ≤ W0 * (Real.exp (-y) + y ^ 5 / (45 * m ^ 4)) := by
  intro y W0
  replace hlev : ∀ a, f.gs a = ⟨0, u⟩ := fun a => by rw [Flight.gs, (hlev a).1, (hlev a).2]
  change R = integratorFinal M r0 (.duration f.duration) (fun a => groundspeed (f.gs a)) - r0 at hR
  obtain ⟨c1, c2, c3⟩ := level_gs hu
  have hm := (methodMatrix_simpson.1 hM).1
  obtain ⟨n, rfl⟩ : ∃ n, m = 2 * n := ⟨m / 2, by omega⟩
  have hn : n ≠ 0 := by omega
  have hn' : (0 : ℝ) < n := by exact_mod_cast Nat.pos_of_ne_zero hn
  have hg : 0 < grav := by norm_num [grav]
  have hRv : R = u * f.duration := by
    rw [hR]
    have h1 := C01_simpson_exact_quadratic hM (Polynomial.C u) (by simp) (.duration f.duration) 0 r0 (Fin.last (2 * n))
    simp only [Polynomial.eval_C] at h1
    simp only [integratorFinal, hlev, c3]
    rw [h1]
    simp only [intervalIntegral.integral_const, TimeInput.step, smul_eq_mul, Fin.val_last]
    field_simp
    ring
  have hb : burnRate p ⟨0, u⟩ = p.tsfc * grav / p.lod := by
    simp only [burnRate, c1, c2]; ring
  have hx : burnRate p ⟨0, u⟩ * (f.duration / (2 * n : ℕ)) = y / (2 * n) := by
    simp only [y, hRv, hb]
    push_cast
    field_simp
  have hy : 0 ≤ y := by simp only [y, hRv]; positivity
  have hd := C93_decay hM p f h ⟨0, u⟩ hlev hw hq hs
  have e : (⟨2 * n, by omega⟩ : Fin (2 * n + 1)) = Fin.last (2 * n) := rfl
  have hlast := hd n le_rfl
  rw [e, hx] at hlast
  obtain ⟨p1, p2⟩ := ratio_pow y hy n hn
  have hW0 : 0 ≤ W0 := sub_nonneg.2 hW
  refine ⟨?_, ?_, ?_⟩
  · have := hd 0 (by omega)
    simpa using this
  · rw [hlast]
    exact mul_le_mul_of_nonneg_left p1 hW0
  · rw [hlast]
    apply mul_le_mul_of_nonneg_left _ hW0
    have e4 : y ^ 5 / (45 * ((2 * n : ℕ) : ℝ) ^ 4) = y ^ 5 / (720 * n ^ 4) := by
      push_cast; congr 1; ring
    rw [e4]; linarith

/-- weights at the nodes of the solution of the discrete equations -/
noncomputable def decay (w0 x : ℝ) (i : ℕ) : ℝ :=
  if i % 2 = 0 then w0 * ratio x ^ (i / 2) else w0 * ratio x ^ (i / 2) * ((3 - x ^ 2 / 2) / (3 + 3 * x + x ^ 2))

/-- C93.  A converged level cruise exists for every plane with positive parameters and every nonnegative duration during
which less than the weight is burned in an interval: the hypotheses of `C93_breguet` can be met for every even `m`. -/
theorem C93_exists (hm : m % 2 = 0) (p : Plane) (u qv T q0 : ℝ) (hu : 0 < u) (hq : 0 < qv)
    (hs : 0 < p.sref) (hl : 0 < p.lod) (hc : 0 ≤ p.tsfc) (hmax : 0 < p.maxThrust) (hT : 0 ≤ T) (hw : q0 < p.tow)
    (h1 : p.tsfc * grav / p.lod * (T / m) ≤ 1) :
    ∃ f : Flight m, f.duration = T ∧ f.burned0 = q0 ∧ (∀ a, f.vs a = 0 ∧ f.utrue a = u) ∧ (∀ a, f.q a = qv) ∧
      (∀ a, 0 < f.weight a) ∧ f.Converged p (simpsonTri m) := by
  obtain ⟨c1, c2, c3⟩ := level_gs hu
  have hg : 0 < grav := by norm_num [grav]
  set r := p.tsfc * grav / p.lod with hr
  have hr0 : 0 ≤ r := by positivity
  set x := r * (T / m) with hxd
  have hx : 0 ≤ x := by positivity
  have hden := den_pos x
  have hw0 : 0 < p.tow - q0 := sub_pos.2 hw
  have hpos : ∀ i, 0 < decay (p.tow - q0) x i := by
    intro i
    have h2 := ratio_pos x
    have h3 : 0 < 3 - x ^ 2 / 2 := by nlinarith
    unfold decay
    split_ifs <;> positivity
  have hzero : decay (p.tow - q0) x 0 = p.tow - q0 := by simp [decay]
  have hev : ∀ k, decay (p.tow - q0) x (2 * k) = (p.tow - q0) * ratio x ^ k := by
    intro k; simp only [decay]; rw [if_pos (by omega), show 2 * k / 2 = k by omega]
  have hev2 : ∀ k, decay (p.tow - q0) x (2 * k + 2) = (p.tow - q0) * ratio x ^ k * ratio x := by
    intro k; rw [show 2 * k + 2 = 2 * (k + 1) by ring, hev, pow_succ]; ring
  have hod : ∀ k, decay (p.tow - q0) x (2 * k + 1)
      = (p.tow - q0) * ratio x ^ k * ((3 - x ^ 2 / 2) / (3 + 3 * x + x ^ 2)) := by
    intro k; simp only [decay]; rw [if_neg (by omega), show (2 * k + 1) / 2 = k by omega]
  -- the integrated fuel flow
  have hint : ∀ a : Fin (m + 1), (simpsonTri m).mulVec (fun b : Fin (m + 1) => r * decay (p.tow - q0) x b) a * (T / m)
      = p.tow - q0 - decay (p.tow - q0) x a := by
    intro a
    by_cases hd : T / m = 0
    · have hx0 : x = 0 := by rw [hxd, hd, mul_zero]
      have hcst : ∀ i, decay (p.tow - q0) x i = p.tow - q0 := by
        intro i; simp only [decay, hx0, ratio]; split_ifs <;> norm_num
      rw [hd, hcst]; simp
    · have key := simpsonTri_eq hm (fun i => (p.tow - q0 - decay (p.tow - q0) x i) / (T / m))
        (fun i => r * decay (p.tow - q0) x i) (by rw [hzero]; simp) (fun k _ => ?_) (fun k _ => ?_) a
      · rw [key, div_mul_cancel₀ _ hd]
      · rw [hev, hod, hev2]
        generalize (p.tow - q0) * ratio x ^ k = w
        rw [← sub_div, div_eq_iff hd]
        have e : ∀ A B C : ℝ, (5 / 12 * (r * A) + 8 / 12 * (r * B) - 1 / 12 * (r * C)) * (T / m)
            = x * (5 / 12 * A + 8 / 12 * B - 1 / 12 * C) := by intro A B C; rw [hxd]; ring
        rw [e]
        unfold ratio
        field_simp
        ring
      · rw [hev, hod, hev2]
        generalize (p.tow - q0) * ratio x ^ k = w
        rw [← sub_div, div_eq_iff hd]
        have e : ∀ A B C : ℝ, (-1 / 12 * (r * A) + 8 / 12 * (r * B) + 5 / 12 * (r * C)) * (T / m)
            = x * (-1 / 12 * A + 8 / 12 * B + 5 / 12 * C) := by intro A B C; rw [hxd]; ring
        rw [e]
        unfold ratio
        field_simp
        ring
  let f : Flight m := ⟨T, q0, fun _ => 0, fun _ => u, fun _ => qv,
    fun a => decay (p.tow - q0) x a * grav / p.lod / p.maxThrust, fun a => decay (p.tow - q0) x a⟩
  have hthr : ∀ a, thrust p (f.throttle a) = decay (p.tow - q0) x a * grav / p.lod := by
    intro a; simp only [f, thrust]; field_simp
  refine ⟨f, rfl, rfl, fun _ => ⟨rfl, rfl⟩, fun _ => rfl, fun a => hpos a, ⟨fun a => ?_, fun a => ?_⟩⟩
  · have hne := (hpos a).ne'
    have hgs : f.gs a = ⟨0, u⟩ := rfl
    have hfw : f.weight a = decay (p.tow - q0) x a := rfl
    have hfq : f.q a = qv := rfl
    simp only [accelHoriz, Flight.accel, hthr, drag, Flight.cl, steadyCL, hgs, c1, c2, hfw, hfq]
    field_simp
    ring
  · have hflow : (fun b => fuelFlow p (thrust p (f.throttle b))) = fun b : Fin (m + 1) => r * decay (p.tow - q0) x b := by
      funext b; rw [hthr]; simp only [fuelFlow, hr]; ring
    rw [hflow, integratorCompute_eq]
    have := hint a
    simp only [weightCalc, TimeInput.step]
    show decay (p.tow - q0) x a = p.tow - ((simpsonTri m).mulVec _ a * (T / m) + q0)
    rw [this]; ring

/-- C93.  With more and more nodes the landing weight tends to that of the Breguet equation, whatever converged solutions are
computed. -/
theorem C93_limit (p : Plane) (u T q0 : ℝ) (hu : 0 < u) (hs : p.sref ≠ 0) (hl : 0 < p.lod) (hc : 0 ≤ p.tsfc) (hT : 0 ≤ T)
    (hw : q0 ≤ p.tow) (f : ∀ n : ℕ, Flight (2 * (n + 1)))
    (hf : ∀ n, (f n).Converged p (simpsonTri (2 * (n + 1))) ∧ (f n).duration = T ∧ (f n).burned0 = q0 ∧
      ∀ a, ((f n).vs a = 0 ∧ (f n).utrue a = u) ∧ (f n).q a ≠ 0 ∧ (f n).weight a ≠ 0) :
    Filter.Tendsto (fun n => (f n).weight (Fin.last _)) Filter.atTop
      (nhds ((p.tow - q0) * Real.exp (-(p.tsfc * grav * T / p.lod)))) := by
  have hg : 0 < grav := by norm_num [grav]
  set y := p.tsfc * grav * T / p.lod with hy
  have hy0 : 0 ≤ y := by positivity
  have hW0 : 0 ≤ p.tow - q0 := sub_nonneg.2 hw
  obtain ⟨c1, c2, c3⟩ := level_gs hu
  have hfin : ∀ n, (f n).weight (Fin.last _) = (p.tow - q0) * ratio (y / (2 * ((n + 1 : ℕ) : ℝ))) ^ (n + 1) := by
    intro n
    obtain ⟨h1, h2, h3, h4⟩ := hf n
    have hM : methodMatrix (K := ℝ) .simpson (2 * (n + 1)) = some (simpsonTri (2 * (n + 1))) :=
      methodMatrix_simpson.2 ⟨by omega, rfl⟩
    have := C93_decay hM p (f n) h1 ⟨0, u⟩ (fun a => by rw [Flight.gs, (h4 a).1.1, (h4 a).1.2]) (fun a => (h4 a).2.2) (fun a => (h4 a).2.1) hs (n + 1) le_rfl
    have e : (⟨2 * (n + 1), by omega⟩ : Fin (2 * (n + 1) + 1)) = Fin.last (2 * (n + 1)) := rfl
    rw [e, h2, h3] at this
    rw [this]
    congr 3
    simp only [burnRate, c1, c2, hy]
    push_cast
    field_simp
    ring
  simp only [hfin]
  apply Filter.Tendsto.const_mul
  have hup : Filter.Tendsto (fun n : ℕ => Real.exp (-y) + y ^ 5 / (720 * ((n + 1 : ℕ) : ℝ) ^ 4)) Filter.atTop
      (nhds (Real.exp (-y))) := by
    have h1 : Filter.Tendsto (fun n : ℕ => y ^ 5 / 720 * (1 / ((n : ℝ) + 1)) ^ 4) Filter.atTop (nhds (y ^ 5 / 720 * 0 ^ 4)) :=
      (tendsto_one_div_add_atTop_nhds_zero_nat.pow 4).const_mul _
    have h2 := h1.const_add (Real.exp (-y))
    simp only [ne_eq, OfNat.ofNat_ne_zero, not_false_eq_true, zero_pow, mul_zero, add_zero] at h2
    refine h2.congr fun n => ?_
    push_cast
    field_simp
  refine tendsto_of_tendsto_of_tendsto_of_le_of_le tendsto_const_nhds hup (fun n => ?_) (fun n => ?_)
  · exact (ratio_pow y hy0 (n + 1) (by omega)).1
  · have := (ratio_pow y hy0 (n + 1) (by omega)).2
    show ratio _ ^ (n + 1) ≤ _
    linarith

/-- a cruise of the airplane of the example (5 t, L/D 10) for one hour with 11 nodes exists -/
example : ∃ f : Flight 10, f.duration = 3600 ∧ f.Converged ⟨25, 5000, 10000, 10, 2e-5⟩ (simpsonTri 10) := by
  obtain ⟨f, h1, _, _, _, _, h2⟩ := C93_exists (m := 10) rfl ⟨25, 5000, 10000, 10, 2e-5⟩ 100 3000 3600 0 (by norm_num)
    (by norm_num) (by norm_num) (by norm_num) (by norm_num) (by norm_num) (by norm_num) (by norm_num) (by norm_num [grav])
  exact ⟨f, h1, h2⟩

end Verif.Breguet
