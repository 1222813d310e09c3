import Verif.Model.HeatExchanger
import Verif.Proof.HDeriv
import Verif.Props.Chiller
import Mathlib.Analysis.Calculus.Deriv.MeanValue
import Mathlib.Tactic.NormNum

/-! Properties C53, C54 and C55: heat exchanger. -/

namespace Verif.HX

open Real Verif.Thermal

/-! ### C53: overall conductance -/

/-- the documented conductance: both fouling resistances in series with the two films -/
noncomputable def uaDoc (i : UAIn) : ℝ := 1 / (i.Rc + i.fc / i.Ac / i.ec + i.Rh + i.fh / i.Ah / i.eh)

/-- all inputs positive, fouling factors nonnegative -/
structure UAIn.Pos (i : UAIn) : Prop where
  hc : 0 < i.hc
  Ac : 0 < i.Ac
  ec : 0 < i.ec
  hh : 0 < i.hh
  Ah : 0 < i.Ah
  eh : 0 < i.eh
  fc : 0 ≤ i.fc
  fh : 0 ≤ i.fh

theorem UAIn.Pos.R {i : UAIn} (h : i.Pos) : 0 < i.R := by
  obtain ⟨_, _, _, _, _, _, _, _⟩ := h
  unfold UAIn.R UAIn.Rc UAIn.Rh UAIn.Rfc
  positivity

/-- C53 fails: the cold fouling factor has no effect on the conductance. -/
theorem C53_cold_fouling_ignored (i : UAIn) (f : ℝ) : ua {i with fc := f} = ua i := rfl

/-- C53: the conductance equals the documented one exactly when the two fouling resistances agree. -/
theorem C53_documented_iff (i : UAIn) (h : i.Pos) :
    ua i = uaDoc i ↔ i.fc / i.Ac / i.ec = i.fh / i.Ah / i.eh := by
  have hR := h.R
  obtain ⟨_, _, _, _, _, _, _, _⟩ := h
  have hD : 0 < i.Rc + i.fc / i.Ac / i.ec + i.Rh + i.fh / i.Ah / i.eh := by unfold UAIn.Rc UAIn.Rh; positivity
  unfold ua uaDoc
  rw [one_div, one_div, inv_inj]
  unfold UAIn.R UAIn.Rfc
  dsimp only
  constructor <;> intro e <;> linarith

/-- C53, negation with a witness: fouling on the cold side only. -/
theorem C53_witness : ∃ i : UAIn, i.Pos ∧ uaDoc i < ua i := by
  refine ⟨⟨1, 1, 1, 1, 1, 1, 1, 0⟩, ⟨one_pos, one_pos, one_pos, one_pos, one_pos, one_pos, zero_le_one, le_rfl⟩, ?_⟩
  norm_num [uaDoc, ua, UAIn.R, UAIn.Rc, UAIn.Rh, UAIn.Rfc]

/-- C53.  The conductance is positive and smaller than either side's. -/
theorem C53_smaller (i : UAIn) (h : i.Pos) :
    0 < ua i ∧ ua i < i.hc * i.Ac * i.ec ∧ ua i < i.hh * i.Ah * i.eh := by
  have hR := h.R
  obtain ⟨_, _, _, _, _, _, _, _⟩ := h
  refine ⟨by unfold ua; positivity, ?_, ?_⟩
  · have e : i.hc * i.Ac * i.ec = 1 / i.Rc := by unfold UAIn.Rc; field_simp
    rw [e]
    apply one_div_lt_one_div_of_lt (by unfold UAIn.Rc; positivity)
    have : 0 < i.Rh := by unfold UAIn.Rh; positivity
    have : 0 ≤ i.Rfc := by unfold UAIn.Rfc; positivity
    unfold UAIn.R; linarith
  · have e : i.hh * i.Ah * i.eh = 1 / i.Rh := by unfold UAIn.Rh; field_simp
    rw [e]
    apply one_div_lt_one_div_of_lt (by unfold UAIn.Rh; positivity)
    have : 0 < i.Rc := by unfold UAIn.Rc; positivity
    have : 0 ≤ i.Rfc := by unfold UAIn.Rfc; positivity
    unfold UAIn.R; linarith

theorem uaD_aux {R : ℝ → ℝ} {R' x : ℝ} (h : HasDerivAt R R' x) (h0 : R x ≠ 0) :
    HasDerivAt (fun y => 1 / R y) (-1 / R x ^ 2 * R') x := by
  refine hd_congr (hd_const_div 1 h h0) ?_
  ring

theorem ua_hasDeriv_hc (i : UAIn) (h : i.Pos) : HasDerivAt (fun x => ua {i with hc := x}) (uaDhc i) i.hc := by
  have hR := h.R.ne'
  have := h.hc.ne'
  refine uaD_aux (R := fun x => UAIn.R {i with hc := x}) ?_ hR
  simp only [UAIn.R, UAIn.Rc, UAIn.Rh, UAIn.Rfc]
  hderiv!

theorem ua_hasDeriv_hh (i : UAIn) (h : i.Pos) : HasDerivAt (fun x => ua {i with hh := x}) (uaDhh i) i.hh := by
  have hR := h.R.ne'
  have := h.hh.ne'
  refine uaD_aux (R := fun x => UAIn.R {i with hh := x}) ?_ hR
  simp only [UAIn.R, UAIn.Rc, UAIn.Rh, UAIn.Rfc]
  hderiv!

/-- the true derivative with respect to the cold area has no fouling term -/
theorem ua_hasDeriv_Ac (i : UAIn) (h : i.Pos) :
    HasDerivAt (fun x => ua {i with Ac := x}) (-1 / i.R ^ 2 * (-1 / i.hc / i.Ac ^ 2 / i.ec)) i.Ac := by
  have hR := h.R.ne'
  have := h.Ac.ne'
  refine uaD_aux (R := fun x => UAIn.R {i with Ac := x}) ?_ hR
  simp only [UAIn.R, UAIn.Rc, UAIn.Rh, UAIn.Rfc]
  hderiv!

theorem ua_hasDeriv_ec (i : UAIn) (h : i.Pos) :
    HasDerivAt (fun x => ua {i with ec := x}) (-1 / i.R ^ 2 * (-1 / i.hc / i.Ac / i.ec ^ 2)) i.ec := by
  have hR := h.R.ne'
  have := h.ec.ne'
  refine uaD_aux (R := fun x => UAIn.R {i with ec := x}) ?_ hR
  simp only [UAIn.R, UAIn.Rc, UAIn.Rh, UAIn.Rfc]
  hderiv!

/-- the true derivative with respect to the hot area has the fouling term twice -/
theorem ua_hasDeriv_Ah (i : UAIn) (h : i.Pos) :
    HasDerivAt (fun x => ua {i with Ah := x})
      (-1 / i.R ^ 2 * (-1 / i.hh / i.Ah ^ 2 / i.eh + 2 * (-i.fh / i.Ah ^ 2 / i.eh))) i.Ah := by
  have hR := h.R.ne'
  have := h.Ah.ne'
  refine uaD_aux (R := fun x => UAIn.R {i with Ah := x}) ?_ hR
  simp only [UAIn.R, UAIn.Rc, UAIn.Rh, UAIn.Rfc]
  hderiv
  ring

theorem ua_hasDeriv_eh (i : UAIn) (h : i.Pos) :
    HasDerivAt (fun x => ua {i with eh := x})
      (-1 / i.R ^ 2 * (-1 / i.hh / i.Ah / i.eh ^ 2 + 2 * (-i.fh / i.Ah / i.eh ^ 2))) i.eh := by
  have hR := h.R.ne'
  have := h.eh.ne'
  refine uaD_aux (R := fun x => UAIn.R {i with eh := x}) ?_ hR
  simp only [UAIn.R, UAIn.Rc, UAIn.Rh, UAIn.Rfc]
  hderiv
  ring

/-- C53.  Declared partials: those with respect to the film coefficients are exact; those with respect to the cold area
and efficiency are exact only without cold fouling, those with respect to the hot area and efficiency only without hot
fouling. -/
theorem C53_partials_iff (i : UAIn) (h : i.Pos) :
    HasDerivAt (fun x => ua {i with hc := x}) (uaDhc i) i.hc ∧
    HasDerivAt (fun x => ua {i with hh := x}) (uaDhh i) i.hh ∧
    (HasDerivAt (fun x => ua {i with Ac := x}) (uaDAc i) i.Ac ↔ i.fc = 0) ∧
    (HasDerivAt (fun x => ua {i with ec := x}) (uaDec i) i.ec ↔ i.fc = 0) ∧
    (HasDerivAt (fun x => ua {i with Ah := x}) (uaDAh i) i.Ah ↔ i.fh = 0) ∧
    (HasDerivAt (fun x => ua {i with eh := x}) (uaDeh i) i.eh ↔ i.fh = 0) := by
  have key : ∀ {f : ℝ → ℝ} {x a b c : ℝ}, HasDerivAt f a x → (a = b ↔ c = 0) → (HasDerivAt f b x ↔ c = 0) := by
    intro f x a b c h1 h2
    constructor
    · intro h3; exact h2.1 (h1.unique h3)
    · intro h3; rw [← h2.2 h3]; exact h1
  have hR := h.R.ne'
  obtain ⟨a1, a2, a3, a4, a5, a6, _, _⟩ := id h
  refine ⟨ua_hasDeriv_hc i h, ua_hasDeriv_hh i h, key (ua_hasDeriv_Ac i h) ?_, key (ua_hasDeriv_ec i h) ?_,
    key (ua_hasDeriv_Ah i h) ?_, key (ua_hasDeriv_eh i h) ?_⟩
  · unfold uaDAc
    rw [mul_right_inj' (div_ne_zero (by norm_num) (pow_ne_zero 2 hR)), left_eq_add, div_eq_zero_iff, div_eq_zero_iff]
    simp [a2.ne', a3.ne']
  · unfold uaDec
    rw [mul_right_inj' (div_ne_zero (by norm_num) (pow_ne_zero 2 hR)), left_eq_add, div_eq_zero_iff, div_eq_zero_iff]
    simp [a2.ne', a3.ne']
  · unfold uaDAh
    rw [mul_right_inj' (div_ne_zero (by norm_num) (pow_ne_zero 2 hR)), add_right_inj, mul_eq_right₀', div_eq_zero_iff,
      div_eq_zero_iff]
    simp [a5.ne', a6.ne']
  · unfold uaDeh
    rw [mul_right_inj' (div_ne_zero (by norm_num) (pow_ne_zero 2 hR)), add_right_inj, mul_eq_right₀', div_eq_zero_iff,
      div_eq_zero_iff]
    simp [a5.ne', a6.ne']
where mul_eq_right₀' {a : ℝ} : 2 * a = a ↔ a = 0 := by constructor <;> intro h <;> linarith

/-- C53, what holds: without fouling (the default, and what `HXGroup` uses) the conductance is the documented one and all
partials are exact.  Missing from the full claim: nonzero fouling factors. -/
theorem C53_clean_partial (i : UAIn) (h : i.Pos) (h0 : i.fc = 0) (h1 : i.fh = 0) :
    ua i = uaDoc i ∧ HasDerivAt (fun x => ua {i with Ac := x}) (uaDAc i) i.Ac ∧
    HasDerivAt (fun x => ua {i with ec := x}) (uaDec i) i.ec ∧
    HasDerivAt (fun x => ua {i with Ah := x}) (uaDAh i) i.Ah ∧
    HasDerivAt (fun x => ua {i with eh := x}) (uaDeh i) i.eh := by
  obtain ⟨_, _, p1, p2, p3, p4⟩ := C53_partials_iff i h
  exact ⟨(C53_documented_iff i h).2 (by rw [h0, h1]; simp), p1.2 h0, p2.2 h0, p3.2 h1, p4.2 h1⟩

example : ua ⟨100, 2, 0.9, 200, 1, 0.8, 0, 0⟩ < 100 * 2 * 0.9 :=
  (C53_smaller ⟨100, 2, 0.9, 200, 1, 0.8, 0, 0⟩ ⟨by norm_num, by norm_num, by norm_num, by norm_num, by norm_num,
    by norm_num, le_rfl, le_rfl⟩).2.1

/-! ### C54: effectiveness method -/

/-- C54.  The effectiveness lies in (0, 1), below the limit `1 - e^{-NTU}` of a vanishing capacity ratio. -/
theorem C54_eff_range {n Cr : ℝ} (hn : 0 < n) (hC : 0 < Cr) : 0 < eff n Cr ∧ eff n Cr < 1 - exp (-n) ∧ eff n Cr < 1 := by
  have hp : 0 < n ^ (0.78 : ℝ) := rpow_pos_of_pos hn _
  have hq : 0 < n ^ (0.22 : ℝ) := rpow_pos_of_pos hn _
  have hx : 0 < Cr * n ^ (0.78 : ℝ) := by positivity
  have hE : exp (-Cr * n ^ (0.78 : ℝ)) < 1 := by rw [exp_lt_one_iff]; linarith
  have hE2 : 1 - Cr * n ^ (0.78 : ℝ) < exp (-Cr * n ^ (0.78 : ℝ)) := by
    have := add_one_lt_exp (x := -Cr * n ^ (0.78 : ℝ)) (by linarith)
    linarith
  have hmul : n ^ (0.22 : ℝ) * n ^ (0.78 : ℝ) = n := by rw [← rpow_add hn]; norm_num
  have hneg : n ^ (0.22 : ℝ) / Cr * (exp (-Cr * n ^ (0.78 : ℝ)) - 1) < 0 :=
    mul_neg_of_pos_of_neg (by positivity) (by linarith)
  have hlow : -n < n ^ (0.22 : ℝ) / Cr * (exp (-Cr * n ^ (0.78 : ℝ)) - 1) := by
    have e : -n = n ^ (0.22 : ℝ) / Cr * (-(Cr * n ^ (0.78 : ℝ))) := by
      field_simp; rw [hmul]
    rw [e]
    exact mul_lt_mul_of_pos_left (by linarith) (by positivity)
  have h1 : exp (n ^ (0.22 : ℝ) / Cr * (exp (-Cr * n ^ (0.78 : ℝ)) - 1)) < 1 := by rwa [exp_lt_one_iff]
  have h2 := exp_lt_exp.2 hlow
  have h3 := exp_pos (n ^ (0.22 : ℝ) / Cr * (exp (-Cr * n ^ (0.78 : ℝ)) - 1))
  unfold eff
  exact ⟨by linarith, by linarith, by linarith⟩

/-- C54.  Declared partials of the effectiveness. -/
theorem C54_eff_partials {n Cr : ℝ} (hn : 0 < n) (hC : 0 < Cr) :
    HasDerivAt (fun x => eff n x) (effDCr n Cr) Cr ∧ HasDerivAt (fun x => eff x Cr) (effDntu n Cr) n := by
  have hmul : n ^ (0.22 : ℝ) * n ^ (0.78 : ℝ) = n := by rw [← rpow_add hn]; norm_num
  have hp : 0 < n ^ (0.78 : ℝ) := rpow_pos_of_pos hn _
  have hq : 0 < n ^ (0.22 : ℝ) := rpow_pos_of_pos hn _
  have e1 : n ^ (0.22 : ℝ) / Cr * (exp (-Cr * n ^ (0.78 : ℝ)) - 1)
      = n ^ (0.22 : ℝ) * (exp (-Cr * n ^ (0.78 : ℝ)) - 1) / Cr := by ring
  constructor
  · unfold eff effDCr
    refine hd_congr (f' := _) (g' := -(exp (n ^ (0.22 : ℝ) / Cr * (exp (-Cr * n ^ (0.78 : ℝ)) - 1)) *
      (-(n ^ (0.22 : ℝ)) / Cr ^ 2 * (exp (-Cr * n ^ (0.78 : ℝ)) - 1)
        + n ^ (0.22 : ℝ) / Cr * (exp (-Cr * n ^ (0.78 : ℝ)) * (-1 * n ^ (0.78 : ℝ)))))) ?_ ?_
    · have h1 : HasDerivAt (fun x : ℝ => exp (-x * n ^ (0.78 : ℝ)) - 1)
          (exp (-Cr * n ^ (0.78 : ℝ)) * (-1 * n ^ (0.78 : ℝ))) Cr :=
        (((hasDerivAt_id Cr).neg.mul_const _).exp).sub_const 1
      have h2 : HasDerivAt (fun x : ℝ => n ^ (0.22 : ℝ) / x) (-(n ^ (0.22 : ℝ)) / Cr ^ 2) Cr :=
        hd_congr (hd_const_div _ (hasDerivAt_id Cr) hC.ne') (by simp)
      exact ((h2.mul h1).exp).const_sub 1
    · rw [e1]
      generalize hE : exp (-Cr * n ^ (0.78 : ℝ)) = E
      generalize exp (n ^ (0.22 : ℝ) * (E - 1) / Cr) = F
      generalize n ^ (0.22 : ℝ) = a at *
      generalize n ^ (0.78 : ℝ) = b at *
      subst hmul
      field_simp
      ring
  · unfold eff effDntu
    have h0 : HasDerivAt (fun x : ℝ => x ^ (0.78 : ℝ)) (0.78 * n ^ (0.78 - 1 : ℝ)) n :=
      hasDerivAt_rpow_const (Or.inl hn.ne')
    have h0' : HasDerivAt (fun x : ℝ => x ^ (0.22 : ℝ)) (0.22 * n ^ (0.22 - 1 : ℝ)) n :=
      hasDerivAt_rpow_const (Or.inl hn.ne')
    have h1 := ((h0.const_mul (-Cr)).exp).sub_const 1
    have h2 := h0'.div_const Cr
    refine hd_congr (((h2.fun_mul h1).exp).const_sub 1) ?_
    have p1 : n ^ (0.78 - 1 : ℝ) = 1 / n ^ (0.22 : ℝ) := by
      rw [show (0.78 - 1 : ℝ) = -0.22 by norm_num, rpow_neg hn.le, one_div]
    have p2 : n ^ (0.22 - 1 : ℝ) = 1 / n ^ (0.78 : ℝ) := by
      rw [show (0.22 - 1 : ℝ) = -0.78 by norm_num, rpow_neg hn.le, one_div]
    rw [p1, p2, e1, sub_eq_add_neg (_ / Cr), exp_add,
      show -(Cr * n ^ (0.78 : ℝ)) = -Cr * n ^ (0.78 : ℝ) by ring]
    generalize exp (-Cr * n ^ (0.78 : ℝ)) = E
    generalize exp (n ^ (0.22 : ℝ) * (E - 1) / Cr) = F
    field_simp
    norm_num
    ring

/-- C54.  More transfer units raise the effectiveness, a larger capacity ratio lowers it. -/
theorem C54_eff_monotone :
    (∀ Cr > 0, StrictMonoOn (fun n => eff n Cr) (Set.Ioi 0)) ∧ (∀ n > 0, StrictAntiOn (fun Cr => eff n Cr) (Set.Ioi 0)) := by
  constructor
  · intro Cr hC
    refine strictMonoOn_of_deriv_pos (convex_Ioi 0) ?_ ?_
    · intro n hn
      exact (C54_eff_partials hn hC).2.continuousAt.continuousWithinAt
    · intro n hn
      rw [interior_Ioi] at hn
      rw [(C54_eff_partials hn hC).2.deriv]
      have hn' : 0 < n := hn
      have hp : 0 < n ^ (0.78 : ℝ) := rpow_pos_of_pos hn' _
      have hE : exp (-Cr * n ^ (0.78 : ℝ)) < 1 := by
        rw [exp_lt_one_iff]; have := mul_pos hC hp; linarith
      have a1 := exp_pos (n ^ (0.22 : ℝ) * (exp (-Cr * n ^ (0.78 : ℝ)) - 1) / Cr)
      have a2 := exp_pos (n ^ (0.22 : ℝ) * (exp (-Cr * n ^ (0.78 : ℝ)) - 1) / Cr - Cr * n ^ (0.78 : ℝ))
      unfold effDntu
      apply div_pos _ (by positivity)
      have b1 : 0 < 39 * Cr * n ^ (0.78 : ℝ)
          * exp (n ^ (0.22 : ℝ) * (exp (-Cr * n ^ (0.78 : ℝ)) - 1) / Cr - Cr * n ^ (0.78 : ℝ)) := by positivity
      have b2 := mul_pos a1 (sub_pos.2 hE)
      linarith
  · intro n hn
    refine strictAntiOn_of_deriv_neg (convex_Ioi 0) ?_ ?_
    · intro Cr hC
      exact (C54_eff_partials hn hC).1.continuousAt.continuousWithinAt
    · intro Cr hC
      rw [interior_Ioi] at hC
      rw [(C54_eff_partials hn hC).1.deriv]
      have hC' : 0 < Cr := hC
      have hmul : n ^ (0.22 : ℝ) * n ^ (0.78 : ℝ) = n := by rw [← rpow_add hn]; norm_num
      have hp : 0 < n ^ (0.78 : ℝ) := rpow_pos_of_pos hn _
      have hq : 0 < n ^ (0.22 : ℝ) := rpow_pos_of_pos hn _
      set x := Cr * n ^ (0.78 : ℝ) with hx
      have hx0 : 0 < x := by positivity
      have hE : exp (-x) * (1 + x) < 1 := by
        have h1 := add_one_lt_exp hx0.ne'
        have h2 : exp (-x) * exp x = 1 := by rw [← exp_add]; simp
        have := exp_pos (-x)
        nlinarith
      unfold effDCr
      have ex : -Cr * n ^ (0.78 : ℝ) = -x := by rw [hx]; ring
      rw [ex]
      have a1 := exp_pos (n ^ (0.22 : ℝ) * (exp (-x) - 1) / Cr)
      have e : -(n ^ (0.22 : ℝ) * (exp (-x) - 1)) / Cr ^ 2 - n * exp (-x) / Cr
          = n ^ (0.22 : ℝ) / Cr ^ 2 * (1 - exp (-x) * (1 + x)) := by
        have : n = n ^ (0.22 : ℝ) * n ^ (0.78 : ℝ) := hmul.symm
        have h3 : n * Cr = n ^ (0.22 : ℝ) * x := by rw [hx]; nth_rewrite 1 [this]; ring
        field_simp
        linear_combination (-exp (-x)) * h3
      rw [e]
      have : 0 < n ^ (0.22 : ℝ) / Cr ^ 2 * (1 - exp (-x) * (1 + x)) :=
        mul_pos (by positivity) (by linarith)
      nlinarith

/-- C54.  The smaller and the larger capacity: the two capacities in some order, so the ratio is in (0, 1]. -/
theorem C54_capacities (i : NtuIn) :
    i.Cmin = min i.Cc i.Ch ∧ i.Cmax = max i.Cc i.Ch ∧ (0 < i.Cc → 0 < i.Ch → 0 < cRatio i ∧ cRatio i ≤ 1) := by
  have h1 : i.Cmin = min i.Cc i.Ch := by
    unfold NtuIn.Cmin
    split_ifs with h
    · rw [min_eq_left h.le]
    · rw [min_eq_right (not_lt.1 h)]
  have h2 : i.Cmax = max i.Cc i.Ch := by
    unfold NtuIn.Cmax
    split_ifs with h
    · rw [max_eq_right h.le]
    · rw [max_eq_left (not_lt.1 h)]
  refine ⟨h1, h2, fun a b => ?_⟩
  unfold cRatio
  rw [h1, h2]
  have hm : 0 < min i.Cc i.Ch := lt_min a b
  have hM : 0 < max i.Cc i.Ch := lt_max_of_lt_left a
  exact ⟨div_pos hm hM, (div_le_one hM).2 (min_le_max)⟩

/-- C54.  Declared partials of the NTU method away from equal capacities. -/
theorem C54_ntu_partials (i : NtuIn) (hne : i.Cc ≠ i.Ch) (hmin : i.Cmin ≠ 0) (hmax : i.Cmax ≠ 0) :
    (HasDerivAt (fun x => ntu {i with UA := x}) (1 / i.Cmin) i.UA ∧
     HasDerivAt (fun x => ntu {i with mc := x}) (ntuD i (cminD i).1) i.mc ∧
     HasDerivAt (fun x => ntu {i with cpc := x}) (ntuD i (cminD i).2.1) i.cpc ∧
     HasDerivAt (fun x => ntu {i with mh := x}) (ntuD i (cminD i).2.2.1) i.mh ∧
     HasDerivAt (fun x => ntu {i with cph := x}) (ntuD i (cminD i).2.2.2) i.cph) ∧
    (HasDerivAt (fun x => heatMax {i with Tc := x}) (-i.Cmin) i.Tc ∧
     HasDerivAt (fun x => heatMax {i with Th := x}) i.Cmin i.Th ∧
     HasDerivAt (fun x => heatMax {i with mc := x}) (heatMaxD i (cminD i).1) i.mc ∧
     HasDerivAt (fun x => heatMax {i with cpc := x}) (heatMaxD i (cminD i).2.1) i.cpc ∧
     HasDerivAt (fun x => heatMax {i with mh := x}) (heatMaxD i (cminD i).2.2.1) i.mh ∧
     HasDerivAt (fun x => heatMax {i with cph := x}) (heatMaxD i (cminD i).2.2.2) i.cph) ∧
    (HasDerivAt (fun x => cRatio {i with mc := x}) (cRatioD i (cminD i).1 (cmaxD i).1) i.mc ∧
     HasDerivAt (fun x => cRatio {i with cpc := x}) (cRatioD i (cminD i).2.1 (cmaxD i).2.1) i.cpc ∧
     HasDerivAt (fun x => cRatio {i with mh := x}) (cRatioD i (cminD i).2.2.1 (cmaxD i).2.2.1) i.mh ∧
     HasDerivAt (fun x => cRatio {i with cph := x}) (cRatioD i (cminD i).2.2.2 (cmaxD i).2.2.2) i.cph) := by
  -- derivatives of the selected capacities along a curve `x ↦ j x` through `i`
  have key : ∀ (j : ℝ → NtuIn) (x : ℝ), j x = i → ∀ c' h' : ℝ, HasDerivAt (fun y => (j y).Cc) c' x →
      HasDerivAt (fun y => (j y).Ch) h' x →
      HasDerivAt (fun y => (j y).Cmin) (if i.Cc < i.Ch then c' else h') x ∧
      HasDerivAt (fun y => (j y).Cmax) (if i.Cc < i.Ch then h' else c') x := by
    intro j x hj c' h' hc hh
    rcases lt_or_gt_of_ne hne with h | h
    · have ev : ∀ᶠ y in nhds x, (j y).Cc < (j y).Ch :=
        hc.continuousAt.eventually_lt hh.continuousAt (by simpa [hj] using h)
      rw [if_pos h, if_pos h]
      exact ⟨hc.congr_of_eventuallyEq (ev.mono fun y hy => by simp only [NtuIn.Cmin, if_pos hy]),
        hh.congr_of_eventuallyEq (ev.mono fun y hy => by simp only [NtuIn.Cmax, if_pos hy])⟩
    · have ev : ∀ᶠ y in nhds x, (j y).Ch < (j y).Cc :=
        hh.continuousAt.eventually_lt hc.continuousAt (by simpa [hj] using h)
      rw [if_neg h.not_gt, if_neg h.not_gt]
      exact ⟨hh.congr_of_eventuallyEq (ev.mono fun y hy => by simp only [NtuIn.Cmin, if_neg hy.not_gt]),
        hc.congr_of_eventuallyEq (ev.mono fun y hy => by simp only [NtuIn.Cmax, if_neg hy.not_gt])⟩
  have k1 := key (fun x => {i with mc := x}) i.mc rfl i.cpc 0
    (by simp only [NtuIn.Cc]; hderiv!) (by simp only [NtuIn.Ch]; exact hasDerivAt_const _ _)
  have k2 := key (fun x => {i with cpc := x}) i.cpc rfl i.mc 0
    (by simp only [NtuIn.Cc]; hderiv!) (by simp only [NtuIn.Ch]; exact hasDerivAt_const _ _)
  have k3 := key (fun x => {i with mh := x}) i.mh rfl 0 i.cph
    (by simp only [NtuIn.Cc]; exact hasDerivAt_const _ _) (by simp only [NtuIn.Ch]; hderiv!)
  have k4 := key (fun x => {i with cph := x}) i.cph rfl 0 i.mh
    (by simp only [NtuIn.Cc]; exact hasDerivAt_const _ _) (by simp only [NtuIn.Ch]; hderiv!)
  have d1 : (cminD i).1 = (if i.Cc < i.Ch then i.cpc else 0) ∧ (cmaxD i).1 = (if i.Cc < i.Ch then 0 else i.cpc) ∧
      (cminD i).2.1 = (if i.Cc < i.Ch then i.mc else 0) ∧ (cmaxD i).2.1 = (if i.Cc < i.Ch then 0 else i.mc) ∧
      (cminD i).2.2.1 = (if i.Cc < i.Ch then 0 else i.cph) ∧ (cmaxD i).2.2.1 = (if i.Cc < i.Ch then i.cph else 0) ∧
      (cminD i).2.2.2 = (if i.Cc < i.Ch then 0 else i.mh) ∧ (cmaxD i).2.2.2 = (if i.Cc < i.Ch then i.mh else 0) := by
    unfold cminD cmaxD
    split_ifs <;> simp
  obtain ⟨e1, e2, e3, e4, e5, e6, e7, e8⟩ := d1
  rw [e1, e2, e3, e4, e5, e6, e7, e8]
  have fN : ∀ {f : ℝ → ℝ} {d x : ℝ}, HasDerivAt f d x → f x = i.Cmin →
      HasDerivAt (fun y => i.UA / f y) (ntuD i d) x := by
    intro f d x hf e
    refine hd_congr (hd_const_div i.UA hf (by rw [e]; exact hmin)) ?_
    unfold ntuD; rw [e]; ring
  have fR : ∀ {f g : ℝ → ℝ} {d d' x : ℝ}, HasDerivAt f d x → HasDerivAt g d' x → f x = i.Cmin → g x = i.Cmax →
      HasDerivAt (fun y => f y / g y) (cRatioD i d d') x := by
    intro f g d d' x hf hg e e'
    refine hd_congr (hd_div hf hg (by rw [e']; exact hmax)) ?_
    unfold cRatioD; rw [e, e']; ring
  have fM : ∀ {f : ℝ → ℝ} {d x : ℝ}, HasDerivAt f d x → HasDerivAt (fun y => (i.Th - i.Tc) * f y) (heatMaxD i d) x :=
    fun hf => hf.const_mul _
  refine ⟨⟨?_, fN k1.1 rfl, fN k2.1 rfl, fN k3.1 rfl, fN k4.1 rfl⟩,
    ⟨?_, ?_, fM k1.1, fM k2.1, fM k3.1, fM k4.1⟩,
    ⟨fR k1.1 k1.2 rfl rfl, fR k2.1 k2.2 rfl rfl, fR k3.1 k3.2 rfl rfl, fR k4.1 k4.2 rfl rfl⟩⟩
  · exact (hasDerivAt_id i.UA).div_const i.Cmin
  · refine hd_congr (((hasDerivAt_id i.Tc).const_sub i.Th).mul_const i.Cmin) (by ring)
  · refine hd_congr (((hasDerivAt_id i.Th).sub_const i.Tc).mul_const i.Cmin) (by ring)

/-- C54.  Energy balance of the outlet temperatures, and their declared partials. -/
theorem C54_outlet_energy (q mc Tc cpc mh Th cph : ℝ) (h1 : mc ≠ 0) (h2 : cpc ≠ 0) (h3 : mh ≠ 0) (h4 : cph ≠ 0) :
    mc * cpc * (toutCold q mc Tc cpc - Tc) = q ∧ mh * cph * (Th - toutHot q mh Th cph) = q ∧
    HasDerivAt (fun x => toutCold x mc Tc cpc) (toutColdD q mc cpc).1 q ∧
    HasDerivAt (fun x => toutCold q x Tc cpc) (toutColdD q mc cpc).2.1 mc ∧
    HasDerivAt (fun x => toutCold q mc Tc x) (toutColdD q mc cpc).2.2 cpc ∧
    HasDerivAt (fun x => toutCold q mc x cpc) 1 Tc ∧
    HasDerivAt (fun x => toutHot x mh Th cph) (toutHotD q mh cph).1 q ∧
    HasDerivAt (fun x => toutHot q x Th cph) (toutHotD q mh cph).2.1 mh ∧
    HasDerivAt (fun x => toutHot q mh Th x) (toutHotD q mh cph).2.2 cph ∧
    HasDerivAt (fun x => toutHot q mh x cph) 1 Th := by
  simp only [toutCold, toutHot, toutColdD, toutHotD]
  refine ⟨by field_simp; ring, by field_simp; ring, ?_, ?_, ?_, ?_, ?_, ?_, ?_, ?_⟩ <;> hderiv!

/-- C54.  Second law: with the heat of the effectiveness method both outlet temperatures lie between the two inlet
temperatures, strictly inside when the inlets differ; heat flows from hot to cold. -/
theorem C54_second_law (i : NtuIn) (hU : 0 < i.UA) (h1 : 0 < i.mc) (h2 : 0 < i.cpc) (h3 : 0 < i.mh) (h4 : 0 < i.cph)
    (hT : i.Tc < i.Th) :
    0 < groupQ i ∧ i.Tc < toutCold (groupQ i) i.mc i.Tc i.cpc ∧ toutCold (groupQ i) i.mc i.Tc i.cpc < i.Th ∧
    i.Tc < toutHot (groupQ i) i.mh i.Th i.cph ∧ toutHot (groupQ i) i.mh i.Th i.cph < i.Th := by
  have hCc : 0 < i.Cc := mul_pos h1 h2
  have hCh : 0 < i.Ch := mul_pos h3 h4
  obtain ⟨em, eM, hr⟩ := C54_capacities i
  have hm : 0 < i.Cmin := by rw [em]; exact lt_min hCc hCh
  obtain ⟨r0, _⟩ := hr hCc hCh
  obtain ⟨e0, _, e1⟩ := C54_eff_range (n := ntu i) (Cr := cRatio i) (div_pos hU hm) r0
  have hq : groupQ i = eff (ntu i) (cRatio i) * (i.Th - i.Tc) * i.Cmin := by
    unfold groupQ heatTransfer heatMax; ring
  have hd : 0 < i.Th - i.Tc := by linarith
  have hq0 : 0 < groupQ i := by rw [hq]; positivity
  have hlt : groupQ i < (i.Th - i.Tc) * i.Cmin := by
    rw [hq]
    have := mul_pos hd hm
    nlinarith
  have c1 : groupQ i < (i.Th - i.Tc) * i.Cc := hlt.trans_le (by
    apply mul_le_mul_of_nonneg_left _ hd.le; rw [em]; exact min_le_left _ _)
  have c2 : groupQ i < (i.Th - i.Tc) * i.Ch := hlt.trans_le (by
    apply mul_le_mul_of_nonneg_left _ hd.le; rw [em]; exact min_le_right _ _)
  have t1 : groupQ i / i.mc / i.cpc = groupQ i / i.Cc := by unfold NtuIn.Cc; rw [div_div]
  have t2 : groupQ i / i.mh / i.cph = groupQ i / i.Ch := by unfold NtuIn.Ch; rw [div_div]
  have s1 : groupQ i / i.Cc < i.Th - i.Tc := (div_lt_iff₀ hCc).2 c1
  have s2 : groupQ i / i.Ch < i.Th - i.Tc := (div_lt_iff₀ hCh).2 c2
  have p1 := div_pos hq0 hCc
  have p2 := div_pos hq0 hCh
  unfold toutCold toutHot
  rw [t1, t2]
  refine ⟨hq0, by linarith, by linarith, by linarith, by linarith⟩

/-- C54.  Equal inlet temperatures transfer no heat. -/
theorem C54_equal_inlets (i : NtuIn) (h : i.Th = i.Tc) :
    groupQ i = 0 ∧ toutCold (groupQ i) i.mc i.Tc i.cpc = i.Tc ∧ toutHot (groupQ i) i.mh i.Th i.cph = i.Th := by
  have : groupQ i = 0 := by unfold groupQ heatTransfer heatMax; rw [h]; simp
  rw [this]; simp [toutCold, toutHot]

/-! ### C55: geometry, fins, pressure drop -/

/-- all geometric inputs positive -/
structure Geo.Pos (g : Geo) : Prop where
  wc : 0 < g.wc
  hc : 0 < g.hc
  lc : 0 < g.lc
  wh : 0 < g.wh
  hh : 0 < g.hh
  lh : 0 < g.lh
  tf : 0 < g.tf
  tp : 0 < g.tp
  tc : 0 < g.tc
  nWide : 0 < g.nWide
  nLong : 0 < g.nLong
  nTall : 0 < g.nTall
  rho : 0 < g.rho

/-- C55.  Hydraulic diameter: `4 · flow area · flow length / wetted area`.  On the hot side the wetted area is the heat
transfer area; on the cold side it also includes the edges of the fins (`2 t_f h + t_f w` per fin). -/
theorem C55_hydraulic_diameter (g : Geo) (h : g.Pos) :
    g.dhHot = 4 * g.xsHot * g.width / g.areaHot ∧
    g.dhCold = 4 * g.xsCold * g.length
      / (g.areaCold + (2 * g.tf * g.hc + g.tf * g.wc) * g.nLong * g.nWide * g.nTall) := by
  obtain ⟨_, _, _, _, _, _, _, _, _, _, _, _, _⟩ := h
  constructor
  · unfold Geo.dhHot Geo.xsHot Geo.areaHot Geo.nLongHot Geo.nWideHot Geo.width Geo.length
    have : g.wh + g.tf ≠ 0 := by positivity
    have : g.tf + g.wc ≠ 0 := by positivity
    have : g.wh + g.hh ≠ 0 := by positivity
    field_simp
    ring
  · unfold Geo.dhCold Geo.xsCold Geo.areaCold Geo.length
    have h1 : 2 * (g.wc * g.lc + g.hc * g.lc + g.tf * g.hc) + g.tf * g.wc ≠ 0 := by positivity
    have h2 : 2 * (g.wc + g.hc) * g.lc * g.nLong * g.nWide * g.nTall
        + (2 * g.tf * g.hc + g.tf * g.wc) * g.nLong * g.nWide * g.nTall ≠ 0 := by positivity
    rw [div_eq_div_iff h1 h2]
    ring

/-- C55.  The cold side's hydraulic diameter is therefore smaller than the hot side formula would give. -/
theorem C55_sides_differ (g : Geo) (h : g.Pos) : g.dhCold < 2 * g.wc * g.hc / (g.wc + g.hc) := by
  obtain ⟨_, _, _, _, _, _, _, _, _, _, _, _, _⟩ := h
  unfold Geo.dhCold
  rw [div_lt_div_iff₀ (by positivity) (by positivity)]
  have : 0 < g.wc * g.hc * (2 * g.tf * g.hc + g.tf * g.wc) := by positivity
  nlinarith

/-- C55.  All geometric outputs are positive. -/
theorem C55_positive (g : Geo) (h : g.Pos) :
    0 < g.height ∧ 0 < g.width ∧ 0 < g.length ∧ 0 < g.frontal ∧ 0 < g.dhCold ∧ 0 < g.dhHot ∧ 0 < g.xsCold ∧ 0 < g.xsHot ∧
    0 < g.areaCold ∧ 0 < g.areaHot ∧ 0 < g.plateVolume ∧ 0 < g.finVolume ∧ 0 < g.caseVolume ∧ 0 < g.weight := by
  obtain ⟨_, _, _, _, _, _, _, _, _, _, _, _, _⟩ := h
  simp only [Geo.weight, Geo.plateVolume, Geo.finVolume, Geo.caseVolume, Geo.frontal, Geo.dhCold, Geo.dhHot, Geo.xsCold,
    Geo.xsHot, Geo.areaCold, Geo.areaHot, Geo.nLongHot, Geo.nWideHot, Geo.height, Geo.width, Geo.length]
  refine ⟨?_, ?_, ?_, ?_, ?_, ?_, ?_, ?_, ?_, ?_, ?_, ?_, ?_, ?_⟩ <;> positivity

/-- C55.  Area ratios: fin area ratios and contraction ratios lie strictly between 0 and 1, and the free flow areas of both
sides fit into the frontal and side faces together. -/
theorem C55_ratios (g : Geo) (h : g.Pos) :
    (0 < g.finRatioCold ∧ g.finRatioCold < 1) ∧ (0 < g.finRatioHot ∧ g.finRatioHot < 1) ∧
    (0 < g.contractionCold ∧ g.contractionCold < 1) ∧ (0 < g.contractionHot ∧ g.contractionHot < 1) ∧
    g.contractionCold + g.contractionHot < 1 := by
  obtain ⟨pH, pW, pL, pF, _, _, pxc, pxh, _⟩ := C55_positive g h
  obtain ⟨_, _, _, _, _, _, _, _, _, _, _, _, _⟩ := h
  have e1 : g.contractionCold = g.wc / (g.tf + g.wc) * (g.hc / (2 * (g.tf + g.tp) + g.hc + g.hh)) := by
    unfold Geo.contractionCold Geo.xsCold Geo.frontal Geo.width Geo.height
    field_simp
  have e2 : g.contractionHot = g.wh / (g.wh + g.tf) * (g.hh / (2 * (g.tf + g.tp) + g.hc + g.hh)) := by
    unfold Geo.contractionHot Geo.xsHot Geo.nWideHot Geo.height
    have := pL.ne'
    field_simp
  have hS : 0 < 2 * (g.tf + g.tp) + g.hc + g.hh := by positivity
  have b1 : g.wc / (g.tf + g.wc) < 1 := (div_lt_one (by positivity)).2 (by linarith)
  have b2 : g.wh / (g.wh + g.tf) < 1 := (div_lt_one (by positivity)).2 (by linarith)
  have p1 : 0 < g.wc / (g.tf + g.wc) := by positivity
  have p2 : 0 < g.wh / (g.wh + g.tf) := by positivity
  have q1 : 0 < g.hc / (2 * (g.tf + g.tp) + g.hc + g.hh) := by positivity
  have q2 : 0 < g.hh / (2 * (g.tf + g.tp) + g.hc + g.hh) := by positivity
  have hsum : g.hc / (2 * (g.tf + g.tp) + g.hc + g.hh) + g.hh / (2 * (g.tf + g.tp) + g.hc + g.hh) < 1 := by
    rw [← add_div, div_lt_one hS]; linarith
  refine ⟨⟨?_, ?_⟩, ⟨?_, ?_⟩, ⟨?_, ?_⟩, ⟨?_, ?_⟩, ?_⟩
  · unfold Geo.finRatioCold; positivity
  · unfold Geo.finRatioCold; exact (div_lt_one (by positivity)).2 (by linarith)
  · unfold Geo.finRatioHot; positivity
  · unfold Geo.finRatioHot; exact (div_lt_one (by positivity)).2 (by linarith)
  · rw [e1]; positivity
  · rw [e1]; nlinarith
  · rw [e2]; positivity
  · rw [e2]; nlinarith
  · rw [e1, e2]; nlinarith

theorem tanh_lt_self {x : ℝ} (hx : 0 < x) : tanh x < x := by
  rw [tanh_eq_sinh_div_cosh, div_lt_iff₀ (cosh_pos x)]
  have hd : ∀ y : ℝ, HasDerivAt (fun y => y * cosh y - sinh y) (y * sinh y) y := by
    intro y
    refine hd_congr (((hasDerivAt_id y).mul (hasDerivAt_cosh y)).sub (hasDerivAt_sinh y)) ?_
    simp only [id]; ring
  have hm : StrictMonoOn (fun y : ℝ => y * cosh y - sinh y) (Set.Ici 0) := by
    refine strictMonoOn_of_deriv_pos (convex_Ici 0) ?_ ?_
    · intro y _; exact (hd y).continuousAt.continuousWithinAt
    · intro y hy
      rw [interior_Ici] at hy
      rw [(hd y).deriv]
      exact mul_pos hy (sinh_pos_iff.2 hy)
  have := hm (Set.mem_Ici.2 le_rfl) (Set.mem_Ici.2 hx.le) hx
  simp at this
  linarith

/-- C55.  The fin efficiency lies in (0, 1), hence the overall efficiency lies in (0, 1] for an area ratio in [0, 1]. -/
theorem C55_fin_efficiency (ratio h l k tf : ℝ) (hh : 0 < h) (hl : 0 < l) (hk : 0 < k) (ht : 0 < tf) (h0 : 0 ≤ ratio)
    (h1 : ratio ≤ 1) :
    0 < finEta (finM h k tf) l ∧ finEta (finM h k tf) l < 1 ∧ 0 < etaOverall ratio h l k tf ∧
    etaOverall ratio h l k tf ≤ 1 := by
  have hm : 0 < finM h k tf := by unfold finM; positivity
  have hx : 0 < finM h k tf * l / 2 := by positivity
  have a := tanh_pos' hx
  have b := tanh_lt_self hx
  have c1 : 0 < finEta (finM h k tf) l := by unfold finEta; positivity
  have c2 : finEta (finM h k tf) l < 1 := by
    unfold finEta
    rw [div_div, div_lt_one (by positivity)]
    linarith
  unfold etaOverall
  refine ⟨c1, c2, ?_, ?_⟩ <;> nlinarith

theorem hasDerivAt_tanh' (x : ℝ) : HasDerivAt tanh ((cosh x ^ 2)⁻¹) x := by
  have h := (hasDerivAt_sinh x).fun_div (hasDerivAt_cosh x) (cosh_pos x).ne'
  have e : tanh = fun x => sinh x / cosh x := by funext x; exact tanh_eq_sinh_div_cosh x
  rw [e]
  refine hd_congr h ?_
  have := cosh_sq x
  have hc := (cosh_pos x).ne'
  field_simp
  linarith

theorem finEta_partials {m l : ℝ} (hm : 0 < m) (hl : 0 < l) :
    HasDerivAt (fun x => finEta x l) (finEtaDm m l) m ∧ HasDerivAt (fun x => finEta m x) (finEtaDl m l) l := by
  have h1 : HasDerivAt (fun x => tanh (x * l / 2)) ((cosh (m * l / 2) ^ 2)⁻¹ * (1 * l / 2)) m :=
    HasDerivAt.comp (h₂ := tanh) m (hasDerivAt_tanh' (m * l / 2)) (((hasDerivAt_id' m).mul_const l).div_const 2)
  have h2 : HasDerivAt (fun x => tanh (m * x / 2)) ((cosh (m * l / 2) ^ 2)⁻¹ * (m * 1 / 2)) l :=
    HasDerivAt.comp (h₂ := tanh) l (hasDerivAt_tanh' (m * l / 2)) (((hasDerivAt_id' l).const_mul m).div_const 2)
  have hc := (cosh_pos (m * l / 2)).ne'
  constructor
  · refine hd_congr ((hd_div (h1.const_mul 2) (hasDerivAt_id' m) hm.ne').div_const l) ?_
    unfold finEtaDm
    field_simp
  · refine hd_congr (hd_div ((h2.const_mul 2).div_const m) (hasDerivAt_id' l) hl.ne') ?_
    unfold finEtaDl
    field_simp

theorem finM_partials {h k tf : ℝ} (hh : 0 < h) (hk : 0 < k) (ht : 0 < tf) :
    HasDerivAt (fun x => finM x k tf) (finMDh h k tf) h ∧ HasDerivAt (fun x => finM h x tf) (finMDk h k tf) k ∧
    HasDerivAt (fun x => finM h k x) (finMDt h k tf) tf := by
  have hp : 0 < 2 * h / k / tf := by positivity
  have hs : 0 < √(2 * h / k / tf) := sqrt_pos.2 hp
  have hsq : √(2 * h / k / tf) ^ 2 = 2 * h / k / tf := sq_sqrt hp.le
  refine ⟨?_, ?_, ?_⟩
  · refine hd_congr (HasDerivAt.sqrt ((((hasDerivAt_id' h).const_mul 2).div_const k).div_const tf) hp.ne') ?_
    unfold finMDh
    rw [show (-1 / 2 : ℝ) = -(1 / 2) by norm_num, rpow_neg (by positivity), ← sqrt_eq_rpow]
    have e : √(2 * h * tf * k) = √(2 * h / k / tf) * (k * tf) := by
      rw [show 2 * h * tf * k = (2 * h / k / tf) * (k * tf) ^ 2 by field_simp, sqrt_mul hp.le,
        sqrt_sq (by positivity)]
    rw [e]
    field_simp
  · refine hd_congr (HasDerivAt.sqrt ((hd_const_div (2 * h) (hasDerivAt_id' k) hk.ne').div_const tf) hp.ne') ?_
    unfold finMDk
    rw [← sqrt_eq_rpow]
    have e : √(h / k ^ 3 / tf / 2) = √(2 * h / k / tf) / (2 * k) := by
      rw [show h / k ^ 3 / tf / 2 = (2 * h / k / tf) / (2 * k) ^ 2 by field_simp, sqrt_div hp.le,
        sqrt_sq (by positivity)]
    rw [e]
    rw [eq_comm, neg_eq_iff_eq_neg, div_eq_iff (by positivity), eq_comm]
    generalize √(2 * h / k / tf) = q at *
    have e2 : 2 * h = q ^ 2 * k * tf := by rw [hsq]; field_simp
    rw [e2]
    field_simp
  · refine hd_congr (HasDerivAt.sqrt (hd_const_div (2 * h / k) (hasDerivAt_id' tf) ht.ne') hp.ne') ?_
    unfold finMDt
    rw [← sqrt_eq_rpow]
    have e : √(h / tf ^ 3 / k / 2) = √(2 * h / k / tf) / (2 * tf) := by
      rw [show h / tf ^ 3 / k / 2 = (2 * h / k / tf) / (2 * tf) ^ 2 by field_simp, sqrt_div hp.le,
        sqrt_sq (by positivity)]
    rw [e]
    rw [eq_comm, neg_eq_iff_eq_neg, div_eq_iff (by positivity), eq_comm]
    generalize √(2 * h / k / tf) = q at *
    have e2 : 2 * h = q ^ 2 * k * tf := by rw [hsq]; field_simp
    rw [e2]
    field_simp

/-- C55.  Declared partials of the overall fin efficiency. -/
theorem C55_fin_partials (ratio h l k tf : ℝ) (hh : 0 < h) (hl : 0 < l) (hk : 0 < k) (ht : 0 < tf) :
    HasDerivAt (fun x => etaOverall x h l k tf) (etaD ratio h l k tf).1 ratio ∧
    HasDerivAt (fun x => etaOverall ratio h x k tf) (etaD ratio h l k tf).2.1 l ∧
    HasDerivAt (fun x => etaOverall ratio h l k x) (etaD ratio h l k tf).2.2.1 tf ∧
    HasDerivAt (fun x => etaOverall ratio h l x tf) (etaD ratio h l k tf).2.2.2.1 k ∧
    HasDerivAt (fun x => etaOverall ratio x l k tf) (etaD ratio h l k tf).2.2.2.2 h := by
  have hm : 0 < finM h k tf := by unfold finM; positivity
  obtain ⟨em, el⟩ := finEta_partials hm hl
  obtain ⟨mh, mk, mt⟩ := finM_partials hh hk ht
  have lift : ∀ {f : ℝ → ℝ} {d x : ℝ}, HasDerivAt f d x → HasDerivAt (fun y => 1 - ratio * (1 - f y)) (ratio * d) x := by
    intro f d x hf
    refine hd_congr (((hf.const_sub 1).const_mul ratio).const_sub 1) (by ring)
  refine ⟨?_, lift el, ?_, ?_, ?_⟩
  · refine hd_congr (((hasDerivAt_id ratio).mul_const (1 - finEta (finM h k tf) l)).const_sub 1) ?_
    unfold etaD; ring
  · refine hd_congr (lift (f := fun x => finEta (finM h k x) l) (HasDerivAt.comp (h₂ := fun x => finEta x l) tf em mt)) ?_
    unfold etaD; ring
  · refine hd_congr (lift (f := fun x => finEta (finM h x tf) l) (HasDerivAt.comp (h₂ := fun x => finEta x l) k em mk)) ?_
    unfold etaD; ring
  · refine hd_congr (lift (f := fun x => finEta (finM x k tf) l) (HasDerivAt.comp (h₂ := fun x => finEta x l) h em mh)) ?_
    unfold etaD; ring

/-- C55.  Colburn and friction factors: positive for a positive Reynolds number, with exact partials. -/
theorem C55_fin_data_partials (a b Re : ℝ) (ha : 0 < a) (hb : 0 < b) (hR : 0 < Re) :
    0 < colburn a b Re ∧ 0 < friction a b Re ∧ HasDerivAt (fun x => colburn a b x) (colburnDRe a b Re) Re ∧
    HasDerivAt (fun x => friction a b x) (frictionDRe a b Re) Re := by
  refine ⟨by unfold colburn; positivity, by unfold friction; positivity, ?_, ?_⟩
  · unfold colburn colburnDRe
    have h1 : HasDerivAt (fun x : ℝ => x ^ (-0.5403 : ℝ)) (-0.5403 * Re ^ (-1.5403 : ℝ)) Re := by
      have := hasDerivAt_rpow_const (x := Re) (p := (-0.5403 : ℝ)) (Or.inl hR.ne')
      rwa [show (-0.5403 - 1 : ℝ) = -1.5403 by norm_num] at this
    have h2 : HasDerivAt (fun x : ℝ => x ^ (1.34 : ℝ)) (1.34 * Re ^ (0.34 : ℝ)) Re := by
      have := hasDerivAt_rpow_const (x := Re) (p := (1.34 : ℝ)) (Or.inl hR.ne')
      rwa [show (1.34 - 1 : ℝ) = 0.34 by norm_num] at this
    have h3 : 1 + 5.269e-5 * Re ^ (1.34 : ℝ) * b ≠ 0 := by positivity
    have h4 := ((((h2.const_mul 5.269e-5).mul_const b).const_add 1).rpow_const (p := (0.1 : ℝ)) (Or.inl h3))
    rw [show (0.1 - 1 : ℝ) = -0.9 by norm_num] at h4
    refine hd_congr (((h1.const_mul 0.6522).mul_const a).mul h4) ?_
    ring
  · unfold friction frictionDRe
    have h1 : HasDerivAt (fun x : ℝ => x ^ (-0.7422 : ℝ)) (-0.7422 * Re ^ (-1.7422 : ℝ)) Re := by
      have := hasDerivAt_rpow_const (x := Re) (p := (-0.7422 : ℝ)) (Or.inl hR.ne')
      rwa [show (-0.7422 - 1 : ℝ) = -1.7422 by norm_num] at this
    have h2 : HasDerivAt (fun x : ℝ => x ^ (4.429 : ℝ)) (4.429 * Re ^ (3.429 : ℝ)) Re := by
      have := hasDerivAt_rpow_const (x := Re) (p := (4.429 : ℝ)) (Or.inl hR.ne')
      rwa [show (4.429 - 1 : ℝ) = 3.429 by norm_num] at this
    have h3 : 1 + 7.669e-8 * Re ^ (4.429 : ℝ) * b ≠ 0 := by positivity
    have h4 := ((((h2.const_mul 7.669e-8).mul_const b).const_add 1).rpow_const (p := (0.1 : ℝ)) (Or.inl h3))
    rw [show (0.1 - 1 : ℝ) = -0.9 by norm_num] at h4
    refine hd_congr (((h1.const_mul 9.6243).mul_const a).mul h4) ?_
    ring

/-- C55.  A nonpositive Reynolds number raises on the cold side but silently gives no number on the hot side. -/
theorem C55_reynolds_check {n : ℕ} (a b a' b' : ℝ) (Rc Rh : Fin n → ℝ) :
    ((∃ r, osfJ a b a' b' Rc Rh = .ok r) ↔ ∀ k, 0 < Rc k) ∧
    (∀ r, osfJ a b a' b' Rc Rh = .ok r → ∀ k, r.1 k = some (colburn a b (Rc k)) ∧ (r.2 k = none ↔ Rh k ≤ 0)) := by
  unfold osfJ reCheck
  by_cases h : ∃ k, Rc k ≤ 0
  · rw [if_pos h]
    constructor
    · constructor
      · rintro ⟨r, hr⟩; cases hr
      · intro h2; obtain ⟨k, hk⟩ := h; linarith [h2 k]
    · intro r hr; cases hr
  · rw [if_neg h]
    push Not at h
    refine ⟨⟨fun _ => h, fun _ => ⟨_, rfl⟩⟩, fun r hr k => ?_⟩
    cases hr
    constructor
    · simp only [colburnNp, if_neg (not_le.2 (h k))]
    · simp only [colburnNp]
      split_ifs with h2 <;> simp [h2]

/-- C55.  Reynolds number, Nusselt number and film coefficient: definitions and exact partials. -/
theorem C55_film_partials (mdot dh xs mu j Re cp k Nu : ℝ) (hxs : 0 < xs) (hmu : 0 < mu) (hcp : 0 < cp) (hk : 0 < k)
    (hdh : 0 < dh) :
    (reDh mdot dh xs mu * mu * xs = mdot * dh ∧ nusselt j Re mu cp k = j * Re * (mu * cp / k) ^ (1 / 3 : ℝ) ∧
      hConv Nu k dh * dh = Nu * k) ∧
    (HasDerivAt (fun x => reDh x dh xs mu) (reDhDmdot dh xs mu) mdot ∧
     HasDerivAt (fun x => reDh mdot x xs mu) (reDhDdh mdot xs mu) dh ∧
     HasDerivAt (fun x => reDh mdot dh x mu) (reDhDxs mdot dh xs mu) xs ∧
     HasDerivAt (fun x => reDh mdot dh xs x) (reDhDmu mdot dh xs mu) mu) ∧
    (HasDerivAt (fun x => nusselt x Re mu cp k) (nusseltDj Re mu cp k) j ∧
     HasDerivAt (fun x => nusselt j x mu cp k) (nusseltDRe j mu cp k) Re ∧
     HasDerivAt (fun x => nusselt j Re x cp k) (nusseltDmu j Re mu cp k) mu ∧
     HasDerivAt (fun x => nusselt j Re mu x k) (nusseltDcp j Re mu cp k) cp ∧
     HasDerivAt (fun x => nusselt j Re mu cp x) (nusseltDk j Re mu cp k) k) ∧
    (HasDerivAt (fun x => hConv x k dh) (hConvD Nu k dh).1 Nu ∧
     HasDerivAt (fun x => hConv Nu x dh) (hConvD Nu k dh).2.1 k ∧
     HasDerivAt (fun x => hConv Nu k x) (hConvD Nu k dh).2.2 dh) := by
  have third : ∀ {x : ℝ}, 0 < x → HasDerivAt (fun y : ℝ => y ^ (1 / 3 : ℝ)) (1 / 3 * x ^ (-2 / 3 : ℝ)) x := by
    intro x hx
    have := hasDerivAt_rpow_const (x := x) (p := (1 / 3 : ℝ)) (Or.inl hx.ne')
    rwa [show (1 / 3 - 1 : ℝ) = -2 / 3 by norm_num] at this
  refine ⟨⟨?_, ?_, ?_⟩, ⟨?_, ?_, ?_, ?_⟩, ⟨?_, ?_, ?_, ?_, ?_⟩, ⟨?_, ?_, ?_⟩⟩
  · unfold reDh; field_simp
  · unfold nusselt; rw [div_rpow (by positivity) hk.le, mul_rpow hmu.le hcp.le]; ring
  · unfold hConv; field_simp
  · simp only [reDh, reDhDmdot]; hderiv!
  · simp only [reDh, reDhDdh]; hderiv!
  · simp only [reDh, reDhDxs]; hderiv!
  · simp only [reDh, reDhDmu]; hderiv!
  · simp only [nusselt, nusseltDj]; hderiv!
  · simp only [nusselt, nusseltDRe]; hderiv!
  · unfold nusselt nusseltDmu
    refine hd_congr ((((third hmu).const_mul (j * Re)).mul_const _).div_const _) ?_
    ring
  · unfold nusselt nusseltDcp
    refine hd_congr (((third hcp).const_mul _).div_const _) ?_
    ring
  · unfold nusselt nusseltDk
    refine hd_congr (hd_const_div _ (third hk) (by positivity)) ?_
    have e1 : k ^ (-2 / 3 : ℝ) * k ^ (4 / 3 : ℝ) = (k ^ (1 / 3 : ℝ)) ^ 2 := by
      rw [← rpow_add hk, ← rpow_natCast, ← rpow_mul hk.le]; norm_num
    have e2 : 0 < k ^ (4 / 3 : ℝ) := by positivity
    have e3 : 0 < k ^ (1 / 3 : ℝ) := by positivity
    generalize k ^ (-2 / 3 : ℝ) = a at *
    generalize k ^ (4 / 3 : ℝ) = b at *
    generalize k ^ (1 / 3 : ℝ) = c at *
    generalize mu ^ (1 / 3 : ℝ) = u
    generalize cp ^ (1 / 3 : ℝ) = v
    have e4 : a = c ^ 2 / b := by rw [← e1]; field_simp
    rw [e4]
    field_simp
  · simp only [hConv, hConvD]; hderiv!
  · simp only [hConv, hConvD]; hderiv!
  · simp only [hConv, hConvD]; hderiv!

/-- C55.  Pressure drop: a loss exactly when the loss coefficients and wall friction together are positive, quadratic in
the flow, with exact partials. -/
theorem C55_pressure_drop (Kc Ke : ℝ) (i : DpIn) (hm : i.mdot ≠ 0) (hx : i.xs ≠ 0) (hr : 0 < i.rho) (hd : i.dh ≠ 0) :
    (deltaP Kc Ke i < 0 ↔ 0 < Ke + Kc + 4 * i.L * i.f / i.dh) ∧
    (∀ a, deltaP Kc Ke {i with mdot := a * i.mdot} = a ^ 2 * deltaP Kc Ke i) ∧
    HasDerivAt (fun x => deltaP Kc Ke {i with mdot := x}) (deltaPD Kc Ke i).1 i.mdot ∧
    HasDerivAt (fun x => deltaP Kc Ke {i with rho := x}) (deltaPD Kc Ke i).2.1 i.rho ∧
    HasDerivAt (fun x => deltaP Kc Ke {i with f := x}) (deltaPD Kc Ke i).2.2.1 i.f ∧
    HasDerivAt (fun x => deltaP Kc Ke {i with xs := x}) (deltaPD Kc Ke i).2.2.2.1 i.xs ∧
    HasDerivAt (fun x => deltaP Kc Ke {i with L := x}) (deltaPD Kc Ke i).2.2.2.2.1 i.L ∧
    HasDerivAt (fun x => deltaP Kc Ke {i with dh := x}) (deltaPD Kc Ke i).2.2.2.2.2 i.dh := by
  have hdyn : 0 < dynP i := by
    unfold dynP
    have : 0 < (i.mdot / i.xs) ^ 2 := by positivity
    positivity
  have hr' := hr.ne'
  refine ⟨?_, ?_, ?_⟩
  · unfold deltaP losses
    rw [mul_neg_iff]
    constructor
    · rintro (⟨_, h⟩ | ⟨h, _⟩)
      · linarith
      · linarith
    · intro h; left; exact ⟨hdyn, by linarith⟩
  · intro a; unfold deltaP dynP losses; dsimp only; ring
  · simp only [deltaP, dynP, losses, deltaPD]
    refine ⟨?_, ?_, ?_, ?_, ?_, ?_⟩ <;> hderiv
    all_goals (push_cast; field_simp)

/-- C54, C55.  The whole exchanger: for positive geometry, conductivities and flows, with the hot fluid hotter, the
group transfers heat from hot to cold, both outlet temperatures are strictly between the inlets, and both streams balance
the heat. -/
theorem C54_group (g : Geo) (km : ℝ) (c h : Fluid) (hg : g.Pos) (hk : 0 < km) (c1 : 0 < c.mdot) (c2 : 0 < c.cp)
    (c3 : 0 < c.k) (c4 : 0 < c.mu) (h1 : 0 < h.mdot) (h2 : 0 < h.cp) (h3 : 0 < h.k) (h4 : 0 < h.mu) (hT : c.T < h.T) :
    let i := groupNtu g km c h
    0 < groupQ i ∧ c.T < toutCold (groupQ i) c.mdot c.T c.cp ∧ toutCold (groupQ i) c.mdot c.T c.cp < h.T ∧
    c.T < toutHot (groupQ i) h.mdot h.T h.cp ∧ toutHot (groupQ i) h.mdot h.T h.cp < h.T ∧
    c.mdot * c.cp * (toutCold (groupQ i) c.mdot c.T c.cp - c.T)
      = h.mdot * h.cp * (h.T - toutHot (groupQ i) h.mdot h.T h.cp) := by
  intro i
  obtain ⟨_, _, _, _, d1, d2, x1, x2, A1, A2, _⟩ := C55_positive g hg
  obtain ⟨⟨r1, r1'⟩, ⟨r2, r2'⟩, _⟩ := C55_ratios g hg
  obtain ⟨p1, p2, p3, p4, p5, p6, p7, p8, p9, p10, p11, p12, p13⟩ := hg
  have side : ∀ (s : ℝ × ℝ × ℝ) (dh xs : ℝ) (f : Fluid), 0 < s.1 → 0 < s.2.1 → 0 < s.2.2 → 0 < dh → 0 < xs →
      0 < f.mdot → 0 < f.cp → 0 < f.k → 0 < f.mu → 0 < sideH s dh xs f := by
    intro s dh xs f s1 s2 s3 hd hx q1 q2 q3 q4
    have hRe : 0 < reDh f.mdot dh xs f.mu := by unfold reDh; positivity
    have hj1 : 0 < j1 s := by unfold j1; positivity
    have hj2 : 0 < j2 s := by unfold j2; positivity
    have hj : 0 < colburn (j1 s) (j2 s) (reDh f.mdot dh xs f.mu) := (C55_fin_data_partials _ _ _ hj1 hj2 hRe).1
    unfold sideH hConv nusselt
    positivity
  have hhc : 0 < sideH g.shapeCold g.dhCold g.xsCold c :=
    side _ _ _ _ (by unfold Geo.shapeCold; positivity) (by unfold Geo.shapeCold; positivity)
      (by unfold Geo.shapeCold; positivity) d1 x1 c1 c2 c3 c4
  have hhh : 0 < sideH g.shapeHot g.dhHot g.xsHot h :=
    side _ _ _ _ (by unfold Geo.shapeHot; positivity) (by unfold Geo.shapeHot; positivity)
      (by unfold Geo.shapeHot; positivity) d2 x2 h1 h2 h3 h4
  have hUA : 0 < ua (groupUA g km c h) := by
    refine (C53_smaller _ ⟨hhc, A1, ?_, hhh, A2, ?_, le_rfl, le_rfl⟩).1
    · exact (C55_fin_efficiency _ _ _ _ _ hhc p2 hk p7 r1.le r1'.le).2.2.1
    · exact (C55_fin_efficiency _ _ _ _ _ hhh p5 hk p7 r2.le r2'.le).2.2.1
  obtain ⟨a, b, cc, d, e⟩ := C54_second_law i hUA c1 c2 h1 h2 hT
  have e1 := C54_outlet_energy (groupQ i) c.mdot c.T c.cp h.mdot h.T h.cp c1.ne' c2.ne' h1.ne' h2.ne'
  exact ⟨a, b, cc, d, e, by rw [e1.1, e1.2.1]⟩

example : ∃ (g : Geo) (c h : Fluid), c.T < toutCold (groupQ (groupNtu g 190 c h)) c.mdot c.T c.cp :=
  ⟨⟨0.00135, 0.014, 0.006, 0.001, 0.001, 0.006, 0.000102, 0.0002, 0.002, 430, 3, 19, 2700⟩,
    ⟨1.5, 318, 1005, 0.02596, 1.789e-5⟩, ⟨0.075, 363, 3801, 0.405, 1.68e-3⟩,
    (C54_group _ _ _ _ (by constructor <;> norm_num) (by norm_num) (by norm_num) (by norm_num) (by norm_num)
      (by norm_num) (by norm_num) (by norm_num) (by norm_num) (by norm_num) (by norm_num)).2.1⟩

/-- C55.  The film coefficients of the group are those that the Colburn factor stands for: `h Pr^(2/3) = j G cp` with the
Prandtl number `mu cp / k` and the mass flux `G` of the side. -/
theorem C55_film (g : Geo) (km : ℝ) (c h : Fluid) (hg : g.Pos) (c1 : 0 < c.mdot) (c2 : 0 < c.cp) (c3 : 0 < c.k) (c4 : 0 < c.mu)
    (h1 : 0 < h.mdot) (h2 : 0 < h.cp) (h3 : 0 < h.k) (h4 : 0 < h.mu) :
    (groupUA g km c h).hc * (c.mu * c.cp / c.k) ^ (2 / 3 : ℝ)
      = colburn (j1 g.shapeCold) (j2 g.shapeCold) (c.mdot * g.dhCold / g.xsCold / c.mu) * (c.mdot / g.xsCold) * c.cp ∧
    (groupUA g km c h).hh * (h.mu * h.cp / h.k) ^ (2 / 3 : ℝ)
      = colburn (j1 g.shapeHot) (j2 g.shapeHot) (h.mdot * g.dhHot / g.xsHot / h.mu) * (h.mdot / g.xsHot) * h.cp := by
  obtain ⟨_, _, _, _, d1, d2, x1, x2, _⟩ := C55_positive g hg
  have side : ∀ (s : ℝ × ℝ × ℝ) (dh xs : ℝ) (f : Fluid), 0 < dh → 0 < xs → 0 < f.mdot → 0 < f.cp → 0 < f.k → 0 < f.mu →
      sideH s dh xs f * (f.mu * f.cp / f.k) ^ (2 / 3 : ℝ)
        = colburn (j1 s) (j2 s) (f.mdot * dh / xs / f.mu) * (f.mdot / xs) * f.cp := by
    intro s dh xs f hd hx q1 q2 q3 q4
    have a1 : f.mu ^ (1 / 3 : ℝ) * f.mu ^ (2 / 3 : ℝ) = f.mu := by
      rw [← Real.rpow_add q4]; norm_num
    have a2 : f.cp ^ (1 / 3 : ℝ) * f.cp ^ (2 / 3 : ℝ) = f.cp := by
      rw [← Real.rpow_add q2]; norm_num
    have a3 : f.k ^ (1 / 3 : ℝ) * f.k ^ (2 / 3 : ℝ) = f.k := by
      rw [← Real.rpow_add q3]; norm_num
    have k1 : 0 < f.k ^ (1 / 3 : ℝ) := by positivity
    have k2 : 0 < f.k ^ (2 / 3 : ℝ) := by positivity
    unfold sideH hConv nusselt
    rw [Real.div_rpow (by positivity) q3.le, Real.mul_rpow q4.le q2.le]
    simp only [reDh]
    generalize colburn (j1 s) (j2 s) (f.mdot * dh / xs / f.mu) = j
    have hL : j * (f.mdot * dh / xs / f.mu) * f.mu ^ (1 / 3 : ℝ) * f.cp ^ (1 / 3 : ℝ) / f.k ^ (1 / 3 : ℝ) * f.k / dh *
        (f.mu ^ (2 / 3 : ℝ) * f.cp ^ (2 / 3 : ℝ) / f.k ^ (2 / 3 : ℝ))
        = j * (f.mdot * dh / xs / f.mu) * (f.mu ^ (1 / 3 : ℝ) * f.mu ^ (2 / 3 : ℝ)) * (f.cp ^ (1 / 3 : ℝ) * f.cp ^ (2 / 3 : ℝ))
          / (f.k ^ (1 / 3 : ℝ) * f.k ^ (2 / 3 : ℝ)) * f.k / dh := by
      generalize f.k ^ (1 / 3 : ℝ) = u at *
      generalize f.k ^ (2 / 3 : ℝ) = v at *
      have := k1.ne'
      have := k2.ne'
      field_simp
    rw [hL, a1, a2, a3]
    field_simp
  exact ⟨side _ _ _ _ d1 x1 c1 c2 c3 c4, side _ _ _ _ d2 x2 h1 h2 h3 h4⟩

example : ∃ (g : Geo) (c h : Fluid), (groupUA g 190 c h).hc * (c.mu * c.cp / c.k) ^ (2 / 3 : ℝ)
      = colburn (j1 g.shapeCold) (j2 g.shapeCold) (c.mdot * g.dhCold / g.xsCold / c.mu) * (c.mdot / g.xsCold) * c.cp :=
  ⟨⟨0.00135, 0.014, 0.006, 0.001, 0.001, 0.006, 0.000102, 0.0002, 0.002, 430, 3, 19, 2700⟩,
    ⟨1.5, 318, 1005, 0.02596, 1.789e-5⟩, ⟨0.075, 363, 3801, 0.405, 1.68e-3⟩,
    (C55_film _ _ _ _ (by constructor <;> norm_num) (by norm_num) (by norm_num) (by norm_num)
      (by norm_num) (by norm_num) (by norm_num) (by norm_num) (by norm_num)).1⟩

end Verif.HX
