import Verif.Props.Atmosphere

/-! Property C95: the flight conditions of `ComputeAtmosphericProperties`. -/

namespace Verif.Atmos

open Real Matrix

/-! ### Bounds of the smoothing region -/

theorem tmp1_pow_sharp : (0.2410 : ℝ) ≤ tmp1 ^ (5.2561 : ℝ) ∧ tmp1 ^ (5.2561 : ℝ) ≤ 0.2420 := by
  have h0 : 0 < tmp1 := by rw [tmp1_val]; norm_num
  have h1 : tmp1 ≤ 1 := by rw [tmp1_val]; norm_num
  constructor
  · have : tmp1 ^ (100 / 19 : ℝ) ≤ tmp1 ^ (5.2561 : ℝ) :=
      Real.rpow_le_rpow_of_exponent_ge h0 h1 (by norm_num)
    refine le_trans ?_ this
    have e : (tmp1 ^ (100 / 19 : ℝ)) ^ 19 = tmp1 ^ 100 := by
      rw [← Real.rpow_natCast, ← Real.rpow_mul h0.le, ← Real.rpow_natCast]
      norm_num
    by_contra hc
    have hc := lt_of_not_ge hc
    have : (tmp1 ^ (100 / 19 : ℝ)) ^ 19 < 0.2410 ^ 19 :=
      pow_lt_pow_left₀ hc (Real.rpow_nonneg h0.le _) (by norm_num)
    rw [e, tmp1_val] at this
    norm_num at this
  · have : tmp1 ^ (5.2561 : ℝ) ≤ tmp1 ^ (21 / 4 : ℝ) :=
      Real.rpow_le_rpow_of_exponent_ge h0 h1 (by norm_num)
    refine le_trans this ?_
    have e : (tmp1 ^ (21 / 4 : ℝ)) ^ 4 = tmp1 ^ 21 := by
      rw [← Real.rpow_natCast, ← Real.rpow_mul h0.le, ← Real.rpow_natCast]
      norm_num
    by_contra hc
    have hc := lt_of_not_ge hc
    have : (0.2420 : ℝ) ^ 4 < (tmp1 ^ (21 / 4 : ℝ)) ^ 4 :=
      pow_lt_pow_left₀ hc (by norm_num) (by norm_num)
    rw [e, tmp1_val] at this
    norm_num at this

theorem tmp1_pow4_sharp : (0.3157 : ℝ) ≤ tmp1 ^ (4.2561 : ℝ) ∧ tmp1 ^ (4.2561 : ℝ) ≤ 0.3172 := by
  have h0 : 0 < tmp1 := by rw [tmp1_val]; norm_num
  have e : tmp1 ^ (4.2561 : ℝ) * tmp1 = tmp1 ^ (5.2561 : ℝ) := by
    rw [← Real.rpow_add_one h0.ne']; norm_num
  obtain ⟨a, b⟩ := tmp1_pow_sharp
  rw [← e, tmp1_val] at a b
  rw [tmp1_val]
  generalize (1 - 0.0065 * 10500 / 288.16 : ℝ) ^ (4.2561 : ℝ) = z at *
  norm_num at a b ⊢
  constructor <;> linarith

theorem pcubicD_le (h : ℝ) (h1 : hLower ≤ h) (h2 : h ≤ hUpper) : cubicDeriv pressureCoeffs h ≤ -3 := by
  obtain ⟨c0, c1, c2, c3⟩ := cubic_spec pressureRhs
  rw [cubicDeriv_hermite, show pressureCoeffs = tropoMatrix⁻¹ *ᵥ pressureRhs from rfl, c0, c1, c2, c3]
  obtain ⟨a0, a0'⟩ := tmp1_pow_sharp
  obtain ⟨a1, a2⟩ := tmp1_pow4_sharp
  obtain ⟨a3, a4⟩ := tmp2_bounds
  have s0 : 0 ≤ (h - hLower) / 1000 := by apply div_nonneg <;> linarith
  have s1 : (h - hLower) / 1000 ≤ 1 := by
    rw [div_le_one (by norm_num)]
    unfold hLower; unfold hUpper epsilon at h2; unfold epsilon; linarith
  generalize (h - hLower) / 1000 = s at s0 s1
  have m0 : pressureRhs 2 ≤ -3.27 := by simp [pressureRhs]; norm_num; linarith
  have m0' : -3.82 ≤ pressureRhs 2 := by simp [pressureRhs]; norm_num; linarith
  have m1 : pressureRhs 3 ≤ -3.27 := by simp [pressureRhs]; norm_num; linarith
  have m1' : -3.31 ≤ pressureRhs 3 := by simp [pressureRhs]; norm_num; linarith
  have dd : pressureRhs 1 - pressureRhs 0 ≤ -3410 := by simp [pressureRhs]; linarith
  have k : 6 * (pressureRhs 1 - pressureRhs 0) / 1000 - 3 * pressureRhs 2 - 3 * pressureRhs 3 ≤ 1 := by
    linarith
  have q0 : 0 ≤ s * (1 - s) := mul_nonneg s0 (by linarith)
  have q1 : s * (1 - s) ≤ 1 / 4 := by nlinarith [sq_nonneg (s - 1 / 2)]
  have t1 : pressureRhs 2 * (1 - s) ≤ -3.27 * (1 - s) := mul_le_mul_of_nonneg_right m0 (by linarith)
  have t2 : pressureRhs 3 * s ≤ -3.27 * s := mul_le_mul_of_nonneg_right m1 s0
  have t3 := mul_le_mul_of_nonneg_right k q0
  linarith

theorem tcubicD_ge (h : ℝ) (h1 : hLower ≤ h) (h2 : h ≤ hUpper) : -0.0066 ≤ cubicDeriv tempCoeffs h := by
  obtain ⟨c0, c1, c2, c3⟩ := cubic_spec tempRhs
  rw [cubicDeriv_hermite, show tempCoeffs = tropoMatrix⁻¹ *ᵥ tempRhs from rfl, c0, c1, c2, c3]
  have s0 : 0 ≤ (h - hLower) / 1000 := by apply div_nonneg <;> linarith
  have s1 : (h - hLower) / 1000 ≤ 1 := by
    rw [div_le_one (by norm_num)]
    unfold hLower; unfold hUpper epsilon at h2; unfold epsilon; linarith
  generalize (h - hLower) / 1000 = s at s0 s1
  simp [tempRhs, hLower, hTrans, epsilon]
  norm_num
  nlinarith

theorem pblend_le (h : ℝ) (h1 : hLower ≤ h) : pblend h ≤ 24530 := by
  refine (pblend_anti.antitone h1).trans ?_
  have hl : pblend hLower = 101325 * tmp1 ^ (5.2561 : ℝ) := by
    unfold pblend ptrop tmp1
    rw [if_pos hLower_lt.le, if_pos le_rfl]
  rw [hl]
  have := tmp1_pow_sharp.2
  linarith

/-- logarithmic slopes: the pressure falls faster than the temperature, up to 100 degrees below the standard day -/
theorem slope_cmp (h inc : ℝ) (hi : -100 ≤ inc) : pblendD h * (tblend h + inc) - pblend h * tblendD h < 0 := by
  have hT := tblend_ge h
  have hp := pblend_pos h
  by_cases h1 : h ≤ hLower
  · have h2 : h ≤ hUpper := h1.trans hLower_lt.le
    have hb := (base_pos_iff h).2 (h1.trans_lt hLower_lt_hMax)
    have e1 : pblend h = 101325 * (1 - 0.0065 * h / 288.16) ^ (5.2561 : ℝ) := by
      unfold pblend ptrop; rw [if_pos h2, if_pos h1]
    have e2 : pblendD h = ptropD h := by unfold pblendD; rw [if_pos h2, if_pos h1]
    have e3 : tblend h = 288.16 - 6.5e-3 * h := by unfold tblend; rw [if_pos h2, if_pos h1]
    have e4 : tblendD h = -6.5e-3 := by unfold tblendD; rw [if_pos h2, if_pos h1]
    have e5 : (1 - 0.0065 * h / 288.16) ^ (5.2561 : ℝ)
        = (1 - 0.0065 * h / 288.16) ^ (4.2561 : ℝ) * (1 - 0.0065 * h / 288.16) := by
      rw [← Real.rpow_add_one hb.ne']; norm_num
    rw [e1, e2, e4, e5]
    rw [e3] at hT ⊢
    unfold ptropD
    have hz := Real.rpow_pos_of_pos hb 4.2561
    generalize (1 - 0.0065 * h / 288.16) ^ (4.2561 : ℝ) = z at *
    norm_num at hT ⊢
    have key : 0 < z * (2 * (288.16 - 6.5e-3 * h) - 300) := by
      apply mul_pos hz; norm_num; linarith
    have key2 : 0 ≤ z * (inc + 100) := mul_nonneg hz.le (by linarith)
    nlinarith
  · have h1 := lt_of_not_ge h1
    by_cases h2 : h ≤ hUpper
    · have e2 : pblendD h = cubicDeriv pressureCoeffs h := by unfold pblendD; rw [if_pos h2, if_neg (not_le.2 h1)]
      have e4 : tblendD h = cubicDeriv tempCoeffs h := by unfold tblendD; rw [if_pos h2, if_neg (not_le.2 h1)]
      have a1 := pcubicD_le h h1.le h2
      have a2 := tcubicD_ge h h1.le h2
      have a3 := pblend_le h h1.le
      rw [e2, e4]
      have b1 : cubicDeriv pressureCoeffs h * (tblend h + inc) ≤ -3 * (tblend h + inc) :=
        mul_le_mul_of_nonneg_right a1 (by norm_num at hT; linarith)
      have b2 : pblend h * -0.0066 ≤ pblend h * cubicDeriv tempCoeffs h := mul_le_mul_of_nonneg_left a2 hp.le
      norm_num at b1 b2 hT ⊢
      linarith
    · have e4 : tblendD h = 0 := by
        unfold tblendD; rw [if_neg h2]
      rw [e4, mul_zero, sub_zero]
      exact mul_neg_of_neg_of_pos (pblendD_neg h) (by norm_num at hT; linarith)

/-- C95.  On any day down to 100 degrees colder than standard, the air gets strictly thinner with altitude, at all altitudes
where the model is defined. -/
theorem C95_density_decreasing (inc h h' : ℝ) (hi : -100 ≤ inc) (hh : h < h') (hm : h' ≤ 288.16 / 0.0065) :
    ∃ p p', pressure h = some p ∧ pressure h' = some p' ∧
      0 < density p' (temperature h' inc) ∧ density p' (temperature h' inc) < density p (temperature h inc) := by
  have e : ∀ x, x ≤ hMax → pressure x = some (pblend x) := fun x hx => by
    rw [pressure_eq, if_neg (not_lt.2 hx)]
  have et : ∀ x, temperature x inc = tblend x + inc := fun x => by unfold temperature; rw [temp_eq]
  have hpos : ∀ x, 0 < tblend x + inc := fun x => by have := tblend_ge x; norm_num at this; linarith
  refine ⟨_, _, e h (hh.le.trans hm), e h' hm, ?_, ?_⟩
  · rw [et]; unfold density R
    have := pblend_pos h'
    have := hpos h'
    positivity
  · have anti : StrictAnti fun x => pblend x / R / (tblend x + inc) := by
      have hd : ∀ x, HasDerivAt (fun x => pblend x / R / (tblend x + inc))
          ((pblendD x / R * (tblend x + inc) - pblend x / R * tblendD x) / (tblend x + inc) ^ 2) x := fun x =>
        ((hd_pblend x).div_const R).div ((hd_tblend x).add_const inc) (hpos x).ne'
      refine strictAnti_of_deriv_neg fun x => ?_
      rw [(hd x).deriv]
      have hR : (0 : ℝ) < R := by unfold R; norm_num
      have h1 := slope_cmp x inc hi
      have : pblendD x / R * (tblend x + inc) - pblend x / R * tblendD x
          = (pblendD x * (tblend x + inc) - pblend x * tblendD x) / R := by ring
      rw [this]
      exact div_neg_of_neg_of_pos (div_neg_of_neg_of_pos h1 hR) (pow_pos (hpos x) 2)
    simp only [et]
    exact anti hh

/-- C95.  A bound on the temperature increment is needed: 200 degrees below standard the model's density grows between
9 km and 10 km. -/
theorem C95_cold_limit : ∃ p p', pressure 9000 = some p ∧ pressure 10000 = some p' ∧ 0 < temperature 10000 (-200) ∧
    density p (temperature 9000 (-200)) < density p' (temperature 10000 (-200)) := by
  have hl : hLower = 10500 := by norm_num [hLower, hTrans, epsilon]
  have hu : hUpper = 11500 := by norm_num [hUpper, hTrans, epsilon]
  have e : ∀ x, x ≤ 10500 → pressure x = some (101325 * (1 - 0.0065 * x / 288.16) ^ (5.2561 : ℝ)) := fun x hx => by
    rw [pressure_eq, if_neg (by unfold hMax; norm_num; linarith)]
    unfold pblend ptrop
    rw [hl, hu, if_pos (by linarith), if_pos hx]
  have t : ∀ x, x ≤ 10500 → temperature x (-200) = 88.16 - 0.0065 * x := fun x hx => by
    unfold temperature
    rw [temp_eq]; unfold tblend
    rw [hl, hu, if_pos (by linarith), if_pos hx]
    norm_num; ring
  refine ⟨_, _, e _ (by norm_num), e _ (by norm_num), ?_, ?_⟩
  · rw [t _ (by norm_num)]; norm_num
  · rw [t _ (by norm_num), t _ (by norm_num)]
    have r : (1 - 0.0065 * 10000 / 288.16 : ℝ) ^ (5.2561 : ℝ)
        = (1 - 0.0065 * 9000 / 288.16 : ℝ) ^ (5.2561 : ℝ) * (22316 / 22966 : ℝ) ^ (5.2561 : ℝ) := by
      rw [← Real.mul_rpow (by norm_num) (by norm_num)]
      norm_num
    have b : (22316 / 22966 : ℝ) ^ (6 : ℝ) ≤ (22316 / 22966 : ℝ) ^ (5.2561 : ℝ) :=
      Real.rpow_le_rpow_of_exponent_ge (by norm_num) (by norm_num) (by norm_num)
    have b6 : (0.8 : ℝ) ≤ (22316 / 22966 : ℝ) ^ (6 : ℝ) := by
      rw [show (6 : ℝ) = ((6 : ℕ) : ℝ) by norm_num, Real.rpow_natCast]; norm_num
    rw [r]
    have hz : 0 < (1 - 0.0065 * 9000 / 288.16 : ℝ) ^ (5.2561 : ℝ) := Real.rpow_pos_of_pos (by norm_num) _
    generalize (1 - 0.0065 * 9000 / 288.16 : ℝ) ^ (5.2561 : ℝ) = z at *
    have b8 := b6.trans b
    generalize (22316 / 22966 : ℝ) ^ (5.2561 : ℝ) = w at *
    have := mul_le_mul_of_nonneg_left b8 hz.le
    unfold density R
    rw [div_div, div_div, div_lt_div_iff₀ (by norm_num) (by norm_num)]
    norm_num at this ⊢
    linarith

/-- C95.  Both ways of using the group describe the same flight condition: feeding the computed true airspeed to the other
variant reproduces all outputs, and vice versa. -/
theorem C95_modes (h inc u : ℝ) (hi : -216.65 < inc) :
    (∀ c, atmosEas h inc u = some c → atmosTas h inc c.utrue = some c) ∧
    (∀ c, atmosTas h inc u = some c → atmosEas h inc c.ueas = some c) := by
  have hT : 0 < temperature h inc := by linarith [(C35_temperature h h inc le_rfl).2]
  have key : ∀ p, pressure h = some p → 0 < density p (temperature h inc) := by
    intro p hp
    have hm : ¬ hMax < h := by
      intro hc; rw [pressure_eq, if_pos hc] at hp; cases hp
    rw [pressure_eq, if_neg hm] at hp
    cases hp
    have := pblend_pos h
    unfold density R; positivity
  constructor
  · intro c hc
    unfold atmosEas at hc
    obtain ⟨p, hp, rfl⟩ := Option.map_eq_some_iff.1 hc
    unfold atmosTas
    rw [hp]
    simp only [Option.map_some, (C36_tas_eas_tas _ u (key p hp)).2]
  · intro c hc
    unfold atmosTas at hc
    obtain ⟨p, hp, rfl⟩ := Option.map_eq_some_iff.1 hc
    unfold atmosEas
    rw [hp]
    simp only [Option.map_some, (C36_tas_eas_tas _ u (key p hp)).1]

/-- C95.  At a given equivalent airspeed the dynamic pressure is the same at all altitudes and on all days. -/
theorem C95_dynamic_pressure (h inc u : ℝ) (hi : -216.65 < inc) (c : FltCond) (hc : atmosEas h inc u = some c) :
    c.q = 1 / 2 * 1.225 * u ^ 2 ∧ c.q = 1.4 / 2 * c.p * c.mach ^ 2 ∧ c.mach * c.a = c.utrue ∧
    c.rho * 287.058 * c.T = c.p := by
  have hT : 0 < temperature h inc := by linarith [(C35_temperature h h inc le_rfl).2]
  have hm := (C95_modes h inc u hi).1 c hc
  unfold atmosEas at hc
  obtain ⟨p, hp, rfl⟩ := Option.map_eq_some_iff.1 hc
  unfold atmosTas at hm
  rw [hp] at hm
  simp only [Option.map_some, Option.some.injEq, FltCond.mk.injEq, true_and, and_true] at hm
  have hr : 0 < density p (temperature h inc) := by
    have hm' : ¬ hMax < h := by
      intro hc; rw [pressure_eq, if_pos hc] at hp; cases hp
    rw [pressure_eq, if_neg hm'] at hp
    cases hp
    have := pblend_pos h
    unfold density R; positivity
  refine ⟨?_, C36_compressible p _ _ hT, (C36_mach _ _ hT).1, C36_gas_law p _ hT.ne'⟩
  simp only
  rw [C36_dynamic_pressure _ _ hr.le, hm]

/-- C95.  Climbing at constant equivalent airspeed increases true airspeed and Mach number. -/
theorem C95_climb (inc h h' u : ℝ) (hi : -100 ≤ inc) (hh : h < h') (hm : h' ≤ 288.16 / 0.0065) (hu : 0 < u) :
    ∃ c c', atmosEas h inc u = some c ∧ atmosEas h' inc u = some c' ∧ c.utrue < c'.utrue ∧ c.mach < c'.mach := by
  obtain ⟨p, p', e, e', d0, d1⟩ := C95_density_decreasing inc h h' hi hh hm
  refine ⟨_, _, by unfold atmosEas; rw [e]; rfl, by unfold atmosEas; rw [e']; rfl, ?_⟩
  have hT' : 0 < temperature h' inc := by linarith [(C35_temperature h' h' inc le_rfl).2]
  have hTT := (C35_temperature h h' inc hh.le).1
  have ut : trueAirspeed (density p (temperature h inc)) u < trueAirspeed (density p' (temperature h' inc)) u := by
    unfold trueAirspeed
    apply mul_lt_mul_of_pos_left _ hu
    apply Real.sqrt_lt_sqrt (div_nonneg (by norm_num) (d0.trans d1).le)
    exact div_lt_div_of_pos_left (by norm_num) d0 d1
  have u0 : 0 ≤ trueAirspeed (density p (temperature h inc)) u := by unfold trueAirspeed; positivity
  refine ⟨ut, ?_⟩
  have a0 : 0 < soundSpeed (temperature h' inc) := by
    unfold soundSpeed gamma R; apply Real.sqrt_pos.2; positivity
  have a1 : soundSpeed (temperature h' inc) ≤ soundSpeed (temperature h inc) := by
    unfold soundSpeed gamma R
    apply Real.sqrt_le_sqrt
    nlinarith
  show mach _ _ < mach _ _
  unfold mach
  exact (div_le_div_of_nonneg_left u0 a0 a1).trans_lt (div_lt_div_of_pos_right ut a0)

/-- C95.  At and above sea level on a standard or warmer day the true airspeed exceeds the equivalent airspeed. -/
theorem C95_true_exceeds (inc h u : ℝ) (hi : 0 ≤ inc) (hh : 0 ≤ h) (hm : h ≤ 288.16 / 0.0065) (hu : 0 < u) :
    ∃ c, atmosEas h inc u = some c ∧ u < c.utrue := by
  have e0 : pressure 0 = some (pblend 0) := by
    rw [pressure_eq, if_neg (by unfold hMax; norm_num)]
  have p0 : pblend 0 = 101325 := by
    unfold pblend ptrop
    rw [if_pos (by norm_num [hUpper, hTrans, epsilon]), if_pos (by norm_num [hLower, hTrans, epsilon])]
    norm_num
  have t0 : temperature 0 inc = 288.16 + inc := by
    unfold temperature
    rw [temp_eq]; unfold tblend
    rw [if_pos (by norm_num [hUpper, hTrans, epsilon]), if_pos (by norm_num [hLower, hTrans, epsilon])]
    norm_num
  have sl : density (pblend 0) (temperature 0 inc) < 1.225 := by
    rw [p0, t0]
    unfold density R
    rw [div_lt_iff₀ (by norm_num; linarith), div_lt_iff₀ (by norm_num)]
    norm_num
    linarith
  obtain ⟨p, e, d0, d1⟩ : ∃ p, pressure h = some p ∧ 0 < density p (temperature h inc) ∧
      density p (temperature h inc) < 1.225 := by
    rcases hh.eq_or_lt with rfl | hlt
    · refine ⟨_, e0, ?_, sl⟩
      rw [p0, t0]; unfold density R
      have : (0 : ℝ) < 288.16 + inc := by norm_num; linarith
      positivity
    · obtain ⟨p, p', q, q', a, b⟩ := C95_density_decreasing inc 0 h (by linarith) hlt hm
      rw [e0] at q; cases q
      exact ⟨p', q', a, b.trans sl⟩
  refine ⟨_, by unfold atmosEas; rw [e]; rfl, ?_⟩
  show u < trueAirspeed _ u
  unfold trueAirspeed
  have : 1 < Real.sqrt (1.225 / density p (temperature h inc)) := by
    rw [Real.lt_sqrt (by norm_num), one_pow, lt_div_iff₀ d0, one_mul]; exact d1
  nlinarith

/-- ten degrees warmer than standard, climbing from 1 km to 12 km through the smoothed tropopause at 100 m/s equivalent -/
example : ∃ c c', atmosEas 1000 10 100 = some c ∧ atmosEas 12000 10 100 = some c' ∧
    c.utrue < c'.utrue ∧ c.mach < c'.mach :=
  C95_climb 10 1000 12000 100 (by norm_num) (by norm_num) (by norm_num) (by norm_num)

example : ∃ c, atmosEas 11000 0 100 = some c ∧ 100 < c.utrue ∧ c.q = 6125 := by
  obtain ⟨c, hc, hu⟩ := C95_true_exceeds 0 11000 100 le_rfl (by norm_num) (by norm_num) (by norm_num)
  refine ⟨c, hc, hu, ?_⟩
  rw [(C95_dynamic_pressure 11000 0 100 (by norm_num) c hc).1]; norm_num

example : ∀ c, atmosTas 3000 (-20) 80 = some c → atmosEas 3000 (-20) c.ueas = some c :=
  (C95_modes 3000 (-20) 80 (by norm_num)).2

end Verif.Atmos
