import Verif.Proof.Atmosphere

/-! C32-C36: standard atmosphere and airspeed components. -/

namespace Verif.Atmos

/-! ### C32 -/

/-- the temperature is continuously differentiable in altitude, with the reported partial -/
theorem C32_temperature (inc : ℝ) :
    (∀ h, HasDerivAt (fun x => temperature x inc) (tempDerivWith (getMasks h) h) h) ∧
    Continuous (fun h => tempDerivWith (getMasks h) h) := by
  constructor
  · intro h
    rw [tempD_eq]
    have : (fun x => temperature x inc) = fun x => tblend x + inc := by
      funext x; simp only [temperature, temp_eq]
    rw [this]
    exact (hd_tblend h).add_const inc
  · simp only [tempD_eq]; exact cont_tblendD

/-- the declared constant partial with respect to the temperature increment -/
theorem C32_increment (h inc : ℝ) : HasDerivAt (fun x => temperature h x) 1 inc := by
  unfold temperature; hderiv!

/-- the pressure is defined and continuously differentiable below the singular altitude, with the reported partial -/
theorem C32_pressure (h : ℝ) (hh : h < 288.16 / 0.0065) :
    (∃ p, pressure h = some p) ∧
    (∃ d, pressureDerivWith (getMasks h) h = some d ∧ HasDerivAt (fun x => (pressure x).getD 0) d h) ∧
    ContinuousAt (fun x => (pressureDerivWith (getMasks x) x).getD 0) h := by
  have hn : ¬ hMax < h := not_lt.2 (le_of_lt hh)
  have ev : ∀ᶠ x in nhds h, ¬ hMax < x := (eventually_lt_nhds hh).mono fun x hx => not_lt.2 (le_of_lt hx)
  refine ⟨⟨pblend h, by rw [pressure_eq, if_neg hn]⟩, ⟨pblendD h, by rw [pressureD_eq, if_neg hn], ?_⟩, ?_⟩
  · refine (hd_pblend h).congr_of_eventuallyEq ?_
    filter_upwards [ev] with x hx
    rw [pressure_eq, if_neg hx]; rfl
  · refine cont_pblendD.continuousAt.congr ?_
    filter_upwards [ev] with x hx
    rw [pressureD_eq, if_neg hx]; rfl

/-- at the join at 10.5 km the reported partial is the troposphere slope -/
example : HasDerivAt (fun x => temperature x 3) (-6.5e-3) 10500 := by
  have := (C32_temperature 3).1 10500
  convert this using 1
  rw [tempD_eq]
  norm_num [tblendD, hUpper, hLower, hTrans, epsilon]

example : ∃ d, HasDerivAt (fun x => (pressure x).getD 0) d 11500 := by
  obtain ⟨_, ⟨d, _, h⟩, _⟩ := C32_pressure 11500 (by norm_num)
  exact ⟨d, h⟩

/-! ### C33 -/

/-- exactly one of the three masks holds -/
theorem C33_one_mask (h : ℝ) :
    (getMasks h = ⟨true, false, false⟩ ∧ h ≤ 10500) ∨
    (getMasks h = ⟨false, false, true⟩ ∧ 10500 < h ∧ h ≤ 11500) ∨
    (getMasks h = ⟨false, true, false⟩ ∧ 11500 < h) := by
  unfold getMasks hLower hUpper hTrans epsilon
  norm_num
  rcases le_or_gt h 10500 with h1 | h1
  · left; simp [h1]; linarith
  · rcases le_or_gt h 11500 with h2 | h2
    · right; left; simp [h1, h2]
    · right; right; simp [h1, h2]

theorem C33_masks_sum (h : ℝ) :
    b2r (getMasks h).tropos + b2r (getMasks h).strato + b2r (getMasks h).smooth = 1 := by
  rcases C33_one_mask h with ⟨h, _⟩ | ⟨h, _⟩ | ⟨h, _⟩ <;> simp [h, b2r]

/-- the temperature is that of exactly one formula -/
theorem C33_value (h : ℝ) :
    temperature h 0 = if h ≤ 10500 then 288.16 - 0.0065 * h
      else if h ≤ 11500 then cubic tempCoeffs h else 216.65 := by
  rcases C33_one_mask h with ⟨e, h1⟩ | ⟨e, h1, h2⟩ | ⟨e, h1⟩
  · simp [temperature, tempWith, e, b2r, h1]
  · simp [temperature, tempWith, e, b2r, not_le.2 h1, h2]
  · have : ¬ h ≤ 10500 := by linarith
    simp [temperature, tempWith, e, b2r, not_le.2 h1, this]

example : temperature 0 0 = 288.16 := by rw [C33_value]; norm_num
example : (getMasks 10500).tropos = true ∧ (getMasks 10500.5).smooth = true := by
  norm_num [getMasks, hLower, hUpper, hTrans, epsilon]

/-! ### C34 -/

/-- Property in full: after any history the partials are those of the given altitudes. -/
def PartialsCurrent (n : ℕ) : Prop :=
  ∀ (cs : List (Call n)) (h : Fin n → ℝ), run cs ≠ none →
    tempPartials (run cs) h = some fun i => tempDerivWith (getMasks (h i)) (h i)

/-- the full property fails: compute at sea level followed by partials at 20 km -/
theorem C34_not_current : ¬ PartialsCurrent 1 := by
  intro H
  have := H [.compute fun _ => 0] (fun _ => 20000) (by simp [run, step])
  simp only [run, List.foldl, step, tempPartials, Option.map_some, Option.some.injEq] at this
  have := congrFun this 0
  norm_num [tempDerivWith, getMasks, hLower, hUpper, hTrans, epsilon, b2r] at this

/-- the same for pressure: the reported partial is not the derivative -/
theorem C34_pressure_not_current :
    ∃ (cs : List (Call 1)) (h : Fin 1 → ℝ) (d : Fin 1 → Option ℝ) (v : ℝ),
      pressurePartials (run cs) h = some d ∧ d 0 = some v ∧
      ¬ HasDerivAt (fun x => (pressure x).getD 0) v (h 0) := by
  refine ⟨[.compute fun _ => 288.16 / 0.0065], fun _ => 0, _, 
    22632 * (-9.81 / (288 * 216.65)) * Real.exp (9.81 * 11000 / (288 * 216.65)) * Real.exp 0, rfl, ?_, ?_⟩
  · norm_num [pressureDerivWith, getMasks, hLower, hUpper, hTrans, epsilon, b2r, npow]
  · intro hd
    have h1 := hd.unique ((hd_pblend 0).congr_of_eventuallyEq (by
      filter_upwards [eventually_lt_nhds (show (0 : ℝ) < hMax by norm_num [hMax])] with x hx
      rw [pressure_eq, if_neg (not_lt.2 hx.le)]; rfl))
    have h2 : pblendD 0 = -(101325 * 5.2561 * 0.0065 / 288.16) := by
      norm_num [pblendD, hUpper, hLower, hTrans, epsilon, ptropD]
    rw [h2, Real.exp_zero] at h1
    -- the stratosphere slope extended to sea level is more than 18 Pa/m
    have h3 : (1 + 9.81 * 11000 / (288 * 216.65)) ^ 1 ≤ Real.exp (9.81 * 11000 / (288 * 216.65)) := by
      have := Real.add_one_le_exp (9.81 * 11000 / (288 * 216.65)); linarith
    have h4 : Real.exp (9.81 * 11000 / (288 * 216.65)) = Real.exp (9.81 * 11000 / (288 * 216.65) / 4) ^ 4 := by
      rw [← Real.exp_nat_mul]; congr 1; push_cast; ring
    have h5 : (1.432 : ℝ) ≤ Real.exp (9.81 * 11000 / (288 * 216.65) / 4) := by
      refine le_trans ?_ (Real.add_one_le_exp _); norm_num
    have h6 : (1.432 : ℝ) ^ 4 ≤ Real.exp (9.81 * 11000 / (288 * 216.65)) := by
      rw [h4]; exact pow_le_pow_left₀ (by norm_num) h5 4
    nlinarith

/-- calling `compute_partials` before any `compute` fails -/
theorem C34_before_compute {n : ℕ} (cs : List (Call n)) (h : Fin n → ℝ)
    (hc : ∀ c ∈ cs, ∃ x, c = .partials x) : tempPartials (run cs) h = none := by
  have : run cs = none := by
    unfold run
    induction cs with
    | nil => rfl
    | cons c cs ih =>
      obtain ⟨x, hx⟩ := hc c (by simp)
      subst hx
      simp only [List.foldl, step]
      exact ih fun c hc' => hc c (by simp [hc'])
  simp [tempPartials, this]

/-- What holds: the partials are right when the last `compute` was made with altitudes in the same layers
(in particular with the same altitudes).  Missing from the full property: other histories, where the result
is the formula of the wrong layer (see `C34_not_current`). -/
theorem C34_current_partial {n : ℕ} (cs ps : List (Call n)) (h h' : Fin n → ℝ)
    (hp : ∀ c ∈ ps, ∃ x, c = .partials x) (hl : ∀ i, getMasks (h' i) = getMasks (h i)) :
    tempPartials (run (cs ++ .compute h' :: ps)) h = some (fun i => tempDerivWith (getMasks (h i)) (h i)) ∧
    pressurePartials (run (cs ++ .compute h' :: ps)) h
      = some (fun i => pressureDerivWith (getMasks (h i)) (h i)) := by
  have : run (cs ++ .compute h' :: ps) = some fun i => getMasks (h i) := by
    unfold run
    rw [List.foldl_append, List.foldl_cons]
    simp only [step, hl]
    generalize (some fun i => getMasks (h i)) = s
    induction ps generalizing s with
    | nil => rfl
    | cons c ps ih =>
      obtain ⟨x, hx⟩ := hp c (by simp)
      subst hx
      simp only [List.foldl, step]
      exact ih (fun c hc' => hp c (by simp [hc'])) s
  simp [tempPartials, pressurePartials, this]

/-- with the same altitudes, every reported temperature partial is a derivative -/
theorem C34_same_partial {n : ℕ} (cs : List (Call n)) (h : Fin n → ℝ) (inc : ℝ) :
    ∃ d, tempPartials (run (cs ++ [.compute h])) h = some d ∧
      ∀ i, HasDerivAt (fun x => temperature x inc) (d i) (h i) :=
  ⟨_, (C34_current_partial cs [] h h (by simp) (fun _ => rfl)).1, fun i => (C32_temperature inc).1 (h i)⟩

example : tempPartials (run [.compute (fun _ : Fin 2 => 20000), .compute fun _ => 1000]) (fun _ => 2000)
    = some fun _ => -6.5e-3 := by
  have := (C34_current_partial [.compute fun _ : Fin 2 => 20000] [] (fun _ => 2000) (fun _ => 1000)
    (by simp) (fun _ => by norm_num [getMasks, hLower, hUpper, hTrans, epsilon])).1
  refine this.trans ?_
  norm_num [tempDerivWith, getMasks, hLower, hUpper, hTrans, epsilon, b2r]

/-! ### C35 -/

/-- below the singular altitude the pressure is a positive number and decreases strictly with altitude -/
theorem C35_pressure_positive_decreasing (h : ℝ) (hh : h ≤ 288.16 / 0.0065) :
    ∃ p, pressure h = some p ∧ 0 < p ∧ ∀ h' < h, ∃ p', pressure h' = some p' ∧ p < p' := by
  have e : ∀ x, x ≤ hMax → pressure x = some (pblend x) := fun x hx => by
    rw [pressure_eq, if_neg (not_lt.2 hx)]
  exact ⟨_, e h hh, pblend_pos h, fun h' hlt => ⟨_, e h' (hlt.le.trans hh), pblend_anti hlt⟩⟩

/-- above it, pressure and its partial are not numbers -/
theorem C35_nan (h : ℝ) (hh : 288.16 / 0.0065 < h) :
    pressure h = none ∧ pressureDerivWith (getMasks h) h = none := by
  have hh : hMax < h := hh
  rw [pressure_eq, pressureD_eq, if_pos hh, if_pos hh]; exact ⟨rfl, rfl⟩

/-- although the formula of the stratosphere, which is the selected one, has a value there -/
theorem C35_stratosphere_selected (h : ℝ) (hh : 288.16 / 0.0065 < h) :
    getMasks h = ⟨false, true, false⟩ ∧ 0 < 22632 * Real.exp (-9.81 * (h - hTrans) / (288 * 216.65)) := by
  refine ⟨?_, by positivity⟩
  have : (11500 : ℝ) < h := lt_trans (by norm_num) hh
  rcases C33_one_mask h with ⟨e, h1⟩ | ⟨e, h1, h2⟩ | ⟨e, h1⟩
  · linarith
  · linarith
  · exact e

/-- the temperature never increases with altitude and never falls below the stratosphere value -/
theorem C35_temperature (h h' inc : ℝ) (hh : h ≤ h') :
    temperature h' inc ≤ temperature h inc ∧ 216.65 + inc ≤ temperature h inc := by
  unfold temperature
  rw [temp_eq, temp_eq]
  exact ⟨by linarith [tblend_anti hh], by linarith [tblend_ge h]⟩

example : ∃ p, pressure 40000 = some p ∧ 0 < p := by
  obtain ⟨p, h1, h2, _⟩ := C35_pressure_positive_decreasing 40000 (by norm_num)
  exact ⟨p, h1, h2⟩
example : pressure 50000 = none := (C35_nan 50000 (by norm_num)).1

/-! ### C36 -/

theorem C36_tas_eas_tas (rho u : ℝ) (hr : 0 < rho) :
    trueAirspeed rho (equivAirspeed rho u) = u ∧ equivAirspeed rho (trueAirspeed rho u) = u := by
  have e : Real.sqrt (rho / 1.225) * Real.sqrt (1.225 / rho) = 1 := by
    rw [← Real.sqrt_mul (by positivity)]
    rw [show rho / 1.225 * (1.225 / rho) = 1 by field_simp]
    exact Real.sqrt_one
  unfold trueAirspeed equivAirspeed
  constructor
  · rw [mul_assoc, e, mul_one]
  · rw [mul_assoc, mul_comm (Real.sqrt (1.225 / rho)), e, mul_one]

/-- dynamic pressure from true airspeed and density is that of the equivalent airspeed at sea-level density -/
theorem C36_dynamic_pressure (rho u : ℝ) (hr : 0 ≤ rho) :
    dynPressure rho u = 1 / 2 * 1.225 * equivAirspeed rho u ^ 2 := by
  unfold dynPressure equivAirspeed
  rw [mul_pow, Real.sq_sqrt (by positivity)]
  ring

theorem C36_mach (u T : ℝ) (hT : 0 < T) :
    mach u (soundSpeed T) * soundSpeed T = u ∧ soundSpeed T ^ 2 = 1.4 * 287.058 * T := by
  have : 0 < gamma * R * T := by unfold gamma R; positivity
  unfold mach soundSpeed
  refine ⟨div_mul_cancel₀ _ (Real.sqrt_pos.2 this).ne', ?_⟩
  rw [Real.sq_sqrt this.le]; simp [gamma, R]

theorem C36_gas_law (p T : ℝ) (hT : T ≠ 0) : density p T * 287.058 * T = p := by
  unfold density R; field_simp

/-- the dynamic pressure is half the heat capacity ratio times pressure times Mach number squared -/
theorem C36_compressible (p T u : ℝ) (hT : 0 < T) :
    dynPressure (density p T) u = 1.4 / 2 * p * mach u (soundSpeed T) ^ 2 := by
  have h := (C36_mach u T hT).2
  unfold dynPressure mach
  rw [div_pow, h, density, R]
  field_simp
  ring

theorem C36_density_partials (p T : ℝ) (hT : T ≠ 0) :
    HasDerivAt (fun x => density x T) (densityDp p T) p ∧
    HasDerivAt (fun x => density p x) (densityDT p T) T := by
  unfold density densityDp densityDT R
  constructor
  · hderiv!
  · hderiv!

theorem C36_dynamic_pressure_partials (rho u : ℝ) :
    HasDerivAt (fun x => dynPressure x u) (dynPressureDrho rho u) rho ∧
    HasDerivAt (fun x => dynPressure rho x) (dynPressureDu rho u) u := by
  unfold dynPressure dynPressureDrho dynPressureDu
  constructor
  · hderiv!
  · hderiv!

theorem C36_mach_partials (u a : ℝ) (ha : a ≠ 0) :
    HasDerivAt (fun x => mach x a) (machDu u a) u ∧ HasDerivAt (fun x => mach u x) (machDa u a) a := by
  unfold mach machDu machDa
  constructor
  · hderiv!
  · hderiv!

theorem C36_sound_derivative (T : ℝ) (hT : 0 < T) : HasDerivAt soundSpeed (soundSpeedDT T) T := by
  have hg : 0 < gamma * R := by unfold gamma R; norm_num
  have hp : 0 < gamma * R * T := mul_pos hg hT
  unfold soundSpeed soundSpeedDT
  hderiv
  · rw [Real.sqrt_mul hg.le, Real.sqrt_div hg.le]
    have h1 := Real.sqrt_pos.2 hg
    have h2 := Real.sqrt_pos.2 hT
    field_simp
    rw [Real.sq_sqrt hg.le]; ring

theorem C36_tas_partials (rho u : ℝ) (hr : 0 < rho) :
    HasDerivAt (fun x => trueAirspeed rho x) (trueAirspeedDe rho u) u ∧
    HasDerivAt (fun x => trueAirspeed x u) (trueAirspeedDrho rho u) rho := by
  unfold trueAirspeed trueAirspeedDe trueAirspeedDrho
  constructor
  · hderiv!
  · hderiv
    rw [show (-3 / 2 : ℝ) = -2 + 1 / 2 by norm_num, Real.rpow_add hr, ← Real.sqrt_eq_rpow,
      show (-2 : ℝ) = ((-2 : ℤ) : ℝ) by norm_num, Real.rpow_intCast,
      Real.sqrt_div (by norm_num)]
    have h1 : 0 < Real.sqrt 1.225 := Real.sqrt_pos.2 (by norm_num)
    have h2 := Real.sqrt_pos.2 hr
    rw [zpow_neg]
    field_simp
    rw [Real.sq_sqrt (by norm_num)]

theorem C36_eas_partials (rho u : ℝ) (hr : 0 < rho) :
    HasDerivAt (fun x => equivAirspeed rho x) (equivAirspeedDu rho u) u ∧
    HasDerivAt (fun x => equivAirspeed x u) (equivAirspeedDrho rho u) rho := by
  unfold equivAirspeed equivAirspeedDu equivAirspeedDrho
  constructor
  · hderiv!
  · hderiv
    rw [show (-1 / 2 : ℝ) = -(1 / 2) by norm_num, Real.rpow_neg (by positivity), ← Real.sqrt_eq_rpow]
    have h2 := Real.sqrt_pos.2 (show 0 < rho / 1.225 by positivity)
    field_simp

example : trueAirspeed 0.5 (equivAirspeed 0.5 200) = 200 := (C36_tas_eas_tas 0.5 200 (by norm_num)).1
example : dynPressure 1.225 100 = 1 / 2 * 1.225 * equivAirspeed 1.225 100 ^ 2 :=
  C36_dynamic_pressure _ _ (by norm_num)

end Verif.Atmos
