import Verif.Model.Thermal
import Verif.Proof.HDeriv
import Mathlib.Analysis.SpecialFunctions.Trigonometric.DerivHyp
import Mathlib.Analysis.Complex.ExponentialBounds
import Mathlib.Tactic.NormNum

/-! Properties C51, C52 and C80: chiller and heat pipe. -/

namespace Verif.Thermal

open Real

/-! ### C51: heat pump -/

/-- C51.  The heat rejected on the hot side is the heat extracted on the cold side plus the work. -/
theorem C51_balance (COP P : ℝ) : pumpQ2 COP P = -pumpQ1 COP P + P ∧ (P ≠ 0 → -pumpQ1 COP P / P = COP) := by
  unfold pumpQ1 pumpQ2
  refine ⟨by ring, fun h => by field_simp⟩

/-- C51.  Declared partials of the heat pump (chiller.py:136-142: `-P`, `-COP`, `P`, `COP + 1`). -/
theorem C51_pump_partials (COP P : ℝ) :
    HasDerivAt (fun x => pumpQ1 x P) (-P) COP ∧ HasDerivAt (fun x => pumpQ1 COP x) (-COP) P ∧
    HasDerivAt (fun x => pumpQ2 x P) P COP ∧ HasDerivAt (fun x => pumpQ2 COP x) (COP + 1) P := by
  unfold pumpQ1 pumpQ2
  refine ⟨?_, ?_, ?_, ?_⟩ <;> hderiv <;> ring

/-- C51.  Weight times specific power is the rating; declared partials. -/
theorem C51_weight (P sp : ℝ) (h : sp ≠ 0) :
    pumpWeight P sp * sp = P ∧ HasDerivAt (fun x => pumpWeight x sp) (pumpWeightDP sp) P ∧
    HasDerivAt (fun x => pumpWeight P x) (pumpWeightDsp P sp) sp := by
  unfold pumpWeight pumpWeightDP pumpWeightDsp
  refine ⟨by field_simp, ?_, ?_⟩ <;> hderiv!

/-- C51.  Bypass limits: no bypass gives the refrigerator's outlets and full load; full bypass crosses the two coolant
streams and uses no power; between, every output is the linear interpolation. -/
theorem C51_selector (i : SelIn) :
    (i.bypass = 0 → selCold i = i.refCold ∧ selHot i = i.refHot ∧ selLoad i = i.rating / 0.95) ∧
    (i.bypass = 1 → selCold i = i.TinHot ∧ selHot i = i.TinCold ∧ selLoad i = 0) ∧
    selCold i = (1 - i.bypass) * selCold {i with bypass := 0} + i.bypass * selCold {i with bypass := 1} ∧
    selHot i = (1 - i.bypass) * selHot {i with bypass := 0} + i.bypass * selHot {i with bypass := 1} ∧
    selLoad i = (1 - i.bypass) * selLoad {i with bypass := 0} + i.bypass * selLoad {i with bypass := 1} := by
  unfold selCold selHot selLoad
  refine ⟨fun h => ?_, fun h => ?_, by ring, by ring, by ring⟩ <;> simp [h]

/-- C51.  Declared partials of the selector (chiller.py:75-90). -/
theorem C51_selector_partials (i : SelIn) :
    HasDerivAt (fun x => selCold {i with TinHot := x}) i.bypass i.TinHot ∧
    HasDerivAt (fun x => selCold {i with refCold := x}) (1 - i.bypass) i.refCold ∧
    HasDerivAt (fun x => selCold {i with bypass := x}) (i.TinHot - i.refCold) i.bypass ∧
    HasDerivAt (fun x => selHot {i with TinCold := x}) i.bypass i.TinCold ∧
    HasDerivAt (fun x => selHot {i with refHot := x}) (1 - i.bypass) i.refHot ∧
    HasDerivAt (fun x => selHot {i with bypass := x}) (i.TinCold - i.refHot) i.bypass ∧
    HasDerivAt (fun x => selLoad {i with rating := x}) ((1 - i.bypass) / 0.95) i.rating ∧
    HasDerivAt (fun x => selLoad {i with bypass := x}) (-i.rating / 0.95) i.bypass := by
  unfold selCold selHot selLoad
  refine ⟨?_, ?_, ?_, ?_, ?_, ?_, ?_, ?_⟩ <;> hderiv <;> ring

/-- C51.  Whole chiller: whatever the COP and the bypass, the enthalpy gained by both coolant streams together is the
work put in, which is 95 % of the electric load. -/
theorem C51_chiller_energy (c : Chiller) (hm : c.mdot ≠ 0) (hc : c.cp ≠ 0) :
    c.mdot * c.cp * ((selHot c.sel - c.TinHot) + (selCold c.sel - c.TinCold)) = 0.95 * selLoad c.sel := by
  simp only [Chiller.sel, selHot, selCold, selLoad, Chiller.hotOut, Chiller.coldOut, phtOut, pumpQ1, pumpQ2]
  field_simp
  ring

theorem tanh_lt_one' (x : ℝ) : tanh x < 1 := by
  rw [tanh_eq_sinh_div_cosh, div_lt_one (cosh_pos x)]
  rw [sinh_eq, cosh_eq]; have := exp_pos (-x); linarith

theorem neg_one_lt_tanh' (x : ℝ) : -1 < tanh x := by
  have := tanh_lt_one' (-x)
  rw [tanh_neg] at this; linarith

theorem tanh_pos' {x : ℝ} (h : 0 < x) : 0 < tanh x := by
  rw [tanh_eq_sinh_div_cosh]; exact div_pos (sinh_pos_iff.2 h) (cosh_pos x)

/-- `1 - tanh x ≤ 2 e^{-2x}` -/
theorem one_sub_tanh (x : ℝ) : 1 - tanh x ≤ 2 * exp (-2 * x) := by
  rw [tanh_eq_sinh_div_cosh]
  have hc := cosh_pos x
  have e : 1 - sinh x / cosh x = exp (-x) / cosh x := by
    rw [← cosh_sub_sinh]; field_simp
  rw [e, div_le_iff₀ hc, cosh_eq]
  have e2 : exp (-2 * x) * exp x = exp (-x) := by rw [← exp_add]; congr 1; ring
  have := mul_pos (exp_pos (-2 * x)) (exp_pos (-x))
  nlinarith

/-- `tanh x / x > 0` for nonzero `x` -/
theorem tanh_div_pos {x : ℝ} (h : x ≠ 0) : 0 < tanh x / x := by
  rcases lt_or_gt_of_ne h with h | h
  · have := tanh_pos' (x := -x) (by linarith)
    rw [tanh_neg] at this
    exact div_pos_of_neg_of_neg (by linarith) h
  · exact div_pos (tanh_pos' h) h

/-- the soft minimum exceeds each argument by a logistic share of the difference -/
theorem copSoft_eq (a : ℝ) : copSoft a = a + (10 - a) / (1 + exp (1.5 * (10 - a))) ∧
    copSoft a = 10 + (a - 10) / (1 + exp (1.5 * (a - 10))) := by
  have h1 : exp (1.5 * (10 - a)) = exp (-1.5 * a) / exp (-1.5 * 10) := by rw [← exp_sub]; congr 1; ring
  have h2 : exp (1.5 * (a - 10)) = exp (-1.5 * 10) / exp (-1.5 * a) := by rw [← exp_sub]; congr 1; ring
  have p1 := exp_pos (-1.5 * a)
  have p2 := exp_pos (-1.5 * 10)
  unfold copSoft
  rw [h1, h2]
  generalize exp (-1.5 * a) = u at *
  generalize exp (-1.5 * 10) = v at *
  have : u + v ≠ 0 := by positivity
  have : v + u ≠ 0 := by positivity
  constructor <;> (field_simp; ring)

theorem logistic_share (x : ℝ) : x / (1 + exp (1.5 * x)) ≤ 2 / 9 := by
  have hp : 0 < 1 + exp (1.5 * x) := by positivity
  rcases le_total x 0 with h | h
  · exact (div_nonpos_of_nonpos_of_nonneg h hp.le).trans (by norm_num)
  · rw [div_le_iff₀ hp]
    have := quadratic_le_exp_of_nonneg (x := 1.5 * x) (by positivity)
    nlinarith [sq_nonneg (x - 4 / 3), sq_nonneg (3 * x - 4)]

/-- C51.  The COP is a soft minimum: at least the smaller and at most the larger of the estimate and 10, and never more
than 2/9 above the smaller. -/
theorem C51_soft_min (a : ℝ) : min a 10 ≤ copSoft a ∧ copSoft a ≤ max a 10 ∧ copSoft a ≤ min a 10 + 2 / 9 := by
  have h1 := (copSoft_eq a).1
  have h2 := (copSoft_eq a).2
  have s1 := logistic_share (10 - a)
  have s2 := logistic_share (a - 10)
  have p1 : 0 < 1 + exp (1.5 * (10 - a)) := by positivity
  have p2 : 0 < 1 + exp (1.5 * (a - 10)) := by positivity
  have q1 : (1 : ℝ) ≤ 1 + exp (1.5 * (10 - a)) := by have := exp_pos (1.5 * (10 - a)); linarith
  have q2 : (1 : ℝ) ≤ 1 + exp (1.5 * (a - 10)) := by have := exp_pos (1.5 * (a - 10)); linarith
  rcases le_total a 10 with h | h
  · have t1 : 0 ≤ (10 - a) / (1 + exp (1.5 * (10 - a))) := div_nonneg (by linarith) p1.le
    have t2 : (10 - a) / (1 + exp (1.5 * (10 - a))) ≤ 10 - a := div_le_self (by linarith) q1
    rw [min_eq_left h, max_eq_right h]
    refine ⟨by linarith, by linarith, by linarith⟩
  · have t1 : 0 ≤ (a - 10) / (1 + exp (1.5 * (a - 10))) := div_nonneg (by linarith) p2.le
    have t2 : (a - 10) / (1 + exp (1.5 * (a - 10))) ≤ a - 10 := div_le_self (by linarith) q2
    rw [min_eq_right h, max_eq_left h]
    refine ⟨by linarith, by linarith, by linarith⟩

theorem cop_some {Tc Th eff : ℝ} (h : Th ≠ Tc) :
    cop Tc Th eff = some (copSoft (copA (Tc / (Th - Tc)) (Th - Tc) eff)) := by
  unfold cop npdiv
  rw [if_neg (sub_ne_zero.2 h)]
  rfl

theorem copA_pos {Tc Th eff : ℝ} (h : Th ≠ Tc) (hT : 0 < Tc) (he : 0 ≤ eff) :
    0 < copA (Tc / (Th - Tc)) (Th - Tc) eff := by
  unfold copA
  have h1 := tanh_div_pos (sub_ne_zero.2 h)
  have h2 := neg_one_lt_tanh' (-(Th - Tc + 3))
  have e : Tc / (Th - Tc) * tanh (Th - Tc) * eff = Tc * (tanh (Th - Tc) / (Th - Tc)) * eff := by ring
  rw [e]
  have : 0 ≤ Tc * (tanh (Th - Tc) / (Th - Tc)) * eff := by positivity
  linarith

/-- C51.  The COP is undefined exactly at equal temperatures; elsewhere it is positive and below 10 + 2/9. -/
theorem C51_cop_range (Tc Th eff : ℝ) (hT : 0 < Tc) (he : 0 ≤ eff) :
    (cop Tc Th eff = none ↔ Th = Tc) ∧ ∀ c, cop Tc Th eff = some c → 0 < c ∧ c ≤ 10 + 2 / 9 := by
  constructor
  · constructor
    · intro h
      by_contra hne
      rw [cop_some hne] at h
      cases h
    · rintro rfl
      simp [cop, npdiv]
  · intro c hc
    by_cases hne : Th = Tc
    · subst hne; simp [cop, npdiv] at hc
    · rw [cop_some hne] at hc
      cases hc
      have hp := copA_pos hne hT he
      obtain ⟨h1, _, h3⟩ := C51_soft_min (copA (Tc / (Th - Tc)) (Th - Tc) eff)
      refine ⟨lt_of_lt_of_le (lt_min hp (by norm_num)) h1, h3.trans ?_⟩
      have := min_le_right (copA (Tc / (Th - Tc)) (Th - Tc) eff) 10
      linarith

/-- C51, the Carnot limit holds in the operating range: for an efficiency factor of at most one half (default 0.4), a hot
side hotter than the cold side and less than three times its absolute temperature, the COP does not exceed Carnot's.
Missing from the full claim: other efficiency factors and temperature ratios, for which it is false
(`C51_not_below_carnot`). -/
theorem C51_below_carnot_partial (Tc Th eff c : ℝ) (hT : 0 < Tc) (hh : Tc < Th) (hr : Th ≤ 3 * Tc) (he : eff ≤ 1 / 2)
    (hc : cop Tc Th eff = some c) : c ≤ Tc / (Th - Tc) := by
  have hd : 0 < Th - Tc := by linarith
  rw [cop_some (by linarith : Tc < Th).ne'] at hc
  cases hc
  set C := Tc / (Th - Tc) with hC
  have hC2 : 1 / 2 ≤ C := by rw [hC, le_div_iff₀ hd]; linarith
  obtain ⟨_, _, h3⟩ := C51_soft_min (copA C (Th - Tc) eff)
  have h4 := min_le_left (copA C (Th - Tc) eff) 10
  have hA : copA C (Th - Tc) eff ≤ C / 2 + 1 / 40 := by
    unfold copA
    have t1 := tanh_lt_one' (Th - Tc)
    have t0 := tanh_pos' hd
    have a1 : C * tanh (Th - Tc) * eff ≤ C / 2 := by
      have : 0 < C * tanh (Th - Tc) := by positivity
      have h5 : C * tanh (Th - Tc) ≤ C := by nlinarith
      nlinarith
    have a2 : 1 + tanh (-(Th - Tc + 3)) ≤ 2 * exp (-6) := by
      rw [tanh_neg]
      have := one_sub_tanh (Th - Tc + 3)
      have h6 : exp (-2 * (Th - Tc + 3)) ≤ exp (-6) := by rw [exp_le_exp]; linarith
      linarith
    have a3 : exp (-6) ≤ 1 / 400 := by
      rw [exp_neg, inv_le_comm₀ (exp_pos _) (by norm_num)]
      have e : exp 6 = exp 1 ^ 6 := by rw [← exp_nat_mul]; norm_num
      rw [e]
      have := exp_one_gt_d9
      calc (1 / 400 : ℝ)⁻¹ ≤ 2.718 ^ 6 := by norm_num
        _ ≤ exp 1 ^ 6 := by gcongr; linarith
    linarith
  linarith

/-- C51, negation of the unconditional Carnot limit: with efficiency factor one the COP exceeds Carnot's. -/
theorem C51_not_below_carnot :
    ∃ Tc Th eff c, 0 < Tc ∧ Tc < Th ∧ 0 ≤ eff ∧ eff ≤ 1 ∧ cop Tc Th eff = some c ∧ Tc / (Th - Tc) < c := by
  refine ⟨20, 40, 1, _, by norm_num, by norm_num, by norm_num, le_rfl, cop_some (by norm_num), ?_⟩
  norm_num
  set a := copA 1 20 1 with ha
  have h0 : tanh 20 ≤ a ∧ a ≤ 2 := by
    rw [ha]; unfold copA
    have h1 := tanh_lt_one' 20
    have h2 := neg_one_lt_tanh' (-(20 + 3))
    have h3 : 1 + tanh (-(20 + 3)) ≤ 2 * exp (-2 * (20 + 3)) := by
      rw [tanh_neg]; have := one_sub_tanh (20 + 3); linarith
    have h4 : exp (-2 * (20 + 3)) ≤ 1 / 40 := by
      rw [show (-2 * (20 + 3) : ℝ) = -46 by norm_num, exp_neg, inv_le_comm₀ (exp_pos _) (by norm_num)]
      have := add_one_le_exp (46 : ℝ)
      norm_num; linarith
    generalize tanh (-(20 + 3)) = u at *
    generalize exp (-2 * (20 + 3)) = v at *
    constructor <;> linarith
  have h1 := one_sub_tanh 20
  rw [(copSoft_eq a).1]
  have hq : 4 * exp (-15) ≤ (10 - a) / (1 + exp (1.5 * (10 - a))) := by
    have hp : 0 < 1 + exp (1.5 * (10 - a)) := by positivity
    rw [le_div_iff₀ hp]
    have ha0 : 0 ≤ a := (tanh_pos' (by norm_num : (0 : ℝ) < 20)).le.trans h0.1
    have e1 : exp (-15) * exp (1.5 * (10 - a)) ≤ 1 := by
      rw [← exp_add, exp_le_one_iff]; linarith
    have e2 : exp (-15) ≤ 1 := by rw [exp_le_one_iff]; norm_num
    nlinarith [h0.2]
  have hlt : 2 * exp (-2 * 20) < 4 * exp (-15) := by
    have : exp (-2 * 20) < exp (-15) := by rw [exp_lt_exp]; norm_num
    have := exp_pos (-15)
    linarith
  linarith [h0.1]

/-- C51, negation of the ceiling: the COP can exceed 10 (by less than 2/9). -/
theorem C51_exceeds_ceiling : ∃ Tc Th eff c, 0 < Tc ∧ Tc < Th ∧ eff = 0.4 ∧ cop Tc Th eff = some c ∧ 10 < c := by
  refine ⟨300, 305, 0.4, _, by norm_num, by norm_num, rfl, cop_some (by norm_num), ?_⟩
  rw [(copSoft_eq _).2]
  have hA : 10 < copA (300 / (305 - 300)) (305 - 300) 0.4 := by
    unfold copA
    have h1 := one_sub_tanh (305 - 300)
    have h2 := neg_one_lt_tanh' (-(305 - 300 + 3))
    have h3 : exp (-2 * (305 - 300)) ≤ 1 / 11 := by
      rw [show (-2 * (305 - 300) : ℝ) = -10 by norm_num, exp_neg, inv_le_comm₀ (exp_pos _) (by norm_num)]
      have := add_one_le_exp (10 : ℝ)
      norm_num; linarith
    norm_num at h1 h2 h3 ⊢
    linarith
  have hp : 0 < 1 + exp (1.5 * (copA (300 / (305 - 300)) (305 - 300) 0.4 - 10)) := by positivity
  have := div_pos (sub_pos.2 hA) hp
  linarith

theorem hasDerivAt_tanh_zero : HasDerivAt tanh 1 0 := by
  have h := (hasDerivAt_sinh 0).fun_div (hasDerivAt_cosh 0) (cosh_pos 0).ne'
  simp only [sinh_zero, cosh_zero] at h
  norm_num at h
  refine h.congr_of_eventuallyEq (Filter.Eventually.of_forall fun x => ?_)
  exact tanh_eq_sinh_div_cosh x

theorem continuous_copSoft : Continuous copSoft := by
  unfold copSoft
  refine Continuous.div (by fun_prop) (by fun_prop) fun a => ?_
  have h1 := exp_pos (-1.5 * a)
  have h2 := exp_pos (-1.5 * 10)
  linarith

theorem continuous_tanh' : Continuous tanh := by
  have : tanh = fun x => sinh x / cosh x := by funext x; exact tanh_eq_sinh_div_cosh x
  rw [this]
  exact continuous_sinh.div continuous_cosh fun x => (cosh_pos x).ne'

/-- C51.  The undefined value at equal temperatures is removable: approaching from either side the COP tends to the soft
minimum of `eff T_c + 5 (1 - tanh 3)` and 10. -/
theorem C51_cop_limit (Tc eff : ℝ) :
    Filter.Tendsto (fun Th => (cop Tc Th eff).getD 0) (nhdsWithin Tc {Tc}ᶜ)
      (nhds (copSoft (Tc * eff + 5 * (1 - tanh 3)))) := by
  have hs := hasDerivAt_iff_tendsto_slope.1 hasDerivAt_tanh_zero
  have hsub : Filter.Tendsto (fun Th : ℝ => Th - Tc) (nhdsWithin Tc {Tc}ᶜ) (nhdsWithin 0 {0}ᶜ) := by
    apply tendsto_nhdsWithin_of_tendsto_nhds_of_eventually_within
    · have : Continuous fun Th : ℝ => Th - Tc := by fun_prop
      have h := this.tendsto Tc
      simp only [sub_self] at h
      exact h.mono_left nhdsWithin_le_nhds
    · filter_upwards [self_mem_nhdsWithin] with x hx
      exact sub_ne_zero.2 hx
  have h1 := hs.comp hsub
  have h2 : Filter.Tendsto (fun Th : ℝ => 5 * (1 - tanh (Th - Tc + 3))) (nhdsWithin Tc {Tc}ᶜ)
      (nhds (5 * (1 - tanh 3))) := by
    have hc : Continuous fun Th : ℝ => 5 * (1 - tanh (Th - Tc + 3)) := by
      have := continuous_tanh'; fun_prop
    have h := hc.tendsto Tc
    simp only [sub_self, zero_add] at h
    exact h.mono_left nhdsWithin_le_nhds
  have h3 := (continuous_copSoft.tendsto (Tc * eff + 5 * (1 - tanh 3))).comp
    (((h1.const_mul (Tc * eff)).add h2).trans_eq (by rw [mul_one]))
  refine h3.congr' ?_
  filter_upwards [self_mem_nhdsWithin] with Th hTh
  rw [cop_some hTh]
  simp only [Function.comp, Option.getD_some, slope_def_field, tanh_zero, sub_zero]
  congr 1
  unfold copA
  rw [tanh_neg]
  ring

/-- C51.  A converged chiller with a hot outlet hotter than its cold outlet extracts heat on the cold side and rejects
more on the hot side. -/
theorem C51_chiller_direction (c : Chiller) (h : c.converged) (hm : 0 < c.mdot) (hc : 0 < c.cp) (hP : 0 < c.rating)
    (he : 0 ≤ c.eff) (hT : 0 < c.coldOut) :
    c.coldOut < c.TinCold ∧ c.TinHot < c.hotOut ∧ c.TinCold - c.coldOut < c.hotOut - c.TinHot := by
  have hcop := ((C51_cop_range c.coldOut c.hotOut c.eff hT he).2 c.COP h).1
  have k : 0 < c.rating / c.cp / c.mdot := by positivity
  have e1 : c.coldOut = c.TinCold - c.COP * (c.rating / c.cp / c.mdot) := by
    unfold Chiller.coldOut phtOut pumpQ1; ring
  have e2 : c.hotOut = c.TinHot + (c.COP + 1) * (c.rating / c.cp / c.mdot) := by
    unfold Chiller.hotOut phtOut pumpQ2; ring
  have := mul_pos hcop k
  refine ⟨by linarith, by rw [e2]; nlinarith, by rw [e1, e2]; nlinarith⟩

example : ∃ c, cop 300 340 0.4 = some c ∧ 0 < c ∧ c ≤ 300 / (340 - 300) := by
  refine ⟨_, cop_some (by norm_num), ?_, ?_⟩
  · exact ((C51_cop_range 300 340 0.4 (by norm_num) (by norm_num)).2 _ (cop_some (by norm_num))).1
  · exact C51_below_carnot_partial 300 340 0.4 _ (by norm_num) (by norm_num) (by norm_num) (by norm_num)
      (cop_some (by norm_num))

/-! ### C52: heat pipe -/

/-- C52 fails for the wick conductivity: changing it never changes the resistance. -/
theorem C52_wick_conductivity_ignored (o : PipeOpts) (k diam wallT q dT : ℝ) :
    pipeResistance {o with wickK := k} diam wallT q dT = pipeResistance o diam wallT q dT := rfl

/-- the logarithms are positive for a wick inside the pipe and a wall outside it -/
theorem pipe_logs {diam wallT wickT : ℝ} (hd : 0 < diam) (hw : 0 < wallT) (hk : 0 < wickT) (hk2 : 2 * wickT < diam) :
    0 < log (diam / (diam - 2 * wickT)) ∧ 0 < log ((diam + 2 * wallT) / diam) := by
  constructor
  · exact log_pos ((one_lt_div (by linarith)).2 (by linarith))
  · exact log_pos ((one_lt_div hd).2 (by linarith))

/-- C52, negation of the full claim: with a wick of lower conductivity than the wall (default 4 against 196) the
resistance is below that of the documented construction. -/
theorem C52_wick_resistance_wrong (o : PipeOpts) (len diam wallT : ℝ) (hd : 0 < diam) (hw : 0 < wallT)
    (hk : 0 < o.wickT) (hk2 : 2 * o.wickT < diam) (hl : 0 < len) (hwK : 0 < o.wickK) (hlt : o.wickK < o.wallK) :
    pipeRadial o len diam wallT < pipeRadialDoc o len diam wallT := by
  obtain ⟨h1, _⟩ := pipe_logs hd hw hk hk2
  unfold pipeRadial pipeRadialDoc
  have := pi_pos
  have hW : 0 < o.wallK := hwK.trans hlt
  have : log (diam / (diam - 2 * o.wickT)) / (2 * π * len * o.wallK)
      < log (diam / (diam - 2 * o.wickT)) / (2 * π * len * o.wickK) := by
    apply div_lt_div_of_pos_left h1 (by positivity)
    gcongr
  linarith

/-- C52, what holds: without a wick, or with equal conductivities, the resistance is the documented one. -/
theorem C52_documented_partial (o : PipeOpts) (len diam wallT : ℝ) (hd : diam ≠ 0)
    (h : o.wickT = 0 ∨ o.wickK = o.wallK) : pipeRadial o len diam wallT = pipeRadialDoc o len diam wallT := by
  unfold pipeRadial pipeRadialDoc
  rcases h with h | h
  · rw [h]; simp [div_self hd]
  · rw [h]

/-- C52, what holds: the resistance decreases strictly with the wall conductivity and increases strictly with wall and
wick thickness.  Missing from the full claim: the wick conductivity. -/
theorem C52_monotone_partial (o : PipeOpts) (diam wallT q dT R : ℝ) (hd : 0 < diam) (hw : 0 < wallT)
    (hk : 0 < o.wickT) (hk2 : 2 * o.wickT < diam) (he : 0 < o.lenEvap) (hc : 0 < o.lenCond) (hK : 0 < o.wallK)
    (hR : pipeResistance o diam wallT q dT = some R) :
    (∀ K > o.wallK, ∃ R', pipeResistance {o with wallK := K} diam wallT q dT = some R' ∧ R' < R) ∧
    (∀ t > wallT, ∃ R', pipeResistance o diam t q dT = some R' ∧ R < R') ∧
    (∀ t > o.wickT, 2 * t < diam → ∃ R', pipeResistance {o with wickT := t} diam wallT q dT = some R' ∧ R < R') := by
  have hpi := pi_pos
  obtain ⟨Rv, hRv⟩ : ∃ Rv, (if o.vapor then npdiv dT q else some 0) = some Rv := by
    unfold pipeResistance at hR
    cases h : (if o.vapor then npdiv dT q else some 0) with
    | none => rw [h] at hR; cases hR
    | some v => exact ⟨v, rfl⟩
  unfold pipeResistance at hR ⊢
  rw [hRv] at hR
  simp only [hRv, Option.map_some, Option.some.injEq] at hR ⊢
  subst hR
  obtain ⟨l1, l2⟩ := pipe_logs hd hw hk hk2
  have hK' : ∀ K > o.wallK, ∀ len > 0, pipeRadial {o with wallK := K} len diam wallT < pipeRadial o len diam wallT := by
    intro K hKK len hl
    unfold pipeRadial
    dsimp only
    have hKp : 0 < K := hK.trans hKK
    have hden : 2 * π * len * o.wallK < 2 * π * len * K := by gcongr
    have hd0 : 0 < 2 * π * len * o.wallK := by positivity
    exact add_lt_add (div_lt_div_of_pos_left l1 hd0 hden) (div_lt_div_of_pos_left l2 hd0 hden)
  have ht' : ∀ t > wallT, ∀ len > 0, pipeRadial o len diam wallT < pipeRadial o len diam t := by
    intro t ht len hl
    unfold pipeRadial
    have : log ((diam + 2 * wallT) / diam) < log ((diam + 2 * t) / diam) := by
      apply log_lt_log (by positivity)
      gcongr
    gcongr
  have hw' : ∀ t > o.wickT, 2 * t < diam → ∀ len > 0,
      pipeRadial o len diam wallT < pipeRadial {o with wickT := t} len diam wallT := by
    intro t ht h2 len hl
    unfold pipeRadial
    dsimp only
    have : log (diam / (diam - 2 * o.wickT)) < log (diam / (diam - 2 * t)) := by
      apply log_lt_log (div_pos hd (by linarith))
      apply div_lt_div_of_pos_left hd (by linarith) (by linarith)
    gcongr
  refine ⟨fun K h => ⟨_, rfl, ?_⟩, fun t h => ⟨_, rfl, ?_⟩, fun t h h2 => ⟨_, rfl, ?_⟩⟩
  · have a := hK' K h o.lenEvap he
    have b := hK' K h o.lenCond hc
    linarith
  · have a := ht' t h o.lenEvap he
    have b := ht' t h o.lenCond hc
    linarith
  · have a := hw' t h h2 o.lenEvap he
    have b := hw' t h h2 o.lenCond hc
    linarith

/-- C52.  With the vapor resistance the temperature drop over the pipe is the conduction drop plus the vapor drop; zero
heat gives no number. -/
theorem C52_vapor (o : PipeOpts) (hv : o.vapor = true) (Tevap diam wallT q n dT : ℝ) :
    (∀ R, pipeResistance o diam wallT (q / n) dT = some R → Tevap - pipeTcond Tevap q n R
      = q / n * (pipeRadial o o.lenEvap diam wallT + pipeRadial o o.lenCond diam wallT) + dT) ∧
    pipeResistance o diam wallT 0 dT = none := by
  constructor
  · intro R hR
    unfold pipeResistance npdiv at hR
    simp only [hv, if_true] at hR
    split_ifs at hR with h
    · cases hR
    · cases hR
      unfold pipeTcond
      linear_combination (mul_div_cancel₀ dT h)
  · simp [pipeResistance, npdiv, hv]

example : pipeRadial ⟨0.25, 0.25, 196, 1e-3, 4, false⟩ 0.25 0.02 0.00125
    < pipeRadialDoc ⟨0.25, 0.25, 196, 1e-3, 4, false⟩ 0.25 0.02 0.00125 :=
  C52_wick_resistance_wrong _ _ _ _ (by norm_num) (by norm_num) (by norm_num) (by norm_num) (by norm_num) (by norm_num)
    (by norm_num)

/-! ### C80: heat pipe structure and limits -/

/-- C80 is false as stated: the hoop stress at the computed thickness is the yield stress over twice the safety
factor. -/
theorem C80_hoop_stress (sigma fos p d : ℝ) (hs : sigma ≠ 0) (hf : fos ≠ 0) (hp : p ≠ 0) (hd : d ≠ 0) :
    p * (d / 2) / pipeThickness sigma fos p d = sigma / (2 * fos) := by
  unfold pipeThickness; field_simp

/-- C80, negation: the wall is not at the allowable stress. -/
theorem C80_not_allowable_stress (sigma fos p d : ℝ) (hs : 0 < sigma) (hf : 0 < fos) (hp : 0 < p) (hd : 0 < d) :
    p * (d / 2) / pipeThickness sigma fos p d < sigma / fos := by
  rw [C80_hoop_stress sigma fos p d hs.ne' hf.ne' hp.ne' hd.ne']
  exact div_lt_div_of_pos_left hs hf (by linarith)

/-- C80.  The weight is that of a thin tube with the computed wall, and the declared partials are correct. -/
theorem C80_weight_partials (sigma fos rho p d L : ℝ) :
    pipeWeight sigma fos rho p d L = π * d * pipeThickness sigma fos p d * L * rho ∧
    HasDerivAt (fun x => pipeThickness sigma fos x d) (pipeThicknessD sigma fos p d).1 p ∧
    HasDerivAt (fun x => pipeThickness sigma fos p x) (pipeThicknessD sigma fos p d).2 d ∧
    HasDerivAt (fun x => pipeWeight sigma fos rho x d L) (pipeWeightD sigma fos rho p d L).1 p ∧
    HasDerivAt (fun x => pipeWeight sigma fos rho p x L) (pipeWeightD sigma fos rho p d L).2.1 d ∧
    HasDerivAt (fun x => pipeWeight sigma fos rho p d x) (pipeWeightD sigma fos rho p d L).2.2 L := by
  simp only [pipeWeight, pipeThickness, pipeThicknessD, pipeWeightD]
  refine ⟨by ring, ?_, ?_, ?_, ?_, ?_⟩ <;> ((hderiv; try norm_num) <;> ring)

/-- C80.  The weight neglects the wall's own thickness: it is the exact tube weight minus `π t² L ρ`, so it is always an
underestimate. -/
theorem C80_weight_thin (sigma fos rho p d L : ℝ) :
    pipeWeight sigma fos rho p d L
      = π * (((d + 2 * pipeThickness sigma fos p d) / 2) ^ 2 - (d / 2) ^ 2) * L * rho
        - π * pipeThickness sigma fos p d ^ 2 * L * rho := by
  unfold pipeWeight pipeThickness; ring

/-- C80.  The heat limit is positive for a pipe less than 90 degrees from vertical, liquid denser than vapor and positive
surface tension. -/
theorem C80_qmax_pos (latent theta sBase sIncr d temp rhoL rhoV : ℝ) (hl : 0 < latent) (ht : |theta| < 90)
    (hs : 0 < sBase + sIncr * temp) (hd : 0 < d) (hV : 0 < rhoV) (hL : rhoV < rhoL) :
    0 < qMax latent theta sBase sIncr d temp rhoL rhoV := by
  have hrl : 0 < rhoL := hV.trans hL
  have hdr : 0 < rhoL - rhoV := by linarith
  have hg : 0 < Verif.grav := by unfold Verif.grav; norm_num
  have hpi := pi_pos
  rw [abs_lt] at ht
  have hsin : 0 < sin (π / 2 - theta * π / 180) := by
    apply sin_pos_of_pos_of_lt_pi <;> nlinarith
  have hb : 0 < (d * √(Verif.grav / (sBase + sIncr * temp) * (rhoL - rhoV))) ^ (0.25 : ℝ) := by positivity
  have ht := tanh_pos' hb
  unfold qMax
  positivity

/-- C80.  The warning is issued exactly when some node exceeds the given fraction of the limit; a zero heat flow never
warns. -/
theorem C80_warning {n : ℕ} (warn : ℝ) (q qmax : Fin n → ℝ) (hq : ∀ k, 0 < qmax k) :
    (¬ qWarns warn q qmax ↔ ∀ k, q k / qmax k ≤ warn) ∧ (0 ≤ warn → ¬ qWarns warn (fun _ => 0) qmax) := by
  unfold qWarns
  constructor
  · push Not
    exact forall_congr' fun k => (div_le_iff₀ (hq k)).symm
  · rintro h ⟨k, hk⟩
    have := mul_nonneg h (hq k).le
    linarith

/-- C80.  The vapor temperature drop is defined exactly for positive heat flow, is then positive, and grows with the heat
flow to the power 7/4. -/
theorem C80_vapor_drop (latent vi vb q temp rho pv d L : ℝ) (hl : 0 < latent) (hv : 0 < temp * vi + vb) (hr : 0 < rho)
    (hp : 0 < pv) (hd : 0 < d) (hL : 0 < L) :
    ((∃ t, vaporDrop latent vi vb q temp rho pv d L = some t) ↔ 0 < q) ∧
    (∀ t, vaporDrop latent vi vb q temp rho pv d L = some t → 0 < t ∧ ∀ k > 0,
      vaporDrop latent vi vb (k * q) temp rho pv d L = some (k ^ (7 / 4 : ℝ) * t)) := by
  have hpi := pi_pos
  have eRe : ∀ q, rho * (q / latent / rho / (π * d ^ 2 / 4)) * d / (temp * vi + vb)
      = q * (4 / (latent * π * d * (temp * vi + vb))) := by
    intro q
    have := hv.ne'
    field_simp
  have hc : 0 < 4 / (latent * π * d * (temp * vi + vb)) := by positivity
  have hdef : (∃ t, vaporDrop latent vi vb q temp rho pv d L = some t) ↔ 0 < q := by
    unfold vaporDrop
    dsimp only
    rw [eRe]
    split_ifs with h
    · simp only [exists_false, false_iff, not_lt]
      by_contra hq
      push Not at hq
      have := mul_pos hq hc
      linarith
    · simp only [Option.some.injEq, exists_eq', true_iff]
      by_contra hq
      push Not at hq
      exact h (mul_nonpos_of_nonpos_of_nonneg hq hc.le)
  refine ⟨hdef, fun t ht => ?_⟩
  have hq : 0 < q := hdef.1 ⟨t, ht⟩
  have hRe : 0 < rho * (q / latent / rho / (π * d ^ 2 / 4)) * d / (temp * vi + vb) := by positivity
  unfold vaporDrop at ht ⊢
  dsimp only at ht ⊢
  rw [if_neg (not_le.2 hRe)] at ht
  cases ht
  refine ⟨by positivity, fun k hk => ?_⟩
  have e1 : rho * (k * q / latent / rho / (π * d ^ 2 / 4)) * d / (temp * vi + vb)
      = k * (rho * (q / latent / rho / (π * d ^ 2 / 4)) * d / (temp * vi + vb)) := by ring
  rw [e1, if_neg (not_le.2 (by positivity)), mul_rpow hk.le hRe.le]
  have ek : k ^ (-1 / 4 : ℝ) * k ^ 2 = k ^ (7 / 4 : ℝ) := by
    rw [← rpow_natCast, ← rpow_add hk]; norm_num
  rw [← ek]
  congr 1
  ring

example : 0 < qMax 1371.2e3 0 0.026 (-2.3e-4) 0.01 40 579.48 12.006 :=
  C80_qmax_pos _ _ _ _ _ _ _ _ (by norm_num) (by norm_num) (by norm_num) (by norm_num) (by norm_num) (by norm_num)

end Verif.Thermal
