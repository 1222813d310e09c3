import Verif.Model.Ducts
import Verif.Proof.HDeriv
import Mathlib.Analysis.Calculus.Deriv.MeanValue
import Mathlib.Topology.Order.IntermediateValue
import Mathlib.Tactic.NormNum

/-! Properties C56, C57, C58 and C81: ducts. -/

namespace Verif.Ducts

open Real

theorem iso_pos {gam : ℝ} (hg : 1 < gam) (M : ℝ) : 0 < 1 + (gam - 1) / 2 * M ^ 2 := by
  have : 0 ≤ (gam - 1) / 2 * M ^ 2 := mul_nonneg (by linarith) (sq_nonneg M)
  linarith

/-! ### C56: isentropic relations -/

/-- C56.  Static and total quantities are mutually inverse for every Mach number. -/
theorem C56_round_trip (gam x M : ℝ) (hg : 1 < gam) :
    tStatic gam (tTotal gam x M) M = x ∧ tTotal gam (tStatic gam x M) M = x ∧
    pStatic gam (pTotal gam x M) M = x ∧ pTotal gam (pStatic gam x M) M = x := by
  have h := iso_pos hg M
  have e : (1 + (gam - 1) / 2 * M ^ 2) ^ (gam / (gam - 1)) * (1 + (gam - 1) / 2 * M ^ 2) ^ (-gam / (gam - 1)) = 1 := by
    rw [← rpow_add h, neg_div, add_neg_cancel, rpow_zero]
  refine ⟨?_, ?_, ?_, ?_⟩
  · unfold tStatic tTotal; rw [mul_assoc, mul_inv_cancel₀ h.ne', mul_one]
  · unfold tStatic tTotal; rw [mul_assoc, inv_mul_cancel₀ h.ne', mul_one]
  · unfold pStatic pTotal; rw [mul_assoc, e, mul_one]
  · unfold pStatic pTotal; rw [mul_assoc, mul_comm _ (_ ^ (gam / (gam - 1))), e, mul_one]

/-- C56.  Declared partials of the isentropic relations. -/
theorem C56_partials (gam x M : ℝ) (hg : 1 < gam) :
    HasDerivAt (fun y => tStatic gam y M) (tStaticDTt gam M) x ∧ HasDerivAt (fun y => tStatic gam x y) (tStaticDM gam x M) M ∧
    HasDerivAt (fun y => tTotal gam y M) (tTotalDT gam M) x ∧ HasDerivAt (fun y => tTotal gam x y) (tTotalDM gam x M) M ∧
    HasDerivAt (fun y => pTotal gam y M) (pTotalDp gam M) x ∧ HasDerivAt (fun y => pTotal gam x y) (pTotalDM gam x M) M := by
  have h := iso_pos hg M
  have hd : HasDerivAt (fun y : ℝ => 1 + (gam - 1) / 2 * y ^ 2) ((gam - 1) * M) M := by
    refine hd_congr (((hasDerivAt_pow 2 M).const_mul ((gam - 1) / 2)).const_add 1) ?_
    push_cast; ring
  refine ⟨?_, ?_, ?_, ?_, ?_, ?_⟩
  · refine hd_congr ((hasDerivAt_id' x).mul_const _) ?_
    unfold tStaticDTt; ring
  · refine hd_congr ((hd.inv h.ne').const_mul x) ?_
    unfold tStaticDM; field_simp
  · refine hd_congr ((hasDerivAt_id' x).mul_const _) ?_
    unfold tTotalDT; ring
  · refine hd_congr (hd.const_mul x) ?_
    unfold tTotalDM; ring
  · refine hd_congr ((hasDerivAt_id' x).mul_const _) ?_
    unfold pTotalDp; ring
  · refine hd_congr ((hd.rpow_const (p := gam / (gam - 1)) (Or.inl h.ne')).const_mul x) ?_
    unfold pTotalDM; ring

theorem pStatic_anti {gam M M' : ℝ} (hg : 1 < gam) (h0 : 0 ≤ M) (h : M < M') : pStatic gam 1 M' < pStatic gam 1 M := by
  unfold pStatic
  rw [one_mul, one_mul]
  refine rpow_lt_rpow_of_neg (iso_pos hg M) ?_ (div_neg_of_neg_of_pos (by linarith) (by linarith))
  have : M ^ 2 < M' ^ 2 := by gcongr
  nlinarith

theorem critPR_pos {gam : ℝ} (hg : 1 < gam) : 0 < critPR gam := by
  unfold critPR; exact rpow_pos_of_pos (div_pos two_pos (by linarith)) _

theorem critPR_lt_one {gam : ℝ} (hg : 1 < gam) : critPR gam < 1 := by
  unfold critPR
  refine rpow_lt_one (by positivity) ?_ (div_pos (by linarith) (by linarith))
  rw [div_lt_one (by linarith)]; linarith

theorem pr_pow {gam M : ℝ} (hg : 1 < gam) :
    ((1 + (gam - 1) / 2 * M ^ 2) ^ (-gam / (gam - 1))) ^ ((1 - gam) / gam) = 1 + (gam - 1) / 2 * M ^ 2 := by
  have h := iso_pos hg M
  have h1 : gam - 1 ≠ 0 := by linarith
  have h2 : gam ≠ 0 := by linarith
  rw [← rpow_mul h.le, show -gam / (gam - 1) * ((1 - gam) / gam) = 1 by field_simp; ring, rpow_one]

theorem pow_pr {gam x : ℝ} (hg : 1 < gam) (hx : 0 < x) :
    (x ^ ((1 - gam) / gam)) ^ (-gam / (gam - 1)) = x := by
  have h1 : gam - 1 ≠ 0 := by linarith
  have h2 : gam ≠ 0 := by linarith
  rw [← rpow_mul hx.le, show (1 - gam) / gam * (-gam / (gam - 1)) = 1 by field_simp; ring, rpow_one]

/-- C56.  Choked: the exit Mach number is 1 and the exit static pressure is the critical fraction of the total pressure. -/
theorem C56_choked (gam pr : ℝ) (h : pr ≤ critPR gam) : exitMach gam pr = some 1 := by
  unfold exitMach; rw [if_pos h]

/-- C56.  The critical ratio is the static pressure ratio at Mach 1. -/
theorem C56_critical (gam pt : ℝ) (hg : 1 < gam) : pStatic gam pt 1 = pt * critPR gam := by
  unfold pStatic critPR
  rw [show 1 + (gam - 1) / 2 * 1 ^ 2 = (2 / (gam + 1))⁻¹ by rw [inv_div]; ring,
    inv_rpow (by positivity), ← rpow_neg (by positivity), neg_div, neg_neg]

/-- C56.  Not choked: the exit Mach number is in [0, 1) and inverts the isentropic pressure relation. -/
theorem C56_unchoked (gam pr : ℝ) (hg : 1 < gam) (h0 : critPR gam < pr) (h1 : pr ≤ 1) :
    ∃ M, exitMach gam pr = some M ∧ 0 ≤ M ∧ M < 1 ∧ ∀ pt, pStatic gam pt M = pt * pr := by
  have hp : 0 < pr := (critPR_pos hg).trans h0
  have hq : 1 ≤ pr ^ ((1 - gam) / gam) :=
    one_le_rpow_of_pos_of_le_one_of_nonpos hp h1 (div_nonpos_of_nonpos_of_nonneg (by linarith) (by linarith))
  have hn : 0 ≤ (pr ^ ((1 - gam) / gam) - 1) * 2 / (gam - 1) :=
    div_nonneg (by linarith) (by linarith)
  have hq2 : pr ^ ((1 - gam) / gam) < (gam + 1) / 2 := by
    have a := rpow_lt_rpow_of_neg (critPR_pos hg) h0 (div_neg_of_neg_of_pos (by linarith) (by linarith) : (1 - gam) / gam < 0)
    have e : critPR gam ^ ((1 - gam) / gam) = (gam + 1) / 2 := by
      have h1 : gam - 1 ≠ 0 := by linarith
      have h2 : gam ≠ 0 := by linarith
      unfold critPR
      rw [← rpow_mul (by positivity), show gam / (gam - 1) * ((1 - gam) / gam) = -1 by field_simp; ring,
        rpow_neg_one, inv_div]
    linarith
  refine ⟨√((pr ^ ((1 - gam) / gam) - 1) * 2 / (gam - 1)), ?_, sqrt_nonneg _, ?_, ?_⟩
  · unfold exitMach; rw [if_neg (not_le.2 h0), if_neg (not_lt.2 hn)]
  · rw [sqrt_lt' one_pos, one_pow, div_lt_one (by linarith)]; linarith
  · intro pt
    unfold pStatic
    rw [sq_sqrt hn]
    have h1 : gam - 1 ≠ 0 := by linarith
    have e : 1 + (gam - 1) / 2 * ((pr ^ ((1 - gam) / gam) - 1) * 2 / (gam - 1)) = pr ^ ((1 - gam) / gam) := by
      field_simp; ring
    rw [e, pow_pr hg hp]

/-- C56.  Conversely the static pressure ratio of any Mach number in [0, 1] gives back that Mach number. -/
theorem C56_exit_inverse (gam M : ℝ) (hg : 1 < gam) (h0 : 0 ≤ M) (h1 : M ≤ 1) :
    exitMach gam (pStatic gam 1 M) = some M := by
  rcases h1.lt_or_eq with h | h
  · have hgt : critPR gam < pStatic gam 1 M := by
      have := C56_critical gam 1 hg
      rw [one_mul] at this
      rw [← this]
      unfold pStatic
      rw [one_mul, one_mul]
      refine rpow_lt_rpow_of_neg (iso_pos hg M) ?_ (div_neg_of_neg_of_pos (by linarith) (by linarith))
      have : M ^ 2 < 1 ^ 2 := by gcongr
      nlinarith
    have e : (pStatic gam 1 M ^ ((1 - gam) / gam) - 1) * 2 / (gam - 1) = M ^ 2 := by
      have h1 : gam - 1 ≠ 0 := by linarith
      unfold pStatic
      rw [one_mul, pr_pow hg]; field_simp; ring
    unfold exitMach
    rw [if_neg (not_le.2 hgt), e, if_neg (not_lt.2 (sq_nonneg M)), sqrt_sq h0]
  · subst h
    rw [C56_critical gam 1 hg, one_mul]
    exact C56_choked gam _ le_rfl

/-- C56.  The exit Mach number is continuous in the pressure ratio on (0, 1], in particular at the choking ratio. -/
theorem C56_continuous (gam : ℝ) (hg : 1 < gam) :
    ∃ m : ℝ → ℝ, (∀ pr, 0 < pr → pr ≤ 1 → exitMach gam pr = some (m pr)) ∧ ContinuousOn m (Set.Ioi 0) := by
  have hgm : gam - 1 ≠ 0 := by linarith
  have hc := critPR_pos hg
  -- the closed form evaluated at the larger of the ratio and the critical ratio
  refine ⟨fun pr => √(((max pr (critPR gam)) ^ ((1 - gam) / gam) - 1) * 2 / (gam - 1)), ?_, ?_⟩
  · intro pr h0 h1
    dsimp only
    by_cases h : pr ≤ critPR gam
    · rw [C56_choked gam pr h, max_eq_right h]
      have e : critPR gam ^ ((1 - gam) / gam) = (gam + 1) / 2 := by
        have h2 : gam ≠ 0 := by linarith
        unfold critPR
        rw [← rpow_mul (by positivity), show gam / (gam - 1) * ((1 - gam) / gam) = -1 by field_simp; ring,
          rpow_neg_one, inv_div]
      rw [e, show ((gam + 1) / 2 - 1) * 2 / (gam - 1) = 1 by field_simp; ring, sqrt_one]
    · have hq : 1 ≤ pr ^ ((1 - gam) / gam) :=
        one_le_rpow_of_pos_of_le_one_of_nonpos h0 h1 (div_nonpos_of_nonpos_of_nonneg (by linarith) (by linarith))
      have hn : 0 ≤ (pr ^ ((1 - gam) / gam) - 1) * 2 / (gam - 1) := div_nonneg (by linarith) (by linarith)
      rw [max_eq_left (not_le.1 h).le]
      unfold exitMach
      rw [if_neg h, if_neg (not_lt.2 hn)]
  · refine continuous_sqrt.comp_continuousOn ?_
    simp only [div_eq_mul_inv]
    refine (((ContinuousOn.rpow_const (by fun_prop) ?_).sub continuousOn_const).mul continuousOn_const).mul
      continuousOn_const
    intro x _
    exact Or.inl (lt_max_of_lt_right hc).ne'

/-- C56.  A nonpositive pressure ratio anywhere raises; a ratio above 1 (back flow) silently gives NaN. -/
theorem C56_invalid (gam : ℝ) (hg : 1 < gam) :
    (∀ {n : ℕ} (pr : Fin n → ℝ), (∃ m, exitMachs gam pr = .ok m) ↔ ∀ k, 0 < pr k) ∧
    (∀ pr, 1 < pr → exitMach gam pr = none) := by
  constructor
  · intro n pr
    unfold exitMachs
    by_cases h : ∃ k, pr k ≤ 0
    · rw [if_pos h]
      constructor
      · rintro ⟨m, hm⟩; cases hm
      · intro h2; obtain ⟨k, hk⟩ := h; linarith [h2 k]
    · rw [if_neg h]; push Not at h
      exact ⟨fun _ => h, fun _ => ⟨_, rfl⟩⟩
  · intro pr h
    have hq : pr ^ ((1 - gam) / gam) < 1 :=
      rpow_lt_one_of_one_lt_of_neg h (div_neg_of_neg_of_pos (by linarith) (by linarith))
    unfold exitMach
    rw [if_neg (not_le.2 ((critPR_lt_one hg).trans h)), if_pos]
    exact div_neg_of_neg_of_pos (by linarith) (by linarith)

example : exitMach 1.4 (pStatic 1.4 1 0.8) = some 0.8 := C56_exit_inverse _ _ (by norm_num) (by norm_num) (by norm_num)
example : exitMach 1.4 1.5 = none := (C56_invalid 1.4 (by norm_num)).2 _ (by norm_num)

/-! ### C57: speed of sound -/

/-- C57, what holds: for positive temperatures the partial is exact.  Missing: T ≤ 0. -/
theorem C57_positive_partial (R gam T : ℝ) (hR : 0 < R) (hg : 0 < gam) (hT : 0 < T) :
    sos R gam T = √(gam * R * T) ∧ ∃ d, sosD R gam T = some d ∧ HasDerivAt (fun x => sos R gam x) d T := by
  have hc : clipT T = T := by unfold clipT; rw [if_neg (not_lt.2 hT.le)]
  refine ⟨by unfold sos; rw [hc], 0.5 * √(gam * R) / √T, by unfold sosD; rw [hc, if_neg hT.ne'], ?_⟩
  have h1 : HasDerivAt (fun x : ℝ => √(gam * R * x)) (gam * R * 1 / (2 * √(gam * R * T))) T :=
    HasDerivAt.sqrt ((hasDerivAt_id' T).const_mul (gam * R)) (by positivity)
  have ev : (fun x => sos R gam x) =ᶠ[nhds T] fun x => √(gam * R * x) := by
    filter_upwards [eventually_gt_nhds hT] with x hx
    unfold sos clipT; rw [if_neg (not_lt.2 hx.le)]
  refine hd_congr (h1.congr_of_eventuallyEq ev) ?_
  rw [sqrt_mul (by positivity)]
  have hp : 0 < gam * R := by positivity
  have a := sq_sqrt hp.le
  have b := sqrt_pos.2 hp
  have c := sqrt_pos.2 hT
  generalize √(gam * R) = q at *
  rw [← a]
  field_simp
  norm_num

/-- C57, negation: for every negative temperature the output is locally constant, so its derivative is 0, but the reported
partial is positive. -/
theorem C57_negative_wrong (R gam T : ℝ) (hR : 0 < R) (hg : 0 < gam) (hT : T < 0) :
    HasDerivAt (fun x => sos R gam x) 0 T ∧ ∃ d, sosD R gam T = some d ∧ 0 < d ∧ ¬ HasDerivAt (fun x => sos R gam x) d T := by
  have h0 : HasDerivAt (fun x => sos R gam x) 0 T := by
    refine (hasDerivAt_const T (√(gam * R * 100))).congr_of_eventuallyEq ?_
    filter_upwards [eventually_lt_nhds hT] with x hx
    unfold sos clipT; rw [if_pos hx]
  have hd : 0 < 0.5 * √(gam * R) / √100 := by positivity
  refine ⟨h0, 0.5 * √(gam * R) / √100, ?_, hd, fun h => hd.ne' (h.unique h0)⟩
  unfold sosD clipT; rw [if_pos hT, if_neg (by norm_num)]

/-- C57, negation: the output jumps at 0 K, where no derivative exists and the reported partial is a division by zero. -/
theorem C57_zero_jump (R gam : ℝ) (hR : 0 < R) (hg : 0 < gam) :
    sosD R gam 0 = none ∧ ¬ ContinuousAt (fun x => sos R gam x) 0 := by
  constructor
  · unfold sosD clipT; simp
  · intro h
    have h1 : Filter.Tendsto (fun x => sos R gam x) (nhdsWithin 0 (Set.Iio 0)) (nhds (sos R gam 0)) :=
      h.tendsto.mono_left nhdsWithin_le_nhds
    have h2 : Filter.Tendsto (fun x => sos R gam x) (nhdsWithin 0 (Set.Iio 0)) (nhds (√(gam * R * 100))) := by
      refine tendsto_const_nhds.congr' ?_
      filter_upwards [self_mem_nhdsWithin] with x hx
      unfold sos clipT; rw [if_pos (Set.mem_Iio.1 hx)]
    have h3 := tendsto_nhds_unique h1 h2
    have h4 : sos R gam 0 = 0 := by unfold sos clipT; simp
    have : 0 < √(gam * R * 100) := by positivity
    rw [h4] at h3; linarith

example : ∃ d, sosD 287.05 1.4 (-5) = some d ∧ 0 < d := by
  obtain ⟨_, d, h1, h2, _⟩ := C57_negative_wrong 287.05 1.4 (-5) (by norm_num) (by norm_num) (by norm_num)
  exact ⟨d, h1, h2⟩

/-! ### C58: heat addition and the incompressible duct -/

/-- C58.  Energy balance and pressure change. -/
theorem C58_heat (i : HeatIn) (hm : i.mdot ≠ 0) (hc : i.cp ≠ 0) :
    i.cp * i.mdot * (ttOut i - i.Tt) = i.heat ∧
    ptOut i = i.recov * i.pt + i.dp - i.loss * (1 / 2 * i.rho * (i.mdot / (i.rho * i.area)) ^ 2) := by
  constructor
  · unfold ttOut; field_simp; ring
  · unfold ptOut
    by_cases hr : i.rho = 0
    · simp [hr]; ring
    by_cases ha : i.area = 0
    · simp [ha]; ring
    field_simp
    ring

/-- C58.  The exception is raised exactly for a nonpositive flow or a total pressure above 1e8 Pa at some node; otherwise
every node satisfies the balances. -/
theorem C58_raises {n : ℕ} (i : Fin n → HeatIn) :
    ((∃ r, heatStation i = .ok r) ↔ (∀ k, 0 < (i k).mdot) ∧ ∀ k, ptOut (i k) ≤ 1e8) ∧
    ∀ r, heatStation i = .ok r → ∀ k, r.1 k = ttOut (i k) ∧ r.2 k = ptOut (i k) := by
  unfold heatStation
  by_cases h : ∃ k, (i k).mdot ≤ 0
  · rw [if_pos h]
    refine ⟨⟨?_, ?_⟩, fun r hr => by cases hr⟩
    · rintro ⟨r, hr⟩; cases hr
    · rintro ⟨h2, _⟩; obtain ⟨k, hk⟩ := h; linarith [h2 k]
  · rw [if_neg h]
    push Not at h
    by_cases h2 : ∃ k, 1e8 < ptOut (i k)
    · rw [if_pos h2]
      refine ⟨⟨?_, ?_⟩, fun r hr => by cases hr⟩
      · rintro ⟨r, hr⟩; cases hr
      · rintro ⟨_, h3⟩; obtain ⟨k, hk⟩ := h2; linarith [h3 k]
    · rw [if_neg h2]
      push Not at h2
      refine ⟨⟨fun _ => ⟨h, h2⟩, fun _ => ⟨_, rfl⟩⟩, fun r hr k => ?_⟩
      cases hr
      exact ⟨rfl, rfl⟩

/-- C58.  Declared partials of the heat addition component. -/
theorem C58_heat_partials (i : HeatIn) (hm : i.mdot ≠ 0) (hc : i.cp ≠ 0) (hr : i.rho ≠ 0) (ha : i.area ≠ 0) :
    (HasDerivAt (fun x => ttOut {i with Tt := x}) (ttOutD i).1 i.Tt ∧
     HasDerivAt (fun x => ttOut {i with heat := x}) (ttOutD i).2.1 i.heat ∧
     HasDerivAt (fun x => ttOut {i with cp := x}) (ttOutD i).2.2.1 i.cp ∧
     HasDerivAt (fun x => ttOut {i with mdot := x}) (ttOutD i).2.2.2 i.mdot) ∧
    (HasDerivAt (fun x => ptOut {i with pt := x}) (ptOutD i).1 i.pt ∧
     HasDerivAt (fun x => ptOut {i with recov := x}) (ptOutD i).2.1 i.recov ∧
     HasDerivAt (fun x => ptOut {i with dp := x}) (ptOutD i).2.2.1 i.dp ∧
     HasDerivAt (fun x => ptOut {i with mdot := x}) (ptOutD i).2.2.2.1 i.mdot ∧
     HasDerivAt (fun x => ptOut {i with rho := x}) (ptOutD i).2.2.2.2.1 i.rho ∧
     HasDerivAt (fun x => ptOut {i with area := x}) (ptOutD i).2.2.2.2.2.1 i.area ∧
     HasDerivAt (fun x => ptOut {i with loss := x}) (ptOutD i).2.2.2.2.2.2 i.loss) := by
  simp only [ttOut, ptOut, ttOutD, ptOutD]
  refine ⟨⟨?_, ?_, ?_, ?_⟩, ?_, ?_, ?_, ?_, ?_, ?_, ?_⟩ <;> hderiv
  all_goals first | (push_cast; ring; done) | (push_cast; field_simp; ring)

/-- C58.  Declared partials of the nozzle loss, mass flow, Mach number and pressure ratio components. -/
theorem C58_other_partials (pt mdot rho area loss M a pr pE : ℝ) (hr : rho ≠ 0) (ha : area ≠ 0) (hp : pt ≠ 0) :
    (HasDerivAt (fun x => nozzlePt x mdot rho area loss) (nozzlePtD mdot rho area loss).1 pt ∧
     HasDerivAt (fun x => nozzlePt pt x rho area loss) (nozzlePtD mdot rho area loss).2.1 mdot ∧
     HasDerivAt (fun x => nozzlePt pt mdot x area loss) (nozzlePtD mdot rho area loss).2.2.1 rho ∧
     HasDerivAt (fun x => nozzlePt pt mdot rho x loss) (nozzlePtD mdot rho area loss).2.2.2.1 area ∧
     HasDerivAt (fun x => nozzlePt pt mdot rho area x) (nozzlePtD mdot rho area loss).2.2.2.2 loss) ∧
    (HasDerivAt (fun x => massFlow x a area rho) (massFlowD M a area rho).1 M ∧
     HasDerivAt (fun x => massFlow M x area rho) (massFlowD M a area rho).2.1 a ∧
     HasDerivAt (fun x => massFlow M a x rho) (massFlowD M a area rho).2.2.1 area ∧
     HasDerivAt (fun x => massFlow M a area x) (massFlowD M a area rho).2.2.2 rho) ∧
    (HasDerivAt (fun x => machRes x M a area rho) (machResD M a area rho).1 mdot ∧
     HasDerivAt (fun x => machRes mdot x a area rho) (machResD M a area rho).2.1 M ∧
     HasDerivAt (fun x => machRes mdot M x area rho) (machResD M a area rho).2.2.1 a ∧
     HasDerivAt (fun x => machRes mdot M a x rho) (machResD M a area rho).2.2.2.1 area ∧
     HasDerivAt (fun x => machRes mdot M a area x) (machResD M a area rho).2.2.2.2 rho) ∧
    (HasDerivAt (fun x => prRes x pE pt) (prResD pE pt).1 pr ∧ HasDerivAt (fun x => prRes pr x pt) (prResD pE pt).2.1 pE ∧
     HasDerivAt (fun x => prRes pr pE x) (prResD pE pt).2.2 pt) := by
  simp only [nozzlePt, nozzlePtD, massFlow, massFlowD, machRes, machResD, prRes, prResD]
  refine ⟨⟨?_, ?_, ?_, ?_, ?_⟩, ⟨?_, ?_, ?_, ?_⟩, ⟨?_, ?_, ?_, ?_, ?_⟩, ?_, ?_, ?_⟩ <;> hderiv
  all_goals first | (push_cast; ring; done) | (push_cast; field_simp; ring)

/-- C58.  Incompressible duct: with exit velocity `V = mdot / (rho A)`, Bernoulli's equation holds with the loss factor on
the exit dynamic pressure and the heat exchanger's pressure change, and the drag is the momentum deficit. -/
theorem C58_bernoulli (k cfg U rho A dp : ℝ) (hk : 0 ≤ k) (hr : 0 < rho) (hA : 0 < A)
    (hpos : 0 ≤ 1 / 2 * rho * U ^ 2 + dp) :
    let V := ductMdot k U rho A dp / (rho * A)
    0 ≤ V ∧ 1 / 2 * rho * U ^ 2 + dp = (1 + k) * (1 / 2 * rho * V ^ 2) ∧
    ductMdot k U rho A dp = rho * A * V ∧ ductDrag k cfg U rho A dp = rho * A * V * (U - cfg * V) := by
  have e : rho ^ 2 * U ^ 2 + 2 * rho * dp = 2 * rho * (1 / 2 * rho * U ^ 2 + dp) := by ring
  have hi : 0 ≤ (rho ^ 2 * U ^ 2 + 2 * rho * dp) / (1 + k) := by rw [e]; positivity
  have h1 : ductInterior k U rho dp = (rho ^ 2 * U ^ 2 + 2 * rho * dp) / (1 + k) := by
    unfold ductInterior; rw [if_neg (not_lt.2 hi)]
  have hm : ductMdot k U rho A dp = A * √((rho ^ 2 * U ^ 2 + 2 * rho * dp) / (1 + k)) := by
    unfold ductMdot; rw [h1, if_neg (not_lt.2 (by positivity))]
  intro V
  have hV : V = √((rho ^ 2 * U ^ 2 + 2 * rho * dp) / (1 + k)) / rho := by
    simp only [V]; rw [hm]; field_simp
  refine ⟨by rw [hV]; positivity, ?_, by simp only [V]; field_simp, ?_⟩
  · rw [hV, div_pow, sq_sqrt hi]
    have : 1 + k ≠ 0 := by positivity
    field_simp
  · unfold ductDrag
    simp only [V]
    field_simp

/-- C58.  Without losses the incompressible duct is neutral: exit velocity equals flight speed and the drag is zero; a
pressure drop or loss factor gives drag. -/
theorem C58_duct_drag_sign (k U rho A dp : ℝ) (hk : 0 ≤ k) (hU : 0 < U) (hr : 0 < rho) (hA : 0 < A) (hdp : dp ≤ 0)
    (hpos : 0 < 1 / 2 * rho * U ^ 2 + dp) :
    0 ≤ ductDrag k 1 U rho A dp ∧ (ductDrag k 1 U rho A dp = 0 ↔ k = 0 ∧ dp = 0) := by
  obtain ⟨v0, v1, v2, v3⟩ := C58_bernoulli k 1 U rho A dp hk hr hA hpos.le
  set V := ductMdot k U rho A dp / (rho * A)
  have hV : 0 < V := by
    rcases v0.lt_or_eq with h | h
    · exact h
    · rw [← h] at v1; norm_num at v1; linarith
  have hle : V ≤ U := by
    by_contra hc
    push Not at hc
    have h2 : U ^ 2 < V ^ 2 := by gcongr
    have h3 : 0 < 1 / 2 * rho := by positivity
    nlinarith [mul_pos h3 (sub_pos.2 h2), mul_nonneg hk (mul_nonneg h3.le (sq_nonneg V))]
  rw [v3, one_mul]
  have hRA : 0 < rho * A * V := by positivity
  refine ⟨mul_nonneg hRA.le (by linarith), ?_⟩
  rw [mul_eq_zero]
  constructor
  · rintro (h | h)
    · linarith
    · have hUV : U = V := by linarith
      have h3 : 0 < 1 / 2 * rho * V ^ 2 := by positivity
      have h4 : dp = k * (1 / 2 * rho * V ^ 2) := by rw [hUV] at v1; linarith
      have h5 : 0 ≤ k * (1 / 2 * rho * V ^ 2) := by positivity
      have h6 : k * (1 / 2 * rho * V ^ 2) = 0 := by linarith
      rcases mul_eq_zero.1 h6 with h7 | h7
      · exact ⟨h7, by rw [h4, h6]⟩
      · linarith
  · rintro ⟨rfl, rfl⟩
    right
    have h3 : 1 / 2 * rho * (U ^ 2 - V ^ 2) = 0 := by linarith
    have h4 : U ^ 2 - V ^ 2 = 0 := by
      rcases mul_eq_zero.1 h3 with h | h
      · have : 0 < 1 / 2 * rho := by positivity
        linarith
      · exact h
    nlinarith

/-- C58.  The incompressible duct's clipping keeps the mass flow positive even when the heat exchanger's pressure drop
exceeds the dynamic pressure, where Bernoulli's equation has no solution. -/
theorem C58_clipped (k U rho A dp : ℝ) (hk : 0 ≤ k) (hr : 0 < rho) (hA : 0 < A) (h : 1 / 2 * rho * U ^ 2 + dp < 0) :
    ductMdot k U rho A dp = A * 1e-5 := by
  have h1 : (rho ^ 2 * U ^ 2 + 2 * rho * dp) / (1 + k) < 0 := by
    apply div_neg_of_neg_of_pos _ (by positivity)
    nlinarith
  have e : √(1e-10 : ℝ) = 1e-5 := by
    rw [show (1e-10 : ℝ) = (1e-5) ^ 2 by norm_num, sqrt_sq (by norm_num)]
  unfold ductMdot ductInterior
  rw [if_pos h1, e, if_neg (not_lt.2 (by positivity))]

/-- C58.  With the nozzle at ambient pressure the compressible duct's force is the negated momentum deficit, the same
formula as the incompressible duct's drag. -/
theorem C58_force (k cfg U rho A dp p : ℝ) :
    netForce cfg (ductMdot k U rho A dp) U p A p rho = -ductDrag k cfg U rho A dp := by
  unfold netForce ductDrag; ring

example : ductMdot 0 10 1 2 0 = 20 := by
  have h := (C58_bernoulli 0 1 10 1 2 0 le_rfl one_pos two_pos (by norm_num)).2
  have h0 := (C58_bernoulli 0 1 10 1 2 0 le_rfl one_pos two_pos (by norm_num)).1
  obtain ⟨h1, h2, _⟩ := h
  set V := ductMdot 0 10 1 2 0 / (1 * 2)
  have : V = 10 := by nlinarith
  rw [h2, this]; norm_num

/-! ### C81: compressible duct -/

/-- velocity of a stream of total temperature `Tt` at Mach number `M` -/
noncomputable def speed (R gam Tt M : ℝ) : ℝ := M * sos R gam (tStatic gam Tt M)

theorem speed_sq (R gam Tt M : ℝ) (hR : 0 < R) (hg : 1 < gam) (hT : 0 < Tt) :
    speed R gam Tt M ^ 2 = gam * R * Tt * (M ^ 2 / (1 + (gam - 1) / 2 * M ^ 2)) := by
  have h := iso_pos hg M
  have ht : 0 < tStatic gam Tt M := by unfold tStatic; positivity
  unfold speed sos clipT
  rw [if_neg (not_lt.2 ht.le), mul_pow, sq_sqrt (by positivity)]
  unfold tStatic
  field_simp

theorem mach_frac_lt {gam M M' : ℝ} (hg : 1 < gam) (h0 : 0 ≤ M) (h : M < M') :
    M ^ 2 / (1 + (gam - 1) / 2 * M ^ 2) < M' ^ 2 / (1 + (gam - 1) / 2 * M' ^ 2) := by
  rw [div_lt_div_iff₀ (iso_pos hg M) (iso_pos hg M')]
  have : M ^ 2 < M' ^ 2 := by gcongr
  nlinarith

/-- the flow parameter `M (1 + (γ-1)/2 M²)^(-(γ+1)/(2(γ-1)))` -/
noncomputable def flowParam (gam M : ℝ) : ℝ := M * (1 + (gam - 1) / 2 * M ^ 2) ^ (-(gam + 1) / (2 * (gam - 1)))

theorem flowParam_deriv (gam M : ℝ) (hg : 1 < gam) :
    HasDerivAt (flowParam gam) ((1 - M ^ 2) * (1 + (gam - 1) / 2 * M ^ 2) ^ (-(gam + 1) / (2 * (gam - 1)) - 1)) M := by
  have h := iso_pos hg M
  have hd : HasDerivAt (fun y : ℝ => 1 + (gam - 1) / 2 * y ^ 2) ((gam - 1) * M) M := by
    refine hd_congr (((hasDerivAt_pow 2 M).const_mul ((gam - 1) / 2)).const_add 1) ?_
    push_cast; ring
  have h1 := (hasDerivAt_id' M).fun_mul (hd.rpow_const (p := -(gam + 1) / (2 * (gam - 1))) (Or.inl h.ne'))
  refine hd_congr h1 ?_
  have e : (1 + (gam - 1) / 2 * M ^ 2) ^ (-(gam + 1) / (2 * (gam - 1)))
      = (1 + (gam - 1) / 2 * M ^ 2) ^ (-(gam + 1) / (2 * (gam - 1)) - 1) * (1 + (gam - 1) / 2 * M ^ 2) := by
    rw [← rpow_add_one h.ne']; congr 1; ring
  rw [e]
  have hgm : gam - 1 ≠ 0 := by linarith
  generalize (1 + (gam - 1) / 2 * M ^ 2) ^ (-(gam + 1) / (2 * (gam - 1)) - 1) = q
  field_simp
  ring

theorem flowParam_strictMono (gam : ℝ) (hg : 1 < gam) : StrictMonoOn (flowParam gam) (Set.Icc 0 1) := by
  refine strictMonoOn_of_deriv_pos (convex_Icc 0 1) ?_ ?_
  · intro M _; exact (flowParam_deriv gam M hg).continuousAt.continuousWithinAt
  · intro M hM
    rw [interior_Icc] at hM
    rw [(flowParam_deriv gam M hg).deriv]
    have : M ^ 2 < 1 := by nlinarith [hM.1, hM.2]
    exact mul_pos (by linarith) (rpow_pos_of_pos (iso_pos hg M) _)

/-- mass flow of a stream with given total state through an area at Mach number `M`, as the components compute it -/
noncomputable def streamFlow (R gam Tt pt area M : ℝ) : ℝ :=
  massFlow M (sos R gam (tStatic gam Tt M)) area (density R (pStatic gam pt M) (tStatic gam Tt M))

theorem streamFlow_eq (R gam Tt pt area M : ℝ) (hR : 0 < R) (hg : 1 < gam) (hT : 0 < Tt) :
    streamFlow R gam Tt pt area M = area * pt * √(gam / (R * Tt)) * flowParam gam M := by
  have h := iso_pos hg M
  have hgm : gam - 1 ≠ 0 := by linarith
  have ht : 0 < tStatic gam Tt M := by unfold tStatic; positivity
  unfold streamFlow massFlow sos clipT density
  rw [if_neg (not_lt.2 ht.le)]
  unfold pStatic flowParam
  have e1 : √(gam * R * tStatic gam Tt M) = √(gam / (R * Tt)) * (R * Tt) * (1 + (gam - 1) / 2 * M ^ 2) ^ (-(1 / 2) : ℝ) := by
    rw [rpow_neg h.le, ← sqrt_eq_rpow]
    unfold tStatic
    rw [show gam * R * (Tt * (1 + (gam - 1) / 2 * M ^ 2)⁻¹) = gam / (R * Tt) * (R * Tt) ^ 2 / (1 + (gam - 1) / 2 * M ^ 2) by
      field_simp]
    rw [sqrt_div (by positivity), sqrt_mul (by positivity), sqrt_sq (by positivity)]
    rfl
  rw [e1]
  have e2 : (1 + (gam - 1) / 2 * M ^ 2) ^ (-(gam + 1) / (2 * (gam - 1)))
      = (1 + (gam - 1) / 2 * M ^ 2) ^ (-(1 / 2) : ℝ) * (1 + (gam - 1) / 2 * M ^ 2) ^ (-gam / (gam - 1))
        * (1 + (gam - 1) / 2 * M ^ 2) := by
    rw [← rpow_add h, ← rpow_add_one h.ne']; congr 1; field_simp; ring
  rw [e2]
  unfold tStatic
  field_simp

/-- C81.  For a given total state and area at most one Mach number in [0, 1] carries a given flow. -/
theorem C81_station_unique (R gam Tt pt area M M' : ℝ) (hR : 0 < R) (hg : 1 < gam) (hT : 0 < Tt) (hp : 0 < pt)
    (hA : 0 < area) (h0 : 0 ≤ M) (h1 : M ≤ 1) (h0' : 0 ≤ M') (h1' : M' ≤ 1)
    (h : streamFlow R gam Tt pt area M = streamFlow R gam Tt pt area M') : M = M' := by
  rw [streamFlow_eq _ _ _ _ _ _ hR hg hT, streamFlow_eq _ _ _ _ _ _ hR hg hT] at h
  have hc : 0 < area * pt * √(gam / (R * Tt)) := by positivity
  exact (flowParam_strictMono gam hg).injOn ⟨h0, h1⟩ ⟨h0', h1'⟩ (mul_left_cancel₀ hc.ne' h)

/-- C81.  A subsonic solution exists exactly for flows below the choked flow. -/
theorem C81_station_exists (R gam Tt pt area mdot : ℝ) (hR : 0 < R) (hg : 1 < gam) (hT : 0 < Tt) (hp : 0 < pt)
    (hA : 0 < area) (hm : 0 < mdot) :
    (∃ M, 0 < M ∧ M < 1 ∧ streamFlow R gam Tt pt area M = mdot) ↔ mdot < streamFlow R gam Tt pt area 1 := by
  have hc : 0 < area * pt * √(gam / (R * Tt)) := by positivity
  simp only [streamFlow_eq _ _ _ _ _ _ hR hg hT]
  generalize area * pt * √(gam / (R * Tt)) = c at *
  constructor
  · rintro ⟨M, h0, h1, rfl⟩
    exact mul_lt_mul_of_pos_left (flowParam_strictMono gam hg ⟨h0.le, h1.le⟩ ⟨zero_le_one, le_rfl⟩ h1) hc
  · intro h
    have hcont : ContinuousOn (fun M => c * flowParam gam M) (Set.Icc 0 1) := fun M _ =>
      ((flowParam_deriv gam M hg).continuousAt.const_mul c).continuousWithinAt
    have z : c * flowParam gam 0 = 0 := by unfold flowParam; simp
    obtain ⟨M, hM, e⟩ := intermediate_value_Ioo (zero_le_one) hcont (show mdot ∈ Set.Ioo _ _ from ⟨by rw [z]; exact hm, h⟩)
    exact ⟨M, hM.1, hM.2, e⟩

/-- C81.  A converged duct station is such a stream. -/
theorem C81_station (R gam : ℝ) (i : HeatIn) (M : ℝ) (h : Station R gam i M) :
    streamFlow R gam (ttOut i) (ptOut i) i.area M = i.mdot := by
  have h2 := h.mach
  unfold machRes at h2
  unfold streamFlow massFlow
  rw [← h.rho]
  linarith

/-- C81.  Converged nozzle: with losses between the inlet and the exit summarised by the total pressure and temperature at
the exit, the discharge velocity is `mdot / (rho A)`; its Mach number lies in (0, 1], unchoked the exit pressure is the given
one. -/
theorem C81_nozzle (R gam : ℝ) (z : Nozzle) (rho : ℝ) (hz : z.Converged R gam rho) (hg : 1 < gam)
    (hA : z.area ≠ 0) (hrho : rho ≠ 0) :
    z.mdot / z.area / rho = speed R gam z.Tt z.M ∧ 0 ≤ z.M ∧ z.M ≤ 1 ∧ (z.M < 1 → 0 < z.pExit → z.p gam rho = z.pExit) := by
  obtain ⟨h1, ⟨h2, h3⟩, h4, h5⟩ := hz
  have hm : z.mdot = z.M * sos R gam (z.T gam) * z.area * rho := by
    unfold matchRes massFlow at h5; linarith
  have hpr : z.pr = z.pExit / z.pt rho := by unfold prRes at h1; linarith
  have hr1 : z.pr ≤ 1 := by
    by_contra hc
    rw [(C56_invalid gam hg).2 z.pr (not_le.1 hc)] at h3
    cases h3
  refine ⟨?_, ?_⟩
  · rw [hm]; unfold speed Nozzle.T; field_simp
  by_cases hch : z.pr ≤ critPR gam
  · rw [C56_choked gam _ hch] at h3
    have : z.M = 1 := by injection h3 with h; exact h.symm
    rw [this]
    exact ⟨zero_le_one, le_rfl, fun h => absurd h (lt_irrefl _)⟩
  · obtain ⟨M, e, m0, m1, m2⟩ := C56_unchoked gam z.pr hg (not_le.1 hch) hr1
    have : z.M = M := by rw [e] at h3; injection h3 with h; exact h.symm
    rw [this]
    refine ⟨m0, m1.le, fun _ hp => ?_⟩
    unfold Nozzle.p
    rw [this, m2, hpr]
    have : z.pt rho ≠ 0 := by
      intro h; rw [h, div_zero] at hpr; linarith
    field_simp

/-- C81.  Without a loss factor the nozzle has a converged state for every exit pressure not above the total pressure. -/
theorem C81_nozzle_exists (R gam ptIn Tt pExit area : ℝ) (hR : 0 < R) (hg : 1 < gam) (hpt : 0 < ptIn) (hT : 0 < Tt)
    (hpe : 0 < pExit) (hle : pExit ≤ ptIn) :
    ∃ mdot M rho, (Nozzle.mk ptIn Tt pExit area 0 mdot (pExit / ptIn) M).Converged R gam rho ∧ 0 < rho ∧
      (0 < area → pExit < ptIn → 0 < mdot) := by
  have hpr : 0 < pExit / ptIn := by positivity
  obtain ⟨M, hM, m0⟩ : ∃ M, exitMach gam (pExit / ptIn) = some M ∧ (0 ≤ M ∧ (pExit < ptIn → 0 < M)) := by
    by_cases h : pExit / ptIn ≤ critPR gam
    · exact ⟨1, C56_choked gam _ h, zero_le_one, fun _ => one_pos⟩
    · obtain ⟨M, h1, h2, _, h4⟩ := C56_unchoked gam _ hg (not_le.1 h) ((div_le_one hpt).2 hle)
      refine ⟨M, h1, h2, fun hlt => lt_of_le_of_ne h2 ?_⟩
      rintro rfl
      have := h4 1
      unfold pStatic at this
      norm_num at this
      have h5 : pExit / ptIn < 1 := (div_lt_one hpt).2 hlt
      linarith
  have hi := iso_pos hg M
  have hts : 0 < tStatic gam Tt M := by unfold tStatic; positivity
  have hps : 0 < pStatic gam ptIn M := by unfold pStatic; positivity
  have hrho : 0 < density R (pStatic gam ptIn M) (tStatic gam Tt M) := by unfold density; positivity
  refine ⟨massFlow M (sos R gam (tStatic gam Tt M)) area (density R (pStatic gam ptIn M) (tStatic gam Tt M)), M,
    density R (pStatic gam ptIn M) (tStatic gam Tt M), ⟨?_, ⟨hpr, hM⟩, ?_, ?_⟩, hrho, ?_⟩
  · simp [prRes, Nozzle.pt, nozzlePt]
  · simp [Nozzle.p, Nozzle.T, Nozzle.pt, nozzlePt]
  · simp [matchRes, Nozzle.T]
  · intro ha hlt
    have h1 := m0.2 hlt
    have h2 : 0 < sos R gam (tStatic gam Tt M) := by
      unfold sos clipT; rw [if_neg (not_lt.2 hts.le)]; positivity
    unfold massFlow; positivity

/-- C81, force of a duct in subsonic flight: the nozzle exhausts to ambient pressure, unit gross thrust coefficient.  With
the inlet's total pressure kept, the force has the sign of the total temperature rise; with its total temperature kept, the
force is negative exactly when total pressure is lost. -/
theorem C81_force_sign (R gam p T U : ℝ) (z : Nozzle) (rho : ℝ) (hR : 0 < R) (hg : 1 < gam) (hp : 0 < p) (hT : 0 < T)
    (hU : 0 < U) (hM : inletM R gam T U < 1) (hz : z.Converged R gam rho) (hA : 0 < z.area) (hrho : 0 < rho)
    (hTt : 0 < z.Tt) (hpe : z.pExit = p) (hmd : 0 < z.mdot) :
    (z.pt rho = inletPt R gam 1 p T U →
      (netForce 1 z.mdot U p z.area (z.p gam rho) rho = 0 ↔ z.Tt = inletTt R gam T U) ∧
      (0 < netForce 1 z.mdot U p z.area (z.p gam rho) rho ↔ inletTt R gam T U < z.Tt)) ∧
    (z.Tt = inletTt R gam T U → z.pt rho < inletPt R gam 1 p T U →
      netForce 1 z.mdot U p z.area (z.p gam rho) rho < 0) := by
  set M0 := inletM R gam T U with hM0
  have ha : 0 < sos R gam T := by unfold sos clipT; rw [if_neg (not_lt.2 hT.le)]; positivity
  have hM0p : 0 < M0 := by rw [hM0]; unfold inletM machFromSpeed; positivity
  have hiso := iso_pos hg M0
  have hTt0 : 0 < inletTt R gam T U := by unfold inletTt tTotal; rw [← hM0]; positivity
  -- flight speed as stream speed
  have hUs : U = speed R gam (inletTt R gam T U) M0 := by
    unfold speed inletTt
    rw [← hM0, (C56_round_trip gam T M0 hg).1, hM0]
    unfold inletM machFromSpeed
    field_simp
  have hpt0 : pStatic gam (inletPt R gam 1 p T U) M0 = p := by
    unfold inletPt; rw [← hM0, mul_one, (C56_round_trip gam p M0 hg).2.2.1]
  obtain ⟨v, m0, m1, hpx⟩ := C81_nozzle R gam z rho hz hg hA.ne' hrho.ne'
  obtain ⟨h1, ⟨h2, h3⟩, h4, h5⟩ := hz
  have hpr : z.pr = z.pExit / z.pt rho := by unfold prRes at h1; linarith
  have hptp : 0 < z.pt rho := by
    by_contra hc
    have : z.pr ≤ 0 := by rw [hpr, hpe]; exact div_nonpos_of_nonneg_of_nonpos hp.le (not_lt.1 hc)
    linarith
  have hMz : z.M ≠ 0 := by
    intro h
    unfold matchRes massFlow at h5
    rw [h] at h5; simp at h5; linarith
  have mpos : 0 < z.M := lt_of_le_of_ne m0 (Ne.symm hMz)
  -- Mach number comparison from the total pressures
  have hratio : ∀ M, pStatic gam 1 M * z.pt rho = pStatic gam (z.pt rho) M := by
    intro M; unfold pStatic; ring
  have hF : z.p gam rho = p → netForce 1 z.mdot U p z.area (z.p gam rho) rho
      = z.mdot * (speed R gam z.Tt z.M - speed R gam (inletTt R gam T U) M0) := by
    intro e
    unfold netForce
    rw [e, v, ← hUs]; ring
  have sp0 : ∀ Tt M, 0 ≤ M → 0 ≤ speed R gam Tt M := by
    intro Tt M h; unfold speed sos; positivity
  constructor
  · intro hpt
    have hprM : z.pr = pStatic gam 1 M0 := by
      rw [hpr, hpe, hpt]
      have h6 : inletPt R gam 1 p T U ≠ 0 := by rw [← hpt]; exact hptp.ne'
      rw [div_eq_iff h6, ← hpt, hratio, hpt, hpt0]
    have hMM : z.M = M0 := by
      rw [hprM, C56_exit_inverse gam M0 hg hM0p.le hM.le] at h3
      injection h3 with h; exact h.symm
    have e := hpx (by rw [hMM]; exact hM) (by rw [hpe]; exact hp)
    rw [hpe] at e
    rw [hF e, hMM]
    have s1 := speed_sq R gam z.Tt M0 hR hg hTt
    have s2 := speed_sq R gam (inletTt R gam T U) M0 hR hg hTt0
    have q : 0 < gam * R * (M0 ^ 2 / (1 + (gam - 1) / 2 * M0 ^ 2)) := by positivity
    have a1 := sp0 z.Tt M0 hM0p.le
    have a2 := sp0 (inletTt R gam T U) M0 hM0p.le
    have a3 : 0 < speed R gam (inletTt R gam T U) M0 := by rw [← hUs]; exact hU
    have hlt : ∀ x y : ℝ, 0 < x → 0 < y → (speed R gam x M0 < speed R gam y M0 ↔ x < y) := by
      intro x y hx hy
      rw [← pow_lt_pow_iff_left₀ (sp0 x M0 hM0p.le) (sp0 y M0 hM0p.le) two_ne_zero, speed_sq R gam x M0 hR hg hx,
        speed_sq R gam y M0 hR hg hy]
      rw [mul_right_comm, mul_right_comm _ y, mul_lt_mul_iff_right₀ q]
    constructor
    · rw [mul_eq_zero, or_iff_right hmd.ne', sub_eq_zero]
      constructor
      · intro h
        rcases lt_trichotomy z.Tt (inletTt R gam T U) with c | c | c
        · exact absurd h ((hlt _ _ hTt hTt0).2 c).ne
        · exact c
        · exact absurd h ((hlt _ _ hTt0 hTt).2 c).ne'
      · intro h; rw [h]
    · rw [mul_pos_iff_of_pos_left hmd, sub_pos, hlt _ _ hTt0 hTt]
  · intro hTeq hlt
    have hMlt : z.M < M0 := by
      have h6 : pStatic gam 1 M0 < z.pr := by
        rw [hpr, hpe, lt_div_iff₀ hptp]
        have h7 : p = pStatic gam 1 M0 * inletPt R gam 1 p T U := by
          conv_lhs => rw [← hpt0]
          unfold pStatic; ring
        conv_rhs => rw [h7]
        refine mul_lt_mul_of_pos_left hlt ?_
        unfold pStatic; positivity
      have hr1 : z.pr ≤ 1 := by
        by_contra hc
        rw [(C56_invalid gam hg).2 z.pr (not_le.1 hc)] at h3
        cases h3
      by_cases hch : z.pr ≤ critPR gam
      · have h8 := C56_critical gam 1 hg
        rw [one_mul] at h8
        have := pStatic_anti hg hM0p.le hM
        linarith
      · obtain ⟨M, e, m2, m3, m4⟩ := C56_unchoked gam z.pr hg (not_le.1 hch) hr1
        have hzM : z.M = M := by rw [e] at h3; injection h3 with h; exact h.symm
        have h9 := m4 1
        rw [one_mul] at h9
        by_contra hc
        push Not at hc
        rcases hc.lt_or_eq with c | c
        · have := pStatic_anti hg hM0p.le c
          rw [hzM] at this; linarith
        · rw [c, hzM] at h6; linarith
    have e := hpx (hMlt.trans hM) (by rw [hpe]; exact hp)
    rw [hpe] at e
    rw [hF e, hTeq]
    apply mul_neg_of_pos_of_neg hmd
    rw [sub_neg, ← pow_lt_pow_iff_left₀ (sp0 _ _ m0) (sp0 _ _ hM0p.le) two_ne_zero,
      speed_sq R gam _ _ hR hg hTt0, speed_sq R gam _ _ hR hg hTt0]
    exact mul_lt_mul_of_pos_left (mach_frac_lt hg m0 hMlt) (by positivity)

example : ∃ (z : Nozzle) (rho : ℝ), z.Converged 287.05 1.4 rho ∧
    netForce 1 z.mdot 100 101325 z.area (z.p 1.4 rho) rho = 0 := by
  have ha : (100 : ℝ) < sos 287.05 1.4 300 := by
    unfold sos clipT
    rw [if_neg (by norm_num), lt_sqrt (by norm_num)]
    norm_num
  have hM : inletM 287.05 1.4 300 100 < 1 := by
    unfold inletM machFromSpeed
    rw [div_lt_one (by linarith)]; exact ha
  have hM0 : 0 < inletM 287.05 1.4 300 100 := by unfold inletM machFromSpeed; exact div_pos (by norm_num) (by linarith)
  have hTt : 0 < inletTt 287.05 1.4 300 100 := by unfold inletTt tTotal; positivity
  have hp : 101325 < inletPt 287.05 1.4 1 101325 300 100 := by
    unfold inletPt
    have h1 := pStatic_anti (gam := 1.4) (by norm_num) le_rfl hM0
    have h2 := (C56_round_trip 1.4 101325 (inletM 287.05 1.4 300 100) (by norm_num)).2.2.1
    have h3 : pStatic 1.4 1 0 = 1 := by unfold pStatic; norm_num
    rw [h3] at h1
    have h4 : 0 < pTotal 1.4 101325 (inletM 287.05 1.4 300 100) := by unfold pTotal; positivity
    have h5 : pStatic 1.4 (pTotal 1.4 101325 (inletM 287.05 1.4 300 100)) (inletM 287.05 1.4 300 100)
      = pTotal 1.4 101325 (inletM 287.05 1.4 300 100) * pStatic 1.4 1 (inletM 287.05 1.4 300 100) := by
      unfold pStatic; ring
    rw [h5] at h2
    nlinarith
  obtain ⟨mdot, M, rho, hz, h1, h2⟩ := C81_nozzle_exists 287.05 1.4 _ (inletTt 287.05 1.4 300 100) 101325 0.04 (by norm_num)
    (by norm_num) (by linarith) hTt (by norm_num) hp.le
  exact ⟨_, rho, hz, (((C81_force_sign 287.05 1.4 101325 300 100 _ rho (by norm_num) (by norm_num) (by norm_num) (by norm_num)
    (by norm_num) hM hz (by norm_num) h1 hTt rfl (h2 (by norm_num) hp)).1 (by simp [Nozzle.pt, nozzlePt])).1.2 rfl)⟩

end Verif.Ducts
