import Verif.Model.Hydrogen
import Verif.Proof.HDeriv
import Verif.Proof.Kink
import Verif.Props.Integrals
import Verif.Props.IntegralsPartials
import Mathlib.MeasureTheory.Integral.IntervalIntegral.FundThmCalculus
import Mathlib.Tactic.NormNum

/-! Properties C46 and C47: liquid hydrogen tank. -/

namespace Verif.Hydrogen

open Real Verif.Integrals

/-! ### C46 -/

/-- C46.  The volume is that of a capped cylinder: the integral of the cross section area along the axis, the two caps
being half balls. -/
theorem C46_volume (r L : ℝ) :
    tankVolume r L = (∫ x in (-r)..0, π * (r ^ 2 - x ^ 2)) + (∫ _x in (0 : ℝ)..L, π * r ^ 2)
      + ∫ x in (0 : ℝ)..r, π * (r ^ 2 - x ^ 2) := by
  have h : ∀ a b : ℝ, ∫ x in a..b, π * (r ^ 2 - x ^ 2)
      = (π * (r ^ 2 * b - b ^ 3 / 3)) - (π * (r ^ 2 * a - a ^ 3 / 3)) := by
    intro a b
    apply intervalIntegral.integral_eq_sub_of_hasDerivAt (f := fun x => π * (r ^ 2 * x - x ^ 3 / 3))
    · intro x _
      hderiv
      ring
    · apply Continuous.intervalIntegrable
      fun_prop
  rw [h, h]
  simp only [intervalIntegral.integral_const, smul_eq_mul, tankVolume]
  ring

/-- C46.  The mass in the tank is the initial filling minus the mass withdrawn; nothing withdrawn gives the initial fill
level, and withdrawing lowers the fill level proportionally. -/
theorem C46_mass (fill rho r L dm : ℝ) (hV : rho * tankVolume r L ≠ 0) :
    liquidMass fill rho r L dm = fill * rho * tankVolume r L - dm ∧
    fillLevel fill rho r L dm * (rho * tankVolume r L) = liquidMass fill rho r L dm ∧
    fillLevel fill rho r L 0 = fill ∧
    fillLevel fill rho r L dm = fill - dm / (rho * tankVolume r L) := by
  have h1 : rho ≠ 0 := left_ne_zero_of_mul hV
  have h2 : tankVolume r L ≠ 0 := right_ne_zero_of_mul hV
  simp only [fillLevel, liquidMass]
  refine ⟨by ring, by field_simp, by field_simp; ring, by field_simp⟩

theorem tankVolume_pos {r L : ℝ} (hr : 0 < r) (hL : 0 ≤ L) : 0 < tankVolume r L := by
  unfold tankVolume; positivity

/-- C46.  The fill level is in [0, 1] exactly when the withdrawn mass is between minus the free capacity and the initial
contents. -/
theorem C46_fill_range (fill rho r L dm : ℝ) (hrho : 0 < rho) (hr : 0 < r) (hL : 0 ≤ L) :
    (0 ≤ fillLevel fill rho r L dm ↔ dm ≤ fill * (rho * tankVolume r L)) ∧
    (fillLevel fill rho r L dm ≤ 1 ↔ (fill - 1) * (rho * tankVolume r L) ≤ dm) := by
  have hV : 0 < rho * tankVolume r L := mul_pos hrho (tankVolume_pos hr hL)
  rw [(C46_mass fill rho r L dm hV.ne').2.2.2]
  constructor
  · rw [sub_nonneg, div_le_iff₀ hV]
  · rw [sub_le_comm, le_div_iff₀ hV]

/-- C46.  Partials exact. -/
theorem C46_partials (fill rho r L dm : ℝ) (hV : rho * tankVolume r L ≠ 0) :
    HasDerivAt (fun x => liquidMass fill rho r L x) liquidMassDdm dm ∧
    HasDerivAt (fun x => liquidMass fill rho x L dm) (liquidMassDR fill rho r L) r ∧
    HasDerivAt (fun x => liquidMass fill rho r x dm) (liquidMassDL fill rho r) L ∧
    HasDerivAt (fun x => fillLevel fill rho r L x) (fillLevelDdm rho r L) dm ∧
    HasDerivAt (fun x => fillLevel fill rho x L dm) (fillLevelDR fill rho r L dm) r ∧
    HasDerivAt (fun x => fillLevel fill rho r x dm) (fillLevelDL fill rho r L dm) L := by
  have hVr : HasDerivAt (fun x => tankVolume x L) (tankVolumeDR r L) r := by
    simp only [tankVolume, tankVolumeDR]; hderiv; ring
  have hVL : HasDerivAt (fun x => tankVolume r x) (tankVolumeDL r) L := by
    simp only [tankVolume, tankVolumeDL]; hderiv; ring
  have hmr : HasDerivAt (fun x => liquidMass fill rho x L dm) (liquidMassDR fill rho r L) r :=
    ((hVr.mul_const fill).mul_const rho).sub_const dm
  have hmL : HasDerivAt (fun x => liquidMass fill rho r x dm) (liquidMassDL fill rho r) L :=
    ((hVL.mul_const fill).mul_const rho).sub_const dm
  have hmd : HasDerivAt (fun x => liquidMass fill rho r L x) liquidMassDdm dm := by
    simp only [liquidMass, liquidMassDdm]; hderiv!
  refine ⟨hmd, hmr, hmL, ?_, ?_, ?_⟩
  · exact hmd.div_const _
  · refine hd_congr (hmr.fun_div (hVr.const_mul rho) hV) ?_
    simp only [fillLevelDR]
    have h1 : rho ≠ 0 := left_ne_zero_of_mul hV
    have h2 : tankVolume r L ≠ 0 := right_ne_zero_of_mul hV
    field_simp
  · refine hd_congr (hmL.fun_div (hVL.const_mul rho) hV) ?_
    simp only [fillLevelDL]
    have h1 : rho ≠ 0 := left_ne_zero_of_mul hV
    have h2 : tankVolume r L ≠ 0 := right_ne_zero_of_mul hV
    field_simp

/-- C46.  Bookkeeping over a phase: the tank's total weight drops from the first node to any later one by exactly the
integral of the hydrogen flow when the flow history is a polynomial of degree at most two. -/
theorem C46_history_exact {m : ℕ} (fill rho r L d dm0 W : ℝ) (p : Polynomial ℝ) (hp : p.natDegree ≤ 2)
    (s : Fin (m + 1) → ℝ) (h : tankMass fill rho r L d dm0 (fun b => p.eval ((b : ℕ) * (d / m))) = some s)
    (a : Fin (m + 1)) :
    tankTotal s W 0 - tankTotal s W a = ∫ t in (0 : ℝ)..((a : ℕ) * (d / m)), p.eval t := by
  unfold tankMass at h
  obtain ⟨M, hM, rfl⟩ := Option.map_eq_some_iff.1 h
  have h1 := C01_simpson_exact_quadratic hM p hp (.duration d) 0 dm0 a
  have h0 := C03_first_node hM dm0 (.duration d) (fun b : Fin (m + 1) => p.eval ((b : ℕ) * (d / m)))
  simp only [TimeInput.step, zero_add] at h1
  simp only [tankTotal, liquidMass, h1, h0]
  ring

/-- C46.  At every node the tank weighs as much as its empty structure and its liquid, which at the first node is the filled part
of the volume times the density less what was withdrawn before. -/
theorem C46_total {m : ℕ} (fill rho r L d dm0 W : ℝ) (mdot s : Fin (m + 1) → ℝ)
    (h : tankMass fill rho r L d dm0 mdot = some s) :
    (∀ a, tankTotal s W a = W + s a) ∧
    tankTotal s W 0 = W + fill * rho * (4 / 3 * π * r ^ 3 + π * r ^ 2 * L) - dm0 := by
  have h1 : ∀ a, tankTotal s W a = W + s a := fun a => by unfold tankTotal; ring
  refine ⟨h1, ?_⟩
  unfold tankMass at h
  obtain ⟨M, hM, rfl⟩ := Option.map_eq_some_iff.1 h
  rw [h1]
  simp only [C03_first_node hM, liquidMass, tankVolume]
  ring

/-- C46.  For a nonnegative flow the liquid mass never increases between even nodes. -/
theorem C46_mass_decreasing {m : ℕ} (fill rho r L d dm0 : ℝ) (hd : 0 ≤ d) (mdot s : Fin (m + 1) → ℝ)
    (hf : ∀ b, 0 ≤ mdot b) (h : tankMass fill rho r L d dm0 mdot = some s) (k l : ℕ) (hkl : k ≤ l)
    (hl' : 2 * l < m + 1) : s ⟨2 * l, hl'⟩ ≤ s ⟨2 * k, by omega⟩ := by
  unfold tankMass at h
  obtain ⟨M, hM, rfl⟩ := Option.map_eq_some_iff.1 h
  have hst : 0 ≤ (TimeInput.duration d : TimeInput ℝ).step m := div_nonneg hd (by positivity)
  have := C07_simpson_even_monotone_partial hM dm0 (.duration d) hst mdot hf k l hkl (by omega)
  simp only [liquidMass]
  linarith

/-- C46.  The phases of a mission chain: starting a phase with the mass withdrawn at the end of the previous one makes the
liquid mass continuous. -/
theorem C46_phase_link {m n : ℕ} (fill rho r L d d' dm0 : ℝ) (M : Matrix (Fin (m + 1)) (Fin (m + 1)) ℝ)
    (hM : methodMatrix .simpson m = some M) (mdot : Fin (m + 1) → ℝ) (mdot' : Fin (n + 1) → ℝ)
    (s : Fin (m + 1) → ℝ) (s' : Fin (n + 1) → ℝ) (h : tankMass fill rho r L d dm0 mdot = some s)
    (h' : tankMass fill rho r L d' (integratorFinal M dm0 (.duration d) mdot) mdot' = some s') :
    s' 0 = s (Fin.last m) := by
  unfold tankMass at h h'
  obtain ⟨M1, hM1, rfl⟩ := Option.map_eq_some_iff.1 h
  obtain ⟨M2, hM2, rfl⟩ := Option.map_eq_some_iff.1 h'
  rw [hM] at hM1
  cases hM1
  simp only [C03_first_node hM2, integratorFinal]

example : fillLevel 0.95 70 1 0 (0.45 * (70 * tankVolume 1 0)) = 0.5 := by
  have h : 0 < tankVolume 1 0 := tankVolume_pos (by norm_num) (by norm_num)
  rw [(C46_mass 0.95 70 1 0 _ (by positivity)).2.2.2]
  field_simp
  norm_num

/-! ### C47 -/

/-- C47.  The wall surface area is the derivative of the enclosed volume with respect to the radius (Steiner), so that a
thin wall's volume is area times thickness to first order. -/
theorem C47_area (r L : ℝ) : HasDerivAt (fun x => tankVolume x L) (surfaceArea r L) r := by
  simp only [tankVolume, surfaceArea]; hderiv; ring

/-- C47.  Inner wall: at the computed thickness the hoop stress `p r / t` is exactly the yield stress over the safety
factor. -/
theorem C47_hoop_stress (o : VesselOpts) (p r : ℝ) (hp : 0 < p) (hr : 0 < r) (hs : 0 < o.safety) (hy : 0 < o.yield) :
    p * r / vesselThickness o p r = o.yield / o.safety := by
  simp only [vesselThickness]; field_simp

/-- C47.  Inner wall: partials exact, weight included. -/
theorem C47_vessel_partials (o : VesselOpts) (p r L : ℝ) :
    HasDerivAt (fun x => vesselThickness o x r) (vesselThicknessDP o r) p ∧
    HasDerivAt (fun x => vesselThickness o p x) (vesselThicknessDR o p) r ∧
    HasDerivAt (fun x => vesselWeight o x r L) (vesselWeightDP o r L) p ∧
    HasDerivAt (fun x => vesselWeight o p x L) (vesselWeightDR o p r L) r ∧
    HasDerivAt (fun x => vesselWeight o p r x) (vesselWeightDL o p r) L := by
  simp only [vesselWeight, vesselThickness, vesselThicknessDP, vesselThicknessDR, vesselWeightDP, vesselWeightDR,
    vesselWeightDL, surfaceArea]
  refine ⟨?_, ?_, ?_, ?_, ?_⟩ <;> (hderiv; ring)

/-- C47.  The outer wall thickness is the stiffening multiplier times the larger of the two buckling thicknesses. -/
theorem C47_both_modes (o : VacuumOpts) (p r L : ℝ) (hs : 0 < o.stiff) :
    tCyl o p r L ≤ vacThickness o p r L / o.stiff ∧ tSph o p r ≤ vacThickness o p r L / o.stiff ∧
    (vacThickness o p r L / o.stiff = tCyl o p r L ∨ vacThickness o p r L / o.stiff = tSph o p r) := by
  have e : vacThickness o p r L / o.stiff = max (tCyl o p r L) (tSph o p r) := by
    simp only [vacThickness]; field_simp
  rw [e]
  refine ⟨le_max_left _ _, le_max_right _ _, ?_⟩
  rcases le_total (tCyl o p r L) (tSph o p r) with h | h
  · right; exact max_eq_right h
  · left; exact max_eq_left h

theorem tCyl_pow (o : VacuumOpts) (p r L : ℝ) (hp : 0 < p) (hr : 0 < r) (hL : 0 ≤ L) (hs : 0 < o.safety)
    (hE : 0 < o.young) : tCyl o p r L ^ (2.5 : ℝ) = p * o.safety * L * r ^ (1.5 : ℝ) / (0.92 * o.young) := by
  unfold tCyl
  rw [← rpow_mul (by positivity)]
  norm_num

/-- C47.  Buckling margins.  With the unstiffened thickness `t`, the critical pressures of the cylinder
`0.92 E t^2.5 / (L r^1.5)` and of the sphere `0.365 E t² / r²` are both at least the safety factor times the design
pressure, and one of them is equal to it. -/
theorem C47_critical_pressure (o : VacuumOpts) (p r L t : ℝ) (hp : 0 < p) (hr : 0 < r) (hL : 0 < L) (hs : 0 < o.safety)
    (hE : 0 < o.young) (hst : 0 < o.stiff) (ht : t = vacThickness o p r L / o.stiff) :
    o.safety * p ≤ 0.92 * o.young * t ^ (2.5 : ℝ) / (L * r ^ (1.5 : ℝ)) ∧
    o.safety * p ≤ 0.365 * o.young * t ^ 2 / r ^ 2 ∧
    (0.92 * o.young * t ^ (2.5 : ℝ) / (L * r ^ (1.5 : ℝ)) = o.safety * p ∨
      0.365 * o.young * t ^ 2 / r ^ 2 = o.safety * p) := by
  obtain ⟨h1, h2, h3⟩ := C47_both_modes o p r L hst
  rw [← ht] at h1 h2 h3
  have c0 : 0 ≤ tCyl o p r L := by unfold tCyl; positivity
  have s0 : 0 ≤ tSph o p r := by unfold tSph; positivity
  have hr15 : 0 < r ^ (1.5 : ℝ) := by positivity
  have ec : 0.92 * o.young * tCyl o p r L ^ (2.5 : ℝ) / (L * r ^ (1.5 : ℝ)) = o.safety * p := by
    rw [tCyl_pow o p r L hp hr hL.le hs hE]; field_simp
  have es : 0.365 * o.young * tSph o p r ^ 2 / r ^ 2 = o.safety * p := by
    unfold tSph
    rw [mul_pow, sq_sqrt (by positivity)]; field_simp
  refine ⟨?_, ?_, ?_⟩
  · rw [← ec]
    have := rpow_le_rpow c0 h1 (show (0 : ℝ) ≤ 2.5 by norm_num)
    gcongr
  · rw [← es]
    gcongr
  · rcases h3 with h | h
    · left; rw [h, ec]
    · right; rw [h, es]

theorem tCyl_hd (o : VacuumOpts) (p r L : ℝ) (hp : 0 < p) (hr : 0 < r) (hL : 0 < L) (hs : 0 < o.safety)
    (hE : 0 < o.young) :
    HasDerivAt (fun x => tCyl o x r L) (firstTerm o p r L * o.safety * L * r ^ (1.5 : ℝ) / (0.92 * o.young)) p ∧
    HasDerivAt (fun x => tCyl o p x L)
      (firstTerm o p r L * p * o.safety * L * r ^ (0.5 : ℝ) / (0.92 * o.young) * 1.5) r ∧
    HasDerivAt (fun x => tCyl o p r x) (firstTerm o p r L * p * o.safety * r ^ (1.5 : ℝ) / (0.92 * o.young)) L := by
  have hb : p * o.safety * L * r ^ (1.5 : ℝ) / (0.92 * o.young) ≠ 0 := by positivity
  have e5 : r ^ (1.5 - 1 : ℝ) = r ^ (0.5 : ℝ) := by norm_num
  simp only [tCyl, firstTerm]
  refine ⟨?_, ?_, ?_⟩
  · hderiv
    ring
  · hderiv
    rw [e5]
    ring
  · hderiv
    ring

theorem tSph_hd (o : VacuumOpts) (p r : ℝ) (hp : 0 < p) (hr : 0 < r) (hs : 0 < o.safety)
    (hE : 0 < o.young) :
    HasDerivAt (fun x => tSph o x r) (tSphDP o p r) p ∧ HasDerivAt (fun x => tSph o p x) (tSphDR o p r) r := by
  have hb : p * o.safety / (0.365 * o.young) ≠ 0 := by positivity
  constructor
  · have hb' : 0 < p * o.safety / (0.365 * o.young) := by positivity
    have : (p * o.safety / (0.365 * o.young)) ^ (-0.5 : ℝ) = (√(p * o.safety / (0.365 * o.young)))⁻¹ := by
      rw [sqrt_eq_rpow, ← rpow_neg hb'.le]; norm_num
    simp only [tSph, tSphDP, this]
    have hq : √(p * o.safety / (0.365 * o.young)) ≠ 0 := by positivity
    hderiv
    field_simp
    norm_num
  · simp only [tSph, tSphDR]
    hderiv
    field_simp

open Filter Topology in
theorem max_hd {f g : ℝ → ℝ} {f' g' x : ℝ} (hf : HasDerivAt f f' x) (hg : HasDerivAt g g' x) (hne : f x ≠ g x) :
    HasDerivAt (fun y => max (f y) (g y)) (if g x < f x then f' else g') x := by
  rcases lt_or_gt_of_ne hne with h | h
  · rw [if_neg (not_lt.2 h.le)]
    apply hg.congr_of_eventuallyEq
    filter_upwards [hf.continuousAt.eventually_lt hg.continuousAt h] with y hy
    exact max_eq_right hy.le
  · rw [if_pos h]
    apply hf.congr_of_eventuallyEq
    filter_upwards [hg.continuousAt.eventually_lt hf.continuousAt h] with y hy
    exact max_eq_left hy.le

theorem area_hd (r L : ℝ) : HasDerivAt (fun x => surfaceArea x L) (8 * π * r + 2 * π * L) r ∧
    HasDerivAt (fun x => surfaceArea r x) (2 * π * r) L := by
  simp only [surfaceArea]
  constructor
  · hderiv; ring
  · hderiv; ring

/-- C47.  Outer wall: all partials of thickness and weight are exact for cylinders of length at least 1e-6 m away from
ties of the two modes. -/
theorem C47_vacuum_partials (o : VacuumOpts) (p r L : ℝ) (hp : 0 < p) (hr : 0 < r) (hL : 1e-6 ≤ L) (hs : 0 < o.safety)
    (hE : 0 < o.young) (hne : tCyl o p r L ≠ tSph o p r) :
    HasDerivAt (fun x => vacThickness o x r L) (vacThicknessDP o p r L) p ∧
    HasDerivAt (fun x => vacThickness o p x L) (vacThicknessDR o p r L) r ∧
    HasDerivAt (fun x => vacThickness o p r x) (vacThicknessDL o p r L) L ∧
    HasDerivAt (fun x => vacWeight o x r L) (vacWeightDP o p r L) p ∧
    HasDerivAt (fun x => vacWeight o p x L) (vacWeightDR o p r L) r ∧
    HasDerivAt (fun x => vacWeight o p r x) (vacWeightDL o p r L) L := by
  have hL0 : 0 < L := lt_of_lt_of_le (by norm_num) hL
  have hn : ¬ L < 1e-6 := not_lt.2 hL
  obtain ⟨c1, c2, c3⟩ := tCyl_hd o p r L hp hr hL0 hs hE
  obtain ⟨s1, s2⟩ := tSph_hd o p r hp hr hs hE
  have t1 : HasDerivAt (fun x => vacThickness o x r L) (vacThicknessDP o p r L) p := by
    refine hd_congr ((max_hd c1 s1 hne).const_mul o.stiff) ?_
    simp only [vacThicknessDP, tCylDP, if_neg hn]; split_ifs <;> ring
  have t2 : HasDerivAt (fun x => vacThickness o p x L) (vacThicknessDR o p r L) r := by
    refine hd_congr ((max_hd c2 s2 hne).const_mul o.stiff) ?_
    simp only [vacThicknessDR, tCylDR, if_neg hn]; split_ifs <;> ring
  have t3 : HasDerivAt (fun x => vacThickness o p r x) (vacThicknessDL o p r L) L := by
    refine hd_congr ((max_hd c3 (hasDerivAt_const L (tSph o p r)) hne).const_mul o.stiff) ?_
    simp only [vacThicknessDL, tCylDL, if_neg hn]; split_ifs <;> ring
  refine ⟨t1, t2, t3, ?_, ?_, ?_⟩
  · exact (t1.const_mul (surfaceArea r L)).mul_const o.density
  · exact ((area_hd r L).1.mul t2).mul_const o.density
  · exact ((area_hd r L).2.mul t3).mul_const o.density

/-- C47.  A spherical tank (zero cylinder length): the sphere governs and the partials with respect to pressure and radius
are exact. -/
theorem C47_sphere_partials (o : VacuumOpts) (p r : ℝ) (hp : 0 < p) (hr : 0 < r) (hs : 0 < o.safety)
    (hE : 0 < o.young) :
    vacThickness o p r 0 = o.stiff * tSph o p r ∧
    HasDerivAt (fun x => vacThickness o x r 0) (vacThicknessDP o p r 0) p ∧
    HasDerivAt (fun x => vacThickness o p x 0) (vacThicknessDR o p r 0) r := by
  have c0 : ∀ p r, tCyl o p r 0 = 0 := by intro p r; simp [tCyl]; norm_num
  have spos : 0 < tSph o p r := by unfold tSph; positivity
  obtain ⟨s1, s2⟩ := tSph_hd o p r hp hr hs hE
  have hn : ¬ tSph o p r < tCyl o p r 0 := by rw [c0]; exact not_lt.2 spos.le
  refine ⟨?_, ?_, ?_⟩
  · rw [vacThickness, c0, max_eq_right spos.le]
  · have := (max_hd (hasDerivAt_const p (0 : ℝ)) s1 spos.ne).const_mul o.stiff
    rw [if_neg (not_lt.2 spos.le)] at this
    simp only [vacThickness, c0, vacThicknessDP]
    refine hd_congr this ?_
    rw [if_neg (not_lt.2 spos.le)]; ring
  · have := (max_hd (hasDerivAt_const r (0 : ℝ)) s2 spos.ne).const_mul o.stiff
    rw [if_neg (not_lt.2 spos.le)] at this
    simp only [vacThickness, c0, vacThicknessDR]
    refine hd_congr this ?_
    rw [if_neg (not_lt.2 spos.le)]; ring

/-- C47 is false for the partials of very short cylinders: when the cylinder governs and its length is below 1e-6 m the
reported partials are zero, while the thickness strictly depends on length, pressure and radius. -/
theorem C47_short_cylinder (o : VacuumOpts) (p r L : ℝ) (hp : 0 < p) (hr : 0 < r) (hL : 0 < L) (hs : 0 < o.safety)
    (hE : 0 < o.young) (hst : 0 < o.stiff) (hL' : L < 1e-6) (hgov : tSph o p r < tCyl o p r L) :
    vacThicknessDL o p r L = 0 ∧ vacThicknessDP o p r L = 0 ∧ vacThicknessDR o p r L = 0 ∧
    ∃ d, 0 < d ∧ HasDerivAt (fun x => vacThickness o p r x) d L := by
  refine ⟨by simp [vacThicknessDL, tCylDL, hL'], ?_, ?_, ?_⟩
  · simp [vacThicknessDP, tCylDP, hL', hgov]
  · simp [vacThicknessDR, tCylDR, hL', hgov]
  obtain ⟨c1, c2, c3⟩ := tCyl_hd o p r L hp hr hL hs hE
  have := (max_hd c3 (hasDerivAt_const L (tSph o p r)) hgov.ne').const_mul o.stiff
  rw [if_pos hgov] at this
  refine ⟨_, ?_, this⟩
  unfold firstTerm
  positivity

/-- Inputs for which the hypotheses of `C47_short_cylinder` hold. -/
theorem C47_short_cylinder_exists : ∃ (o : VacuumOpts) (p r L : ℝ), 0 < p ∧ 0 < r ∧ 0 < L ∧ 0 < o.safety ∧ 0 < o.young ∧
    0 < o.stiff ∧ L < 1e-6 ∧ tSph o p r < tCyl o p r L := by
  refine ⟨⟨1, 1, 1 / 0.92, 1⟩, 1, (1e-10 : ℝ), 1e-7, by norm_num, by norm_num, by norm_num, by norm_num, by norm_num,
    by norm_num, by norm_num, ?_⟩
  have h1 : tSph ⟨1, 1, 1 / 0.92, 1⟩ 1 (1e-10 : ℝ) ≤ 2e-10 := by
    unfold tSph
    have : √(1 * 1 / (0.365 * (1 / 0.92)) : ℝ) ≤ 2 := by
      rw [sqrt_le_left (by norm_num)]; norm_num
    simp only
    calc (1e-10 : ℝ) * √(1 * 1 / (0.365 * (1 / 0.92)) : ℝ) ≤ 1e-10 * 2 := by gcongr
      _ ≤ _ := by norm_num
  have hr15 : (1e-10 : ℝ) ^ (1.5 : ℝ) = 1e-15 := by
    have : (1e-10 : ℝ) = (1e-5) ^ (2 : ℝ) := by norm_num
    rw [this, ← rpow_mul (by norm_num)]
    have : (2 * 1.5 : ℝ) = ((3 : ℕ) : ℝ) := by norm_num
    rw [this, rpow_natCast]; norm_num
  have h2 : tCyl ⟨1, 1, 1 / 0.92, 1⟩ 1 (1e-10 : ℝ) 1e-7 ^ (2.5 : ℝ) = 1e-22 := by
    rw [tCyl_pow _ _ _ _ (by norm_num) (by norm_num) (by norm_num) (by norm_num) (by norm_num), hr15]
    norm_num
  have h3 : (2e-10 : ℝ) ^ (2.5 : ℝ) < 1e-22 := by
    have : (2e-10 : ℝ) ^ (2.5 : ℝ) ≤ (2e-10 : ℝ) ^ (2 : ℝ) * 1e-4 := by
      rw [show (2.5 : ℝ) = 2 + 0.5 by norm_num, rpow_add (by norm_num)]
      have : (2e-10 : ℝ) ^ (0.5 : ℝ) ≤ 1e-4 := by
        have h : (2e-10 : ℝ) ^ (0.5 : ℝ) ≤ (1e-8 : ℝ) ^ (0.5 : ℝ) :=
          rpow_le_rpow (by norm_num) (by norm_num) (by norm_num)
        have e : (1e-8 : ℝ) ^ (0.5 : ℝ) = 1e-4 := by
          rw [show (1e-8 : ℝ) = (1e-4) ^ (2 : ℝ) by norm_num, ← rpow_mul (by norm_num)]; norm_num
        linarith
      gcongr
    have e2 : (2e-10 : ℝ) ^ (2 : ℝ) = 4e-20 := by
      rw [show (2 : ℝ) = ((2 : ℕ) : ℝ) by norm_num, rpow_natCast]; norm_num
    rw [e2] at this
    norm_num at this ⊢
    linarith
  refine lt_of_le_of_lt h1 ?_
  by_contra hc
  rw [not_lt] at hc
  have := rpow_le_rpow (by unfold tCyl; positivity) hc (show (0 : ℝ) ≤ 2.5 by norm_num)
  rw [h2] at this
  linarith

/-- C47.  At a tie of the two modes the thickness has no derivative with respect to the cylinder length. -/
theorem C47_tie (o : VacuumOpts) (p r L : ℝ) (hp : 0 < p) (hr : 0 < r) (hL : 0 < L) (hs : 0 < o.safety)
    (hE : 0 < o.young) (hst : 0 < o.stiff) (ht : tCyl o p r L = tSph o p r) :
    ¬ DifferentiableAt ℝ (fun x => vacThickness o p r (max x 0)) L := by
  obtain ⟨-, -, c3⟩ := tCyl_hd o p r L hp hr hL hs hE
  have mono : ∀ x y, 0 ≤ x → x ≤ y → tCyl o p r x ≤ tCyl o p r y := by
    intro x y hx hxy
    unfold tCyl
    apply rpow_le_rpow (by positivity) _ (by norm_num)
    gcongr
  refine not_diff_of_kink (g := fun _ => o.stiff * tSph o p r)
    (h := fun x => o.stiff * tCyl o p r x) (hasDerivAt_const _ _) (c3.const_mul o.stiff) ?_ ?_ ?_
  · intro y hy
    simp only [vacThickness]
    rw [max_eq_right]
    rw [← ht]
    exact mono _ _ (le_max_right _ _) (max_le hy hL.le)
  · intro y hy
    simp only [vacThickness]
    rw [max_eq_left (hL.le.trans hy), max_eq_left]
    rw [← ht]
    exact mono _ _ hL.le hy
  · have : 0 < o.stiff * (firstTerm o p r L * p * o.safety * r ^ (1.5 : ℝ) / (0.92 * o.young)) := by
      unfold firstTerm; positivity
    exact this.ne

/-- C47.  Insulation weight: partials exact. -/
theorem C47_mli_partials (f s r L N : ℝ) :
    HasDerivAt (fun x => mliWeight f s r L x) (mliWeightDN f s r L) N ∧
    HasDerivAt (fun x => mliWeight f s x L N) (mliWeightDR f s r L N) r ∧
    HasDerivAt (fun x => mliWeight f s r x N) (mliWeightDL f s r N) L := by
  simp only [mliWeight, mliWeightDN, mliWeightDR, mliWeightDL, surfaceArea]
  refine ⟨?_, ?_, ?_⟩ <;> (hderiv; ring)

/-- C47.  Total: the tank weight is the fudge factor times the sum of area times thickness times density of both walls and
the insulation, and is positive. -/
theorem C47_total (f : ℝ) (oi : VesselOpts) (oo : VacuumOpts) (i : TankIn) :
    tankWeight f oi oo i = f * (surfaceArea (i.radius + i.gap) i.length * vacThickness oo i.pEnv (i.radius + i.gap) i.length
        * oo.density
      + surfaceArea i.radius i.length * vesselThickness oi i.pOper i.radius * oi.density
      + 0.03 * i.layers * surfaceArea i.radius i.length) := by
  simp only [tankWeight, vacWeight, vesselWeight, mliWeight]; ring

/-- C47.  A longer tank, a higher ambient or operating pressure or more insulation never makes the tank lighter. -/
theorem C47_monotone (f : ℝ) (oi : VesselOpts) (oo : VacuumOpts) (i j : TankIn) (hf : 0 ≤ f)
    (hoi : 0 ≤ oi.safety ∧ 0 ≤ oi.yield ∧ 0 ≤ oi.density) (hoo : 0 ≤ oo.safety ∧ 0 ≤ oo.stiff ∧ 0 ≤ oo.young ∧ 0 ≤ oo.density)
    (hr : 0 ≤ i.radius) (hg : 0 ≤ i.gap) (hL : 0 ≤ i.length) (hp : 0 ≤ i.pEnv) (hq : 0 ≤ i.pOper) (hN : 0 ≤ i.layers)
    (hrad : i.radius ≤ j.radius) (hgap : i.gap ≤ j.gap) (hLL : i.length ≤ j.length) (hpp : i.pEnv ≤ j.pEnv)
    (hqq : i.pOper ≤ j.pOper) (hNN : i.layers ≤ j.layers) : tankWeight f oi oo i ≤ tankWeight f oi oo j := by
  obtain ⟨a1, a2, a3⟩ := hoi
  obtain ⟨b1, b2, b3, b4⟩ := hoo
  rw [C47_total, C47_total]
  have h0 : 0 ≤ i.radius + i.gap := by linarith
  have hR : i.radius + i.gap ≤ j.radius + j.gap := by linarith
  have area : ∀ r s, 0 ≤ r → r ≤ s → surfaceArea r i.length ≤ surfaceArea s j.length := by
    intro r s h h'
    have hs : 0 ≤ s := h.trans h'
    unfold surfaceArea; gcongr
  have apos : ∀ r, 0 ≤ r → 0 ≤ surfaceArea r i.length := by intro r h; unfold surfaceArea; positivity
  have apos' : ∀ r, 0 ≤ r → 0 ≤ surfaceArea r j.length := by
    intro r h; unfold surfaceArea
    have : 0 ≤ j.length := hL.trans hLL
    positivity
  have ht : vacThickness oo i.pEnv (i.radius + i.gap) i.length ≤ vacThickness oo j.pEnv (j.radius + j.gap) j.length := by
    unfold vacThickness
    apply mul_le_mul_of_nonneg_left _ b2
    apply max_le_max
    · unfold tCyl
      apply rpow_le_rpow (by positivity) _ (by norm_num)
      have : (i.radius + i.gap) ^ (1.5 : ℝ) ≤ (j.radius + j.gap) ^ (1.5 : ℝ) := rpow_le_rpow h0 hR (by norm_num)
      have hp' : 0 ≤ j.pEnv := hp.trans hpp
      have hL' : 0 ≤ j.length := hL.trans hLL
      gcongr
    · unfold tSph
      gcongr
      exact h0.trans hR
  have tpos : 0 ≤ vacThickness oo i.pEnv (i.radius + i.gap) i.length := by
    unfold vacThickness
    apply mul_nonneg b2
    apply le_max_of_le_right
    unfold tSph
    positivity
  have hv : vesselThickness oi i.pOper i.radius ≤ vesselThickness oi j.pOper j.radius := by
    unfold vesselThickness
    have : 0 ≤ j.pOper := hq.trans hqq
    gcongr
  have vpos : 0 ≤ vesselThickness oi i.pOper i.radius := by unfold vesselThickness; positivity
  apply mul_le_mul_of_nonneg_left _ hf
  have A := area _ _ h0 hR
  have B := area _ _ hr hrad
  have P1 := apos' _ (h0.trans hR)
  have P2 := apos' _ (hr.trans hrad)
  have P3 := apos _ hr
  have hN' : 0 ≤ j.layers := hN.trans hNN
  gcongr

example : vesselThickness ⟨1.5, 413.7e6, 2796⟩ 413.7e3 2 = 0.003 := by norm_num [vesselThickness]

end Verif.Hydrogen
