import Verif.Props.HeatExchanger
import Verif.Props.Aero
import Verif.Props.VectorComps
import Verif.Props.Propulsion
import Verif.Props.Thermal
import Verif.Props.WeightsJet

/-! Theorems on the formulas themselves, added after testing the other theorems against wrong programs: each says what a
component computes in a form found in the literature the code refers to, not in the form of the code. -/

namespace Verif.HX

open Real

theorem rpow_pow10 {x : ℝ} (hx : 0 ≤ x) (a : ℝ) : (x ^ a) ^ (10 : ℕ) = x ^ (10 * a) := by
  rw [← Real.rpow_natCast, ← Real.rpow_mul hx]
  congr 1
  push_cast
  ring

theorem tenth_pow10 {x : ℝ} (hx : 0 ≤ x) : (x ^ (0.1 : ℝ)) ^ (10 : ℕ) = x := by
  rw [rpow_pow10 hx]
  norm_num

/-- C55.  Manglik and Bergles: the tenth power of the Colburn factor is the sum of the tenth powers of the published laminar
and turbulent power laws in the ratios alpha, delta, gamma, and likewise for the friction factor. -/
theorem C55_manglik_bergles (α δ γ Re : ℝ) (ha : 0 < α) (hd : 0 < δ) (hg : 0 < γ) (hR : 0 < Re) :
    colburn (j1 (α, δ, γ)) (j2 (α, δ, γ)) Re ^ 10
      = (0.6522 * Re ^ (-0.5403 : ℝ) * α ^ (-0.1541 : ℝ) * δ ^ (0.1499 : ℝ) * γ ^ (-0.0678 : ℝ)) ^ 10
        + (0.6522 * (5.269e-5 : ℝ) ^ (0.1 : ℝ) * Re ^ (-0.4063 : ℝ) * α ^ (-0.1037 : ℝ) * δ ^ (0.1955 : ℝ)
          * γ ^ (-0.1733 : ℝ)) ^ 10 ∧
    friction (f1 (α, δ, γ)) (f2 (α, δ, γ)) Re ^ 10
      = (9.6243 * Re ^ (-0.7422 : ℝ) * α ^ (-0.1856 : ℝ) * δ ^ (0.3053 : ℝ) * γ ^ (-0.2659 : ℝ)) ^ 10
        + (9.6243 * (7.669e-8 : ℝ) ^ (0.1 : ℝ) * Re ^ (-0.2993 : ℝ) * α ^ (-0.0936 : ℝ) * δ ^ (0.6820 : ℝ)
          * γ ^ (-0.2423 : ℝ)) ^ 10 := by
  have add : ∀ {x : ℝ}, 0 < x → ∀ a b c : ℝ, a + b = c → x ^ a * x ^ b = x ^ c := fun hx a b c h => by
    rw [← Real.rpow_add hx, h]
  constructor
  · unfold colburn j1 j2
    simp only
    have hb : 0 < 1 + 5.269e-5 * Re ^ (1.34 : ℝ) * (α ^ (0.504 : ℝ) * δ ^ (0.456 : ℝ) * γ ^ (-1.055 : ℝ)) := by positivity
    simp only [mul_pow, tenth_pow10 hb.le, tenth_pow10 (show (0 : ℝ) ≤ 5.269e-5 by norm_num), rpow_pow10 hR.le,
      rpow_pow10 ha.le, rpow_pow10 hd.le, rpow_pow10 hg.le]
    rw [← add hR (10 * -0.5403) 1.34 (10 * -0.4063) (by norm_num),
      ← add ha (10 * -0.1541) 0.504 (10 * -0.1037) (by norm_num),
      ← add hd (10 * 0.1499) 0.456 (10 * 0.1955) (by norm_num),
      ← add hg (10 * -0.0678) (-1.055) (10 * -0.1733) (by norm_num)]
    ring
  · unfold friction f1 f2
    simp only
    have hb : 0 < 1 + 7.669e-8 * Re ^ (4.429 : ℝ) * (α ^ (0.92 : ℝ) * δ ^ (3.767 : ℝ) * γ ^ (0.236 : ℝ)) := by positivity
    simp only [mul_pow, tenth_pow10 hb.le, tenth_pow10 (show (0 : ℝ) ≤ 7.669e-8 by norm_num), rpow_pow10 hR.le,
      rpow_pow10 ha.le, rpow_pow10 hd.le, rpow_pow10 hg.le]
    rw [← add hR (10 * -0.7422) 4.429 (10 * -0.2993) (by norm_num),
      ← add ha (10 * -0.1856) 0.92 (10 * -0.0936) (by norm_num),
      ← add hd (10 * 0.3053) 3.767 (10 * 0.6820) (by norm_num),
      ← add hg (10 * -0.2659) 0.236 (10 * -0.2423) (by norm_num)]
    ring

/-- C55.  The turbulent constants agree with the published 0.2435 and 1.8699 to four significant digits. -/
theorem C55_turbulent_constants : |0.6522 * (5.269e-5 : ℝ) ^ (0.1 : ℝ) - 0.2435| < 1e-4 ∧
    |9.6243 * (7.669e-8 : ℝ) ^ (0.1 : ℝ) - 1.8699| < 5e-4 := by
  have h1 := tenth_pow10 (show (0 : ℝ) ≤ 5.269e-5 by norm_num)
  have h2 := tenth_pow10 (show (0 : ℝ) ≤ 7.669e-8 by norm_num)
  have p1 : 0 ≤ (5.269e-5 : ℝ) ^ (0.1 : ℝ) := Real.rpow_nonneg (by norm_num) _
  have p2 : 0 ≤ (7.669e-8 : ℝ) ^ (0.1 : ℝ) := Real.rpow_nonneg (by norm_num) _
  generalize (5.269e-5 : ℝ) ^ (0.1 : ℝ) = x at *
  generalize (7.669e-8 : ℝ) ^ (0.1 : ℝ) = y at *
  have lo : ∀ {z a w : ℝ}, 0 ≤ z → z ^ 10 = w → a ^ 10 < w → a < z := fun hz h hl =>
    lt_of_pow_lt_pow_left₀ 10 hz (by rw [h]; exact hl)
  have hi : ∀ {z a w : ℝ}, 0 ≤ a → z ^ 10 = w → w < a ^ 10 → z < a := fun ha h hl =>
    lt_of_pow_lt_pow_left₀ 10 ha (by rw [h]; exact hl)
  have a1 : (0.3733 : ℝ) < x := lo p1 h1 (by norm_num)
  have a2 : x < (0.3735 : ℝ) := hi (by norm_num) h1 (by norm_num)
  have b1 : (0.1943 : ℝ) < y := lo p2 h2 (by norm_num)
  have b2 : y < (0.19433 : ℝ) := hi (by norm_num) h2 (by norm_num)
  constructor <;> rw [abs_lt] <;> constructor <;> norm_num at * <;> linarith

/-- C55.  The Colburn and friction factors of an exchanger depend on its fins only through ratios of lengths: a geometrically
similar exchanger has the same factors at the same Reynolds number. -/
theorem C55_similar (g : Geo) (k Re : ℝ) (hk : k ≠ 0) :
    let g' : Geo := {g with wc := k * g.wc, hc := k * g.hc, lc := k * g.lc, wh := k * g.wh, hh := k * g.hh, lh := k * g.lh, tf := k * g.tf}
    colburn (j1 g'.shapeCold) (j2 g'.shapeCold) Re = colburn (j1 g.shapeCold) (j2 g.shapeCold) Re ∧
    colburn (j1 g'.shapeHot) (j2 g'.shapeHot) Re = colburn (j1 g.shapeHot) (j2 g.shapeHot) Re ∧
    friction (f1 g'.shapeCold) (f2 g'.shapeCold) Re = friction (f1 g.shapeCold) (f2 g.shapeCold) Re ∧
    friction (f1 g'.shapeHot) (f2 g'.shapeHot) Re = friction (f1 g.shapeHot) (f2 g.shapeHot) Re := by
  intro g'
  have e1 : g'.shapeCold = g.shapeCold := by
    simp only [Geo.shapeCold, g', mul_div_mul_left _ _ hk]
  have e2 : g'.shapeHot = g.shapeHot := by
    simp only [Geo.shapeHot, g', mul_div_mul_left _ _ hk]
  rw [e1, e2]
  exact ⟨rfl, rfl, rfl, rfl⟩

end Verif.HX

namespace Verif.Thermal

open Real

/-- C59.  Closed form of the hose pressure drop (Darcy and Weisbach with the friction factor of Blasius): it grows with
the 7/4 power of the flow rate and falls with the 19/4 power of the diameter. -/
theorem C59_hose_pressure (D L mdot rho mu : ℝ) (hD : 0 < D) (hm : 0 < mdot) (hr : 0 < rho) (hmu : 0 < mu) :
    hoseDp D L mdot rho mu
      = some (0.1582 * (4 / π) ^ (7 / 4 : ℝ) * mu ^ (1 / 4 : ℝ) * mdot ^ (7 / 4 : ℝ) * L / (rho * D ^ (19 / 4 : ℝ))) := by
  have hpi := Real.pi_pos
  have hre : hoseRe D mdot rho mu = 4 / π * mdot / (D * mu) := by
    unfold hoseRe hoseU; field_simp; ring
  have hu : rho * hoseU D mdot rho ^ 2 = (4 / π * mdot) ^ 2 / (rho * D ^ 4) := by
    unfold hoseU; field_simp; ring
  unfold hoseDp
  have hp : 0 < hoseRe D mdot rho mu := by rw [hre]; positivity
  rw [if_neg (not_le.2 hp)]
  congr 1
  have e1 : hoseRe D mdot rho mu ^ (-1 / 4 : ℝ) = (4 / π * mdot) ^ (-1 / 4 : ℝ) * D ^ (1 / 4 : ℝ) * mu ^ (1 / 4 : ℝ) := by
    rw [hre, Real.div_rpow (by positivity) (by positivity), Real.mul_rpow hD.le hmu.le, mul_assoc, ← Real.mul_rpow hD.le hmu.le,
      div_eq_mul_inv, ← Real.mul_rpow hD.le hmu.le, ← Real.rpow_neg (by positivity)]
    norm_num
  have e2 : (4 / π * mdot) ^ (-1 / 4 : ℝ) * (4 / π * mdot) ^ 2 = (4 / π) ^ (7 / 4 : ℝ) * mdot ^ (7 / 4 : ℝ) := by
    rw [← Real.mul_rpow (by positivity) hm.le, ← Real.rpow_natCast _ 2, ← Real.rpow_add (by positivity)]
    norm_num
  have e3 : D ^ (19 / 4 : ℝ) * D ^ (1 / 4 : ℝ) = D ^ 5 := by
    rw [← Real.rpow_add hD, ← Real.rpow_natCast D 5]; norm_num
  have hd := Real.rpow_pos_of_pos hD (19 / 4)
  have e4 : D ^ (1 / 4 : ℝ) = D ^ 5 / D ^ (19 / 4 : ℝ) := by
    rw [eq_div_iff hd.ne', mul_comm]; exact e3
  calc 0.3164 * hoseRe D mdot rho mu ^ (-1 / 4 : ℝ) * rho * hoseU D mdot rho ^ 2 * L / 2 / D
      = 0.3164 * hoseRe D mdot rho mu ^ (-1 / 4 : ℝ) * (rho * hoseU D mdot rho ^ 2) * L / 2 / D := by ring
    _ = 0.1582 * ((4 / π * mdot) ^ (-1 / 4 : ℝ) * (4 / π * mdot) ^ 2) * mu ^ (1 / 4 : ℝ) * L / rho
        * (D ^ (1 / 4 : ℝ) / D ^ 5) := by rw [e1, hu]; field_simp; ring
    _ = _ := by rw [e2, e4]; field_simp

example : ∃ p, hoseDp 0.02 3 0.5 1000 0.001 = some p := ⟨_, C59_hose_pressure 0.02 3 0.5 1000 0.001 (by norm_num) (by norm_num)
  (by norm_num) (by norm_num)⟩

end Verif.Thermal

namespace Verif.Aero

open Real

/-- C61.  Buildup: the parasite drag coefficient is the fudge factor times the sum over the parts, of which the wing, the
flaps and the gear are included on request. -/
theorem C61_buildup (i : ParasiteIn) :
    cd0 i = i.fudge * ((cdFus i + cdH i + cdV i + cdN i) + (if i.wing = true then cdW i else 0)
      + if i.takeoff = true then flapDrag i.flapChord i.flapArea i.Qflap i.flapDeg i.sweep + 0.02 else 0) := by
  unfold cd0 cdFlap cdGear
  cases i.wing <;> cases i.takeoff <;> simp <;> ring

/-- C61.  Reynolds similarity: air which is thinner by a factor, flown through faster by the same factor at the same
temperature, gives the same drag coefficients. -/
theorem C61_similarity (i : ParasiteIn) (k : ℝ) (hk : k ≠ 0) (hr : i.rho ≠ 0) :
    cd0 {i with U := k * i.U, rho := i.rho / k} = cd0 i := by
  have e : ∀ L lam, cf lam ⟨L, k * i.U, i.rho / k, i.T⟩ = cf lam ⟨L, i.U, i.rho, i.T⟩ := by
    intro L lam
    unfold cf
    congr 1
    unfold reynolds viscKin
    simp only
    by_cases hv : viscDyn i.T = 0
    · simp [hv]
    · field_simp
  simp only [cd0, cdFlap, cdGear, cdFus, cdH, cdV, cdN, cdW, e]

/-- C61.  The nacelle drag depends on the flow only through the Reynolds number of the nacelle length, and is the product of
wetted area ratio, form factor, number of engines and friction coefficient. -/
theorem C61_nacelle (i : ParasiteIn) (h : viscDyn i.T ≠ 0) (hr : i.rho ≠ 0) :
    cdN i * i.wS = if i.wS = 0 then 0 else
      i.nEng * (i.nacWet * (i.FFnac * cfRe i.lamN (i.rho * i.U * i.nacL / viscDyn i.T))) := by
  have e : reynolds ⟨i.nacL, i.U, i.rho, i.T⟩ = i.rho * i.U * i.nacL / viscDyn i.T := by
    unfold reynolds viscKin; simp only; field_simp
  unfold cdN cf
  rw [e]
  split_ifs with h0
  · simp [h0]
  · rw [div_mul_cancel₀ _ h0]; ring

/-- C63.  Drag divergence: the slope of the wave drag coefficient of one wing half at the Mach number of Korn's equation is
0.1, Lock's definition of drag divergence. -/
theorem C63_drag_divergence (n : ℕ) (tech CL sweep : ℝ) (l : List WSec) :
    let Λ := sweep * π / 180
    HasDerivAt (fun M => cdWave M (mCrit n tech CL sweep l) / 2) 0.1
      (tech / cos Λ - avgTc n l / cos Λ ^ 2 - CL / (10 * cos Λ ^ 3)) := by
  intro Λ
  set M0 := tech / cos Λ - avgTc n l / cos Λ ^ 2 - CL / (10 * cos Λ ^ 3) with hM0
  have hc : mCrit n tech CL sweep l = M0 - (0.1 / 80 : ℝ) ^ (1 / 3 : ℝ) := rfl
  have hd : 0 < (0.1 / 80 : ℝ) ^ (1 / 3 : ℝ) := Real.rpow_pos_of_pos (by norm_num) _
  have h3 : ((0.1 / 80 : ℝ) ^ (1 / 3 : ℝ)) ^ 3 = 0.1 / 80 := by
    rw [← Real.rpow_natCast, ← Real.rpow_mul (by norm_num)]; norm_num
  rw [hc]
  generalize (0.1 / 80 : ℝ) ^ (1 / 3 : ℝ) = d at *
  have ev : (fun M => cdWave M (M0 - d) / 2) =ᶠ[nhds M0] fun M => 20 * (M - (M0 - d)) ^ 4 := by
    filter_upwards [lt_mem_nhds (show M0 - d < M0 by linarith)] with M hM
    unfold cdWave
    rw [if_pos hM]; ring
  refine HasDerivAt.congr_of_eventuallyEq ?_ ev
  have h := ((((hasDerivAt_id M0).sub_const (M0 - d)).pow 4).const_mul 20)
  refine h.congr_deriv ?_
  simp only [id_eq]
  have : M0 - (M0 - d) = d := by ring
  rw [this]
  norm_num at h3 ⊢
  linarith

end Verif.Aero

namespace Verif.Propulsion

/-- C37.  With the default options a splitter is ideal: it passes all power on, makes no heat, weighs and costs nothing. -/
theorem C37_default_splitter (r : Rule) (i : SplitIn) :
    (splitCompute r .default i).outA + (splitCompute r .default i).outB = i.powerIn ∧ (splitCompute r .default i).heat = 0 ∧
    (splitCompute r .default i).weight = 0 ∧ (splitCompute r .default i).cost = 0 := by
  refine ⟨?_, ?_, ?_, ?_⟩
  · cases r
    · simp only [splitCompute, splitA, splitB, SplitOpts.default]; ring
    · simp only [splitCompute, splitA, splitB, SplitOpts.default]; split_ifs <;> ring
  all_goals simp [splitCompute, SplitOpts.default]

example : (splitCompute .fixed .default ⟨100, 120, 130⟩).outB = 0 := by norm_num [splitCompute, splitB, SplitOpts.default]

end Verif.Propulsion

namespace Verif.Weights

open VectorComps

/-- C72.  The weight sums are scalar and are accepted by the summation component's `setup`. -/
theorem C72_scalar_sums (s : AddSys ℝ) (h : s ∈ [structTP, totalSingle, totalTwin]) :
    s.length = 1 ∧ s.vecSize.out = 1 ∧ (∀ k, s.vecSize.get k = 1) ∧ ∃ r, s.setup = .ok r := by
  simp only [List.mem_cons, List.not_mem_nil, or_false] at h
  have key : s.length = 1 ∧ s.vecSize = .all 1 ∧ s.scaling = none ∧ (s.output :: s.inputs).Nodup := by
    rcases h with rfl | rfl | rfl <;> exact ⟨rfl, rfl, rfl, by decide⟩
  obtain ⟨k1, k2, k3, k4⟩ := key
  refine ⟨k1, by rw [k2]; rfl, fun k => by rw [k2]; rfl, ?_⟩
  rw [C12_accepts_iff s (by omega)]
  refine ⟨by simp [AddSys.factors, k3], (by rw [k2]; rintro l hl; cases hl), (by rw [k2]; intro hl; cases hl), k4, ?_⟩
  intro i _; left; rw [k2]; rfl

/-- C73.  The same for the jet transport and blended wing body sums. -/
theorem C73_scalar_sums (fudge wingMult total : ℝ) (s : AddSys ℝ)
    (h : s ∈ [structSys structNamesJ fudge wingMult, structSys structNamesBWB fudge wingMult, totalSys total]) :
    s.length = 1 ∧ s.vecSize.out = 1 ∧ (∀ k, s.vecSize.get k = 1) ∧ ∃ r, s.setup = .ok r := by
  simp only [List.mem_cons, List.not_mem_nil, or_false] at h
  have key : s.length = 1 ∧ s.vecSize = .all 1 ∧ s.factors.length = s.inputs.length ∧ (s.output :: s.inputs).Nodup := by
    rcases h with rfl | rfl | rfl <;> exact ⟨rfl, rfl, rfl, by simp only [structSys, totalSys]; decide⟩
  obtain ⟨k1, k2, k3, k4⟩ := key
  refine ⟨k1, by rw [k2]; rfl, fun k => by rw [k2]; rfl, ?_⟩
  rw [C12_accepts_iff s (by omega)]
  refine ⟨k3, (by rw [k2]; rintro l hl; cases hl), (by rw [k2]; intro hl; cases hl), k4, ?_⟩
  intro i _; left; rw [k2]; rfl

/-- C73.  The cabin volume is the given fraction of the cylinder with the fuselage's height and length. -/
theorem C73_cabin_volume (height length frac : ℝ) :
    cabinVolume height length frac = frac * (Real.pi * (height / 2) ^ 2 * length) := by
  unfold cabinVolume; ring

end Verif.Weights

namespace Verif.Weights

open Real

/-- C73.  Power laws of the jet transport structure at the level of the whole aircraft: multiplying an input by `k` multiplies
the component weight by the given power of `k`. -/
theorem C73_scaling (o : OptJ) (a : AircraftJ) (k : ℝ) (hk : 0 < k) (ha : a.Ok) (ho : o.Ok) :
    (AircraftJ.wing o {a with MTOW := k * a.MTOW}).compute = k ^ (0.557 : ℝ) * (a.wing o).compute ∧
    (AircraftJ.wing o {a with S := k * a.S}).compute = k ^ (0.749 : ℝ) * (a.wing o).compute ∧
    (AircraftJ.wing o {a with AR := k * a.AR}).compute = k ^ (0.5 : ℝ) * (a.wing o).compute ∧
    (AircraftJ.wing o {a with toverc := k * a.toverc}).compute = k ^ (-0.4 : ℝ) * (a.wing o).compute ∧
    (AircraftJ.hstab o {a with MTOW := k * a.MTOW}).compute = k ^ (0.639 : ℝ) * (a.hstab o).compute ∧
    (AircraftJ.hstab o {a with armh := k * a.armh}).compute = k ^ (-0.296 : ℝ) * (a.hstab o).compute ∧
    (AircraftJ.vstab o {a with MTOW := k * a.MTOW}).compute = k ^ (0.556 : ℝ) * (a.vstab o).compute ∧
    (AircraftJ.vstab o {a with armv := k * a.armv}).compute = k ^ (0.375 : ℝ) * (a.vstab o).compute ∧
    (AircraftJ.vstab o {a with Sv := k * a.Sv}).compute = k ^ (0.5 : ℝ) * (a.vstab o).compute ∧
    (AircraftJ.vstab o {a with ARv := k * a.ARv}).compute = k ^ (0.35 : ℝ) * (a.vstab o).compute ∧
    (AircraftJ.vstab o {a with tocv := k * a.tocv}).compute = k ^ (-0.5 : ℝ) * (a.vstab o).compute ∧
    (AircraftJ.fus o {a with MTOW := k * a.MTOW}).compute = k ^ (0.5 : ℝ) * (a.fus o).compute ∧
    (AircraftJ.fus o {a with Swet := k * a.Swet}).compute = k ^ (0.302 : ℝ) * (a.fus o).compute ∧
    (AircraftJ.fus o {a with height := k * a.height}).compute = k ^ (-0.1 : ℝ) * (a.fus o).compute ∧
    (AircraftJ.mlg o {a with MLW := k * a.MLW}).compute = k ^ (0.888 : ℝ) * (a.mlg o).compute ∧
    (AircraftJ.mlg o {a with mainLen := k * a.mainLen}).compute = k ^ (0.4 : ℝ) * (a.mlg o).compute ∧
    (AircraftJ.mlg o {a with mainWheels := k * a.mainWheels}).compute = k ^ (0.321 : ℝ) * (a.mlg o).compute ∧
    (AircraftJ.mlg o {a with struts := k * a.struts}).compute = k ^ (-0.5 : ℝ) * (a.mlg o).compute ∧
    (AircraftJ.mlg o {a with Vstall := k * a.Vstall}).compute = k ^ (0.1 : ℝ) * (a.mlg o).compute ∧
    (AircraftJ.nlg o {a with MLW := k * a.MLW}).compute = k ^ (0.646 : ℝ) * (a.nlg o).compute ∧
    (AircraftJ.nlg o {a with noseLen := k * a.noseLen}).compute = k ^ (0.5 : ℝ) * (a.nlg o).compute ∧
    (AircraftJ.nlg o {a with noseWheels := k * a.noseWheels}).compute = k ^ (0.45 : ℝ) * (a.nlg o).compute := by
  obtain ⟨o1, o2, o3, o4, o5, o6, o7, o8, o9, o10, o11, o12, o13, o14, o15, o16⟩ := ho
  obtain ⟨a1, a2, a3, a4, a5, a6, a6', a7, a8, a9, a10, a11, a12, a13, a14, a15, a16, a17, a18, a19, a20, a21, a22, a23,
    a24, a25, a26, a27, a28, a29, a30, a31, a32, a33⟩ := ha
  have mr : ∀ {x : ℝ}, 0 < x → ∀ p : ℝ, (k * x) ^ p = k ^ p * x ^ p := fun hx p => Real.mul_rpow hk.le hx.le
  have kadd : ∀ p q r : ℝ, p + q = r → k ^ p * k ^ q = k ^ r := fun p q r h => by rw [← Real.rpow_add hk, h]
  refine ⟨?_, ?_, ?_, ?_, ?_, ?_, ?_, ?_, ?_, ?_, ?_, ?_, ?_, ?_, ?_, ?_, ?_, ?_, ?_, ?_, ?_, ?_⟩
  · simp only [AircraftJ.wing, WingJ.compute]
    rw [mul_assoc k, mr (by positivity)]; ring
  · simp only [AircraftJ.wing, WingJ.compute]
    rw [mr a4, show o.cs * (k * a.S) = k * (o.cs * a.S) by ring, mr (by positivity), ← kadd 0.649 0.1 0.749 (by norm_num)]; ring
  · simp only [AircraftJ.wing, WingJ.compute]
    rw [mr a5]; ring
  · simp only [AircraftJ.wing, WingJ.compute]
    rw [mr a8]; ring
  · simp only [AircraftJ.hstab, HstabJ.compute]
    rw [mr a1]; ring
  · simp only [AircraftJ.hstab, HstabJ.compute]
    rw [show (0.3 : ℝ) * (k * a.armh) = k * (0.3 * a.armh) by ring, mr (by positivity), mul_inv,
      ← kadd 0.704 (-1) (-0.296) (by norm_num), Real.rpow_neg_one]; ring
  · cases hT : o.Ttail <;>
    simp only [AircraftJ.vstab, VstabJ.compute, VstabJ.HtHv, hT, Bool.false_eq_true, if_true, if_false] <;>
    rw [mr a1] <;> ring
  · cases hT : o.Ttail <;>
    simp only [AircraftJ.vstab, VstabJ.compute, VstabJ.HtHv, hT, Bool.false_eq_true, if_true, if_false] <;>
    rw [mr a16, ← kadd (-0.5 + 0.875) 0 0.375 (by norm_num), Real.rpow_zero] <;> ring
  · cases hT : o.Ttail <;>
    simp only [AircraftJ.vstab, VstabJ.compute, VstabJ.HtHv, hT, Bool.false_eq_true, if_true, if_false] <;>
    rw [mr a13] <;> ring
  · cases hT : o.Ttail <;>
    simp only [AircraftJ.vstab, VstabJ.compute, VstabJ.HtHv, hT, Bool.false_eq_true, if_true, if_false] <;>
    rw [mr a14] <;> ring
  · cases hT : o.Ttail <;>
    simp only [AircraftJ.vstab, VstabJ.compute, VstabJ.HtHv, hT, Bool.false_eq_true, if_true, if_false] <;>
    rw [mr a17] <;> ring
  · simp only [AircraftJ.fus, FusJ.compute]
    rw [mr a1]; ring
  · simp only [AircraftJ.fus, FusJ.compute]
    rw [mr a20]; ring
  · simp only [AircraftJ.fus, FusJ.compute]
    rw [mr a19, ← kadd (-0.10) 0 (-0.1) (by norm_num), Real.rpow_zero]; ring
  · simp only [AircraftJ.mlg, MainGearJ.compute]
    rw [mr a2]; ring
  · simp only [AircraftJ.mlg, MainGearJ.compute]
    rw [mr a21]; ring
  · simp only [AircraftJ.mlg, MainGearJ.compute]
    rw [mr a22]; ring
  · simp only [AircraftJ.mlg, MainGearJ.compute]
    rw [mr a23]; ring
  · simp only [AircraftJ.mlg, MainGearJ.compute]
    rw [mr a26]; ring
  · simp only [AircraftJ.nlg, NoseGearJ.compute]
    rw [mr a2]; ring
  · simp only [AircraftJ.nlg, NoseGearJ.compute]
    rw [mr a24]; ring
  · simp only [AircraftJ.nlg, NoseGearJ.compute]
    rw [mr a25]; ring

/-- C73.  The propulsion weights of both groups in terms of rated thrust and number of engines. -/
theorem C73_propulsion (o : OptJ) (a : AircraftJ) (e : Env) (env : Env) (h : env = a.envJ o e ∨ env = a.envBWB o e) :
    env "W_engines" + env "W_nacelle" + env "W_thrust_rev" = (1 / 5.5 + 0.065 + 0.034) * (a.neng * a.T) ∧
    env "W_engines" = a.neng * (a.T / 5.5) ∧ env "W_thrust_rev" = 0.034 * (a.neng * a.T) ∧
    env "W_eng_control" = 0.26 * a.neng * √a.T ∧
    env "W_eng_start" = 9.33 * a.neng * (a.T / 5500) ^ (1.078 : ℝ) ∧
    env "W_fuelsystem" = 1.07 * a.neng ^ (0.43 : ℝ) * a.Wf ^ (0.58 : ℝ) * a.Mmax ^ (0.34 : ℝ) := by
  have s : √a.T = a.T ^ (0.5 : ℝ) := by rw [Real.sqrt_eq_rpow]; norm_num
  have t : a.T / 5.5 / 1000 = a.T / 5500 := by ring
  rcases h with rfl | rfl <;> refine ⟨?_, ?_, ?_, ?_, ?_, ?_⟩ <;>
  simp only [AircraftJ.envJ, AircraftJ.envBWB, AircraftJ.common, String.reduceEq, if_false, if_true, nacelleJ, engineJ, thrustRev,
      engControl, engStart, fuelSysJ, s, t] <;> ring

/-- C73.  Furnishings and systems of both groups: every seat, crew member, engine and pound of fuel system is counted under
its own coefficient. -/
theorem C73_systems (o : OptJ) (a : AircraftJ) (e : Env) (V : ℝ) (env : Env)
    (h : (env = a.envJ o e ∧ V = o.cabinFrac * (π * (a.height / 2) ^ 2 * a.length)) ∨ (env = a.envBWB o e ∧ V = a.Vpress)) :
    env "W_furnishings" = 55 * a.deck + 15 * a.cabin + (32 * a.pax + o.Klav * a.pax ^ (1.33 : ℝ) + o.Kbuf * a.pax ^ (1.12 : ℝ))
      + 109 * ((1 + a.press) * a.pax / 100) ^ (0.505 : ℝ) + 0.000771 * a.MTOW ∧
    env "W_flight_controls" = o.cfc * a.MTOW ^ (2 / 3 : ℝ) ∧
    env "W_avionics" = o.cav * (15 * a.deck + 5 * a.neng + (0.000032 * a.deck + 0.000006 * a.neng + 0.01215) * a.MTOW) ∧
    env "W_electrical" = 1163 * ((env "W_fuelsystem" + env "W_avionics") / 1000) ^ (0.506 : ℝ) ∧
    env "W_ac_pressurize_antiice" = 469 * (V * (a.deck + a.cabin + a.pax) / 10000) ^ (0.419 : ℝ) ∧
    env "W_oxygen" = 7 * (a.deck + a.cabin + a.pax) ^ (0.702 : ℝ) ∧
    env "W_APU" = o.apu * a.MTOW := by
  have c : cabinVolume a.height a.length o.cabinFrac = o.cabinFrac * (π * (a.height / 2) ^ 2 * a.length) :=
    C73_cabin_volume _ _ _
  have r1 : ∀ x y : ℝ, x * (1 + y) / 100 = (1 + y) * x / 100 := fun x y => by ring
  have r2 : ∀ x : ℝ, 0.001 * x = x / 1000 := fun x => by ring
  have r3 : ∀ x y : ℝ, 0.0001 * x * y = x * y / 10000 := fun x y => by ring
  rcases h with ⟨rfl, rfl⟩ | ⟨rfl, rfl⟩ <;> refine ⟨?_, ?_, ?_, ?_, ?_, ?_, ?_⟩ <;>
  simp only [AircraftJ.envJ, AircraftJ.envBWB, AircraftJ.common, String.reduceEq, if_false, if_true, FurnJ.compute, AircraftJ.furn,
    AircraftJ.equip, EquipJ.fc, EquipJ.av, EquipJ.elec, EquipJ.ac, EquipJ.ox, EquipJ.APU, EquipJ.people, c, r1, r2, r3] <;> ring

end Verif.Weights
