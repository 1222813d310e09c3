import Verif.Props.Formulas
import Verif.Props.Chiller
import Verif.Props.Weights
import Verif.Props.Decks

/-! More theorems on the formulas themselves (cf. Formulas.lean), added after testing against wrong programs. -/

namespace Verif.HX

open Real

/-- C55.  Fin area ratio times heat transfer area is the area of the fins, two per channel, on both sides. -/
theorem C55_fin_area (g : Geo) (hc : g.hc + g.wc ≠ 0) (hh : g.hh + g.wh ≠ 0) :
    g.finRatioCold * g.areaCold = 2 * (g.hc * g.lc) * (g.nLong * g.nWide * g.nTall) ∧
    g.finRatioHot * g.areaHot = 2 * (g.hh * g.lh) * (g.nLongHot * g.nWideHot * g.nTall) := by
  have h1 : g.finRatioCold * (g.hc + g.wc) = g.hc := div_mul_cancel₀ _ hc
  have h2 : g.finRatioHot * (g.hh + g.wh) = g.hh := div_mul_cancel₀ _ hh
  constructor
  · rw [← congrArg (fun x => 2 * (x * g.lc) * (g.nLong * g.nWide * g.nTall)) h1]
    unfold Geo.areaCold; ring
  · rw [← congrArg (fun x => 2 * (x * g.lh) * (g.nLongHot * g.nWideHot * g.nTall)) h2]
    unfold Geo.areaHot; ring

/-- C55.  Both sides use the same correlation: with the channels exchanged the shape parameters of the hot side are those of the
cold side, and they are the ratios of Manglik and Bergles: spacing to height, thickness to length, thickness to spacing. -/
theorem C55_shape (g : Geo) (h1 : g.hc ≠ 0) (h2 : g.lc ≠ 0) (h3 : g.wc ≠ 0) :
    let s : Geo := { g with hc := g.hh, wc := g.wh, lc := g.lh, hh := g.hc, wh := g.wc, lh := g.lc }
    s.shapeHot = g.shapeCold ∧ s.finRatioHot = g.finRatioCold ∧ g.shapeCold.1 * g.hc = g.wc ∧ g.shapeCold.2.1 * g.lc = g.tf ∧
      g.shapeCold.2.2 * g.wc = g.tf :=
  ⟨rfl, rfl, div_mul_cancel₀ _ h1, div_mul_cancel₀ _ h2, div_mul_cancel₀ _ h3⟩

/-- C55.  Metal and channels fill the core exactly: the volume of the box is that of the plates and fins, which are weighed, and
that of the cold and hot channels, whose cross sections the flow sees. -/
theorem C55_packing (g : Geo) (hw : g.wh + g.tf ≠ 0) (hl : g.lh ≠ 0) :
    g.length * g.width * g.height
      = g.plateVolume + g.finVolume + g.xsCold * g.length + g.xsHot * g.width := by
  have h1 : g.nWideHot * (g.wh + g.tf) = g.length := div_mul_cancel₀ _ hw
  have h2 : g.nLongHot * g.lh = g.width := div_mul_cancel₀ _ hl
  have hot : (g.wh + g.hh + g.tf) * g.lh * g.nLongHot * g.tf * g.nWideHot * g.nTall + g.xsHot * g.width
      = g.length * g.width * (g.hh + g.tf) * g.nTall := by
    rw [Geo.xsHot, ← h1, ← h2]; ring
  have cold : (g.wc + g.hc + g.tf) * g.lc * g.nLong * g.tf * g.nWide * g.nTall + g.xsCold * g.length
      = g.length * g.width * (g.hc + g.tf) * g.nTall := by
    unfold Geo.xsCold Geo.length Geo.width; ring
  unfold Geo.finVolume Geo.plateVolume Geo.height
  linear_combination (-1 : ℝ) * hot - cold

example : (⟨1, 2, 3, 4, 5, 6, 0.1, 1, 1, 10, 10, 10, 2700⟩ : Geo).xsHot * 11 = 4 * 5 * (30 / 4.1) * 10 * 11 := by
  norm_num [Geo.xsHot, Geo.nWideHot, Geo.length]

example : (⟨1, 2, 3, 4, 5, 6, 0.1, 1, 1, 10, 10, 10, 2700⟩ : Geo).finRatioCold = 2 / 3 := by norm_num [Geo.finRatioCold]

end Verif.HX

namespace Verif.Thermal

open Real

/-- C80.  The heat limit is Faghri's flooding limit: with the vapor core a circle of diameter `d` and the pipe inclined by `theta`
degrees from the vertical, `A h_fg (rhoL / rhoV)^0.14 tanh²(Bo^1/4) (g cos theta sigma (rhoL - rhoV))^1/4` over the square of
`rhoL^-1/4 + rhoV^-1/4`, `Bo^1/4` being the fourth root of the diameter in capillary lengths. -/
theorem C80_flooding_limit (latent theta sBase sIncr d temp rhoL rhoV A sigma : ℝ) (hA : A = π * (d / 2) ^ 2)
    (hs : sigma = sBase + sIncr * temp) :
    qMax latent theta sBase sIncr d temp rhoL rhoV =
      A * latent * (rhoL / rhoV) ^ (0.14 : ℝ) * tanh ((d * √(9.80665 * (rhoL - rhoV) / sigma)) ^ (1 / 4 : ℝ)) ^ 2
        * (9.80665 * cos (theta / 180 * π) * sigma * (rhoL - rhoV)) ^ (1 / 4 : ℝ)
        / (rhoL ^ (-(1 / 4) : ℝ) + rhoV ^ (-(1 / 4) : ℝ)) ^ 2 := by
  subst hA hs
  unfold qMax
  dsimp only
  rw [sin_pi_div_two_sub, show (-0.25 : ℝ) = -(1 / 4) by norm_num, show (0.25 : ℝ) = 1 / 4 by norm_num,
    show Verif.grav / (sBase + sIncr * temp) * (rhoL - rhoV) = 9.80665 * (rhoL - rhoV) / (sBase + sIncr * temp) by
      unfold Verif.grav; ring, show theta * π / 180 = theta / 180 * π by ring, show Verif.grav = 9.80665 from rfl]
  ring

end Verif.Thermal

namespace Verif.Propulsion

/-- C44.  The decks are reproduced at their ratings: 28620 lbf (N+3) and 27300 lbf (CFM56). -/
theorem C44_ratings (hy : Bool) (T F : ℝ) : (turbofan .N3 hy T F 28620).thrust = T ∧ (turbofan .CFM56 hy T F 27300).thrust = T ∧
    (turbofan .N3 false T F 28620).fuel = F ∧ (turbofan .CFM56 false T F 27300).fuel = F :=
  ⟨(C44_identity .N3 hy T F 0).1, (C44_identity .CFM56 hy T F 0).1, (C44_identity .N3 hy T F 0).2.1,
    (C44_identity .CFM56 hy T F 0).2.1⟩

/-- C42.  Motor and generator of the series hybrids weigh a kilogram per 5 kW and cost 100 dollars per 745 W and one dollar. -/
theorem C42_machines (t P : ℝ) : (motor hybridMotor t P).weight * 5000 = P ∧ (motor hybridMotor t P).cost = 100 * (P / 745) + 1 ∧
    (generator hybridGen t P).weight * 5000 = P ∧ (generator hybridGen t P).cost = 100 * (P / 745) + 1 := by
  simp only [motor, generator, hybridMotor, hybridGen]
  refine ⟨?_, ?_, ?_, ?_⟩ <;> ring

end Verif.Propulsion

namespace Verif.Weights

open Real

/-- C72.  110 lb of avionics weigh 169.957 lb installed: `(W / 2.117)^1000 = 110^933`. -/
theorem C72_avionics : (avionics / 2.117) ^ 1000 = 110 ^ 933 := by
  unfold avionics
  rw [mul_div_assoc, mul_comm, div_mul_cancel₀ _ (by norm_num), ← Real.rpow_natCast, ← Real.rpow_mul (by norm_num),
    ← Real.rpow_natCast]
  congr 1
  norm_num

/-- C72.  The fuel system is estimated from the volume in gallons, at 6.55 lb each. -/
theorem C72_fuel_volume (gal : ℝ) : fuelSystem KfspTP (6.55 * gal) = 2.49 * gal ^ (0.726 : ℝ) * (1 / 2) ^ (0.363 : ℝ) := by
  unfold fuelSystem KfspTP
  rw [show (6.55 * gal * 1.0 / 6.55 : ℝ) = gal by
    rw [show (1.0 : ℝ) = 1 by norm_num, mul_one, mul_comm, mul_div_assoc, div_self (by norm_num), mul_one], show (0.5 : ℝ) = 1 / 2 by norm_num]

/-- C73.  A T-tail raises the weight of the vertical tail by the factor `2^0.225`, about 17 %. -/
theorem C73_ttail (i : VstabJ) : { i with Ttail := true }.compute = 2 ^ (0.225 : ℝ) * { i with Ttail := false }.compute := by
  simp only [VstabJ.compute, VstabJ.HtHv]
  norm_num
  ring

end Verif.Weights

namespace Verif.Propulsion

/-- C87.  With the constant map, a propeller in forward flight turns 85 % of its shaft power into thrust power, whatever the map of
the static thrust. -/
theorem C87_constant_propeller (ct : ℝ → ℝ) (i : CoefIn) (hr : 0 < i.rho) (hn : 0 < i.rpm) (hD : 0 < i.diameter)
    (hJ : 0.2 ≤ advanceRatio i) : 100 * (propeller ⟨Decks.constEta, ct⟩ i * i.utrue) = 85 * i.power := by
  rw [C40_efficiency _ i hr hn hD hJ]; simp only [Decks.constEta]; ring

example (ct : ℝ → ℝ) : propeller ⟨Decks.constEta, ct⟩ ⟨600000, 2, 1800, 1, 85⟩ = 6000 := by
  have := C87_constant_propeller ct ⟨600000, 2, 1800, 1, 85⟩ (by norm_num) (by norm_num) (by norm_num) (by norm_num [advanceRatio])
  norm_num at this; linarith

end Verif.Propulsion
