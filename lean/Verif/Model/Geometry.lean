import Mathlib.Analysis.SpecialFunctions.Pow.Real
import Mathlib.Analysis.SpecialFunctions.Sqrt
import Mathlib.Analysis.SpecialFunctions.Trigonometric.Inverse
import Mathlib.Analysis.SpecialFunctions.Trigonometric.Arctan
import Mathlib.Algebra.BigOperators.Fin

/-! Model of openconcept/geometry, openconcept/stability and openconcept/costs.

Partials declared with `method="cs"` are trusted.  Units, default values and bounds are not modelled. -/

namespace Verif.Geometry

open Real

/-- wetted_area.py:31 `CylinderSurfaceArea.compute` -/
noncomputable def cylinder (L D : ℝ) : ℝ := π * D * L
/-- wetted_area.py:34-35: partials with respect to L, D -/
noncomputable def cylinderD (L D : ℝ) : ℝ × ℝ := (π * D, π * L)

/-- wing_planform.py:36 -/
noncomputable def cRoot (S AR taper : ℝ) : ℝ := √(S / AR) * 2 / (1 + taper)
/-- wing_planform.py:37 -/
noncomputable def cTip (S AR taper : ℝ) : ℝ := taper * cRoot S AR taper
/-- wing_planform.py:38 `WingMACTrapezoidal.compute` -/
noncomputable def macTrap (S AR taper : ℝ) : ℝ :=
  2 / 3 * (cRoot S AR taper + cTip S AR taper
    - cRoot S AR taper * cTip S AR taper / (cRoot S AR taper + cTip S AR taper))
/-- wing_planform.py:52 -/
noncomputable def dMACdcr (S AR taper : ℝ) : ℝ :=
  2 / 3 * (1 - cTip S AR taper ^ 2 / (cRoot S AR taper + cTip S AR taper) ^ 2)
/-- wing_planform.py:53 -/
noncomputable def dMACdct (S AR taper : ℝ) : ℝ :=
  2 / 3 * (1 - cRoot S AR taper ^ 2 / (cRoot S AR taper + cTip S AR taper) ^ 2)
/-- wing_planform.py:46, 55 -/
noncomputable def macTrapDS (S AR taper : ℝ) : ℝ :=
  (dMACdcr S AR taper + dMACdct S AR taper * taper) * (0.5 / √(S * AR) * 2 / (1 + taper))
/-- wing_planform.py:47, 56 -/
noncomputable def macTrapDAR (S AR taper : ℝ) : ℝ :=
  (dMACdcr S AR taper + dMACdct S AR taper * taper) * (-0.5 * S ^ (0.5 : ℝ) / AR ^ (1.5 : ℝ) * 2 / (1 + taper))
/-- wing_planform.py:48, 57 -/
noncomputable def macTrapDtaper (S AR taper : ℝ) : ℝ :=
  (dMACdcr S AR taper + dMACdct S AR taper * taper) * (-√(S / AR) * 2 / (1 + taper) ^ 2)
    + dMACdct S AR taper * cRoot S AR taper

/-- wing_planform.py:85 `WingSpan.compute` -/
noncomputable def span (S AR : ℝ) : ℝ := S ^ (0.5 : ℝ) * AR ^ (0.5 : ℝ)
/-- wing_planform.py:89-90: partials with respect to S_ref, AR -/
noncomputable def spanD (S AR : ℝ) : ℝ × ℝ :=
  (0.5 * S ^ (0.5 - 1 : ℝ) * AR ^ (0.5 : ℝ), S ^ (0.5 : ℝ) * 0.5 * AR ^ (0.5 - 1 : ℝ))

/-- wing_planform.py:117 `WingAspectRatio.compute` -/
noncomputable def aspect (S b : ℝ) : ℝ := b ^ 2 / S
/-- wing_planform.py:120-121: partials with respect to span, S_ref -/
noncomputable def aspectD (S b : ℝ) : ℝ × ℝ := (2 * b / S, -(b ^ 2) / S ^ 2)

/-- one wing section: leading edge offset, chord and spanwise location, from tip to root -/
structure Sec where
  x : ℝ
  c : ℝ
  y : ℝ

/-- wing_planform.py:174-180, 194-196: the slice `[i_start : i_end]` with an inclusive optional end index -/
def secSlice (start : ℕ) (stop : Option ℕ) (l : List Sec) : List Sec :=
  (l.take (stop.elim l.length (· + 1))).drop start

/-- numpy's sum over consecutive pairs `v[:-1]`, `v[1:]` -/
def pairSum (f : Sec → Sec → ℝ) : List Sec → ℝ
  | a :: b :: l => f a b + pairSum f (b :: l)
  | _ => 0

/-- wing_planform.py:208, 371: half wing panel area -/
noncomputable def panelArea (a b : Sec) : ℝ := 0.5 * (a.c + b.c) * (b.y - a.y)

/-- wing_planform.py:199-203: quarter chord sweep of a panel in degrees -/
noncomputable def panelSweep (a b : Sec) : ℝ :=
  arctan (((a.x + a.c * 0.25) - (b.x + b.c * 0.25)) / (b.y - a.y)) / (π / 180)
/-- wing_planform.py:192-209 `WingSweepFromSections.compute` on the selected sections -/
noncomputable def sweepSections (l : List Sec) : ℝ :=
  arccos (pairSum (fun a b => cos (panelSweep a b * (π / 180)) * panelArea a b) l / pairSum panelArea l) / (π / 180)

/-- wing_planform.py:279-289 `WingAreaFromSections.compute` on the selected sections -/
noncomputable def areaSections (fs fe : ℝ) (l : List Sec) : ℝ :=
  2 * pairSum (fun a b => 0.5 * (a.c + b.c) * (fe - fs) * (b.y - a.y)) l

/-- wing_planform.py:391 `WingMACFromSections.compute`, MAC -/
noncomputable def macSections (l : List Sec) : ℝ :=
  pairSum (fun a b => (b.y - a.y) * (a.c ^ 2 + a.c * b.c + b.c ^ 2) / (3 * pairSum panelArea l)) l
/-- wing_planform.py:392-394, quarter chord location of the MAC -/
noncomputable def xc4Sections (l : List Sec) : ℝ :=
  pairSum (fun a b => (b.y - a.y)
    * (a.c * b.c + 4 * a.c * a.x + 2 * a.c * b.x + 2 * b.c * a.x + 4 * b.c * b.x + a.c ^ 2 + b.c ^ 2)
    / (12 * pairSum panelArea l)) l

/-- tail_volume_coefficient_sizing.py:50-54 `HStabVolumeCoefficientSizing.compute` -/
noncomputable def hstab (C S MAC arm : ℝ) : ℝ := C * MAC * S / arm
/-- tail_volume_coefficient_sizing.py:58-66: partials with respect to S, MAC, arm -/
noncomputable def hstabD (C S MAC arm : ℝ) : ℝ × ℝ × ℝ := (C * MAC / arm, C * S / arm, -C * MAC * S / arm ^ 2)

/-- tail_volume_coefficient_sizing.py:114-121 `VStabVolumeCoefficientSizing.compute` -/
noncomputable def vstab (C S AR arm : ℝ) : ℝ := C * √AR * S ^ (1.5 : ℝ) / arm
/-- tail_volume_coefficient_sizing.py:125-138: partials with respect to S, AR, arm -/
noncomputable def vstabD (C S AR arm : ℝ) : ℝ × ℝ × ℝ :=
  (1.5 * (C * √(AR * S)) / arm, 0.5 * (C * AR ^ (-0.5 : ℝ) * S ^ (1.5 : ℝ) / arm), -C * √AR * S ^ (1.5 : ℝ) / arm ^ 2)

/-! ### costs -/

/-- options of `TurbopropOperatingCost`, costs_commuter.py:10-41 (numeric ones) -/
structure CostOpts where
  afCost : ℝ
  fuelCost : ℝ
  elecCost : ℝ
  life : ℝ
  cycles : ℝ
  battCycles : ℝ
  premium : ℝ

/-- inputs with `n` components and `m` batteries, costs_commuter.py:54-99; `batt = none` when `n_batteries` is None -/
structure CostIn (n m : ℕ) where
  oew : ℝ
  fuel : ℝ
  w : Fin n → ℝ
  nr : Fin n → ℝ
  battNR : Fin m → ℝ
  battE : Fin m → ℝ

variable {n m : ℕ}

/-- costs_commuter.py:126-131, 133: airframe_NR_cost; the loop subtracts every component weight -/
noncomputable def airframeNR (o : CostOpts) (i : CostIn n m) : ℝ := (i.oew - ∑ k, i.w k) * o.afCost * o.premium
/-- costs_commuter.py:132, 134: total_NR_cost -/
noncomputable def totalNR (o : CostOpts) (i : CostIn n m) : ℝ := airframeNR o i + (∑ k, i.nr k) * o.premium
/-- costs_commuter.py:136 -/
noncomputable def nrTrip (o : CostOpts) (i : CostIn n m) : ℝ := totalNR o i / o.cycles / 365 / o.life
/-- costs_commuter.py:138: fuel_cost -/
noncomputable def fuelCost (o : CostOpts) (i : CostIn n m) : ℝ := i.fuel * o.fuelCost
/-- costs_commuter.py:143-145: electricity_cost -/
noncomputable def electricity (o : CostOpts) (i : CostIn n m) : ℝ := (∑ k, i.battE k) * o.elecCost
/-- costs_commuter.py:144, 147: trip_battery_cost -/
noncomputable def tripBattery (o : CostOpts) (i : CostIn n m) : ℝ := (∑ k, i.battNR k) / o.battCycles
/-- costs_commuter.py:148, 153: trip_energy_cost; `hasBatt` is `n_batteries is not None` -/
noncomputable def tripEnergy (hasBatt : Bool) (o : CostOpts) (i : CostIn n m) : ℝ :=
  if hasBatt then electricity o i + fuelCost o i else fuelCost o i
/-- costs_commuter.py:149-151, 154: trip_direct_operating_cost -/
noncomputable def tripCost (hasBatt : Bool) (o : CostOpts) (i : CostIn n m) : ℝ :=
  if hasBatt then tripEnergy hasBatt o i + nrTrip o i + tripBattery o i else tripEnergy hasBatt o i + nrTrip o i

/-- costs_commuter.py:56-66, 102: partial of airframe and total NR cost with respect to a component weight (negated: OEW) -/
noncomputable def dNRdW (o : CostOpts) : ℝ := -o.afCost * o.premium
/-- costs_commuter.py:61-66 -/
noncomputable def dTripdW (o : CostOpts) : ℝ := -o.afCost * o.premium / o.cycles / 365 / o.life
/-- costs_commuter.py:67 -/
noncomputable def dNRdNR (o : CostOpts) : ℝ := o.premium
/-- costs_commuter.py:68-72 -/
noncomputable def dTripdNR (o : CostOpts) : ℝ := o.premium / o.cycles / 365 / o.life
/-- costs_commuter.py:87-91 -/
noncomputable def dBattdNR (o : CostOpts) : ℝ := 1 / o.battCycles
/-- costs_commuter.py:102 -/
noncomputable def dNRdOEW (o : CostOpts) : ℝ := o.afCost * o.premium
/-- costs_commuter.py:103-107 -/
noncomputable def dTripdOEW (o : CostOpts) : ℝ := o.afCost * o.premium / o.cycles / 365 / o.life

end Verif.Geometry
