import Mathlib.Analysis.SpecialFunctions.Pow.Real
import Mathlib.Analysis.SpecialFunctions.Exp
import Mathlib.LinearAlgebra.Matrix.NonsingularInverse
import Mathlib.Data.Matrix.Mul
import Mathlib.Analysis.Real.Sqrt

/-! Model of `openconcept/atmospherics`. -/

namespace Verif.Atmos

open Matrix

/-- atmospherics_data.py:12-15 -/
def hTrans : ℝ := 11000
/-- atmospherics_data.py:12-15 -/
def epsilon : ℝ := 500
/-- atmospherics_data.py:14 -/
def hLower : ℝ := hTrans - epsilon
/-- atmospherics_data.py:15 -/
def hUpper : ℝ := hTrans + epsilon

/-- atmospherics_data.py:16-23 -/
def tropoMatrix : Matrix (Fin 4) (Fin 4) ℝ :=
  !![hLower ^ 3, hLower ^ 2, hLower, 1;
     hUpper ^ 3, hUpper ^ 2, hUpper, 1;
     3 * hLower ^ 2, 2 * hLower, 1, 0;
     3 * hUpper ^ 2, 2 * hUpper, 1, 0]

/-- atmospherics_data.py:26 -/
noncomputable def tmp1 : ℝ := 1 - 0.0065 * hLower / 288.16
/-- atmospherics_data.py:27 -/
noncomputable def tmp2 : ℝ := Real.exp (-9.81 * epsilon / (288 * 216.65))

/-- atmospherics_data.py:28-35 -/
noncomputable def pressureRhs : Fin 4 → ℝ :=
  ![101325 * tmp1 ^ (5.2561 : ℝ), 22632 * tmp2,
    -101325 * 5.2561 * (0.0065 / 288.16) * tmp1 ^ (4.2561 : ℝ),
    22632 * (-9.81 / (288 * 216.65)) * tmp2]

/-- atmospherics_data.py:36 (`np.linalg.solve`) -/
noncomputable def pressureCoeffs : Fin 4 → ℝ := tropoMatrix⁻¹ *ᵥ pressureRhs

/-- atmospherics_data.py:39-46 -/
noncomputable def tempRhs : Fin 4 → ℝ := ![288.16 - 6.5e-3 * hLower, 216.65, -6.5e-3, 0]

/-- atmospherics_data.py:47 -/
noncomputable def tempCoeffs : Fin 4 → ℝ := tropoMatrix⁻¹ *ᵥ tempRhs

/-- the three masks of one node -/
structure Masks where
  tropos : Bool
  strato : Bool
  smooth : Bool
  deriving DecidableEq

open Classical in
/-- atmospherics_data.py:51-55 `get_mask_arrays` -/
noncomputable def getMasks (h : ℝ) : Masks :=
  let t := decide (h ≤ hLower)
  let s := decide (h > hUpper)
  ⟨t, s, !t && !s⟩

/-- a mask as a factor -/
def b2r (b : Bool) : ℝ := if b then 1 else 0

/-- atmospherics_data.py:64, 88 -/
def cubic (c : Fin 4 → ℝ) (h : ℝ) : ℝ := c 0 * h ^ 3 + c 1 * h ^ 2 + c 2 * h + c 3
/-- atmospherics_data.py:77, 98 -/
def cubicDeriv (c : Fin 4 → ℝ) (h : ℝ) : ℝ := 3 * c 0 * h ^ 2 + 2 * c 1 * h + c 2

open Classical in
/-- numpy `x ** p` for a non-integer exponent: NaN (`none`) for a negative base -/
noncomputable def npow (x p : ℝ) : Option ℝ := if x < 0 then none else some (x ^ p)

/-- atmospherics_data.py:58-66 `compute_pressures` at one node with given masks.  NaN of the first summand
propagates even when its mask is zero (`0 * nan = nan`). -/
noncomputable def pressureWith (k : Masks) (h : ℝ) : Option ℝ :=
  (npow (1 - 0.0065 * h / 288.16) 5.2561).map fun t =>
    b2r k.tropos * (101325 * t) + b2r k.strato * (22632 * Real.exp (-9.81 * (h - hTrans) / (288 * 216.65)))
      + b2r k.smooth * cubic pressureCoeffs h

/-- atmospherics_data.py:69-79 `compute_pressure_derivs` -/
noncomputable def pressureDerivWith (k : Masks) (h : ℝ) : Option ℝ :=
  (npow (1 - 0.0065 * h / 288.16) 4.2561).map fun t =>
    b2r k.tropos * (101325 * 5.2561 * (-0.0065 / 288.16) * t)
      + b2r k.strato * (22632 * (-9.81 / (288 * 216.65)) * Real.exp (9.81 * 11000 / (288 * 216.65))
          * Real.exp (-9.81 * h / (288 * 216.65)))
      + b2r k.smooth * cubicDeriv pressureCoeffs h

/-- atmospherics_data.py:82-90 `compute_temps` -/
noncomputable def tempWith (k : Masks) (h : ℝ) : ℝ :=
  b2r k.tropos * (288.16 - 6.5e-3 * h) + b2r k.strato * 216.65 + b2r k.smooth * cubic tempCoeffs h

/-- atmospherics_data.py:93-100 `compute_temp_derivs` -/
noncomputable def tempDerivWith (k : Masks) (h : ℝ) : ℝ :=
  b2r k.tropos * (-6.5e-3) + b2r k.smooth * cubicDeriv tempCoeffs h

/-- pressure_comp.py:44-49 `PressureComp.compute`, output -/
noncomputable def pressure (h : ℝ) : Option ℝ := pressureWith (getMasks h) h
/-- temperature_comp.py:48-54 `TemperatureComp.compute`, output -/
noncomputable def temperature (h inc : ℝ) : ℝ := tempWith (getMasks h) h + inc

/-! The components as objects: `compute` stores the masks, `compute_partials` reads them. -/

/-- the stored masks; `none` before the first `compute` -/
abbrev CompState (n : ℕ) := Option (Fin n → Masks)

/-- calls made on a component with `n` nodes, with the altitudes given -/
inductive Call (n : ℕ)
  | compute (h : Fin n → ℝ)
  | partials (h : Fin n → ℝ)

/-- temperature_comp.py:48-61 / pressure_comp.py:44-56: effect of a call on the stored masks -/
noncomputable def step {n : ℕ} (s : CompState n) : Call n → CompState n
  | .compute h => some fun i => getMasks (h i)
  | .partials _ => s

/-- temperature_comp.py:56-61: what `compute_partials` returns in a state; `none` stands for the
AttributeError raised when no masks are stored -/
noncomputable def tempPartials {n : ℕ} (s : CompState n) (h : Fin n → ℝ) : Option (Fin n → ℝ) :=
  s.map fun k i => tempDerivWith (k i) (h i)

/-- pressure_comp.py:51-56 -/
noncomputable def pressurePartials {n : ℕ} (s : CompState n) (h : Fin n → ℝ) : Option (Fin n → Option ℝ) :=
  s.map fun k i => pressureDerivWith (k i) (h i)

/-- the state after a sequence of calls -/
noncomputable def run {n : ℕ} (cs : List (Call n)) : CompState n := cs.foldl step none

/-! ### density, speeds -/

/-- density_comp.py: gas constant -/
noncomputable def R : ℝ := 287.058

/-- density_comp.py:48-52 -/
noncomputable def density (p T : ℝ) : ℝ := p / R / T
/-- density_comp.py:58 -/
noncomputable def densityDp (_p T : ℝ) : ℝ := 1 / R / T
/-- density_comp.py:61 -/
noncomputable def densityDT (p T : ℝ) : ℝ := -p / R / T ^ 2

/-- dynamic_pressure_comp.py:43 -/
noncomputable def dynPressure (rho u : ℝ) : ℝ := 0.5 * rho * u ^ 2
/-- dynamic_pressure_comp.py:46 -/
noncomputable def dynPressureDrho (_rho u : ℝ) : ℝ := 0.5 * u ^ 2
/-- dynamic_pressure_comp.py:47 -/
def dynPressureDu (rho u : ℝ) : ℝ := rho * u

/-- mach_number_comp.py:43 -/
noncomputable def mach (u a : ℝ) : ℝ := u / a
/-- mach_number_comp.py:47 -/
noncomputable def machDu (_u a : ℝ) : ℝ := 1 / a
/-- mach_number_comp.py:48 -/
noncomputable def machDa (u a : ℝ) : ℝ := -u / a ^ 2

/-- speedofsound_comp.py: heat capacity ratio -/
noncomputable def gamma : ℝ := 1.4
/-- speedofsound_comp.py:49 -/
noncomputable def soundSpeed (T : ℝ) : ℝ := Real.sqrt (gamma * R * T)
/-- speedofsound_comp.py:54 -/
noncomputable def soundSpeedDT (T : ℝ) : ℝ := 0.5 * Real.sqrt (gamma * R / T)

/-- true_airspeed.py:43-44 -/
noncomputable def trueAirspeed (rho ueas : ℝ) : ℝ := ueas * Real.sqrt (1.225 / rho)
/-- true_airspeed.py:48 -/
noncomputable def trueAirspeedDe (rho _ueas : ℝ) : ℝ := Real.sqrt (1.225 / rho)
/-- true_airspeed.py:49-51 -/
noncomputable def trueAirspeedDrho (rho ueas : ℝ) : ℝ :=
  ueas * Real.sqrt 1.225 * (-1 / 2) * rho ^ (-3 / 2 : ℝ)

/-- true_airspeed.py:91-92 -/
noncomputable def equivAirspeed (rho utrue : ℝ) : ℝ := utrue * Real.sqrt (rho / 1.225)
/-- true_airspeed.py:96 -/
noncomputable def equivAirspeedDu (rho _utrue : ℝ) : ℝ := Real.sqrt (rho / 1.225)
/-- true_airspeed.py:97-99 -/
noncomputable def equivAirspeedDrho (rho utrue : ℝ) : ℝ :=
  (1 / 2) * utrue * (rho / 1.225) ^ (-1 / 2 : ℝ) / 1.225

/-! ### compute_atmos_props.py -/

/-- outputs `fltcond|*` of `ComputeAtmosphericProperties` at a node (SI units), together with the airspeed inputs -/
structure FltCond where
  p : ℝ
  T : ℝ
  rho : ℝ
  a : ℝ
  ueas : ℝ
  utrue : ℝ
  q : ℝ
  mach : ℝ

/-- compute_atmos_props.py:53-86 with `true_airspeed_in=False`: temperature, pressure, density, speed of sound, true airspeed,
dynamic pressure, Mach number; `none` if the pressure is NaN -/
noncomputable def atmosEas (h inc ueas : ℝ) : Option FltCond :=
  (pressure h).map fun p =>
    let T := temperature h inc
    let rho := density p T
    let a := soundSpeed T
    let u := trueAirspeed rho ueas
    ⟨p, T, rho, a, ueas, u, dynPressure rho u, mach u a⟩

/-- compute_atmos_props.py:53-86 with `true_airspeed_in=True`: the equivalent airspeed is an output -/
noncomputable def atmosTas (h inc utrue : ℝ) : Option FltCond :=
  (pressure h).map fun p =>
    let T := temperature h inc
    let rho := density p T
    let a := soundSpeed T
    ⟨p, T, rho, a, equivAirspeed rho utrue, utrue, dynPressure rho utrue, mach utrue a⟩

end Verif.Atmos
