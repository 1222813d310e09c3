import Mathlib.Analysis.SpecialFunctions.Log.Basic
import Mathlib.Algebra.BigOperators.Group.Finset.Basic
import Mathlib.Data.Real.Basic
import Verif.Model.VectorComps
import Verif.Model.Aero

/-!
Model of `openconcept/aerodynamics/openaerostruct/CL_max_critical_section.py` and of
`openconcept/aerodynamics/drag_BWB.py`.

The vortex lattice solution (`VLM`) is a parameter: the sectional lift coefficients and the wing lift coefficient as
functions of the angle of attack.  `KSComp` and `BalanceComp` are OpenMDAO components; their formulas are part of the
trusted base.  A converged solver is the hypothesis that the residual is zero.
-/

namespace Verif.Aero

open Real Verif.VectorComps

/-- CL_max_critical_section.py:105-113: the component `Cl_max_limit`; `m` is `Cl_max_shape` (line 86) -/
noncomputable def clLimitSys (n m : ℕ) : AddSys ℝ :=
  ⟨"Cl_limit_vec", ["Cl", "Cl_max"], .each [n, m], 1, some [1, -1], ⟨none, none⟩⟩

/-- CL_max_critical_section.py:86: `Cl_max_shape` -/
def clMaxShape (vec : Bool) (n : ℕ) : ℕ := if vec then n else 1

/-- CL_max_critical_section.py:105-116: entry `i` of `Cl_limit_vec` -/
noncomputable def clLimit (n : ℕ) (vec : Bool) (Cl ClMax : ℕ → ℝ) (i : ℕ) : ℝ :=
  (clLimitSys n (clMaxShape vec n)).compute (fun s r _ => if s = "Cl" then Cl r else ClMax r) i 0

/-- largest of the first `n + 1` entries -/
noncomputable def maxUpTo (g : ℕ → ℝ) : ℕ → ℝ
  | 0 => g 0
  | n + 1 => max (maxUpTo g n) (g (n + 1))

/-- OpenMDAO `KSComp` with default options (`upper = 0`): `g_max + log(sum(exp(rho * (g - g_max)))) / rho`;
CL_max_critical_section.py:118.  `n` entries, `n ≥ 1`. -/
noncomputable def ks (rho : ℝ) (n : ℕ) (g : ℕ → ℝ) : ℝ :=
  maxUpTo g (n - 1) + 1 / rho * log (∑ i ∈ Finset.range n, exp (rho * (g i - maxUpTo g (n - 1))))

/-- CL_max_critical_section.py:118-129: residual of the balance for the angle of attack `a`: the aggregated limit minus
the right hand side 0.  `Cl` are the sectional lift coefficients of the vortex lattice solution. -/
noncomputable def critResidual (rho : ℝ) (n : ℕ) (vec : Bool) (Cl : ℝ → ℕ → ℝ) (ClMax : ℕ → ℝ) (a : ℝ) : ℝ :=
  ks rho n (clLimit n vec (Cl a) ClMax) - 0

/-! ### drag_BWB.py -/

/-- drag_BWB.py:88-95: inputs and options of `ParasiteDragCoefficient_BWB` -/
structure BWBIn where
  takeoff : Bool
  fudge : ℝ
  FFnac : ℝ
  flapChord : ℝ
  Qflap : ℝ
  flapArea : ℝ
  lamN : ℝ
  U : ℝ
  rho : ℝ
  T : ℝ
  S : ℝ
  sweep : ℝ
  nacL : ℝ
  nacWet : ℝ
  nEng : ℝ
  flapDeg : ℝ

/-- drag_BWB.py:123-144: the product `drag_coeffs` (one node) -/
noncomputable def bwbNacSys : MulSys ℝ :=
  ⟨"CD_nacelle", ["ac|geom|nacelle|S_wet", "FF_nacelle", "Cf_nacelle", "ac|propulsion|num_engines", "ac|geom|wing|S_ref"],
    .each [1, 1, 1, 1, 1], 1, 1, some [false, false, false, false, true], some [some "m**2", none, none, none, some "m**2"]⟩

/-- drag_BWB.py:112-116 and 147-148: the variables read by `drag_coeffs` -/
noncomputable def bwbNacEnv (i : BWBIn) (v : String) : ℝ :=
  if v = "ac|geom|nacelle|S_wet" then i.nacWet
  else if v = "FF_nacelle" then i.FFnac
  else if v = "Cf_nacelle" then cf i.lamN ⟨i.nacL, i.U, i.rho, i.T⟩
  else if v = "ac|propulsion|num_engines" then i.nEng
  else i.S

/-- drag_BWB.py:123-148: CD_nacelle -/
noncomputable def bwbNacelle (i : BWBIn) : ℝ := bwbNacSys.compute (fun v _ _ => bwbNacEnv i v) 0 0

/-- drag_BWB.py:154-167: CD_flap source -/
noncomputable def bwbFlap (i : BWBIn) : ℝ :=
  if i.takeoff then flapDrag i.flapChord i.flapArea i.Qflap i.flapDeg i.sweep else 0

/-- drag_BWB.py:174: CD_landing_gear -/
noncomputable def bwbGear (i : BWBIn) : ℝ := if i.takeoff then 0.01 else 0

/-- drag_BWB.py:179-188: the sum -/
noncomputable def bwbSum (fudge : ℝ) : AddSys ℝ :=
  ⟨"CD0", ["CD_nacelle", "CD_flap", "CD_landing_gear"], .each [1, 1, 1], 1, some (List.replicate 3 fudge), ⟨none, none⟩⟩

/-- drag_BWB.py:179-192: CD0 -/
noncomputable def bwbCD0 (i : BWBIn) : ℝ :=
  (bwbSum i.fudge).compute (fun v _ _ => if v = "CD_nacelle" then bwbNacelle i else if v = "CD_flap" then bwbFlap i
    else bwbGear i) 0 0

end Verif.Aero
