import Mathlib.Data.Real.Basic

/-! Model of `openconcept/utilities/constants.py`. -/

namespace Verif

/-- constants.py `GRAV_CONST` (m/s²) -/
noncomputable def grav : ℝ := 9.80665

/-- constants.py `UNIVERSAL_GAS_CONST` (J/(mol K)) -/
noncomputable def univGas : ℝ := 8.3145

/-- constants.py `MOLEC_WEIGHT_H2` (kg/mol) -/
noncomputable def molecH2 : ℝ := 2.01588e-3

/-- constants.py `STEFAN_BOLTZMANN_CONST` (W/(m² K⁴)) -/
noncomputable def stefanBoltzmann : ℝ := 5.670374419e-8

end Verif
