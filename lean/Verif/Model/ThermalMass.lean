import Verif.Model.Thermal
import Verif.Model.Integrals

/-!
The groups of `openconcept/thermal` that give a component a thermal mass: `LiquidCooledComp`, `LiquidCooledMotor`,
`LiquidCooledBattery` (the fourth one, `CoolantReservoir`, is `reservoirSolution` in `Model/Thermal.lean`).  In thermal mass mode
the temperature history solves the Simpson integration of a rate that depends on it; in quasi-steady mode the temperature
makes the rate (or the heat imbalance) zero.  A converged group is a zero residual; the lower bounds of the states
(`lower=1e-10`, `lower=1.0`), used by line searches only, are not modelled.
-/

namespace Verif.Thermal

open Verif.Integrals

variable {m : ℕ}

/-- thermal.py:320-353 `LiquidCooledComp` with thermal mass; `cpObj` is the option `specific_heat_object` -/
def compSolution (M : Matrix (Fin (m + 1)) (Fin (m + 1)) ℝ) (cpObj : ℝ) (p : Plate) (T0 duration mass : ℝ)
    (qIn Tin mdot T : Fin (m + 1) → ℝ) : Prop :=
  ∀ a, T a = integratorCompute M T0 (.duration duration)
    (fun b => massDTdt cpObj (qIn b) (plateQ p (Tin b) (T b) (mdot b)) mass) a

/-- thermal.py:340-353 `LiquidCooledComp` in quasi-steady mode at a node -/
def compQuasiSteady (p : Plate) (qIn Tin mdot T : ℝ) : Prop := masslessResidual qIn (plateQ p Tin T mdot) = 0

/-- motor_cooling.py:61-80 `LiquidCooledMotor` with thermal mass: `i` holds the inputs at the nodes, its temperature is
replaced by the state -/
def motorSolution (M : Matrix (Fin (m + 1)) (Fin (m + 1)) ℝ) (o : JacketOpts) (T0 duration : ℝ)
    (i : Fin (m + 1) → JacketIn) (T : Fin (m + 1) → ℝ) : Prop :=
  ∀ a, T a = integratorCompute M T0 (.duration duration) (fun b => jacketDTdt o { i b with T := T b }) a

/-- motor_cooling.py:81-89 quasi-steady mode: the balance drives `dTdt` to the default right hand side 0 -/
def motorQuasiSteady (o : JacketOpts) (i : JacketIn) (T : ℝ) : Prop := jacketDTdt o { i with T := T } = 0

/-- battery_cooling.py:89-122 `LiquidCooledBattery` with thermal mass -/
def batterySolution (M : Matrix (Fin (m + 1)) (Fin (m + 1)) ℝ) (o : BandOpts) (T0 duration : ℝ)
    (i : Fin (m + 1) → BandIn) (T : Fin (m + 1) → ℝ) : Prop :=
  ∀ a, T a = integratorCompute M T0 (.duration duration) (fun b => bandDTdt o { i b with T := T b }) a

/-- battery_cooling.py:123-131 quasi-steady mode -/
def batteryQuasiSteady (o : BandOpts) (i : BandIn) (T : ℝ) : Prop := bandDTdt o { i with T := T } = 0

end Verif.Thermal
