import Verif.Model.Takeoff

/-! The tutorial airplanes of `openconcept/examples/minimal.py` and `minimal_integrator.py`. -/

namespace Verif.Tutorial

open Verif.Bfl (Craft AcIn AcOut)

variable {m : ℕ}

/-- minimal.py:51-54: the design variables, in the units of the component -/
structure Minimal where
  sRef : ℝ
  tow : ℝ
  maxThrust : ℝ
  lOverD : ℝ

/-- minimal.py:65 -/
def Minimal.thrust (p : Minimal) (throttle : ℝ) : ℝ := throttle * p.maxThrust

/-- minimal.py:66-68 -/
noncomputable def Minimal.drag (p : Minimal) (q cl : ℝ) : ℝ := q * cl * p.sRef / p.lOverD

/-- minimal.py:63-68 `Aircraft.compute`; the flight phase is not used -/
noncomputable def Minimal.craft (p : Minimal) : Craft m := fun _ i =>
  ⟨fun a => p.thrust (i.throttle a), fun a => p.drag (i.cond a).q (i.cl a), fun _ => p.tow⟩

/-- minimal_integrator.py:58-68: `fuel_flow_calc` -/
def fuelFlow (tsfc thrust : ℝ) : ℝ := tsfc * thrust

/-- minimal_integrator.py:72-79: `fuel_integrator`, from the fuel burned before the phase -/
noncomputable def fuelBurned (fuel0 duration : ℝ) (flow : Fin (m + 1) → ℝ) : Fin (m + 1) → ℝ :=
  Integrals.integratorCompute (Integrals.simpsonTri m) fuel0 (.duration duration) flow

/-- minimal_integrator.py:33-99 `AircraftWithFuelBurn`: `fuel0` is the fuel burned before each phase (`link_phases` connects it to the
end of the phase before), `tsfc` in kg/N/s.  The duration reaches the integrator through `PhaseGroup.configure`. -/
noncomputable def Minimal.fuelCraft (p : Minimal) (tsfc : ℝ) (fuel0 : String → ℝ) : Craft m := fun n i =>
  ⟨fun a => p.thrust (i.throttle a), fun a => p.drag (i.cond a).q (i.cl a),
   fun a => p.tow - fuelBurned (fuel0 n) i.duration (fun b => fuelFlow tsfc (p.thrust (i.throttle b))) a⟩

end Verif.Tutorial
