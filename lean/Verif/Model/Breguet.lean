import Verif.Model.Phases
import Verif.Model.Aircraft

/-! Model of openconcept/examples/minimal.py and minimal_integrator.py: the aircraft model with constant lift to drag ratio
and thrust specific fuel consumption, flown in a `SteadyFlightPhase` (phases.py:964-1021).  The atmosphere only enters
through the dynamic pressure and the true airspeed, which are arbitrary here. -/

namespace Verif.Breguet

open Verif.Phases Verif.Integrals

/-- the inputs `ac|*` of the aircraft model, minimal.py:43-46 and minimal_integrator.py:62 -/
structure Plane where
  sref : ℝ
  tow : ℝ
  maxThrust : ℝ
  lod : ℝ
  tsfc : ℝ

/-- minimal.py:59 -/
def thrust (p : Plane) (throttle : ℝ) : ℝ := throttle * p.maxThrust
/-- minimal.py:60-62 -/
noncomputable def drag (p : Plane) (q cl : ℝ) : ℝ := q * cl * p.sref / p.lod
/-- minimal_integrator.py:55 -/
def fuelFlow (p : Plane) (thrust : ℝ) : ℝ := p.tsfc * thrust
/-- minimal_integrator.py:82 -/
def weightCalc (p : Plane) (fuelBurned : ℝ) : ℝ := p.tow - fuelBurned

/-- the values at the nodes of a steady flight phase -/
structure Flight (m : ℕ) where
  duration : ℝ
  burned0 : ℝ
  vs : Fin (m + 1) → ℝ
  utrue : Fin (m + 1) → ℝ
  q : Fin (m + 1) → ℝ
  throttle : Fin (m + 1) → ℝ
  weight : Fin (m + 1) → ℝ

variable {m : ℕ}

/-- phases.py:991: flight path angle -/
noncomputable def Flight.gs (f : Flight m) (a : Fin (m + 1)) : GsIn := ⟨f.vs a, f.utrue a⟩
/-- phases.py:999 -/
noncomputable def Flight.cl (p : Plane) (f : Flight m) (a : Fin (m + 1)) : ℝ :=
  steadyCL ⟨f.weight a, f.q a, p.sref, cosgamma (f.gs a)⟩
/-- phases.py:1000-1003: what the horizontal acceleration reads; no braking (line 973) -/
noncomputable def Flight.accel (p : Plane) (f : Flight m) (a : Fin (m + 1)) : AccelIn :=
  ⟨f.weight a, drag p (f.q a) (f.cl p a), lift (f.cl p a) (f.q a) p.sref, thrust p (f.throttle a), singamma (f.gs a),
    cosgamma (f.gs a), 0⟩

/-- a converged phase: the throttle balances the acceleration (phases.py:1005-1020) and the weight is the take-off weight
minus the integrated fuel flow (minimal_integrator.py:52-92) -/
structure Flight.Converged (p : Plane) (M : Matrix (Fin (m + 1)) (Fin (m + 1)) ℝ) (f : Flight m) : Prop where
  steady : ∀ a, accelHoriz (f.accel p a) = 0
  weight : ∀ a, f.weight a = weightCalc p
    (integratorCompute M f.burned0 (.duration f.duration) (fun b => fuelFlow p (thrust p (f.throttle b))) a)

end Verif.Breguet
