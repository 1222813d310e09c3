import Verif.Model.Aircraft
import Verif.Model.Propulsion
import Verif.Model.Takeoff

/-!
Model of `openconcept/examples/HybridTwin.py`: the aircraft model `SeriesHybridTwinModel` with its battery and fuel tank as
seen by a mission of `FullMissionAnalysis` (`openconcept/mission/profiles.py`).

The propulsion system at a node is `twinHybrid` (`Model/Propulsion.lean`).  A converged phase is one whose engine throttles
satisfy the generator balance at every node.  Throttles, flight conditions, propeller maps and durations are arbitrary: what
is modelled is where the energy comes from.  Drag and empty weight are other components (C19, C72).  Units are SI, except the
specific energy in W h/kg.
-/

namespace Verif.HybridTwin

open Verif.Integrals Verif.Propulsion Verif.Aircraft
open Verif.Bfl (Seg.name Seg.throttle Seg.active)

/-- HybridTwin.py:153-169, simple_series_hybrid.py:49-56: the design variables; `splitRating` is the unconnected rating of the
splitter (splitter.py:77) -/
structure Plane where
  motorRating : ℝ
  genRating : ℝ
  engRating : ℝ
  wBattery : ℝ
  specificEnergy : ℝ
  splitRating : ℝ

/-- One mission phase with `m + 1` nodes: its name, the value of its control `hybridization`, the duration, the throttle and
activity given by the phase, the engine throttle (a state of the balance) and the propeller conditions -/
structure Leg (m : ℕ) where
  name : String
  hyb : ℝ
  duration : ℝ
  throttle : Fin (m + 1) → ℝ
  active : Fin (m + 1) → ℝ
  engThrottle : Fin (m + 1) → ℝ
  s1 : Fin (m + 1) → Side
  s2 : Fin (m + 1) → Side

variable {m : ℕ}

/-- HybridTwin.py:64-68, 88 (`LinearInterpolator`, linearinterp.py:43-45): the split fraction at a node -/
noncomputable def Leg.fraction (p : Leg m) (b : Fin (m + 1)) : ℝ := Aero.linspace p.hyb p.hyb (m + 1) b

/-- the inputs of the propulsion system at a node -/
noncomputable def Leg.node (d : Plane) (p : Leg m) (b : Fin (m + 1)) : HybridIn where
  throttle := p.throttle b
  active := p.active b
  motorRating := d.motorRating
  genRating := d.genRating
  engRating := d.engRating
  splitFraction := p.fraction b
  splitRating := d.splitRating
  engThrottle := p.engThrottle b
  extraLoad := 0

/-- HybridTwin.py:80-88: outputs of the propulsion system at a node -/
noncomputable def Leg.out (mp : Maps) (d : Plane) (p : Leg m) (b : Fin (m + 1)) : HybridOut :=
  twinHybrid mp (p.s1 b) (p.s2 b) (p.node d b)

/-- simple_series_hybrid.py:105-118: the generator balance has converged -/
def Leg.Converged (mp : Maps) (d : Plane) (p : Leg m) : Prop := ∀ b, (p.out mp d b).residual = 0

/-- HybridTwin.py:60-62: the phase has not been given another hybridization -/
def Leg.Default (p : Leg m) : Prop := p.hyb = hybridization p.name

/-- simple_series_hybrid.py:101-104: `SOCBattery` with efficiency 0.97, other options of battery.py:60-64 -/
noncomputable def battOpts : BattOpts := ⟨0.97, 5000, 50, 1⟩

/-- HybridTwin.py:114-120: fuel flow and duration seen by the integrator of `fuel_used` -/
noncomputable def Leg.fuelSeg (mp : Maps) (d : Plane) (p : Leg m) : Aircraft.Seg m :=
  ⟨fun b => (p.out mp d b).fuel, p.duration⟩

/-- battery.py:84-112, simple_series_hybrid.py:104: rate of the state of charge and duration seen by the battery's integrator -/
noncomputable def Leg.socSeg (mp : Maps) (d : Plane) (p : Leg m) : Aircraft.Seg m :=
  ⟨fun b => dSOCdt battOpts d.wBattery d.specificEnergy (p.out mp d b).batteryLoad, p.duration⟩

/-- The phases of the mission -/
structure Flight (m : ℕ) where
  v0v1 : Leg m
  v1vr : Leg m
  v1v0 : Leg m
  rotate : Leg m
  climb : Leg m
  cruise : Leg m
  descent : Leg m

/-- profiles.py:284-290, 296-297: states are passed from phase to phase in this order -/
def Flight.legs (f : Flight m) : List (Leg m) := [f.v0v1, f.v1vr, f.rotate, f.climb, f.cruise, f.descent]
/-- profiles.py:286: the aborted take-off branches off -/
def Flight.aborted (f : Flight m) : List (Leg m) := [f.v0v1, f.v1v0]

/-- names (profiles.py:66-107, 120-165), throttle and activity of the take-off phases (phases.py:584-599, 815-819,
1358-1361) -/
structure Flight.Setup (f : Flight m) : Prop where
  names : f.v0v1.name = "v0v1" ∧ f.v1vr.name = "v1vr" ∧ f.v1v0.name = "v1v0" ∧ f.rotate.name = "rotate" ∧
    f.climb.name = "climb" ∧ f.cruise.name = "cruise" ∧ f.descent.name = "descent"
  v0v1 : ∀ b, f.v0v1.throttle b = Bfl.Seg.v0v1.throttle ∧ f.v0v1.active b = Bfl.Seg.v0v1.active
  v1vr : ∀ b, f.v1vr.throttle b = Bfl.Seg.v1vr.throttle ∧ f.v1vr.active b = Bfl.Seg.v1vr.active
  v1v0 : ∀ b, f.v1v0.throttle b = Bfl.Seg.v1v0.throttle ∧ f.v1v0.active b = Bfl.Seg.v1v0.active
  rotate : ∀ b, f.rotate.throttle b = 1 ∧ f.rotate.active b = 0

/-- battery.py:98-112: the state of charge at the nodes of the phases `l`; the battery starts with `soc0` (default 1) -/
noncomputable def socHist (M : Matrix (Fin (m + 1)) (Fin (m + 1)) ℝ) (mp : Maps) (d : Plane) (soc0 : ℝ) (l : List (Leg m)) :
    List (Fin (m + 1) → ℝ) := missionFuel M soc0 (l.map (Leg.socSeg mp d))
/-- the state of charge after the phases `l` -/
noncomputable def socFinal (M : Matrix (Fin (m + 1)) (Fin (m + 1)) ℝ) (mp : Maps) (d : Plane) (soc0 : ℝ) (l : List (Leg m)) : ℝ :=
  missionFinal M soc0 (l.map (Leg.socSeg mp d))
/-- the fuel used at the nodes of the phases `l` -/
noncomputable def fuelHist (M : Matrix (Fin (m + 1)) (Fin (m + 1)) ℝ) (mp : Maps) (d : Plane) (fuel0 : ℝ) (l : List (Leg m)) :
    List (Fin (m + 1) → ℝ) := missionFuel M fuel0 (l.map (Leg.fuelSeg mp d))
/-- the fuel used after the phases `l` -/
noncomputable def fuelFinal (M : Matrix (Fin (m + 1)) (Fin (m + 1)) ℝ) (mp : Maps) (d : Plane) (fuel0 : ℝ) (l : List (Leg m)) : ℝ :=
  missionFinal M fuel0 (l.map (Leg.fuelSeg mp d))

end Verif.HybridTwin
