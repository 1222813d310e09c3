import Verif.Model.Integrals
import Verif.Model.Weights
import Verif.Model.MissionGroups
import Verif.Model.Thermal

/-! Model of the aircraft models and analysis groups in openconcept/examples: fuel and weight bookkeeping along a mission,
closure of the sizing loop, the weight margins and the sums over components.

Quantities are real numbers in one unit system: `ExecComp`, `AddSubtractComp` and `promote_add` convert the units of their
connections.  Vectors over the nodes of a phase are functions on `Fin (m + 1)`.  Option values of the subsystems, plotting
and the scripts which set values are not modelled. -/

namespace Verif.Aircraft

open Verif.Integrals Verif.VectorComps Verif.Weights

/-! ### Fuel and weight along a mission -/

/-- one mission phase as seen by the fuel integrator: fuel flow at its nodes and duration -/
structure Seg (m : ℕ) where
  flow : Fin (m + 1) → ℝ
  duration : ℝ

/-- the state `fuel_used` (`fuel_burn`) of one phase with initial value `q0`: an `Integrator` with
`time_setup="duration"` (HybridTwin_thermal.py:136-142, HybridTwin_active_thermal.py:144-150, B738_sizing.py:148-160); for
B738.py:37-48 and N3_HybridSingleAisle_Refrig.py:75-82 the integrator is created from the tags -/
noncomputable def segFuel {m : ℕ} (M : Matrix (Fin (m + 1)) (Fin (m + 1)) ℝ) (q0 : ℝ) (s : Seg m) : Fin (m + 1) → ℝ :=
  integratorCompute M q0 (.duration s.duration) s.flow

/-- the output `fuel_used_final` (`fuel_burn_final`) -/
noncomputable def segFinal {m : ℕ} (M : Matrix (Fin (m + 1)) (Fin (m + 1)) ℝ) (q0 : ℝ) (s : Seg m) : ℝ :=
  integratorFinal M q0 (.duration s.duration) s.flow

/-- the fuel histories of consecutive phases: `link_phases` connects `*_final` of a phase to `*_initial` of the next one
(mission_groups.py:382-446), the initial value of the first phase is `q0` -/
noncomputable def missionFuel {m : ℕ} (M : Matrix (Fin (m + 1)) (Fin (m + 1)) ℝ) (q0 : ℝ) :
    List (Seg m) → List (Fin (m + 1) → ℝ)
  | [] => []
  | s :: l => segFuel M q0 s :: missionFuel M (segFinal M q0 s) l

/-- the final value of the state after the last phase -/
noncomputable def missionFinal {m : ℕ} (M : Matrix (Fin (m + 1)) (Fin (m + 1)) ℝ) (q0 : ℝ) (l : List (Seg m)) : ℝ :=
  l.foldl (segFinal M) q0

/-- the component `weight`: B738.py:65-77, HybridTwin_thermal.py:143-154, HybridTwin_active_thermal.py:151-162,
Caravan.py, KingAirC90GT.py, TBM850.py, HybridTwin.py (same call), B738_sizing.py:163-174; `nn` the number of nodes -/
noncomputable def weightSys (nn : ℕ) : AddSys ℝ :=
  ⟨"weight", ["ac|weights|MTOW", "fuel_used"], .each [1, nn], 1, some [1, -1], ⟨some (some "kg"), none⟩⟩

/-- the variables read by `weight` in one phase -/
def weightEnv {n : ℕ} (mtow : ℝ) (fuel : Fin n → ℝ) : String → ℕ → ℕ → ℝ := fun v i _ =>
  if v = "ac|weights|MTOW" then mtow else if h : i < n then fuel ⟨i, h⟩ else 0

/-- the weight at the nodes of a phase -/
noncomputable def weight {m : ℕ} (mtow : ℝ) (fuel : Fin (m + 1) → ℝ) (a : Fin (m + 1)) : ℝ :=
  (weightSys (m + 1)).compute (weightEnv mtow fuel) a 0

/-! ### Phase dependent choices -/

/-- B738.py:54-57, HybridTwin_thermal.py:92-95, HybridTwin_active_thermal.py:99-102,
N3_HybridSingleAisle_Refrig.py:40-43 and the other examples -/
def cd0Source (phase : String) : String :=
  if phase ∉ ["v0v1", "v1v0", "v1vr", "rotate"] then "ac|aero|polar|CD0_cruise" else "ac|aero|polar|CD0_TO"

/-- B738_sizing.py:44-45, 78: configuration of the drag buildup -/
def dragConfiguration (phase : String) : String :=
  if phase ∈ ["v0v1", "v1v0", "v1vr", "rotate"] then "takeoff" else "clean"

/-- HybridTwin_thermal.py:63-66, HybridTwin_active_thermal.py:69-72: initial value of `hybridization` -/
def hybridization (phase : String) : ℝ := if phase ∈ ["climb", "cruise", "descent"] then 0 else 1

/-! ### Engines -/

/-- B738_sizing.py:113-123 `num_engine_calc` -/
noncomputable def engineSys (nn : ℕ) : AddSys ℝ :=
  ⟨"num_active_engines", ["num_engines", "propulsor_active", "one"], .each [1, nn, 1], 1, some [1, 1, -1], ⟨none, none⟩⟩

/-- B738_sizing.py:125-145 `propulsion_multiplier`; the promoted default `one` is 1 (line 123) -/
noncomputable def thrustSys (nn : ℕ) : MulSys ℝ :=
  ⟨"thrust", ["thrust_per_engine", "num_active_engines_1"], .all nn, 1, 1, none, some [some "lbf", none]⟩
/-- B738_sizing.py:134-139 -/
noncomputable def fuelSys (nn : ℕ) : MulSys ℝ :=
  ⟨"fuel_flow", ["fuel_flow_per_engine", "num_active_engines_2"], .all nn, 1, 1, none, some [some "kg/s", none]⟩

/-- number of active engines at a node -/
noncomputable def activeEngines (numEngines active : ℝ) : ℝ :=
  (engineSys 1).compute (fun v _ _ => if v = "num_engines" then numEngines else if v = "propulsor_active" then active else 1) 0 0

/-- thrust and fuel flow of the aircraft at a node, B738_sizing.py:113-145 -/
noncomputable def sizedThrust (perEngine numEngines active : ℝ) : ℝ :=
  (thrustSys 1).compute (fun v _ _ => if v = "thrust_per_engine" then perEngine else activeEngines numEngines active) 0 0
/-- see `sizedThrust` -/
noncomputable def sizedFuel (perEngine numEngines active : ℝ) : ℝ :=
  (fuelSys 1).compute (fun v _ _ => if v = "fuel_flow_per_engine" then perEngine else activeEngines numEngines active) 0 0

/-- B738.py:37-52 `doubler` and N3_HybridSingleAisle_Refrig.py:74-82 `promote_mult` with factor 2 -/
def doubled (x : ℝ) : ℝ := 2 * x

/-! ### Sizing loop and margins -/

/-- B738_sizing.py:374-388 `MTOW_calc` -/
noncomputable def mtowSys : AddSys ℝ :=
  ⟨"MTOW", ["OEW", "W_payload", "W_fuel"], .all 1, 1, none, ⟨some (some "kg"), none⟩⟩

/-- B738_sizing.py:290-300 `MLW_calc` -/
noncomputable def mlwSys : AddSys ℝ :=
  ⟨"ac|weights|MLW", ["ac|weights|MTOW"], .all 1, 1, some [0.8], ⟨some (some "kg"), none⟩⟩

/-- B738_sizing.py:238-249 `tail_lever_arm_estimate` -/
noncomputable def leverSys : AddSys ℝ :=
  ⟨"c4_to_wing_c4", ["fuselage_length"], .all 1, 1, some [0.5], ⟨some (some "m"), none⟩⟩

/-- a converged sizing problem (B738_sizing.py:186-402): MTOW is closed with the fuel burned up to the end of the loiter
phase of the mission `l` (line 385-388), which starts with no fuel burned -/
structure Sized {m : ℕ} (M : Matrix (Fin (m + 1)) (Fin (m + 1)) ℝ) (l : List (Seg m)) (oew payload mtow : ℝ) : Prop where
  close : mtow = runAdd mtowSys (fun v => if v = "OEW" then oew else if v = "W_payload" then payload
    else missionFinal M 0 l) "MTOW"

/-- HybridTwin_thermal.py:224-240, HybridTwin_active_thermal.py:229-244: the expression `MTOW_margin` -/
def mtowMargin (mtow oew fuel battery payload : ℝ) : ℝ := mtow - oew - fuel - battery - payload

/-- HybridTwin_thermal.py:42-43 (the same class in HybridTwin.py:34-35 and HybridTwin_active_thermal.py:50-51) -/
noncomputable def mixedObjective (fuelBurn mtow : ℝ) : ℝ := fuelBurn + mtow / 100
/-- HybridTwin_thermal.py:39-40: declared partials with respect to fuel burn and MTOW -/
noncomputable def mixedObjectiveD : ℝ × ℝ := (1, 1 / 100)

/-- HybridTwin_thermal.py:111-116, HybridTwin_active_thermal.py:118-123: `hxadder`, three equations -/
noncomputable def hxOew : AddSys ℝ :=
  ⟨"OEW", ["OEW_orig", "W_hx", "W_coolant"], .all 1, 1, some [1, 1, 1], ⟨some (some "kg"), none⟩⟩
/-- see `hxOew` -/
noncomputable def hxDrag (nn : ℕ) : AddSys ℝ :=
  ⟨"drag", ["drag_orig", "drag_hx"], .all nn, 1, some [1, 1], ⟨some (some "N"), none⟩⟩
/-- see `hxOew` -/
noncomputable def hxArea : AddSys ℝ :=
  ⟨"area_constraint", ["hx_frontal_area", "nozzle_area"], .all 1, 1, some [1, -1], ⟨some (some "m**2"), none⟩⟩

/-! ### N3_HybridSingleAisle_Refrig.py -/

/-- lines 50-56: airframe drag minus the net forces of the ducts of both sides -/
def n3Drag : Mission.AddCall ℝ :=
  ⟨["airframe_drag.drag", "variable_duct.force.F_net", "motor_duct.force.F_net"], "drag", [], some [1, -2, -2], .all 1,
    some "N", 1⟩
/-- lines 89-103 -/
def n3Load : Mission.AddCall ℝ :=
  ⟨["hybrid_motor.elec_load", "refrig.elec_load", "motorfaultprot.elec_load", "battery_coolant_pump.elec_load",
    "motor_coolant_pump.elec_load"], "elec_load", [], some [1, 1, 1, 1, 1], .all 1, some "kW", 1⟩
/-- lines 207-213 and 291-297 (the battery loop): `delta_p` of the heat exchanger is negative -/
def n3Pressure (hose hx out : String) : Mission.AddCall ℝ := ⟨[hose, hx], out, [], some [1, -1], .all 1, some "Pa", 1⟩
/-- lines 325-342 -/
def n3Oew : Mission.AddCall ℝ :=
  ⟨["refrig.component_weight", "hx_motor.component_weight", "hx_battery.component_weight", "battery_hose.component_weight",
    "battery_coolant_pump.component_weight", "motor_hose.component_weight", "motor_coolant_pump.component_weight",
    "hx_fault_prot.component_weight", "hybrid_motor.component_weight"], "OEW", ["ac|weights|OEW"],
    some [2, 2, 2, 2, 2, 2, 2, 2, 2, 1], .all 1, some "kg", 1⟩
/-- lines 357-364 -/
def n3Margin : Mission.AddCall ℝ :=
  ⟨[], "margin", ["ac|design_mission|TOW", "OEW", "fuel_used_final", "ac|propulsion|battery|weight"],
    some [1, -1, -1, -2], .all 1, some "kg", 1⟩

/-- value of the variable which an automatic component feeds on: the feeds of one call, read from the values `e` of the
group's variables (mission_groups.py:155-161) -/
def feedEnv (feeds : List Mission.Feed) (e : Env) : Env := fun v =>
  match feeds.find? (fun f => f.input = v) with
  | some f => e f.source
  | none => 0

/-- value of the promoted name of a `promote_add` call -/
noncomputable def runCall (c : Mission.AddCall ℝ) (e : Env) : ℝ :=
  c.sys.compute (feedEnv (c.feeds "add0") e).arr 0 0

/-! ### MotorFaultProtection (examples/aircraft_data/HybridSingleAisle.py) -/

/-- HybridSingleAisle.py:136-142 `electrical_loss` -/
def faultLoad (eff motorPower : ℝ) : ℝ := (1 - eff) * motorPower
/-- HybridSingleAisle.py:133-135, 143: the coolant takes up the electrical loss -/
noncomputable def faultTout (cp eff motorPower Tin mdot : ℝ) : ℝ := Thermal.phtOut cp Tin (faultLoad eff motorPower) mdot
/-- HybridSingleAisle.py:144-150 -/
def faultDeltaP (motorHx protHx : ℝ) : ℝ := motorHx + protHx
/-- HybridSingleAisle.py:151-159 -/
def faultHeat (motorHx protHx : ℝ) : ℝ := motorHx + protHx

end Verif.Aircraft
