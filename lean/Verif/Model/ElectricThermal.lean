import Verif.Model.Propulsion
import Verif.Model.Thermal
import Verif.Model.HeatExchanger
import Verif.Model.Ducts

/-! Model of the wiring of the electric propulsion systems with thermal management:
openconcept/propulsion/systems/simple_all_electric.py and openconcept/propulsion/systems/thermal_series_hybrid.py. -/

namespace Verif.ElectricThermal

open Verif.Propulsion Verif.Thermal Verif.HX Verif.Integrals Verif.Ducts

/-! ### Connections -/

/-- pairs (source, target) of `self.connect`; a promoted name is written without the subsystem, a list of targets is one pair
per target -/
abbrev Wiring := List (String × String)

/-- the source an input is connected to; an input without a source keeps its own value -/
def source (w : Wiring) (target : String) : Option String := (w.find? fun p => p.2 == target).map Prod.fst

/-- value seen by an input: its source's, or its default; values of sources are a function of the name -/
def inputVal (w : Wiring) (env : String → ℝ) (target : String) (dflt : ℝ) : ℝ :=
  match source w target with
  | some s => env s
  | none => dflt

/-- simple_all_electric.py:163-172, 183-205 `AllElectricSinglePropulsionSystemWithThermal_Incompressible` -/
def allElectricW : Wiring :=
  [("motor1_rating", "motor1.elec_power_rating"), ("motor1_rating", "prop1.power_rating"),
   ("prop1_diameter", "prop1.diameter"), ("battery1_weight", "batt1.battery_weight"),
   ("motor1.shaft_power_out", "prop1.shaft_power_in"), ("motor1.elec_load", "batt1.elec_load"),
   ("motor1.heat_out", "motorheatsink.q_in"), ("motor1.component_weight", "motorheatsink.mass"),
   ("area_nozzle", "duct.area_nozzle"), ("duct.mdot", "hx.mdot_cold"), ("hx.delta_p_cold", "duct.delta_p_hex"),
   ("motorheatsink.T_out", "hx.T_in_hot"), ("rho_coolant", "hx.rho_hot"), ("hx.T_out_hot", "reservoir.T_in"),
   ("reservoir.T_out", "motorheatsink.T_in"), ("mdot_coolant", "motorheatsink.mdot_coolant"),
   ("mdot_coolant", "hx.mdot_hot"), ("mdot_coolant", "reservoir.mdot_coolant")]

/-- simple_all_electric.py:67-74, 91-107 `AllElectricSinglePropulsionSystemWithThermal_Compressible` -/
def allElectricCompressibleW : Wiring :=
  [("motor1_rating", "motor1.elec_power_rating"), ("motor1_rating", "prop1.power_rating"),
   ("prop1_diameter", "prop1.diameter"), ("battery1_weight", "batt1.battery_weight"),
   ("motor1.shaft_power_out", "prop1.shaft_power_in"), ("motor1.elec_load", "batt1.elec_load"),
   ("motor1.heat_out", "motorheatsink.q_in"), ("motor1.component_weight", "motorheatsink.mass"),
   ("motorheatsink.T_out", "duct.T_in_hot"), ("rho_coolant", "duct.rho_hot"), ("duct.T_out_hot", "reservoir.T_in"),
   ("reservoir.T_out", "motorheatsink.T_in"), ("mdot_coolant", "motorheatsink.mdot_coolant"),
   ("mdot_coolant", "duct.mdot_hot"), ("mdot_coolant", "reservoir.mdot_coolant")]

/-- connections which both classes of thermal_series_hybrid.py make: lines 80, 90-91, 103-106, 109, 118, 123, 135-137, 147-160,
and 272, 282-283, 295-298, 301, 310, 315, 328-331, 341-355 -/
def hybridCommonW (load : String) : Wiring :=
  [("motor1.shaft_power_out", "prop1.shaft_power_in"), ("motor2.shaft_power_out", "prop2.shaft_power_in"),
   ("failedmotor.motor2throttle", "motor2.throttle"), ("motor1.elec_load", "add_power.motor1_elec_load"),
   ("motor2.elec_load", "add_power.motor2_elec_load"), ("prop1.thrust", "add_power.prop1_thrust"),
   ("prop2.thrust", "add_power.prop2_thrust"), (load, "hybrid_split.power_in"),
   ("eng1.shaft_power_out", "gen1.shaft_power_in"), ("hybrid_split.power_out_A", "batt1.elec_load"),
   ("hybrid_split.power_out_B", "eng_throttle_set.gen_power_required"),
   ("gen1.elec_power_out", "eng_throttle_set.gen_power_available"), ("eng_throttle_set.eng_throttle", "eng1.throttle"),
   ("hybrid_split.power_out_A", "relabel.hybrid_split_A_in"), ("motor1.component_weight", "motor1_weight"),
   ("motor2.component_weight", "motor2_weight"), ("prop1.component_weight", "prop1_weight"),
   ("prop2.component_weight", "prop2_weight"), ("motor1.heat_out", "motor1_heat"), ("motor2.heat_out", "motor2_heat"),
   ("eng_rating", "eng1.shaft_power_rating"), ("prop_diameter", "prop1.diameter"), ("prop_diameter", "prop2.diameter"),
   ("motor_rating", "motor1.elec_power_rating"), ("motor_rating", "motor2.elec_power_rating"),
   ("motor_rating", "prop1.power_rating"), ("motor_rating", "prop2.power_rating"), ("gen_rating", "gen1.elec_power_rating"),
   ("batt_weight", "batt1.battery_weight"), ("batt1.heat_out", "batteryheatsink.q_in"),
   ("batt_weight", "batteryheatsink.mass"), ("motors_heat", "motorheatsink.q_in"), ("motors_weight", "motorheatsink.mass"),
   ("duct.mdot", "hx.mdot_cold"), ("hx.delta_p_cold", "duct.delta_p_hex"), ("rho_coolant", "hx.rho_hot"),
   ("batteryheatsink.T_out", "motorheatsink.T_in"), ("mdot_coolant", "batteryheatsink.mdot_coolant"),
   ("mdot_coolant", "motorheatsink.mdot_coolant"), ("mdot_coolant", "hx.mdot_hot")]

/-- thermal_series_hybrid.py:80-205 `TwinSeriesHybridElectricThermalPropulsionSystem` -/
def passiveW : Wiring :=
  hybridCommonW "motors_elec_load" ++
  [("ac|propulsion|thermal|duct|area_nozzle", "duct.area_nozzle"), ("motorheatsink.T_out", "hx.T_in_hot"),
   ("hx.T_out_hot", "reservoir.T_in"), ("reservoir.T_out", "batteryheatsink.T_in"),
   ("mdot_coolant", "reservoir.mdot_coolant")]

/-- thermal_series_hybrid.py:272-411 `TwinSeriesHybridElectricThermalPropulsionRefrigerated` -/
def refrigeratedW : Wiring :=
  hybridCommonW "total_elec_load" ++
  [("refrig.elec_load", "add_power.refrig_elec_load"), ("refrig_eff_factor", "refrig.eff_factor"),
   ("refrig_rating", "refrig.power_rating"), ("refrig_spec_pow", "refrig.specific_power"),
   ("refrig.T_out_cold", "batteryheatsink.T_in"), ("motorheatsink.T_out", "refrig.T_in_cold"),
   ("mdot_coolant", "refrig.mdot_coolant"), ("refrig.T_out_hot", "hx.T_in_hot"), ("hx.T_out_hot", "refrig.T_in_hot")]

/-- airflow of the duct (ducts.py:68-84) in a system with wiring `w`: the loss factor 0.15 is the default of ducts.py:51,
the inputs declared without a value have the default 1 (ducts.py:56-59) -/
noncomputable def systemMdot (w : Wiring) (env : String → ℝ) (U rho : ℝ) : ℝ :=
  ductMdot 0.15 U rho (inputVal w env "duct.area_nozzle" 1) (inputVal w env "duct.delta_p_hex" 1)
/-- drag of the duct with the default gross thrust factor 0.98 (ducts.py:52) -/
noncomputable def systemDrag (w : Wiring) (env : String → ℝ) (U rho : ℝ) : ℝ :=
  ductDrag 0.15 0.98 U rho (inputVal w env "duct.area_nozzle" 1) (inputVal w env "duct.delta_p_hex" 1)

/-! ### Power of the all-electric systems -/

/-- simple_all_electric.py:53-66, 67-74 (149-162, 163-172): motor, propeller and battery at a node; the motor's weight is the
mass of its heat sink -/
structure AllElectric where
  shaft : ℝ
  batteryLoad : ℝ
  motorHeat : ℝ
  batteryHeat : ℝ
  sinkMass : ℝ

/-- simple_all_electric.py:55, 151: efficiency 0.97, specific weight 1/5000, no base weight, other options of motor.py:52-55 -/
noncomputable def electricMotor : MachineOpts := ⟨0.97, 1 / 5000, 0, 100 / 745, 1⟩

/-- simple_all_electric.py:64, 160: efficiency 0.97, other options of battery.py:158-163 -/
noncomputable def electricBattery : BattOpts := ⟨0.97, 5000, 50, 1⟩

noncomputable def allElectric (throttle rating weight energy : ℝ) : AllElectric :=
  let mo := motor electricMotor throttle rating
  { shaft := mo.shaft
    batteryLoad := mo.elecLoad
    motorHeat := mo.heat
    batteryHeat := (battery electricBattery weight mo.elecLoad energy).heat
    sinkMass := mo.weight }

/-! ### Coolant loops -/

/-- a `LiquidCooledComp` with thermal mass (thermal.py:320-350) over a phase with `m + 1` nodes: `cp` the specific heat of
the object -/
structure Sink (m : ℕ) where
  mass : ℝ
  cp : ℝ
  T0 : ℝ
  heat : Fin (m + 1) → ℝ
  T : Fin (m + 1) → ℝ

variable {m : ℕ}

/-- coolant temperature behind a chain of sinks which share the channel geometry (`lc_promotes`) and the coolant flow -/
noncomputable def chainOut (p : Plate) (mdot : Fin (m + 1) → ℝ) :
    List (Sink m) → (Fin (m + 1) → ℝ) → Fin (m + 1) → ℝ
  | [], Tin => Tin
  | s :: l, Tin => chainOut p mdot l fun a => plateTout p (Tin a) (s.T a) (mdot a)

/-- every sink's temperature is the integral of its own rate (thermal.py:324-338, 350) -/
def chainConverged (M : Matrix (Fin (m + 1)) (Fin (m + 1)) ℝ) (p : Plate) (duration : ℝ) (mdot : Fin (m + 1) → ℝ) :
    List (Sink m) → (Fin (m + 1) → ℝ) → Prop
  | [], _ => True
  | s :: l, Tin =>
    (∀ a, s.T a = integratorCompute M s.T0 (.duration duration)
      (fun b => massDTdt s.cp (s.heat b) (plateQ p (Tin b) (s.T b) (mdot b)) s.mass) a) ∧
    chainConverged M p duration mdot l fun a => plateTout p (Tin a) (s.T a) (mdot a)

/-- the heat exchanger of a system: `HXGroup` with air conditions `air` (temperature, flow, properties) at the nodes; `kHot`,
`muHot` of the coolant -/
structure Exchanger (m : ℕ) where
  geo : Geo
  km : ℝ
  air : Fin (m + 1) → Fluid
  kHot : ℝ
  muHot : ℝ

/-- heat given to the air when the coolant arrives with temperature `T` -/
noncomputable def Exchanger.heat (x : Exchanger m) (cp : ℝ) (mdot : Fin (m + 1) → ℝ) (T : Fin (m + 1) → ℝ)
    (a : Fin (m + 1)) : ℝ :=
  groupQ (groupNtu x.geo x.km (x.air a) ⟨mdot a, T a, cp, x.kHot, x.muHot⟩)

/-- temperature of the coolant behind the exchanger, heat_exchanger.py:1212 -/
noncomputable def Exchanger.out (x : Exchanger m) (cp : ℝ) (mdot : Fin (m + 1) → ℝ) (T : Fin (m + 1) → ℝ)
    (a : Fin (m + 1)) : ℝ := toutHot (x.heat cp mdot T a) (mdot a) (T a) cp

/-- a loop with a reservoir: reservoir → sinks → exchanger → reservoir.  The hybrid's sinks are battery and motors
(thermal_series_hybrid.py:162-205), the all-electric system has the motor only (simple_all_electric.py:76-107, 172-205).
The coolant has the same specific heat everywhere (3801, thermal.py:316, heat_exchanger.py:1434). -/
structure Loop (m : ℕ) where
  plate : Plate
  duration : ℝ
  mdot : Fin (m + 1) → ℝ
  sinks : List (Sink m)
  hx : Exchanger m
  mass : ℝ
  Tr0 : ℝ
  Tr : Fin (m + 1) → ℝ

/-- temperature of the coolant in front of the exchanger -/
noncomputable def Loop.hot (l : Loop m) : Fin (m + 1) → ℝ := chainOut l.plate l.mdot l.sinks l.Tr
/-- heat given to the air -/
noncomputable def Loop.rejected (l : Loop m) : Fin (m + 1) → ℝ := l.hx.heat l.plate.cp l.mdot l.hot

/-- converged loop: sinks and reservoir integrate their rates -/
structure Loop.Converged (M : Matrix (Fin (m + 1)) (Fin (m + 1)) ℝ) (l : Loop m) : Prop where
  sinks : chainConverged M l.plate l.duration l.mdot l.sinks l.Tr
  reservoir : reservoirSolution M l.Tr0 l.duration l.mass (l.hx.out l.plate.cp l.mdot l.hot) l.mdot l.Tr

/-- heat stored since the beginning of the phase -/
noncomputable def Loop.stored (l : Loop m) (a : Fin (m + 1)) : ℝ :=
  (l.sinks.map fun s => s.mass * s.cp * (s.T a - s.T0)).sum + l.mass * l.plate.cp * (l.Tr a - l.Tr0)

/-- the refrigerated system: refrigerator cold side → sinks → cold side, and hot side → exchanger → hot side
(thermal_series_hybrid.py:358-411), without reservoir.  `rating` is the refrigerator's rated power, `bypass` its control,
`cop` its coefficient of performance at the nodes. -/
structure Refrigerated (m : ℕ) where
  plate : Plate
  duration : ℝ
  mdot : Fin (m + 1) → ℝ
  sinks : List (Sink m)
  hx : Exchanger m
  rating : ℝ
  eff : ℝ
  bypass : Fin (m + 1) → ℝ
  cop : Fin (m + 1) → ℝ
  TinCold : Fin (m + 1) → ℝ
  TinHot : Fin (m + 1) → ℝ

/-- the refrigerator at a node, chiller.py:240-290 with the default specific heat 3801 -/
noncomputable def Refrigerated.chiller (r : Refrigerated m) (a : Fin (m + 1)) : Chiller :=
  ⟨r.plate.cp, r.TinHot a, r.TinCold a, r.mdot a, r.rating, r.eff, r.bypass a, r.cop a⟩
noncomputable def Refrigerated.outCold (r : Refrigerated m) (a : Fin (m + 1)) : ℝ := selCold (r.chiller a).sel
noncomputable def Refrigerated.outHot (r : Refrigerated m) (a : Fin (m + 1)) : ℝ := selHot (r.chiller a).sel
noncomputable def Refrigerated.load (r : Refrigerated m) (a : Fin (m + 1)) : ℝ := selLoad (r.chiller a).sel
noncomputable def Refrigerated.rejected (r : Refrigerated m) : Fin (m + 1) → ℝ := r.hx.heat r.plate.cp r.mdot r.outHot

structure Refrigerated.Converged (M : Matrix (Fin (m + 1)) (Fin (m + 1)) ℝ) (r : Refrigerated m) : Prop where
  sinks : chainConverged M r.plate r.duration r.mdot r.sinks r.outCold
  cold : r.TinCold = chainOut r.plate r.mdot r.sinks r.outCold
  hot : r.TinHot = r.hx.out r.plate.cp r.mdot r.outHot
  cop : ∀ a, (r.chiller a).converged

end Verif.ElectricThermal
