import Verif.Model.WiringAirplanes
import Verif.Model.HybridTwin

/-!
The aircraft models of openconcept/examples/B738.py, HybridTwin.py, ElectricSinglewithThermal.py and B738_sizing.py as groups over the
nodes of a phase: subsystems, promotions and connections as written, wildcards expanded.  What `IntegratorGroup` and
`PhaseGroup.configure` add to a group is written out (C20, C21, C75 say what they do).
-/

namespace Verif.Wiring

open Verif.Units Verif.VectorComps

variable {m : ℕ}

/-- a relation over the nodes of the subsystem `s` of `g`, as a relation over the nodes of `g` -/
def nested (g : Grp) (s : String) (R : (String → Fin (m + 1) → ℝ) → Prop) : (String → Fin (m + 1) → ℝ) → Prop :=
  fun T => R (g.seen T s)

/-! ### Boeing 737-800 -/

/-- B738.py:34-46 `doubler` -/
def doubler : Sys where
  ins := [⟨"thrust_in", "kN", true, true⟩, ⟨"fuel_flow_in", "kg/s", true, true⟩]
  outs := [⟨"thrust", "kN", true, true⟩, ⟨"fuel_flow", "kg/s", true, true⟩]
  rel _ e := e "thrust" = Aircraft.doubled (e "thrust_in") ∧ e "fuel_flow" = Aircraft.doubled (e "fuel_flow_in")

/-- B738.py:67 `passthru` -/
def passthru : Sys := exec [⟨"x", "kg", false, true⟩] ⟨"OEW", "kg", false, true⟩ fun e => e "x"

/-- B738.py:24-80 `B738AirplaneModel.setup`; the integrator `ode_integ` and its connection come from the tags of `fuel_flow`
(mission_groups.py:208-286) -/
noncomputable def b738Grp (cd0 : String) : Grp where
  subs :=
    [⟨"ode_integ", integ fuelIntegrand, names ["fuel_used_initial"], names ["fuel_used", "fuel_used_final"]⟩,
     ⟨"propmodel", engineDeck false "T4" "degR", names ["fltcond|h", "fltcond|M", "throttle"], .only []⟩,
     ⟨"doubler", doubler, .only [], .all⟩,
     polarSub cd0,
     ⟨"OEW", passthru, .only [("x", "ac|weights|OEW")], names ["OEW"]⟩,
     weightSub .all]
  conns := [("propmodel.thrust", "doubler.thrust_in"), ("propmodel.fuel_flow", "doubler.fuel_flow_in"),
    ("fuel_flow", "ode_integ.fuel_flow")]

/-- the model built for the flight phase `phase` -/
noncomputable def b738Phase (phase : String) : Phase m where
  grp := b738Grp (Aircraft.cd0Source phase)
  coupled := [("ode_integ", integRel fuelIntegrand)]

/-- B738.py:87-114, units of aircraft_data/B738.py -/
def b738Dvs : List Var :=
    [⟨"ac|aero|CLmax_TO", "", false, true⟩, ⟨"ac|aero|polar|e", "", false, true⟩, ⟨"ac|aero|polar|CD0_TO", "", false, true⟩,
    ⟨"ac|aero|polar|CD0_cruise", "", false, true⟩, ⟨"ac|geom|wing|S_ref", "m**2", false, true⟩, ⟨"ac|geom|wing|AR", "", false, true⟩,
    ⟨"ac|geom|wing|c4sweep", "deg", false, true⟩, ⟨"ac|geom|wing|taper", "", false, true⟩, ⟨"ac|geom|wing|toverc", "", false, true⟩,
    ⟨"ac|geom|hstab|S_ref", "m**2", false, true⟩, ⟨"ac|geom|hstab|c4_to_wing_c4", "m", false, true⟩,
    ⟨"ac|geom|vstab|S_ref", "m**2", false, true⟩, ⟨"ac|geom|nosegear|length", "ft", false, true⟩,
    ⟨"ac|geom|maingear|length", "ft", false, true⟩, ⟨"ac|weights|MTOW", "kg", false, true⟩,
    ⟨"ac|weights|W_fuel_max", "kg", false, true⟩, ⟨"ac|weights|MLW", "kg", false, true⟩, ⟨"ac|weights|OEW", "kg", false, true⟩,
    ⟨"ac|propulsion|engine|rating", "lbf", false, true⟩, ⟨"ac|num_passengers_max", "", false, true⟩,
    ⟨"ac|q_cruise", "lb*ft**-2", false, true⟩]

/-! ### twin series hybrid -/

/-- HybridTwin.py:53-61; `flight`: the phase is climb, cruise or descent -/
noncomputable def hybridControls (flight : Bool) : Sys :=
  consts [("proprpm", "rpm", true, 2000), ("hybridization", "", false, if flight then 0 else 1)]

/-- HybridTwin.py:47-132 `SeriesHybridTwinModel.setup` -/
noncomputable def hybridTwinGrp (flight : Bool) (cd0 : String) : Grp where
  subs :=
    [⟨"controls", hybridControls flight, .only [], .all⟩,
     ⟨"hybrid_factor", interp "", .only [("start_val", "hybridization"), ("end_val", "hybridization")], .only []⟩,
     ⟨"propmodel", twinHybrid.sys, names ["fltcond|rho", "fltcond|Utrue", "ac|propulsion|engine|rating", "ac|propulsion|propeller|diameter",
        "ac|propulsion|motor|rating", "ac|propulsion|generator|rating", "ac|propulsion|battery|specific_energy", "throttle",
        "propulsor_active", "ac|weights|W_battery", "duration"], names ["fuel_flow", "thrust"]⟩,
     polarSub cd0,
     ⟨"OEW", twinEmpty.sys, star twinEmpty.ins [("P_TO", "ac|propulsion|engine|rating")], names ["OEW"]⟩,
     ⟨"intfuel", integ fuelIntegrand, .all, .all⟩,
     weightSub .all]
  conns := [("proprpm", "propmodel.prop1.rpm"), ("proprpm", "propmodel.prop2.rpm"),
    ("hybrid_factor.vec", "propmodel.hybrid_split.power_split_fraction"), ("propmodel.propellers_weight", "W_propeller"),
    ("propmodel.eng1.component_weight", "W_engine"), ("propmodel.gen1.component_weight", "W_generator"),
    ("propmodel.motors_weight", "W_motors")]

/-- energy_storage/battery.py:98-112: the integrator of the state of charge (integrals.py:742-785) -/
def socRel (T : String → Fin (m + 1) → ℝ) : Prop :=
  T "SOC" = Integrals.integratorCompute (Integrals.simpsonTri m) (T "SOC_initial" 0) (.duration (T "duration" 0)) (T "dSOCdt") ∧
  ∀ i, T "SOC_final" i = Integrals.integratorFinal (Integrals.simpsonTri m) (T "SOC_initial" 0) (.duration (T "duration" 0)) (T "dSOCdt")

/-- the model built for the flight phase `phase` -/
noncomputable def hybridTwinPhase (phase : String) : Phase m where
  grp := hybridTwinGrp (decide (phase ∈ ["climb", "cruise", "descent"])) (Aircraft.cd0Source phase)
  coupled := [("hybrid_factor", interpRel), ("propmodel", nested twinHybrid "batt1" (nested socBattery97 "ode_integ" socRel)),
    ("intfuel", integRel fuelIntegrand)]

/-- HybridTwin.py:140-177, units of aircraft_data/KingAirC90GT.py -/
def hybridTwinDvs : List Var := kingAirDvs ++
    [⟨"ac|weights|W_battery", "kg", false, true⟩, ⟨"ac|propulsion|generator|rating", "hp", false, true⟩,
     ⟨"ac|propulsion|motor|rating", "hp", false, true⟩, ⟨"ac|propulsion|battery|specific_energy", "W*h/kg", false, true⟩]

/-! ### electric single -/

/-- ElectricSinglewithThermal.py:24-59 `ElectricTBM850Model.setup` -/
noncomputable def electricGrp (cd0 : String) : Grp where
  subs :=
    [⟨"controls", consts [("prop1rpm", "rpm", true, 2000)], .only [], .all⟩,
     ⟨"propmodel", allElectric.sys, names ["fltcond|rho", "fltcond|Utrue", "fltcond|T", "ac|propulsion|motor|rating",
        "ac|propulsion|propeller|diameter", "throttle", "ac|weights|W_battery", "duration"], names ["thrust"]⟩,
     polarSub cd0,
     ⟨"weight", interp "kg", .only [("start_val", "ac|weights|MTOW"), ("end_val", "ac|weights|MTOW")], .only [("vec", "weight")]⟩]
  conns := [("prop1rpm", "propmodel.prop1.rpm")]

/-- the model built for the flight phase `phase` -/
noncomputable def electricPhase (phase : String) : Phase m where
  grp := electricGrp (Aircraft.cd0Source phase)
  coupled := [("propmodel", nested allElectric "batt1" (nested socBattery97 "ode_integ" socRel)), ("weight", interpRel)]

/-- ElectricSinglewithThermal.py:68-103, units of aircraft_data/TBM850.py -/
def electricTbmDvs : List Var := tbmDvs ++
    [⟨"ac|propulsion|motor|rating", "hp", false, true⟩, ⟨"ac|weights|W_battery", "lb", false, true⟩]

/-! ### Boeing 737-800 with weight and drag buildup -/

/-- B738_sizing.py:148-160 -/
def burnIntegrand : List (AddIntegrand.Args Unit) :=
  [⟨"fuel_burn", some "fuel_flow", none, none, none, some "kg/s", false, false, (), ()⟩]

/-- B738_sizing.py:163-174 `weight_calc` -/
noncomputable def burnWeight : AddSys ℝ :=
  ⟨"weight", ["ac|weights|MTOW", "fuel_burn"], .each [1, 1], 1, some [1, -1], ⟨some (some "kg"), none⟩⟩

/-- B738_sizing.py:41-175 `B738AircraftModel.setup` -/
noncomputable def sizingGrp (takeoff : Bool) : Grp where
  subs :=
    [⟨"zero_lift_drag", (jetDrag true takeoff).sys, names (["fltcond|Utrue", "fltcond|rho", "fltcond|T", "ac|geom|fuselage|length",
        "ac|geom|fuselage|height", "ac|geom|fuselage|S_wet", "ac|geom|hstab|S_ref", "ac|geom|hstab|AR", "ac|geom|hstab|taper",
        "ac|geom|hstab|toverc", "ac|geom|vstab|S_ref", "ac|geom|vstab|AR", "ac|geom|vstab|taper", "ac|geom|vstab|toverc",
        "ac|geom|wing|S_ref", "ac|geom|wing|AR", "ac|geom|wing|taper", "ac|geom|wing|toverc", "ac|geom|nacelle|length",
        "ac|geom|nacelle|S_wet", "ac|propulsion|num_engines"] ++
        if takeoff then ["ac|aero|takeoff_flap_deg", "ac|geom|wing|c4sweep"] else []), .only []⟩,
     ⟨"drag_polar", explicit (dPolarDrag true), .only [("fltcond|CL", "fltcond|CL"), ("fltcond|q", "fltcond|q"),
        ("ac|geom|wing|S_ref", "ac|geom|wing|S_ref"), ("ac|geom|wing|AR", "ac|geom|wing|AR"), ("e", "ac|aero|polar|e")], names ["drag"]⟩,
     ⟨"CFM56", (rubberTurbofan .CFM56 false).sys, names ["throttle", "fltcond|h", "fltcond|M", "ac|propulsion|engine|rating"], .only []⟩,
     ⟨"num_engine_calc", sum (Aircraft.engineSys 1) (fun n => n != "num_engines" && n != "one"),
        .only [("num_engines", "ac|propulsion|num_engines"), ("propulsor_active", "propulsor_active")], .only []⟩,
     ⟨"propulsion_multiplier", products [Aircraft.thrustSys 1, Aircraft.fuelSys 1] (fun _ => true), .only [], names ["thrust"]⟩,
     ⟨"fuel_burn_integ", integ burnIntegrand, .only [], .only []⟩,
     ⟨"weight_calc", sum burnWeight (fun n => n != "ac|weights|MTOW"), names ["ac|weights|MTOW"], names ["weight"]⟩]
  conns := [("zero_lift_drag.CD0", "drag_polar.CD0"), ("CFM56.fuel_flow", "propulsion_multiplier.fuel_flow_per_engine"),
    ("CFM56.thrust", "propulsion_multiplier.thrust_per_engine"),
    ("num_engine_calc.num_active_engines", "propulsion_multiplier.num_active_engines_1"),
    ("num_engine_calc.num_active_engines", "propulsion_multiplier.num_active_engines_2"),
    ("propulsion_multiplier.fuel_flow", "fuel_burn_integ.fuel_flow"), ("fuel_burn_integ.fuel_burn", "weight_calc.fuel_burn")]
  defaults := [("num_engine_calc.one", "")]

/-- the model built for the flight phase `phase` -/
noncomputable def sizingPhase (phase : String) : Phase m where
  grp := sizingGrp (Aircraft.dragConfiguration phase == "takeoff")
  coupled := [("fuel_burn_integ", integRel burnIntegrand)]

end Verif.Wiring
