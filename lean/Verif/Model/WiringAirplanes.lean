import Verif.Model.WiringMission
import Verif.Model.WiringDrag
import Verif.Model.Turboprop

/-!
The aircraft models of openconcept/examples as groups over the nodes of a phase: subsystems, promotions and connections as written.
A group is one of those of C114, C117 and C118.  Wildcards are expanded.
-/

namespace Verif.Wiring

open Verif.Units Verif.VectorComps

variable {m : ℕ}

/-- `promotes_inputs=["*", (old, new), …]` for a system with inputs `vs` -/
def star (vs : List Var) (l : List (String × String)) : Promo :=
  .only (vs.map fun v => (v.name, (l.lookup v.name).getD v.name))

/-- `PolarDrag`: Caravan.py:52-57, KingAirC90GT.py:51-56, TBM850.py:60-72, HybridTwin.py:95-100, B738.py:59-64 -/
noncomputable def polarSub (cd0 : String) : Sub :=
  ⟨"drag", explicit (dPolarDrag false), .only [("fltcond|CL", "fltcond|CL"), ("ac|geom|wing|S_ref", "ac|geom|wing|S_ref"),
    ("ac|geom|wing|AR", "ac|geom|wing|AR"), ("CD0", cd0), ("fltcond|q", "fltcond|q"), ("e", "ac|aero|polar|e")], names ["drag"]⟩

/-- `intfuel.add_integrand("fuel_used", rate_name="fuel_flow", val=1.0, units="kg")` -/
def fuelIntegrand : List (AddIntegrand.Args Unit) := [integrand "fuel_used" "fuel_flow" "kg"]

/-- the weight: MTOW minus fuel used -/
noncomputable def weightSub (pin : Promo) : Sub :=
  ⟨"weight", sum (Aircraft.weightSys 1) (fun n => n != "ac|weights|MTOW"), pin, names ["weight"]⟩

/-! ### turboprops -/

/-- Caravan.py:26-89 `CaravanAirplaneModel.setup` -/
noncomputable def caravanGrp (cd0 : String) : Grp where
  subs :=
    [⟨"controls", consts [("prop1rpm", "rpm", true, 2000)], .only [], .all⟩,
     ⟨"propmodel", turboprop.sys, names ["fltcond|rho", "fltcond|Utrue", "ac|propulsion|engine|rating",
        "ac|propulsion|propeller|diameter", "throttle"], names ["fuel_flow", "thrust"]⟩,
     polarSub cd0,
     ⟨"OEW", singleEmpty.sys, star singleEmpty.ins [("P_TO", "ac|propulsion|engine|rating")], names ["OEW"]⟩,
     ⟨"intfuel", integ fuelIntegrand, .all, .all⟩,
     weightSub .all]
  conns := [("prop1rpm", "propmodel.prop1.rpm"), ("propmodel.prop1.component_weight", "W_propeller"),
    ("propmodel.eng1.component_weight", "W_engine")]

/-- KingAirC90GT.py:25-89 `KingAirC90GTModel.setup` -/
noncomputable def kingAirGrp (cd0 : String) : Grp where
  subs :=
    [⟨"controls", consts [("prop|rpm", "rpm", true, 1900)], .only [], .all⟩,
     ⟨"propmodel", twinTurboprop.sys, names ["fltcond|rho", "fltcond|Utrue", "ac|propulsion|engine|rating",
        "ac|propulsion|propeller|diameter", "throttle", "propulsor_active"], names ["fuel_flow", "thrust"]⟩,
     polarSub cd0,
     ⟨"OEW", singleEmpty.sys, star singleEmpty.ins [("P_TO", "ac|propulsion|engine|rating")], names ["OEW"]⟩,
     ⟨"intfuel", integ fuelIntegrand, .all, .all⟩,
     weightSub .all]
  conns := [("prop|rpm", "propmodel.prop1.rpm"), ("prop|rpm", "propmodel.prop2.rpm"), ("propmodel.propellers_weight", "W_propeller"),
    ("propmodel.engines_weight", "W_engine")]

/-- TBM850.py:31-110 `TBM850AirplaneModel.setup`; the speed of the propeller is an open input -/
noncomputable def tbmGrp (cd0 : String) : Grp where
  subs :=
    [⟨"propmodel", turboprop.sys, names ["fltcond|rho", "fltcond|Utrue", "ac|propulsion|engine|rating",
        "ac|propulsion|propeller|diameter", "throttle"], names ["thrust"]⟩,
     polarSub cd0,
     ⟨"OEW", singleEmpty.sys, star singleEmpty.ins [("P_TO", "ac|propulsion|engine|rating")], names ["OEW"]⟩,
     ⟨"intfuel", integ fuelIntegrand, .only [], names ["fuel_used_final"]⟩,
     weightSub (names ["ac|weights|MTOW"])]
  conns := [("propmodel.prop1.component_weight", "W_propeller"), ("propmodel.eng1.component_weight", "W_engine"),
    ("propmodel.fuel_flow", "intfuel.fuel_flow"), ("intfuel.fuel_used", "weight.fuel_used")]
  defaults := [("propmodel.prop1.rpm", "rpm")]

/-! ### phases of the airplane models and their design variables -/

/-- the aircraft model built for the flight phase `phase` (the drag coefficient depends on it) -/
noncomputable def turbopropPhase (grp : String → Grp) (phase : String) : Phase m where
  grp := grp (Aircraft.cd0Source phase)
  coupled := [("intfuel", integRel fuelIntegrand)]

/-- an aircraft model below the design variables of the airplane; all analysis groups and phases in between promote them by `"*"` -/
noncomputable def fed (dvs : List Var) (g : Grp) : Grp where
  subs := [⟨"dv_comp", indep dvs, .only [], .all⟩, ⟨"acmodel", g.sys, .all, .all⟩]
  conns := []

/-- Caravan.py:98-129, units of aircraft_data/caravan.py -/
def caravanDvs : List Var :=
    [⟨"ac|aero|CLmax_TO", "", false, true⟩, ⟨"ac|aero|polar|e", "", false, true⟩, ⟨"ac|aero|polar|CD0_TO", "", false, true⟩,
    ⟨"ac|aero|polar|CD0_cruise", "", false, true⟩, ⟨"ac|geom|wing|S_ref", "m**2", false, true⟩,
    ⟨"ac|geom|wing|AR", "", false, true⟩, ⟨"ac|geom|wing|c4sweep", "deg", false, true⟩, ⟨"ac|geom|wing|taper", "", false, true⟩,
    ⟨"ac|geom|wing|toverc", "", false, true⟩, ⟨"ac|geom|hstab|S_ref", "m**2", false, true⟩,
    ⟨"ac|geom|hstab|c4_to_wing_c4", "m", false, true⟩, ⟨"ac|geom|vstab|S_ref", "m**2", false, true⟩,
    ⟨"ac|geom|fuselage|S_wet", "ft**2", false, true⟩, ⟨"ac|geom|fuselage|width", "m", false, true⟩,
    ⟨"ac|geom|fuselage|length", "m", false, true⟩, ⟨"ac|geom|fuselage|height", "m", false, true⟩,
    ⟨"ac|geom|nosegear|length", "m", false, true⟩, ⟨"ac|geom|maingear|length", "m", false, true⟩,
    ⟨"ac|weights|MTOW", "kg", false, true⟩, ⟨"ac|weights|W_fuel_max", "kg", false, true⟩, ⟨"ac|weights|MLW", "kg", false, true⟩,
    ⟨"ac|propulsion|engine|rating", "hp", false, true⟩, ⟨"ac|propulsion|propeller|diameter", "m", false, true⟩,
    ⟨"ac|num_passengers_max", "", false, true⟩, ⟨"ac|q_cruise", "lb*ft**-2", false, true⟩]

/-- KingAirC90GT.py:99-130, units of aircraft_data/KingAirC90GT.py -/
def kingAirDvs : List Var :=
    [⟨"ac|aero|CLmax_TO", "", false, true⟩, ⟨"ac|aero|polar|e", "", false, true⟩, ⟨"ac|aero|polar|CD0_TO", "", false, true⟩,
    ⟨"ac|aero|polar|CD0_cruise", "", false, true⟩, ⟨"ac|geom|wing|S_ref", "m**2", false, true⟩,
    ⟨"ac|geom|wing|AR", "", false, true⟩, ⟨"ac|geom|wing|c4sweep", "deg", false, true⟩, ⟨"ac|geom|wing|taper", "", false, true⟩,
    ⟨"ac|geom|wing|toverc", "", false, true⟩, ⟨"ac|geom|hstab|S_ref", "m**2", false, true⟩,
    ⟨"ac|geom|hstab|c4_to_wing_c4", "m", false, true⟩, ⟨"ac|geom|vstab|S_ref", "m**2", false, true⟩,
    ⟨"ac|geom|fuselage|S_wet", "m**2", false, true⟩, ⟨"ac|geom|fuselage|width", "m", false, true⟩,
    ⟨"ac|geom|fuselage|length", "m", false, true⟩, ⟨"ac|geom|fuselage|height", "m", false, true⟩,
    ⟨"ac|geom|nosegear|length", "m", false, true⟩, ⟨"ac|geom|maingear|length", "m", false, true⟩,
    ⟨"ac|weights|MTOW", "kg", false, true⟩, ⟨"ac|weights|W_fuel_max", "kg", false, true⟩, ⟨"ac|weights|MLW", "kg", false, true⟩,
    ⟨"ac|propulsion|engine|rating", "hp", false, true⟩, ⟨"ac|propulsion|propeller|diameter", "m", false, true⟩,
    ⟨"ac|num_passengers_max", "", false, true⟩, ⟨"ac|q_cruise", "lb*ft**-2", false, true⟩, ⟨"ac|num_engines", "", false, true⟩]

/-- TBM850.py:127-162, units of aircraft_data/TBM850.py -/
def tbmDvs : List Var :=
    [⟨"ac|aero|CLmax_TO", "", false, true⟩, ⟨"ac|aero|polar|e", "", false, true⟩, ⟨"ac|aero|polar|CD0_TO", "", false, true⟩,
    ⟨"ac|aero|polar|CD0_cruise", "", false, true⟩, ⟨"ac|geom|wing|S_ref", "m**2", false, true⟩,
    ⟨"ac|geom|wing|AR", "", false, true⟩, ⟨"ac|geom|wing|c4sweep", "deg", false, true⟩, ⟨"ac|geom|wing|taper", "", false, true⟩,
    ⟨"ac|geom|wing|toverc", "", false, true⟩, ⟨"ac|geom|hstab|S_ref", "ft**2", false, true⟩,
    ⟨"ac|geom|hstab|c4_to_wing_c4", "ft", false, true⟩, ⟨"ac|geom|vstab|S_ref", "ft**2", false, true⟩,
    ⟨"ac|geom|fuselage|S_wet", "ft**2", false, true⟩, ⟨"ac|geom|fuselage|width", "ft", false, true⟩,
    ⟨"ac|geom|fuselage|length", "ft", false, true⟩, ⟨"ac|geom|fuselage|height", "ft", false, true⟩,
    ⟨"ac|geom|nosegear|length", "ft", false, true⟩, ⟨"ac|geom|maingear|length", "ft", false, true⟩,
    ⟨"ac|weights|MTOW", "kg", false, true⟩, ⟨"ac|weights|W_fuel_max", "lb", false, true⟩, ⟨"ac|weights|MLW", "lb", false, true⟩,
    ⟨"ac|propulsion|engine|rating", "hp", false, true⟩, ⟨"ac|propulsion|propeller|diameter", "m", false, true⟩,
    ⟨"ac|num_passengers_max", "", false, true⟩, ⟨"ac|q_cruise", "lb*ft**-2", false, true⟩]

end Verif.Wiring
