import Verif.Model.WiringAirplanes2
import Verif.Model.WiringProfiles
import Verif.Model.Sparsity2
import Verif.Model.Aero

/-!
The states of the airplane models along a mission (`link_phases` for integrators inside `acmodel`), and the outer group of
`openconcept/examples/B738_sizing.py`, which sizes the airplane around its mission.

`_link_phases` (mission_groups.py:300-328) looks at every state on its own; the states of the phases themselves are in
`Model/WiringProfiles.lean`, those of the airplane model, whose names begin with `acmodel.`, here.
-/

namespace Verif.Wiring

open Verif.Units
open Verif.VectorComps (AddSys)
open Verif.Bfl (Seg)

variable {m : ℕ}

/-! ### states of an airplane model -/

/-- the integrators of an airplane model inside a phase: paths with their integrands, and absolute and promoted names of their
outputs and inputs in the phase -/
structure AcStates where
  integs : List (String × List (AddIntegrand.Args Unit))
  outs : List (String × String)
  ins : List (String × String)

/-- an integrator with integrands `l` seen from itself -/
def AcStates.own (l : List (AddIntegrand.Args Unit)) : AcStates where
  integs := [("", l)]
  outs := (integ l).outs.map fun v => (v.name, v.name)
  ins := (integ l).ins.map fun v => (v.name, v.name)

def path (s i : String) : String := if i = "" then s else s ++ "." ++ i

/-- seen from a group of which the system is the subsystem `s` -/
def AcStates.up (a : AcStates) (s : String) (pin pout : Promo) : AcStates where
  integs := a.integs.map fun i => (path s i.1, i.2)
  outs := a.outs.map fun n => (s ++ "." ++ n.1, pout.name s ⟨n.2, "", false, true⟩)
  ins := a.ins.map fun n => (s ++ "." ++ n.1, pin.name s ⟨n.2, "", false, true⟩)

/-- seen from the group `g` -/
def AcStates.inside (a : AcStates) (g : Grp) (s : String) : AcStates :=
  match g.subs.find? fun t => t.name == s with
  | some t => a.up s t.pin t.pout
  | none => a

/-- two lists of states -/
def AcStates.append (a b : AcStates) : AcStates := ⟨a.integs ++ b.integs, a.outs ++ b.outs, a.ins ++ b.ins⟩

/-- all phases add the airplane model as `acmodel` and promote everything: phases.py:341-348, 426-433, 560-566, 711-717, 796-802, 905-911 -/
def AcStates.model (a : AcStates) : AcStates := a.up "acmodel" .all .all

/-- mission_groups.py:77-100: `_oc_states_list` -/
def AcStates.tuples (a : AcStates) : List Mission.StateTuple :=
  a.integs.flatMap fun i => i.2.map fun x => Mission.tupleOf i.1 (AddIntegrand.entry integOpts x)

/-- the connections that `link_phases` makes for the states of the airplane model -/
noncomputable def craftLinks (k : Phases.MissionKind) (ode : Bool) (a : AcStates) : Except Mission.LErr (List (String × String)) :=
  let ph := (linkCalls k ode).flatMap fun c => [c.1.name, c.2.1.name]
  let names (l : List (String × String)) := ph.flatMap fun p => l.map fun n => (p ++ "." ++ n.1, p ++ "." ++ n.2)
  Mission.linkAll id (promOf (names a.outs)) (promOf (names a.ins)) dropPrefix
    ((linkCalls k ode).map fun c => (⟨c.1.name, a.tuples⟩, ⟨c.2.1.name, a.tuples⟩, c.2.2))

/-- Caravan.py:69-79, KingAirC90GT.py:68-78 -/
noncomputable def caravanStates : AcStates := ((AcStates.own fuelIntegrand).inside (caravanGrp "") "intfuel").model
noncomputable def kingAirStates : AcStates := ((AcStates.own fuelIntegrand).inside (kingAirGrp "") "intfuel").model
/-- TBM850.py:88-98 -/
noncomputable def tbmStates : AcStates := ((AcStates.own fuelIntegrand).inside (tbmGrp "") "intfuel").model
/-- B738.py:34-46 -/
noncomputable def b738States : AcStates := ((AcStates.own fuelIntegrand).inside (b738Grp "") "ode_integ").model
/-- B738_sizing.py:148-160 -/
noncomputable def sizingStates : AcStates := ((AcStates.own burnIntegrand).inside (sizingGrp false) "fuel_burn_integ").model

/-- energy_storage/battery.py:98-112: the state of charge -/
def socIntegrand : List (AddIntegrand.Args Unit) := [integrand "SOC" "dSOCdt" "" (some "SOC_initial") (some "SOC_final")]

/-- the battery and the fuel of the hybrid twin -/
noncomputable def hybridStates : AcStates :=
  (((((AcStates.own socIntegrand).inside socBattery97 "ode_integ").inside twinHybrid "batt1").inside (hybridTwinGrp false "") "propmodel").append
    ((AcStates.own fuelIntegrand).inside (hybridTwinGrp false "") "intfuel")).model

/-- the battery of the electric single -/
noncomputable def electricStates : AcStates :=
  ((((AcStates.own socIntegrand).inside socBattery97 "ode_integ").inside allElectric "batt1").inside (electricGrp "") "propmodel").model

/-! ### the outer group of the sized Boeing 737-800 -/

/-- aerodynamics/CL_max_estimation.py:49-59 `CleanCLmax` -/
noncomputable def cleanCLmax : Comp where
  ins := [("ac|aero|airfoil_Cl_max", ""), ("ac|geom|wing|c4sweep", "rad")]
  opts := [("fudge_factor", "")]
  outs := [("CL_max_clean", "")]
  consts := []
  run e o := if o = "CL_max_clean" then some (Aero.cleanCL (e "fudge_factor") (e "ac|aero|airfoil_Cl_max") (e "ac|geom|wing|c4sweep"))
    else none

/-- aerodynamics/CL_max_estimation.py:53 `CleanCLmax` -/
noncomputable def dCleanCLmax : Decl where
  comp := cleanCLmax
  vecs := []
  parts := every ["CL_max_clean"] ["ac|aero|airfoil_Cl_max", "ac|geom|wing|c4sweep"] .dense

/-- B738_sizing.py:192-233, units of aircraft_data/B738_sizing.py -/
def sizingDvs : List Var :=
    [⟨"ac|aero|polar|e", "", false, true⟩, ⟨"ac|aero|Mach_max", "", false, true⟩, ⟨"ac|aero|Vstall_land", "kn", false, true⟩,
    ⟨"ac|aero|airfoil_Cl_max", "", false, true⟩, ⟨"ac|aero|takeoff_flap_deg", "deg", false, true⟩,
    ⟨"ac|propulsion|engine|rating", "lbf", false, true⟩, ⟨"ac|propulsion|num_engines", "", false, true⟩,
    ⟨"ac|geom|wing|S_ref", "m**2", false, true⟩, ⟨"ac|geom|wing|AR", "", false, true⟩, ⟨"ac|geom|wing|c4sweep", "deg", false, true⟩,
    ⟨"ac|geom|wing|taper", "", false, true⟩, ⟨"ac|geom|wing|toverc", "", false, true⟩, ⟨"ac|geom|hstab|AR", "", false, true⟩,
    ⟨"ac|geom|hstab|c4sweep", "deg", false, true⟩, ⟨"ac|geom|hstab|taper", "", false, true⟩, ⟨"ac|geom|hstab|toverc", "", false, true⟩,
    ⟨"ac|geom|vstab|AR", "", false, true⟩, ⟨"ac|geom|vstab|c4sweep", "deg", false, true⟩, ⟨"ac|geom|vstab|taper", "", false, true⟩,
    ⟨"ac|geom|vstab|toverc", "", false, true⟩, ⟨"ac|geom|fuselage|length", "m", false, true⟩, ⟨"ac|geom|fuselage|height", "m", false, true⟩,
    ⟨"ac|geom|nacelle|length", "m", false, true⟩, ⟨"ac|geom|nacelle|diameter", "m", false, true⟩,
    ⟨"ac|geom|maingear|length", "m", false, true⟩, ⟨"ac|geom|maingear|num_wheels", "", false, true⟩,
    ⟨"ac|geom|maingear|num_shock_struts", "", false, true⟩, ⟨"ac|geom|nosegear|length", "m", false, true⟩,
    ⟨"ac|geom|nosegear|num_wheels", "", false, true⟩, ⟨"ac|weights|W_payload", "kg", false, true⟩,
    ⟨"ac|num_passengers_max", "", false, true⟩, ⟨"ac|num_flight_deck_crew", "", false, true⟩, ⟨"ac|num_cabin_crew", "", false, true⟩,
    ⟨"ac|cabin_pressure", "psi", false, true⟩]

/-- the inputs `ac|…` of the mission and the output the outer group reads; `C125_faces` compares them with its phases -/
def sizedMission : Sys :=
  opaque_ [⟨"ac|geom|fuselage|length", "m", false, true⟩, ⟨"ac|geom|fuselage|height", "m", false, true⟩,
      ⟨"ac|geom|hstab|toverc", "", false, true⟩, ⟨"ac|geom|vstab|toverc", "", false, true⟩, ⟨"ac|geom|wing|toverc", "", false, true⟩,
      ⟨"ac|geom|hstab|S_ref", "m**2", false, true⟩, ⟨"ac|geom|hstab|AR", "", false, true⟩, ⟨"ac|geom|hstab|taper", "", false, true⟩,
      ⟨"ac|geom|vstab|S_ref", "m**2", false, true⟩, ⟨"ac|geom|vstab|AR", "", false, true⟩, ⟨"ac|geom|vstab|taper", "", false, true⟩,
      ⟨"ac|geom|wing|S_ref", "m**2", false, true⟩, ⟨"ac|geom|wing|AR", "", false, true⟩, ⟨"ac|geom|wing|taper", "", false, true⟩,
      ⟨"ac|geom|nacelle|length", "m", false, true⟩, ⟨"ac|geom|fuselage|S_wet", "m**2", false, true⟩,
      ⟨"ac|geom|nacelle|S_wet", "m**2", false, true⟩, ⟨"ac|propulsion|num_engines", "", false, true⟩,
      ⟨"ac|aero|takeoff_flap_deg", "deg", false, true⟩, ⟨"ac|geom|wing|c4sweep", "rad", false, true⟩,
      ⟨"ac|aero|polar|e", "", false, true⟩, ⟨"ac|propulsion|engine|rating", "lbf", false, true⟩, ⟨"ac|weights|MTOW", "kg", false, true⟩,
      ⟨"ac|aero|CLmax_TO", "", false, true⟩]
    [⟨"loiter.fuel_burn_integ.fuel_burn_final", "(kg/s) * (s)", false, false⟩]

/-- B738_sizing.py:186-412 `B738SizingMissionAnalysis.setup` -/
noncomputable def sizedGrp : Grp where
  subs :=
    [⟨"ac_vars", indep sizingDvs, .only [], .all⟩,
     ⟨"tail_lever_arm_estimate", sum Aircraft.leverSys fun _ => false, .only [("fuselage_length", "ac|geom|fuselage|length")], .only []⟩,
     ⟨"wing_MAC", explicit dWingMAC, .only [("S_ref", "ac|geom|wing|S_ref"), ("AR", "ac|geom|wing|AR"), ("taper", "ac|geom|wing|taper")],
        .only [("MAC", "ac|geom|wing|MAC")]⟩,
     ⟨"vstab_area", explicit dVstab [lit "C_vt" 0.09], names ["ac|geom|wing|S_ref", "ac|geom|wing|AR", "ac|geom|vstab|c4_to_wing_c4"],
        names ["ac|geom|vstab|S_ref"]⟩,
     ⟨"hstab_area", explicit dHstab [lit "C_ht" 1], names ["ac|geom|wing|S_ref", "ac|geom|wing|MAC", "ac|geom|hstab|c4_to_wing_c4"],
        names ["ac|geom|hstab|S_ref"]⟩,
     ⟨"nacelle_wetted_area", explicit dCylinderArea, .only [("L", "ac|geom|nacelle|length"), ("D", "ac|geom|nacelle|diameter")],
        .only [("A", "ac|geom|nacelle|S_wet")]⟩,
     ⟨"fuselage_wetted_area", explicit dCylinderArea, .only [("L", "ac|geom|fuselage|length"), ("D", "ac|geom|fuselage|height")],
        .only [("A", "ac|geom|fuselage|S_wet")]⟩,
     ⟨"MLW_calc", sum Aircraft.mlwSys fun _ => false, names ["ac|weights|MTOW"], names ["ac|weights|MLW"]⟩,
     ⟨"empty_weight", (jetEmpty false).sys, names ["ac|num_passengers_max", "ac|num_flight_deck_crew", "ac|num_cabin_crew",
        "ac|cabin_pressure", "ac|aero|Mach_max", "ac|aero|Vstall_land", "ac|geom|wing|S_ref", "ac|geom|wing|AR", "ac|geom|wing|c4sweep",
        "ac|geom|wing|taper", "ac|geom|wing|toverc", "ac|geom|hstab|S_ref", "ac|geom|hstab|AR", "ac|geom|hstab|c4sweep",
        "ac|geom|hstab|c4_to_wing_c4", "ac|geom|vstab|S_ref", "ac|geom|vstab|AR", "ac|geom|vstab|c4sweep", "ac|geom|vstab|toverc",
        "ac|geom|vstab|c4_to_wing_c4", "ac|geom|fuselage|height", "ac|geom|fuselage|length", "ac|geom|fuselage|S_wet",
        "ac|geom|maingear|length", "ac|geom|maingear|num_wheels", "ac|geom|maingear|num_shock_struts", "ac|geom|nosegear|length",
        "ac|geom|nosegear|num_wheels", "ac|propulsion|engine|rating", "ac|propulsion|num_engines", "ac|weights|MTOW", "ac|weights|MLW"],
        .only [("OEW", "ac|weights|OEW")]⟩,
     ⟨"CL_max_cruise", explicit dCleanCLmax [lit "fudge_factor" 1], names ["ac|aero|airfoil_Cl_max", "ac|geom|wing|c4sweep"],
        .only [("CL_max_clean", "ac|aero|CLmax_cruise")]⟩,
     ⟨"CL_max_takeoff", explicit dFlapCLmax [lit "flap_chord_frac" 0.2, lit "wing_area_flapped_frac" 0.9, lit "slat_chord_frac" 0.1,
        lit "slat_span_frac" 0.8, lit "fudge_factor" 1], .only [("flap_extension", "ac|aero|takeoff_flap_deg"),
        ("ac|geom|wing|c4sweep", "ac|geom|wing|c4sweep"), ("ac|geom|wing|toverc", "ac|geom|wing|toverc"),
        ("CL_max_clean", "ac|aero|CLmax_cruise")], .only [("CL_max_flap", "ac|aero|CLmax_TO")]⟩,
     ⟨"MTOW_calc", sum Aircraft.mtowSys fun _ => false, .only [("OEW", "ac|weights|OEW"), ("W_payload", "ac|weights|W_payload")],
        .only [("MTOW", "ac|weights|MTOW")]⟩,
     ⟨"mission", sizedMission, names (sizedMission.ins.map Var.name), .only []⟩]
  conns := [("tail_lever_arm_estimate.c4_to_wing_c4", "ac|geom|hstab|c4_to_wing_c4"),
    ("tail_lever_arm_estimate.c4_to_wing_c4", "ac|geom|vstab|c4_to_wing_c4"),
    ("mission.loiter.fuel_burn_integ.fuel_burn_final", "MTOW_calc.W_fuel"),
    ("mission.loiter.fuel_burn_integ.fuel_burn_final", "empty_weight.ac|weights|W_fuel_max")]
  defaults := [("ac|weights|MTOW", "kg"), ("MTOW_calc.W_fuel", "kg"), ("empty_weight.ac|weights|W_fuel_max", "kg")]

end Verif.Wiring
