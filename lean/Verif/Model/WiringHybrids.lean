import Verif.Model.WiringSizing
import Verif.Model.Utils

/-!
The thermally managed hybrid twins of openconcept/examples/HybridTwin_thermal.py and HybridTwin_active_thermal.py as groups over the nodes
of a phase, and the outer groups (margins and objective) of the three hybrid twins.
-/

namespace Verif.Wiring

open Verif.Units Verif.VectorComps

variable {m : ℕ}

/-! ### airplane models -/

/-- utilities/math/max_min_comp.py:32-39 `MaxComp` -/
def maxComp (units : String) : Sys := opaque_ [⟨"array", units, true, true⟩] [⟨"max", units, false, true⟩]

/-- max_min_comp.py:41 -/
def maxRel (T : String → Fin (m + 1) → ℝ) : Prop := ∀ a, T "max" a = Utils.amax (T "array")

/-- HybridTwin_thermal.py:111-116, HybridTwin_active_thermal.py:118-123 -/
noncomputable def hxAdder : Sys := sums [(Aircraft.hxOew, false), (Aircraft.hxDrag 1, true), (Aircraft.hxArea, false)]

/-- HybridTwin_thermal.py:60-70, HybridTwin_active_thermal.py:68-78; `flight`: the phase is climb, cruise or descent -/
noncomputable def thermalControls (flight : Bool) : Sys :=
  consts [("proprpm", "rpm", true, 2000), ("ac|propulsion|thermal|hx|mdot_coolant", "kg/s", true, 0.1),
    ("hybridization", "", false, if flight then 0 else 1)]

/-- inputs of both propulsion systems matched by `propulsion_promotes_inputs`: HybridTwin_thermal.py:79-86,
HybridTwin_active_thermal.py:87-94 -/
def thermalPromoted : List String := ["fltcond|rho", "fltcond|Utrue", "fltcond|T", "ac|propulsion|engine|rating",
  "ac|propulsion|propeller|diameter", "ac|propulsion|motor|rating", "ac|propulsion|generator|rating",
  "ac|propulsion|thermal|hx|mdot_coolant", "ac|propulsion|thermal|hx|coolant_mass", "ac|propulsion|thermal|hx|channel_width",
  "ac|propulsion|thermal|hx|channel_height", "ac|propulsion|thermal|hx|channel_length", "ac|propulsion|thermal|hx|n_parallel",
  "ac|propulsion|battery|specific_energy", "ac|propulsion|thermal|hx|n_wide_cold", "ac|propulsion|thermal|hx|n_long_cold",
  "ac|propulsion|thermal|hx|n_tall", "throttle", "propulsor_active", "ac|weights|W_battery", "duration"]

/-- the model around the propulsion system: HybridTwin_thermal.py:57-158, HybridTwin_active_thermal.py:65-166; `area` is the nozzle area
whose largest value is taken -/
noncomputable def thermalTwin (prop : Grp) (extra outs : List String) (area : String) (flight : Bool) (cd0 : String) : Grp where
  subs :=
    [⟨"controls", thermalControls flight, .only [], .all⟩,
     ⟨"hybrid_factor", interp "", .only [("start_val", "hybridization"), ("end_val", "hybridization")], .only []⟩,
     ⟨"propmodel", prop.sys, names (thermalPromoted ++ extra), names outs⟩,
     { polarSub cd0 with pout := .only [] },
     ⟨"OEW", twinEmpty.sys, star twinEmpty.ins [("P_TO", "ac|propulsion|engine|rating")], .only []⟩,
     ⟨"hxadder", hxAdder, .only [("W_coolant", "ac|propulsion|thermal|hx|coolant_mass")], names ["OEW", "drag"]⟩,
     ⟨"nozzle_area", maxComp "m**2", .only [], .only []⟩,
     ⟨"intfuel", integ fuelIntegrand, .all, .all⟩,
     weightSub .all]
  conns := [("proprpm", "propmodel.prop1.rpm"), ("proprpm", "propmodel.prop2.rpm"),
    ("hybrid_factor.vec", "propmodel.hybrid_split.power_split_fraction"), ("propmodel.propellers_weight", "W_propeller"),
    ("propmodel.eng1.component_weight", "W_engine"), ("propmodel.gen1.component_weight", "W_generator"),
    ("propmodel.motors_weight", "W_motors"), ("drag.drag", "hxadder.drag_orig"), ("OEW.OEW", "hxadder.OEW_orig"),
    ("propmodel.hx.component_weight", "hxadder.W_hx"), ("propmodel.duct.drag", "hxadder.drag_hx"),
    ("propmodel.hx.frontal_area", "hxadder.hx_frontal_area"), (area, "nozzle_area.array"), ("nozzle_area.max", "hxadder.nozzle_area")]

/-- HybridTwin_thermal.py:46-158 `SeriesHybridTwinModel.setup` -/
noncomputable def passiveTwinGrp (flight : Bool) (cd0 : String) : Grp :=
  thermalTwin passiveHybrid [] ["fuel_flow", "thrust", "ac|propulsion|thermal|duct|area_nozzle"]
    "ac|propulsion|thermal|duct|area_nozzle" flight cd0

/-- HybridTwin_active_thermal.py:54-166 `SeriesHybridTwinModel.setup` -/
noncomputable def activeTwinGrp (flight : Bool) (cd0 : String) : Grp :=
  thermalTwin refrigeratedHybrid ["ac|propulsion|thermal|refrig|rating", "ac|propulsion|thermal|refrig|specific_power",
    "ac|propulsion|thermal|refrig|eff", "ac|propulsion|thermal|duct|area_nozzle"] ["fuel_flow", "thrust"] "propmodel.area_nozzle" flight cd0

/-- thermal/thermal.py:328-341, 392-399: the integrator of the temperature `x` -/
def tempRel (x : String) (T : String → Fin (m + 1) → ℝ) : Prop :=
  T x = Integrals.integratorCompute (Integrals.simpsonTri m) (T "T_initial" 0) (.duration (T "duration" 0)) (T "dTdt") ∧
  ∀ i, T "T_final" i = Integrals.integratorFinal (Integrals.simpsonTri m) (T "T_initial" 0) (.duration (T "duration" 0)) (T "dTdt")

/-- subsystems of the propulsion systems that relate several nodes: battery and heat sinks -/
def thermalCoupled (prop : Grp) : List (String × ((String → Fin (m + 1) → ℝ) → Prop)) :=
  [("hybrid_factor", interpRel), ("propmodel", nested prop "batt1" (nested socBattery97 "ode_integ" socRel)),
   ("propmodel", nested prop "batteryheatsink" (nested liquidCooled "ode_integ" (tempRel "T"))),
   ("propmodel", nested prop "motorheatsink" (nested liquidCooled "ode_integ" (tempRel "T"))),
   ("nozzle_area", maxRel), ("intfuel", integRel fuelIntegrand)]

/-- the models built for the flight phase `phase` -/
noncomputable def passiveTwinPhase (phase : String) : Phase m where
  grp := passiveTwinGrp (decide (phase ∈ ["climb", "cruise", "descent"])) (Aircraft.cd0Source phase)
  coupled := thermalCoupled passiveHybrid ++
    [("propmodel", nested passiveHybrid "reservoir" (nested coolantReservoir "ode_integ" (tempRel "T_out")))]
/-- see `passiveTwinPhase`; the interpolation of the refrigerator's bypass (thermal/chiller.py:247-255) relates several nodes too -/
noncomputable def activeTwinPhase (phase : String) : Phase m where
  grp := activeTwinGrp (decide (phase ∈ ["climb", "cruise", "descent"])) (Aircraft.cd0Source phase)
  coupled := thermalCoupled refrigeratedHybrid ++
    [("propmodel", nested refrigeratedHybrid "refrig" (nested (chiller false) "li" interpRel))]

/-- HybridTwin_thermal.py:160-215, units of aircraft_data/KingAirC90GT.py -/
def passiveTwinDvs : List Var := hybridTwinDvs ++
  [⟨"ac|propulsion|thermal|hx|coolant_mass", "kg", false, true⟩, ⟨"ac|propulsion|thermal|hx|channel_width", "mm", false, true⟩,
   ⟨"ac|propulsion|thermal|hx|channel_height", "mm", false, true⟩, ⟨"ac|propulsion|thermal|hx|channel_length", "m", false, true⟩,
   ⟨"ac|propulsion|thermal|hx|n_parallel", "", false, true⟩, ⟨"ac|propulsion|thermal|hx|n_wide_cold", "", false, true⟩]

/-- HybridTwin_active_thermal.py:168-219, the same variables -/
def activeTwinDvs : List Var := passiveTwinDvs

/-! ### states -/

/-- thermal/thermal.py:330-336; the names of start and end are the defaults of `add_integrand` -/
def sinkIntegrand : List (AddIntegrand.Args Unit) := [integrand "T" "dTdt" "K" none none]

/-- thermal/thermal.py:398-400 -/
def reservoirIntegrand : List (AddIntegrand.Args Unit) := [integrand "T_out" "dTdt" "K" (some "T_initial") (some "T_final")]

/-- integrators of a thermally managed twin `g` with the propulsion system `prop` -/
noncomputable def thermalStates (g prop : Grp) (reservoir : Bool) : AcStates :=
  let sub (a : AcStates) (h : Grp) (s : String) := ((a.inside h "ode_integ").inside prop s).inside g "propmodel"
  let r := if reservoir then [sub (AcStates.own reservoirIntegrand) coolantReservoir "reservoir"] else []
  (([sub (AcStates.own socIntegrand) socBattery97 "batt1", sub (AcStates.own sinkIntegrand) liquidCooled "batteryheatsink",
    sub (AcStates.own sinkIntegrand) liquidCooled "motorheatsink"] ++ r ++ [(AcStates.own fuelIntegrand).inside g "intfuel"]).foldl
      AcStates.append ⟨[], [], []⟩).model

noncomputable def passiveStates : AcStates := thermalStates (passiveTwinGrp false "") passiveHybrid true
noncomputable def activeStates : AcStates := thermalStates (activeTwinGrp false "") refrigeratedHybrid false

/-! ### the outer groups -/

/-- HybridTwin.py:185-196, HybridTwin_thermal.py:224-235, HybridTwin_active_thermal.py:230-241: `margins` -/
noncomputable def marginsComp : Sys :=
  exec [⟨"MTOW", "lbm", false, true⟩, ⟨"OEW", "lbm", false, true⟩, ⟨"total_fuel", "lbm", false, true⟩, ⟨"W_battery", "lbm", false, true⟩,
    ⟨"payload", "lbm", false, true⟩] ⟨"MTOW_margin", "lbm", false, true⟩
    fun e => Aircraft.mtowMargin (e "MTOW") (e "OEW") (e "total_fuel") (e "W_battery") (e "payload")

/-- HybridTwin.py:26-35 `AugmentedFBObjective` -/
noncomputable def augmentedObjective : Sys :=
  exec [⟨"fuel_burn", "kg", false, true⟩, ⟨"ac|weights|MTOW", "kg", false, true⟩] ⟨"mixed_objective", "kg", false, true⟩
    fun e => Aircraft.mixedObjective (e "fuel_burn") (e "ac|weights|MTOW")

/-- HybridTwin.py:131-205, HybridTwin_thermal.py:160-247, HybridTwin_active_thermal.py:165-252 `ElectricTwinAnalysisGroup.setup`.  Of the
mission only what the outer group reads and sets is shown: `oew` is the unit of the empty weight, `payload` an output of
`missionparams` (mission/profiles.py:49), and `temps` the given initial temperatures with the inputs they are connected to -/
noncomputable def twinAnalysis (dvs : List Var) (oew : String) (temps : List (String × String)) : Grp where
  subs :=
    [⟨"dv_comp", indep dvs, .only [], .all⟩,
     ⟨"mission_data_comp", indep (⟨"batt_soc_target", "", false, true⟩ :: temps.map fun t => ⟨t.1, "degC", false, true⟩), .only [], .all⟩,
     ⟨"analysis", opaque_ (temps.map fun t => ⟨t.2, "K", false, true⟩) [⟨"cruise.OEW", oew, false, true⟩,
        ⟨"descent.fuel_used_final", "kg", false, true⟩, ⟨"payload", "lbm", false, true⟩], .all, .all⟩,
     ⟨"margins", marginsComp, names ["payload"], .only []⟩,
     ⟨"aug_obj", augmentedObjective, .only [], names ["mixed_objective"]⟩]
  conns := [("cruise.OEW", "margins.OEW"), ("descent.fuel_used_final", "margins.total_fuel"), ("ac|weights|MTOW", "margins.MTOW"),
    ("ac|weights|W_battery", "margins.W_battery"), ("ac|weights|MTOW", "aug_obj.ac|weights|MTOW"),
    ("descent.fuel_used_final", "aug_obj.fuel_burn")] ++ temps

/-- HybridTwin.py -/
noncomputable def hybridAnalysis : Grp := twinAnalysis hybridTwinDvs "lb" []
/-- HybridTwin_thermal.py, `FullMissionAnalysis` -/
noncomputable def passiveAnalysis : Grp :=
  twinAnalysis passiveTwinDvs "kg" [("T_motor_initial", "v0v1.propmodel.motorheatsink.T_initial"),
    ("T_res_initial", "v0v1.propmodel.reservoir.T_initial"), ("T_batt_initial", "v0v1.propmodel.batteryheatsink.T_initial")]
/-- HybridTwin_active_thermal.py, `BasicMission` -/
noncomputable def activeAnalysis : Grp :=
  twinAnalysis activeTwinDvs "kg" [("T_motor_initial", "climb.propmodel.motorheatsink.T_initial"),
    ("T_batt_initial", "climb.propmodel.batteryheatsink.T_initial")]

end Verif.Wiring
