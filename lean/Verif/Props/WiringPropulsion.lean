import Verif.Proof.WiringSystems

namespace Verif.Wiring

open Verif.Units Verif.VectorComps

/-! ### C114: atmosphere -/

theorem C114_atmosphere_setup : (atmosphere true).problems = [] ∧ (atmosphere false).problems = [] ∧
    (atmosphere true).ins =
      [⟨"fltcond|h", "m", true, true⟩, ⟨"fltcond|TempIncrement", "degC", true, true⟩, ⟨"fltcond|Utrue", "m / s", true, true⟩] ∧
    (atmosphere false).ins =
      [⟨"fltcond|h", "m", true, true⟩, ⟨"fltcond|TempIncrement", "degC", true, true⟩, ⟨"fltcond|Ueas", "m / s", true, true⟩] := by
  refine ⟨?_, ?_, ?_, ?_⟩ <;> decide +kernel

/-- the outputs of the atmosphere are the flight condition `f` -/
structure IsFltCond (e : String → ℝ) (f : Atmos.FltCond) : Prop where
  p : e "fltcond|p" = f.p
  T : e "fltcond|T" = f.T
  rho : e "fltcond|rho" = f.rho
  a : e "fltcond|a" = f.a
  ueas : e "fltcond|Ueas" = f.ueas
  utrue : e "fltcond|Utrue" = f.utrue
  q : e "fltcond|q" = f.q
  mach : e "fltcond|M" = f.mach

/-- `ComputeAtmosphericProperties` with the true airspeed as input: converged exactly if the outputs are the flight condition of
the model -/
theorem C114_atmosphere_tas (o : Opts) (e : String → ℝ) : (atmosphere true).rel o e ↔
    ∃ f, Atmos.atmosTas (e "fltcond|h") (e "fltcond|TempIncrement") (e "fltcond|Utrue") = some f ∧ IsFltCond e f := by
  wireOf (atmosphere true) atmosphere_true_links [atmosphere, dTemperatureComp, temperatureComp, dPressureComp, pressureComp,
    dDensity, density, dSpeedOfSound, speedOfSound, dEquivalentAirspeed, equivalentAirspeed, dDynamicPressure, dynamicPressure,
    dMachNumber, machNumber]
  simp only [Atmos.atmosTas, Option.map_eq_some_iff]
  constructor
  · rintro ⟨h1, h2, h3, h4, h5, h6, h7⟩
    refine ⟨_, ⟨_, h2, rfl⟩, ?_⟩
    constructor <;> simp only [h1, h3, h4, h5, h6, h7]
  · rintro ⟨f, ⟨p, h2, rfl⟩, h⟩
    have hp := h.p; have hT := h.T; have hr := h.rho; have ha := h.a; have hu := h.ueas; have hq := h.q; have hm := h.mach
    simp only at hp hT hr ha hu hq hm
    exact ⟨hT.symm, by rw [h2, hp], by rw [hr, hp, hT], by rw [ha, hT], by rw [hu, hr], by rw [hq, hr], by rw [hm, ha]⟩

/-- with the equivalent airspeed as input -/
theorem C114_atmosphere_eas (o : Opts) (e : String → ℝ) : (atmosphere false).rel o e ↔
    ∃ f, Atmos.atmosEas (e "fltcond|h") (e "fltcond|TempIncrement") (e "fltcond|Ueas") = some f ∧ IsFltCond e f := by
  wireOf (atmosphere false) atmosphere_false_links [atmosphere, dTemperatureComp, temperatureComp, dPressureComp, pressureComp,
    dDensity, density, dSpeedOfSound, speedOfSound, dTrueAirspeed, trueAirspeed, dDynamicPressure, dynamicPressure,
    dMachNumber, machNumber]
  simp only [Atmos.atmosEas, Option.map_eq_some_iff]
  constructor
  · rintro ⟨h1, h2, h3, h4, h5, h6, h7⟩
    refine ⟨_, ⟨_, h2, rfl⟩, ?_⟩
    constructor <;> simp only [h1, h3, h4, h5, h6, h7]
  · rintro ⟨f, ⟨p, h2, rfl⟩, h⟩
    have hp := h.p; have hT := h.T; have hr := h.rho; have ha := h.a; have hu := h.utrue; have hq := h.q; have hm := h.mach
    simp only at hp hT hr ha hu hq hm
    exact ⟨hT.symm, by rw [h2, hp], by rw [hr, hp, hT], by rw [ha, hT], by rw [hu, hr], by rw [hq, hr, hu], by rw [hm, ha, hu]⟩

/-- an airplane at rest: wherever the atmosphere has a pressure there is a converged state -/
example (o : Opts) (h p : ℝ) (hp : Atmos.pressure h = some p) :
    ∃ e, (atmosphere true).rel o e ∧ e "fltcond|h" = h ∧ e "fltcond|q" = 0 ∧ e "fltcond|p" = p := by
  let T := Atmos.temperature h 0
  refine ⟨table [("fltcond|h", h), ("fltcond|p", p), ("fltcond|T", T), ("fltcond|rho", Atmos.density p T),
    ("fltcond|a", Atmos.soundSpeed T), ("fltcond|Ueas", Atmos.equivAirspeed (Atmos.density p T) 0)], ?_, ?_, ?_, ?_⟩
  · rw [C114_atmosphere_tas]
    simp only [table, List.lookup, String.reduceBEq, Option.getD_some, Option.getD_none, Atmos.atmosTas, hp, Option.map_some]
    refine ⟨_, rfl, ?_⟩
    constructor <;> simp [table, List.lookup, Atmos.dynPressure, Atmos.mach, T]
  all_goals simp [table, List.lookup]

/-! ### C114: propeller and turboprops -/

/-- the open input `diameter` is wanted in metres and in feet: a propeller needs its diameter connected or a default unit -/
theorem C114_propeller_setup : propeller.problems = [.ambiguous "diameter"] ∧
    propeller.ins = [⟨"shaft_power_in", "W", true, true⟩, ⟨"diameter", "m", false, true⟩, ⟨"rpm", "rpm", true, true⟩,
     ⟨"fltcond|rho", "kg / m ** 3", true, true⟩, ⟨"fltcond|Utrue", "m/s", true, true⟩, ⟨"power_rating", "hp", false, true⟩] := by
  constructor <;> decide +kernel

/-- the propeller maps among the options -/
def Opts.maps (o : Opts) : Propulsion.Maps where
  eta c j := o.map "eta_prop" [c, j]
  ctOverCp c := o.map "ct_over_cp" [c]

/-- inputs of a propeller in the state `e` -/
def coefOf (e : String → ℝ) : Propulsion.CoefIn :=
  ⟨e "shaft_power_in", e "diameter", e "rpm", e "fltcond|rho", e "fltcond|Utrue"⟩

/-- `SimplePropeller` with four blades: thrust of the propeller model; the weight formula reads the power in hp, the diameter in
feet -/
theorem C114_propeller (o : Opts) (e : String → ℝ) : propeller.rel o e ↔
    e "cp" = Propulsion.powerCoef (coefOf e) ∧ e "J" = Propulsion.advanceRatio (coefOf e) ∧
    e "prop_Vtip" = Propulsion.tipSpeed (coefOf e) ∧ e "eta_prop" = o.map "eta_prop" [e "cp", e "J"] ∧
    e "ct_over_cp" = o.map "ct_over_cp" [e "cp"] ∧ e "thrust" = Propulsion.propeller o.maps (coefOf e) ∧
    e "component_weight" = Propulsion.propWeight 4 (e "power_rating") (e "diameter" / 0.3048) := by
  wire propeller propeller_links [dPropCoefficients, propCoefficients, propMap, staticPropMap, dThrustCalc, thrustCalc,
    dPropellerWeight, propellerWeight]
  constructor
  · rintro ⟨⟨h1, h2, h3⟩, h4, h5, h6, h7⟩
    refine ⟨h1.symm, h2.symm, h3.symm, h4, h5, ?_, h7.symm⟩
    rw [← h6, h5, h4, ← h1, ← h2]; rfl
  · rintro ⟨h1, h2, h3, h4, h5, h6, h7⟩
    refine ⟨⟨h1.symm, h2.symm, h3.symm⟩, h4, h5, ?_, h7.symm⟩
    rw [h6, h5, h4, h1, h2]; rfl

/-- `SimpleTurboshaft` as used by the systems -/
theorem heavyTurboshaft_rel (o : Opts) (e : String → ℝ) : heavyTurboshaft.rel o e ↔
    e "shaft_power_out" = (Propulsion.turboshaft Propulsion.turboOpts (e "throttle") (e "shaft_power_rating")).shaft ∧
    e "fuel_flow" = (Propulsion.turboshaft Propulsion.turboOpts (e "throttle") (e "shaft_power_rating")).fuel ∧
    e "component_cost" = (Propulsion.turboshaft Propulsion.turboOpts (e "throttle") (e "shaft_power_rating")).cost ∧
    e "component_weight" = (Propulsion.turboshaft Propulsion.turboOpts (e "throttle") (e "shaft_power_rating")).weight ∧
    e "component_sizing_margin" = (Propulsion.turboshaft Propulsion.turboOpts (e "throttle") (e "shaft_power_rating")).margin := by
  simp [heavyTurboshaft, turboshaftDefaults, explicit, dTurboshaft, turboshaft, withOpts, OptVal.get, lit, List.lookup,
    Propulsion.turboOpts, eq_comm]

theorem motor97_rel (o : Opts) (e : String → ℝ) : motor97.rel o e ↔
    e "shaft_power_out" = (Propulsion.motor Propulsion.hybridMotor (e "throttle") (e "elec_power_rating")).shaft ∧
    e "heat_out" = (Propulsion.motor Propulsion.hybridMotor (e "throttle") (e "elec_power_rating")).heat ∧
    e "elec_load" = (Propulsion.motor Propulsion.hybridMotor (e "throttle") (e "elec_power_rating")).elecLoad ∧
    e "component_cost" = (Propulsion.motor Propulsion.hybridMotor (e "throttle") (e "elec_power_rating")).cost ∧
    e "component_weight" = (Propulsion.motor Propulsion.hybridMotor (e "throttle") (e "elec_power_rating")).weight ∧
    e "component_sizing_margin" = (Propulsion.motor Propulsion.hybridMotor (e "throttle") (e "elec_power_rating")).margin := by
  simp [motor97, motorDefaults, explicit, dMotor, motor, withOpts, OptVal.get, lit, List.lookup, Propulsion.hybridMotor, eq_comm]

theorem generator97_rel (o : Opts) (e : String → ℝ) : generator97.rel o e ↔
    e "elec_power_out" = (Propulsion.generator Propulsion.hybridGen (e "shaft_power_in") (e "elec_power_rating")).elec ∧
    e "heat_out" = (Propulsion.generator Propulsion.hybridGen (e "shaft_power_in") (e "elec_power_rating")).heat ∧
    e "component_cost" = (Propulsion.generator Propulsion.hybridGen (e "shaft_power_in") (e "elec_power_rating")).cost ∧
    e "component_weight" = (Propulsion.generator Propulsion.hybridGen (e "shaft_power_in") (e "elec_power_rating")).weight ∧
    e "component_sizing_margin" = (Propulsion.generator Propulsion.hybridGen (e "shaft_power_in") (e "elec_power_rating")).margin := by
  simp [generator97, generatorDefaults, explicit, dGenerator, generator, withOpts, OptVal.get, lit, List.lookup,
    Propulsion.hybridGen, eq_comm]

/-- inputs of the splitter in the state `e` -/
def splitOf (e : String → ℝ) : Propulsion.SplitIn := ⟨e "power_in", e "power_rating", e "power_split_fraction"⟩

theorem splitDefault_rel (o : Opts) (e : String → ℝ) : splitDefault.rel o e ↔
    e "power_out_A" = (Propulsion.splitCompute .fraction .default (splitOf e)).outA ∧
    e "power_out_B" = (Propulsion.splitCompute .fraction .default (splitOf e)).outB ∧
    e "heat_out" = (Propulsion.splitCompute .fraction .default (splitOf e)).heat ∧
    e "component_cost" = (Propulsion.splitCompute .fraction .default (splitOf e)).cost ∧
    e "component_weight" = (Propulsion.splitCompute .fraction .default (splitOf e)).weight ∧
    e "component_sizing_margin" = (Propulsion.splitCompute .fraction .default (splitOf e)).margin := by
  simp [splitDefault, explicit, dSplitFraction, splitFraction, withOpts, OptVal.get, lit, List.lookup,
    Propulsion.SplitOpts.default, splitOf, eq_comm]

theorem failed_rel (o : Opts) (e : String → ℝ) (out : String) :
    (failed out).rel o e ↔ e out = e "throttle" * e "propulsor_active" := by
  simp [failed, product, MulSys.compute, MulSys.div, MulSys.read]

theorem C114_turboprop_setup : turboprop.problems = [] ∧
    turboprop.ins = [⟨"ac|propulsion|engine|rating", "hp", false, true⟩, ⟨"ac|propulsion|propeller|diameter", "m", false, true⟩,
     ⟨"throttle", "", true, true⟩, ⟨"prop1.rpm", "rpm", true, false⟩, ⟨"fltcond|rho", "kg / m ** 3", true, true⟩,
     ⟨"fltcond|Utrue", "m/s", true, true⟩] := by
  constructor <;> decide +kernel

/-- propeller `name` of a system in the state `e` -/
def sideOf (e : String → ℝ) (diameter rpm : String) : Propulsion.Side :=
  ⟨e diameter, e rpm, e "fltcond|rho", e "fltcond|Utrue"⟩

/-- `TurbopropPropulsionSystem`: thrust and fuel flow are those of the turboprop model with the rating converted from hp, and the
weights are those of engine and propeller -/
theorem C114_turboprop (o : Opts) (e : String → ℝ) (h : turboprop.rel o e) :
    let s := sideOf e "ac|propulsion|propeller|diameter" "prop1.rpm"
    let P := e "ac|propulsion|engine|rating" * 745.7
    let out := Propulsion.singleTurboprop o.maps s (e "throttle") P
    e "thrust" = out.thrust ∧ e "fuel_flow" = out.fuel ∧
    e "eng1.component_weight" = 0.14 / 1000 * P + 104 ∧
    e "prop1.component_weight" =
      Propulsion.propWeight 4 (e "ac|propulsion|engine|rating") (e "ac|propulsion|propeller|diameter" / 0.3048) ∧
    e "eng1_rating" = e "ac|propulsion|engine|rating" ∧ e "prop1_diameter" = e "ac|propulsion|propeller|diameter" := by
  revert h
  parts turboprop [turboprop, heavyTurboshaft_rel, C114_propeller, coefOf]
  views turboprop turboprop_links e
  rintro ⟨⟨d1, d2⟩, ⟨h1, h2, h3, h4, h5⟩, p1, p2, p3, p4, p5, p6, p7⟩
  refine ⟨?_, h2, ?_, p7, d1, d2⟩
  · rw [p6, h1]; rfl
  · rw [h4]; simp only [Propulsion.turboshaft, Propulsion.turboOpts]; ring

/-- an engine of 1 hp at full throttle, standing still, with a map of constant `ct/cp` -/
example : ∃ (o : Opts) (e : String → ℝ), turboprop.rel o e ∧ e "throttle" = 1 ∧ e "thrust" = 745.7 ∧ 0 < e "fuel_flow" := by
  let f : ℝ := (Propulsion.turboshaft Propulsion.turboOpts 1 745.7).fuel
  refine ⟨⟨fun _ => 0, fun _ _ => 1⟩, table [("ac|propulsion|engine|rating", 1), ("eng1_rating", 1),
    ("ac|propulsion|propeller|diameter", 1), ("prop1_diameter", 1), ("throttle", 1), ("prop1.rpm", 60), ("fltcond|rho", 1),
    ("eng1.shaft_power_out", 745.7), ("fuel_flow", f), ("eng1.component_cost", 745.7 * 1.04),
    ("eng1.component_weight", 745.7 * (0.14 / 1000) + 104), ("eng1.component_sizing_margin", 1), ("prop1.cp", 745.7),
    ("prop1.prop_Vtip", Real.pi), ("prop1.eta_prop", 1), ("prop1.ct_over_cp", 1), ("thrust", 745.7),
    ("prop1.component_weight", Propulsion.propWeight 4 1 (1 / 0.3048))], ?_, ?_, ?_, ?_⟩
  · generalize he : table _ = e
    parts turboprop [turboprop, heavyTurboshaft_rel, C114_propeller, coefOf]
    views turboprop turboprop_links e
    simp [← he, table, List.lookup, Propulsion.turboshaft, Propulsion.turboOpts, Propulsion.powerCoef, Propulsion.advanceRatio,
      Propulsion.tipSpeed, Propulsion.propeller, Propulsion.thrust, Propulsion.thrustCoef, Opts.maps, f]
    norm_num
  · simp [table, List.lookup]
  · simp [table, List.lookup]
  · simp only [table, List.lookup, String.reduceBEq, Option.getD_some, f, Propulsion.turboshaft, Propulsion.turboOpts]
    norm_num

theorem C114_twinTurboprop_setup : twinTurboprop.problems = [] ∧
    twinTurboprop.ins = [⟨"throttle", "", true, true⟩, ⟨"ac|propulsion|engine|rating", "hp", false, true⟩,
     ⟨"ac|propulsion|propeller|diameter", "m", false, true⟩, ⟨"prop1.rpm", "rpm", true, false⟩,
     ⟨"fltcond|rho", "kg / m ** 3", true, true⟩, ⟨"fltcond|Utrue", "m/s", true, true⟩, ⟨"prop2.rpm", "rpm", true, false⟩,
     ⟨"propulsor_active", "", true, true⟩] := by
  constructor <;> decide +kernel

/-- `TwinTurbopropPropulsionSystem`: as the model of the twin turboprop; the weights are those of both engines and both propellers,
in kg -/
theorem C114_twinTurboprop (o : Opts) (e : String → ℝ) (h : twinTurboprop.rel o e) :
    let s1 := sideOf e "ac|propulsion|propeller|diameter" "prop1.rpm"
    let s2 := sideOf e "ac|propulsion|propeller|diameter" "prop2.rpm"
    let P := e "ac|propulsion|engine|rating" * 745.7
    let out := Propulsion.twinTurboprop o.maps s1 s2 (e "throttle") (e "propulsor_active") P
    e "thrust" = out.thrust ∧ e "fuel_flow" = out.fuel ∧ e "engines_weight" = 2 * (0.14 / 1000 * P + 104) ∧
    e "propellers_weight" = 2 * (0.45359237 *
      Propulsion.propWeight 4 (e "ac|propulsion|engine|rating") (e "ac|propulsion|propeller|diameter" / 0.3048)) := by
  revert h
  parts twinTurboprop [twinTurboprop, heavyTurboshaft_rel, C114_propeller, coefOf, failed_rel]
  views twinTurboprop twinTurboprop_links e
  rintro ⟨⟨h1, h2, h3, h4, h5⟩, ⟨p1, p2, p3, p4, p5, p6, p7⟩, ⟨g1, g2, g3, g4, g5⟩, ⟨q1, q2, q3, q4, q5, q6, q7⟩, hf,
    a1, a2, a3, a4⟩
  refine ⟨?_, ?_, ?_, ?_⟩
  · rw [a2, p6, q6, h1, g1, hf]; rfl
  · rw [a1, h2, g2, hf]; rfl
  · rw [a3, h4, g4]; simp only [Propulsion.turboshaft, Propulsion.turboOpts]; ring
  · rw [a4, p7, q7]; ring

/-! ### C114: battery -/

theorem C114_socBattery_setup : socBattery97.problems = [] ∧
    socBattery97.ins = [⟨"battery_weight", "kg", false, true⟩, ⟨"elec_load", "W", true, true⟩,
     ⟨"specific_energy", "W * h / kg", false, true⟩, ⟨"duration", "s", false, true⟩, ⟨"SOC_initial", "", false, true⟩] := by
  constructor <;> decide +kernel

/-- `SOCBattery(efficiency=0.97)`, other options at their defaults -/
noncomputable def battOpts97 : Propulsion.BattOpts := ⟨0.97, 5000, 50, 1⟩

/-- `SOCBattery`: the integrator is fed with the rate of the battery model, converted from W/kJ to 1/s -/
theorem C114_socBattery (o : Opts) (e : String → ℝ) : socBattery97.rel o e ↔
    let b := Propulsion.battery battOpts97 (e "battery_weight") (e "elec_load") (e "specific_energy")
    e "heat_out" = b.heat ∧ e "component_cost" = b.cost ∧ e "component_sizing_margin" = b.margin ∧ e "max_energy" = b.maxEnergy ∧
    socBattery97.view e "ode_integ" "dSOCdt" =
      Propulsion.dSOCdt battOpts97 (e "battery_weight") (e "specific_energy") (e "elec_load") := by
  have hb : ∀ V : String → ℝ, (explicit dBattery ([lit "efficiency" 0.97] ++ batteryDefaults)).rel o V ↔
      let b := Propulsion.battery battOpts97 (V "battery_weight") (V "elec_load") (V "specific_energy")
      V "heat_out" = b.heat ∧ V "component_cost" = b.cost ∧ V "component_sizing_margin" = b.margin ∧
      V "max_energy" = b.maxEnergy := by
    intro V
    simp [explicit, dBattery, battery, withOpts, OptVal.get, lit, List.lookup, batteryDefaults, battOpts97, eq_comm]
  have hd : ∀ V : String → ℝ, (product socRate fun n => n != "max_energy").rel o V ↔
      V "dSOCdt" = -(V "elec_load" / V "max_energy") := by
    intro V
    simp [product, socRate, MulSys.compute, MulSys.div, MulSys.read]
  have hs : socBattery97.subs = [⟨"batt_base", explicit dBattery ([lit "efficiency" 0.97] ++ batteryDefaults), .all, .all⟩,
     ⟨"divider", product socRate fun n => n != "max_energy", .all, .all⟩,
     ⟨"ode_integ", integrator "SOC" "" "dSOCdt" "(s)** -1" "SOC_initial" "SOC_final", .all, .all⟩] := rfl
  unfold Grp.rel
  rw [hs]
  simp only [List.forall_mem_cons, List.not_mem_nil, false_imp_iff, implies_true, and_true, hb, hd, integrator, opaque_]
  views socBattery97 socBattery97_links e
  simp only [Propulsion.dSOCdt, Propulsion.battery]
  constructor
  · rintro ⟨⟨h1, h2, h3, h4⟩, h5⟩
    refine ⟨h1, h2, h3, h4, ?_⟩
    rw [h5, h4]; norm_num [neg_div, div_div, mul_assoc]
  · rintro ⟨h1, h2, h3, h4, h5⟩
    refine ⟨⟨h1, h2, h3, h4⟩, ?_⟩
    rw [h4]
    have := congrArg (· * 1000) h5
    simp only [div_mul_cancel₀ _ (by norm_num : (1000 : ℝ) ≠ 0)] at this
    rw [this, show e "battery_weight" * e "specific_energy" * 3600 / 1000 = e "battery_weight" * e "specific_energy" * 3.6 by
      ring]
    ring

/-- the rate in the unit of the integrator -/
theorem socBattery_rate (e : String → ℝ) : socBattery97.view e "ode_integ" "dSOCdt" = e "dSOCdt" / 1000 := by
  views socBattery97 socBattery97_links e

/-- 1 kg with 1000 W h, discharged with 3600 W: one thousandth per second -/
example (o : Opts) (e : String → ℝ) (h : socBattery97.rel o e) (hw : e "battery_weight" = 1) (hs : e "specific_energy" = 1000)
    (hl : e "elec_load" = 3600) : socBattery97.view e "ode_integ" "dSOCdt" = -1 / 1000 ∧ e "heat_out" = 108 := by
  have h := (C114_socBattery o e).1 h
  refine ⟨?_, ?_⟩
  · rw [h.2.2.2.2, hw, hs, hl]; norm_num [Propulsion.dSOCdt, Propulsion.battery]
  · rw [h.1, hw, hs, hl]; norm_num [Propulsion.battery, battOpts97]

end Verif.Wiring
