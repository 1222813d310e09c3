import Verif.Props.WiringHybrids

namespace Verif.Wiring

set_option maxRecDepth 10000

open Verif.Units Verif.VectorComps

variable {m : ℕ}

/-! ### C126: phases of the thermally managed twins -/

theorem seen_once (g : Grp) {l : List Link} (h : g.links = l) (hn : (g.links.map fun k => (k.sub, k.var)).Nodup)
    (E : String → Fin (m + 1) → ℝ) : ∀ k ∈ l, g.seen E k.sub k.var = fun a => conv k.unit k.want (E k.src a) :=
  seen_all g h (by rwa [← h]) E

/-- `oversVar` with a proof that no variable is listed twice -/
macro "oversOnce " "[" xs:Lean.Parser.Tactic.simpLemma,* "] " g:term:max l:ident hn:term:max E:ident
    loc:(Lean.Parser.Tactic.location)? : tactic =>
  `(tactic| (
    have hseen := seen_once $g $l $hn $E
    simp only [List.forall_mem_cons, List.not_mem_nil, false_imp_iff, implies_true, and_true, conv_self, conv_acc, conv_ms2,
      conv_ms3, conv_ms4, conv_ms5, conv_ms6, conv_kn1, conv_kn2, conv_kn3, conv_ft_m, conv_m2a, conv_m2b, conv_rho3,
      conv_Pa] at hseen
    simp only [$xs,*, List.forall_mem_cons, List.not_mem_nil, false_imp_iff, implies_true, and_true, List.cons_append,
      List.nil_append, integrand, aircraftRel, acOf, flipRel, interpRel] $[$loc]?
    try simp only [integRel, List.forall_mem_cons, List.not_mem_nil, false_imp_iff, implies_true, and_true, AddIntegrand.entry]
      $[$loc]?
    try simp (decide := true) only [orDefault_some, orDefault_none, String.reduceAppend, reduceIte] $[$loc]?
    simp only [hseen] $[$loc]?
    clear hseen))

/-- temperature of a heat sink in a group: what its integrator sees -/
theorem sink_seen (T : String → Fin (m + 1) → ℝ) (h : nested liquidCooled "ode_integ" (tempRel "T") T) :
    T "T" = Integrals.integratorCompute (Integrals.simpsonTri m) (T "T_initial" 0) (.duration (T "duration" 0)) (T "base.dTdt") ∧
    ∀ i, T "T_final" i =
      Integrals.integratorFinal (Integrals.simpsonTri m) (T "T_initial" 0) (.duration (T "duration" 0)) (T "base.dTdt") := by
  unfold nested tempRel at h
  have hs := seen_all liquidCooled liquidCooled_links (fast_nodup (by decide +kernel)) T
  simp only [List.forall_mem_cons, List.not_mem_nil, false_imp_iff, implies_true, and_true, conv_self, conv_KS] at hs
  simpa only [hs] using h

theorem reservoir_seen (T : String → Fin (m + 1) → ℝ) (h : nested coolantReservoir "ode_integ" (tempRel "T_out") T) :
    T "T_out" = Integrals.integratorCompute (Integrals.simpsonTri m) (T "T_initial" 0) (.duration (T "duration" 0)) (T "rate.dTdt") ∧
    ∀ i, T "T_final" i =
      Integrals.integratorFinal (Integrals.simpsonTri m) (T "T_initial" 0) (.duration (T "duration" 0)) (T "rate.dTdt") := by
  unfold nested tempRel at h
  have hs := seen_all coolantReservoir coolantReservoir_links (fast_nodup (by decide +kernel)) T
  simp only [List.forall_mem_cons, List.not_mem_nil, false_imp_iff, implies_true, and_true, conv_self, conv_KS] at hs
  simpa only [hs] using h

theorem bypass_seen (T : String → Fin (m + 1) → ℝ) (h : nested (chiller false) "li" interpRel T) :
    ∀ a, T "bypass" a = Aero.linspace (T "control.bypass_start" 0) (T "control.bypass_end" 0) (m + 1) a := by
  unfold nested interpRel at h
  have hs := seen_all (chiller false) chiller_false_links (fast_nodup (by decide +kernel)) T
  simp only [List.forall_mem_cons, List.not_mem_nil, false_imp_iff, implies_true, and_true, conv_self] at hs
  simpa only [hs] using h

set_option maxHeartbeats 4000000 in
/-- the variables of battery, heat sinks and reservoir in the propulsion system and in the airplane -/
theorem passive_seen (flight : Bool) (c : String) (hc : c ∈ cd0Names) (E : String → Fin (m + 1) → ℝ) :
    let P := (passiveTwinGrp flight c).seen E "propmodel"
    (∀ s ∈ ["batt1"], ∀ x ∈ ["SOC", "SOC_final", "SOC_initial", "dSOCdt"],
      passiveHybrid.seen P s x = E ("propmodel." ++ s ++ "." ++ x)) ∧
    (∀ s ∈ ["batteryheatsink", "motorheatsink"], ∀ x ∈ ["T", "T_final", "T_initial", "base.dTdt"],
      passiveHybrid.seen P s x = E ("propmodel." ++ s ++ "." ++ x)) ∧
    (∀ s ∈ ["reservoir"], ∀ x ∈ ["T_out", "T_final", "T_initial", "rate.dTdt"],
      passiveHybrid.seen P s x = E ("propmodel." ++ s ++ "." ++ x)) ∧
    ∀ s ∈ ["batt1", "batteryheatsink", "motorheatsink", "reservoir"], passiveHybrid.seen P s "duration" = E "duration" := by
  have hl := (passiveTwinGrp_eval flight c hc).1
  have h1 := seen_all passiveHybrid passiveHybrid_links (fast_nodup (by decide +kernel)) ((passiveTwinGrp flight c).seen E "propmodel")
  have h2 := seen_once (passiveTwinGrp flight c) hl (passiveTwinGrp_nodup flight c hc) E
  simp only [List.forall_mem_cons, List.not_mem_nil, false_imp_iff, implies_true, and_true, conv_self] at h1 h2
  simp only [List.forall_mem_cons, List.not_mem_nil, false_imp_iff, implies_true, and_true, String.reduceAppend, h1, h2, and_self]

set_option maxHeartbeats 4000000 in
theorem active_seen (flight : Bool) (c : String) (hc : c ∈ cd0Names) (E : String → Fin (m + 1) → ℝ) :
    let P := (activeTwinGrp flight c).seen E "propmodel"
    (∀ s ∈ ["batt1"], ∀ x ∈ ["SOC", "SOC_final", "SOC_initial", "dSOCdt"],
      refrigeratedHybrid.seen P s x = E ("propmodel." ++ s ++ "." ++ x)) ∧
    (∀ s ∈ ["batteryheatsink", "motorheatsink"], ∀ x ∈ ["T", "T_final", "T_initial", "base.dTdt"],
      refrigeratedHybrid.seen P s x = E ("propmodel." ++ s ++ "." ++ x)) ∧
    (∀ s ∈ ["refrig"], ∀ x ∈ ["bypass", "control.bypass_start", "control.bypass_end"],
      refrigeratedHybrid.seen P s x = E ("propmodel." ++ s ++ "." ++ x)) ∧
    ∀ s ∈ ["batt1", "batteryheatsink", "motorheatsink"], refrigeratedHybrid.seen P s "duration" = E "duration" := by
  have hl := (activeTwinGrp_eval flight c hc).1
  have h1 := seen_all refrigeratedHybrid refrigeratedHybrid_links (fast_nodup (by decide +kernel)) ((activeTwinGrp flight c).seen E "propmodel")
  have h2 := seen_once (activeTwinGrp flight c) hl (activeTwinGrp_nodup flight c hc) E
  simp only [List.forall_mem_cons, List.not_mem_nil, false_imp_iff, implies_true, and_true, conv_self] at h1 h2
  simp only [List.forall_mem_cons, List.not_mem_nil, false_imp_iff, implies_true, and_true, String.reduceAppend, h1, h2, and_self]

/-- the power train over the phase: the share of the battery is that of the phase -/
noncomputable def phaseTrain (o : Opts) (E : String → Fin (m + 1) → ℝ) (extra : Fin (m + 1) → ℝ) (a : Fin (m + 1)) : Propulsion.HybridOut :=
  trainOut o (fun n => E n a) (E "hybridization" 0) (extra a)

/-- fuel flow -/
noncomputable def fuelLeg (o : Opts) (E : String → Fin (m + 1) → ℝ) (extra : Fin (m + 1) → ℝ) : Aircraft.Seg m :=
  ⟨fun a => (phaseTrain o E extra a).fuel, E "duration" 0⟩

/-- rate of the state of charge -/
noncomputable def chargeLeg (o : Opts) (E : String → Fin (m + 1) → ℝ) (extra : Fin (m + 1) → ℝ) : Aircraft.Seg m :=
  ⟨fun a => Propulsion.dSOCdt HybridTwin.battOpts (E "ac|weights|W_battery" a) (E "ac|propulsion|battery|specific_energy" a)
    (phaseTrain o E extra a).batteryLoad, E "duration" 0⟩

/-- rate of the battery's temperature: 3 % of its load less what coolant of the temperature `Tin` takes up -/
noncomputable def batteryTempLeg (o : Opts) (E : String → Fin (m + 1) → ℝ) (extra Tin : Fin (m + 1) → ℝ) : Aircraft.Seg m :=
  ⟨fun a => Thermal.massDTdt (o "specific_heat_object") (0.03 * (phaseTrain o E extra a).batteryLoad)
    (Thermal.plateQ (coolPlate o fun n => E n a) (Tin a) (E "propmodel.batteryheatsink.T" a) 0.1) (E "ac|weights|W_battery" a),
    E "duration" 0⟩

/-- rate of the motors' temperature: their losses less what the coolant behind the battery takes up -/
noncomputable def motorTempLeg (o : Opts) (E : String → Fin (m + 1) → ℝ) (extra Tin : Fin (m + 1) → ℝ) : Aircraft.Seg m :=
  ⟨fun a => Thermal.massDTdt (o "specific_heat_object") (phaseTrain o E extra a).motorHeat
    (Thermal.plateQ (coolPlate o fun n => E n a)
      (Thermal.plateTout (coolPlate o fun n => E n a) (Tin a) (E "propmodel.batteryheatsink.T" a) 0.1)
      (E "propmodel.motorheatsink.T" a) 0.1)
    (2 * (E "ac|propulsion|motor|rating" a * 1000 * (1 / 5000))), E "duration" 0⟩

/-- the state `E` of the phase is one of a thermally managed twin: `extra` load of the battery besides the motors, coolant at `Tin` before
the battery and at `Thot` before the heat exchanger, a nozzle of the area `area` (m²); `limit` is the area `hxadder` compares -/
structure IsThermalTwin (o : Opts) (phase : String) (E : String → Fin (m + 1) → ℝ) (extra Tin Thot area limit : Fin (m + 1) → ℝ) :
    Prop where
  /-- battery only on the ground, engine only in flight, unless the phase is given another value -/
  default : E "hybridization" 0 = Aircraft.hybridization phase
  converged : ∀ a, (phaseTrain o E extra a).residual = 0
  thrust : ∀ a, E "thrust" a = (phaseTrain o E extra a).thrust
  drag : ∀ a, E "drag" a = phaseDrag phase E a +
    Ducts.ductDrag 0.15 0.98 (E "fltcond|Utrue" a) (E "fltcond|rho" a) (area a) (E "propmodel.hx.delta_p_cold" a)
  weight : E "weight" = Aircraft.weight (E "ac|weights|MTOW" 0 * 0.45359237)
    (Aircraft.segFuel (Integrals.simpsonTri m) (E "fuel_used_initial" 0) (fuelLeg o E extra))
  fuel : E "fuel_used_final" 0 = Aircraft.segFinal (Integrals.simpsonTri m) (E "fuel_used_initial" 0) (fuelLeg o E extra)
  soc : E "propmodel.batt1.SOC" =
    Aircraft.segFuel (Integrals.simpsonTri m) (E "propmodel.batt1.SOC_initial" 0) (chargeLeg o E extra)
  socFinal : E "propmodel.batt1.SOC_final" 0 =
    Aircraft.segFinal (Integrals.simpsonTri m) (E "propmodel.batt1.SOC_initial" 0) (chargeLeg o E extra)
  battery : E "propmodel.batteryheatsink.T" =
    Aircraft.segFuel (Integrals.simpsonTri m) (E "propmodel.batteryheatsink.T_initial" 0) (batteryTempLeg o E extra Tin)
  batteryFinal : E "propmodel.batteryheatsink.T_final" 0 =
    Aircraft.segFinal (Integrals.simpsonTri m) (E "propmodel.batteryheatsink.T_initial" 0) (batteryTempLeg o E extra Tin)
  motors : E "propmodel.motorheatsink.T" =
    Aircraft.segFuel (Integrals.simpsonTri m) (E "propmodel.motorheatsink.T_initial" 0) (motorTempLeg o E extra Tin)
  motorsFinal : E "propmodel.motorheatsink.T_final" 0 =
    Aircraft.segFinal (Integrals.simpsonTri m) (E "propmodel.motorheatsink.T_initial" 0) (motorTempLeg o E extra Tin)
  /-- coolant behind the motors -/
  behind : ∀ a, E "propmodel.motorheatsink.T_out" a = Thermal.plateTout (coolPlate o fun n => E n a)
    (Thermal.plateTout (coolPlate o fun n => E n a) (Tin a) (E "propmodel.batteryheatsink.T" a) 0.1) (E "propmodel.motorheatsink.T" a) 0.1
  exchanger : ∀ a, E "propmodel.hx.T_out_hot" a = cooled (fun n => E n a) (Thot a)
  air : ∀ a, E "propmodel.duct.mdot" a =
    Ducts.ductMdot 0.15 (E "fltcond|Utrue" a) (E "fltcond|rho" a) (area a) (E "propmodel.hx.delta_p_cold" a)
  empty : E "OEW" 0 = Weights.runTwin ((hybridEmptyOf (fun n => E n 0)
    ((0.14 / 1000 * (E "ac|propulsion|engine|rating" 0 * 1000) + 104) / 0.45359237)
    (2 * Propulsion.propWeight 4 (E "ac|propulsion|motor|rating" 0 * 1000 / 745.7) (E "ac|propulsion|propeller|diameter" 0 / 0.3048))
    (2 * (E "ac|propulsion|motor|rating" 0 * 1000 * (1 / 5000)) / 0.45359237)
    (E "ac|propulsion|generator|rating" 0 * 1000 * (1 / 5000) / 0.45359237)).env fun n => E n 0) "OEW" * 0.45359237
    + (coolGeo fun n => E n 0).weight + E "ac|propulsion|thermal|hx|coolant_mass" 0
  /-- `area_constraint ≤ 0` says that the nozzle is at some node at least as large as the heat exchanger -/
  constraint : E "hxadder.area_constraint" 0 ≤ 0 ↔ ∃ a, (coolGeo fun n => E n 0).frontal ≤ limit a

theorem amax_le_iff {n : ℕ} (x : Fin (n + 1) → ℝ) (t : ℝ) : t - Utils.amax x ≤ 0 ↔ ∃ a, t ≤ x a := by
  obtain ⟨⟨k, hk⟩, h⟩ := Utils.C18_max x
  rw [sub_nonpos]
  exact ⟨fun ht => ⟨k, by rw [hk]; exact ht⟩, fun ⟨a, ha⟩ => ha.trans (h ⟨a, rfl⟩)⟩

/-- common part of both twins -/
theorem thermal_phase {o : Opts} {phase : String} {E : String → Fin (m + 1) → ℝ} {extra Tin Thot area limit : Fin (m + 1) → ℝ}
    (hn : ∀ a, ThermalNode o (decide (phase ∈ ["climb", "cruise", "descent"])) (Aircraft.cd0Source phase) (fun n => E n a)
      (trainOut o (fun n => E n a) (E "hybrid_factor.vec" a) (extra a)) (Tin a) (Thot a) (area a))
    (hs : ∀ n ∈ polarNames (Aircraft.cd0Source phase), ∀ a, E n a = E n 0)
    (hi : ∀ a : Fin (m + 1), E "hybrid_factor.vec" a = Aero.linspace (E "hybridization" 0) (E "hybridization" 0) (m + 1) a)
    (hb : E "propmodel.batt1.SOC" = Integrals.integratorCompute (Integrals.simpsonTri m) (E "propmodel.batt1.SOC_initial" 0)
        (.duration (E "duration" 0)) (fun a => E "propmodel.batt1.dSOCdt" a / 1000) ∧
      ∀ i, E "propmodel.batt1.SOC_final" i = Integrals.integratorFinal (Integrals.simpsonTri m) (E "propmodel.batt1.SOC_initial" 0)
        (.duration (E "duration" 0)) (fun a => E "propmodel.batt1.dSOCdt" a / 1000))
    (h1 : E "propmodel.batteryheatsink.T" = Integrals.integratorCompute (Integrals.simpsonTri m)
        (E "propmodel.batteryheatsink.T_initial" 0) (.duration (E "duration" 0)) (E "propmodel.batteryheatsink.base.dTdt") ∧
      ∀ i, E "propmodel.batteryheatsink.T_final" i = Integrals.integratorFinal (Integrals.simpsonTri m)
        (E "propmodel.batteryheatsink.T_initial" 0) (.duration (E "duration" 0)) (E "propmodel.batteryheatsink.base.dTdt"))
    (h2 : E "propmodel.motorheatsink.T" = Integrals.integratorCompute (Integrals.simpsonTri m)
        (E "propmodel.motorheatsink.T_initial" 0) (.duration (E "duration" 0)) (E "propmodel.motorheatsink.base.dTdt") ∧
      ∀ i, E "propmodel.motorheatsink.T_final" i = Integrals.integratorFinal (Integrals.simpsonTri m)
        (E "propmodel.motorheatsink.T_initial" 0) (.duration (E "duration" 0)) (E "propmodel.motorheatsink.base.dTdt"))
    (hm : ∀ a, E "nozzle_area.max" a = Utils.amax limit)
    (hf : E "fuel_used" = Integrals.integratorCompute (Integrals.simpsonTri m) (E "fuel_used_initial" 0) (.duration (E "duration" 0))
        (E "fuel_flow") ∧
      ∀ i, E "fuel_used_final" i = Integrals.integratorFinal (Integrals.simpsonTri m) (E "fuel_used_initial" 0)
        (.duration (E "duration" 0)) (E "fuel_flow")) :
    IsThermalTwin o phase E extra Tin Thot area limit := by
  have hv : ∀ a : Fin (m + 1), E "hybrid_factor.vec" a = E "hybridization" 0 := fun a => by rw [hi a]; simp [Aero.linspace]
  simp only [hv] at hn
  have hd := drag_phase (phase := phase) (E := E) hs
  have hW : ∀ a, E "ac|weights|MTOW" a = E "ac|weights|MTOW" 0 := hs _ (by simp [polarNames])
  have r1 : (fun a => E "propmodel.batt1.dSOCdt" a / 1000) = (chargeLeg o E extra).flow := funext fun a => (hn a).rate
  have r2 : E "propmodel.batteryheatsink.base.dTdt" = (batteryTempLeg o E extra Tin).flow := funext fun a => (hn a).battery
  have r3 : E "propmodel.motorheatsink.base.dTdt" = (motorTempLeg o E extra Tin).flow := funext fun a => by
    have := (hn a).motors
    rw [(hn a).batteryOut] at this
    exact this
  have r4 : E "fuel_flow" = (fuelLeg o E extra).flow := funext fun a => (hn a).flow
  rw [r1] at hb
  rw [r2] at h1
  rw [r3] at h2
  rw [r4] at hf
  refine ⟨?_, fun a => (hn a).balanced, fun a => (hn a).thrust, fun a => ?_, ?_, hf.2 0, hb.1, hb.2 0, h1.1, h1.2 0, h2.1, h2.2 0,
    fun a => ?_, fun a => (hn a).exchanger, fun a => (hn a).air, (hn 0).empty, ?_⟩
  · have := (hn 0).hyb
    simp only [Aircraft.hybridization, this, decide_eq_true_eq]
  · rw [(hn a).drag, hd a]
  · funext a
    rw [(hn a).weight, Aircraft.C92_weight, hW a, hf.1]
    rfl
  · have := (hn a).motorsOut
    rw [(hn a).batteryOut] at this
    exact this
  · have := (hn 0).constraint
    rw [this, hm 0, amax_le_iff]

set_option maxHeartbeats 4000000 in
/-- **C126** (hybrid twin with a radiator).  In a converged state of `SeriesHybridTwinModel` of HybridTwin_thermal.py in any flight phase
the coolant runs from the reservoir through battery, motors and heat exchanger back to the reservoir, the temperatures of battery,
motors and reservoir are the integrals of their heat balances, charge and fuel those of what the power train takes, the drag of the duct
adds to that of the airframe and heat exchanger and coolant add to the empty weight. -/
theorem C126_passive (o : Opts) (phase : String) (E : String → Fin (m + 1) → ℝ) (h1 : o "fouling_factor_cold" = 0)
    (h2 : o "fouling_factor_hot" = 0) (h : (passiveTwinPhase phase).Rel o E) :
    IsThermalTwin o phase E (fun _ => 0) (E "propmodel.reservoir.T_out") (E "propmodel.motorheatsink.T_out")
      (fun a => E "ac|propulsion|thermal|duct|area_nozzle" a * 0.0254 ^ 2)
      (fun a => E "ac|propulsion|thermal|duct|area_nozzle" a * 0.0254 ^ 2) ∧
    E "propmodel.reservoir.T_out" = Aircraft.segFuel (Integrals.simpsonTri m) (E "propmodel.reservoir.T_initial" 0)
      ⟨fun a => Thermal.reservoirRate (E "propmodel.hx.T_out_hot" a) (E "propmodel.reservoir.T_out" a) 0.1
        (E "ac|propulsion|thermal|hx|coolant_mass" a), E "duration" 0⟩ ∧
    E "propmodel.reservoir.T_final" 0 = Aircraft.segFinal (Integrals.simpsonTri m) (E "propmodel.reservoir.T_initial" 0)
      ⟨fun a => Thermal.reservoirRate (E "propmodel.hx.T_out_hot" a) (E "propmodel.reservoir.T_out" a) 0.1
        (E "ac|propulsion|thermal|hx|coolant_mass" a), E "duration" 0⟩ := by
  have hc := cd0Source_mem phase
  have hn := fun a => passive_node _ _ hc o _ h1 h2 (h.node a)
  have hs : ∀ n ∈ polarNames (Aircraft.cd0Source phase), ∀ a, E n a = E n 0 :=
    scalars_of h _ (passiveTwinGrp_eval _ _ hc).2
  have hl := (passiveTwinGrp_eval (decide (phase ∈ ["climb", "cruise", "descent"])) _ hc).1
  have ho := h.over
  clear h
  simp only [passiveTwinPhase, thermalCoupled, List.cons_append, List.nil_append, List.forall_mem_cons, List.not_mem_nil, false_imp_iff,
    implies_true, and_true] at ho
  obtain ⟨hi, hb, ht1, ht2, hm, hf, hr⟩ := ho
  oversOnce [interpRel, maxRel, fuelIntegrand] (passiveTwinGrp (decide (phase ∈ ["climb", "cruise", "descent"])) (Aircraft.cd0Source phase)) hl
    (passiveTwinGrp_nodup _ _ hc) E at hi hm hf
  simp only [conv_flow] at hf
  simp only [conv_inch2] at hm
  have b := soc_seen _ hb
  have t1 := sink_seen _ ht1
  have t2 := sink_seen _ ht2
  have r := reservoir_seen _ hr
  obtain ⟨v1, v2, v3, v4⟩ := passive_seen (decide (phase ∈ ["climb", "cruise", "descent"])) _ hc E
  simp only [List.forall_mem_cons, List.not_mem_nil, false_imp_iff, implies_true, and_true, String.reduceAppend] at v1 v2 v3 v4
  simp only [v1, v4] at b
  simp only [v2, v4] at t1 t2
  simp only [v3, v4] at r
  have e : E "propmodel.reservoir.rate.dTdt" = fun a => Thermal.reservoirRate (E "propmodel.hx.T_out_hot" a)
      (E "propmodel.reservoir.T_out" a) 0.1 (E "ac|propulsion|thermal|hx|coolant_mass" a) := funext fun a => (hn a).2
  rw [e] at r
  exact ⟨thermal_phase (fun a => (hn a).1) hs hi b t1 t2 hm hf, r.1, r.2 0⟩

set_option maxHeartbeats 4000000 in
/-- **C126** (hybrid twin with a refrigerator).  The same for HybridTwin_active_thermal.py: no reservoir, but a refrigerator between the
hot side (behind the motors, through the heat exchanger) and the cold side, whose electric power loads the battery and the generator and
whose bypass runs linearly over the phase. -/
theorem C126_active (o : Opts) (phase : String) (E : String → Fin (m + 1) → ℝ) (h1 : o "fouling_factor_cold" = 0)
    (h2 : o "fouling_factor_hot" = 0) (h : (activeTwinPhase phase).Rel o E) :
    IsThermalTwin o phase E (fun a => Thermal.selLoad (refrigNode o fun n => E n a).sel)
      (fun a => Thermal.selCold (refrigNode o fun n => E n a).sel) (fun a => Thermal.selHot (refrigNode o fun n => E n a).sel)
      (E "propmodel.duct.area_nozzle") (fun a => E "ac|propulsion|thermal|duct|area_nozzle" a * 0.0254 ^ 2) ∧
    (∀ a, (refrigNode o fun n => E n a).converged) ∧
    (∀ a : Fin (m + 1), E "propmodel.refrig.bypass" a =
      Aero.linspace (E "propmodel.refrig.control.bypass_start" 0) (E "propmodel.refrig.control.bypass_end" 0) (m + 1) a) := by
  have hc := cd0Source_mem phase
  have hn := fun a => active_node _ _ hc o _ h1 h2 (h.node a)
  have hs : ∀ n ∈ polarNames (Aircraft.cd0Source phase), ∀ a, E n a = E n 0 :=
    scalars_of h _ (activeTwinGrp_eval _ _ hc).2
  have hl := (activeTwinGrp_eval (decide (phase ∈ ["climb", "cruise", "descent"])) _ hc).1
  have ho := h.over
  clear h
  simp only [activeTwinPhase, thermalCoupled, List.cons_append, List.nil_append, List.forall_mem_cons, List.not_mem_nil, false_imp_iff,
    implies_true, and_true] at ho
  obtain ⟨hi, hb, ht1, ht2, hm, hf, hr⟩ := ho
  oversOnce [interpRel, maxRel, fuelIntegrand] (activeTwinGrp (decide (phase ∈ ["climb", "cruise", "descent"])) (Aircraft.cd0Source phase)) hl
    (activeTwinGrp_nodup _ _ hc) E at hi hm hf
  simp only [conv_flow] at hf
  have b := soc_seen _ hb
  have t1 := sink_seen _ ht1
  have t2 := sink_seen _ ht2
  have r := bypass_seen _ hr
  obtain ⟨v1, v2, v3, v4⟩ := active_seen (decide (phase ∈ ["climb", "cruise", "descent"])) _ hc E
  simp only [List.forall_mem_cons, List.not_mem_nil, false_imp_iff, implies_true, and_true, String.reduceAppend] at v1 v2 v3 v4
  simp only [v1, v4] at b
  simp only [v2, v4] at t1 t2
  simp only [v3] at r
  have e : ∀ a, E "propmodel.area_nozzle" a = E "ac|propulsion|thermal|duct|area_nozzle" a := fun a => (hn a).2.2.2
  simp only [conv_inch2, e] at hm
  exact ⟨thermal_phase (fun a => (hn a).1) hs hi b t1 t2 hm hf, fun a => (hn a).2.1, r⟩

end Verif.Wiring
