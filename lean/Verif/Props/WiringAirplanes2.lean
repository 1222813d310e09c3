import Verif.Proof.WiringAirplanes2
import Verif.Props.WiringAirplanes
import Verif.Props.WiringHybrid
import Verif.Props.WiringElectric
import Verif.Props.WiringDrag
import Verif.Props.HybridTwin
import Verif.Props.Aircraft
import Verif.Props.Tutorial2

namespace Verif.Wiring

open Verif.Units Verif.VectorComps
open Verif.Bfl (Craft)

variable {m : ℕ}

/-! ### C124: the jet, the series hybrid and the electric airplane -/

/-- the outputs the mission reads of the aircraft model are there -/
def hasOutputs (g : Grp) : Prop := ∀ v ∈ aircraft.outs, ∃ w ∈ g.outs, w.name = v.name ∧ kind w.unit = kind v.unit ∧ w.vec = v.vec

theorem C124_b738_setup (phase : String) :
    (b738Grp (Aircraft.cd0Source phase)).problems = [] ∧ (fed b738Dvs (b738Grp (Aircraft.cd0Source phase))).problems = [] ∧
    missionInputs [⟨"ode_integ.duration", "s", false, false⟩, ⟨"fuel_used_initial", "kg", false, true⟩, ⟨"fltcond|h", "ft", true, true⟩]
      (fed b738Dvs (b738Grp (Aircraft.cd0Source phase))).ins ∧
    hasOutputs (b738Grp (Aircraft.cd0Source phase)) := by
  have h := cd0Source_mem phase
  generalize Aircraft.cd0Source phase = c at h
  unfold missionInputs hasOutputs
  revert c
  unfold cd0Names
  decide +kernel

theorem C124_hybridTwin_setup (phase : String) (flight : Bool) :
    (fed hybridTwinDvs (hybridTwinGrp flight (Aircraft.cd0Source phase))).problems = [] ∧
    missionInputs [⟨"propmodel.hybrid_split.power_rating", "W", false, false⟩, ⟨"propmodel.batt1.SOC_initial", "", false, false⟩,
      ⟨"fuel_used_initial", "kg", false, true⟩] (fed hybridTwinDvs (hybridTwinGrp flight (Aircraft.cd0Source phase))).ins ∧
    hasOutputs (hybridTwinGrp flight (Aircraft.cd0Source phase)) := by
  have h := cd0Source_mem phase
  generalize Aircraft.cd0Source phase = c at h
  unfold missionInputs hasOutputs
  revert c flight
  unfold cd0Names
  decide +kernel

/-- a jet in the state `e`: what holds at every node -/
structure JetNode (o : Opts) (cd0 : String) (e : String → ℝ) : Prop where
  /-- two engines, from the deck in lbf to kN -/
  thrust : e "thrust" = 2 * (o.map "thrust" [e "throttle", e "fltcond|h", e "fltcond|M"] * (0.45359237 * 9.80665) / 1000)
  flow : e "fuel_flow" = 2 * (o.map "fuel_flow" [e "throttle", e "fltcond|h", e "fltcond|M"] * 0.45359237)
  drag : e "drag" = Aero.drag ⟨e "fltcond|q", e "ac|geom|wing|S_ref", e cd0, e "fltcond|CL", e "ac|aero|polar|e", e "ac|geom|wing|AR"⟩
  weight : e "weight" = e "ac|weights|MTOW" - e "fuel_used"
  empty : e "OEW" = e "ac|weights|OEW"

theorem b738_node (c : String) (hc : c ∈ cd0Names) (o : Opts) (e : String → ℝ) (h : (b738Grp c).rel o e) : JetNode o c e := by
  have hl := b738Grp_links c hc
  revert h
  parts (b738Grp c) [b738Grp, engineDeck_rel, doubler, passthru, polarSub, polarDrag_rel, weightSub, weightSys_rel, integ_rel]
  viewsVar (b738Grp c) hl e
  simp only [conv_lbf_kN, conv_lbm_kg, Aircraft.doubled]
  rintro ⟨⟨h1, h2, -⟩, ⟨h3, h4⟩, h5, h6, h7⟩
  exact ⟨by rw [h3, h1], by rw [h4, h2], h5, h7, h6⟩

/-- the fuel flow of the jet over a phase -/
noncomputable def jetSeg (o : Opts) (E : String → Fin (m + 1) → ℝ) : Aircraft.Seg m :=
  ⟨fun a => 2 * (o.map "fuel_flow" [E "throttle" a, E "fltcond|h" a, E "fltcond|M" a] * 0.45359237), E "duration" 0⟩

/-- the scalars a polar and a weight are read from -/
def polarNames (c : String) : List String := ["ac|weights|MTOW", "ac|geom|wing|S_ref", "ac|geom|wing|AR", "ac|aero|polar|e", c]

/-- the drag at the nodes of the phase -/
noncomputable def phaseDrag (phase : String) (E : String → Fin (m + 1) → ℝ) (a : Fin (m + 1)) : ℝ :=
  Aero.drag ⟨E "fltcond|q" a, E "ac|geom|wing|S_ref" 0,
    if phase ∈ ["v0v1", "v1v0", "v1vr", "rotate"] then E "ac|aero|polar|CD0_TO" 0 else E "ac|aero|polar|CD0_cruise" 0,
    E "fltcond|CL" a, E "ac|aero|polar|e" 0, E "ac|geom|wing|AR" 0⟩

theorem drag_phase {phase : String} {E : String → Fin (m + 1) → ℝ}
    (hs : ∀ n ∈ polarNames (Aircraft.cd0Source phase), ∀ a, E n a = E n 0) (a : Fin (m + 1)) :
    Aero.drag ⟨E "fltcond|q" a, E "ac|geom|wing|S_ref" a, E (Aircraft.cd0Source phase) a, E "fltcond|CL" a, E "ac|aero|polar|e" a,
      E "ac|geom|wing|AR" a⟩ = phaseDrag phase E a := by
  simp only [polarNames, List.forall_mem_cons, List.not_mem_nil, false_imp_iff, implies_true, and_true] at hs
  obtain ⟨-, s2, s3, s4, s5⟩ := hs
  unfold phaseDrag
  rw [s2 a, s3 a, s4 a, s5 a]
  unfold Aircraft.cd0Source
  split_ifs with h1 <;> simp_all

/-- **C124** (Boeing 737-800).  In a converged state of `B738AirplaneModel` in any flight phase thrust and fuel flow are twice those of
the engine deck, the drag is that of the polar of the phase, the weight is the take-off weight less the integrated fuel flow, and that
integral is handed to the next phase.  The phase connects its duration to that of the integrator (`PhaseGroup.configure`). -/
theorem C124_b738 (o : Opts) (phase : String) (E : String → Fin (m + 1) → ℝ) (h : (b738Phase phase).Rel o E)
    (hT : E "ode_integ.duration" 0 = E "duration" 0) :
    (∀ a, E "thrust" a = 2 * (o.map "thrust" [E "throttle" a, E "fltcond|h" a, E "fltcond|M" a] * (0.45359237 * 9.80665) / 1000)) ∧
    E "fuel_flow" = (jetSeg o E).flow ∧ (∀ a, E "drag" a = phaseDrag phase E a) ∧
    E "weight" = Aircraft.weight (E "ac|weights|MTOW" 0) (Aircraft.segFuel (Integrals.simpsonTri m) (E "fuel_used_initial" 0) (jetSeg o E)) ∧
    E "fuel_used_final" 0 = Aircraft.segFinal (Integrals.simpsonTri m) (E "fuel_used_initial" 0) (jetSeg o E) ∧
    E "OEW" 0 = E "ac|weights|OEW" 0 := by
  have hc := cd0Source_mem phase
  have hn := fun a => b738_node _ hc o _ (h.node a)
  have hs : ∀ n ∈ polarNames (Aircraft.cd0Source phase), ∀ a, E n a = E n 0 :=
    scalars_of h _ (by simp only [b738Phase]; generalize Aircraft.cd0Source phase = c at hc; revert c; unfold cd0Names; decide +kernel)
  have hl := b738Grp_links _ hc
  have ho := h.over
  clear h
  simp only [b738Phase] at ho
  oversVar [fuelIntegrand] (b738Grp (Aircraft.cd0Source phase)) hl E at ho
  simp only [conv_flow] at ho
  obtain ⟨h1, h2⟩ := ho
  rw [hT] at h1 h2
  have hf : E "fuel_flow" = (jetSeg o E).flow := funext fun a => (hn a).flow
  refine ⟨fun a => (hn a).thrust, hf, fun a => ?_, ?_, ?_, (hn 0).empty⟩
  · rw [(hn a).drag, drag_phase hs]
  · funext a
    have h1' : E "fuel_used" = _ := h1
    rw [(hn a).weight, Aircraft.C92_weight, hs _ (by simp [polarNames]) a, h1']
    unfold Aircraft.segFuel
    rw [← hf]
    rfl
  · rw [h2 0]
    unfold Aircraft.segFinal
    rw [← hf]
    rfl

/-- the state of the jet over the inputs `I` -/
noncomputable def jetState (o : Opts) (phase : String) (I : String → Fin (m + 1) → ℝ) (n : String) : Fin (m + 1) → ℝ :=
  let deck v a := o.map v [I "throttle" a, I "fltcond|h" a, I "fltcond|M" a]
  let flow a := 2 * (deck "fuel_flow" a * 0.45359237)
  let fuel := Integrals.integratorCompute (Integrals.simpsonTri m) (I "fuel_used_initial" 0) (.duration (I "ode_integ.duration" 0)) flow
  if n = "propmodel.thrust" then deck "thrust"
  else if n = "propmodel.fuel_flow" then deck "fuel_flow"
  else if n = "propmodel.T4" then deck "T4"
  else if n = "thrust" then fun a => 2 * (deck "thrust" a * (0.45359237 * 9.80665) / 1000)
  else if n = "fuel_flow" then flow
  else if n = "fuel_used" then fuel
  else if n = "fuel_used_final" then fun _ => Integrals.integratorFinal (Integrals.simpsonTri m) (I "fuel_used_initial" 0)
    (.duration (I "ode_integ.duration" 0)) flow
  else if n = "drag" then fun a => Aero.drag ⟨I "fltcond|q" a, I "ac|geom|wing|S_ref" a, I (Aircraft.cd0Source phase) a,
    I "fltcond|CL" a, I "ac|aero|polar|e" a, I "ac|geom|wing|AR" a⟩
  else if n = "OEW" then I "ac|weights|OEW"
  else if n = "weight" then fun a => I "ac|weights|MTOW" a - fuel a
  else I n

/-- for every flight there is a converged state of the jet -/
theorem C124_b738_exists (o : Opts) (phase : String) (I : String → Fin (m + 1) → ℝ)
    (hI : ∀ v ∈ (b738Grp (Aircraft.cd0Source phase)).ins, v.vec = false → ∀ a, I v.name a = I v.name 0) :
    ∃ E, (b738Phase phase).Rel o E ∧ E "duration" = I "duration" ∧
      ∀ v ∈ (b738Grp (Aircraft.cd0Source phase)).ins, E v.name = I v.name := by
  have hc := cd0Source_mem phase
  have hl := b738Grp_links _ hc
  have hin : ∀ v ∈ (b738Grp (Aircraft.cd0Source phase)).ins, jetState o phase I v.name = I v.name := by
    have : ∀ v ∈ (b738Grp (Aircraft.cd0Source phase)).ins, v.name ∉ ["propmodel.thrust", "propmodel.fuel_flow", "propmodel.T4", "thrust",
        "fuel_flow", "fuel_used", "fuel_used_final", "drag", "OEW", "weight"] := by
      generalize Aircraft.cd0Source phase = c at hc
      revert c
      unfold cd0Names
      decide +kernel
    intro v hv
    have := this v hv
    simp only [List.mem_cons, List.not_mem_nil, or_false, not_or] at this
    simp [jetState, this]
  refine ⟨jetState o phase I, ⟨?_, ?_, ?_⟩, by simp [jetState], hin⟩
  · intro v hv hs a
    have hv' : v ∈ (b738Grp (Aircraft.cd0Source phase)).ins ++ (b738Grp (Aircraft.cd0Source phase)).outs := hv
    rcases List.mem_append.1 hv' with h | h
    · rw [hin v h]; exact hI v h hs a
    · have : ∀ v ∈ (b738Grp (Aircraft.cd0Source phase)).outs, v.vec = false → v.name ∈ ["fuel_used_final", "OEW"] := by
        generalize Aircraft.cd0Source phase = c at hc
        revert c
        unfold cd0Names
        decide +kernel
      have hw : ∃ w ∈ (b738Grp (Aircraft.cd0Source phase)).ins, w.name = "ac|weights|OEW" ∧ w.vec = false := by
        generalize Aircraft.cd0Source phase = c at hc
        revert c
        unfold cd0Names
        decide +kernel
      obtain ⟨w, w1, w2, w3⟩ := hw
      have hO := hI w w1 w3 a
      rw [w2] at hO
      have h3 := this v h hs
      simp only [List.mem_cons, List.not_mem_nil, or_false] at h3
      rcases h3 with h3 | h3 <;> rw [h3]
      · simp [jetState]
      · simp [jetState, hO]
  · intro a
    show (b738Grp (Aircraft.cd0Source phase)).rel o fun n => jetState o phase I n a
    generalize he : (fun n => jetState o phase I n a) = e
    parts (b738Grp (Aircraft.cd0Source phase)) [b738Grp, engineDeck_rel, doubler, passthru, polarSub, polarDrag_rel, weightSub, weightSys_rel, integ_rel]
    viewsVar (b738Grp (Aircraft.cd0Source phase)) hl e
    subst he
    have hcc : jetState o phase I (Aircraft.cd0Source phase) = I (Aircraft.cd0Source phase) := by
      generalize hx : Aircraft.cd0Source phase = c at hc
      simp [cd0Names] at hc
      rcases hc with rfl | rfl <;> simp [jetState]
    simp only [conv_lbf_kN, conv_lbm_kg, Aircraft.doubled, hcc]
    simp [jetState]
  · simp only [b738Phase]
    generalize he : jetState o phase I = E
    oversVar [fuelIntegrand] (b738Grp (Aircraft.cd0Source phase)) hl E
    simp only [conv_flow]
    subst he
    simp [jetState]

/-- **C124**.  With fuel flows that are not negative the jet gets no heavier from one even node of a phase to the next. -/
theorem C124_b738_lighter (o : Opts) (phase : String) (E : String → Fin (m + 1) → ℝ) (h : (b738Phase phase).Rel o E)
    (hT : E "ode_integ.duration" 0 = E "duration" 0) (he : m % 2 = 0)
    (hd : 0 ≤ E "duration" 0) (hf : ∀ l, 0 ≤ o.map "fuel_flow" l) (k k' : ℕ) (hk : k ≤ k') (hm : 2 * k' ≤ m) :
    E "weight" ⟨2 * k', by omega⟩ ≤ E "weight" ⟨2 * k, by omega⟩ := by
  rw [(C124_b738 o phase E h hT).2.2.2.1]
  have := Aircraft.C92_monotone (m := m) (M := Integrals.simpsonTri m) (by simp [Integrals.methodMatrix, he]) (E "ac|weights|MTOW" 0) [jetSeg o E] ?_ (E "fuel_used_initial" 0) 0 0 k k'
    (by simp [Aircraft.missionFuel]) (Or.inr ⟨rfl, hk⟩) (by omega) hm
  · simpa [Aircraft.missionFuel] using this
  · simp only [List.mem_singleton, forall_eq]
    exact ⟨hd, fun a => by have := hf [E "throttle" a, E "fltcond|h" a, E "fltcond|M" a]; simp only [jetSeg]; positivity⟩

/-- engines that burn 1 lbm/s each for 100 s, of a jet of 70 t -/
example : (∃ E : String → Fin 3 → ℝ, (b738Phase "cruise").Rel ⟨fun _ => 0, fun _ _ => 1⟩ E ∧ E "ac|weights|MTOW" 0 = 70000 ∧
      E "ode_integ.duration" 0 = 100 ∧ E "fuel_used_initial" 0 = 0 ∧ E "duration" 0 = 100) ∧
    ∀ E : String → Fin 3 → ℝ, (b738Phase "cruise").Rel ⟨fun _ => 0, fun _ _ => 1⟩ E → E "ac|weights|MTOW" 0 = 70000 →
      E "ode_integ.duration" 0 = 100 → E "duration" 0 = 100 → E "fuel_used_initial" 0 = 0 →
      E "weight" 2 = 70000 - 90.718474 ∧ E "fuel_used_final" 0 = 90.718474 := by
  constructor
  · obtain ⟨E, hE, hd, hI⟩ := C124_b738_exists (m := 2) ⟨fun _ => 0, fun _ _ => 1⟩ "cruise"
      (fun n _ => if n = "ac|weights|MTOW" then 70000 else if n = "fuel_used_initial" then 0 else 100) (fun _ _ _ _ => rfl)
    have hi : ∀ n ∈ ["ac|weights|MTOW", "ode_integ.duration", "fuel_used_initial"],
        ∃ v ∈ (b738Grp (Aircraft.cd0Source "cruise")).ins, v.name = n := by
      have hc := cd0Source_mem "cruise"
      generalize Aircraft.cd0Source "cruise" = c at hc
      revert c
      unfold cd0Names
      decide +kernel
    have hv : ∀ n ∈ ["ac|weights|MTOW", "ode_integ.duration", "fuel_used_initial"], E n 0 =
        if n = "ac|weights|MTOW" then 70000 else if n = "fuel_used_initial" then 0 else 100 := by
      intro n hn
      obtain ⟨v, v1, v2⟩ := hi n hn
      rw [← v2, hI v v1]
    refine ⟨E, hE, ?_, ?_, ?_, ?_⟩
    · rw [hv _ (by simp)]; simp
    · rw [hv _ (by simp)]; simp
    · rw [hv _ (by simp)]; simp
    · rw [hd]; simp
  · intro E h h1 h2 h3 h4
    obtain ⟨-, -, -, hw, hfin, -⟩ := C124_b738 _ _ E h (h2.trans h3.symm)
    have hf : ∀ a, Aircraft.segFuel (Integrals.simpsonTri 2) 0 (jetSeg ⟨fun _ => 0, fun _ _ => 1⟩ E) a = 0.45359237 * 100 * a := by
      intro a
      simp only [Aircraft.segFuel, Integrals.integratorCompute_eq, jetSeg, h3, Phases.simpson_const (m := 2) rfl]
      simp [Integrals.TimeInput.step]
      ring
    rw [hw, hfin, h4, h1, ← Aircraft.segFuel_last, Aircraft.C92_weight, hf, hf]
    norm_num

/-- the state of charge of a battery in a group: what its integrator sees -/
theorem soc_seen (T : String → Fin (m + 1) → ℝ) (h : nested socBattery97 "ode_integ" socRel T) :
    T "SOC" = Integrals.integratorCompute (Integrals.simpsonTri m) (T "SOC_initial" 0) (.duration (T "duration" 0)) (fun a => T "dSOCdt" a / 1000) ∧
    ∀ i, T "SOC_final" i =
      Integrals.integratorFinal (Integrals.simpsonTri m) (T "SOC_initial" 0) (.duration (T "duration" 0)) (fun a => T "dSOCdt" a / 1000) := by
  unfold nested socRel at h
  have hs := seen_all socBattery97 socBattery97_links (fast_nodup (by decide +kernel)) T
  simp only [List.forall_mem_cons, List.not_mem_nil, false_imp_iff, implies_true, and_true, conv_self, conv_soc] at hs
  simpa only [hs] using h

/-- the airplane and its battery in the state `e`: the rating of the motor in hp, weights in kg -/
noncomputable def electricPlane (e : String → ℝ) : Turboprop.Electric where
  pl := { planeOf false 2000 e with rating := e "ac|propulsion|motor|rating" * 745.7, mtow := e "ac|weights|MTOW" }
  wBattery := e "ac|weights|W_battery"
  specificEnergy := e "propmodel.batt1.specific_energy"

set_option maxHeartbeats 2000000 in
theorem electric_node (c : String) (hc : c ∈ cd0Names) (o : Opts) (e : String → ℝ) (h : (electricGrp c).rel o e)
    (h1 : o "fouling_factor_cold" = 0) (h2 : o "fouling_factor_hot" = 0) :
    e "thrust" = Propulsion.propeller o.maps (((electricPlane e).pl.side (condAt e)).coef
      (Propulsion.motor Turboprop.motorOpts (e "throttle") (e "ac|propulsion|motor|rating" * 745.7)).shaft) ∧
    e "propmodel.batt1.dSOCdt" / 1000 = Propulsion.dSOCdt Turboprop.battOpts (e "ac|weights|W_battery")
      (e "propmodel.batt1.specific_energy")
      (Propulsion.motor Turboprop.motorOpts (e "throttle") (e "ac|propulsion|motor|rating" * 745.7)).elecLoad ∧
    e "propmodel.motor1.heat_out" =
      (Propulsion.motor Turboprop.motorOpts (e "throttle") (e "ac|propulsion|motor|rating" * 745.7)).heat ∧
    e "drag" = Aero.drag ⟨e "fltcond|q", e "ac|geom|wing|S_ref", e c, e "fltcond|CL", e "ac|aero|polar|e", e "ac|geom|wing|AR"⟩ := by
  have hl := electricGrp_links c hc
  revert h
  parts (electricGrp c) [electricGrp, consts, polarSub, polarDrag_rel, interp]
  rintro ⟨r, p, d⟩
  replace p := (C114_allElectric o _ h1 h2 p).1
  have p1 := p.thrust
  have p2 := p.rate
  have p3 := p.motorHeat
  clear p
  revert r d p1 p2 p3
  simp only [electricOf]
  viewsVar (electricGrp c) hl e
  intro r d p1 p2 p3
  rw [r] at p1
  exact ⟨p1, p2, p3, d⟩

/-- the five variables of the battery in the electric propulsion system and in the airplane -/
theorem electric_soc (c : String) (hc : c ∈ cd0Names) (E : String → Fin (m + 1) → ℝ) :
    let T := allElectric.seen ((electricGrp c).seen E "propmodel") "batt1"
    T "SOC" = E "propmodel.batt1.SOC" ∧ T "SOC_final" = E "propmodel.batt1.SOC_final" ∧
    T "SOC_initial" = E "propmodel.batt1.SOC_initial" ∧ T "duration" = E "duration" ∧ T "dSOCdt" = E "propmodel.batt1.dSOCdt" := by
  have hl := electricGrp_links c hc
  have h1 := seen_all allElectric allElectric_links (fast_nodup (by decide +kernel)) ((electricGrp c).seen E "propmodel")
  have h2 := seen_all (electricGrp c) hl (fast_nodup (by simp only [List.map_cons, List.map_nil]; decide +kernel)) E
  simp only [List.forall_mem_cons, List.not_mem_nil, false_imp_iff, implies_true, and_true, conv_self] at h1 h2
  simp only [h1, h2, and_self]

/-- **C124** (electric single).  A converged state of `ElectricTBM850Model` in any flight phase is one of the electric airplane of C107:
thrust of the propeller at 2000 rpm from the shaft power of the motor, drag of the polar of the phase, weight the take-off weight; and
the state of charge is the integral of the load of the motor on the battery. -/
theorem C124_electric (o : Opts) (phase : String) (E : String → Fin (m + 1) → ℝ) (h : (electricPhase phase).Rel o E)
    (h1 : o "fouling_factor_cold" = 0) (h2 : o "fouling_factor_hot" = 0) :
    let d := electricPlane fun n => E n 0
    aircraftRel (Turboprop.Electric.craft o.maps d) phase E ∧
    E "propmodel.batt1.SOC" = Aircraft.segFuel (Integrals.simpsonTri m) (E "propmodel.batt1.SOC_initial" 0) (d.socSeg (acOf E)) ∧
    E "propmodel.batt1.SOC_final" 0 =
      Aircraft.segFinal (Integrals.simpsonTri m) (E "propmodel.batt1.SOC_initial" 0) (d.socSeg (acOf E)) ∧
    ∀ a, E "propmodel.motor1.heat_out" a = (Propulsion.motor Turboprop.motorOpts (E "throttle" a) d.pl.rating).heat := by
  have hc := cd0Source_mem phase
  have hn := fun a => electric_node _ hc o _ (h.node a) h1 h2
  have hs : ∀ n ∈ polarNames (Aircraft.cd0Source phase) ++ ["ac|propulsion|motor|rating", "ac|propulsion|propeller|diameter",
      "ac|weights|W_battery", "propmodel.batt1.specific_energy"], ∀ a, E n a = E n 0 :=
    scalars_of h _ (by
      simp only [electricPhase]; generalize Aircraft.cd0Source phase = c at hc; revert c; unfold cd0Names; decide +kernel)
  have hl := electricGrp_links _ hc
  have ho := h.over
  clear h
  simp only [electricPhase, List.forall_mem_cons, List.not_mem_nil, false_imp_iff, implies_true, and_true] at ho
  obtain ⟨hb, hw⟩ := ho
  oversVar [interpRel] (electricGrp (Aircraft.cd0Source phase)) hl E at hw
  obtain ⟨b1, b2⟩ := soc_seen _ hb
  obtain ⟨t1, t2, t3, t4, t5⟩ := electric_soc _ hc E
  simp only [t1, t3, t4, t5] at b1
  simp only [t2, t3, t4, t5] at b2
  have hd := drag_phase (phase := phase) (E := E) fun n hn => hs n (List.mem_append_left _ hn)
  simp only [polarNames, List.cons_append, List.nil_append, List.forall_mem_cons, List.not_mem_nil, false_imp_iff, implies_true,
    and_true] at hs
  obtain ⟨s1, s2, s3, s4, s5, s6, s7, s8, s9⟩ := hs
  have hrate : (fun a => E "propmodel.batt1.dSOCdt" a / 1000) = ((electricPlane fun n => E n 0).socSeg (acOf E)).flow := by
    funext a
    rw [(hn a).2.1]
    simp only [Turboprop.Electric.socSeg, electricPlane, acOf, s6 a, s8 a, s9 a]
  rw [hrate] at b1 b2
  refine ⟨?_, b1, b2 0, fun a => ?_⟩
  · unfold aircraftRel Turboprop.Electric.craft
    rw [Bfl.AcOut.mk.injEq]
    refine ⟨?_, ?_, ?_⟩
    · funext a
      rw [(hn a).1]
      simp only [electricPlane, planeOf, Turboprop.Plane.side, condAt, acOf, s6 a, s7 a]
    · funext a
      rw [(hn a).2.2.2, hd a]
      simp only [phaseDrag, Turboprop.Plane.drag, electricPlane, planeOf, acOf, Aircraft.cd0Source]
      split_ifs <;> simp_all
    · funext a
      rw [hw a]
      rfl
  · rw [(hn a).2.2.1, s6 a]
    rfl

/-- what the empty weight group of the hybrid sees: the wing area in square feet, the rating of the engine (kW) in hp -/
noncomputable def hybridEmptyOf (e : String → ℝ) (engine props motors generator : ℝ) : Weights.AircraftTP :=
  { airplaneTP e with
    S := e "ac|geom|wing|S_ref" / 0.3048 ^ 2
    P := e "ac|propulsion|engine|rating" * 1000 / 745.7
    Wengine := engine
    Wprop := props
    Wmotors := motors
    Wgen := generator }

theorem empty_of_twin {o : Opts} {e V : String → ℝ} (h : twinEmpty.rel o V) (hi : ∀ v ∈ inputsTP.map Var.name,
      v ≠ "ac|geom|wing|S_ref" → v ≠ "P_TO" → v ≠ "W_engine" → V v = e v)
    (hS : V "ac|geom|wing|S_ref" = e "ac|geom|wing|S_ref" / 0.3048 ^ 2) (hP : V "P_TO" = e "ac|propulsion|engine|rating" * 1000 / 745.7) :
    V "OEW" = Weights.runTwin ((hybridEmptyOf e (V "W_engine") (V "W_propeller") (V "W_motors") (V "W_generator")).env e) "OEW" := by
  have h1 := ((C117_twin o V).1 h).2.2 "OEW" (by decide)
  have h2 : airplaneTP V = hybridEmptyOf e (V "W_engine") (V "W_propeller") (V "W_motors") (V "W_generator") := by
    simp [inputsTP] at hi
    simp [airplaneTP, hybridEmptyOf, hi, hS, hP]
  rw [h1, ← h2, (runTP_other _ e V "OEW" (by decide)).2]

/-- the hybrid in the state `e`: ratings in kW, the rating of the splitter is not connected -/
noncomputable def hybridPlane (e : String → ℝ) : HybridTwin.Plane where
  motorRating := e "ac|propulsion|motor|rating" * 1000
  genRating := e "ac|propulsion|generator|rating" * 1000
  engRating := e "ac|propulsion|engine|rating" * 1000
  wBattery := e "ac|weights|W_battery"
  specificEnergy := e "ac|propulsion|battery|specific_energy"
  splitRating := e "propmodel.hybrid_split.power_rating"

/-- the phase in the state `E`: both propellers at 2000 rpm -/
noncomputable def hybridLeg (phase : String) (E : String → Fin (m + 1) → ℝ) : HybridTwin.Leg m where
  name := phase
  hyb := E "hybridization" 0
  duration := E "duration" 0
  throttle := E "throttle"
  active := E "propulsor_active"
  engThrottle := E "propmodel.eng_throttle_set.eng_throttle"
  s1 a := ⟨E "ac|propulsion|propeller|diameter" 0, 2000, E "fltcond|rho" a, E "fltcond|Utrue" a⟩
  s2 a := ⟨E "ac|propulsion|propeller|diameter" 0, 2000, E "fltcond|rho" a, E "fltcond|Utrue" a⟩

/-- what holds at every node of the hybrid -/
structure HybridNode (o : Opts) (flight : Bool) (cd0 : String) (e : String → ℝ) (out : Propulsion.HybridOut) : Prop where
  hyb : e "hybridization" = if flight then 0 else 1
  thrust : e "thrust" = out.thrust
  flow : e "fuel_flow" = out.fuel
  balanced : out.residual = 0
  rate : e "propmodel.batt1.dSOCdt" / 1000 = Propulsion.dSOCdt HybridTwin.battOpts (e "ac|weights|W_battery")
    (e "ac|propulsion|battery|specific_energy") out.batteryLoad
  drag : e "drag" = Aero.drag ⟨e "fltcond|q", e "ac|geom|wing|S_ref", e cd0, e "fltcond|CL", e "ac|aero|polar|e", e "ac|geom|wing|AR"⟩
  weight : e "weight" = e "ac|weights|MTOW" * 0.45359237 - e "fuel_used"
  empty : e "OEW" = Weights.runTwin ((hybridEmptyOf e
    ((0.14 / 1000 * (e "ac|propulsion|engine|rating" * 1000) + 104) / 0.45359237)
    (2 * Propulsion.propWeight 4 (e "ac|propulsion|motor|rating" * 1000 / 745.7) (e "ac|propulsion|propeller|diameter" / 0.3048))
    (2 * (e "ac|propulsion|motor|rating" * 1000 * (1 / 5000)) / 0.45359237)
    (e "ac|propulsion|generator|rating" * 1000 * (1 / 5000) / 0.45359237)).env e) "OEW"

set_option maxHeartbeats 2000000 in
theorem hybrid_node (flight : Bool) (c : String) (hc : c ∈ cd0Names) (o : Opts) (e : String → ℝ) (h : (hybridTwinGrp flight c).rel o e) :
    HybridNode o flight c e (Propulsion.twinHybrid o.maps
      ⟨e "ac|propulsion|propeller|diameter", 2000, e "fltcond|rho", e "fltcond|Utrue"⟩
      ⟨e "ac|propulsion|propeller|diameter", 2000, e "fltcond|rho", e "fltcond|Utrue"⟩
      ⟨e "throttle", e "propulsor_active", e "ac|propulsion|motor|rating" * 1000, e "ac|propulsion|generator|rating" * 1000,
        e "ac|propulsion|engine|rating" * 1000, e "hybrid_factor.vec", e "propmodel.hybrid_split.power_rating",
        e "propmodel.eng_throttle_set.eng_throttle", 0⟩) := by
  have hl := hybridTwinGrp_links flight c hc
  revert h
  parts (hybridTwinGrp flight c) [hybridTwinGrp, hybridControls, consts, polarSub, polarDrag_rel, interp, weightSub, weightSys_rel, integ_rel]
  rintro ⟨⟨r1, r2⟩, p, d, w, v⟩
  have hW := empty_of_twin (e := e) w
  replace p := C114_twinHybrid o _ p
  have p1 := p.thrust
  have p2 := p.fuel
  have p3 := p.balanced
  have p4 := p.rate
  have p5 := p.motors
  have p6 := p.propellers
  have p7 := p.engine
  have p8 := p.generator
  clear p w
  simp only [inputsTP, List.map_cons, List.map_nil, List.forall_mem_cons, List.not_mem_nil, false_imp_iff, implies_true] at hW
  revert r1 r2 d v p1 p2 p3 p4 p5 p6 p7 p8 hW
  simp only [sideOf, hybridOf]
  viewsVar (hybridTwinGrp flight c) hl e
  simp only [ne_eq, not_true_eq_false, false_imp_iff, implies_true, conv_m2_ft2, conv_kg_lb, true_imp_iff, and_true]
  intro r1 r2 d v p1 p2 p3 p4 p5 p6 p7 p8 hW
  rw [r1] at p1 p2 p3 p4
  rw [p5, p6, p7, p8] at hW
  refine ⟨r2, p1, p2, p3, p4, d, v, ?_⟩
  rw [hW]
  congr 3
  field_simp

set_option maxHeartbeats 2000000 in
/-- the five variables of the battery in the hybrid propulsion system and in the airplane -/
theorem hybrid_soc (flight : Bool) (c : String) (hc : c ∈ cd0Names) (E : String → Fin (m + 1) → ℝ) :
    let T := twinHybrid.seen ((hybridTwinGrp flight c).seen E "propmodel") "batt1"
    T "SOC" = E "propmodel.batt1.SOC" ∧ T "SOC_final" = E "propmodel.batt1.SOC_final" ∧
    T "SOC_initial" = E "propmodel.batt1.SOC_initial" ∧ T "duration" = E "duration" ∧ T "dSOCdt" = E "propmodel.batt1.dSOCdt" := by
  have hl := hybridTwinGrp_links flight c hc
  have h1 := seen_all twinHybrid twinHybrid_links (fast_nodup (by decide +kernel)) ((hybridTwinGrp flight c).seen E "propmodel")
  have h2 := seen_all (hybridTwinGrp flight c) hl (fast_nodup (by simp only [List.map_cons, List.map_nil]; decide +kernel)) E
  simp only [List.forall_mem_cons, List.not_mem_nil, false_imp_iff, implies_true, and_true, conv_self] at h1 h2
  simp only [h1, h2, and_self]

/-- the state `E` of the phase is one of the hybrid of C104 -/
structure IsHybridTwin (o : Opts) (phase : String) (d : HybridTwin.Plane) (p : HybridTwin.Leg m) (E : String → Fin (m + 1) → ℝ) : Prop where
  /-- battery only on the ground, engine only in flight, unless the phase is given another value -/
  default : p.Default
  /-- the generator makes what the motors take of it -/
  converged : p.Converged o.maps d
  thrust : ∀ a, E "thrust" a = (p.out o.maps d a).thrust
  drag : ∀ a, E "drag" a = phaseDrag phase E a
  weight : E "weight" = Aircraft.weight (E "ac|weights|MTOW" 0 * 0.45359237)
    (Aircraft.segFuel (Integrals.simpsonTri m) (E "fuel_used_initial" 0) (p.fuelSeg o.maps d))
  fuel : E "fuel_used_final" 0 = Aircraft.segFinal (Integrals.simpsonTri m) (E "fuel_used_initial" 0) (p.fuelSeg o.maps d)
  soc : E "propmodel.batt1.SOC" = Aircraft.segFuel (Integrals.simpsonTri m) (E "propmodel.batt1.SOC_initial" 0) (p.socSeg o.maps d)
  socFinal : E "propmodel.batt1.SOC_final" 0 =
    Aircraft.segFinal (Integrals.simpsonTri m) (E "propmodel.batt1.SOC_initial" 0) (p.socSeg o.maps d)

set_option maxHeartbeats 2000000 in
/-- **C124** (series hybrid twin).  A converged state of `SeriesHybridTwinModel` in any flight phase is one of the hybrid of C104, with
two motors, one engine and one generator, and its empty weight is that of the twin hybrid's weight model with the weights of all of
them. -/
theorem C124_hybridTwin (o : Opts) (phase : String) (E : String → Fin (m + 1) → ℝ) (h : (hybridTwinPhase phase).Rel o E) :
    IsHybridTwin o phase (hybridPlane fun n => E n 0) (hybridLeg phase E) E ∧
    E "OEW" 0 = Weights.runTwin ((hybridEmptyOf (fun n => E n 0)
      ((0.14 / 1000 * (E "ac|propulsion|engine|rating" 0 * 1000) + 104) / 0.45359237)
      (2 * Propulsion.propWeight 4 (E "ac|propulsion|motor|rating" 0 * 1000 / 745.7) (E "ac|propulsion|propeller|diameter" 0 / 0.3048))
      (2 * (E "ac|propulsion|motor|rating" 0 * 1000 * (1 / 5000)) / 0.45359237)
      (E "ac|propulsion|generator|rating" 0 * 1000 * (1 / 5000) / 0.45359237)).env fun n => E n 0) "OEW" := by
  have hc := cd0Source_mem phase
  have hn := fun a => hybrid_node _ _ hc o _ (h.node a)
  have hs : ∀ n ∈ polarNames (Aircraft.cd0Source phase) ++ ["ac|propulsion|motor|rating", "ac|propulsion|propeller|diameter",
      "ac|weights|W_battery", "ac|propulsion|battery|specific_energy", "ac|propulsion|generator|rating", "ac|propulsion|engine|rating",
      "propmodel.hybrid_split.power_rating"], ∀ a, E n a = E n 0 :=
    scalars_of h _ (by
      simp only [hybridTwinPhase]
      generalize decide (phase ∈ ["climb", "cruise", "descent"]) = f
      generalize Aircraft.cd0Source phase = c at hc
      revert c f; unfold cd0Names; decide +kernel)
  have hl := hybridTwinGrp_links (decide (phase ∈ ["climb", "cruise", "descent"])) _ hc
  have ho := h.over
  clear h
  simp only [hybridTwinPhase, List.forall_mem_cons, List.not_mem_nil, false_imp_iff, implies_true, and_true] at ho
  obtain ⟨hi, hb, hf⟩ := ho
  oversVar [interpRel] (hybridTwinGrp (decide (phase ∈ ["climb", "cruise", "descent"])) (Aircraft.cd0Source phase)) hl E at hi
  oversVar [fuelIntegrand] (hybridTwinGrp (decide (phase ∈ ["climb", "cruise", "descent"])) (Aircraft.cd0Source phase)) hl E at hf
  simp only [conv_flow] at hf
  obtain ⟨b1, b2⟩ := soc_seen _ hb
  obtain ⟨t1, t2, t3, t4, t5⟩ := hybrid_soc (decide (phase ∈ ["climb", "cruise", "descent"])) _ hc E
  simp only [t1, t3, t4, t5] at b1
  simp only [t2, t3, t4, t5] at b2
  have hd := drag_phase (phase := phase) (E := E) fun n hn => hs n (List.mem_append_left _ hn)
  simp only [polarNames, List.cons_append, List.nil_append, List.forall_mem_cons, List.not_mem_nil, false_imp_iff, implies_true,
    and_true] at hs
  obtain ⟨s1, s2, s3, s4, s5, s6, s7, s8, s9, s10, s11, s12⟩ := hs
  have hout : ∀ a, HybridNode o (decide (phase ∈ ["climb", "cruise", "descent"])) (Aircraft.cd0Source phase) (fun n => E n a)
      ((hybridLeg phase E).out o.maps (hybridPlane fun n => E n 0) a) := by
    intro a
    have := hn a
    simp only [hi a, s6 a, s7 a, s10 a, s11 a, s12 a] at this
    exact this
  have hrate : (fun a => E "propmodel.batt1.dSOCdt" a / 1000) =
      ((hybridLeg phase E).socSeg o.maps (hybridPlane fun n => E n 0)).flow := by
    funext a
    rw [(hout a).rate, s8 a, s9 a]
    rfl
  have hflow : E "fuel_flow" = ((hybridLeg phase E).fuelSeg o.maps (hybridPlane fun n => E n 0)).flow :=
    funext fun a => (hout a).flow
  rw [hrate] at b1 b2
  obtain ⟨f1, f2⟩ := hf
  have f1' : E "fuel_used" = _ := f1
  refine ⟨⟨?_, fun a => (hout a).balanced, fun a => (hout a).thrust, fun a => ?_, ?_, ?_, b1, b2 0⟩, (hout 0).empty⟩
  · have := (hout 0).hyb
    simp only [HybridTwin.Leg.Default, hybridLeg, Aircraft.hybridization, this, decide_eq_true_eq]
  · rw [(hout a).drag, hd a]
  · funext a
    rw [(hout a).weight, Aircraft.C92_weight, s1 a, f1']
    unfold Aircraft.segFuel
    rw [← hflow]
    rfl
  · rw [f2 0]
    unfold Aircraft.segFinal
    rw [← hflow]
    rfl

/-- battery only: on the ground the hybrid burns no fuel, and in flight it takes no charge, unless the phase is given another value of
`hybridization` -/
theorem C124_hybridTwin_sources (o : Opts) (phase : String) (E : String → Fin (m + 1) → ℝ) (h : (hybridTwinPhase phase).Rel o E) :
    (phase ∉ ["climb", "cruise", "descent"] → ∀ a, E "weight" a = E "ac|weights|MTOW" 0 * 0.45359237 - E "fuel_used_initial" 0) ∧
    (phase ∈ ["climb", "cruise", "descent"] → ∀ a, E "propmodel.batt1.SOC" a = E "propmodel.batt1.SOC_initial" 0) := by
  have hi := (C124_hybridTwin o phase E h).1
  have hc : ∀ p ∈ [hybridLeg phase E], p.Converged o.maps (hybridPlane fun n => E n 0) := by simpa using hi.converged
  have hd : ∀ p ∈ [hybridLeg phase E], p.Default := by simpa using hi.default
  constructor
  · intro hp a
    have := (HybridTwin.C104_no_fuel (M := Integrals.simpsonTri m) _ _ hc hd (by simpa [hybridLeg] using hp) (E "fuel_used_initial" 0)).1
    simp only [HybridTwin.fuelHist, Aircraft.missionFuel, List.map_cons, List.map_nil, List.mem_singleton, forall_eq] at this
    rw [hi.weight, Aircraft.C92_weight, this]
  · intro hp a
    have := (HybridTwin.C104_no_charge (M := Integrals.simpsonTri m) _ _ hc hd (by simpa [hybridLeg] using hp)
      (E "propmodel.batt1.SOC_initial" 0)).1
    simp only [HybridTwin.socHist, Aircraft.missionFuel, List.map_cons, List.map_nil, List.mem_singleton, forall_eq] at this
    rw [hi.soc, this]

/-! ### the sized jet -/

theorem engineSys_rel (o : Opts) (V : String → ℝ) (b) : (sum (Aircraft.engineSys 1) b).rel o V ↔
    V "num_active_engines" = V "num_engines" + V "propulsor_active" - V "one" := by
  simp [sum, Aircraft.engineSys, AddSys.compute, AddSys.factors, sub_eq_add_neg]

theorem multiplier_rel (o : Opts) (V : String → ℝ) (b) : (products [Aircraft.thrustSys 1, Aircraft.fuelSys 1] b).rel o V ↔
    V "thrust" = V "thrust_per_engine" * V "num_active_engines_1" ∧ V "fuel_flow" = V "fuel_flow_per_engine" * V "num_active_engines_2" := by
  simp [products, Aircraft.thrustSys, Aircraft.fuelSys, MulSys.compute, MulSys.read, MulSys.div, List.zipIdx]

theorem burnWeight_rel (o : Opts) (V : String → ℝ) (b) : (sum burnWeight b).rel o V ↔
    V "weight" = V "ac|weights|MTOW" - V "fuel_burn" := by
  simp [sum, burnWeight, AddSys.compute, AddSys.factors, sub_eq_add_neg]

theorem sized_eq (t n a : ℝ) : Aircraft.sizedThrust t n a = t * (n + a - 1) ∧ Aircraft.sizedFuel t n a = t * (n + a - 1) := by
  constructor <;>
  simp [Aircraft.sizedThrust, Aircraft.sizedFuel, Aircraft.thrustSys, Aircraft.fuelSys, Aircraft.activeEngines, Aircraft.engineSys,
    AddSys.compute, AddSys.factors, MulSys.compute, MulSys.read, MulSys.div, List.zipIdx, sub_eq_add_neg]

/-- one engine of the sized jet in the state `e` (lbf, lbm/s) -/
noncomputable def sizedEngine (o : Opts) (e : String → ℝ) : Propulsion.PropulsionOut :=
  Propulsion.turbofan .CFM56 false (o.map "thrust" [e "throttle", e "fltcond|h", e "fltcond|M"])
    (o.map "fuel_flow" [e "throttle", e "fltcond|h", e "fltcond|M"]) (e "ac|propulsion|engine|rating")

/-- what holds at every node of the sized jet -/
structure SizingNode (o : Opts) (takeoff : Bool) (e : String → ℝ) : Prop where
  /-- the engines that work, from the scaled deck -/
  thrust : e "thrust" = Aircraft.sizedThrust (sizedEngine o e).thrust (e "ac|propulsion|num_engines") (e "propulsor_active")
  flow : e "propulsion_multiplier.fuel_flow" =
    Aircraft.sizedFuel ((sizedEngine o e).fuel * 0.45359237) (e "ac|propulsion|num_engines") (e "propulsor_active")
  drag : e "drag" = Aero.drag ⟨e "fltcond|q", e "ac|geom|wing|S_ref", Aero.cd0 (parasite true takeoff o e), e "fltcond|CL",
    e "ac|aero|polar|e", e "ac|geom|wing|AR"⟩
  weight : e "weight" = e "ac|weights|MTOW" - e "fuel_burn_integ.fuel_burn"

set_option maxHeartbeats 4000000 in
theorem sizing_node_true (o : Opts) (e : String → ℝ) (h : (sizingGrp true).rel o e) (h1 : e "num_engine_calc.one" = 1)
    (h2 : e "CFM56.scale_engine.orig_rating_thrust" = Propulsion.origThrust .CFM56)
    (h3 : e "CFM56.scale_engine.orig_rating_fuel_flow" = Propulsion.origThrust .CFM56) : SizingNode o true e := by
  revert h
  parts (sizingGrp true) [sizingGrp, polarDrag_rel, engineSys_rel, multiplier_rel, burnWeight_rel, integ_rel]
  rintro ⟨z, d, t, n, ⟨p, q⟩, w⟩
  replace z := (C118_jet_drag true true o _).1 z ("CD0", _) (by simp only [dragValues, List.cons_append]; exact List.mem_cons_self)
  replace t := fun h h' => (C118_turbofan .CFM56 false o _ h h').1 t
  revert z d t n p q w
  simp only [parasite, List.forall_mem_cons, List.not_mem_nil, false_imp_iff, implies_true, and_true, String.reduceAppend]
  views (sizingGrp true) sizingGrp_true_links e
  simp only [conv_lbf_lbf, conv_lbm_kg', conv_burned, h2, h3, true_imp_iff]
  rintro d n w p q z ⟨⟨t1, t2⟩, -, t3, t4⟩
  rw [t1, t2] at t3 t4
  rw [h1] at n
  rw [n, t3] at p
  rw [n, t4] at q
  refine ⟨?_, ?_, ?_, w⟩
  · rw [p, (sized_eq _ _ _).1]; rfl
  · rw [q, (sized_eq _ _ _).2]; rfl
  · rw [d, z]; rfl

set_option maxHeartbeats 4000000 in
theorem sizing_node_false (o : Opts) (e : String → ℝ) (h : (sizingGrp false).rel o e) (h1 : e "num_engine_calc.one" = 1)
    (h2 : e "CFM56.scale_engine.orig_rating_thrust" = Propulsion.origThrust .CFM56)
    (h3 : e "CFM56.scale_engine.orig_rating_fuel_flow" = Propulsion.origThrust .CFM56) : SizingNode o false e := by
  revert h
  parts (sizingGrp false) [sizingGrp, polarDrag_rel, engineSys_rel, multiplier_rel, burnWeight_rel, integ_rel]
  rintro ⟨z, d, t, n, ⟨p, q⟩, w⟩
  replace z := (C118_jet_drag true false o _).1 z ("CD0", _) (by simp only [dragValues, List.cons_append]; exact List.mem_cons_self)
  replace t := fun h h' => (C118_turbofan .CFM56 false o _ h h').1 t
  revert z d t n p q w
  simp only [parasite, List.forall_mem_cons, List.not_mem_nil, false_imp_iff, implies_true, and_true, String.reduceAppend]
  views (sizingGrp false) sizingGrp_false_links e
  simp only [conv_lbf_lbf, conv_lbm_kg', conv_burned, h2, h3, true_imp_iff]
  rintro d n w p q z ⟨⟨t1, t2⟩, -, t3, t4⟩
  rw [t1, t2] at t3 t4
  rw [h1] at n
  rw [n, t3] at p
  rw [n, t4] at q
  refine ⟨?_, ?_, ?_, w⟩
  · rw [p, (sized_eq _ _ _).1]; rfl
  · rw [q, (sized_eq _ _ _).2]; rfl
  · rw [d, z]
    simp only [Aero.cd0, Aero.cdFus, Aero.cdH, Aero.cdV, Aero.cdN, Aero.cdW, Aero.cdFlap, Aero.cdGear, parasite, Bool.false_eq_true, if_false]

/-- the fuel flow of the sized jet over a phase -/
noncomputable def sizedSeg (o : Opts) (E : String → Fin (m + 1) → ℝ) : Aircraft.Seg m :=
  ⟨fun a => Aircraft.sizedFuel ((sizedEngine o fun n => E n a).fuel * 0.45359237) (E "ac|propulsion|num_engines" 0)
    (E "propulsor_active" a), E "duration" 0⟩

theorem C124_sizing_setup : (∀ t, (sizingGrp t).problems = [] ∧ hasOutputs (sizingGrp t)) ∧
    ∀ p ∈ ["v0v1", "v1vr", "v1v0", "rotate"], (sizingPhase (m := m) p).grp = sizingGrp true := by
  refine ⟨?_, ?_⟩
  · unfold hasOutputs
    decide +kernel
  · simp [sizingPhase, Aircraft.dragConfiguration]

/-- **C124** (sized Boeing 737-800).  In a converged state of `B738AircraftModel` in any flight phase thrust and fuel flow are those of
the scaled engine times the engines that work, the drag is the polar with the zero-lift drag of the buildup (flaps and gear only in
take-off), the weight is the take-off weight less the integrated fuel flow.  The phase connects its duration to that of the
integrator; the original ratings and the one engine taken away are defaults of open inputs. -/
theorem C124_sizing (o : Opts) (phase : String) (E : String → Fin (m + 1) → ℝ) (h : (sizingPhase phase).Rel o E)
    (h1 : ∀ a, E "num_engine_calc.one" a = 1)
    (h2 : ∀ a, E "CFM56.scale_engine.orig_rating_thrust" a = Propulsion.origThrust .CFM56)
    (h3 : ∀ a, E "CFM56.scale_engine.orig_rating_fuel_flow" a = Propulsion.origThrust .CFM56)
    (hT : E "fuel_burn_integ.duration" 0 = E "duration" 0) :
    (∀ a, SizingNode o (decide (phase ∈ ["v0v1", "v1v0", "v1vr", "rotate"])) fun n => E n a) ∧
    E "weight" = Aircraft.weight (E "ac|weights|MTOW" 0)
      (Aircraft.segFuel (Integrals.simpsonTri m) (E "fuel_burn_integ.fuel_burn_initial" 0) (sizedSeg o E)) ∧
    E "fuel_burn_integ.fuel_burn_final" 0 =
      Aircraft.segFinal (Integrals.simpsonTri m) (E "fuel_burn_integ.fuel_burn_initial" 0) (sizedSeg o E) := by
  have ht : (Aircraft.dragConfiguration phase == "takeoff") = decide (phase ∈ ["v0v1", "v1v0", "v1vr", "rotate"]) := by
    unfold Aircraft.dragConfiguration
    split_ifs with hp <;> simp_all
  have hs : ∀ n ∈ ["ac|weights|MTOW", "ac|propulsion|num_engines"], ∀ a, E n a = E n 0 :=
    scalars_of h _ (by
      simp only [sizingPhase]; generalize (Aircraft.dragConfiguration phase == "takeoff") = t; revert t; decide +kernel)
  simp only [List.forall_mem_cons, List.not_mem_nil, false_imp_iff, implies_true, and_true] at hs
  have hnode := h.node
  have ho := h.over
  clear h
  simp only [sizingPhase, ht] at hnode ho
  have hn : ∀ a, SizingNode o (decide (phase ∈ ["v0v1", "v1v0", "v1vr", "rotate"])) fun n => E n a := by
    intro a
    have := hnode a
    generalize decide (phase ∈ ["v0v1", "v1v0", "v1vr", "rotate"]) = t at this
    cases t
    · exact sizing_node_false o _ this (h1 a) (h2 a) (h3 a)
    · exact sizing_node_true o _ this (h1 a) (h2 a) (h3 a)
  have hf : E "propulsion_multiplier.fuel_flow" = (sizedSeg o E).flow := by
    funext a
    rw [(hn a).flow, hs.2 a]
    rfl
  have hint : E "fuel_burn_integ.fuel_burn" = Integrals.integratorCompute (Integrals.simpsonTri m)
        (E "fuel_burn_integ.fuel_burn_initial" 0) (.duration (E "fuel_burn_integ.duration" 0)) (E "propulsion_multiplier.fuel_flow") ∧
      E "fuel_burn_integ.fuel_burn_final" 0 = Integrals.integratorFinal (Integrals.simpsonTri m)
        (E "fuel_burn_integ.fuel_burn_initial" 0) (.duration (E "fuel_burn_integ.duration" 0)) (E "propulsion_multiplier.fuel_flow") := by
    revert ho
    generalize decide (phase ∈ ["v0v1", "v1v0", "v1vr", "rotate"]) = t
    cases t <;> intro ho
    · overs [burnIntegrand] (sizingGrp false) sizingGrp_false_links E at ho
      simp only [conv_burn] at ho
      exact ⟨ho.1, ho.2 0⟩
    · overs [burnIntegrand] (sizingGrp true) sizingGrp_true_links E at ho
      simp only [conv_burn] at ho
      exact ⟨ho.1, ho.2 0⟩
  rw [hT, hf] at hint
  refine ⟨hn, ?_, hint.2⟩
  funext a
  rw [(hn a).weight, Aircraft.C92_weight, hs.1 a, hint.1]
  rfl

end Verif.Wiring
