import Verif.Proof.WiringAirplanes
import Verif.Props.WiringPropulsion
import Verif.Props.WiringWeights
import Verif.Props.WiringPhases
import Verif.Props.Turboprop

namespace Verif.Wiring

open Verif.Units Verif.VectorComps
open Verif.Bfl (Craft)

variable {m : ℕ}

/-! ### C119: the turboprop airplanes -/

/-- the two drag coefficients of the examples -/
def cd0Names : List String := ["ac|aero|polar|CD0_TO", "ac|aero|polar|CD0_cruise"]

theorem cd0Source_mem (phase : String) : Aircraft.cd0Source phase ∈ cd0Names := by
  unfold Aircraft.cd0Source
  split <;> simp [cd0Names]

/-- what is left to the mission once the design variables are there -/
def missionInputs (extra : List Var) : List Var → Prop := fun l =>
  ∀ v ∈ l, v ∈ extra ∨ ∃ w ∈ aircraft.ins, w.name = v.name ∧ kind w.unit = kind v.unit ∧ w.vec = v.vec

theorem C119_caravan_setup (phase : String) :
    (caravanGrp (Aircraft.cd0Source phase)).problems = [.ambiguous "ac|geom|wing|S_ref", .ambiguous "ac|weights|MTOW"] ∧
    (fed caravanDvs (caravanGrp (Aircraft.cd0Source phase))).problems = [] ∧
    missionInputs [⟨"fuel_used_initial", "kg", false, true⟩] (fed caravanDvs (caravanGrp (Aircraft.cd0Source phase))).ins ∧
    ∀ v ∈ aircraft.outs, ∃ w ∈ (caravanGrp (Aircraft.cd0Source phase)).outs, w.name = v.name ∧ kind w.unit = kind v.unit ∧ w.vec = v.vec := by
  have h := cd0Source_mem phase
  generalize Aircraft.cd0Source phase = c at h
  unfold missionInputs
  revert c
  unfold cd0Names
  decide +kernel

theorem C119_kingAir_setup (phase : String) :
    (kingAirGrp (Aircraft.cd0Source phase)).problems = [.ambiguous "ac|geom|wing|S_ref", .ambiguous "ac|weights|MTOW"] ∧
    (fed kingAirDvs (kingAirGrp (Aircraft.cd0Source phase))).problems = [] ∧
    missionInputs [⟨"fuel_used_initial", "kg", false, true⟩] (fed kingAirDvs (kingAirGrp (Aircraft.cd0Source phase))).ins ∧
    ∀ v ∈ aircraft.outs, ∃ w ∈ (kingAirGrp (Aircraft.cd0Source phase)).outs, w.name = v.name ∧ kind w.unit = kind v.unit ∧ w.vec = v.vec := by
  have h := cd0Source_mem phase
  generalize Aircraft.cd0Source phase = c at h
  unfold missionInputs
  revert c
  unfold cd0Names
  decide +kernel

/-- the integrator of the TBM 850 is not promoted: the phase connects its duration, the mission links its initial value, and the speed
of the propeller stays at its default -/
theorem C119_tbm_setup (phase : String) :
    (tbmGrp (Aircraft.cd0Source phase)).problems = [.ambiguous "ac|geom|wing|S_ref", .ambiguous "ac|weights|MTOW"] ∧
    (fed tbmDvs (tbmGrp (Aircraft.cd0Source phase))).problems = [] ∧
    missionInputs [⟨"intfuel.fuel_used_initial", "kg", false, false⟩, ⟨"intfuel.duration", "s", false, false⟩,
      ⟨"propmodel.prop1.rpm", "rpm", true, false⟩] (fed tbmDvs (tbmGrp (Aircraft.cd0Source phase))).ins ∧
    ∀ v ∈ aircraft.outs, ∃ w ∈ (tbmGrp (Aircraft.cd0Source phase)).outs, w.name = v.name ∧ kind w.unit = kind v.unit ∧ w.vec = v.vec := by
  have h := cd0Source_mem phase
  generalize Aircraft.cd0Source phase = c at h
  unfold missionInputs
  revert c
  unfold cd0Names
  decide +kernel

/-- the flight condition in the state `e` -/
def condAt (e : String → ℝ) : Atmos.FltCond :=
  ⟨e "fltcond|p", e "fltcond|T", e "fltcond|rho", e "fltcond|a", e "fltcond|Ueas", e "fltcond|Utrue", e "fltcond|q", e "fltcond|M"⟩

/-- the airplane in the state `e`: the rating is given in hp and the take-off weight in lb -/
noncomputable def planeOf (twin : Bool) (rpm : ℝ) (e : String → ℝ) : Turboprop.Plane where
  twin := twin
  rating := e "ac|propulsion|engine|rating" * 745.7
  diameter := e "ac|propulsion|propeller|diameter"
  rpm := rpm
  mtow := e "ac|weights|MTOW" * 0.45359237
  sref := e "ac|geom|wing|S_ref"
  AR := e "ac|geom|wing|AR"
  e := e "ac|aero|polar|e"
  cd0TO := e "ac|aero|polar|CD0_TO"
  cd0Cruise := e "ac|aero|polar|CD0_cruise"
  clmax := e "ac|aero|CLmax_TO"

/-- what the empty weight group sees of it: the wing area in square feet, the rating of one engine in hp, engines and propellers -/
noncomputable def emptyOf (e : String → ℝ) (engines props : ℝ) : Weights.AircraftTP :=
  { airplaneTP e with
    S := e "ac|geom|wing|S_ref" / 0.3048 ^ 2
    P := e "ac|propulsion|engine|rating"
    Wengine := engines
    Wprop := props
    Wmotors := 0
    Wgen := 0 }

/-- what holds at every node of an airplane of this kind -/
structure TurbopropNode (o : Opts) (twin : Bool) (rpm : ℝ) (fuelUsed fuelFlow cd0 : String) (e : String → ℝ) : Prop where
  thrust : e "thrust" = ((planeOf twin rpm e).node o.maps (condAt e) (e "throttle") (e "propulsor_active")).thrust
  flow : e fuelFlow = ((planeOf twin rpm e).node o.maps (condAt e) (e "throttle") (e "propulsor_active")).fuel
  drag : e "drag" = Aero.drag ⟨e "fltcond|q", e "ac|geom|wing|S_ref", e cd0, e "fltcond|CL", e "ac|aero|polar|e", e "ac|geom|wing|AR"⟩
  weight : e "weight" = e "ac|weights|MTOW" * 0.45359237 - e fuelUsed
  empty : e "OEW" = Weights.runSingle ((emptyOf e
    (((if twin then 2 else 1) * (0.14 / 1000 * (e "ac|propulsion|engine|rating" * 745.7) + 104)) / 0.45359237)
    ((if twin then 2 else 1) * Propulsion.propWeight 4 (e "ac|propulsion|engine|rating")
      (e "ac|propulsion|propeller|diameter" / 0.3048))).env e) "OEW"

/-- the empty weight of the group in terms of the variables of the airplane -/
theorem empty_of {o : Opts} {e V : String → ℝ} (h : singleEmpty.rel o V) (hi : ∀ v ∈ inputsTP.map Var.name,
      v ≠ "ac|geom|wing|S_ref" → v ≠ "P_TO" → v ≠ "W_engine" → V v = e v)
    (hS : V "ac|geom|wing|S_ref" = e "ac|geom|wing|S_ref" / 0.3048 ^ 2) (hP : V "P_TO" = e "ac|propulsion|engine|rating") :
    V "OEW" = Weights.runSingle ((emptyOf e (V "W_engine") (V "W_propeller")).env e) "OEW" := by
  have h1 := ((C117_single o V).1 h).2.2 "OEW" (by decide)
  have h2 : { airplaneTP V with Wmotors := 0, Wgen := 0 } = emptyOf e (V "W_engine") (V "W_propeller") := by
    simp [inputsTP] at hi
    simp [airplaneTP, emptyOf, hi, hS, hP]
  rw [h1, ← h2, (runTP_other _ e V "OEW" (by decide)).1]
  simp [Weights.runSingle, Weights.runAdd, Weights.runMul, Weights.totalSingle,
    Weights.fudgeTP, Weights.structTP, AddSys.compute, MulSys.compute, MulSys.read, Weights.Env.arr, AddSys.factors, MulSys.div,
    List.zipIdx, Weights.AircraftTP.env, Weights.AircraftTP.wing, Weights.AircraftTP.fus, Weights.AircraftTP.gear,
    Weights.AircraftTP.equip]

theorem caravan_node (c : String) (hc : c ∈ cd0Names) (o : Opts) (e : String → ℝ) (h : (caravanGrp c).rel o e) :
    e "prop1rpm" = 2000 ∧ TurbopropNode o false 2000 "fuel_used" "fuel_flow" c e := by
  have hl := caravanGrp_links c hc
  revert h
  parts (caravanGrp c) [caravanGrp, consts, polarSub, polarDrag_rel, weightSub, weightSys_rel, integ_rel]
  rintro ⟨h1, h2, h3, h4, h5⟩
  have hp := C114_turboprop o _ h2
  have hW := empty_of (e := e) h4
  clear h2 h4
  simp only [inputsTP, List.map_cons, List.map_nil, List.forall_mem_cons, List.not_mem_nil, false_imp_iff, implies_true] at hW
  revert h1 h3 h5 hp hW
  simp only [sideOf, coefOf]
  viewsVar (caravanGrp c) hl e
  simp only [ne_eq, not_true_eq_false, false_imp_iff, implies_true, conv_m2_ft2, conv_kg_lb, true_imp_iff, and_true]
  rintro h1 h3 h5 ⟨t1, t2, t3, t4, -, -⟩ hW
  rw [t3, t4] at hW
  rw [h1] at t1 t2
  refine ⟨h1, ⟨t1, t2, h3, h5, ?_⟩⟩
  rw [hW]
  simp only [Bool.false_eq_true, if_false, one_mul]

theorem kingAir_node (c : String) (hc : c ∈ cd0Names) (o : Opts) (e : String → ℝ) (h : (kingAirGrp c).rel o e) :
    e "prop|rpm" = 1900 ∧ TurbopropNode o true 1900 "fuel_used" "fuel_flow" c e := by
  have hl := kingAirGrp_links c hc
  revert h
  parts (kingAirGrp c) [kingAirGrp, consts, polarSub, polarDrag_rel, weightSub, weightSys_rel, integ_rel]
  rintro ⟨h1, h2, h3, h4, h5⟩
  have hp := C114_twinTurboprop o _ h2
  have hW := empty_of (e := e) h4
  clear h2 h4
  simp only [inputsTP, List.map_cons, List.map_nil, List.forall_mem_cons, List.not_mem_nil, false_imp_iff, implies_true] at hW
  revert h1 h3 h5 hp hW
  simp only [sideOf, coefOf]
  viewsVar (kingAirGrp c) hl e
  simp only [ne_eq, not_true_eq_false, false_imp_iff, implies_true, conv_m2_ft2, conv_kg_lb, true_imp_iff, and_true]
  rintro h1 h3 h5 ⟨t1, t2, t3, t4⟩ hW
  rw [t3, t4] at hW
  rw [h1] at t1 t2
  refine ⟨h1, ⟨t1, t2, h3, h5, ?_⟩⟩
  rw [hW]
  simp only [if_true]
  congr 3
  field_simp

theorem tbm_node (c : String) (hc : c ∈ cd0Names) (o : Opts) (e : String → ℝ) (h : (tbmGrp c).rel o e) :
    TurbopropNode o false (e "propmodel.prop1.rpm") "intfuel.fuel_used" "propmodel.fuel_flow" c e := by
  have hl := tbmGrp_links c hc
  revert h
  parts (tbmGrp c) [tbmGrp, consts, polarSub, polarDrag_rel, weightSub, weightSys_rel, integ_rel]
  rintro ⟨h2, h3, h4, h5⟩
  have hp := C114_turboprop o _ h2
  have hW := empty_of (e := e) h4
  clear h2 h4
  simp only [inputsTP, List.map_cons, List.map_nil, List.forall_mem_cons, List.not_mem_nil, false_imp_iff, implies_true] at hW
  revert h3 h5 hp hW
  simp only [sideOf, coefOf]
  viewsVar (tbmGrp c) hl e
  simp only [ne_eq, not_true_eq_false, false_imp_iff, implies_true, conv_m2_ft2, conv_kg_lb, true_imp_iff, and_true]
  rintro h3 h5 ⟨t1, t2, t3, t4, -, -⟩ hW
  rw [t3, t4] at hW
  refine ⟨t1, t2, h3, h5, ?_⟩
  rw [hW]
  simp only [Bool.false_eq_true, if_false, one_mul]

/-- the scalars an airplane is read from -/
def planeNames (c : String) : List String := ["ac|propulsion|engine|rating", "ac|propulsion|propeller|diameter", "ac|weights|MTOW",
  "ac|geom|wing|S_ref", "ac|geom|wing|AR", "ac|aero|polar|e", c]

/-- a state converged at every node whose fuel is integrated is one of the model of the airplane -/
theorem turboprop_craft {o : Opts} {twin : Bool} {rpm : ℝ} {fu fl phase : String} {E : String → Fin (m + 1) → ℝ} {q0 : ℝ}
    (hn : ∀ a, TurbopropNode o twin rpm fu fl (Aircraft.cd0Source phase) fun n => E n a)
    (hs : ∀ n ∈ planeNames (Aircraft.cd0Source phase), ∀ a, E n a = E n 0)
    (hf : E fu = Integrals.integratorCompute (Integrals.simpsonTri m) q0 (.duration (E "duration" 0)) (E fl)) :
    aircraftRel (Turboprop.craft o.maps (Integrals.simpsonTri m) (planeOf twin rpm fun n => E n 0) fun _ => q0) phase E ∧
    E fl = ((planeOf twin rpm fun n => E n 0).fuelSeg o.maps (acOf E)).flow := by
  simp only [planeNames, List.forall_mem_cons, List.not_mem_nil, false_imp_iff, implies_true, and_true] at hs
  obtain ⟨s1, s2, s3, s4, s5, s6, s7⟩ := hs
  have hside : ∀ a, (planeOf twin rpm fun n => E n a).node o.maps (condAt fun n => E n a) (E "throttle" a) (E "propulsor_active" a) =
      (planeOf twin rpm fun n => E n 0).node o.maps ((acOf E).cond a) ((acOf E).throttle a) ((acOf E).active a) := by
    intro a
    cases twin <;> simp [Turboprop.Plane.node, Turboprop.Plane.side, planeOf, condAt, acOf, s1 a, s2 a]
  have hfl : E fl = ((planeOf twin rpm fun n => E n 0).fuelSeg o.maps (acOf E)).flow := by
    funext a
    rw [(hn a).flow, hside a]
    rfl
  refine ⟨?_, hfl⟩
  unfold aircraftRel Turboprop.craft
  congr 1
  · funext a
    rw [(hn a).thrust, hside a]
  · funext a
    rw [(hn a).drag]
    simp only [Turboprop.Plane.drag, planeOf, acOf]
    rw [s4 a, s5 a, s6 a, s7 a]
    unfold Aircraft.cd0Source
    split <;> simp
  · funext a
    rw [(hn a).weight, Aircraft.C92_weight, s3 a, hf, hfl]
    rfl

/-- the outputs of the airplane and its fuel in the state `E` -/
structure IsTurboprop (o : Opts) (twin : Bool) (rpm : ℝ) (fuel0 : String) (phase : String) (E : String → Fin (m + 1) → ℝ) : Prop where
  /-- thrust, drag and weight are those of the model -/
  craft : aircraftRel (Turboprop.craft o.maps (Integrals.simpsonTri m) (planeOf twin rpm fun n => E n 0) fun _ => E fuel0 0) phase E
  /-- the fuel handed to the next phase is that of the model -/
  final : E "fuel_used_final" 0 =
    Aircraft.segFinal (Integrals.simpsonTri m) (E fuel0 0) ((planeOf twin rpm fun n => E n 0).fuelSeg o.maps (acOf E))
  /-- the empty weight is that of the single turboprop's weight model -/
  empty : E "OEW" 0 = Weights.runSingle ((emptyOf (fun n => E n 0)
    (((if twin then 2 else 1) * (0.14 / 1000 * (E "ac|propulsion|engine|rating" 0 * 745.7) + 104)) / 0.45359237)
    ((if twin then 2 else 1) * Propulsion.propWeight 4 (E "ac|propulsion|engine|rating" 0)
      (E "ac|propulsion|propeller|diameter" 0 / 0.3048))).env fun n => E n 0) "OEW"

theorem scalars_of {p : Phase m} {o : Opts} {E : String → Fin (m + 1) → ℝ} (h : p.Rel o E) (l : List String)
    (hl : (l.all fun n => (p.grp.ins ++ p.grp.outs).any fun v => @decide (v.name = n) (fastString _ _) && !v.vec) = true) :
    ∀ n ∈ l, ∀ a, E n a = E n 0 := by
  intro n hn a
  obtain ⟨v, hv, h2⟩ := List.any_eq_true.1 (List.all_eq_true.1 hl n hn)
  simp only [Bool.and_eq_true, decide_eq_true_eq, Bool.not_eq_true'] at h2
  rw [← h2.1]
  exact h.scalar v hv h2.2 a

theorem plane_scalars {o : Opts} {phase : String} {E : String → Fin (m + 1) → ℝ} {grp : String → Grp}
    (h : (turbopropPhase grp phase).Rel o E)
    (hl : ∀ c ∈ cd0Names, ((planeNames c).all fun n => ((grp c).ins ++ (grp c).outs).any fun v =>
      @decide (v.name = n) (fastString _ _) && !v.vec) = true) :
    ∀ n ∈ planeNames (Aircraft.cd0Source phase), ∀ a, E n a = E n 0 :=
  scalars_of h _ (hl _ (cd0Source_mem phase))

/-- **C119** (Caravan).  A converged state of `CaravanAirplaneModel` in any flight phase is one of the turboprop model with a propeller at
2000 rpm: thrust and fuel flow from the throttle, drag from the polar of the phase, weight as MTOW minus the integrated fuel. -/
theorem C119_caravan (o : Opts) (phase : String) (E : String → Fin (m + 1) → ℝ) (h : (turbopropPhase caravanGrp phase).Rel o E) :
    IsTurboprop o false 2000 "fuel_used_initial" phase E := by
  have hc := cd0Source_mem phase
  have hn := fun a => caravan_node _ hc o _ (h.node a)
  have hs := plane_scalars h (by unfold cd0Names; decide +kernel)
  have hl := caravanGrp_links _ hc
  have ho := h.over
  clear h
  simp only [turbopropPhase] at ho
  oversVar [fuelIntegrand] (caravanGrp (Aircraft.cd0Source phase)) hl E at ho
  simp only [conv_flow] at ho
  obtain ⟨h1, h2⟩ := ho
  obtain ⟨hcr, hfl⟩ := turboprop_craft (fun a => (hn a).2) hs h1
  refine ⟨hcr, ?_, (hn 0).2.empty⟩
  rw [h2 0]
  unfold Aircraft.segFinal
  exact congrArg _ hfl

/-- **C119** (King Air).  As the Caravan, with two engines, propellers at 1900 rpm, the weights of both and the rating of one in the
empty weight. -/
theorem C119_kingAir (o : Opts) (phase : String) (E : String → Fin (m + 1) → ℝ) (h : (turbopropPhase kingAirGrp phase).Rel o E) :
    IsTurboprop o true 1900 "fuel_used_initial" phase E := by
  have hc := cd0Source_mem phase
  have hn := fun a => kingAir_node _ hc o _ (h.node a)
  have hs := plane_scalars h (by unfold cd0Names; decide +kernel)
  have hl := kingAirGrp_links _ hc
  have ho := h.over
  clear h
  simp only [turbopropPhase] at ho
  oversVar [fuelIntegrand] (kingAirGrp (Aircraft.cd0Source phase)) hl E at ho
  simp only [conv_flow] at ho
  obtain ⟨h1, h2⟩ := ho
  obtain ⟨hcr, hfl⟩ := turboprop_craft (fun a => (hn a).2) hs h1
  refine ⟨hcr, ?_, (hn 0).2.empty⟩
  rw [h2 0]
  unfold Aircraft.segFinal
  exact congrArg _ hfl

/-- the empty weight of the King Air is that of C107 -/
theorem C119_kingAir_empty (o : Opts) (phase : String) (E : String → Fin (m + 1) → ℝ) (h : (turbopropPhase kingAirGrp phase).Rel o E) :
    E "OEW" 0 = Turboprop.kingAirOEW (1 / 0.45359237) (emptyOf (fun n => E n 0) 0 0) (E "ac|propulsion|engine|rating" 0)
      (E "ac|propulsion|engine|rating" 0 * 745.7) 4 (E "ac|propulsion|propeller|diameter" 0 / 0.3048) fun n => E n 0 := by
  rw [(C119_kingAir o phase E h).empty]
  simp only [if_true, Turboprop.kingAirOEW, emptyOf, Propulsion.turboshaft, Propulsion.turboOpts]
  congr 3
  · ring
  · ring

/-- **C119** (TBM 850).  As the Caravan, with the speed `rpm` of the propeller at the open input `propmodel.prop1.rpm`; the phase connects
its duration to that of the integrator (`PhaseGroup.configure`). -/
theorem C119_tbm (o : Opts) (phase : String) (E : String → Fin (m + 1) → ℝ) (h : (turbopropPhase tbmGrp phase).Rel o E) (rpm : ℝ)
    (hr : ∀ a, E "propmodel.prop1.rpm" a = rpm) (hT : E "intfuel.duration" 0 = E "duration" 0) :
    IsTurboprop o false rpm "intfuel.fuel_used_initial" phase E := by
  have hc := cd0Source_mem phase
  have hn := fun a => tbm_node _ hc o _ (h.node a)
  have hs := plane_scalars h (by unfold cd0Names; decide +kernel)
  have hl := tbmGrp_links _ hc
  have ho := h.over
  clear h
  simp only [turbopropPhase] at ho
  oversVar [fuelIntegrand] (tbmGrp (Aircraft.cd0Source phase)) hl E at ho
  simp only [conv_flow] at ho
  obtain ⟨h1, h2⟩ := ho
  rw [hT] at h1 h2
  simp only [hr] at hn
  obtain ⟨hcr, hfl⟩ := turboprop_craft hn hs h1
  refine ⟨hcr, ?_, (hn 0).empty⟩
  rw [h2 0]
  unfold Aircraft.segFinal
  exact congrArg _ hfl

end Verif.Wiring
