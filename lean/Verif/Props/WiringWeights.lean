import Verif.Proof.WiringWeights
import Verif.Props.Weights
import Verif.Props.WeightsJet

/-! ### C117: the empty weight groups -/

namespace Verif.Wiring

open Verif.Units Verif.VectorComps

/-- the promoted inputs of the turboprop groups, with unit -/
def inputsTP : List Var :=
    [⟨"ac|weights|MTOW", "lb", false, true⟩, ⟨"ac|weights|W_fuel_max", "lb", false, true⟩,
     ⟨"ac|geom|wing|S_ref", "ft**2", false, true⟩, ⟨"ac|geom|wing|AR", "", false, true⟩,
     ⟨"ac|geom|wing|c4sweep", "rad", false, true⟩, ⟨"ac|geom|wing|taper", "", false, true⟩,
     ⟨"ac|geom|wing|toverc", "", false, true⟩, ⟨"ac|q_cruise", "lb*ft**-2", false, true⟩,
     ⟨"ac|geom|hstab|S_ref", "ft**2", false, true⟩, ⟨"ac|geom|vstab|S_ref", "ft**2", false, true⟩,
     ⟨"ac|geom|fuselage|length", "ft", false, true⟩, ⟨"ac|geom|fuselage|height", "ft", false, true⟩,
     ⟨"ac|geom|fuselage|width", "ft", false, true⟩, ⟨"ac|geom|fuselage|S_wet", "ft**2", false, true⟩,
     ⟨"ac|geom|hstab|c4_to_wing_c4", "ft", false, true⟩, ⟨"P_TO", "hp", false, true⟩, ⟨"ac|weights|MLW", "lb", false, true⟩,
     ⟨"ac|geom|maingear|length", "ft", false, true⟩, ⟨"ac|geom|nosegear|length", "ft", false, true⟩,
     ⟨"ac|num_passengers_max", "", false, true⟩, ⟨"W_engine", "lb", false, true⟩]

theorem C117_turboprop_setup : singleEmpty.problems = [] ∧ twinEmpty.problems = [] ∧
    singleEmpty.ins = inputsTP ++ [⟨"W_propeller", "lb", false, true⟩] ∧
    twinEmpty.ins = inputsTP ++ [⟨"W_motors", "lb", false, true⟩, ⟨"W_generator", "lb", false, true⟩,
      ⟨"W_propeller", "lb", false, true⟩] := by
  refine ⟨?_, ?_, ?_, ?_⟩ <;> decide +kernel

/-- the airplane in the state `e`: fluids of 20 kg, structural factor 1.6 -/
noncomputable def airplaneTP (e : String → ℝ) : Weights.AircraftTP where
  MTOW := e "ac|weights|MTOW"
  MLW := e "ac|weights|MLW"
  Wf := e "ac|weights|W_fuel_max"
  S := e "ac|geom|wing|S_ref"
  AR := e "ac|geom|wing|AR"
  sweep := e "ac|geom|wing|c4sweep"
  taper := e "ac|geom|wing|taper"
  toverc := e "ac|geom|wing|toverc"
  q := e "ac|q_cruise"
  Sv := e "ac|geom|vstab|S_ref"
  Sh := e "ac|geom|hstab|S_ref"
  length := e "ac|geom|fuselage|length"
  height := e "ac|geom|fuselage|height"
  width := e "ac|geom|fuselage|width"
  Swet := e "ac|geom|fuselage|S_wet"
  arm := e "ac|geom|hstab|c4_to_wing_c4"
  P := e "P_TO"
  main := e "ac|geom|maingear|length"
  nose := e "ac|geom|nosegear|length"
  pax := e "ac|num_passengers_max"
  Wengine := e "W_engine"
  Wprop := e "W_propeller"
  Wmotors := e "W_motors"
  Wgen := e "W_generator"
  Wfluids := 20 / 0.45359237
  fudge := 1.6

/-- the outputs of the turboprop groups that weigh something, but the fluids -/
def weightsTP : List String := ["W_wing", "W_empennage", "W_fuselage", "W_nacelle", "W_gear", "W_fuelsystem", "W_equipment",
  "W_structure", "W_structure_adjusted", "OEW"]

theorem structTP_rel (o : Opts) (V : String → ℝ) (b) : (sum Weights.structTP b).rel o V ↔
    V "W_structure" = V "W_wing" + V "W_fuselage" + V "W_nacelle" + V "W_empennage" + V "W_gear" := by
  simp [sum, Weights.structTP, AddSys.compute, AddSys.factors]

theorem fudgeTP_rel (o : Opts) (V : String → ℝ) (b) : (product Weights.fudgeTP b).rel o V ↔
    V "W_structure_adjusted" = V "W_structure" * V "structural_fudge" := by
  simp [product, Weights.fudgeTP, MulSys.compute, MulSys.read, MulSys.div, List.zipIdx]

theorem totalSingle_rel (o : Opts) (V : String → ℝ) (b) : (sum Weights.totalSingle b).rel o V ↔ V "OEW" =
    V "W_structure_adjusted" + V "W_fuelsystem" + V "W_equipment" + V "W_engine" + V "W_propeller" + V "W_fluids" := by
  simp [sum, Weights.totalSingle, AddSys.compute, AddSys.factors]

theorem totalTwin_rel (o : Opts) (V : String → ℝ) (b) : (sum Weights.totalTwin b).rel o V ↔ V "OEW" =
    V "W_structure_adjusted" + V "W_fuelsystem" + V "W_equipment" + V "W_engine" + V "W_motors" + V "W_generator"
      + V "W_propeller" + V "W_fluids" := by
  simp [sum, Weights.totalTwin, AddSys.compute, AddSys.factors]

/-- the weights the sums see -/
theorem runTP (E : Weights.Env) :
    Weights.runSingle E "W_structure" = E "W_wing" + E "W_fuselage" + E "W_nacelle" + E "W_empennage" + E "W_gear" ∧
    Weights.runSingle E "W_structure_adjusted" = Weights.runSingle E "W_structure" * E "structural_fudge" ∧
    Weights.runTwin E "W_structure" = Weights.runSingle E "W_structure" ∧
    Weights.runTwin E "W_structure_adjusted" = Weights.runSingle E "W_structure_adjusted" := by
  simp [Weights.runSingle, Weights.runTwin, Weights.runAdd, Weights.runMul, Weights.totalSingle, Weights.totalTwin, Weights.fudgeTP,
    Weights.structTP, AddSys.compute, MulSys.compute, MulSys.read, Weights.Env.arr, AddSys.factors, MulSys.div, List.zipIdx]

/-- C117, `SingleTurboPropEmptyWeight`: the state is converged if and only if the fluids weigh 20 kg, the structural factor is 1.6 and
every weight is that of the airplane the inputs describe; the fluids are converted to pounds. -/
theorem C117_single (o : Opts) (e : String → ℝ) : singleEmpty.rel o e ↔
    e "W_fluids" = 20 ∧ e "structural_fudge" = 1.6 ∧
    ∀ v ∈ weightsTP, e v = Weights.runSingle ((airplaneTP e).env e) v := by
  have hs := (Weights.C72_single_total ((airplaneTP e).env e)).2
  have ht := (Weights.C72_single_total ((airplaneTP e).env e)).1
  obtain ⟨h1, h2, -, -⟩ := runTP ((airplaneTP e).env e)
  parts singleEmpty [singleEmpty, subsTP, constTP, consts, wingTP_rel, empennageTP_rel, fuselageTP_rel, nacelleTP_rel, gearTP_rel,
    fuelSystemTP_rel, equipmentTP_rel, structTP_rel, fudgeTP_rel, totalSingle_rel]
  views singleEmpty singleEmpty_links e
  simp only [conv_kg_lb, conv_lb2, weightsTP, List.forall_mem_cons, List.not_mem_nil, false_imp_iff, implies_true, and_true, ht, h2, h1,
    hs "W_wing" (by decide) (by decide) (by decide), hs "W_empennage" (by decide) (by decide) (by decide),
    hs "W_fuselage" (by decide) (by decide) (by decide), hs "W_nacelle" (by decide) (by decide) (by decide),
    hs "W_gear" (by decide) (by decide) (by decide), hs "W_fuelsystem" (by decide) (by decide) (by decide),
    hs "W_equipment" (by decide) (by decide) (by decide)]
  simp only [Weights.AircraftTP.env, String.reduceEq, if_true, if_false,
    Weights.AircraftTP.wing, Weights.AircraftTP.fus, Weights.AircraftTP.gear, Weights.AircraftTP.equip, Weights.KfspTP,
    Weights.nultTP, airplaneTP]
  constructor
  · rintro ⟨⟨f1, f2⟩, a1, a2, a3, a4, a5, a6, a7, a8, a9, a10⟩
    rw [f1] at a10
    rw [f2, a8] at a9
    refine ⟨f1, f2, a1, a2, a3, a4, a5, a6, ?_, ?_, ?_, ?_⟩
    · rw [a7, a6]
    · rw [a8, a1, a2, a3, a4, a5]
    · rw [a9, a1, a2, a3, a4, a5]
    · rw [a10, a9, a1, a2, a3, a4, a5, a7, a6]
      ring
  · rintro ⟨f1, f2, a1, a2, a3, a4, a5, a6, a7, a8, a9, a10⟩
    refine ⟨⟨f1, f2⟩, a1, a2, a3, a4, a5, a6, ?_, ?_, ?_, ?_⟩
    · rw [a7, a6]
    · rw [a8, a1, a2, a3, a4, a5]
    · rw [a9, a8, f2]
    · rw [a10, a9, a7, a6, f1]
      ring

/-- C117, `TwinSeriesHybridEmptyWeight`: the state is converged if and only if the fluids weigh 20 kg, the structural factor is 1.6 and
every weight is that of the airplane the inputs describe; the fluids are converted to pounds. -/
theorem C117_twin (o : Opts) (e : String → ℝ) : twinEmpty.rel o e ↔
    e "W_fluids" = 20 ∧ e "structural_fudge" = 1.6 ∧
    ∀ v ∈ weightsTP, e v = Weights.runTwin ((airplaneTP e).env e) v := by
  have hs := (Weights.C72_twin_total ((airplaneTP e).env e)).2
  have ht := (Weights.C72_twin_total ((airplaneTP e).env e)).1
  obtain ⟨h1, h2, h3, h4⟩ := runTP ((airplaneTP e).env e)
  parts twinEmpty [twinEmpty, subsTP, constTP, consts, wingTP_rel, empennageTP_rel, fuselageTP_rel, nacelleTP_rel, gearTP_rel,
    fuelSystemTP_rel, equipmentTP_rel, structTP_rel, fudgeTP_rel, totalTwin_rel]
  views twinEmpty twinEmpty_links e
  simp only [conv_kg_lb, conv_lb2, weightsTP, List.forall_mem_cons, List.not_mem_nil, false_imp_iff, implies_true, and_true, ht, h4, h3, h2, h1,
    hs "W_wing" (by decide) (by decide) (by decide), hs "W_empennage" (by decide) (by decide) (by decide),
    hs "W_fuselage" (by decide) (by decide) (by decide), hs "W_nacelle" (by decide) (by decide) (by decide),
    hs "W_gear" (by decide) (by decide) (by decide), hs "W_fuelsystem" (by decide) (by decide) (by decide),
    hs "W_equipment" (by decide) (by decide) (by decide)]
  simp only [Weights.AircraftTP.env, String.reduceEq, if_true, if_false,
    Weights.AircraftTP.wing, Weights.AircraftTP.fus, Weights.AircraftTP.gear, Weights.AircraftTP.equip, Weights.KfspTP,
    Weights.nultTP, airplaneTP]
  constructor
  · rintro ⟨⟨f1, f2⟩, a1, a2, a3, a4, a5, a6, a7, a8, a9, a10⟩
    rw [f1] at a10
    rw [f2, a8] at a9
    refine ⟨f1, f2, a1, a2, a3, a4, a5, a6, ?_, ?_, ?_, ?_⟩
    · rw [a7, a6]
    · rw [a8, a1, a2, a3, a4, a5]
    · rw [a9, a1, a2, a3, a4, a5]
    · rw [a10, a9, a1, a2, a3, a4, a5, a7, a6]
      ring
  · rintro ⟨f1, f2, a1, a2, a3, a4, a5, a6, a7, a8, a9, a10⟩
    refine ⟨⟨f1, f2⟩, a1, a2, a3, a4, a5, a6, ?_, ?_, ?_, ?_⟩
    · rw [a7, a6]
    · rw [a8, a1, a2, a3, a4, a5]
    · rw [a9, a8, f2]
    · rw [a10, a9, a7, a6, f1]
      ring

/-- the sums depend on the other variables only through the weights -/
theorem runTP_other (a : Weights.AircraftTP) (e f : Weights.Env) : ∀ v ∈ weightsTP,
    Weights.runSingle (a.env e) v = Weights.runSingle (a.env f) v ∧ Weights.runTwin (a.env e) v = Weights.runTwin (a.env f) v := by
  simp [weightsTP, Weights.runSingle, Weights.runTwin, Weights.runAdd, Weights.runMul, Weights.totalSingle, Weights.totalTwin,
    Weights.fudgeTP, Weights.structTP, AddSys.compute, MulSys.compute, MulSys.read, Weights.Env.arr, AddSys.factors, MulSys.div,
    List.zipIdx, Weights.AircraftTP.env]

/-- the single turboprop has no motors and no generator -/
theorem runSingle_unused (a : Weights.AircraftTP) (e f : Weights.Env) (x y : ℝ) : ∀ v ∈ weightsTP,
    Weights.runSingle (Weights.AircraftTP.env { a with Wmotors := x, Wgen := y } e) v = Weights.runSingle (a.env f) v := by
  simp [weightsTP, Weights.runSingle, Weights.runAdd, Weights.runMul, Weights.totalSingle,
    Weights.fudgeTP, Weights.structTP, AddSys.compute, MulSys.compute, MulSys.read, Weights.Env.arr, AddSys.factors, MulSys.div,
    List.zipIdx, Weights.AircraftTP.env, Weights.AircraftTP.wing, Weights.AircraftTP.fus, Weights.AircraftTP.gear, Weights.AircraftTP.equip]

/-- C117.  For all inputs there is a converged state of each of the two groups, and the outputs are the same in all of them. -/
theorem C117_turboprop_solution (o : Opts) (e₀ : String → ℝ) :
    (∃ e, singleEmpty.rel o e ∧ ∀ v ∈ singleEmpty.ins, e v.name = e₀ v.name) ∧
    (∃ e, twinEmpty.rel o e ∧ ∀ v ∈ twinEmpty.ins, e v.name = e₀ v.name) ∧
    (∀ e f, singleEmpty.rel o e → singleEmpty.rel o f → (∀ v ∈ singleEmpty.ins, e v.name = f v.name) →
      ∀ v ∈ singleEmpty.outs, e v.name = f v.name) ∧
    (∀ e f, twinEmpty.rel o e → twinEmpty.rel o f → (∀ v ∈ twinEmpty.ins, e v.name = f v.name) →
      ∀ v ∈ twinEmpty.outs, e v.name = f v.name) := by
  have ho1 : ∀ v ∈ singleEmpty.outs, v.name = "W_fluids" ∨ v.name = "structural_fudge" ∨ v.name ∈ weightsTP := by decide +kernel
  have ho2 : ∀ v ∈ twinEmpty.outs, v.name = "W_fluids" ∨ v.name = "structural_fudge" ∨ v.name ∈ weightsTP := by decide +kernel
  obtain ⟨-, -, hi1, hi2⟩ := C117_turboprop_setup
  refine ⟨?_, ?_, ?_, ?_⟩
  · refine ⟨fun v => if v = "W_fluids" then 20 else if v = "structural_fudge" then 1.6
      else Weights.runSingle ((airplaneTP e₀).env e₀) v, ?_, ?_⟩
    · rw [C117_single]
      refine ⟨rfl, rfl, fun v hv => ?_⟩
      rw [if_neg, if_neg]
      rotate_left
      · rintro rfl; revert hv; decide
      · rintro rfl; revert hv; decide
      have : airplaneTP (fun v => if v = "W_fluids" then 20 else if v = "structural_fudge" then 1.6
          else Weights.runSingle ((airplaneTP e₀).env e₀) v) = airplaneTP e₀ := by
        simp [airplaneTP, Weights.runSingle, Weights.runAdd, Weights.runMul, Weights.totalSingle, Weights.fudgeTP, Weights.structTP,
          Weights.AircraftTP.env]
      rw [this]
      exact (runTP_other _ _ _ v hv).1
    · rw [hi1]
      simp [inputsTP, airplaneTP, Weights.runSingle, Weights.runAdd, Weights.runMul, Weights.totalSingle, Weights.fudgeTP, Weights.structTP,
          Weights.AircraftTP.env]
  · refine ⟨fun v => if v = "W_fluids" then 20 else if v = "structural_fudge" then 1.6
      else Weights.runTwin ((airplaneTP e₀).env e₀) v, ?_, ?_⟩
    · rw [C117_twin]
      refine ⟨rfl, rfl, fun v hv => ?_⟩
      rw [if_neg, if_neg]
      rotate_left
      · rintro rfl; revert hv; decide
      · rintro rfl; revert hv; decide
      have : airplaneTP (fun v => if v = "W_fluids" then 20 else if v = "structural_fudge" then 1.6
          else Weights.runTwin ((airplaneTP e₀).env e₀) v) = airplaneTP e₀ := by
        simp [airplaneTP, Weights.runTwin, Weights.runAdd, Weights.runMul, Weights.totalTwin, Weights.fudgeTP, Weights.structTP,
          Weights.AircraftTP.env]
      rw [this]
      exact (runTP_other _ _ _ v hv).2
    · rw [hi2]
      simp [inputsTP, airplaneTP, Weights.runTwin, Weights.runAdd, Weights.runMul, Weights.totalTwin, Weights.fudgeTP, Weights.structTP,
          Weights.AircraftTP.env]
  · intro e f he hf hin v hv
    rw [C117_single] at he hf
    have ha : airplaneTP e = { airplaneTP f with Wmotors := e "W_motors", Wgen := e "W_generator" } := by
      rw [hi1] at hin
      simp [inputsTP] at hin
      simp [airplaneTP, hin]
    rcases ho1 v hv with h | h | h
    · rw [h, he.1, hf.1]
    · rw [h, he.2.1, hf.2.1]
    · rw [he.2.2 _ h, hf.2.2 _ h, ha]
      exact runSingle_unused _ _ _ _ _ _ h
  · intro e f he hf hin v hv
    rw [C117_twin] at he hf
    have ha : airplaneTP e = airplaneTP f := by
      rw [hi2] at hin
      simp [inputsTP] at hin
      simp [airplaneTP, hin]
    rcases ho2 v hv with h | h | h
    · rw [h, he.1, hf.1]
    · rw [h, he.2.1, hf.2.1]
    · rw [he.2.2 _ h, hf.2.2 _ h, ha]
      exact (runTP_other _ _ _ _ h).2

/-- C117.  In the converged group of the single turboprop, a heavier airplane (greater `ac|weights|MTOW`, all other inputs the same)
has a strictly greater empty weight. -/
theorem C117_single_mono (o o' : Opts) {e f : String → ℝ} (he : singleEmpty.rel o e) (hf : singleEmpty.rel o' f)
    (h : ∀ v ∈ singleEmpty.ins.map Var.name, v ≠ "ac|weights|MTOW" → e v = f v) (hok : (airplaneTP e).Ok)
    (hM : e "ac|weights|MTOW" < f "ac|weights|MTOW") : e "OEW" < f "OEW" := by
  rw [C117_single] at he hf
  have := (Weights.C72_total_mono _ e hok hM).1
  have ha : airplaneTP f = { ({ airplaneTP e with MTOW := f "ac|weights|MTOW" } : Weights.AircraftTP) with
      Wmotors := f "W_motors", Wgen := f "W_generator" } := by
    rw [C117_turboprop_setup.2.2.1] at h
    simp [inputsTP] at h
    simp [airplaneTP, h]
  rw [he.2.2 "OEW" (by decide), hf.2.2 "OEW" (by decide), ha]
  rwa [runSingle_unused ({ airplaneTP e with MTOW := f "ac|weights|MTOW" } : Weights.AircraftTP) f e _ _ "OEW" (by decide)]

/-- C117.  The same for the twin series hybrid. -/
theorem C117_twin_mono (o o' : Opts) {e f : String → ℝ} (he : twinEmpty.rel o e) (hf : twinEmpty.rel o' f)
    (h : ∀ v ∈ twinEmpty.ins.map Var.name, v ≠ "ac|weights|MTOW" → e v = f v) (hok : (airplaneTP e).Ok)
    (hM : e "ac|weights|MTOW" < f "ac|weights|MTOW") : e "OEW" < f "OEW" := by
  rw [C117_twin] at he hf
  have := (Weights.C72_total_mono _ e hok hM).2
  have ha : airplaneTP f = { airplaneTP e with MTOW := f "ac|weights|MTOW" } := by
    rw [C117_turboprop_setup.2.2.2] at h
    simp [inputsTP] at h
    simp [airplaneTP, h]
  rw [he.2.2 "OEW" (by decide), hf.2.2 "OEW" (by decide), ha]
  rwa [(runTP_other { airplaneTP e with MTOW := f "ac|weights|MTOW" } f e "OEW" (by decide)).2]

/-- inputs for the example: all 1, sweep 0 -/
noncomputable def onesTP (M : ℝ) (v : String) : ℝ := if v = "ac|weights|MTOW" then M else if v = "ac|geom|wing|c4sweep" then 0 else 1

/-- two turboprops of 1 lb and 2 lb: both have a converged state, and the second is heavier -/
example : ∃ e f : String → ℝ, singleEmpty.rel ⟨fun _ => 1, fun _ _ => 0⟩ e ∧ singleEmpty.rel ⟨fun _ => 1, fun _ _ => 0⟩ f ∧
    e "ac|weights|MTOW" = 1 ∧ f "ac|weights|MTOW" = 2 ∧ e "OEW" < f "OEW" := by
  obtain ⟨e, he, hie⟩ := (C117_turboprop_solution ⟨fun _ => 1, fun _ _ => 0⟩ (onesTP 1)).1
  obtain ⟨f, hf, hif⟩ := (C117_turboprop_solution ⟨fun _ => 1, fun _ _ => 0⟩ (onesTP 2)).1
  rw [C117_turboprop_setup.2.2.1] at hie hif
  simp [inputsTP, onesTP] at hie hif
  refine ⟨e, f, he, hf, hie.1, hif.1, C117_single_mono _ _ he hf ?_ ?_ ?_⟩
  · rw [C117_turboprop_setup.2.2.1]
    simp [inputsTP, hie, hif]
  · simp [Weights.AircraftTP.Ok, airplaneTP, hie]; norm_num
  · rw [hie.1, hif.1]; norm_num

/-- the same for two twins -/
example : ∃ e f : String → ℝ, twinEmpty.rel ⟨fun _ => 1, fun _ _ => 0⟩ e ∧ twinEmpty.rel ⟨fun _ => 1, fun _ _ => 0⟩ f ∧
    e "ac|weights|MTOW" = 1 ∧ f "ac|weights|MTOW" = 2 ∧ e "OEW" < f "OEW" := by
  obtain ⟨e, he, hie⟩ := (C117_turboprop_solution ⟨fun _ => 1, fun _ _ => 0⟩ (onesTP 1)).2.1
  obtain ⟨f, hf, hif⟩ := (C117_turboprop_solution ⟨fun _ => 1, fun _ _ => 0⟩ (onesTP 2)).2.1
  rw [C117_turboprop_setup.2.2.2] at hie hif
  simp [inputsTP, onesTP] at hie hif
  refine ⟨e, f, he, hf, hie.1, hif.1, C117_twin_mono _ _ he hf ?_ ?_ ?_⟩
  · rw [C117_turboprop_setup.2.2.2]
    simp [inputsTP, hie, hif]
  · simp [Weights.AircraftTP.Ok, airplaneTP, hie]; norm_num
  · rw [hie.1, hif.1]; norm_num

end Verif.Wiring
