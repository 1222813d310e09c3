import Verif.Model.Aircraft
import Verif.Model.CriticalSection
import Verif.Model.WeightsJet
import Verif.Model.WingSizing
import Verif.Props.VectorComps

/-! Property C113: the sums and products with which the groups of the library and of the example airplanes are wired pass all checks
for every number of nodes, and declare their variables with the right sizes and units. -/

namespace Verif.Equations

open Verif.VectorComps

/-- name, number of rows and unit of the declared variables, the output first -/
noncomputable def sums (s : AddSys ℝ) : Except Err (List (String × ℕ × Option String)) :=
  s.setup.map fun r => (r.1.output :: r.1.inputs).map fun v => (v.name, v.rows, v.units)

/-- the same for a product, whose output gets the product of the units -/
noncomputable def products (s : MulSys ℝ) : Except Err (List (String × ℕ × Option String)) :=
  s.check.map fun _ => (s.output, s.vecSize.out, outputUnits (s.div.zip s.units)) ::
    s.inputs.zipIdx.map fun p => (p.1, s.vecSize.get p.2, s.units.getD p.2 none)

theorem cols_ok (v n : ℕ) (h : v = 1 ∨ v = n) : colsOk v 1 (n * 1) = true := by
  unfold colsOk colVals
  simp only [mul_one, List.all_eq_true, List.mem_range, decide_eq_true_eq]
  intro R hR
  rcases h with rfl | rfl
  · simp
  · split_ifs <;> omega

theorem sums_ok (s : AddSys ℝ) (h1 : s.factors.length = s.inputs.length) (h2 : s.vecSize.badLength s.inputs.length = false)
    (h3 : s.vecSize.noSizes = false) (h4 : (s.output :: s.inputs).Nodup) (h5 : s.length = 1)
    (h6 : ∀ i < s.inputs.length, s.vecSize.get i = 1 ∨ s.vecSize.get i = s.vecSize.out) :
    sums s = .ok ((s.output, s.vecSize.out, s.kwargs.units.getD none)
      :: s.inputs.zipIdx.map fun p => (p.1, s.vecSize.get p.2, s.kwargs.units.getD none)) := by
  have hc : s.check = .ok () := by
    unfold AddSys.check
    rw [if_neg (by simpa using h1), if_neg (by simp [h2]), if_neg (by simp [h3]), if_neg (by simpa using h4), if_neg]
    rw [not_not, h5]
    exact fun i hi => cols_ok _ _ (h6 i hi)
  unfold sums AddSys.setup
  rw [hc]
  simp only [Except.map, AddSys.register, List.map_cons, List.map_map]
  rfl

theorem products_ok (s : MulSys ℝ) (h1 : s.div.length = s.inputs.length) (h1' : s.units.length = s.inputs.length)
    (h2 : s.vecSize.badLength s.inputs.length = false) (h3 : s.vecSize.noSizes = false) (h4 : (s.output :: s.inputs).Nodup)
    (h5 : s.length = 1) (h6 : ∀ i < s.inputs.length, s.vecSize.get i = 1 ∨ s.vecSize.get i = s.vecSize.out) :
    products s = .ok ((s.output, s.vecSize.out, outputUnits (s.div.zip s.units)) ::
      s.inputs.zipIdx.map fun p => (p.1, s.vecSize.get p.2, s.units.getD p.2 none)) := by
  have hc : s.check = .ok () := by
    unfold MulSys.check
    rw [if_neg (by simpa using h1), if_neg (by simpa using h1'), if_neg (by simp [h2]), if_neg (by simp [h3]),
      if_neg (by simpa using h4), if_neg]
    rw [not_not, h5]
    exact fun i hi => cols_ok _ _ (h6 i hi)
  unfold products
  rw [hc]
  rfl

/-- sizes that are all the same -/
theorem all_sizes (n k : ℕ) : ∀ i < k, (VecSize.all n).get i = 1 ∨ (VecSize.all n).get i = (VecSize.all n).out :=
  fun _ _ => .inr rfl

/-- `sums_ok` for the equation `d`: the hypotheses are computed -/
macro "eqn " d:ident : tactic => `(tactic| (
  first | rw [sums_ok _ (by simp [$d:ident, AddSys.factors]) (by simp [$d:ident, VecSize.badLength]) rfl (by simp [$d:ident]) rfl (by
    intro i hi
    simp only [$d:ident, List.length_cons, List.length_nil] at hi
    interval_cases i <;> simp [$d:ident, VecSize.get, VecSize.out] <;> omega)]
        | rw [products_ok _ (by simp [$d:ident, MulSys.div]) (by simp [$d:ident, MulSys.units])
    (by simp [$d:ident, VecSize.badLength]) rfl (by simp [$d:ident]) rfl (by
    intro i hi
    simp only [$d:ident, List.length_cons, List.length_nil] at hi
    interval_cases i <;> simp [$d:ident, VecSize.get, VecSize.out] <;> omega)]
  simp [$d:ident, VecSize.out, VecSize.get, List.zipIdx, MulSys.div, MulSys.units]))

/-- C113.  Weights and sizing equations of the example airplanes. -/
theorem C113_airplanes (nn : ℕ) (h : 1 ≤ nn) :
    sums (Aircraft.weightSys nn)
      = .ok [("weight", nn, some "kg"), ("ac|weights|MTOW", 1, some "kg"), ("fuel_used", nn, some "kg")] ∧
    sums (WingSizing.weightSys nn)
      = .ok [("weight", nn, some "kg"), ("ac|weights|MTOW", 1, some "kg"), ("fuel_used", nn, some "kg"),
        ("ac|weights|orig_W_wing", 1, some "kg"), ("ac|weights|W_wing", 1, some "kg")] ∧
    sums (Aircraft.engineSys nn)
      = .ok [("num_active_engines", nn, none), ("num_engines", 1, none), ("propulsor_active", nn, none), ("one", 1, none)] ∧
    sums Aircraft.mtowSys
      = .ok [("MTOW", 1, some "kg"), ("OEW", 1, some "kg"), ("W_payload", 1, some "kg"), ("W_fuel", 1, some "kg")] ∧
    sums Aircraft.mlwSys = .ok [("ac|weights|MLW", 1, some "kg"), ("ac|weights|MTOW", 1, some "kg")] ∧
    sums Aircraft.leverSys = .ok [("c4_to_wing_c4", 1, some "m"), ("fuselage_length", 1, some "m")] ∧
    sums Aircraft.hxOew
      = .ok [("OEW", 1, some "kg"), ("OEW_orig", 1, some "kg"), ("W_hx", 1, some "kg"), ("W_coolant", 1, some "kg")] ∧
    sums (Aircraft.hxDrag nn) = .ok [("drag", nn, some "N"), ("drag_orig", nn, some "N"), ("drag_hx", nn, some "N")] ∧
    sums Aircraft.hxArea
      = .ok [("area_constraint", 1, some "m**2"), ("hx_frontal_area", 1, some "m**2"), ("nozzle_area", 1, some "m**2")] := by
  refine ⟨?_, ?_, ?_, ?_, ?_, ?_, ?_, ?_, ?_⟩
  · eqn Aircraft.weightSys; try omega
  · eqn WingSizing.weightSys; try omega
  · eqn Aircraft.engineSys; try omega
  · eqn Aircraft.mtowSys
  · eqn Aircraft.mlwSys
  · eqn Aircraft.leverSys
  · eqn Aircraft.hxOew
  · eqn Aircraft.hxDrag
  · eqn Aircraft.hxArea

/-- the same weight unit for all -/
def lb (l : List String) : List (String × ℕ × Option String) := l.map fun n => (n, 1, some "lb")

/-- C113.  Empty weights. -/
theorem C113_weights (fudge wingMult total : ℝ) :
    sums Weights.structTP = .ok (lb ["W_structure", "W_wing", "W_fuselage", "W_nacelle", "W_empennage", "W_gear"]) ∧
    sums Weights.totalSingle = .ok (lb ["OEW", "W_structure_adjusted", "W_fuelsystem", "W_equipment", "W_engine", "W_propeller",
      "W_fluids"]) ∧
    sums Weights.totalTwin = .ok (lb ["OEW", "W_structure_adjusted", "W_fuelsystem", "W_equipment", "W_engine", "W_motors",
      "W_generator", "W_propeller", "W_fluids"]) ∧
    sums (Weights.structSys Weights.structNamesJ fudge wingMult) = .ok (lb ["W_structure", "W_wing", "W_hstab", "W_vstab",
      "W_fuselage", "W_mlg", "W_nlg", "W_nacelle"]) ∧
    sums (Weights.structSys Weights.structNamesBWB fudge wingMult) = .ok (lb ["W_structure", "W_wing", "W_cabin", "W_aftbody",
      "W_mlg", "W_nlg", "W_nacelle"]) ∧
    sums (Weights.totalSys total) = .ok (lb ["OEW", "W_structure", "W_engines", "W_thrust_rev", "W_eng_control", "W_fuelsystem",
      "W_eng_start", "W_furnishings", "W_flight_controls", "W_avionics", "W_electrical", "W_ac_pressurize_antiice", "W_oxygen",
      "W_APU"]) ∧
    products Weights.fudgeTP = .ok [("W_structure_adjusted", 1, some "lb * (m/m) "), ("W_structure", 1, some "lb"),
      ("structural_fudge", 1, some "m/m")] := by
  refine ⟨?_, ?_, ?_, ?_, ?_, ?_, ?_⟩
  · eqn Weights.structTP; simp [lb]
  · eqn Weights.totalSingle; simp [lb]
  · eqn Weights.totalTwin; simp [lb]
  · rw [sums_ok _ rfl rfl rfl (by simp [Weights.structSys, Weights.structNamesJ]) rfl (all_sizes _ _)]; rfl
  · rw [sums_ok _ rfl rfl rfl (by simp [Weights.structSys, Weights.structNamesBWB]) rfl (all_sizes _ _)]; rfl
  · rw [sums_ok _ (by simp [Weights.totalSys, AddSys.factors]) rfl rfl (by simp [Weights.totalSys, Weights.finalNames]) rfl
      (all_sizes _ _)]; rfl
  · eqn Weights.fudgeTP
    rfl

/-- C113.  Engines, drag and the section lift limit; the limit may be one number or one for each section. -/
theorem C113_products (nn : ℕ) (h : 1 ≤ nn) (vec : Bool) (fudge : ℝ) :
    products (Aircraft.thrustSys nn) = .ok [("thrust", nn, some "lbf "), ("thrust_per_engine", nn, some "lbf"),
      ("num_active_engines_1", nn, none)] ∧
    products (Aircraft.fuelSys nn) = .ok [("fuel_flow", nn, some "kg/s "), ("fuel_flow_per_engine", nn, some "kg/s"),
      ("num_active_engines_2", nn, none)] ∧
    products Aero.bwbNacSys = .ok [("CD_nacelle", 1, some "m**2 / (m**2) "), ("ac|geom|nacelle|S_wet", 1, some "m**2"),
      ("FF_nacelle", 1, none), ("Cf_nacelle", 1, none), ("ac|propulsion|num_engines", 1, none),
      ("ac|geom|wing|S_ref", 1, some "m**2")] ∧
    sums (Aero.bwbSum fudge) = .ok [("CD0", 1, none), ("CD_nacelle", 1, none), ("CD_flap", 1, none),
      ("CD_landing_gear", 1, none)] ∧
    sums (Aero.clLimitSys nn (Aero.clMaxShape vec nn)) = .ok [("Cl_limit_vec", nn, none), ("Cl", nn, none),
      ("Cl_max", if vec then nn else 1, none)] := by
  refine ⟨?_, ?_, ?_, ?_, ?_⟩
  · eqn Aircraft.thrustSys; rfl
  · eqn Aircraft.fuelSys; rfl
  · eqn Aero.bwbNacSys; rfl
  · eqn Aero.bwbSum
  · cases vec
    · rw [sums_ok _ rfl rfl rfl (by simp [Aero.clLimitSys]) rfl (by
        intro i hi
        simp only [Aero.clLimitSys, List.length_cons, List.length_nil] at hi
        interval_cases i <;> simp [Aero.clLimitSys, Aero.clMaxShape, VecSize.get, VecSize.out]; omega)]
      simp [Aero.clLimitSys, Aero.clMaxShape, VecSize.out, VecSize.get, List.zipIdx]; omega
    · rw [sums_ok _ rfl rfl rfl (by simp [Aero.clLimitSys]) rfl (by
        intro i hi
        simp only [Aero.clLimitSys, List.length_cons, List.length_nil] at hi
        interval_cases i <;> simp [Aero.clLimitSys, Aero.clMaxShape, VecSize.get, VecSize.out])]
      simp [Aero.clLimitSys, Aero.clMaxShape, VecSize.out, VecSize.get, List.zipIdx]

/-- with two nodes the vector of fuel has two rows, the take-off weight one -/
example : sums (Aircraft.weightSys 2)
    = .ok [("weight", 2, some "kg"), ("ac|weights|MTOW", 1, some "kg"), ("fuel_used", 2, some "kg")] := (C113_airplanes 2 (by omega)).1

/-- an equation with three inputs and two scaling factors is refused -/
example : sums ⟨"weight", ["ac|weights|MTOW", "fuel_used", "payload"], .all 2, 1, some [1, -1], ⟨some (some "kg"), none⟩⟩
    = .error .scalingLength := by
  simp [sums, AddSys.setup, AddSys.check, AddSys.factors, Except.map, bind, Except.bind]

end Verif.Equations
