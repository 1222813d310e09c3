import Verif.Model.Aircraft
import Verif.Props.Integrals
import Verif.Props.IntegralsPartials
import Mathlib.Analysis.Calculus.Deriv.Add
import Mathlib.Analysis.Calculus.Deriv.Mul

/-! Property C92: weight bookkeeping of the example aircraft. -/

namespace Verif.Aircraft

open Verif.Integrals Verif.VectorComps Verif.Weights Polynomial

variable {m : ℕ} {M : Matrix (Fin (m + 1)) (Fin (m + 1)) ℝ}

/-- C92.  In every phase the weight is the take-off weight minus the fuel used. -/
theorem C92_weight (mtow : ℝ) (fuel : Fin (m + 1) → ℝ) (a : Fin (m + 1)) : weight mtow fuel a = mtow - fuel a := by
  have h1 : ("fuel_used" : String) ≠ "ac|weights|MTOW" := by decide
  have ha : (a : ℕ) ≤ m := by omega
  by_cases h : m = 0
  · subst h
    obtain rfl : a = 0 := by ext; simp
    simp [weight, weightSys, AddSys.compute, AddSys.factors, weightEnv, VecSize.get, List.zipIdx]
    ring
  · simp [weight, weightSys, AddSys.compute, AddSys.factors, weightEnv, VecSize.get, List.zipIdx, h, ha]
    ring

/-- example: 5000 kg at take-off, 300 kg of fuel used at node 1 -/
example : weight (m := 2) 5000 ![0, 300, 700] 1 = 4700 := by rw [C92_weight]; norm_num

/-- the increment of the state over a phase does not depend on its initial value -/
theorem segFinal_eq (q0 : ℝ) (s : Seg m) : segFinal M q0 s = q0 + segFinal M 0 s := by
  simp only [segFinal, integratorFinal, integratorCompute_eq]; ring

theorem segFuel_last (q0 : ℝ) (s : Seg m) : segFuel M q0 s (Fin.last m) = segFinal M q0 s := rfl

/-- C92.  The fuel used after the last phase is the initial value plus the sum of the fuel burned in the single phases, each
of which may be computed on its own; the order of the phases does not matter. -/
theorem C92_total (q0 : ℝ) (l : List (Seg m)) :
    missionFinal M q0 l = q0 + (l.map (segFinal M 0)).sum ∧
    ∀ l', l.Perm l' → missionFinal M q0 l = missionFinal M q0 l' := by
  have h : ∀ l : List (Seg m), ∀ q0, missionFinal M q0 l = q0 + (l.map (segFinal M 0)).sum := by
    intro l
    induction l with
    | nil => simp [missionFinal]
    | cons s l ih =>
      intro q0
      have : missionFinal M q0 (s :: l) = missionFinal M (segFinal M q0 s) l := rfl
      rw [this, ih, segFinal_eq]
      simp only [List.map_cons, List.sum_cons]; ring
  refine ⟨h l q0, fun l' hp => ?_⟩
  rw [h, h, (hp.map _).sum_eq]

/-- C92.  The fuel histories: one per phase; the first starts at the initial value, each other one starts where the phase
before it ended, and the last one ends at the total. -/
theorem C92_histories {method : Method} (hM : methodMatrix method m = some M) (q0 : ℝ) (l : List (Seg m)) :
    (missionFuel M q0 l).length = l.length ∧
    (∀ f ∈ (missionFuel M q0 l).head?, f 0 = q0) ∧
    (∀ k, ∀ h : k + 1 < (missionFuel M q0 l).length,
      (missionFuel M q0 l)[k + 1] 0 = (missionFuel M q0 l)[k] (Fin.last m)) ∧
    (∀ f ∈ (missionFuel M q0 l).getLast?, f (Fin.last m) = missionFinal M q0 l) := by
  have h0 : ∀ q0 (s : Seg m), segFuel M q0 s 0 = q0 := fun q0 s => C03_first_node hM q0 _ _
  induction l generalizing q0 with
  | nil => simp [missionFuel]
  | cons s l ih =>
    obtain ⟨i1, i2, i3, i4⟩ := ih (segFinal M q0 s)
    refine ⟨by simp [missionFuel, i1], by simp [missionFuel, h0], ?_, ?_⟩
    · intro k hk
      cases k with
      | zero =>
        cases l with
        | nil => simp [missionFuel] at hk
        | cons s' l' =>
          show segFuel M (segFinal M q0 s) s' 0 = segFuel M q0 s (Fin.last m)
          rw [h0, segFuel_last]
      | succ k => exact i3 k (by simpa [missionFuel] using hk)
    · cases l with
      | nil => simp [missionFuel, missionFinal, segFuel_last]
      | cons s' l' =>
        intro f hf
        have : missionFinal M q0 (s :: s' :: l') = missionFinal M (segFinal M q0 s) (s' :: l') := rfl
        rw [this]
        apply i4
        simpa [missionFuel, List.getLast?_cons_cons] using hf

/-- C92.  The weight does not jump between phases, and at the end of the mission it is the take-off weight minus the fuel
burned in all phases. -/
theorem C92_continuous {method : Method} (hM : methodMatrix method m = some M) (mtow : ℝ) (l : List (Seg m)) :
    (∀ k, ∀ h : k + 1 < (missionFuel M 0 l).length,
      weight mtow ((missionFuel M 0 l)[k + 1]) 0 = weight mtow ((missionFuel M 0 l)[k]) (Fin.last m)) ∧
    (∀ f ∈ (missionFuel M 0 l).head?, weight mtow f 0 = mtow) ∧
    (∀ f ∈ (missionFuel M 0 l).getLast?, weight mtow f (Fin.last m) = mtow - (l.map (segFinal M 0)).sum) := by
  obtain ⟨_, h2, h3, h4⟩ := C92_histories hM 0 l
  refine ⟨fun k h => by rw [C92_weight, C92_weight, h3 k h], fun f hf => by rw [C92_weight, h2 f hf, sub_zero],
    fun f hf => ?_⟩
  rw [C92_weight, h4 f hf, (C92_total 0 l).1, zero_add]

/-- the histories of later phases lie above the initial value at their even nodes -/
theorem missionFuel_ge (hM : methodMatrix .simpson m = some M) (l : List (Seg m))
    (hl : ∀ s ∈ l, 0 ≤ s.duration ∧ ∀ a, 0 ≤ s.flow a) (q0 : ℝ) :
    ∀ f ∈ missionFuel M q0 l, ∀ k, ∀ h : 2 * k ≤ m, q0 ≤ f ⟨2 * k, by omega⟩ := by
  induction l generalizing q0 with
  | nil => simp [missionFuel]
  | cons s l ih =>
    have hs := hl s (by simp)
    have hst : 0 ≤ (TimeInput.duration s.duration).step m := div_nonneg hs.1 (Nat.cast_nonneg m)
    intro f hf k hk
    rcases List.mem_cons.1 hf with rfl | hf
    · have h := C07_simpson_even_monotone_partial hM q0 (.duration s.duration) hst s.flow hs.2 0 k (by omega) hk
      have e0 : (⟨2 * 0, by omega⟩ : Fin (m + 1)) = 0 := rfl
      rw [e0, C03_first_node hM] at h
      exact h
    · exact (C07_simpson_final_ge hM q0 (.duration s.duration) hst s.flow hs.2).trans
        (ih (fun s' h' => hl s' (by simp [h'])) _ f hf k hk)

/-- C92.  With nonnegative fuel flow and durations the weight never increases along the mission, at the even nodes of the
phases (in particular their first and last nodes): `k, k'` are such nodes of the phases `i ≤ j`. -/
theorem C92_monotone (hM : methodMatrix .simpson m = some M) (mtow : ℝ) (l : List (Seg m))
    (hl : ∀ s ∈ l, 0 ≤ s.duration ∧ ∀ a, 0 ≤ s.flow a) (q0 : ℝ) (i j k k' : ℕ)
    (hj : j < (missionFuel M q0 l).length) (hij : i < j ∨ i = j ∧ k ≤ k') (hk : 2 * k ≤ m) (hk' : 2 * k' ≤ m) :
    weight mtow ((missionFuel M q0 l)[j]) ⟨2 * k', by omega⟩
      ≤ weight mtow ((missionFuel M q0 l)[i]'(by omega)) ⟨2 * k, by omega⟩ := by
  rw [C92_weight, C92_weight]
  apply sub_le_sub_left
  have hm := (methodMatrix_simpson.1 hM).1
  induction l generalizing q0 i j with
  | nil => simp [missionFuel] at hj
  | cons s l ih =>
    have hs := hl s (by simp)
    have hst : 0 ≤ (TimeInput.duration s.duration).step m := div_nonneg hs.1 (Nat.cast_nonneg m)
    have mono := C07_simpson_even_monotone_partial hM q0 (.duration s.duration) hst s.flow hs.2
    cases i with
    | zero =>
      cases j with
      | zero => exact mono k k' (by omega) hk'
      | succ j =>
        have h1 : segFuel M q0 s ⟨2 * k, by omega⟩ ≤ segFinal M q0 s := by
          have := mono k (m / 2) (by omega) (by omega)
          have e : (⟨2 * (m / 2), by omega⟩ : Fin (m + 1)) = Fin.last m := by ext; simp; omega
          rw [e] at this
          exact this
        have h2 := missionFuel_ge hM l (fun s' h' => hl s' (by simp [h'])) (segFinal M q0 s)
          ((missionFuel M (segFinal M q0 s) l)[j]'(by simpa [missionFuel] using hj)) (List.getElem_mem _) k' hk'
        exact h1.trans h2
    | succ i =>
      cases j with
      | zero => omega
      | succ j =>
        exact ih (fun s' h' => hl s' (by simp [h'])) (segFinal M q0 s) i j
          (by simpa [missionFuel] using hj) (by omega)

/-- C92 needs the even nodes: with the fuel flow (0, 0, 1) the aircraft is heavier than at take-off at the middle node. -/
theorem C92_odd_node_false :
    ∃ s : Seg 2, 0 ≤ s.duration ∧ (∀ a, 0 ≤ s.flow a) ∧ 5000 < weight 5000 (segFuel (simpsonTri 2) 0 s) 1 := by
  refine ⟨⟨![0, 0, 1], 2⟩, by norm_num, fun a => by fin_cases a <;> simp, ?_⟩
  rw [C92_weight]
  have h := C07_simpson_decrease
  simp only [integratorCompute_eq, TimeInput.step] at h
  simp only [segFuel, integratorCompute_eq, TimeInput.step]
  norm_num at h ⊢
  linarith

/-- C92.  If in every phase the fuel flow is a polynomial of degree at most 3 of the time, the landing weight is exact:
take-off weight minus the integral of the fuel flow over all phases. -/
theorem C92_exact (hM : methodMatrix .simpson m = some M) (hm : m ≠ 0) (l : List (ℝ[X] × ℝ))
    (hl : ∀ p ∈ l, p.1.natDegree ≤ 3) :
    missionFinal M 0 (l.map fun p => ⟨fun b => p.1.eval ((b : ℕ) * (p.2 / m)), p.2⟩)
      = (l.map fun p => ∫ t in (0 : ℝ)..p.2, p.1.eval t).sum := by
  rw [(C92_total 0 _).1, zero_add, List.map_map]
  congr 1
  apply List.map_congr_left
  intro p hp
  have h := C01_simpson_final_cubic hM hm p.1 (hl p hp) 0 p.2 0
  simp only [zero_add, sub_zero] at h
  rw [← h]
  simp only [Function.comp, segFinal, integratorFinal, integratorCompute, TimeInput.step, sub_zero]

/-- a one hour cruise burning 0.1 kg/s followed by a descent with linearly decreasing flow -/
example : missionFinal (simpsonTri 2) 0 (([(C (1 / 10), 3600), (C (1 / 10) - C (1 / 12000) * X, 1200)] : List (ℝ[X] × ℝ)).map
    fun p => (⟨fun b => p.1.eval ((b : ℕ) * (p.2 / (2 : ℕ))), p.2⟩ : Seg 2)) = 420 := by
  rw [C92_exact (methodMatrix_simpson.2 ⟨rfl, rfl⟩) (by norm_num)]
  · have e : ∀ t : ℝ, (C (1 / 10) - C (1 / 12000) * X : ℝ[X]).eval t = 1 / 10 - 1 / 12000 * t := by intro t; simp
    simp only [List.map_cons, List.map_nil, List.sum_cons, List.sum_nil, e, eval_C]
    rw [intervalIntegral.integral_sub (by simp) (by apply Continuous.intervalIntegrable; fun_prop)]
    rw [intervalIntegral.integral_const_mul, integral_id, intervalIntegral.integral_const, intervalIntegral.integral_const]
    norm_num
  · intro p hp
    simp only [List.mem_cons, List.not_mem_nil, or_false] at hp
    rcases hp with rfl | rfl
    · simp
    · exact (natDegree_sub_le _ _).trans (by
        simp only [natDegree_C]
        exact max_le (by norm_num) ((natDegree_C_mul_le _ _).trans (by simp)))

/-! ### Sizing closure and margins -/

/-- C92.  In a converged sizing problem the aircraft ends its mission with exactly the operating empty weight and the
payload, for every mission. -/
theorem C92_sizing {method : Method} (hM : methodMatrix method m = some M) (l : List (Seg m)) (oew payload mtow : ℝ)
    (h : Sized M l oew payload mtow) :
    ∀ f ∈ (missionFuel M 0 l).getLast?, weight mtow f (Fin.last m) = oew + payload := by
  intro f hf
  rw [(C92_continuous hM mtow l).2.2 f hf, h.close]
  have := (C92_total (M := M) 0 l).1
  rw [zero_add] at this
  simp [runAdd, mtowSys, AddSys.compute, AddSys.factors, Env.arr, List.zipIdx, this]

/-- the hypotheses of `C92_sizing` hold for a two phase mission -/
example (l : List (Seg 4)) : Sized (simpsonTri 4) l 40000 18000 (58000 + missionFinal (simpsonTri 4) 0 l) :=
  ⟨by simp [runAdd, mtowSys, AddSys.compute, AddSys.factors, Env.arr, List.zipIdx]; ring⟩

/-- C92.  The margin is nonnegative exactly when the landing weight allows for the empty weight, the battery and the
payload. -/
theorem C92_margin {method : Method} (hM : methodMatrix method m = some M) (l : List (Seg m))
    (mtow oew battery payload : ℝ) :
    ∀ f ∈ (missionFuel M 0 l).getLast?,
      (0 ≤ mtowMargin mtow oew (missionFinal M 0 l) battery payload ↔
        oew + battery + payload ≤ weight mtow f (Fin.last m)) ∧
      mtowMargin mtow oew (missionFinal M 0 l) battery payload = weight mtow f (Fin.last m) - (oew + battery + payload) := by
  intro f hf
  have h : weight mtow f (Fin.last m) = mtow - missionFinal M 0 l := by
    rw [C92_weight, (C92_histories hM 0 l).2.2.2 f hf]
  rw [h]
  unfold mtowMargin
  refine ⟨⟨fun h => by linarith, fun h => by linarith⟩, by ring⟩

example : mtowMargin 4581 2900 500 600 454 = 127 := by norm_num [mtowMargin]

/-- C92.  Sums of the analysis groups, for every state of the group. -/
theorem C92_sums (e : Env) :
    runAdd hxOew e "OEW" = e "OEW_orig" + e "W_hx" + e "W_coolant" ∧
    runAdd (hxDrag 1) e "drag" = e "drag_orig" + e "drag_hx" ∧
    (runAdd hxArea e "area_constraint" ≤ 0 ↔ e "hx_frontal_area" ≤ e "nozzle_area") ∧
    runAdd mlwSys e "ac|weights|MLW" = 0.8 * e "ac|weights|MTOW" ∧
    runAdd leverSys e "c4_to_wing_c4" = e "fuselage_length" / 2 := by
  refine ⟨?_, ?_, ?_, ?_, ?_⟩
  · simp [runAdd, hxOew, AddSys.compute, AddSys.factors, Env.arr, List.zipIdx]
  · simp [runAdd, hxDrag, AddSys.compute, AddSys.factors, Env.arr, List.zipIdx]
  · simp [runAdd, hxArea, AddSys.compute, AddSys.factors, Env.arr, List.zipIdx]
  · simp [runAdd, mlwSys, AddSys.compute, AddSys.factors, Env.arr, List.zipIdx]; ring
  · simp [runAdd, leverSys, AddSys.compute, AddSys.factors, Env.arr, List.zipIdx]; ring

theorem repr_lits : Nat.repr 0 = "0" ∧ Nat.repr 1 = "1" ∧ Nat.repr 2 = "2" ∧ Nat.repr 3 = "3" ∧ Nat.repr 4 = "4" ∧
    Nat.repr 5 = "5" ∧ Nat.repr 6 = "6" ∧ Nat.repr 7 = "7" ∧ Nat.repr 8 = "8" ∧ Nat.repr 9 = "9" := by decide

/-- C92.  Sums of the N+3 hybrid aircraft: both sides of the airplane count, the battery of each side too.  `OEW` and
`margin` include no payload. -/
theorem C92_n3 (e : Env) :
    runCall n3Drag e = e "airframe_drag.drag" - 2 * e "variable_duct.force.F_net" - 2 * e "motor_duct.force.F_net" ∧
    runCall n3Load e = e "hybrid_motor.elec_load" + e "refrig.elec_load" + e "motorfaultprot.elec_load"
      + e "battery_coolant_pump.elec_load" + e "motor_coolant_pump.elec_load" ∧
    (∀ a b c, runCall (n3Pressure a b c) e = e a - e b) ∧
    runCall n3Oew e = e "ac|weights|OEW" + 2 * (e "refrig.component_weight" + e "hx_motor.component_weight"
      + e "hx_battery.component_weight" + e "battery_hose.component_weight" + e "battery_coolant_pump.component_weight"
      + e "motor_hose.component_weight" + e "motor_coolant_pump.component_weight" + e "hx_fault_prot.component_weight"
      + e "hybrid_motor.component_weight") ∧
    runCall n3Margin e = e "ac|design_mission|TOW" - e "OEW" - e "fuel_used_final"
      - 2 * e "ac|propulsion|battery|weight" := by
  obtain ⟨r0, r1, r2, r3, r4, r5, r6, r7, r8, r9⟩ := repr_lits
  refine ⟨?_, ?_, ?_, ?_, ?_⟩
  · simp [runCall, n3Drag, Mission.AddCall.sys, Mission.AddCall.feeds, AddSys.compute, AddSys.factors, Env.arr, feedEnv,
      List.zipIdx, Mission.temp, List.range, List.range.loop, List.find?, r0, r1, r2]
    ring
  · simp [runCall, n3Load, Mission.AddCall.sys, Mission.AddCall.feeds, AddSys.compute, AddSys.factors, Env.arr, feedEnv,
      List.zipIdx, Mission.temp, List.range, List.range.loop, List.find?, r0, r1, r2, r3, r4]
  · intro a b c
    simp [runCall, n3Pressure, Mission.AddCall.sys, Mission.AddCall.feeds, AddSys.compute, AddSys.factors, Env.arr, feedEnv,
      List.zipIdx, Mission.temp, List.range, List.range.loop, List.find?, r0, r1]
    ring
  · simp [runCall, n3Oew, Mission.AddCall.sys, Mission.AddCall.feeds, AddSys.compute, AddSys.factors, Env.arr, feedEnv,
      List.zipIdx, Mission.temp, List.range, List.range.loop, List.find?, r0, r1, r2, r3, r4, r5, r6, r7, r8, r9]
    ring
  · simp [runCall, n3Margin, Mission.AddCall.sys, Mission.AddCall.feeds, AddSys.compute, AddSys.factors, Env.arr, feedEnv,
      List.zipIdx, Mission.temp, List.range, List.range.loop, List.find?, r0, r1, r2, r3]
    ring

/-- C92.  Thrust and fuel flow of the sized aircraft: all engines run when the propulsor is active (1), one less after a
failure (0); thrust and fuel flow always belong to the same number of engines. -/
theorem C92_engines (t w n : ℝ) :
    sizedThrust t n 1 = n * t ∧ sizedThrust t n 0 = (n - 1) * t ∧
    sizedFuel w n 1 = n * w ∧ sizedFuel w n 0 = (n - 1) * w ∧
    (∀ a, sizedThrust t n a * w = sizedFuel w n a * t) ∧
    doubled t = sizedThrust t 2 1 := by
  have ha : ∀ a, activeEngines n a = n + a - 1 := by
    intro a
    simp [activeEngines, engineSys, AddSys.compute, AddSys.factors, List.zipIdx]; ring
  have h2 : ∀ a, activeEngines 2 a = 2 + a - 1 := by
    intro a
    simp [activeEngines, engineSys, AddSys.compute, AddSys.factors, List.zipIdx]; ring
  simp only [sizedThrust, sizedFuel, thrustSys, fuelSys, MulSys.compute, MulSys.read, MulSys.div, List.zipIdx, doubled,
    List.zipIdx_cons, List.foldl]
  simp [ha, h2]
  refine ⟨by ring, by ring, by ring, by ring, fun a => by ring, by ring⟩

/-- C92.  Take-off drag is used exactly in the ground phases and the rotation, by both kinds of drag model; the initial
hybridization is 0 in climb, cruise and descent and 1 in every other phase. -/
theorem C92_phase_choice (phase : String) :
    (cd0Source phase = "ac|aero|polar|CD0_TO" ↔ phase = "v0v1" ∨ phase = "v1v0" ∨ phase = "v1vr" ∨ phase = "rotate") ∧
    (cd0Source phase = "ac|aero|polar|CD0_cruise" ↔
      ¬ (phase = "v0v1" ∨ phase = "v1v0" ∨ phase = "v1vr" ∨ phase = "rotate")) ∧
    (cd0Source phase = "ac|aero|polar|CD0_TO" ↔ dragConfiguration phase = "takeoff") ∧
    (hybridization phase = 0 ↔ phase = "climb" ∨ phase = "cruise" ∨ phase = "descent") := by
  unfold cd0Source dragConfiguration hybridization
  refine ⟨?_, ?_, ?_, ?_⟩
  · by_cases h : phase ∈ ["v0v1", "v1v0", "v1vr", "rotate"]
    · rw [if_neg (not_not.2 h)]; simpa using h
    · rw [if_pos h]; simpa using h
  · by_cases h : phase ∈ ["v0v1", "v1v0", "v1vr", "rotate"]
    · rw [if_neg (not_not.2 h)]
      exact iff_of_false (by decide) (not_not.2 (by simpa using h))
    · rw [if_pos h]; simpa using h
  · by_cases h : phase ∈ ["v0v1", "v1v0", "v1vr", "rotate"]
    · rw [if_neg (not_not.2 h), if_pos h]; simp
    · rw [if_pos h, if_neg h]; simp
  · by_cases h : phase ∈ ["climb", "cruise", "descent"]
    · rw [if_pos h]; simpa using h
    · rw [if_neg h]; simpa using h

/-- C92.  The climb gradient phases after an engine failure use the clean drag. -/
example : cd0Source "engineoutclimb" = "ac|aero|polar|CD0_cruise" :=
  ((C92_phase_choice _).2.1).2 (by decide)

/-- C92.  The declared partials of the mixed objective are its derivatives. -/
theorem C92_objective (f w : ℝ) :
    HasDerivAt (fun x => mixedObjective x w) mixedObjectiveD.1 f ∧
    HasDerivAt (fun x => mixedObjective f x) mixedObjectiveD.2 w := by
  unfold mixedObjective mixedObjectiveD
  exact ⟨(hasDerivAt_id' f).add_const _, ((hasDerivAt_id' w).div_const 100).const_add f⟩

/-- C92.  The fault protection: all its electrical consumption goes into the coolant; it is nonnegative for efficiencies
up to one. -/
theorem C92_fault (cp eff P Tin mdot : ℝ) (hc : cp ≠ 0) (hm : mdot ≠ 0) :
    mdot * cp * (faultTout cp eff P Tin mdot - Tin) = faultLoad eff P ∧
    (faultLoad eff P = P - eff * P) ∧
    (eff ≤ 1 → 0 ≤ P → 0 ≤ faultLoad eff P) := by
  refine ⟨?_, by unfold faultLoad; ring, fun h1 h2 => mul_nonneg (by linarith) h2⟩
  unfold faultTout Thermal.phtOut
  field_simp
  ring

/-- C92.  Both heat exchangers of the motor duct contribute to the pressure change and the heat of its air. -/
theorem C92_stack (a b : ℝ) (ha : a ≤ 0) (hb : b ≤ 0) :
    faultDeltaP a b ≤ a ∧ faultDeltaP a b ≤ b ∧ faultDeltaP a b = a + b ∧ faultHeat a b - b = a := by
  unfold faultDeltaP faultHeat
  refine ⟨by linarith, by linarith, rfl, by ring⟩

end Verif.Aircraft
