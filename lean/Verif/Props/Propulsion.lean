import Verif.Model.Propulsion
import Verif.Proof.HDeriv
import Verif.Proof.Kink
import Verif.Props.Integrals
import Verif.Props.Bdf3Sign
import Mathlib.Tactic.NormNum

/-! Properties C37 to C45 and C79: propulsion components and systems, battery. -/

namespace Verif.Propulsion

/-! ### C37 splitter -/

/-- C37.  Energy is conserved for both rules, and the heat is the lost fraction. -/
theorem C37_conservation (r : Rule) (o : SplitOpts) (i : SplitIn) :
    (splitCompute r o i).outA + (splitCompute r o i).outB + (splitCompute r o i).heat = i.powerIn ∧
    (splitCompute r o i).heat = (1 - o.eta) * i.powerIn := by
  constructor
  · cases r
    · simp only [splitCompute, splitA, splitB]; ring
    · simp only [splitCompute, splitA, splitB]; split_ifs <;> ring
  · simp only [splitCompute]; ring

/-- C37.  Fraction rule: A receives the requested fraction of the power that leaves the splitter. -/
theorem C37_fraction (o : SplitOpts) (i : SplitIn) :
    (splitCompute .fraction o i).outA
      = i.ctrl * ((splitCompute .fraction o i).outA + (splitCompute .fraction o i).outB) := by
  simp only [splitCompute, splitA, splitB]; ring

/-- C37.  Fixed rule: A receives the requested power if available, otherwise all of it; B receives the rest. -/
theorem C37_fixed (o : SplitOpts) (i : SplitIn) :
    (splitCompute .fixed o i).outA = min i.ctrl i.powerIn * o.eta ∧
    (splitCompute .fixed o i).outB = max (i.powerIn - i.ctrl) 0 * o.eta := by
  simp only [splitCompute, splitA, splitB]
  split_ifs with h
  · rw [min_eq_right h.le, max_eq_right (by linarith)]; simp
  · rw [not_lt] at h
    rw [min_eq_left h, max_eq_left (by linarith)]; simp

/-- C37.  No output is negative for physical inputs, and none exceeds the input. -/
theorem C37_bounds (r : Rule) (o : SplitOpts) (i : SplitIn) (h0 : 0 ≤ o.eta) (h1 : o.eta ≤ 1) (hp : 0 ≤ i.powerIn)
    (hc : 0 ≤ i.ctrl) (hf : r = .fraction → i.ctrl ≤ 1) :
    0 ≤ (splitCompute r o i).outA ∧ 0 ≤ (splitCompute r o i).outB ∧ 0 ≤ (splitCompute r o i).heat ∧
    (splitCompute r o i).outA ≤ i.powerIn ∧ (splitCompute r o i).outB ≤ i.powerIn := by
  have hA : 0 ≤ (splitCompute r o i).outA := by
    cases r
    · simp only [splitCompute, splitA]; positivity
    · rw [(C37_fixed o i).1]; exact mul_nonneg (le_min hc hp) h0
  have hB : 0 ≤ (splitCompute r o i).outB := by
    cases r
    · simp only [splitCompute, splitB]
      exact mul_nonneg (mul_nonneg hp (by linarith [hf rfl])) h0
    · rw [(C37_fixed o i).2]; exact mul_nonneg (le_max_right _ _) h0
  have hH : 0 ≤ (splitCompute r o i).heat := by
    rw [(C37_conservation r o i).2]; exact mul_nonneg (by linarith) hp
  have := (C37_conservation r o i).1
  refine ⟨hA, hB, hH, ?_, ?_⟩ <;> linarith

/-- C37.  The sizing margin exceeds one exactly when the input exceeds the rating. -/
theorem C37_margin (r : Rule) (o : SplitOpts) (i : SplitIn) (h : 0 < i.rating) :
    1 < (splitCompute r o i).margin ↔ i.rating < i.powerIn := by
  simp only [splitCompute]; rw [lt_div_iff₀ h, one_mul]

/-- C37.  Exactly two rule names are accepted. -/
theorem C37_rules (s : String) : (∃ r, parseRule s = .ok r) ↔ s = "fraction" ∨ s = "fixed" := by
  unfold parseRule
  constructor
  · rintro ⟨r, h⟩
    split_ifs at h with h1 h2
    · exact Or.inl h1
    · exact Or.inr h2
  · rintro (h | h) <;> subst h <;> simp

theorem split_cost_weight (r : Rule) (o : SplitOpts) (i : SplitIn) :
    HasDerivAt (fun x => (splitCompute r o { i with rating := x }).cost) (splitPartials r o i).cost_rating i.rating ∧
    HasDerivAt (fun x => (splitCompute r o { i with rating := x }).weight) (splitPartials r o i).weight_rating i.rating := by
  constructor <;> (simp only [splitCompute, splitPartials]; hderiv!)

/-- C37.  The Jacobian is exact for the fraction rule everywhere and for the fixed rule off the switching
point. -/
theorem C37_partials (r : Rule) (o : SplitOpts) (i : SplitIn) (hr : i.rating ≠ 0)
    (hs : r = .fixed → i.powerIn ≠ i.ctrl) :
    HasDerivAt (fun x => (splitCompute r o { i with powerIn := x }).outA) (splitPartials r o i).A_in i.powerIn ∧
    HasDerivAt (fun x => (splitCompute r o { i with ctrl := x }).outA) (splitPartials r o i).A_ctrl i.ctrl ∧
    HasDerivAt (fun x => (splitCompute r o { i with powerIn := x }).outB) (splitPartials r o i).B_in i.powerIn ∧
    HasDerivAt (fun x => (splitCompute r o { i with ctrl := x }).outB) (splitPartials r o i).B_ctrl i.ctrl ∧
    HasDerivAt (fun x => (splitCompute r o { i with powerIn := x }).heat) (splitPartials r o i).heat_in i.powerIn ∧
    HasDerivAt (fun x => (splitCompute r o { i with rating := x }).cost) (splitPartials r o i).cost_rating i.rating ∧
    HasDerivAt (fun x => (splitCompute r o { i with rating := x }).weight) (splitPartials r o i).weight_rating i.rating ∧
    HasDerivAt (fun x => (splitCompute r o { i with powerIn := x }).margin) (splitPartials r o i).margin_in i.powerIn ∧
    HasDerivAt (fun x => (splitCompute r o { i with rating := x }).margin) (splitPartials r o i).margin_rating i.rating := by
  have hm : HasDerivAt (fun x => (splitCompute r o { i with rating := x }).margin)
      (splitPartials r o i).margin_rating i.rating := by
    simp only [splitCompute, splitPartials]; hderiv!
  have h5 : HasDerivAt (fun x => (splitCompute r o { i with powerIn := x }).heat)
      (splitPartials r o i).heat_in i.powerIn := by
    simp only [splitCompute, splitPartials]; hderiv!
  have h8 : HasDerivAt (fun x => (splitCompute r o { i with powerIn := x }).margin)
      (splitPartials r o i).margin_in i.powerIn := by
    simp only [splitCompute, splitPartials]; hderiv!
  refine ⟨?_, ?_, ?_, ?_, h5, (split_cost_weight r o i).1, (split_cost_weight r o i).2, h8, hm⟩
  · cases r
    · simp only [splitCompute, splitPartials, splitA]; hderiv!
    · simp only [splitCompute, splitPartials, splitA]
      rcases lt_or_gt_of_ne (hs rfl) with h | h
      · rw [if_pos h]
        exact hd_ite_pos (eventually_lt_nhds h) (by hderiv!)
      · rw [if_neg (not_lt.2 h.le)]
        exact hd_ite_neg ((eventually_gt_nhds h).mono fun _ hy => not_lt.2 hy.le) (hasDerivAt_const _ _)
  · cases r
    · simp only [splitCompute, splitPartials, splitA]; hderiv!
    · simp only [splitCompute, splitPartials, splitA]
      rcases lt_or_gt_of_ne (hs rfl) with h | h
      · rw [if_pos h]
        exact hd_ite_pos (eventually_gt_nhds h) (hasDerivAt_const _ _)
      · rw [if_neg (not_lt.2 h.le)]
        exact hd_ite_neg ((eventually_lt_nhds h).mono fun _ hy => not_lt.2 hy.le) (by hderiv!)
  · cases r
    · simp only [splitCompute, splitPartials, splitB]; hderiv!
    · simp only [splitCompute, splitPartials, splitB]
      rcases lt_or_gt_of_ne (hs rfl) with h | h
      · rw [if_pos h]
        exact hd_ite_pos (eventually_lt_nhds h) (hasDerivAt_const _ _)
      · rw [if_neg (not_lt.2 h.le)]
        exact hd_ite_neg ((eventually_gt_nhds h).mono fun _ hy => not_lt.2 hy.le) (by hderiv!)
  · cases r
    · simp only [splitCompute, splitPartials, splitB]; hderiv!
    · simp only [splitCompute, splitPartials, splitB]
      rcases lt_or_gt_of_ne (hs rfl) with h | h
      · rw [if_pos h]
        exact hd_ite_pos (eventually_gt_nhds h) (hasDerivAt_const _ _)
      · rw [if_neg (not_lt.2 h.le)]
        exact hd_ite_neg ((eventually_lt_nhds h).mono fun _ hy => not_lt.2 hy.le) (by hderiv!)

/-- C37.  At the switching point of the fixed rule there is no derivative, so no value of the partial could be
exact. -/
theorem C37_switch_kink (o : SplitOpts) (i : SplitIn) (h : i.powerIn = i.ctrl) (he : o.eta ≠ 0) :
    ¬ DifferentiableAt ℝ (fun x => (splitCompute .fixed o { i with powerIn := x }).outA) i.powerIn := by
  refine not_diff_of_kink (g := fun x => x * o.eta) (h := fun _ => i.ctrl * o.eta) (l := o.eta) (r := 0)
    (by hderiv!) (hasDerivAt_const _ _) ?_ ?_ he
  · intro y hy
    rw [(C37_fixed o _).1, min_eq_right (by simpa [h] using hy)]
  · intro y hy
    rw [(C37_fixed o _).1, min_eq_left (by simpa [h] using hy)]

example : (splitCompute .fixed ⟨0.9, 0, 0, 0, 0⟩ ⟨100, 200, 30⟩).outA = 27 ∧
    (splitCompute .fixed ⟨0.9, 0, 0, 0, 0⟩ ⟨100, 200, 30⟩).outB = 63 := by
  rw [(C37_fixed _ _).1, (C37_fixed _ _).2]; norm_num

/-! ### C38 motor and generator -/

/-- C38.  Motor: shaft power plus heat is the electric load. -/
theorem C38_motor_conservation (o : MachineOpts) (t P : ℝ) :
    (motor o t P).shaft + (motor o t P).heat = (motor o t P).elecLoad ∧
    (motor o t P).shaft = o.tech * (motor o t P).elecLoad := by
  simp only [motor]; constructor <;> ring

/-- C38.  Generator: electric power plus heat is the shaft power. -/
theorem C38_generator_conservation (o : MachineOpts) (s P : ℝ) :
    (generator o s P).elec + (generator o s P).heat = s ∧ (generator o s P).elec = o.tech * s := by
  simp only [generator]; constructor <;> ring

/-- C38.  The sizing margins exceed one exactly when the electric load (motor) or the electric output
(generator) exceeds the rating. -/
theorem C38_margin (o : MachineOpts) (x P : ℝ) (hP : 0 < P) :
    (1 < (motor o x P).margin ↔ P < (motor o x P).elecLoad) ∧
    (1 < (generator o x P).margin ↔ P < (generator o x P).elec) := by
  simp only [motor, generator]
  constructor
  · constructor
    · intro h; nlinarith
    · intro h; by_contra h'; rw [not_lt] at h'; nlinarith
  · rw [lt_div_iff₀ hP, one_mul]

/-- C38.  No flow is negative for an efficiency in [0, 1]. -/
theorem C38_nonneg (o : MachineOpts) (x P : ℝ) (h0 : 0 ≤ o.tech) (h1 : o.tech ≤ 1) (hx : 0 ≤ x) (hP : 0 ≤ P) :
    0 ≤ (motor o x P).shaft ∧ 0 ≤ (motor o x P).heat ∧ 0 ≤ (generator o x P).elec ∧ 0 ≤ (generator o x P).heat := by
  simp only [motor, generator]
  have : 0 ≤ 1 - o.tech := by linarith
  refine ⟨?_, ?_, ?_, ?_⟩ <;> positivity

/-- C38.  All declared partials of the motor are exact, and the undeclared ones are zero. -/
theorem C38_motor_partials (o : MachineOpts) (t P : ℝ) :
    HasDerivAt (fun x => (motor o x P).shaft) (motorDThrottle o t P).shaft t ∧
    HasDerivAt (fun x => (motor o x P).heat) (motorDThrottle o t P).heat t ∧
    HasDerivAt (fun x => (motor o x P).elecLoad) (motorDThrottle o t P).elecLoad t ∧
    HasDerivAt (fun x => (motor o x P).cost) (motorDThrottle o t P).cost t ∧
    HasDerivAt (fun x => (motor o x P).weight) (motorDThrottle o t P).weight t ∧
    HasDerivAt (fun x => (motor o x P).margin) (motorDThrottle o t P).margin t ∧
    HasDerivAt (fun x => (motor o t x).shaft) (motorDRating o t P).shaft P ∧
    HasDerivAt (fun x => (motor o t x).heat) (motorDRating o t P).heat P ∧
    HasDerivAt (fun x => (motor o t x).elecLoad) (motorDRating o t P).elecLoad P ∧
    HasDerivAt (fun x => (motor o t x).cost) (motorDRating o t P).cost P ∧
    HasDerivAt (fun x => (motor o t x).weight) (motorDRating o t P).weight P ∧
    HasDerivAt (fun x => (motor o t x).margin) (motorDRating o t P).margin P := by
  simp only [motor, motorDThrottle, motorDRating]
  refine ⟨?_, ?_, ?_, ?_, ?_, ?_, ?_, ?_, ?_, ?_, ?_, ?_⟩ <;> hderiv!

/-- C38.  All declared partials of the generator are exact, and the undeclared ones are zero. -/
theorem C38_generator_partials (o : MachineOpts) (s P : ℝ) (hP : P ≠ 0) :
    HasDerivAt (fun x => (generator o x P).elec) (generatorDShaft o s P).elec s ∧
    HasDerivAt (fun x => (generator o x P).heat) (generatorDShaft o s P).heat s ∧
    HasDerivAt (fun x => (generator o x P).cost) (generatorDShaft o s P).cost s ∧
    HasDerivAt (fun x => (generator o x P).weight) (generatorDShaft o s P).weight s ∧
    HasDerivAt (fun x => (generator o x P).margin) (generatorDShaft o s P).margin s ∧
    HasDerivAt (fun x => (generator o s x).elec) (generatorDRating o s P).elec P ∧
    HasDerivAt (fun x => (generator o s x).heat) (generatorDRating o s P).heat P ∧
    HasDerivAt (fun x => (generator o s x).cost) (generatorDRating o s P).cost P ∧
    HasDerivAt (fun x => (generator o s x).weight) (generatorDRating o s P).weight P ∧
    HasDerivAt (fun x => (generator o s x).margin) (generatorDRating o s P).margin P := by
  simp only [generator, generatorDShaft, generatorDRating]
  refine ⟨?_, ?_, ?_, ?_, ?_, ?_, ?_, ?_, ?_, ?_⟩ <;> hderiv!

example : (motor ⟨0.97, 0, 0, 0, 0⟩ 0.5 1000).heat = 15 := by norm_num [motor]

/-! ### C39 turboshaft -/

/-- C39.  Power proportional to throttle and rating, fuel flow proportional to power, margin the throttle. -/
theorem C39_turboshaft (o : MachineOpts) (t P : ℝ) :
    (turboshaft o t P).shaft = t * P ∧ (turboshaft o t P).fuel = o.tech * (turboshaft o t P).shaft ∧
    (0 < P → (1 < (turboshaft o t P).margin ↔ P < (turboshaft o t P).shaft)) := by
  simp only [turboshaft]
  refine ⟨trivial, by ring, fun hP => ⟨fun h => by nlinarith, fun h => ?_⟩⟩
  by_contra h'; rw [not_lt] at h'; nlinarith

/-- C39.  Weight and cost are affine in the rating and do not depend on the throttle. -/
theorem C39_weight_cost (o : MachineOpts) (t t' P Q : ℝ) :
    (turboshaft o t P).weight - (turboshaft o t' Q).weight = o.weightInc * (P - Q) ∧
    (turboshaft o t 0).weight = o.weightBase ∧
    (turboshaft o t P).cost - (turboshaft o t' Q).cost = o.costInc * (P - Q) ∧
    (turboshaft o t 0).cost = o.costBase := by
  simp only [turboshaft]; refine ⟨?_, ?_, ?_, ?_⟩ <;> ring

/-- C39.  Nonnegative for nonnegative inputs. -/
theorem C39_nonneg (o : MachineOpts) (t P : ℝ) (h0 : 0 ≤ o.tech) (h1 : 0 ≤ o.weightInc) (h2 : 0 ≤ o.weightBase)
    (h3 : 0 ≤ o.costInc) (h4 : 0 ≤ o.costBase) (ht : 0 ≤ t) (hP : 0 ≤ P) :
    0 ≤ (turboshaft o t P).shaft ∧ 0 ≤ (turboshaft o t P).fuel ∧ 0 ≤ (turboshaft o t P).cost ∧
    0 ≤ (turboshaft o t P).weight := by
  simp only [turboshaft]; refine ⟨?_, ?_, ?_, ?_⟩ <;> positivity

/-- C39.  All partials exact. -/
theorem C39_partials (o : MachineOpts) (t P : ℝ) :
    HasDerivAt (fun x => (turboshaft o x P).shaft) (turboshaftDThrottle o t P).shaft t ∧
    HasDerivAt (fun x => (turboshaft o x P).fuel) (turboshaftDThrottle o t P).fuel t ∧
    HasDerivAt (fun x => (turboshaft o x P).cost) (turboshaftDThrottle o t P).cost t ∧
    HasDerivAt (fun x => (turboshaft o x P).weight) (turboshaftDThrottle o t P).weight t ∧
    HasDerivAt (fun x => (turboshaft o x P).margin) (turboshaftDThrottle o t P).margin t ∧
    HasDerivAt (fun x => (turboshaft o t x).shaft) (turboshaftDRating o t P).shaft P ∧
    HasDerivAt (fun x => (turboshaft o t x).fuel) (turboshaftDRating o t P).fuel P ∧
    HasDerivAt (fun x => (turboshaft o t x).cost) (turboshaftDRating o t P).cost P ∧
    HasDerivAt (fun x => (turboshaft o t x).weight) (turboshaftDRating o t P).weight P ∧
    HasDerivAt (fun x => (turboshaft o t x).margin) (turboshaftDRating o t P).margin P := by
  simp only [turboshaft, turboshaftDThrottle, turboshaftDRating]
  refine ⟨?_, ?_, ?_, ?_, ?_, ?_, ?_, ?_, ?_, ?_⟩ <;> hderiv!

example : (turboshaft ⟨1e-7, 0, 0, 0, 0⟩ 0.5 1e6).fuel = 0.05 := by norm_num [turboshaft]

/-! ### C40 propeller -/

theorem thrustP_eq (i : ThrustIn) : thrustP i = thrust i := by
  have : i.cp * dctdcp i = thrustCoef i := by
    simp only [dctdcp, thrustCoef]; split_ifs <;> ring
  simp only [thrustP, thrust, this]

/-- C40.  From an advance ratio of 0.2 the propeller turns the map's efficiency of the shaft power into thrust
power, for any map. -/
theorem C40_efficiency (mp : Maps) (i : CoefIn) (hr : 0 < i.rho) (hn : 0 < i.rpm) (hD : 0 < i.diameter)
    (hJ : 0.2 ≤ advanceRatio i) :
    propeller mp i * i.utrue = mp.eta (powerCoef i) (advanceRatio i) * i.power := by
  have hU : i.utrue ≠ 0 := by
    rintro h; rw [advanceRatio, h] at hJ; norm_num at hJ
  have h1 : ¬ advanceRatio i ≤ 0.10 := by norm_num at hJ ⊢; linarith
  have h2 : ¬ advanceRatio i < 0.20 := by norm_num at hJ ⊢; linarith
  simp only [propeller, thrust, thrustCoef, if_neg h1, if_neg h2]
  generalize mp.eta (powerCoef i) (advanceRatio i) = e
  simp only [powerCoef, advanceRatio]
  field_simp

/-- C40.  Up to an advance ratio of 0.1 the thrust is the static thrust: it depends on the airspeed in no way. -/
theorem C40_static (mp : Maps) (i : CoefIn) (hJ : advanceRatio i ≤ 0.1) :
    propeller mp i = mp.ctOverCp (powerCoef i) * powerCoef i * i.rho * (i.rpm / 60) ^ 2 * i.diameter ^ 4 ∧
    propeller mp i = propeller mp { i with utrue := 0 } := by
  have h1 : advanceRatio i ≤ 0.10 := by norm_num at hJ ⊢; linarith
  have h2 : advanceRatio { i with utrue := 0 } ≤ 0.10 := by
    simp only [advanceRatio]; norm_num
  have e : propeller mp i
      = mp.ctOverCp (powerCoef i) * powerCoef i * i.rho * (i.rpm / 60) ^ 2 * i.diameter ^ 4 := by
    simp only [propeller, thrust, thrustCoef, if_pos h1]
  refine ⟨e, e.trans ?_⟩
  simp only [propeller, thrust, thrustCoef, if_pos h2]
  rfl

/-- C40.  At every advance ratio the thrust coefficient lies between the static and the dynamic value. -/
theorem C40_blend (i : ThrustIn) :
    min (i.ctOverCp * i.cp) (i.cp * i.eta / i.J) ≤ thrustCoef i ∧
    thrustCoef i ≤ max (i.ctOverCp * i.cp) (i.cp * i.eta / i.J) := by
  simp only [thrustCoef]
  generalize i.ctOverCp * i.cp = a
  generalize i.cp * i.eta / i.J = b
  split_ifs with h3 h4
  · exact ⟨min_le_left _ _, le_max_left _ _⟩
  · have p1 : 0 ≤ interp1 i.J := by unfold interp1; exact div_nonneg (by linarith) (by norm_num)
    have p2 : 0 ≤ interp2 i.J := by unfold interp2; exact div_nonneg (by linarith) (by norm_num)
    have p3 : interp1 i.J + interp2 i.J = 1 := by unfold interp1 interp2; field_simp; ring
    constructor
    · calc min a b = interp1 i.J * min a b + interp2 i.J * min a b := by rw [← add_mul, p3, one_mul]
        _ ≤ _ := add_le_add (mul_le_mul_of_nonneg_left (min_le_left _ _) p1)
            (mul_le_mul_of_nonneg_left (min_le_right _ _) p2)
    · calc _ ≤ interp1 i.J * max a b + interp2 i.J * max a b :=
            add_le_add (mul_le_mul_of_nonneg_left (le_max_left _ _) p1)
              (mul_le_mul_of_nonneg_left (le_max_right _ _) p2)
        _ = max a b := by rw [← add_mul, p3, one_mul]
  · exact ⟨min_le_right _ _, le_max_right _ _⟩

/-- C40.  The thrust is a continuous function of the advance ratio on the whole line. -/
theorem C40_continuous (i : ThrustIn) : Continuous fun x => thrust { i with J := x } := by
  have key : Continuous fun x => thrustCoef { i with J := x } := by
    have e : (fun x => thrustCoef { i with J := x }) = fun x => if x ≤ 0.10 then i.ctOverCp * i.cp else
        if 0.20 ≤ x then i.cp * i.eta * (max x 0.1)⁻¹ else
          interp1 x * (i.ctOverCp * i.cp) + interp2 x * (i.cp * i.eta * (max x 0.1)⁻¹) := by
      funext x
      simp only [thrustCoef]
      by_cases h1 : x ≤ 0.10
      · rw [if_pos h1, if_pos h1]
      · rw [if_neg h1, if_neg h1]
        have hm : max x 0.1 = x := max_eq_left (by norm_num at h1 ⊢; linarith)
        rw [hm]
        by_cases h2 : x < 0.20
        · rw [if_pos h2, if_neg (not_le.2 h2)]; ring
        · rw [if_neg h2, if_pos (not_lt.1 h2)]; ring
    rw [e]
    have hinv : Continuous fun x : ℝ => (max x 0.1)⁻¹ := by
      refine Continuous.inv₀ (by fun_prop) fun x => ?_
      have : (0 : ℝ) < max x 0.1 := lt_max_of_lt_right (by norm_num)
      exact this.ne'
    have hi1 : Continuous interp1 := by unfold interp1; simp only [div_eq_mul_inv]; fun_prop
    have hi2 : Continuous interp2 := by unfold interp2; simp only [div_eq_mul_inv]; fun_prop
    refine Continuous.if_le continuous_const (Continuous.if_le (continuous_const.mul hinv)
      ((hi1.mul continuous_const).add (hi2.mul (continuous_const.mul hinv))) continuous_const continuous_id ?_)
      continuous_id continuous_const ?_
    · intro x hx
      rw [← hx]; norm_num [interp1, interp2]
    · intro x hx
      have hx : x = 0.10 := hx
      rw [hx, if_neg (by norm_num)]
      norm_num [interp1, interp2]
  simp only [thrust]
  exact ((key.mul continuous_const).mul continuous_const).mul continuous_const

/-- C40.  Partials of the thrust with respect to density, shaft speed, diameter and power coefficient are exact at
every advance ratio. -/
theorem C40_thrust_partials (i : ThrustIn) (hr : i.rho ≠ 0) (hn : i.rpm ≠ 0) (hD : i.diameter ≠ 0) :
    HasDerivAt (fun x => thrust { i with rho := x }) (thrustDRho i) i.rho ∧
    HasDerivAt (fun x => thrust { i with rpm := x }) (thrustDRpm i) i.rpm ∧
    HasDerivAt (fun x => thrust { i with diameter := x }) (thrustDDiameter i) i.diameter ∧
    HasDerivAt (fun x => thrust { i with cp := x }) (thrustDCp i) i.cp := by
  refine ⟨?_, ?_, ?_, ?_⟩
  · rw [thrustDRho, thrustP_eq]
    have : ∀ x, thrustCoef { i with rho := x } = thrustCoef i := fun x => rfl
    simp only [thrust, this]
    hderiv!
  · rw [thrustDRpm, thrustP_eq]
    have : ∀ x, thrustCoef { i with rpm := x } = thrustCoef i := fun x => rfl
    simp only [thrust, this]
    hderiv!
  · rw [thrustDDiameter, thrustP_eq]
    have : ∀ x, thrustCoef { i with diameter := x } = thrustCoef i := fun x => rfl
    simp only [thrust, this]
    hderiv!
  · have : ∀ x, thrustCoef { i with cp := x } = x * dctdcp i := by
      intro x; simp only [thrustCoef, dctdcp]; split_ifs <;> ring
    simp only [thrust, this, thrustDCp]
    hderiv!

theorem thrust_eq (i : ThrustIn) : thrust i = thrustCoef i * thrustOverCt i := by
  simp only [thrust, thrustOverCt]; ring

/-- C40.  Partials with respect to the static thrust coefficient ratio, the efficiency: exact at every advance
ratio whenever those inputs are nonzero. -/
theorem C40_map_partials (i : ThrustIn) (hc : i.ctOverCp ≠ 0) (he : i.eta ≠ 0) :
    (∃ d, thrustDCtOverCp i = some d ∧ HasDerivAt (fun x => thrust { i with ctOverCp := x }) d i.ctOverCp) ∧
    (∃ d, thrustDEta i = some d ∧ HasDerivAt (fun x => thrust { i with eta := x }) d i.eta) := by
  constructor
  · unfold thrustDCtOverCp
    by_cases h1 : i.J ≤ 0.10
    · rw [if_pos h1, npdiv, if_neg hc]
      refine ⟨_, rfl, ?_⟩
      rw [thrustP_eq]
      simp only [thrust, thrustCoef, if_pos h1]
      hderiv!
    · rw [if_neg h1]
      by_cases h2 : i.J < 0.20
      · rw [if_pos h2, npdiv, if_neg hc]
        refine ⟨_, rfl, ?_⟩
        simp only [thrust, thrustCoef, if_neg h1, if_pos h2, thrustOverCt]
        hderiv!
      · rw [if_neg h2]
        refine ⟨_, rfl, ?_⟩
        simp only [thrust, thrustCoef, if_neg h1, if_neg h2]
        exact hasDerivAt_const _ _
  · unfold thrustDEta
    by_cases h1 : i.J ≤ 0.10
    · rw [if_pos h1]
      refine ⟨_, rfl, ?_⟩
      simp only [thrust, thrustCoef, if_pos h1]
      exact hasDerivAt_const _ _
    · rw [if_neg h1]
      have hJ : i.J ≠ 0 := by rintro h; rw [h] at h1; norm_num at h1
      by_cases h2 : i.J < 0.20
      · rw [if_pos h2, npdiv, if_neg he]
        refine ⟨_, rfl, ?_⟩
        simp only [thrust, thrustCoef, if_neg h1, if_pos h2, thrustOverCt]
        hderiv!
      · rw [if_neg h2, npdiv, if_neg he]
        refine ⟨_, rfl, ?_⟩
        rw [thrustP_eq]
        simp only [thrust, thrustCoef, if_neg h1, if_neg h2]
        hderiv!

/-- C40.  The partial with respect to the advance ratio is exact away from the two switching points. -/
theorem C40_advance_partials (i : ThrustIn) (h1 : i.J ≠ 0.1) (h2 : i.J ≠ 0.2) :
    HasDerivAt (fun x => thrust { i with J := x }) (thrustDJ i) i.J := by
  have e : (fun x => thrust { i with J := x }) = fun x => thrustCoef { i with J := x } * thrustOverCt i := by
    funext x; rw [thrust_eq]; rfl
  rw [e]
  unfold thrustDJ
  by_cases a1 : i.J ≤ 0.10
  · have a1' : i.J < 0.10 := lt_of_le_of_ne a1 (by norm_num at h1 ⊢; exact h1)
    rw [if_pos a1]
    have : HasDerivAt (fun _ : ℝ => i.ctOverCp * i.cp * thrustOverCt i) 0 i.J := hasDerivAt_const _ _
    apply this.congr_of_eventuallyEq
    filter_upwards [eventually_lt_nhds a1'] with y hy
    simp only [thrustCoef, if_pos hy.le]
  · rw [if_neg a1]
    have a1' : 0.10 < i.J := not_le.1 a1
    have hJ : i.J ≠ 0 := by rintro h; rw [h] at a1; norm_num at a1
    by_cases a2 : i.J < 0.20
    · rw [if_pos a2]
      have : HasDerivAt (fun y : ℝ => (interp1 y * (i.ctOverCp * i.cp) + interp2 y * (i.cp * i.eta / y)) * thrustOverCt i)
          (thrustOverCt i * (-(i.ctOverCp * i.cp) / (0.20 - 0.10)
            + (i.cp * i.eta / i.J) / (0.20 - 0.10) - interp2 i.J * (i.cp * i.eta / i.J) / i.J)) i.J := by
        simp only [interp1, interp2]
        hderiv
        field_simp
        ring
      apply this.congr_of_eventuallyEq
      filter_upwards [eventually_lt_nhds a2, eventually_gt_nhds a1'] with y hy hy'
      simp only [thrustCoef, if_neg (not_le.2 hy'), if_pos hy]
    · rw [if_neg a2]
      have a2' : 0.20 < i.J := lt_of_le_of_ne (not_lt.1 a2) (by norm_num at h2 ⊢; exact fun h => h2 h.symm)
      have : HasDerivAt (fun y : ℝ => i.cp * i.eta / y * thrustOverCt i) (-thrustP i / i.J) i.J := by
        rw [thrustP_eq, thrust_eq]
        simp only [thrustCoef, if_neg a1, if_neg a2]
        hderiv
        field_simp
      apply this.congr_of_eventuallyEq
      filter_upwards [eventually_gt_nhds a2', eventually_gt_nhds a1'] with y hy hy'
      simp only [thrustCoef, if_neg (not_le.2 hy'), if_neg (not_lt.2 hy.le)]

/-- C40.  At an advance ratio of 0.1 there is no derivative unless the static and dynamic coefficients agree. -/
theorem C40_kink (i : ThrustIn) (hJ : i.J = 0.1)
    (hne : i.ctOverCp * i.cp ≠ i.cp * i.eta / 0.1) :
    ¬ DifferentiableAt ℝ (fun x => thrustCoef { i with J := x }) i.J := by
  intro hd
  obtain ⟨ε, hε⟩ : ∃ f : ℝ → ℝ, f = fun y => if y < 0.2 then thrustCoef { i with J := y } else
      interp1 y * (i.ctOverCp * i.cp) + interp2 y * (i.cp * i.eta / y) := ⟨_, rfl⟩
  have hlt : i.J < 0.2 := by rw [hJ]; norm_num
  have hε' : DifferentiableAt ℝ ε i.J := by
    refine hd.congr_of_eventuallyEq ?_
    filter_upwards [eventually_lt_nhds hlt] with y hy
    rw [hε]; simp only [if_pos hy]
  refine not_diff_of_kink (f := ε) (g := fun _ => i.ctOverCp * i.cp)
    (h := fun y => interp1 y * (i.ctOverCp * i.cp) + interp2 y * (i.cp * i.eta / y)) (l := 0)
    (r := (i.cp * i.eta / 0.1 - i.ctOverCp * i.cp) / 0.1) (hasDerivAt_const _ _) ?_ ?_ ?_ ?_ hε'
  · have : i.J ≠ 0 := by rw [hJ]; norm_num
    simp only [interp1, interp2]
    hderiv
    rw [hJ]; norm_num; ring
  · intro y hy
    have h1 : y ≤ 0.10 := by rw [hJ] at hy; norm_num at hy ⊢; linarith
    rw [hε]; simp only [if_pos (lt_of_le_of_lt hy hlt), thrustCoef, if_pos h1]
  · intro y hy
    rw [hε]
    simp only
    split_ifs with h
    · rcases eq_or_lt_of_le hy with r | r
      · have h1 : y ≤ 0.10 := by rw [← r, hJ]; norm_num
        simp only [thrustCoef, if_pos h1]
        rw [← r, hJ]; norm_num [interp1, interp2]
      · have h1 : ¬ y ≤ 0.10 := by rw [hJ] at r; norm_num at r ⊢; linarith
        have h2 : y < 0.20 := by norm_num at h ⊢; linarith
        simp only [thrustCoef, if_neg h1, if_pos h2]
    · rfl
  · intro h
    have : i.cp * i.eta / 0.1 - i.ctOverCp * i.cp = 0 := by
      have h' := h.symm
      rw [div_eq_zero_iff] at h'
      rcases h' with h' | h'
      · exact h'
      · norm_num at h'
    exact hne (by linarith)

/-- C40.  The coefficients' partials are exact (at nonzero airspeed for the advance ratio). -/
theorem C40_coef_partials (i : CoefIn) (hr : i.rho ≠ 0) (hn : i.rpm ≠ 0) (hD : i.diameter ≠ 0) :
    HasDerivAt (fun x => powerCoef { i with power := x }) (powerCoefDPower i) i.power ∧
    HasDerivAt (fun x => powerCoef { i with rho := x }) (powerCoefDRho i) i.rho ∧
    HasDerivAt (fun x => powerCoef { i with rpm := x }) (powerCoefDRpm i) i.rpm ∧
    HasDerivAt (fun x => powerCoef { i with diameter := x }) (powerCoefDDiameter i) i.diameter ∧
    HasDerivAt (fun x => advanceRatio { i with rpm := x }) (advanceRatioDRpm i) i.rpm ∧
    HasDerivAt (fun x => advanceRatio { i with diameter := x }) (advanceRatioDDiameter i) i.diameter ∧
    HasDerivAt (fun x => tipSpeed { i with rpm := x }) (tipSpeedDRpm i) i.rpm ∧
    HasDerivAt (fun x => tipSpeed { i with diameter := x }) (tipSpeedDDiameter i) i.diameter ∧
    (i.utrue ≠ 0 → ∃ d, advanceRatioDU i = some d ∧
      HasDerivAt (fun x => advanceRatio { i with utrue := x }) d i.utrue) := by
  refine ⟨?_, ?_, ?_, ?_, ?_, ?_, ?_, ?_, ?_⟩
  · simp only [powerCoef, powerCoefDPower]; hderiv!
  · simp only [powerCoef, powerCoefDRho]; hderiv!
  · simp only [powerCoef, powerCoefDRpm]; hderiv!
  · simp only [powerCoef, powerCoefDDiameter]; hderiv!
  · simp only [advanceRatio, advanceRatioDRpm]; hderiv!
  · simp only [advanceRatio, advanceRatioDDiameter]; hderiv!
  · simp only [tipSpeed, tipSpeedDRpm]; hderiv!
  · simp only [tipSpeed, tipSpeedDDiameter]; hderiv!
  · intro hU
    refine ⟨_, by rw [advanceRatioDU, npdiv, if_neg hU], ?_⟩
    simp only [advanceRatio]; hderiv!

/-- C40 is false as stated for the partials: at zero airspeed (start of the takeoff roll) the partial of the advance
ratio is not a number although the derivative exists; likewise the partial with respect to the efficiency where
the map gives zero efficiency. -/
theorem C40_zero_airspeed_nan :
    (∀ i : CoefIn, i.utrue = 0 → advanceRatioDU i = none ∧
      HasDerivAt (fun x => advanceRatio { i with utrue := x }) (60 / i.rpm / i.diameter) i.utrue) ∧
    (∀ i : ThrustIn, 0.2 ≤ i.J → i.eta = 0 → thrustDEta i = none ∧
      HasDerivAt (fun x => thrust { i with eta := x }) (i.cp / i.J * thrustOverCt i) i.eta) := by
  constructor
  · intro i h
    refine ⟨by simp [advanceRatioDU, npdiv, h], ?_⟩
    simp only [advanceRatio]; hderiv!
  · intro i h1 h2
    have a1 : ¬ i.J ≤ 0.10 := by norm_num at h1 ⊢; linarith
    have a2 : ¬ i.J < 0.20 := by norm_num at h1 ⊢; linarith
    refine ⟨by simp [thrustDEta, npdiv, h2, if_neg a1], ?_⟩
    simp only [thrust, thrustCoef, if_neg a1, if_neg a2, thrustOverCt]; hderiv!

/-- C40.  Propeller weight: partials exact for positive inputs. -/
theorem C40_weight_partials (n P D : ℝ) (hn : 0 < n) (hP : 0 < P) (hD : 0 < D) :
    HasDerivAt (fun x => propWeight n x D) (propWeightDPower n P D) P ∧
    HasDerivAt (fun x => propWeight n P x) (propWeightDDiameter n P D) D := by
  have h0 : D * P * n ^ (0.5 : ℝ) ≠ 0 := by positivity
  constructor
  · simp only [propWeight, propWeightDPower]
    hderiv
    ring
  · simp only [propWeight, propWeightDDiameter]
    hderiv
    ring

example (mp : Maps) : propeller mp ⟨500000, 2, 1500, 1.2, 100⟩ * 100
    = mp.eta (powerCoef ⟨500000, 2, 1500, 1.2, 100⟩) (advanceRatio ⟨500000, 2, 1500, 1.2, 100⟩) * 500000 :=
  C40_efficiency mp ⟨500000, 2, 1500, 1.2, 100⟩ (by norm_num) (by norm_num) (by norm_num)
    (by norm_num [advanceRatio])

/-! ### C41 blade count -/

/-- C41.  Only four blades are accepted. -/
theorem C41_four_only_partial (n : ℤ) : (∃ m, propellerSetup n = .ok m) ↔ n = 4 := by
  unfold propellerSetup
  by_cases h : n = 4
  · subst h; simp; exact ⟨_, rfl⟩
  · simp only [h, iff_false, not_exists]
    intro m
    simp [bind, Except.bind, throw, throwThe, MonadExceptOf.throw]

/-- C41.  Four blades load the high power map. -/
theorem C41_four_map_partial : propellerSetup 4 = .ok .highpower := rfl

/-- C41 is false: the documented three blade propeller raises, its map having already been loaded. -/
theorem C41_three_raises :
    propellerSetup 3 = .error "You will need to define a propeller map valid for this number of blades" := rfl

/-! ### C42 engine out -/

/-- a propeller without shaft power produces no thrust, whatever the map -/
theorem C42_no_power_no_thrust (mp : Maps) (s : Side) : propeller mp (s.coef 0) = 0 := by
  simp [propeller, thrust, thrustCoef, Side.coef, powerCoef]

/-- C42.  With the flag at zero the twin turboprop is exactly one side: thrust and fuel flow of a single turboprop. -/
theorem C42_turboprop_engine_out (mp : Maps) (s1 s2 : Side) (t P : ℝ) :
    twinTurboprop mp s1 s2 t 0 P = singleTurboprop mp s1 t P := by
  simp [twinTurboprop, singleTurboprop, turboshaft, C42_no_power_no_thrust]

/-- C42.  In general the totals are sums of two single systems, the second at the throttle times the flag; with the
flag at one both sides run at the same throttle. -/
theorem C42_turboprop_totals (mp : Maps) (s1 s2 : Side) (t a P : ℝ) :
    (twinTurboprop mp s1 s2 t a P).thrust
      = (singleTurboprop mp s1 t P).thrust + (singleTurboprop mp s2 (t * a) P).thrust ∧
    (twinTurboprop mp s1 s2 t a P).fuel
      = (singleTurboprop mp s1 t P).fuel + (singleTurboprop mp s2 (t * a) P).fuel ∧
    (twinTurboprop mp s1 s2 t 1 P).fuel = 2 * (singleTurboprop mp s1 t P).fuel ∧
    (twinTurboprop mp s1 s1 t 1 P).thrust = 2 * (singleTurboprop mp s1 t P).thrust := by
  refine ⟨rfl, rfl, ?_, ?_⟩ <;> simp only [twinTurboprop, singleTurboprop, mul_one] <;> ring

/-- C42.  Series hybrid: with the flag at zero the failed motor draws nothing, makes no heat and no thrust; the other
side is unchanged. -/
theorem C42_hybrid_engine_out (mp : Maps) (s1 s2 : Side) (i : HybridIn) :
    (twinHybrid mp s1 s2 { i with active := 0 }).thrust = (singleHybrid mp s1 i).thrust ∧
    (twinHybrid mp s1 s2 { i with active := 0 }).totalLoad = (singleHybrid mp s1 i).totalLoad + i.extraLoad ∧
    (twinHybrid mp s1 s2 { i with active := 0 }).motorHeat = (singleHybrid mp s1 i).motorHeat ∧
    (twinHybrid mp s1 s2 { i with active := 0 }).fuel = (singleHybrid mp s1 i).fuel := by
  simp [twinHybrid, singleHybrid, motor, C42_no_power_no_thrust]

example (mp : Maps) : (twinTurboprop mp ⟨2, 1500, 1.2, 80⟩ ⟨2, 1500, 1.2, 80⟩ 1 0 5e5).fuel
    = 0.6 * 1.68965774e-7 * 5e5 := by
  rw [C42_turboprop_engine_out]; norm_num [singleTurboprop, turboshaft, turboOpts]

/-! ### C43 hybrid balance -/

theorem balanceResidual_zero_iff (l r : ℝ) : balanceResidual l r = 0 ↔ l = r := by
  unfold balanceResidual
  have hs : (if |r| < 2 then 1 / (0.25 * r ^ 2 + 1) else 1 / |r|) ≠ 0 := by
    split_ifs with h
    · positivity
    · rw [not_lt] at h
      have : 0 < |r| := by linarith
      positivity
  rw [mul_eq_zero, sub_eq_zero]
  constructor
  · rintro (h | h)
    · exact h
    · exact absurd h hs
  · exact Or.inl

/-- C43.  Power balance at a converged point: the electric load is met by battery and generator, the battery's share
is the hybridization fraction. -/
theorem C43_balance (mp : Maps) (s1 s2 : Side) (i : HybridIn) (h : (twinHybrid mp s1 s2 i).residual = 0) :
    (twinHybrid mp s1 s2 i).totalLoad = (twinHybrid mp s1 s2 i).batteryLoad + (twinHybrid mp s1 s2 i).genAvailable ∧
    (twinHybrid mp s1 s2 i).batteryLoad = i.splitFraction * (twinHybrid mp s1 s2 i).totalLoad := by
  have h' := (balanceResidual_zero_iff _ _).1 h
  simp only [twinHybrid, splitCompute, splitA, splitB, SplitOpts.default, generator, motor] at h' ⊢
  constructor <;> linarith

/-- C43.  The same for the single engine system, whose residual is an optimizer constraint. -/
theorem C43_single (mp : Maps) (s1 : Side) (i : HybridIn) (h : (singleHybrid mp s1 i).residual = 0) :
    (singleHybrid mp s1 i).totalLoad = (singleHybrid mp s1 i).batteryLoad + (singleHybrid mp s1 i).genAvailable ∧
    (singleHybrid mp s1 i).batteryLoad = i.splitFraction * (singleHybrid mp s1 i).totalLoad := by
  simp only [singleHybrid, splitCompute, splitA, splitB, SplitOpts.default, generator, motor] at h ⊢
  constructor <;> linarith

/-- C43.  System energy balance: engine shaft power plus battery power equals motor shaft power, all component heat and
the extra electric load. -/
theorem C43_energy (mp : Maps) (s1 s2 : Side) (i : HybridIn) (h : (twinHybrid mp s1 s2 i).residual = 0) :
    i.engThrottle * i.engRating + (twinHybrid mp s1 s2 i).batteryLoad
      = (motor hybridMotor i.throttle i.motorRating).shaft + (motor hybridMotor (i.throttle * i.active) i.motorRating).shaft
        + (twinHybrid mp s1 s2 i).motorHeat + (twinHybrid mp s1 s2 i).genHeat + (twinHybrid mp s1 s2 i).splitHeat
        + i.extraLoad := by
  have hb := (C43_balance mp s1 s2 i h).1
  simp only [twinHybrid, splitCompute, splitA, SplitOpts.default, generator, motor, turboshaft] at hb ⊢
  linarith

/-- C43.  The balance has exactly one solution: the engine throttle is determined by the required power (nonzero engine
rating), so the result does not depend on the solver's starting point. -/
theorem C43_unique (mp : Maps) (s1 s2 : Side) (i : HybridIn) (hR : i.engRating ≠ 0) :
    ∃! t : ℝ, (twinHybrid mp s1 s2 { i with engThrottle := t }).residual = 0 := by
  have key : ∀ t, (twinHybrid mp s1 s2 { i with engThrottle := t }).residual = 0 ↔
      t * i.engRating * 0.97 = (twinHybrid mp s1 s2 i).genRequired := by
    intro t
    simp only [twinHybrid]
    rw [balanceResidual_zero_iff]
    simp only [generator, turboshaft, hybridGen]
    constructor
    · intro h; linarith
    · intro h; rw [h]
  refine ⟨(twinHybrid mp s1 s2 i).genRequired / (i.engRating * 0.97), ?_, ?_⟩
  · show (twinHybrid mp s1 s2 { i with engThrottle := _ }).residual = 0
    rw [key]; field_simp
  · intro t ht
    rw [(key t).1 ht |>.symm]; field_simp

/-- C43.  Pure battery and pure engine operation. -/
theorem C43_extremes (mp : Maps) (s1 s2 : Side) (i : HybridIn) (h : (twinHybrid mp s1 s2 i).residual = 0) :
    (i.splitFraction = 1 → i.engRating ≠ 0 → i.engThrottle = 0 ∧ (twinHybrid mp s1 s2 i).fuel = 0) ∧
    (i.splitFraction = 0 → (twinHybrid mp s1 s2 i).batteryLoad = 0) := by
  obtain ⟨h1, h2⟩ := C43_balance mp s1 s2 i h
  constructor
  · intro hf hR
    rw [hf, one_mul] at h2
    have h0 : (twinHybrid mp s1 s2 i).genAvailable = 0 := by linarith
    simp only [twinHybrid, generator, turboshaft, hybridGen] at h0
    have ht : i.engThrottle = 0 := by
      rcases mul_eq_zero.1 h0 with h | h
      · exact (mul_eq_zero.1 h).resolve_right hR
      · norm_num at h
    refine ⟨ht, ?_⟩
    simp [twinHybrid, turboshaft, ht]
  · intro hf; rw [h2, hf, zero_mul]

example : (splitCompute .fraction .default ⟨400, 1000, 0.25⟩).outA = 100 := by
  norm_num [splitCompute, splitA, SplitOpts.default]

/-! ### C44 rubberized turbofan -/

/-- C44.  Thrust and fuel flow scale linearly with the rated thrust. -/
theorem C44_linear (d : Deck) (hy : Bool) (T F R k : ℝ) :
    (turbofan d hy T F (k * R)).thrust = k * (turbofan d hy T F R).thrust ∧
    (turbofan d hy T F (k * R)).fuel = k * (turbofan d hy T F R).fuel := by
  simp only [turbofan]; constructor <;> ring

/-- C44.  At the deck's own rating the deck is reproduced; hydrogen changes the fuel flow only, by 43/120. -/
theorem C44_identity (d : Deck) (hy : Bool) (T F R : ℝ) :
    (turbofan d hy T F (origThrust d)).thrust = T ∧ (turbofan d false T F (origThrust d)).fuel = F ∧
    (turbofan d true T F R).thrust = (turbofan d false T F R).thrust ∧
    (turbofan d true T F R).fuel = 43 / 120 * (turbofan d false T F R).fuel := by
  have h : origThrust d ≠ 0 := by cases d <;> norm_num [origThrust]
  simp only [turbofan, lhvScale]
  refine ⟨by field_simp, by simp; field_simp, trivial, by simp⟩

/-- C44.  Thrust specific fuel consumption does not depend on the rating. -/
theorem C44_tsfc (d : Deck) (hy : Bool) (T F R R' : ℝ) (hR : R ≠ 0) (hR' : R' ≠ 0) :
    (turbofan d hy T F R).fuel / (turbofan d hy T F R).thrust
      = (turbofan d hy T F R').fuel / (turbofan d hy T F R').thrust := by
  have h : origThrust d ≠ 0 := by cases d <;> norm_num [origThrust]
  simp only [turbofan]
  by_cases hT : T = 0
  · simp [hT]
  · field_simp

example : (turbofan .CFM56 true 5000 0.6 27300).fuel = 0.215 := by norm_num [turbofan, lhvScale, origThrust]

/-! ### C45 battery -/

open Verif.Integrals

/-- C45.  Battery: heat is the lost fraction, capacity is weight times specific energy, margin exceeds one exactly when
the load exceeds the power capability. -/
theorem C45_battery (o : BattOpts) (W P e : ℝ) :
    (battery o W P e).heat = (1 - o.eta) * P ∧ (battery o W P e).maxEnergy = W * e ∧
    (0 < o.specificPower * W → (1 < (battery o W P e).margin ↔ o.specificPower * W < P)) := by
  simp only [battery]
  refine ⟨by ring, trivial, fun h => ?_⟩
  rw [lt_div_iff₀ h, one_mul]

/-- C45.  All partials of the battery exact; undeclared ones zero. -/
theorem C45_partials (o : BattOpts) (W P e : ℝ) (h : o.specificPower * W ≠ 0) :
    (HasDerivAt (fun x => (battery o W x e).heat) (batteryDLoad o W P e).heat P ∧
     HasDerivAt (fun x => (battery o W x e).cost) (batteryDLoad o W P e).cost P ∧
     HasDerivAt (fun x => (battery o W x e).margin) (batteryDLoad o W P e).margin P ∧
     HasDerivAt (fun x => (battery o W x e).maxEnergy) (batteryDLoad o W P e).maxEnergy P) ∧
    (HasDerivAt (fun x => (battery o x P e).heat) (batteryDWeight o W P e).heat W ∧
     HasDerivAt (fun x => (battery o x P e).cost) (batteryDWeight o W P e).cost W ∧
     HasDerivAt (fun x => (battery o x P e).margin) (batteryDWeight o W P e).margin W ∧
     HasDerivAt (fun x => (battery o x P e).maxEnergy) (batteryDWeight o W P e).maxEnergy W) ∧
    (HasDerivAt (fun x => (battery o W P x).heat) (batteryDSpecific o W P e).heat e ∧
     HasDerivAt (fun x => (battery o W P x).cost) (batteryDSpecific o W P e).cost e ∧
     HasDerivAt (fun x => (battery o W P x).margin) (batteryDSpecific o W P e).margin e ∧
     HasDerivAt (fun x => (battery o W P x).maxEnergy) (batteryDSpecific o W P e).maxEnergy e) := by
  have h1 : o.specificPower ≠ 0 := left_ne_zero_of_mul h
  have h2 : W ≠ 0 := right_ne_zero_of_mul h
  simp only [battery, batteryDLoad, batteryDWeight, batteryDSpecific]
  refine ⟨⟨?_, ?_, ?_, ?_⟩, ⟨?_, ?_, ?_, ?_⟩, ⟨?_, ?_, ?_, ?_⟩⟩ <;> hderiv!

theorem dSOCdt_eq (o : BattOpts) (W e P : ℝ) : dSOCdt o W e P = -(1 / (3600 * (W * e))) * P := by
  simp only [dSOCdt, battery]
  by_cases h : W * e = 0
  · simp [h]
  · field_simp; norm_num; ring

/-- C45.  The state of charge is the initial one minus the energy drawn (the integrator's output for the load history, in
joules) divided by the battery energy (3600 J per W h), at every node, for every load history. -/
theorem C45_soc_energy {m : ℕ} (o : BattOpts) (W e d s0 : ℝ) (load s : Fin (m + 1) → ℝ)
    (h : soc o W e d s0 load = some s) :
    ∃ M, methodMatrix (K := ℝ) .simpson m = some M ∧
      ∀ a, s a = s0 - integratorCompute M 0 (.duration d) load a / (3600 * (W * e)) := by
  unfold soc at h
  obtain ⟨M, hM, rfl⟩ := Option.map_eq_some_iff.1 h
  refine ⟨M, hM, fun a => ?_⟩
  have := C03_affine M (.duration d) s0 0 1 (-(1 / (3600 * (W * e)))) (fun _ => 0) load a
  have z : integratorCompute M s0 (.duration d) (fun _ => (0 : ℝ)) a = s0 := by
    rw [integratorCompute_eq]
    have : (fun _ : Fin (m + 1) => (0 : ℝ)) = 0 := rfl
    rw [this, Matrix.mulVec_zero]; simp
  simp only [mul_zero, zero_add, one_mul, add_zero, z] at this
  rw [show (fun b => dSOCdt o W e (load b)) = fun b => -(1 / (3600 * (W * e))) * load b from
    funext fun b => dSOCdt_eq o W e (load b), this]
  ring

/-- C45.  For a load history sampled from a polynomial of degree at most two the state of charge is exact at every
node. -/
theorem C45_soc_exact {m : ℕ} (o : BattOpts) (W e d s0 : ℝ) (p : Polynomial ℝ) (hp : p.natDegree ≤ 2)
    (s : Fin (m + 1) → ℝ) (h : soc o W e d s0 (fun b => p.eval ((b : ℕ) * (d / m))) = some s) (a : Fin (m + 1)) :
    s a = s0 - (∫ t in (0 : ℝ)..((a : ℕ) * (d / m)), p.eval t) / (3600 * (W * e)) := by
  obtain ⟨M, hM, hs⟩ := C45_soc_energy o W e d s0 _ s h
  rw [hs a]
  have := C01_simpson_exact_quadratic hM p hp (.duration d) 0 0 a
  simp only [TimeInput.step, zero_add] at this
  rw [this]

/-- C45.  The integrator can be built exactly for an odd number of nodes. -/
theorem C45_soc_nodes {m : ℕ} (o : BattOpts) (W e d s0 : ℝ) (load : Fin (m + 1) → ℝ) :
    (∃ s, soc o W e d s0 load = some s) ↔ m % 2 = 0 := by
  unfold soc
  constructor
  · rintro ⟨s, h⟩
    obtain ⟨M, hM, -⟩ := Option.map_eq_some_iff.1 h
    exact (methodMatrix_simpson.1 hM).1
  · intro h
    exact ⟨_, by rw [methodMatrix_simpson.2 ⟨h, rfl⟩]; rfl⟩

/-- C45.  Under a nonnegative load the state of charge never increases from one even node to a later one. -/
theorem C45_soc_decreasing {m : ℕ} (o : BattOpts) (W e d s0 : ℝ) (hW : 0 ≤ W * e) (hd : 0 ≤ d)
    (load s : Fin (m + 1) → ℝ) (hl : ∀ b, 0 ≤ load b) (h : soc o W e d s0 load = some s) (k l : ℕ) (hkl : k ≤ l)
    (hl' : 2 * l < m + 1) : s ⟨2 * l, hl'⟩ ≤ s ⟨2 * k, by omega⟩ := by
  obtain ⟨M, hM, hs⟩ := C45_soc_energy o W e d s0 load s h
  rw [hs, hs]
  have hst : 0 ≤ (TimeInput.duration d : TimeInput ℝ).step m := div_nonneg hd (by positivity)
  have := C07_simpson_even_monotone_partial hM 0 (.duration d) hst load hl k l hkl (by omega)
  have := div_le_div_of_nonneg_right this (show (0 : ℝ) ≤ 3600 * (W * e) by positivity)
  linarith

/-- C45.  A battery of 1 kg and 1 W h/kg, loaded with 3600 W for one second: empty. -/
example (o : BattOpts) (s : Fin (2 + 1) → ℝ) (h : soc o 1 1 1 1 (fun _ => 3600) = some s) :
    s ⟨2, by norm_num⟩ = 0 := by
  have := C45_soc_exact o 1 1 1 1 (Polynomial.C 3600) (by simp) s (by simpa using h) ⟨2, by norm_num⟩
  rw [this]; norm_num

/-! ### C79 promotion -/

/-- C79 is false: `SeriesHybridElectricPropulsionSystem` promotes a pattern that no input of its propeller matches, so its
setup raises; the pattern used by the other systems matches density and airspeed. -/
theorem C79_series_hybrid_unusable :
    seriesHybridPromote = .error "failed to find any matches" ∧
    otherPromote = .ok ["fltcond|rho", "fltcond|Utrue"] := by
  constructor <;> decide

end Verif.Propulsion
