import Verif.Model.ElectricThermal
import Verif.Props.Propulsion
import Verif.Props.Thermal
import Verif.Props.Chiller
import Verif.Props.HeatExchanger
import Verif.Props.Ducts

/-! Property C94: electric propulsion systems with thermal management conserve energy; design variables reach their
components. -/

namespace Verif.ElectricThermal

open Verif.Propulsion Verif.Thermal Verif.HX Verif.Integrals Verif.Ducts Real

variable {m : ℕ} {M : Matrix (Fin (m + 1)) (Fin (m + 1)) ℝ}

/-! ### Wiring -/

/-- C94.  No input has two sources in any of the four systems. -/
theorem C94_single_source :
    (allElectricW.map Prod.snd).Nodup ∧ (allElectricCompressibleW.map Prod.snd).Nodup ∧
    (passiveW.map Prod.snd).Nodup ∧ (refrigeratedW.map Prod.snd).Nodup := by
  decide

/-- C94.  The nozzle area design variable reaches the duct of the all-electric and of the passively cooled system: the
airflow is proportional to it. -/
theorem C94_area_reaches_partial (env : String → ℝ) (U rho : ℝ) :
    (0 ≤ env "area_nozzle" →
      systemMdot allElectricW env U rho = env "area_nozzle" * √(ductInterior 0.15 U rho (env "hx.delta_p_cold"))) ∧
    (0 ≤ env "ac|propulsion|thermal|duct|area_nozzle" →
      systemMdot passiveW env U rho = env "ac|propulsion|thermal|duct|area_nozzle"
        * √(ductInterior 0.15 U rho (env "hx.delta_p_cold"))) := by
  have a1 : source allElectricW "duct.area_nozzle" = some "area_nozzle" := by decide
  have a2 : source allElectricW "duct.delta_p_hex" = some "hx.delta_p_cold" := by decide
  have b1 : source passiveW "duct.area_nozzle" = some "ac|propulsion|thermal|duct|area_nozzle" := by decide
  have b2 : source passiveW "duct.delta_p_hex" = some "hx.delta_p_cold" := by decide
  constructor
  · intro h
    simp only [systemMdot, inputVal, a1, a2, ductMdot]
    rw [if_neg (not_lt.2 (mul_nonneg h (Real.sqrt_nonneg _)))]
  · intro h
    simp only [systemMdot, inputVal, b1, b2, ductMdot]
    rw [if_neg (not_lt.2 (mul_nonneg h (Real.sqrt_nonneg _)))]

/-- C94 is false for the nozzle area of the refrigerated system: `area_nozzle` is connected to nothing, the duct works with
1 m² whatever the design variable is, and neither its airflow nor its drag react to it. -/
theorem C94_area_ignored (env env' : String → ℝ) (U rho : ℝ) (h : ∀ s, s ≠ "area_nozzle" → env s = env' s) :
    systemMdot refrigeratedW env U rho = systemMdot refrigeratedW env' U rho ∧
    systemDrag refrigeratedW env U rho = systemDrag refrigeratedW env' U rho ∧
    systemMdot refrigeratedW env U rho = √(ductInterior 0.15 U rho (env "hx.delta_p_cold")) := by
  have b1 : source refrigeratedW "duct.area_nozzle" = none := by decide
  have b2 : source refrigeratedW "duct.delta_p_hex" = some "hx.delta_p_cold" := by decide
  have e := h "hx.delta_p_cold" (by decide)
  refine ⟨?_, ?_, ?_⟩
  · simp only [systemMdot, inputVal, b1, b2, e]
  · simp only [systemDrag, inputVal, b1, b2, e]
  · simp only [systemMdot, inputVal, b1, b2, ductMdot]
    rw [if_neg (not_lt.2 (mul_nonneg zero_le_one (Real.sqrt_nonneg _))), one_mul]

/-- a witness: with the default 58 square inches the airflow should be 0.0374 of the airflow which the refrigerated system
computes -/
example : ∃ env : String → ℝ, ∃ U rho : ℝ, 0 < systemMdot passiveW env U rho ∧
    env "ac|propulsion|thermal|duct|area_nozzle" = env "area_nozzle" ∧
    systemMdot passiveW env U rho = 0.03742 * systemMdot refrigeratedW env U rho := by
  refine ⟨fun s => if s = "hx.delta_p_cold" then 0 else 0.03742, 100, 1, ?_, ?_, ?_⟩
  · rw [(C94_area_reaches_partial _ 100 1).2 (by split_ifs <;> norm_num)]
    have : 0 < ductInterior 0.15 100 1 0 := by norm_num [ductInterior]
    simp only [reduceIte]
    have h2 : ("ac|propulsion|thermal|duct|area_nozzle" : String) ≠ "hx.delta_p_cold" := by decide
    rw [if_neg h2]
    positivity
  · simp
  · rw [(C94_area_reaches_partial _ 100 1).2 (by split_ifs <;> norm_num), (C94_area_ignored _ _ 100 1 fun _ _ => rfl).2.2]
    simp

/-- C94.  The heat sources, the sinks' masses and the coolant are wired as documented: each sink gets its own component's heat
and mass, one coolant flow passes all components, and the loops are closed. -/
theorem C94_loop_wiring :
    (∀ w ∈ [passiveW, refrigeratedW], source w "batteryheatsink.q_in" = some "batt1.heat_out" ∧
      source w "motorheatsink.q_in" = some "motors_heat" ∧ source w "batteryheatsink.mass" = some "batt_weight" ∧
      source w "motorheatsink.mass" = some "motors_weight" ∧
      source w "motorheatsink.T_in" = some "batteryheatsink.T_out" ∧
      ∀ t ∈ ["batteryheatsink.mdot_coolant", "motorheatsink.mdot_coolant", "hx.mdot_hot"],
        source w t = some "mdot_coolant") ∧
    source passiveW "reservoir.mdot_coolant" = some "mdot_coolant" ∧
    source refrigeratedW "refrig.mdot_coolant" = some "mdot_coolant" ∧
    source passiveW "batteryheatsink.T_in" = some "reservoir.T_out" ∧
    source passiveW "hx.T_in_hot" = some "motorheatsink.T_out" ∧
    source passiveW "reservoir.T_in" = some "hx.T_out_hot" ∧
    source refrigeratedW "batteryheatsink.T_in" = some "refrig.T_out_cold" ∧
    source refrigeratedW "refrig.T_in_cold" = some "motorheatsink.T_out" ∧
    source refrigeratedW "hx.T_in_hot" = some "refrig.T_out_hot" ∧
    source refrigeratedW "refrig.T_in_hot" = some "hx.T_out_hot" ∧
    (∀ w ∈ [allElectricW, allElectricCompressibleW], source w "motorheatsink.q_in" = some "motor1.heat_out" ∧
      source w "motorheatsink.T_in" = some "reservoir.T_out" ∧ source w "batt1.elec_load" = some "motor1.elec_load") := by
  decide

/-- the cycle of components a coolant stream passes: `inlet` gives for an outlet the name of its inlet, and the
stream is followed upstream through `source` -/
def upstream (w : Wiring) (inlet : String → String) : ℕ → String → Option String
  | 0, s => some s
  | n + 1, s => (source w (inlet s)).bind (upstream w inlet n)

/-- coolant inlet belonging to a coolant outlet of the systems -/
def inletOf (out : String) : String :=
  if out = "motorheatsink.T_out" then "motorheatsink.T_in"
  else if out = "batteryheatsink.T_out" then "batteryheatsink.T_in"
  else if out = "hx.T_out_hot" then "hx.T_in_hot"
  else if out = "duct.T_out_hot" then "duct.T_in_hot"
  else if out = "reservoir.T_out" then "reservoir.T_in"
  else if out = "refrig.T_out_cold" then "refrig.T_in_cold"
  else "refrig.T_in_hot"

/-- C94.  The coolant loops are closed and pass every component exactly once: followed upstream from the reservoir (from the two
sides of the refrigerator) the stream returns after all components of the loop and not before. -/
theorem C94_loops_closed :
    (∀ n ∈ [1, 2, 3], upstream allElectricW inletOf n "reservoir.T_out"
      = ["hx.T_out_hot", "motorheatsink.T_out", "reservoir.T_out"][n - 1]?) ∧
    (∀ n ∈ [1, 2, 3], upstream allElectricCompressibleW inletOf n "reservoir.T_out"
      = ["duct.T_out_hot", "motorheatsink.T_out", "reservoir.T_out"][n - 1]?) ∧
    (∀ n ∈ [1, 2, 3, 4], upstream passiveW inletOf n "reservoir.T_out"
      = ["hx.T_out_hot", "motorheatsink.T_out", "batteryheatsink.T_out", "reservoir.T_out"][n - 1]?) ∧
    (∀ n ∈ [1, 2, 3], upstream refrigeratedW inletOf n "refrig.T_out_cold"
      = ["motorheatsink.T_out", "batteryheatsink.T_out", "refrig.T_out_cold"][n - 1]?) ∧
    (∀ n ∈ [1, 2], upstream refrigeratedW inletOf n "refrig.T_out_hot" = ["hx.T_out_hot", "refrig.T_out_hot"][n - 1]?) ∧
    (∀ t ∈ ["motorheatsink.mdot_coolant", "reservoir.mdot_coolant", "hx.mdot_hot"],
      source allElectricW t = some "mdot_coolant") ∧
    (∀ t ∈ ["motorheatsink.mdot_coolant", "reservoir.mdot_coolant", "duct.mdot_hot"],
      source allElectricCompressibleW t = some "mdot_coolant") := by
  decide

/-- C94.  Electric and shaft power: the hybrid's split gets the motors' load, in the refrigerated system the total with the
refrigerator; battery, generator, motors, propellers and engine are connected to their counterparts with their own ratings. -/
theorem C94_power_wiring :
    source passiveW "hybrid_split.power_in" = some "motors_elec_load" ∧
    source refrigeratedW "hybrid_split.power_in" = some "total_elec_load" ∧
    source refrigeratedW "add_power.refrig_elec_load" = some "refrig.elec_load" ∧
    (∀ w ∈ [passiveW, refrigeratedW],
      source w "prop1.shaft_power_in" = some "motor1.shaft_power_out" ∧
      source w "prop2.shaft_power_in" = some "motor2.shaft_power_out" ∧
      source w "motor2.throttle" = some "failedmotor.motor2throttle" ∧
      source w "add_power.motor1_elec_load" = some "motor1.elec_load" ∧
      source w "add_power.motor2_elec_load" = some "motor2.elec_load" ∧
      source w "batt1.elec_load" = some "hybrid_split.power_out_A" ∧
      source w "eng_throttle_set.gen_power_required" = some "hybrid_split.power_out_B" ∧
      source w "eng_throttle_set.gen_power_available" = some "gen1.elec_power_out" ∧
      source w "eng1.throttle" = some "eng_throttle_set.eng_throttle" ∧
      source w "gen1.shaft_power_in" = some "eng1.shaft_power_out" ∧
      source w "eng1.shaft_power_rating" = some "eng_rating" ∧ source w "gen1.elec_power_rating" = some "gen_rating" ∧
      ∀ t ∈ ["motor1.elec_power_rating", "motor2.elec_power_rating", "prop1.power_rating", "prop2.power_rating"],
        source w t = some "motor_rating") ∧
    (∀ w ∈ [allElectricW, allElectricCompressibleW], source w "prop1.shaft_power_in" = some "motor1.shaft_power_out" ∧
      source w "motorheatsink.mass" = some "motor1.component_weight" ∧
      source w "batt1.battery_weight" = some "battery1_weight" ∧ source w "prop1.diameter" = some "prop1_diameter" ∧
      ∀ t ∈ ["motor1.elec_power_rating", "prop1.power_rating"], source w t = some "motor1_rating") := by
  decide

/-! ### Electric power -/

/-- C94.  All-electric system: the battery feeds exactly shaft power and motor heat; nothing is lost or created. -/
theorem C94_all_electric (t P W e : ℝ) :
    (allElectric t P W e).shaft + (allElectric t P W e).motorHeat = (allElectric t P W e).batteryLoad ∧
    (allElectric t P W e).batteryHeat = 0.03 * (allElectric t P W e).batteryLoad ∧
    (allElectric t P W e).sinkMass = P / 5000 := by
  simp only [allElectric, motor, battery, electricMotor, electricBattery]
  refine ⟨by ring, by ring, by ring⟩

/-- C94.  The documented rating ("maximum rated continuous shaft power") is not the shaft power at full throttle, but the
electric power: the shaft gets 97 % of it. -/
theorem C94_rating (P W e : ℝ) (hP : 0 < P) :
    (allElectric 1 P W e).shaft = 0.97 * P ∧ (allElectric 1 P W e).shaft < P ∧ (allElectric 1 P W e).batteryLoad = P := by
  simp only [allElectric, motor, electricMotor]
  refine ⟨by ring, by nlinarith, by ring⟩

/-- C94.  Refrigerated hybrid with converged engine throttle: battery and generator supply shaft power, motor heat and the
refrigerator, whose share is split like the rest. -/
theorem C94_hybrid_power (mp : Maps) (s1 s2 : Side) (i : HybridIn) (h : (twinHybrid mp s1 s2 i).residual = 0) :
    (twinHybrid mp s1 s2 i).batteryLoad + (twinHybrid mp s1 s2 i).genAvailable
      = (motor hybridMotor i.throttle i.motorRating).shaft + (motor hybridMotor (i.throttle * i.active) i.motorRating).shaft
        + (twinHybrid mp s1 s2 i).motorHeat + i.extraLoad := by
  rw [← (C43_balance mp s1 s2 i h).1]
  simp only [twinHybrid, motor]
  ring

/-! ### First law of the coolant loops -/

/-- value of the phase's quadrature of a rate up to node `a` -/
noncomputable def quad (M : Matrix (Fin (m + 1)) (Fin (m + 1)) ℝ) (d : ℝ) (f : Fin (m + 1) → ℝ) (a : Fin (m + 1)) : ℝ :=
  integratorCompute M 0 (.duration d) f a

theorem quad_eq (d : ℝ) (f : Fin (m + 1) → ℝ) (a : Fin (m + 1)) : quad M d f a = M.mulVec f a * (d / m) := by
  rw [quad, integratorCompute_eq, add_zero]; rfl

theorem quad_add (d : ℝ) (f g : Fin (m + 1) → ℝ) (a : Fin (m + 1)) :
    quad M d (fun b => f b + g b) a = quad M d f a + quad M d g a := by
  simp only [quad_eq]
  rw [show (fun b => f b + g b) = f + g from rfl, Matrix.mulVec_add]; simp [add_mul]

theorem quad_smul (d c : ℝ) (f : Fin (m + 1) → ℝ) (a : Fin (m + 1)) :
    quad M d (fun b => c * f b) a = c * quad M d f a := by
  simp only [quad_eq]
  rw [show (fun b => c * f b) = c • f from rfl, Matrix.mulVec_smul]; simp [mul_assoc]

theorem quad_init (d q0 : ℝ) (f : Fin (m + 1) → ℝ) (a : Fin (m + 1)) :
    integratorCompute M q0 (.duration d) f a = quad M d f a + q0 := by
  rw [quad_eq, integratorCompute_eq]; rfl

/-- the heat stored in a chain of sinks is the heat supplied minus the enthalpy rise of the coolant -/
theorem chain_energy (p : Plate) (d : ℝ) (mdot : Fin (m + 1) → ℝ) (hm : ∀ a, mdot a ≠ 0) (hc : p.cp ≠ 0) :
    ∀ (l : List (Sink m)) (Tin : Fin (m + 1) → ℝ), (∀ s ∈ l, s.mass ≠ 0 ∧ s.cp ≠ 0) →
      chainConverged M p d mdot l Tin → ∀ a,
      (l.map fun s => s.mass * s.cp * (s.T a - s.T0)).sum
        = quad M d (fun b => (l.map fun s => s.heat b).sum - mdot b * p.cp * (chainOut p mdot l Tin b - Tin b)) a := by
  intro l
  induction l with
  | nil =>
    intro Tin _ _ a
    have : (fun b : Fin (m + 1) => (List.map (fun s : Sink m => s.heat b) []).sum
        - mdot b * p.cp * (chainOut p mdot [] Tin b - Tin b)) = fun b => 0 * (0 : ℝ) := by
      funext b; simp [chainOut]
    rw [this, quad_smul]; simp
  | cons s l ih =>
    intro Tin hl h a
    obtain ⟨hs, ht⟩ := h
    obtain ⟨s1, s2⟩ := hl s (by simp)
    have i1 := ih _ (fun s' h' => hl s' (by simp [h'])) ht a
    rw [List.map_cons, List.sum_cons, i1, hs a, quad_init]
    rw [show ∀ x : ℝ, s.mass * s.cp * (x + s.T0 - s.T0) = s.mass * s.cp * x from fun x => by ring, ← quad_smul, ← quad_add]
    congr 1
    funext b
    have e1 := C48_mass s.cp (s.heat b) (plateQ p (Tin b) (s.T b) (mdot b)) s.mass s2 s1
    have e2 := C48_plate p (Tin b) (s.T b) (mdot b) (hm b) hc
    rw [e1, List.map_cons, List.sum_cons]
    show _ = s.heat b + _ - mdot b * p.cp * (chainOut p mdot l (fun a => plateTout p (Tin a) (s.T a) (mdot a)) b - Tin b)
    rw [← e2]
    ring

/-- the coolant gives its enthalpy drop to the air -/
theorem exchanger_energy (x : Exchanger m) (cp : ℝ) (mdot T : Fin (m + 1) → ℝ) (a : Fin (m + 1)) (hm : mdot a ≠ 0)
    (hc : cp ≠ 0) : mdot a * cp * (T a - x.out cp mdot T a) = x.heat cp mdot T a := by
  unfold Exchanger.out toutHot
  field_simp
  ring

/-- C94.  First law of a loop with reservoir, at every node of every phase: the heat stored in battery, motor and coolant since
the beginning of the phase is the quadrature of the heat produced minus the heat given to the air. -/
theorem C94_first_law (l : Loop m) (h : l.Converged M) (hm : ∀ a, l.mdot a ≠ 0) (hc : l.plate.cp ≠ 0) (hr : l.mass ≠ 0)
    (hs : ∀ s ∈ l.sinks, s.mass ≠ 0 ∧ s.cp ≠ 0) (a : Fin (m + 1)) :
    l.stored a = integratorCompute M 0 (.duration l.duration)
      (fun b => (l.sinks.map fun s => s.heat b).sum - l.rejected b) a := by
  have h1 := chain_energy l.plate l.duration l.mdot hm hc l.sinks l.Tr hs h.sinks a
  have h2 := h.reservoir a
  rw [quad_init] at h2
  unfold Loop.stored
  rw [h1, h2, show ∀ x : ℝ, l.mass * l.plate.cp * (x + l.Tr0 - l.Tr0) = l.mass * l.plate.cp * x from fun x => by ring,
    ← quad_smul, ← quad_add]
  show quad M _ _ a = quad M _ _ a
  congr 1
  funext b
  have e := exchanger_energy l.hx l.plate.cp l.mdot l.hot b (hm b) hc
  unfold Loop.rejected
  rw [← e]
  unfold reservoirRate Loop.hot
  field_simp
  ring

/-- C94.  First law of the refrigerated system, for every bypass control: the heat stored in the components is the quadrature
of the heat produced and 95 % of the refrigerator's electric load minus the heat given to the air. -/
theorem C94_first_law_refrigerated (r : Refrigerated m) (h : r.Converged M) (hm : ∀ a, r.mdot a ≠ 0) (hc : r.plate.cp ≠ 0)
    (hs : ∀ s ∈ r.sinks, s.mass ≠ 0 ∧ s.cp ≠ 0) (a : Fin (m + 1)) :
    (r.sinks.map fun s => s.mass * s.cp * (s.T a - s.T0)).sum
      = integratorCompute M 0 (.duration r.duration)
        (fun b => (r.sinks.map fun s => s.heat b).sum + 0.95 * r.load b - r.rejected b) a := by
  rw [chain_energy r.plate r.duration r.mdot hm hc r.sinks r.outCold hs h.sinks a]
  show quad M _ _ a = quad M _ _ a
  congr 1
  funext b
  have e := exchanger_energy r.hx r.plate.cp r.mdot r.outHot b (hm b) hc
  have e2 := C51_chiller_energy (r.chiller b) (hm b) hc
  have e3 := congrFun h.cold b
  have e4 := congrFun h.hot b
  unfold Refrigerated.rejected
  rw [← e, ← e3, ← e4]
  have e5 : r.mdot b * r.plate.cp * ((r.outHot b - r.TinHot b) + (r.outCold b - r.TinCold b)) = 0.95 * r.load b := e2
  rw [← e5]
  ring

/-! ### Steady loop -/

/-- heat per kelvin of an exchanger -/
theorem groupQ_linear (i : NtuIn) : groupQ i = eff (ntu i) (cRatio i) * i.Cmin * (i.Th - i.Tc) := by
  unfold groupQ heatTransfer heatMax; ring

/-- conductance of the exchanger between coolant and air inlet, which does not depend on temperatures -/
noncomputable def Exchanger.conductance (x : Exchanger m) (cp : ℝ) (mdot : Fin (m + 1) → ℝ) (a : Fin (m + 1)) : ℝ :=
  x.heat cp mdot (fun b => (x.air b).T + 1) a

theorem heat_conductance (x : Exchanger m) (cp : ℝ) (mdot T : Fin (m + 1) → ℝ) (a : Fin (m + 1)) :
    x.heat cp mdot T a = x.conductance cp mdot a * (T a - (x.air a).T) := by
  unfold Exchanger.conductance Exchanger.heat
  rw [groupQ_linear, groupQ_linear]
  have e : ∀ A B c t : ℝ, A * B * (t - c) = A * B * ((c + 1) - c) * (t - c) := by intro A B c t; ring
  exact e _ _ _ _

/-- fraction of the capacity flow which a plate exchanges -/
noncomputable def plateK (p : Plate) (mdot : ℝ) : ℝ := (1 - exp (-(p.UA / (mdot * p.cp)))) * (mdot * p.cp)

theorem plateK_pos (p : Plate) (mdot : ℝ) (hm : 0 < mdot) (hc : 0 < p.cp) (hU : 0 < p.UA) : 0 < plateK p mdot := by
  have : exp (-(p.UA / (mdot * p.cp))) < 1 := by rw [exp_lt_one_iff]; simp; positivity
  unfold plateK
  have h2 : 0 < 1 - exp (-(p.UA / (mdot * p.cp))) := by linarith
  positivity

/-- temperatures of the sinks of a steady chain: each coolant inlet plus heat over conductance -/
noncomputable def steadyTemps (p : Plate) (mdot : ℝ) : List ℝ → ℝ → List ℝ
  | [], _ => []
  | q :: l, Tin => (Tin + q / plateK p mdot) :: steadyTemps p mdot l (Tin + q / (mdot * p.cp))

/-- a node is steady: no sink temperature and no reservoir temperature changes; `qs`, `Ts` heat and temperature of the
sinks, `Tr` of the reservoir -/
def steadyChain (p : Plate) (mdot : ℝ) : List ℝ → List ℝ → ℝ → ℝ → Prop
  | [], [], Tin, Tend => Tend = Tin
  | q :: l, T :: L, Tin, Tend => plateQ p Tin T mdot = q ∧ steadyChain p mdot l L (plateTout p Tin T mdot) Tend
  | _, _, _, _ => False

theorem steadyChain_iff (p : Plate) (mdot : ℝ) (hm : 0 < mdot) (hc : 0 < p.cp) (hU : 0 < p.UA) :
    ∀ (qs Ts : List ℝ) (Tin Tend : ℝ), steadyChain p mdot qs Ts Tin Tend ↔
      Ts = steadyTemps p mdot qs Tin ∧ Tend = Tin + qs.sum / (mdot * p.cp) := by
  have hK := plateK_pos p mdot hm hc hU
  intro qs
  induction qs with
  | nil =>
    intro Ts Tin Tend
    cases Ts <;> simp [steadyChain, steadyTemps]
  | cons q l ih =>
    intro Ts Tin Tend
    cases Ts with
    | nil => simp [steadyChain, steadyTemps]
    | cons T L =>
      simp only [steadyChain, steadyTemps, List.cons.injEq, List.sum_cons]
      have e : plateQ p Tin T mdot = q ↔ T = Tin + q / plateK p mdot := by
        have : plateQ p Tin T mdot = plateK p mdot * (T - Tin) := rfl
        rw [this]
        constructor
        · intro h; rw [← h]; field_simp; ring
        · intro h; rw [h]; field_simp; ring
      rw [ih]
      constructor
      · rintro ⟨h1, h2, h3⟩
        have ho : plateTout p Tin T mdot = Tin + q / (mdot * p.cp) := by
          unfold plateTout; rw [h1]; field_simp
        rw [ho] at h2 h3
        refine ⟨⟨e.1 h1, h2⟩, ?_⟩
        rw [h3]; ring
      · rintro ⟨⟨h1, h2⟩, h3⟩
        have h1' := e.2 h1
        have ho : plateTout p Tin T mdot = Tin + q / (mdot * p.cp) := by
          unfold plateTout; rw [h1']; field_simp
        rw [ho]
        refine ⟨h1', h2, ?_⟩
        rw [h3]; ring

/-- C94.  A steady loop has exactly one set of temperatures: with the heat `Q` of all sinks and the exchanger's conductance
`K`, the coolant in front of the exchanger is `Q/K` above the air, the reservoir `Q/K - Q/(mdot cp)`.  `out` is the
exchanger's coolant outlet, equal to the reservoir temperature in a steady loop. -/
theorem C94_steady (x : Exchanger m) (p : Plate) (mdot : Fin (m + 1) → ℝ) (a : Fin (m + 1)) (hm : 0 < mdot a)
    (hc : 0 < p.cp) (hU : 0 < p.UA) (hK : 0 < x.conductance p.cp mdot a) (qs Ts : List ℝ) (Tr Thot : ℝ) :
    (steadyChain p (mdot a) qs Ts Tr Thot ∧ x.out p.cp mdot (fun _ => Thot) a = Tr) ↔
    (Thot = (x.air a).T + qs.sum / x.conductance p.cp mdot a ∧
      Tr = Thot - qs.sum / (mdot a * p.cp) ∧ Ts = steadyTemps p (mdot a) qs Tr) := by
  rw [steadyChain_iff p _ hm hc hU]
  have hout : x.out p.cp mdot (fun _ => Thot) a
      = Thot - x.conductance p.cp mdot a * (Thot - (x.air a).T) / (mdot a * p.cp) := by
    unfold Exchanger.out toutHot; rw [heat_conductance]; field_simp
  rw [hout]
  constructor
  · rintro ⟨⟨h1, h2⟩, h3⟩
    have e : qs.sum = x.conductance p.cp mdot a * (Thot - (x.air a).T) := by
      rw [← h3] at h2
      field_simp at h2
      linarith
    refine ⟨?_, by rw [h2]; ring, h1⟩
    rw [e]; field_simp; ring
  · rintro ⟨h1, h2, h3⟩
    refine ⟨⟨h3, by rw [h2]; ring⟩, ?_⟩
    rw [h2]
    congr 2
    rw [h1]; field_simp; ring

/-- C94.  The conductance of a real exchanger is positive and below the coolant's capacity flow; so a steady loop with
positive heat has its reservoir, and with it all components, warmer than the air. -/
theorem C94_steady_above_air (x : Exchanger m) (p : Plate) (mdot : Fin (m + 1) → ℝ) (a : Fin (m + 1)) (hm : 0 < mdot a)
    (hc : 0 < p.cp) (hg : x.geo.Pos) (hk : 0 < x.km) (c1 : 0 < (x.air a).mdot) (c2 : 0 < (x.air a).cp)
    (c3 : 0 < (x.air a).k) (c4 : 0 < (x.air a).mu) (h3 : 0 < x.kHot) (h4 : 0 < x.muHot) :
    0 < x.conductance p.cp mdot a ∧ x.conductance p.cp mdot a < mdot a * p.cp ∧
    ∀ Q > 0, (x.air a).T < (x.air a).T + Q / x.conductance p.cp mdot a - Q / (mdot a * p.cp) := by
  have h := C54_group x.geo x.km (x.air a) ⟨mdot a, (x.air a).T + 1, p.cp, x.kHot, x.muHot⟩ hg hk c1 c2 c3 c4 hm hc h3 h4
    (by simp)
  obtain ⟨q1, _, _, q4, _, _⟩ := h
  have hpos : 0 < x.conductance p.cp mdot a := q1
  have hlt : x.conductance p.cp mdot a < mdot a * p.cp := by
    have : (x.air a).T < toutHot (x.conductance p.cp mdot a) (mdot a) ((x.air a).T + 1) p.cp := q4
    unfold toutHot at this
    have e : x.conductance p.cp mdot a / mdot a / p.cp < 1 := by linarith
    rw [div_div, div_lt_one (by positivity)] at e
    exact e
  refine ⟨hpos, hlt, fun Q hQ => ?_⟩
  have : Q / (mdot a * p.cp) < Q / x.conductance p.cp mdot a := div_lt_div_of_pos_left hQ hpos hlt
  linarith

/-- C94.  A phase which starts in the steady state and has constant data stays there: this is a converged loop. -/
theorem C94_steady_converged (p : Plate) (d : ℝ) (mdot : ℝ) (x : Exchanger m) (mass Tr Thot : ℝ)
    (spec : List (ℝ × ℝ × ℝ × ℝ))
    (hch : steadyChain p mdot (spec.map fun s => s.2.2.1) (spec.map fun s => s.2.2.2) Tr Thot)
    (hout : ∀ a, x.out p.cp (fun _ => mdot) (fun _ => Thot) a = Tr) :
    Loop.Converged M ⟨p, d, fun _ => mdot, spec.map fun s => ⟨s.1, s.2.1, s.2.2.2, fun _ => s.2.2.1, fun _ => s.2.2.2⟩, x,
      mass, Tr, fun _ => Tr⟩ := by
  have zero : ∀ q0 a, integratorCompute M q0 (.duration d) (fun _ => (0 : ℝ)) a = q0 := by
    intro q0 a
    rw [integratorCompute_eq]
    simp [Matrix.mulVec, dotProduct]
  have key : ∀ (spec : List (ℝ × ℝ × ℝ × ℝ)) (Tin : ℝ),
      steadyChain p mdot (spec.map fun s => s.2.2.1) (spec.map fun s => s.2.2.2) Tin Thot →
      let sinks : List (Sink m) := spec.map fun s => ⟨s.1, s.2.1, s.2.2.2, fun _ => s.2.2.1, fun _ => s.2.2.2⟩
      chainConverged M p d (fun _ => mdot) sinks (fun _ => Tin) ∧
      chainOut p (fun _ => mdot) sinks (fun _ => Tin) = fun _ => Thot := by
    intro spec
    induction spec with
    | nil =>
      intro Tin h
      simp only [List.map_nil, steadyChain] at h
      simp [chainConverged, chainOut, h]
    | cons s l ih =>
      intro Tin h
      simp only [List.map_cons, steadyChain] at h
      obtain ⟨h1, h2⟩ := h
      obtain ⟨i1, i2⟩ := ih _ h2
      refine ⟨⟨fun a => ?_, i1⟩, i2⟩
      simp only [h1, massDTdt, sub_self, zero_div]
      exact (zero _ _).symm
  obtain ⟨k1, k2⟩ := key spec Tr hch
  refine ⟨k1, fun a => ?_⟩
  simp only [Loop.hot, k2, hout, reservoirRate, sub_self, mul_zero]
  exact (zero _ _).symm

/-- C94.  Converged loops with any positive heats exist, for every geometry and every number of nodes: the hypotheses of
`C94_first_law` are met. -/
theorem C94_exists (p : Plate) (d mdot : ℝ) (x : Exchanger m) (mass : ℝ) (hm : 0 < mdot) (hc : 0 < p.cp) (hU : 0 < p.UA)
    (hair : ∀ a b, x.air a = x.air b) (hK : ∀ a, 0 < x.conductance p.cp (fun _ => mdot) a)
    (specs : List (ℝ × ℝ × ℝ)) :
    ∃ l : Loop m, l.Converged M ∧ l.duration = d ∧ l.mass = mass ∧ l.plate = p ∧ (∀ a, l.mdot a = mdot) ∧
      l.sinks.map (fun s => (s.mass, s.cp, s.heat)) = specs.map fun s => (s.1, s.2.1, fun _ => s.2.2) := by
  have hKc : ∀ a b, x.conductance p.cp (fun _ => mdot) a = x.conductance p.cp (fun _ => mdot) b := by
    intro a b
    unfold Exchanger.conductance Exchanger.heat
    simp only [hair a b]
  set qs := specs.map fun s => s.2.2 with hqs
  set Thot := (x.air 0).T + qs.sum / x.conductance p.cp (fun _ => mdot) 0 with hThot
  set Tr := Thot - qs.sum / (mdot * p.cp) with hTr
  have len : ∀ (l : List ℝ) (T : ℝ), (steadyTemps p mdot l T).length = l.length := by
    intro l
    induction l with
    | nil => intro T; rfl
    | cons q l ih => intro T; simp [steadyTemps, ih]
  set spec : List (ℝ × ℝ × ℝ × ℝ) :=
    (specs.zip (steadyTemps p mdot qs Tr)).map fun s => (s.1.1, s.1.2.1, s.1.2.2, s.2) with hspec
  have l1 : specs.length = (steadyTemps p mdot qs Tr).length := by rw [len, hqs, List.length_map]
  have e1 : (spec.map fun s => s.2.2.1) = qs := by
    rw [hspec, List.map_map, hqs]
    have : ((fun s : ℝ × ℝ × ℝ × ℝ => s.2.2.1) ∘ fun s : (ℝ × ℝ × ℝ) × ℝ => (s.1.1, s.1.2.1, s.1.2.2, s.2))
        = (fun s : ℝ × ℝ × ℝ => s.2.2) ∘ Prod.fst := rfl
    rw [this, ← List.map_map, List.map_fst_zip l1.le]
  have e2 : (spec.map fun s => s.2.2.2) = steadyTemps p mdot qs Tr := by
    rw [hspec, List.map_map]
    have : ((fun s : ℝ × ℝ × ℝ × ℝ => s.2.2.2) ∘ fun s : (ℝ × ℝ × ℝ) × ℝ => (s.1.1, s.1.2.1, s.1.2.2, s.2)) = Prod.snd := rfl
    rw [this, List.map_snd_zip l1.ge]
  have st : ∀ a, steadyChain p mdot qs (steadyTemps p mdot qs Tr) Tr Thot ∧
      x.out p.cp (fun _ => mdot) (fun _ => Thot) a = Tr := by
    intro a
    refine (C94_steady x p (fun _ => mdot) a hm hc hU (hK a) qs _ Tr Thot).2 ⟨?_, hTr, rfl⟩
    rw [hThot, hair a 0, hKc a 0]
  refine ⟨_, C94_steady_converged p d mdot x mass Tr Thot spec (by rw [e1, e2]; exact (st 0).1) fun a => (st a).2, rfl, rfl,
    rfl, fun _ => rfl, ?_⟩
  simp only [hspec, List.map_map]
  have : ((fun s : Sink m => (s.mass, s.cp, s.heat)) ∘
      (fun s : ℝ × ℝ × ℝ × ℝ => (⟨s.1, s.2.1, s.2.2.2, fun _ => s.2.2.1, fun _ => s.2.2.2⟩ : Sink m)) ∘
      fun s : (ℝ × ℝ × ℝ) × ℝ => (s.1.1, s.1.2.1, s.1.2.2, s.2))
      = (fun s : ℝ × ℝ × ℝ => (s.1, s.2.1, fun _ : Fin (m + 1) => s.2.2)) ∘ Prod.fst := rfl
  rw [this, ← List.map_map, List.map_fst_zip l1.le]

/-- battery (2000 kg, 3 kW) and motors (50 kg, 12 kW) behind each other, five nodes -/
example (x : Exchanger 4) (hair : ∀ a b, x.air a = x.air b) (hK : ∀ a, 0 < x.conductance 3801 (fun _ => 0.1) a) :
    ∃ l : Loop 4, l.Converged (simpsonTri 4) ∧ l.sinks.length = 2 ∧ ∀ a, l.stored a = integratorCompute (simpsonTri 4) 0
      (.duration 600) (fun b => (l.sinks.map fun s => s.heat b).sum - l.rejected b) a := by
  obtain ⟨l, h1, h2, h3, h4, h5, h6⟩ := C94_exists (M := simpsonTri 4) ⟨0.405, 7.54, 3801, 0.001, 0.02, 0.2, 50⟩ 600 0.1 x 10
    (by norm_num) (by norm_num) (by norm_num [Plate.UA, Plate.area, Plate.dh]) hair hK
    [(2000, 921, 3000), (50, 921, 12000)]
  have hlen : l.sinks.length = 2 := by simpa using congrArg List.length h6
  refine ⟨l, h1, hlen, fun a => ?_⟩
  rw [C94_first_law l h1 (fun a => by rw [h5]; norm_num) (by rw [h4]; norm_num) (by rw [h3]; norm_num) (fun s hs => ?_) a,
    h2]
  have hmem : (s.mass, s.cp, s.heat) ∈ l.sinks.map (fun s => (s.mass, s.cp, s.heat)) :=
    List.mem_map.2 ⟨s, hs, rfl⟩
  rw [h6] at hmem
  simp only [List.map_cons, List.map_nil, List.mem_cons, Prod.mk.injEq, List.not_mem_nil, or_false] at hmem
  rcases hmem with ⟨a1, a2, _⟩ | ⟨a1, a2, _⟩ <;> rw [a1, a2] <;> norm_num

end Verif.ElectricThermal
