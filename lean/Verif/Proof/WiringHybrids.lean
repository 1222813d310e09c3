import Verif.Proof.WiringAirplanes2
import Verif.Model.WiringHybrids
import Lean.Elab.Tactic.ElabTerm

/-! Where the variables of the thermally managed hybrid twins are found (evaluated tables). -/

namespace Verif.Wiring

open Lean Lean.Meta Lean.Elab.Tactic in
/-- `decide +kernel` for a goal with variables on which its truth value does not depend -/
elab "kdecide" : tactic => withMainContext do
  let g ← getMainGoal
  let p ← instantiateMVars (← g.getType)
  let s ← mkDecide p
  g.assign (mkApp3 (mkConst ``of_decide_eq_true) p s.appArg! (mkApp2 (mkConst ``Eq.refl [1]) (mkConst ``Bool) (mkConst ``Bool.true)))

/-- a search tree of numbers -/
inductive Tree
  | leaf
  | node (l : Tree) (v : ℕ) (r : Tree)

/-- is the number found -/
def Tree.has (k : ℕ) : Tree → Bool
  | .leaf => false
  | .node l v r => bif k.beq v then true else bif k.ble v then l.has k else r.has k

/-- add a number -/
def Tree.add (k : ℕ) : Tree → Tree
  | .leaf => .node .leaf k .leaf
  | .node l v r => bif k.ble v then .node (l.add k) v r else .node l v (r.add k)

theorem Tree.has_add (k j : ℕ) (t : Tree) (h : t.has j = true ∨ k = j) : (t.add k).has j = true := by
  induction t with
  | leaf =>
    rcases h with h | rfl
    · simp [has] at h
    · simp [has, add]
  | node l v r hl hr =>
    simp only [add]
    simp only [has] at h
    by_cases hk : k.ble v = true
    · simp only [hk, cond_true, has]
      by_cases hj : j.beq v = true
      · simp [hj]
      · simp only [hj, cond_false] at h ⊢
        by_cases hb : j.ble v = true
        · simp only [hb, cond_true] at h ⊢
          exact hl h
        · simp only [hb, cond_false] at h ⊢
          rcases h with h | rfl
          · exact h
          · exact absurd hk hb
    · simp only [hk, cond_false, has]
      by_cases hj : j.beq v = true
      · simp [hj]
      · simp only [hj, cond_false] at h ⊢
        by_cases hb : j.ble v = true
        · simp only [hb, cond_true] at h ⊢
          rcases h with h | rfl
          · exact h
          · exact absurd hb hk
        · simp only [hb, cond_false] at h ⊢
          exact hr h

/-- no number occurs twice, nor in the tree -/
def noClash : List ℕ → Tree → Bool
  | [], _ => true
  | k :: l, t => bif t.has k then false else noClash l (t.add k)

theorem noClash_nodup (l : List ℕ) (t : Tree) (h : noClash l t = true) : l.Nodup ∧ ∀ k ∈ l, t.has k = false := by
  induction l generalizing t with
  | nil => simp
  | cons a l ih =>
    simp only [noClash] at h
    by_cases ha : t.has a = true
    · simp [ha] at h
    · simp only [ha, cond_false] at h
      obtain ⟨h1, h2⟩ := ih _ h
      refine ⟨List.nodup_cons.2 ⟨fun hm => ?_, h1⟩, ?_⟩
      · have := h2 a hm
        rw [Tree.has_add a a t (.inr rfl)] at this
        cases this
      · intro k hk
        rcases List.mem_cons.1 hk with rfl | hk
        · simpa using ha
        · have := h2 k hk
          by_contra hc
          rw [Tree.has_add a k t (.inl (by simpa using hc))] at this
          cases this

/-- a number for a pair of strings, not the same for most pairs -/
def pairKey (p : String × String) : ℕ := Nat.mod (Nat.add (Nat.mul (key p.1) 31) (key p.2)) 1000000007

theorem tree_nodup {l : List (String × String)} (h : noClash (l.map pairKey) .leaf = true) : l.Nodup :=
  (noClash_nodup _ _ h).1.of_map

set_option maxRecDepth 10000

set_option maxHeartbeats 2000000 in
theorem passiveTwinGrp_eval (flight : Bool) (cd0 : String) (h : cd0 ∈ ["ac|aero|polar|CD0_TO", "ac|aero|polar|CD0_cruise"]) :
    (passiveTwinGrp flight cd0).links =
    [⟨"controls", "proprpm", "proprpm", "rpm", "rpm"⟩,
     ⟨"controls", "ac|propulsion|thermal|hx|mdot_coolant", "ac|propulsion|thermal|hx|mdot_coolant", "kg/s", "kg/s"⟩,
     ⟨"controls", "hybridization", "hybridization", "", ""⟩, ⟨"hybrid_factor", "vec", "hybrid_factor.vec", "", ""⟩,
     ⟨"hybrid_factor", "start_val", "hybridization", "", ""⟩, ⟨"hybrid_factor", "end_val", "hybridization", "", ""⟩,
     ⟨"propmodel", "eng_rating", "propmodel.eng_rating", "kW", "kW"⟩,
     ⟨"propmodel", "prop_diameter", "propmodel.prop_diameter", "m", "m"⟩,
     ⟨"propmodel", "motor_rating", "propmodel.motor_rating", "kW", "kW"⟩,
     ⟨"propmodel", "gen_rating", "propmodel.gen_rating", "kW", "kW"⟩,
     ⟨"propmodel", "batt_weight", "propmodel.batt_weight", "kg", "kg"⟩,
     ⟨"propmodel", "mdot_coolant", "propmodel.mdot_coolant", "kg/s", "kg/s"⟩,
     ⟨"propmodel", "coolant_mass", "propmodel.coolant_mass", "kg", "kg"⟩,
     ⟨"propmodel", "channel_width", "propmodel.channel_width", "mm", "mm"⟩,
     ⟨"propmodel", "channel_height", "propmodel.channel_height", "mm", "mm"⟩,
     ⟨"propmodel", "channel_length", "propmodel.channel_length", "m", "m"⟩,
     ⟨"propmodel", "n_parallel", "propmodel.n_parallel", "", ""⟩,
     ⟨"propmodel", "specific_energy", "propmodel.specific_energy", "W*h/kg", "W*h/kg"⟩,
     ⟨"propmodel", "motor1.shaft_power_out", "propmodel.motor1.shaft_power_out", "W", "W"⟩,
     ⟨"propmodel", "motor1.heat_out", "propmodel.motor1.heat_out", "W", "W"⟩,
     ⟨"propmodel", "motor1.elec_load", "propmodel.motor1.elec_load", "W", "W"⟩,
     ⟨"propmodel", "motor1.component_cost", "propmodel.motor1.component_cost", "USD", "USD"⟩,
     ⟨"propmodel", "motor1.component_weight", "propmodel.motor1.component_weight", "kg", "kg"⟩,
     ⟨"propmodel", "motor1.component_sizing_margin", "propmodel.motor1.component_sizing_margin", "", ""⟩,
     ⟨"propmodel", "prop1.cp", "propmodel.prop1.cp", "", ""⟩, ⟨"propmodel", "prop1.J", "propmodel.prop1.J", "", ""⟩,
     ⟨"propmodel", "prop1.prop_Vtip", "propmodel.prop1.prop_Vtip", "", ""⟩,
     ⟨"propmodel", "prop1.eta_prop", "propmodel.prop1.eta_prop", "", ""⟩,
     ⟨"propmodel", "prop1.ct_over_cp", "propmodel.prop1.ct_over_cp", "", ""⟩,
     ⟨"propmodel", "prop1.thrust", "propmodel.prop1.thrust", "N", "N"⟩,
     ⟨"propmodel", "prop1.component_weight", "propmodel.prop1.component_weight", "lb", "lb"⟩,
     ⟨"propmodel", "failedmotor.motor2throttle", "propmodel.failedmotor.motor2throttle", "", ""⟩,
     ⟨"propmodel", "motor2.shaft_power_out", "propmodel.motor2.shaft_power_out", "W", "W"⟩,
     ⟨"propmodel", "motor2.heat_out", "propmodel.motor2.heat_out", "W", "W"⟩,
     ⟨"propmodel", "motor2.elec_load", "propmodel.motor2.elec_load", "W", "W"⟩,
     ⟨"propmodel", "motor2.component_cost", "propmodel.motor2.component_cost", "USD", "USD"⟩,
     ⟨"propmodel", "motor2.component_weight", "propmodel.motor2.component_weight", "kg", "kg"⟩,
     ⟨"propmodel", "motor2.component_sizing_margin", "propmodel.motor2.component_sizing_margin", "", ""⟩,
     ⟨"propmodel", "prop2.cp", "propmodel.prop2.cp", "", ""⟩, ⟨"propmodel", "prop2.J", "propmodel.prop2.J", "", ""⟩,
     ⟨"propmodel", "prop2.prop_Vtip", "propmodel.prop2.prop_Vtip", "", ""⟩,
     ⟨"propmodel", "prop2.eta_prop", "propmodel.prop2.eta_prop", "", ""⟩,
     ⟨"propmodel", "prop2.ct_over_cp", "propmodel.prop2.ct_over_cp", "", ""⟩,
     ⟨"propmodel", "prop2.thrust", "propmodel.prop2.thrust", "N", "N"⟩,
     ⟨"propmodel", "prop2.component_weight", "propmodel.prop2.component_weight", "lb", "lb"⟩,
     ⟨"propmodel", "motors_elec_load", "propmodel.motors_elec_load", "kW", "kW"⟩,
     ⟨"propmodel", "thrust", "thrust", "N", "N"⟩,
     ⟨"propmodel", "hybrid_split.power_out_A", "propmodel.hybrid_split.power_out_A", "W", "W"⟩,
     ⟨"propmodel", "hybrid_split.power_out_B", "propmodel.hybrid_split.power_out_B", "W", "W"⟩,
     ⟨"propmodel", "hybrid_split.heat_out", "propmodel.hybrid_split.heat_out", "W", "W"⟩,
     ⟨"propmodel", "hybrid_split.component_cost", "propmodel.hybrid_split.component_cost", "USD", "USD"⟩,
     ⟨"propmodel", "hybrid_split.component_weight", "propmodel.hybrid_split.component_weight", "kg", "kg"⟩,
     ⟨"propmodel", "hybrid_split.component_sizing_margin", "propmodel.hybrid_split.component_sizing_margin", "", ""⟩,
     ⟨"propmodel", "eng1.shaft_power_out", "propmodel.eng1.shaft_power_out", "W", "W"⟩,
     ⟨"propmodel", "fuel_flow", "fuel_flow", "kg/s", "kg/s"⟩,
     ⟨"propmodel", "eng1.component_cost", "propmodel.eng1.component_cost", "USD", "USD"⟩,
     ⟨"propmodel", "eng1.component_weight", "propmodel.eng1.component_weight", "kg", "kg"⟩,
     ⟨"propmodel", "eng1.component_sizing_margin", "propmodel.eng1.component_sizing_margin", "", ""⟩,
     ⟨"propmodel", "gen1.elec_power_out", "propmodel.gen1.elec_power_out", "W", "W"⟩,
     ⟨"propmodel", "gen1.heat_out", "propmodel.gen1.heat_out", "W", "W"⟩,
     ⟨"propmodel", "gen1.component_cost", "propmodel.gen1.component_cost", "USD", "USD"⟩,
     ⟨"propmodel", "gen1.component_weight", "propmodel.gen1.component_weight", "kg", "kg"⟩,
     ⟨"propmodel", "gen1.component_sizing_margin", "propmodel.gen1.component_sizing_margin", "", ""⟩,
     ⟨"propmodel", "batt1.heat_out", "propmodel.batt1.heat_out", "W", "W"⟩,
     ⟨"propmodel", "batt1.component_cost", "propmodel.batt1.component_cost", "USD", "USD"⟩,
     ⟨"propmodel", "batt1.component_sizing_margin", "propmodel.batt1.component_sizing_margin", "", ""⟩,
     ⟨"propmodel", "batt1.max_energy", "propmodel.batt1.max_energy", "W*h", "W*h"⟩,
     ⟨"propmodel", "batt1.dSOCdt", "propmodel.batt1.dSOCdt", "W / (kJ) ", "W / (kJ) "⟩,
     ⟨"propmodel", "batt1.SOC_final", "propmodel.batt1.SOC_final", "", ""⟩,
     ⟨"propmodel", "batt1.SOC", "propmodel.batt1.SOC", "", ""⟩,
     ⟨"propmodel", "eng_throttle_set.eng_throttle", "propmodel.eng_throttle_set.eng_throttle", "", ""⟩,
     ⟨"propmodel", "battery_load", "propmodel.battery_load", "kW", "kW"⟩,
     ⟨"propmodel", "motors_weight", "propmodel.motors_weight", "kg", "kg"⟩,
     ⟨"propmodel", "propellers_weight", "propmodel.propellers_weight", "kg", "kg"⟩,
     ⟨"propmodel", "motors_heat", "propmodel.motors_heat", "W", "W"⟩,
     ⟨"propmodel", "batteryheatsink.base.dTdt", "propmodel.batteryheatsink.base.dTdt", "K/s", "K/s"⟩,
     ⟨"propmodel", "batteryheatsink.T_final", "propmodel.batteryheatsink.T_final", "K", "K"⟩,
     ⟨"propmodel", "batteryheatsink.T", "propmodel.batteryheatsink.T", "K", "K"⟩,
     ⟨"propmodel", "batteryheatsink.hex.q", "propmodel.batteryheatsink.hex.q", "W", "W"⟩,
     ⟨"propmodel", "batteryheatsink.T_out", "propmodel.batteryheatsink.T_out", "K", "K"⟩,
     ⟨"propmodel", "motorheatsink.base.dTdt", "propmodel.motorheatsink.base.dTdt", "K/s", "K/s"⟩,
     ⟨"propmodel", "motorheatsink.T_final", "propmodel.motorheatsink.T_final", "K", "K"⟩,
     ⟨"propmodel", "motorheatsink.T", "propmodel.motorheatsink.T", "K", "K"⟩,
     ⟨"propmodel", "motorheatsink.hex.q", "propmodel.motorheatsink.hex.q", "W", "W"⟩,
     ⟨"propmodel", "motorheatsink.T_out", "propmodel.motorheatsink.T_out", "K", "K"⟩,
     ⟨"propmodel", "duct.mdot", "propmodel.duct.mdot", "kg/s", "kg/s"⟩,
     ⟨"propmodel", "duct.drag", "propmodel.duct.drag", "N", "N"⟩,
     ⟨"propmodel", "hx.n_wide_cold", "propmodel.hx.n_wide_cold", "", ""⟩,
     ⟨"propmodel", "hx.n_long_cold", "propmodel.hx.n_long_cold", "", ""⟩,
     ⟨"propmodel", "hx.n_tall", "propmodel.hx.n_tall", "", ""⟩,
     ⟨"propmodel", "hx.component_weight", "propmodel.hx.component_weight", "kg", "kg"⟩,
     ⟨"propmodel", "hx.length_overall", "propmodel.hx.length_overall", "m", "m"⟩,
     ⟨"propmodel", "hx.height_overall", "propmodel.hx.height_overall", "m", "m"⟩,
     ⟨"propmodel", "hx.width_overall", "propmodel.hx.width_overall", "m", "m"⟩,
     ⟨"propmodel", "hx.frontal_area", "propmodel.hx.frontal_area", "m**2", "m**2"⟩,
     ⟨"propmodel", "hx.xs_area_cold", "propmodel.hx.xs_area_cold", "m**2", "m**2"⟩,
     ⟨"propmodel", "hx.heat_transfer_area_cold", "propmodel.hx.heat_transfer_area_cold", "m**2", "m**2"⟩,
     ⟨"propmodel", "hx.dh_cold", "propmodel.hx.dh_cold", "m", "m"⟩,
     ⟨"propmodel", "hx.fin_area_ratio_cold", "propmodel.hx.fin_area_ratio_cold", "", ""⟩,
     ⟨"propmodel", "hx.contraction_ratio_cold", "propmodel.hx.contraction_ratio_cold", "", ""⟩,
     ⟨"propmodel", "hx.alpha_cold", "propmodel.hx.alpha_cold", "", ""⟩,
     ⟨"propmodel", "hx.delta_cold", "propmodel.hx.delta_cold", "", ""⟩,
     ⟨"propmodel", "hx.gamma_cold", "propmodel.hx.gamma_cold", "", ""⟩,
     ⟨"propmodel", "hx.xs_area_hot", "propmodel.hx.xs_area_hot", "m**2", "m**2"⟩,
     ⟨"propmodel", "hx.heat_transfer_area_hot", "propmodel.hx.heat_transfer_area_hot", "m**2", "m**2"⟩,
     ⟨"propmodel", "hx.dh_hot", "propmodel.hx.dh_hot", "m", "m"⟩,
     ⟨"propmodel", "hx.fin_area_ratio_hot", "propmodel.hx.fin_area_ratio_hot", "", ""⟩,
     ⟨"propmodel", "hx.contraction_ratio_hot", "propmodel.hx.contraction_ratio_hot", "", ""⟩,
     ⟨"propmodel", "hx.alpha_hot", "propmodel.hx.alpha_hot", "", ""⟩,
     ⟨"propmodel", "hx.delta_hot", "propmodel.hx.delta_hot", "", ""⟩,
     ⟨"propmodel", "hx.gamma_hot", "propmodel.hx.gamma_hot", "", ""⟩,
     ⟨"propmodel", "hx.Re_dh_cold", "propmodel.hx.Re_dh_cold", "", ""⟩,
     ⟨"propmodel", "hx.Re_dh_hot", "propmodel.hx.Re_dh_hot", "", ""⟩,
     ⟨"propmodel", "hx.j_cold", "propmodel.hx.j_cold", "", ""⟩, ⟨"propmodel", "hx.f_cold", "propmodel.hx.f_cold", "", ""⟩,
     ⟨"propmodel", "hx.j_hot", "propmodel.hx.j_hot", "", ""⟩, ⟨"propmodel", "hx.f_hot", "propmodel.hx.f_hot", "", ""⟩,
     ⟨"propmodel", "hx.Nu_dh_cold", "propmodel.hx.Nu_dh_cold", "", ""⟩,
     ⟨"propmodel", "hx.Nu_dh_hot", "propmodel.hx.Nu_dh_hot", "", ""⟩,
     ⟨"propmodel", "hx.h_conv_cold", "propmodel.hx.h_conv_cold", "W/m**2/K", "W/m**2/K"⟩,
     ⟨"propmodel", "hx.h_conv_hot", "propmodel.hx.h_conv_hot", "W/m**2/K", "W/m**2/K"⟩,
     ⟨"propmodel", "hx.eta_overall_cold", "propmodel.hx.eta_overall_cold", "", ""⟩,
     ⟨"propmodel", "hx.eta_overall_hot", "propmodel.hx.eta_overall_hot", "", ""⟩,
     ⟨"propmodel", "hx.UA_overall", "propmodel.hx.UA_overall", "W/K", "W/K"⟩,
     ⟨"propmodel", "hx.NTU", "propmodel.hx.NTU", "", ""⟩, ⟨"propmodel", "hx.heat_max", "propmodel.hx.heat_max", "W", "W"⟩,
     ⟨"propmodel", "hx.C_ratio", "propmodel.hx.C_ratio", "", ""⟩,
     ⟨"propmodel", "hx.effectiveness", "propmodel.hx.effectiveness", "", ""⟩,
     ⟨"propmodel", "hx.heat_transfer", "propmodel.hx.heat_transfer", "W", "W"⟩,
     ⟨"propmodel", "hx.T_out_cold", "propmodel.hx.T_out_cold", "K", "K"⟩,
     ⟨"propmodel", "hx.T_out_hot", "propmodel.hx.T_out_hot", "K", "K"⟩,
     ⟨"propmodel", "hx.delta_p_cold", "propmodel.hx.delta_p_cold", "Pa", "Pa"⟩,
     ⟨"propmodel", "hx.delta_p_hot", "propmodel.hx.delta_p_hot", "Pa", "Pa"⟩,
     ⟨"propmodel", "rho_coolant", "propmodel.rho_coolant", "kg/m**3", "kg/m**3"⟩,
     ⟨"propmodel", "ac|propulsion|thermal|duct|area_nozzle", "ac|propulsion|thermal|duct|area_nozzle", "inch**2", "inch**2"⟩,
     ⟨"propmodel", "reservoir.rate.dTdt", "propmodel.reservoir.rate.dTdt", "K/s", "K/s"⟩,
     ⟨"propmodel", "reservoir.T_final", "propmodel.reservoir.T_final", "K", "K"⟩,
     ⟨"propmodel", "reservoir.T_out", "propmodel.reservoir.T_out", "K", "K"⟩,
     ⟨"propmodel", "ac|propulsion|engine|rating", "ac|propulsion|engine|rating", "kW", "kW"⟩,
     ⟨"propmodel", "ac|propulsion|propeller|diameter", "ac|propulsion|propeller|diameter", "m", "m"⟩,
     ⟨"propmodel", "ac|propulsion|motor|rating", "ac|propulsion|motor|rating", "kW", "kW"⟩,
     ⟨"propmodel", "ac|propulsion|generator|rating", "ac|propulsion|generator|rating", "kW", "kW"⟩,
     ⟨"propmodel", "ac|weights|W_battery", "ac|weights|W_battery", "kg", "kg"⟩,
     ⟨"propmodel", "ac|propulsion|thermal|hx|mdot_coolant", "ac|propulsion|thermal|hx|mdot_coolant", "kg/s", "kg/s"⟩,
     ⟨"propmodel", "ac|propulsion|thermal|hx|coolant_mass", "ac|propulsion|thermal|hx|coolant_mass", "kg", "kg"⟩,
     ⟨"propmodel", "ac|propulsion|thermal|hx|channel_width", "ac|propulsion|thermal|hx|channel_width", "mm", "mm"⟩,
     ⟨"propmodel", "ac|propulsion|thermal|hx|channel_height", "ac|propulsion|thermal|hx|channel_height", "mm", "mm"⟩,
     ⟨"propmodel", "ac|propulsion|thermal|hx|channel_length", "ac|propulsion|thermal|hx|channel_length", "m", "m"⟩,
     ⟨"propmodel", "ac|propulsion|thermal|hx|n_parallel", "ac|propulsion|thermal|hx|n_parallel", "", ""⟩,
     ⟨"propmodel", "ac|propulsion|battery|specific_energy", "ac|propulsion|battery|specific_energy", "W*h/kg", "W*h/kg"⟩,
     ⟨"propmodel", "throttle", "throttle", "", ""⟩, ⟨"propmodel", "prop1.rpm", "proprpm", "rpm", "rpm"⟩,
     ⟨"propmodel", "fltcond|rho", "fltcond|rho", "kg / m ** 3", "kg / m ** 3"⟩,
     ⟨"propmodel", "fltcond|Utrue", "fltcond|Utrue", "m/s", "m/s"⟩,
     ⟨"propmodel", "propulsor_active", "propulsor_active", "", ""⟩, ⟨"propmodel", "prop2.rpm", "proprpm", "rpm", "rpm"⟩,
     ⟨"propmodel", "hybrid_split.power_rating", "propmodel.hybrid_split.power_rating", "W", "W"⟩,
     ⟨"propmodel", "hybrid_split.power_split_fraction", "hybrid_factor.vec", "", ""⟩,
     ⟨"propmodel", "duration", "duration", "s", "s"⟩,
     ⟨"propmodel", "batt1.SOC_initial", "propmodel.batt1.SOC_initial", "", ""⟩,
     ⟨"propmodel", "batteryheatsink.T_initial", "propmodel.batteryheatsink.T_initial", "K", "K"⟩,
     ⟨"propmodel", "motorheatsink.T_initial", "propmodel.motorheatsink.T_initial", "K", "K"⟩,
     ⟨"propmodel", "ac|propulsion|thermal|hx|n_wide_cold", "ac|propulsion|thermal|hx|n_wide_cold", "", ""⟩,
     ⟨"propmodel", "ac|propulsion|thermal|hx|n_long_cold", "ac|propulsion|thermal|hx|n_long_cold", "", ""⟩,
     ⟨"propmodel", "ac|propulsion|thermal|hx|n_tall", "ac|propulsion|thermal|hx|n_tall", "", ""⟩,
     ⟨"propmodel", "hx.channel_width_hot", "propmodel.hx.channel_width_hot", "mm", "mm"⟩,
     ⟨"propmodel", "hx.channel_height_hot", "propmodel.hx.channel_height_hot", "mm", "mm"⟩,
     ⟨"propmodel", "hx.fin_length_hot", "propmodel.hx.fin_length_hot", "mm", "mm"⟩,
     ⟨"propmodel", "hx.channel_width_cold", "propmodel.hx.channel_width_cold", "mm", "mm"⟩,
     ⟨"propmodel", "hx.channel_height_cold", "propmodel.hx.channel_height_cold", "mm", "mm"⟩,
     ⟨"propmodel", "hx.fin_length_cold", "propmodel.hx.fin_length_cold", "mm", "mm"⟩,
     ⟨"propmodel", "hx.fin_thickness", "propmodel.hx.fin_thickness", "mm", "mm"⟩,
     ⟨"propmodel", "hx.plate_thickness", "propmodel.hx.plate_thickness", "mm", "mm"⟩,
     ⟨"propmodel", "hx.case_thickness", "propmodel.hx.case_thickness", "mm", "mm"⟩,
     ⟨"propmodel", "hx.material_rho", "propmodel.hx.material_rho", "kg/m**3", "kg/m**3"⟩,
     ⟨"propmodel", "hx.mu_cold", "propmodel.hx.mu_cold", "kg/m/s", "kg/m/s"⟩,
     ⟨"propmodel", "hx.mu_hot", "propmodel.hx.mu_hot", "kg/m/s", "kg/m/s"⟩,
     ⟨"propmodel", "hx.k_cold", "propmodel.hx.k_cold", "W/m/K", "W/m/K"⟩,
     ⟨"propmodel", "hx.cp_cold", "propmodel.hx.cp_cold", "J/kg/K", "J/kg/K"⟩,
     ⟨"propmodel", "hx.k_hot", "propmodel.hx.k_hot", "W/m/K", "W/m/K"⟩,
     ⟨"propmodel", "hx.cp_hot", "propmodel.hx.cp_hot", "J/kg/K", "J/kg/K"⟩,
     ⟨"propmodel", "hx.material_k", "propmodel.hx.material_k", "W/m/K", "W/m/K"⟩,
     ⟨"propmodel", "fltcond|T", "fltcond|T", "K", "K"⟩,
     ⟨"propmodel", "reservoir.T_initial", "propmodel.reservoir.T_initial", "K", "K"⟩,
     ⟨"drag", "drag", "drag.drag", "N", "N"⟩, ⟨"drag", "fltcond|CL", "fltcond|CL", "", ""⟩,
     ⟨"drag", "fltcond|q", "fltcond|q", "N * m**-2", "N * m**-2"⟩,
     ⟨"drag", "ac|geom|wing|S_ref", "ac|geom|wing|S_ref", "m **2", "m **2"⟩, ⟨"drag", "CD0", cd0, "", ""⟩,
     ⟨"drag", "e", "ac|aero|polar|e", "", ""⟩, ⟨"drag", "ac|geom|wing|AR", "ac|geom|wing|AR", "", ""⟩,
     ⟨"OEW", "W_fluids", "OEW.W_fluids", "kg", "kg"⟩, ⟨"OEW", "structural_fudge", "OEW.structural_fudge", "m/m", "m/m"⟩,
     ⟨"OEW", "W_wing", "OEW.W_wing", "lb", "lb"⟩, ⟨"OEW", "W_empennage", "OEW.W_empennage", "lb", "lb"⟩,
     ⟨"OEW", "W_fuselage", "OEW.W_fuselage", "lb", "lb"⟩, ⟨"OEW", "W_nacelle", "OEW.W_nacelle", "lb", "lb"⟩,
     ⟨"OEW", "W_gear", "OEW.W_gear", "lb", "lb"⟩, ⟨"OEW", "W_fuelsystem", "OEW.W_fuelsystem", "lb", "lb"⟩,
     ⟨"OEW", "W_equipment", "OEW.W_equipment", "lb", "lb"⟩, ⟨"OEW", "W_structure", "OEW.W_structure", "lb", "lb"⟩,
     ⟨"OEW", "W_structure_adjusted", "OEW.W_structure_adjusted", "lb * (m/m) ", "lb * (m/m) "⟩,
     ⟨"OEW", "OEW", "OEW.OEW", "lb", "lb"⟩, ⟨"OEW", "ac|weights|MTOW", "ac|weights|MTOW", "lb", "lb"⟩,
     ⟨"OEW", "ac|weights|W_fuel_max", "ac|weights|W_fuel_max", "lb", "lb"⟩,
     ⟨"OEW", "ac|geom|wing|S_ref", "ac|geom|wing|S_ref", "m **2", "ft**2"⟩,
     ⟨"OEW", "ac|geom|wing|AR", "ac|geom|wing|AR", "", ""⟩,
     ⟨"OEW", "ac|geom|wing|c4sweep", "ac|geom|wing|c4sweep", "rad", "rad"⟩,
     ⟨"OEW", "ac|geom|wing|taper", "ac|geom|wing|taper", "", ""⟩,
     ⟨"OEW", "ac|geom|wing|toverc", "ac|geom|wing|toverc", "", ""⟩,
     ⟨"OEW", "ac|q_cruise", "ac|q_cruise", "lb*ft**-2", "lb*ft**-2"⟩,
     ⟨"OEW", "ac|geom|hstab|S_ref", "ac|geom|hstab|S_ref", "ft**2", "ft**2"⟩,
     ⟨"OEW", "ac|geom|vstab|S_ref", "ac|geom|vstab|S_ref", "ft**2", "ft**2"⟩,
     ⟨"OEW", "ac|geom|fuselage|length", "ac|geom|fuselage|length", "ft", "ft"⟩,
     ⟨"OEW", "ac|geom|fuselage|height", "ac|geom|fuselage|height", "ft", "ft"⟩,
     ⟨"OEW", "ac|geom|fuselage|width", "ac|geom|fuselage|width", "ft", "ft"⟩,
     ⟨"OEW", "ac|geom|fuselage|S_wet", "ac|geom|fuselage|S_wet", "ft**2", "ft**2"⟩,
     ⟨"OEW", "ac|geom|hstab|c4_to_wing_c4", "ac|geom|hstab|c4_to_wing_c4", "ft", "ft"⟩,
     ⟨"OEW", "P_TO", "ac|propulsion|engine|rating", "kW", "hp"⟩, ⟨"OEW", "ac|weights|MLW", "ac|weights|MLW", "lb", "lb"⟩,
     ⟨"OEW", "ac|geom|maingear|length", "ac|geom|maingear|length", "ft", "ft"⟩,
     ⟨"OEW", "ac|geom|nosegear|length", "ac|geom|nosegear|length", "ft", "ft"⟩,
     ⟨"OEW", "ac|num_passengers_max", "ac|num_passengers_max", "", ""⟩,
     ⟨"OEW", "W_engine", "propmodel.eng1.component_weight", "kg", "lb"⟩,
     ⟨"OEW", "W_motors", "propmodel.motors_weight", "kg", "lb"⟩,
     ⟨"OEW", "W_generator", "propmodel.gen1.component_weight", "kg", "lb"⟩,
     ⟨"OEW", "W_propeller", "propmodel.propellers_weight", "kg", "lb"⟩, ⟨"hxadder", "OEW", "OEW", "kg", "kg"⟩,
     ⟨"hxadder", "drag", "drag", "N", "N"⟩, ⟨"hxadder", "area_constraint", "hxadder.area_constraint", "m**2", "m**2"⟩,
     ⟨"hxadder", "OEW_orig", "OEW.OEW", "lb", "kg"⟩, ⟨"hxadder", "W_hx", "propmodel.hx.component_weight", "kg", "kg"⟩,
     ⟨"hxadder", "W_coolant", "ac|propulsion|thermal|hx|coolant_mass", "kg", "kg"⟩,
     ⟨"hxadder", "drag_orig", "drag.drag", "N", "N"⟩, ⟨"hxadder", "drag_hx", "propmodel.duct.drag", "N", "N"⟩,
     ⟨"hxadder", "hx_frontal_area", "propmodel.hx.frontal_area", "m**2", "m**2"⟩,
     ⟨"hxadder", "nozzle_area", "nozzle_area.max", "m**2", "m**2"⟩,
     ⟨"nozzle_area", "max", "nozzle_area.max", "m**2", "m**2"⟩,
     ⟨"nozzle_area", "array", "ac|propulsion|thermal|duct|area_nozzle", "inch**2", "m**2"⟩,
     ⟨"intfuel", "fuel_used_final", "fuel_used_final", "kg", "kg"⟩, ⟨"intfuel", "fuel_used", "fuel_used", "kg", "kg"⟩,
     ⟨"intfuel", "duration", "duration", "s", "s"⟩, ⟨"intfuel", "fuel_flow", "fuel_flow", "kg/s", "(kg) / (s)"⟩,
     ⟨"intfuel", "fuel_used_initial", "fuel_used_initial", "kg", "kg"⟩, ⟨"weight", "weight", "weight", "kg", "kg"⟩,
     ⟨"weight", "ac|weights|MTOW", "ac|weights|MTOW", "lb", "kg"⟩, ⟨"weight", "fuel_used", "fuel_used", "kg", "kg"⟩] ∧
    (["ac|weights|MTOW", "ac|geom|wing|S_ref", "ac|geom|wing|AR", "ac|aero|polar|e", cd0].all fun n => ((passiveTwinGrp flight cd0).ins ++ (passiveTwinGrp flight cd0).outs).any fun v =>
      @decide (v.name = n) (fastString _ _) && !v.vec) = true := by
  simp only [List.mem_cons, List.not_mem_nil, or_false] at h
  rcases h with rfl | rfl <;> kdecide

set_option maxHeartbeats 2000000 in
theorem activeTwinGrp_eval (flight : Bool) (cd0 : String) (h : cd0 ∈ ["ac|aero|polar|CD0_TO", "ac|aero|polar|CD0_cruise"]) :
    (activeTwinGrp flight cd0).links =
    [⟨"controls", "proprpm", "proprpm", "rpm", "rpm"⟩,
     ⟨"controls", "ac|propulsion|thermal|hx|mdot_coolant", "ac|propulsion|thermal|hx|mdot_coolant", "kg/s", "kg/s"⟩,
     ⟨"controls", "hybridization", "hybridization", "", ""⟩, ⟨"hybrid_factor", "vec", "hybrid_factor.vec", "", ""⟩,
     ⟨"hybrid_factor", "start_val", "hybridization", "", ""⟩, ⟨"hybrid_factor", "end_val", "hybridization", "", ""⟩,
     ⟨"propmodel", "eng_rating", "propmodel.eng_rating", "kW", "kW"⟩,
     ⟨"propmodel", "prop_diameter", "propmodel.prop_diameter", "m", "m"⟩,
     ⟨"propmodel", "motor_rating", "propmodel.motor_rating", "kW", "kW"⟩,
     ⟨"propmodel", "gen_rating", "propmodel.gen_rating", "kW", "kW"⟩,
     ⟨"propmodel", "batt_weight", "propmodel.batt_weight", "kg", "kg"⟩,
     ⟨"propmodel", "refrig_rating", "propmodel.refrig_rating", "kW", "kW"⟩,
     ⟨"propmodel", "refrig_spec_pow", "propmodel.refrig_spec_pow", "W/kg", "W/kg"⟩,
     ⟨"propmodel", "refrig_eff_factor", "propmodel.refrig_eff_factor", "", ""⟩,
     ⟨"propmodel", "mdot_coolant", "propmodel.mdot_coolant", "kg/s", "kg/s"⟩,
     ⟨"propmodel", "coolant_mass", "propmodel.coolant_mass", "kg", "kg"⟩,
     ⟨"propmodel", "channel_width", "propmodel.channel_width", "mm", "mm"⟩,
     ⟨"propmodel", "channel_height", "propmodel.channel_height", "mm", "mm"⟩,
     ⟨"propmodel", "channel_length", "propmodel.channel_length", "m", "m"⟩,
     ⟨"propmodel", "n_parallel", "propmodel.n_parallel", "", ""⟩,
     ⟨"propmodel", "area_nozzle", "propmodel.area_nozzle", "inch**2", "inch**2"⟩,
     ⟨"propmodel", "specific_energy", "propmodel.specific_energy", "W*h/kg", "W*h/kg"⟩,
     ⟨"propmodel", "motor1.shaft_power_out", "propmodel.motor1.shaft_power_out", "W", "W"⟩,
     ⟨"propmodel", "motor1.heat_out", "propmodel.motor1.heat_out", "W", "W"⟩,
     ⟨"propmodel", "motor1.elec_load", "propmodel.motor1.elec_load", "W", "W"⟩,
     ⟨"propmodel", "motor1.component_cost", "propmodel.motor1.component_cost", "USD", "USD"⟩,
     ⟨"propmodel", "motor1.component_weight", "propmodel.motor1.component_weight", "kg", "kg"⟩,
     ⟨"propmodel", "motor1.component_sizing_margin", "propmodel.motor1.component_sizing_margin", "", ""⟩,
     ⟨"propmodel", "prop1.cp", "propmodel.prop1.cp", "", ""⟩, ⟨"propmodel", "prop1.J", "propmodel.prop1.J", "", ""⟩,
     ⟨"propmodel", "prop1.prop_Vtip", "propmodel.prop1.prop_Vtip", "", ""⟩,
     ⟨"propmodel", "prop1.eta_prop", "propmodel.prop1.eta_prop", "", ""⟩,
     ⟨"propmodel", "prop1.ct_over_cp", "propmodel.prop1.ct_over_cp", "", ""⟩,
     ⟨"propmodel", "prop1.thrust", "propmodel.prop1.thrust", "N", "N"⟩,
     ⟨"propmodel", "prop1.component_weight", "propmodel.prop1.component_weight", "lb", "lb"⟩,
     ⟨"propmodel", "failedmotor.motor2throttle", "propmodel.failedmotor.motor2throttle", "", ""⟩,
     ⟨"propmodel", "motor2.shaft_power_out", "propmodel.motor2.shaft_power_out", "W", "W"⟩,
     ⟨"propmodel", "motor2.heat_out", "propmodel.motor2.heat_out", "W", "W"⟩,
     ⟨"propmodel", "motor2.elec_load", "propmodel.motor2.elec_load", "W", "W"⟩,
     ⟨"propmodel", "motor2.component_cost", "propmodel.motor2.component_cost", "USD", "USD"⟩,
     ⟨"propmodel", "motor2.component_weight", "propmodel.motor2.component_weight", "kg", "kg"⟩,
     ⟨"propmodel", "motor2.component_sizing_margin", "propmodel.motor2.component_sizing_margin", "", ""⟩,
     ⟨"propmodel", "prop2.cp", "propmodel.prop2.cp", "", ""⟩, ⟨"propmodel", "prop2.J", "propmodel.prop2.J", "", ""⟩,
     ⟨"propmodel", "prop2.prop_Vtip", "propmodel.prop2.prop_Vtip", "", ""⟩,
     ⟨"propmodel", "prop2.eta_prop", "propmodel.prop2.eta_prop", "", ""⟩,
     ⟨"propmodel", "prop2.ct_over_cp", "propmodel.prop2.ct_over_cp", "", ""⟩,
     ⟨"propmodel", "prop2.thrust", "propmodel.prop2.thrust", "N", "N"⟩,
     ⟨"propmodel", "prop2.component_weight", "propmodel.prop2.component_weight", "lb", "lb"⟩,
     ⟨"propmodel", "total_elec_load", "propmodel.total_elec_load", "kW", "kW"⟩, ⟨"propmodel", "thrust", "thrust", "N", "N"⟩,
     ⟨"propmodel", "hybrid_split.power_out_A", "propmodel.hybrid_split.power_out_A", "W", "W"⟩,
     ⟨"propmodel", "hybrid_split.power_out_B", "propmodel.hybrid_split.power_out_B", "W", "W"⟩,
     ⟨"propmodel", "hybrid_split.heat_out", "propmodel.hybrid_split.heat_out", "W", "W"⟩,
     ⟨"propmodel", "hybrid_split.component_cost", "propmodel.hybrid_split.component_cost", "USD", "USD"⟩,
     ⟨"propmodel", "hybrid_split.component_weight", "propmodel.hybrid_split.component_weight", "kg", "kg"⟩,
     ⟨"propmodel", "hybrid_split.component_sizing_margin", "propmodel.hybrid_split.component_sizing_margin", "", ""⟩,
     ⟨"propmodel", "eng1.shaft_power_out", "propmodel.eng1.shaft_power_out", "W", "W"⟩,
     ⟨"propmodel", "fuel_flow", "fuel_flow", "kg/s", "kg/s"⟩,
     ⟨"propmodel", "eng1.component_cost", "propmodel.eng1.component_cost", "USD", "USD"⟩,
     ⟨"propmodel", "eng1.component_weight", "propmodel.eng1.component_weight", "kg", "kg"⟩,
     ⟨"propmodel", "eng1.component_sizing_margin", "propmodel.eng1.component_sizing_margin", "", ""⟩,
     ⟨"propmodel", "gen1.elec_power_out", "propmodel.gen1.elec_power_out", "W", "W"⟩,
     ⟨"propmodel", "gen1.heat_out", "propmodel.gen1.heat_out", "W", "W"⟩,
     ⟨"propmodel", "gen1.component_cost", "propmodel.gen1.component_cost", "USD", "USD"⟩,
     ⟨"propmodel", "gen1.component_weight", "propmodel.gen1.component_weight", "kg", "kg"⟩,
     ⟨"propmodel", "gen1.component_sizing_margin", "propmodel.gen1.component_sizing_margin", "", ""⟩,
     ⟨"propmodel", "batt1.heat_out", "propmodel.batt1.heat_out", "W", "W"⟩,
     ⟨"propmodel", "batt1.component_cost", "propmodel.batt1.component_cost", "USD", "USD"⟩,
     ⟨"propmodel", "batt1.component_sizing_margin", "propmodel.batt1.component_sizing_margin", "", ""⟩,
     ⟨"propmodel", "batt1.max_energy", "propmodel.batt1.max_energy", "W*h", "W*h"⟩,
     ⟨"propmodel", "batt1.dSOCdt", "propmodel.batt1.dSOCdt", "W / (kJ) ", "W / (kJ) "⟩,
     ⟨"propmodel", "batt1.SOC_final", "propmodel.batt1.SOC_final", "", ""⟩,
     ⟨"propmodel", "batt1.SOC", "propmodel.batt1.SOC", "", ""⟩,
     ⟨"propmodel", "eng_throttle_set.eng_throttle", "propmodel.eng_throttle_set.eng_throttle", "", ""⟩,
     ⟨"propmodel", "battery_load", "propmodel.battery_load", "kW", "kW"⟩,
     ⟨"propmodel", "motors_weight", "propmodel.motors_weight", "kg", "kg"⟩,
     ⟨"propmodel", "propellers_weight", "propmodel.propellers_weight", "kg", "kg"⟩,
     ⟨"propmodel", "motors_heat", "propmodel.motors_heat", "W", "W"⟩,
     ⟨"propmodel", "batteryheatsink.base.dTdt", "propmodel.batteryheatsink.base.dTdt", "K/s", "K/s"⟩,
     ⟨"propmodel", "batteryheatsink.T_final", "propmodel.batteryheatsink.T_final", "K", "K"⟩,
     ⟨"propmodel", "batteryheatsink.T", "propmodel.batteryheatsink.T", "K", "K"⟩,
     ⟨"propmodel", "batteryheatsink.hex.q", "propmodel.batteryheatsink.hex.q", "W", "W"⟩,
     ⟨"propmodel", "batteryheatsink.T_out", "propmodel.batteryheatsink.T_out", "K", "K"⟩,
     ⟨"propmodel", "motorheatsink.base.dTdt", "propmodel.motorheatsink.base.dTdt", "K/s", "K/s"⟩,
     ⟨"propmodel", "motorheatsink.T_final", "propmodel.motorheatsink.T_final", "K", "K"⟩,
     ⟨"propmodel", "motorheatsink.T", "propmodel.motorheatsink.T", "K", "K"⟩,
     ⟨"propmodel", "motorheatsink.hex.q", "propmodel.motorheatsink.hex.q", "W", "W"⟩,
     ⟨"propmodel", "motorheatsink.T_out", "propmodel.motorheatsink.T_out", "K", "K"⟩,
     ⟨"propmodel", "duct.mdot", "propmodel.duct.mdot", "kg/s", "kg/s"⟩,
     ⟨"propmodel", "duct.drag", "propmodel.duct.drag", "N", "N"⟩,
     ⟨"propmodel", "hx.n_wide_cold", "propmodel.hx.n_wide_cold", "", ""⟩,
     ⟨"propmodel", "hx.n_long_cold", "propmodel.hx.n_long_cold", "", ""⟩,
     ⟨"propmodel", "hx.n_tall", "propmodel.hx.n_tall", "", ""⟩,
     ⟨"propmodel", "hx.component_weight", "propmodel.hx.component_weight", "kg", "kg"⟩,
     ⟨"propmodel", "hx.length_overall", "propmodel.hx.length_overall", "m", "m"⟩,
     ⟨"propmodel", "hx.height_overall", "propmodel.hx.height_overall", "m", "m"⟩,
     ⟨"propmodel", "hx.width_overall", "propmodel.hx.width_overall", "m", "m"⟩,
     ⟨"propmodel", "hx.frontal_area", "propmodel.hx.frontal_area", "m**2", "m**2"⟩,
     ⟨"propmodel", "hx.xs_area_cold", "propmodel.hx.xs_area_cold", "m**2", "m**2"⟩,
     ⟨"propmodel", "hx.heat_transfer_area_cold", "propmodel.hx.heat_transfer_area_cold", "m**2", "m**2"⟩,
     ⟨"propmodel", "hx.dh_cold", "propmodel.hx.dh_cold", "m", "m"⟩,
     ⟨"propmodel", "hx.fin_area_ratio_cold", "propmodel.hx.fin_area_ratio_cold", "", ""⟩,
     ⟨"propmodel", "hx.contraction_ratio_cold", "propmodel.hx.contraction_ratio_cold", "", ""⟩,
     ⟨"propmodel", "hx.alpha_cold", "propmodel.hx.alpha_cold", "", ""⟩,
     ⟨"propmodel", "hx.delta_cold", "propmodel.hx.delta_cold", "", ""⟩,
     ⟨"propmodel", "hx.gamma_cold", "propmodel.hx.gamma_cold", "", ""⟩,
     ⟨"propmodel", "hx.xs_area_hot", "propmodel.hx.xs_area_hot", "m**2", "m**2"⟩,
     ⟨"propmodel", "hx.heat_transfer_area_hot", "propmodel.hx.heat_transfer_area_hot", "m**2", "m**2"⟩,
     ⟨"propmodel", "hx.dh_hot", "propmodel.hx.dh_hot", "m", "m"⟩,
     ⟨"propmodel", "hx.fin_area_ratio_hot", "propmodel.hx.fin_area_ratio_hot", "", ""⟩,
     ⟨"propmodel", "hx.contraction_ratio_hot", "propmodel.hx.contraction_ratio_hot", "", ""⟩,
     ⟨"propmodel", "hx.alpha_hot", "propmodel.hx.alpha_hot", "", ""⟩,
     ⟨"propmodel", "hx.delta_hot", "propmodel.hx.delta_hot", "", ""⟩,
     ⟨"propmodel", "hx.gamma_hot", "propmodel.hx.gamma_hot", "", ""⟩,
     ⟨"propmodel", "hx.Re_dh_cold", "propmodel.hx.Re_dh_cold", "", ""⟩,
     ⟨"propmodel", "hx.Re_dh_hot", "propmodel.hx.Re_dh_hot", "", ""⟩,
     ⟨"propmodel", "hx.j_cold", "propmodel.hx.j_cold", "", ""⟩, ⟨"propmodel", "hx.f_cold", "propmodel.hx.f_cold", "", ""⟩,
     ⟨"propmodel", "hx.j_hot", "propmodel.hx.j_hot", "", ""⟩, ⟨"propmodel", "hx.f_hot", "propmodel.hx.f_hot", "", ""⟩,
     ⟨"propmodel", "hx.Nu_dh_cold", "propmodel.hx.Nu_dh_cold", "", ""⟩,
     ⟨"propmodel", "hx.Nu_dh_hot", "propmodel.hx.Nu_dh_hot", "", ""⟩,
     ⟨"propmodel", "hx.h_conv_cold", "propmodel.hx.h_conv_cold", "W/m**2/K", "W/m**2/K"⟩,
     ⟨"propmodel", "hx.h_conv_hot", "propmodel.hx.h_conv_hot", "W/m**2/K", "W/m**2/K"⟩,
     ⟨"propmodel", "hx.eta_overall_cold", "propmodel.hx.eta_overall_cold", "", ""⟩,
     ⟨"propmodel", "hx.eta_overall_hot", "propmodel.hx.eta_overall_hot", "", ""⟩,
     ⟨"propmodel", "hx.UA_overall", "propmodel.hx.UA_overall", "W/K", "W/K"⟩,
     ⟨"propmodel", "hx.NTU", "propmodel.hx.NTU", "", ""⟩, ⟨"propmodel", "hx.heat_max", "propmodel.hx.heat_max", "W", "W"⟩,
     ⟨"propmodel", "hx.C_ratio", "propmodel.hx.C_ratio", "", ""⟩,
     ⟨"propmodel", "hx.effectiveness", "propmodel.hx.effectiveness", "", ""⟩,
     ⟨"propmodel", "hx.heat_transfer", "propmodel.hx.heat_transfer", "W", "W"⟩,
     ⟨"propmodel", "hx.T_out_cold", "propmodel.hx.T_out_cold", "K", "K"⟩,
     ⟨"propmodel", "hx.T_out_hot", "propmodel.hx.T_out_hot", "K", "K"⟩,
     ⟨"propmodel", "hx.delta_p_cold", "propmodel.hx.delta_p_cold", "Pa", "Pa"⟩,
     ⟨"propmodel", "hx.delta_p_hot", "propmodel.hx.delta_p_hot", "Pa", "Pa"⟩,
     ⟨"propmodel", "rho_coolant", "propmodel.rho_coolant", "kg/m**3", "kg/m**3"⟩,
     ⟨"propmodel", "refrig.control.bypass_start", "propmodel.refrig.control.bypass_start", "", ""⟩,
     ⟨"propmodel", "refrig.control.bypass_end", "propmodel.refrig.control.bypass_end", "", ""⟩,
     ⟨"propmodel", "refrig.bypass", "propmodel.refrig.bypass", "", ""⟩,
     ⟨"propmodel", "refrig.component_weight", "propmodel.refrig.component_weight", "kg", "kg"⟩,
     ⟨"propmodel", "refrig.hot_side.T_out", "propmodel.refrig.hot_side.T_out", "K", "K"⟩,
     ⟨"propmodel", "refrig.hot_side.T_average", "propmodel.refrig.hot_side.T_average", "K", "K"⟩,
     ⟨"propmodel", "refrig.cold_side.T_out", "propmodel.refrig.cold_side.T_out", "K", "K"⟩,
     ⟨"propmodel", "refrig.cold_side.T_average", "propmodel.refrig.cold_side.T_average", "K", "K"⟩,
     ⟨"propmodel", "refrig.COP", "propmodel.refrig.COP", "", ""⟩,
     ⟨"propmodel", "refrig.heat_pump.q_in_1", "propmodel.refrig.heat_pump.q_in_1", "W", "W"⟩,
     ⟨"propmodel", "refrig.heat_pump.q_in_2", "propmodel.refrig.heat_pump.q_in_2", "W", "W"⟩,
     ⟨"propmodel", "refrig.elec_load", "propmodel.refrig.elec_load", "W", "W"⟩,
     ⟨"propmodel", "refrig.T_out_cold", "propmodel.refrig.T_out_cold", "K", "K"⟩,
     ⟨"propmodel", "refrig.T_out_hot", "propmodel.refrig.T_out_hot", "K", "K"⟩,
     ⟨"propmodel", "ac|propulsion|engine|rating", "ac|propulsion|engine|rating", "kW", "kW"⟩,
     ⟨"propmodel", "ac|propulsion|propeller|diameter", "ac|propulsion|propeller|diameter", "m", "m"⟩,
     ⟨"propmodel", "ac|propulsion|motor|rating", "ac|propulsion|motor|rating", "kW", "kW"⟩,
     ⟨"propmodel", "ac|propulsion|generator|rating", "ac|propulsion|generator|rating", "kW", "kW"⟩,
     ⟨"propmodel", "ac|weights|W_battery", "ac|weights|W_battery", "kg", "kg"⟩,
     ⟨"propmodel", "ac|propulsion|thermal|refrig|rating", "ac|propulsion|thermal|refrig|rating", "kW", "kW"⟩,
     ⟨"propmodel", "ac|propulsion|thermal|refrig|specific_power", "ac|propulsion|thermal|refrig|specific_power", "W/kg", "W/kg"⟩,
     ⟨"propmodel", "ac|propulsion|thermal|refrig|eff", "ac|propulsion|thermal|refrig|eff", "", ""⟩,
     ⟨"propmodel", "ac|propulsion|thermal|hx|mdot_coolant", "ac|propulsion|thermal|hx|mdot_coolant", "kg/s", "kg/s"⟩,
     ⟨"propmodel", "ac|propulsion|thermal|hx|coolant_mass", "ac|propulsion|thermal|hx|coolant_mass", "kg", "kg"⟩,
     ⟨"propmodel", "ac|propulsion|thermal|hx|channel_width", "ac|propulsion|thermal|hx|channel_width", "mm", "mm"⟩,
     ⟨"propmodel", "ac|propulsion|thermal|hx|channel_height", "ac|propulsion|thermal|hx|channel_height", "mm", "mm"⟩,
     ⟨"propmodel", "ac|propulsion|thermal|hx|channel_length", "ac|propulsion|thermal|hx|channel_length", "m", "m"⟩,
     ⟨"propmodel", "ac|propulsion|thermal|hx|n_parallel", "ac|propulsion|thermal|hx|n_parallel", "", ""⟩,
     ⟨"propmodel", "ac|propulsion|thermal|duct|area_nozzle", "ac|propulsion|thermal|duct|area_nozzle", "inch**2", "inch**2"⟩,
     ⟨"propmodel", "ac|propulsion|battery|specific_energy", "ac|propulsion|battery|specific_energy", "W*h/kg", "W*h/kg"⟩,
     ⟨"propmodel", "throttle", "throttle", "", ""⟩, ⟨"propmodel", "prop1.rpm", "proprpm", "rpm", "rpm"⟩,
     ⟨"propmodel", "fltcond|rho", "fltcond|rho", "kg / m ** 3", "kg / m ** 3"⟩,
     ⟨"propmodel", "fltcond|Utrue", "fltcond|Utrue", "m/s", "m/s"⟩,
     ⟨"propmodel", "propulsor_active", "propulsor_active", "", ""⟩, ⟨"propmodel", "prop2.rpm", "proprpm", "rpm", "rpm"⟩,
     ⟨"propmodel", "hybrid_split.power_rating", "propmodel.hybrid_split.power_rating", "W", "W"⟩,
     ⟨"propmodel", "hybrid_split.power_split_fraction", "hybrid_factor.vec", "", ""⟩,
     ⟨"propmodel", "duration", "duration", "s", "s"⟩,
     ⟨"propmodel", "batt1.SOC_initial", "propmodel.batt1.SOC_initial", "", ""⟩,
     ⟨"propmodel", "batteryheatsink.T_initial", "propmodel.batteryheatsink.T_initial", "K", "K"⟩,
     ⟨"propmodel", "motorheatsink.T_initial", "propmodel.motorheatsink.T_initial", "K", "K"⟩,
     ⟨"propmodel", "duct.area_nozzle", "propmodel.duct.area_nozzle", "m**2", "m**2"⟩,
     ⟨"propmodel", "ac|propulsion|thermal|hx|n_wide_cold", "ac|propulsion|thermal|hx|n_wide_cold", "", ""⟩,
     ⟨"propmodel", "ac|propulsion|thermal|hx|n_long_cold", "ac|propulsion|thermal|hx|n_long_cold", "", ""⟩,
     ⟨"propmodel", "ac|propulsion|thermal|hx|n_tall", "ac|propulsion|thermal|hx|n_tall", "", ""⟩,
     ⟨"propmodel", "hx.channel_width_hot", "propmodel.hx.channel_width_hot", "mm", "mm"⟩,
     ⟨"propmodel", "hx.channel_height_hot", "propmodel.hx.channel_height_hot", "mm", "mm"⟩,
     ⟨"propmodel", "hx.fin_length_hot", "propmodel.hx.fin_length_hot", "mm", "mm"⟩,
     ⟨"propmodel", "hx.channel_width_cold", "propmodel.hx.channel_width_cold", "mm", "mm"⟩,
     ⟨"propmodel", "hx.channel_height_cold", "propmodel.hx.channel_height_cold", "mm", "mm"⟩,
     ⟨"propmodel", "hx.fin_length_cold", "propmodel.hx.fin_length_cold", "mm", "mm"⟩,
     ⟨"propmodel", "hx.fin_thickness", "propmodel.hx.fin_thickness", "mm", "mm"⟩,
     ⟨"propmodel", "hx.plate_thickness", "propmodel.hx.plate_thickness", "mm", "mm"⟩,
     ⟨"propmodel", "hx.case_thickness", "propmodel.hx.case_thickness", "mm", "mm"⟩,
     ⟨"propmodel", "hx.material_rho", "propmodel.hx.material_rho", "kg/m**3", "kg/m**3"⟩,
     ⟨"propmodel", "hx.mu_cold", "propmodel.hx.mu_cold", "kg/m/s", "kg/m/s"⟩,
     ⟨"propmodel", "hx.mu_hot", "propmodel.hx.mu_hot", "kg/m/s", "kg/m/s"⟩,
     ⟨"propmodel", "hx.k_cold", "propmodel.hx.k_cold", "W/m/K", "W/m/K"⟩,
     ⟨"propmodel", "hx.cp_cold", "propmodel.hx.cp_cold", "J/kg/K", "J/kg/K"⟩,
     ⟨"propmodel", "hx.k_hot", "propmodel.hx.k_hot", "W/m/K", "W/m/K"⟩,
     ⟨"propmodel", "hx.cp_hot", "propmodel.hx.cp_hot", "J/kg/K", "J/kg/K"⟩,
     ⟨"propmodel", "hx.material_k", "propmodel.hx.material_k", "W/m/K", "W/m/K"⟩,
     ⟨"propmodel", "fltcond|T", "fltcond|T", "K", "K"⟩, ⟨"drag", "drag", "drag.drag", "N", "N"⟩,
     ⟨"drag", "fltcond|CL", "fltcond|CL", "", ""⟩, ⟨"drag", "fltcond|q", "fltcond|q", "N * m**-2", "N * m**-2"⟩,
     ⟨"drag", "ac|geom|wing|S_ref", "ac|geom|wing|S_ref", "m **2", "m **2"⟩, ⟨"drag", "CD0", cd0, "", ""⟩,
     ⟨"drag", "e", "ac|aero|polar|e", "", ""⟩, ⟨"drag", "ac|geom|wing|AR", "ac|geom|wing|AR", "", ""⟩,
     ⟨"OEW", "W_fluids", "OEW.W_fluids", "kg", "kg"⟩, ⟨"OEW", "structural_fudge", "OEW.structural_fudge", "m/m", "m/m"⟩,
     ⟨"OEW", "W_wing", "OEW.W_wing", "lb", "lb"⟩, ⟨"OEW", "W_empennage", "OEW.W_empennage", "lb", "lb"⟩,
     ⟨"OEW", "W_fuselage", "OEW.W_fuselage", "lb", "lb"⟩, ⟨"OEW", "W_nacelle", "OEW.W_nacelle", "lb", "lb"⟩,
     ⟨"OEW", "W_gear", "OEW.W_gear", "lb", "lb"⟩, ⟨"OEW", "W_fuelsystem", "OEW.W_fuelsystem", "lb", "lb"⟩,
     ⟨"OEW", "W_equipment", "OEW.W_equipment", "lb", "lb"⟩, ⟨"OEW", "W_structure", "OEW.W_structure", "lb", "lb"⟩,
     ⟨"OEW", "W_structure_adjusted", "OEW.W_structure_adjusted", "lb * (m/m) ", "lb * (m/m) "⟩,
     ⟨"OEW", "OEW", "OEW.OEW", "lb", "lb"⟩, ⟨"OEW", "ac|weights|MTOW", "ac|weights|MTOW", "lb", "lb"⟩,
     ⟨"OEW", "ac|weights|W_fuel_max", "ac|weights|W_fuel_max", "lb", "lb"⟩,
     ⟨"OEW", "ac|geom|wing|S_ref", "ac|geom|wing|S_ref", "m **2", "ft**2"⟩,
     ⟨"OEW", "ac|geom|wing|AR", "ac|geom|wing|AR", "", ""⟩,
     ⟨"OEW", "ac|geom|wing|c4sweep", "ac|geom|wing|c4sweep", "rad", "rad"⟩,
     ⟨"OEW", "ac|geom|wing|taper", "ac|geom|wing|taper", "", ""⟩,
     ⟨"OEW", "ac|geom|wing|toverc", "ac|geom|wing|toverc", "", ""⟩,
     ⟨"OEW", "ac|q_cruise", "ac|q_cruise", "lb*ft**-2", "lb*ft**-2"⟩,
     ⟨"OEW", "ac|geom|hstab|S_ref", "ac|geom|hstab|S_ref", "ft**2", "ft**2"⟩,
     ⟨"OEW", "ac|geom|vstab|S_ref", "ac|geom|vstab|S_ref", "ft**2", "ft**2"⟩,
     ⟨"OEW", "ac|geom|fuselage|length", "ac|geom|fuselage|length", "ft", "ft"⟩,
     ⟨"OEW", "ac|geom|fuselage|height", "ac|geom|fuselage|height", "ft", "ft"⟩,
     ⟨"OEW", "ac|geom|fuselage|width", "ac|geom|fuselage|width", "ft", "ft"⟩,
     ⟨"OEW", "ac|geom|fuselage|S_wet", "ac|geom|fuselage|S_wet", "ft**2", "ft**2"⟩,
     ⟨"OEW", "ac|geom|hstab|c4_to_wing_c4", "ac|geom|hstab|c4_to_wing_c4", "ft", "ft"⟩,
     ⟨"OEW", "P_TO", "ac|propulsion|engine|rating", "kW", "hp"⟩, ⟨"OEW", "ac|weights|MLW", "ac|weights|MLW", "lb", "lb"⟩,
     ⟨"OEW", "ac|geom|maingear|length", "ac|geom|maingear|length", "ft", "ft"⟩,
     ⟨"OEW", "ac|geom|nosegear|length", "ac|geom|nosegear|length", "ft", "ft"⟩,
     ⟨"OEW", "ac|num_passengers_max", "ac|num_passengers_max", "", ""⟩,
     ⟨"OEW", "W_engine", "propmodel.eng1.component_weight", "kg", "lb"⟩,
     ⟨"OEW", "W_motors", "propmodel.motors_weight", "kg", "lb"⟩,
     ⟨"OEW", "W_generator", "propmodel.gen1.component_weight", "kg", "lb"⟩,
     ⟨"OEW", "W_propeller", "propmodel.propellers_weight", "kg", "lb"⟩, ⟨"hxadder", "OEW", "OEW", "kg", "kg"⟩,
     ⟨"hxadder", "drag", "drag", "N", "N"⟩, ⟨"hxadder", "area_constraint", "hxadder.area_constraint", "m**2", "m**2"⟩,
     ⟨"hxadder", "OEW_orig", "OEW.OEW", "lb", "kg"⟩, ⟨"hxadder", "W_hx", "propmodel.hx.component_weight", "kg", "kg"⟩,
     ⟨"hxadder", "W_coolant", "ac|propulsion|thermal|hx|coolant_mass", "kg", "kg"⟩,
     ⟨"hxadder", "drag_orig", "drag.drag", "N", "N"⟩, ⟨"hxadder", "drag_hx", "propmodel.duct.drag", "N", "N"⟩,
     ⟨"hxadder", "hx_frontal_area", "propmodel.hx.frontal_area", "m**2", "m**2"⟩,
     ⟨"hxadder", "nozzle_area", "nozzle_area.max", "m**2", "m**2"⟩,
     ⟨"nozzle_area", "max", "nozzle_area.max", "m**2", "m**2"⟩,
     ⟨"nozzle_area", "array", "propmodel.area_nozzle", "inch**2", "m**2"⟩,
     ⟨"intfuel", "fuel_used_final", "fuel_used_final", "kg", "kg"⟩, ⟨"intfuel", "fuel_used", "fuel_used", "kg", "kg"⟩,
     ⟨"intfuel", "duration", "duration", "s", "s"⟩, ⟨"intfuel", "fuel_flow", "fuel_flow", "kg/s", "(kg) / (s)"⟩,
     ⟨"intfuel", "fuel_used_initial", "fuel_used_initial", "kg", "kg"⟩, ⟨"weight", "weight", "weight", "kg", "kg"⟩,
     ⟨"weight", "ac|weights|MTOW", "ac|weights|MTOW", "lb", "kg"⟩, ⟨"weight", "fuel_used", "fuel_used", "kg", "kg"⟩] ∧
    (["ac|weights|MTOW", "ac|geom|wing|S_ref", "ac|geom|wing|AR", "ac|aero|polar|e", cd0].all fun n => ((activeTwinGrp flight cd0).ins ++ (activeTwinGrp flight cd0).outs).any fun v =>
      @decide (v.name = n) (fastString _ _) && !v.vec) = true := by
  simp only [List.mem_cons, List.not_mem_nil, or_false] at h
  rcases h with rfl | rfl <;> kdecide

set_option maxHeartbeats 2000000 in
/-- no variable of a subsystem is listed twice -/
theorem passiveTwinGrp_nodup (flight : Bool) (cd0 : String) (h : cd0 ∈ ["ac|aero|polar|CD0_TO", "ac|aero|polar|CD0_cruise"]) :
    ((passiveTwinGrp flight cd0).links.map fun k => (k.sub, k.var)).Nodup := by
  rw [(passiveTwinGrp_eval flight cd0 h).1]
  exact tree_nodup (by simp only [List.map_cons, List.map_nil]; decide +kernel)

set_option maxHeartbeats 2000000 in
/-- no variable of a subsystem is listed twice -/
theorem activeTwinGrp_nodup (flight : Bool) (cd0 : String) (h : cd0 ∈ ["ac|aero|polar|CD0_TO", "ac|aero|polar|CD0_cruise"]) :
    ((activeTwinGrp flight cd0).links.map fun k => (k.sub, k.var)).Nodup := by
  rw [(activeTwinGrp_eval flight cd0 h).1]
  exact tree_nodup (by simp only [List.map_cons, List.map_nil]; decide +kernel)

theorem view_once (g : Grp) {l : List Link} (h : g.links = l) (hn : (g.links.map fun k => (k.sub, k.var)).Nodup) (e : String → ℝ) :
    ∀ k ∈ l, g.view e k.sub k.var = conv k.unit k.want (e k.src) :=
  view_all g h (by rwa [← h]) e

/-- `viewsVar` with a proof that no variable is listed twice -/
macro "viewsOnce " g:term:max l:ident hn:term:max e:ident loc:(Lean.Parser.Tactic.location)? : tactic =>
  `(tactic| (
    have hview := view_once $g $l $hn $e
    simp only [List.forall_mem_cons, List.not_mem_nil, false_imp_iff, implies_true, and_true, conv_self, conv_KS, conv_W_kW,
      conv_soc, conv_Wh, conv_energy, conv_cm, conv_hp, conv_inch2, conv_kPa_MPa, conv_kPa, conv_kW, conv_kW_hp, conv_rho1,
      conv_rho2, conv_lb, conv_ft, conv_ms1, conv_ms2, conv_ms3, conv_mm, conv_acc, conv_ms4, conv_ms5, conv_ms6, conv_kn1, conv_kn2, conv_kn3, conv_ft_m, conv_m2a, conv_m2b, conv_rho3, conv_Pa, conv_NM_km, conv_m_km, conv_m_NM, conv_NM_m] at hview
    simp only [hview] $[$loc]?
    try clear hview))

theorem conv_kg_lbm (x : ℝ) : conv "kg" "lbm" x = x / 0.45359237 := by
  simp [conv, off, fac] <;> ring_nf

theorem conv_lb_lbm (x : ℝ) : conv "lb" "lbm" x = x := by
  simp [conv, off, fac] <;> ring_nf

theorem conv_degC_K (x : ℝ) : conv "degC" "K" x = x + 273.15 := by
  simp [conv, off, fac] <;> ring_nf

theorem hybridAnalysis_links : hybridAnalysis.links =
    [⟨"dv_comp", "ac|aero|CLmax_TO", "ac|aero|CLmax_TO", "", ""⟩, ⟨"dv_comp", "ac|aero|polar|e", "ac|aero|polar|e", "", ""⟩,
     ⟨"dv_comp", "ac|aero|polar|CD0_TO", "ac|aero|polar|CD0_TO", "", ""⟩,
     ⟨"dv_comp", "ac|aero|polar|CD0_cruise", "ac|aero|polar|CD0_cruise", "", ""⟩,
     ⟨"dv_comp", "ac|geom|wing|S_ref", "ac|geom|wing|S_ref", "m**2", "m**2"⟩,
     ⟨"dv_comp", "ac|geom|wing|AR", "ac|geom|wing|AR", "", ""⟩,
     ⟨"dv_comp", "ac|geom|wing|c4sweep", "ac|geom|wing|c4sweep", "deg", "deg"⟩,
     ⟨"dv_comp", "ac|geom|wing|taper", "ac|geom|wing|taper", "", ""⟩,
     ⟨"dv_comp", "ac|geom|wing|toverc", "ac|geom|wing|toverc", "", ""⟩,
     ⟨"dv_comp", "ac|geom|hstab|S_ref", "ac|geom|hstab|S_ref", "m**2", "m**2"⟩,
     ⟨"dv_comp", "ac|geom|hstab|c4_to_wing_c4", "ac|geom|hstab|c4_to_wing_c4", "m", "m"⟩,
     ⟨"dv_comp", "ac|geom|vstab|S_ref", "ac|geom|vstab|S_ref", "m**2", "m**2"⟩,
     ⟨"dv_comp", "ac|geom|fuselage|S_wet", "ac|geom|fuselage|S_wet", "m**2", "m**2"⟩,
     ⟨"dv_comp", "ac|geom|fuselage|width", "ac|geom|fuselage|width", "m", "m"⟩,
     ⟨"dv_comp", "ac|geom|fuselage|length", "ac|geom|fuselage|length", "m", "m"⟩,
     ⟨"dv_comp", "ac|geom|fuselage|height", "ac|geom|fuselage|height", "m", "m"⟩,
     ⟨"dv_comp", "ac|geom|nosegear|length", "ac|geom|nosegear|length", "m", "m"⟩,
     ⟨"dv_comp", "ac|geom|maingear|length", "ac|geom|maingear|length", "m", "m"⟩,
     ⟨"dv_comp", "ac|weights|MTOW", "ac|weights|MTOW", "kg", "kg"⟩,
     ⟨"dv_comp", "ac|weights|W_fuel_max", "ac|weights|W_fuel_max", "kg", "kg"⟩,
     ⟨"dv_comp", "ac|weights|MLW", "ac|weights|MLW", "kg", "kg"⟩,
     ⟨"dv_comp", "ac|propulsion|engine|rating", "ac|propulsion|engine|rating", "hp", "hp"⟩,
     ⟨"dv_comp", "ac|propulsion|propeller|diameter", "ac|propulsion|propeller|diameter", "m", "m"⟩,
     ⟨"dv_comp", "ac|num_passengers_max", "ac|num_passengers_max", "", ""⟩,
     ⟨"dv_comp", "ac|q_cruise", "ac|q_cruise", "lb*ft**-2", "lb*ft**-2"⟩,
     ⟨"dv_comp", "ac|num_engines", "ac|num_engines", "", ""⟩,
     ⟨"dv_comp", "ac|weights|W_battery", "ac|weights|W_battery", "kg", "kg"⟩,
     ⟨"dv_comp", "ac|propulsion|generator|rating", "ac|propulsion|generator|rating", "hp", "hp"⟩,
     ⟨"dv_comp", "ac|propulsion|motor|rating", "ac|propulsion|motor|rating", "hp", "hp"⟩,
     ⟨"dv_comp", "ac|propulsion|battery|specific_energy", "ac|propulsion|battery|specific_energy", "W*h/kg", "W*h/kg"⟩,
     ⟨"mission_data_comp", "batt_soc_target", "batt_soc_target", "", ""⟩,
     ⟨"analysis", "cruise.OEW", "cruise.OEW", "lb", "lb"⟩,
     ⟨"analysis", "descent.fuel_used_final", "descent.fuel_used_final", "kg", "kg"⟩,
     ⟨"analysis", "payload", "payload", "lbm", "lbm"⟩, ⟨"margins", "MTOW_margin", "margins.MTOW_margin", "lbm", "lbm"⟩,
     ⟨"margins", "MTOW", "ac|weights|MTOW", "kg", "lbm"⟩, ⟨"margins", "OEW", "cruise.OEW", "lb", "lbm"⟩,
     ⟨"margins", "total_fuel", "descent.fuel_used_final", "kg", "lbm"⟩,
     ⟨"margins", "W_battery", "ac|weights|W_battery", "kg", "lbm"⟩, ⟨"margins", "payload", "payload", "lbm", "lbm"⟩,
     ⟨"aug_obj", "mixed_objective", "mixed_objective", "kg", "kg"⟩,
     ⟨"aug_obj", "fuel_burn", "descent.fuel_used_final", "kg", "kg"⟩,
     ⟨"aug_obj", "ac|weights|MTOW", "ac|weights|MTOW", "kg", "kg"⟩] := by
  decide +kernel

theorem passiveAnalysis_links : passiveAnalysis.links =
    [⟨"dv_comp", "ac|aero|CLmax_TO", "ac|aero|CLmax_TO", "", ""⟩, ⟨"dv_comp", "ac|aero|polar|e", "ac|aero|polar|e", "", ""⟩,
     ⟨"dv_comp", "ac|aero|polar|CD0_TO", "ac|aero|polar|CD0_TO", "", ""⟩,
     ⟨"dv_comp", "ac|aero|polar|CD0_cruise", "ac|aero|polar|CD0_cruise", "", ""⟩,
     ⟨"dv_comp", "ac|geom|wing|S_ref", "ac|geom|wing|S_ref", "m**2", "m**2"⟩,
     ⟨"dv_comp", "ac|geom|wing|AR", "ac|geom|wing|AR", "", ""⟩,
     ⟨"dv_comp", "ac|geom|wing|c4sweep", "ac|geom|wing|c4sweep", "deg", "deg"⟩,
     ⟨"dv_comp", "ac|geom|wing|taper", "ac|geom|wing|taper", "", ""⟩,
     ⟨"dv_comp", "ac|geom|wing|toverc", "ac|geom|wing|toverc", "", ""⟩,
     ⟨"dv_comp", "ac|geom|hstab|S_ref", "ac|geom|hstab|S_ref", "m**2", "m**2"⟩,
     ⟨"dv_comp", "ac|geom|hstab|c4_to_wing_c4", "ac|geom|hstab|c4_to_wing_c4", "m", "m"⟩,
     ⟨"dv_comp", "ac|geom|vstab|S_ref", "ac|geom|vstab|S_ref", "m**2", "m**2"⟩,
     ⟨"dv_comp", "ac|geom|fuselage|S_wet", "ac|geom|fuselage|S_wet", "m**2", "m**2"⟩,
     ⟨"dv_comp", "ac|geom|fuselage|width", "ac|geom|fuselage|width", "m", "m"⟩,
     ⟨"dv_comp", "ac|geom|fuselage|length", "ac|geom|fuselage|length", "m", "m"⟩,
     ⟨"dv_comp", "ac|geom|fuselage|height", "ac|geom|fuselage|height", "m", "m"⟩,
     ⟨"dv_comp", "ac|geom|nosegear|length", "ac|geom|nosegear|length", "m", "m"⟩,
     ⟨"dv_comp", "ac|geom|maingear|length", "ac|geom|maingear|length", "m", "m"⟩,
     ⟨"dv_comp", "ac|weights|MTOW", "ac|weights|MTOW", "kg", "kg"⟩,
     ⟨"dv_comp", "ac|weights|W_fuel_max", "ac|weights|W_fuel_max", "kg", "kg"⟩,
     ⟨"dv_comp", "ac|weights|MLW", "ac|weights|MLW", "kg", "kg"⟩,
     ⟨"dv_comp", "ac|propulsion|engine|rating", "ac|propulsion|engine|rating", "hp", "hp"⟩,
     ⟨"dv_comp", "ac|propulsion|propeller|diameter", "ac|propulsion|propeller|diameter", "m", "m"⟩,
     ⟨"dv_comp", "ac|num_passengers_max", "ac|num_passengers_max", "", ""⟩,
     ⟨"dv_comp", "ac|q_cruise", "ac|q_cruise", "lb*ft**-2", "lb*ft**-2"⟩,
     ⟨"dv_comp", "ac|num_engines", "ac|num_engines", "", ""⟩,
     ⟨"dv_comp", "ac|weights|W_battery", "ac|weights|W_battery", "kg", "kg"⟩,
     ⟨"dv_comp", "ac|propulsion|generator|rating", "ac|propulsion|generator|rating", "hp", "hp"⟩,
     ⟨"dv_comp", "ac|propulsion|motor|rating", "ac|propulsion|motor|rating", "hp", "hp"⟩,
     ⟨"dv_comp", "ac|propulsion|battery|specific_energy", "ac|propulsion|battery|specific_energy", "W*h/kg", "W*h/kg"⟩,
     ⟨"dv_comp", "ac|propulsion|thermal|hx|coolant_mass", "ac|propulsion|thermal|hx|coolant_mass", "kg", "kg"⟩,
     ⟨"dv_comp", "ac|propulsion|thermal|hx|channel_width", "ac|propulsion|thermal|hx|channel_width", "mm", "mm"⟩,
     ⟨"dv_comp", "ac|propulsion|thermal|hx|channel_height", "ac|propulsion|thermal|hx|channel_height", "mm", "mm"⟩,
     ⟨"dv_comp", "ac|propulsion|thermal|hx|channel_length", "ac|propulsion|thermal|hx|channel_length", "m", "m"⟩,
     ⟨"dv_comp", "ac|propulsion|thermal|hx|n_parallel", "ac|propulsion|thermal|hx|n_parallel", "", ""⟩,
     ⟨"dv_comp", "ac|propulsion|thermal|hx|n_wide_cold", "ac|propulsion|thermal|hx|n_wide_cold", "", ""⟩,
     ⟨"mission_data_comp", "batt_soc_target", "batt_soc_target", "", ""⟩,
     ⟨"mission_data_comp", "T_motor_initial", "T_motor_initial", "degC", "degC"⟩,
     ⟨"mission_data_comp", "T_res_initial", "T_res_initial", "degC", "degC"⟩,
     ⟨"mission_data_comp", "T_batt_initial", "T_batt_initial", "degC", "degC"⟩,
     ⟨"analysis", "cruise.OEW", "cruise.OEW", "kg", "kg"⟩,
     ⟨"analysis", "descent.fuel_used_final", "descent.fuel_used_final", "kg", "kg"⟩,
     ⟨"analysis", "payload", "payload", "lbm", "lbm"⟩,
     ⟨"analysis", "v0v1.propmodel.motorheatsink.T_initial", "T_motor_initial", "degC", "K"⟩,
     ⟨"analysis", "v0v1.propmodel.reservoir.T_initial", "T_res_initial", "degC", "K"⟩,
     ⟨"analysis", "v0v1.propmodel.batteryheatsink.T_initial", "T_batt_initial", "degC", "K"⟩,
     ⟨"margins", "MTOW_margin", "margins.MTOW_margin", "lbm", "lbm"⟩, ⟨"margins", "MTOW", "ac|weights|MTOW", "kg", "lbm"⟩,
     ⟨"margins", "OEW", "cruise.OEW", "kg", "lbm"⟩, ⟨"margins", "total_fuel", "descent.fuel_used_final", "kg", "lbm"⟩,
     ⟨"margins", "W_battery", "ac|weights|W_battery", "kg", "lbm"⟩, ⟨"margins", "payload", "payload", "lbm", "lbm"⟩,
     ⟨"aug_obj", "mixed_objective", "mixed_objective", "kg", "kg"⟩,
     ⟨"aug_obj", "fuel_burn", "descent.fuel_used_final", "kg", "kg"⟩,
     ⟨"aug_obj", "ac|weights|MTOW", "ac|weights|MTOW", "kg", "kg"⟩] := by
  decide +kernel

theorem activeAnalysis_links : activeAnalysis.links =
    [⟨"dv_comp", "ac|aero|CLmax_TO", "ac|aero|CLmax_TO", "", ""⟩, ⟨"dv_comp", "ac|aero|polar|e", "ac|aero|polar|e", "", ""⟩,
     ⟨"dv_comp", "ac|aero|polar|CD0_TO", "ac|aero|polar|CD0_TO", "", ""⟩,
     ⟨"dv_comp", "ac|aero|polar|CD0_cruise", "ac|aero|polar|CD0_cruise", "", ""⟩,
     ⟨"dv_comp", "ac|geom|wing|S_ref", "ac|geom|wing|S_ref", "m**2", "m**2"⟩,
     ⟨"dv_comp", "ac|geom|wing|AR", "ac|geom|wing|AR", "", ""⟩,
     ⟨"dv_comp", "ac|geom|wing|c4sweep", "ac|geom|wing|c4sweep", "deg", "deg"⟩,
     ⟨"dv_comp", "ac|geom|wing|taper", "ac|geom|wing|taper", "", ""⟩,
     ⟨"dv_comp", "ac|geom|wing|toverc", "ac|geom|wing|toverc", "", ""⟩,
     ⟨"dv_comp", "ac|geom|hstab|S_ref", "ac|geom|hstab|S_ref", "m**2", "m**2"⟩,
     ⟨"dv_comp", "ac|geom|hstab|c4_to_wing_c4", "ac|geom|hstab|c4_to_wing_c4", "m", "m"⟩,
     ⟨"dv_comp", "ac|geom|vstab|S_ref", "ac|geom|vstab|S_ref", "m**2", "m**2"⟩,
     ⟨"dv_comp", "ac|geom|fuselage|S_wet", "ac|geom|fuselage|S_wet", "m**2", "m**2"⟩,
     ⟨"dv_comp", "ac|geom|fuselage|width", "ac|geom|fuselage|width", "m", "m"⟩,
     ⟨"dv_comp", "ac|geom|fuselage|length", "ac|geom|fuselage|length", "m", "m"⟩,
     ⟨"dv_comp", "ac|geom|fuselage|height", "ac|geom|fuselage|height", "m", "m"⟩,
     ⟨"dv_comp", "ac|geom|nosegear|length", "ac|geom|nosegear|length", "m", "m"⟩,
     ⟨"dv_comp", "ac|geom|maingear|length", "ac|geom|maingear|length", "m", "m"⟩,
     ⟨"dv_comp", "ac|weights|MTOW", "ac|weights|MTOW", "kg", "kg"⟩,
     ⟨"dv_comp", "ac|weights|W_fuel_max", "ac|weights|W_fuel_max", "kg", "kg"⟩,
     ⟨"dv_comp", "ac|weights|MLW", "ac|weights|MLW", "kg", "kg"⟩,
     ⟨"dv_comp", "ac|propulsion|engine|rating", "ac|propulsion|engine|rating", "hp", "hp"⟩,
     ⟨"dv_comp", "ac|propulsion|propeller|diameter", "ac|propulsion|propeller|diameter", "m", "m"⟩,
     ⟨"dv_comp", "ac|num_passengers_max", "ac|num_passengers_max", "", ""⟩,
     ⟨"dv_comp", "ac|q_cruise", "ac|q_cruise", "lb*ft**-2", "lb*ft**-2"⟩,
     ⟨"dv_comp", "ac|num_engines", "ac|num_engines", "", ""⟩,
     ⟨"dv_comp", "ac|weights|W_battery", "ac|weights|W_battery", "kg", "kg"⟩,
     ⟨"dv_comp", "ac|propulsion|generator|rating", "ac|propulsion|generator|rating", "hp", "hp"⟩,
     ⟨"dv_comp", "ac|propulsion|motor|rating", "ac|propulsion|motor|rating", "hp", "hp"⟩,
     ⟨"dv_comp", "ac|propulsion|battery|specific_energy", "ac|propulsion|battery|specific_energy", "W*h/kg", "W*h/kg"⟩,
     ⟨"dv_comp", "ac|propulsion|thermal|hx|coolant_mass", "ac|propulsion|thermal|hx|coolant_mass", "kg", "kg"⟩,
     ⟨"dv_comp", "ac|propulsion|thermal|hx|channel_width", "ac|propulsion|thermal|hx|channel_width", "mm", "mm"⟩,
     ⟨"dv_comp", "ac|propulsion|thermal|hx|channel_height", "ac|propulsion|thermal|hx|channel_height", "mm", "mm"⟩,
     ⟨"dv_comp", "ac|propulsion|thermal|hx|channel_length", "ac|propulsion|thermal|hx|channel_length", "m", "m"⟩,
     ⟨"dv_comp", "ac|propulsion|thermal|hx|n_parallel", "ac|propulsion|thermal|hx|n_parallel", "", ""⟩,
     ⟨"dv_comp", "ac|propulsion|thermal|hx|n_wide_cold", "ac|propulsion|thermal|hx|n_wide_cold", "", ""⟩,
     ⟨"mission_data_comp", "batt_soc_target", "batt_soc_target", "", ""⟩,
     ⟨"mission_data_comp", "T_motor_initial", "T_motor_initial", "degC", "degC"⟩,
     ⟨"mission_data_comp", "T_batt_initial", "T_batt_initial", "degC", "degC"⟩,
     ⟨"analysis", "cruise.OEW", "cruise.OEW", "kg", "kg"⟩,
     ⟨"analysis", "descent.fuel_used_final", "descent.fuel_used_final", "kg", "kg"⟩,
     ⟨"analysis", "payload", "payload", "lbm", "lbm"⟩,
     ⟨"analysis", "climb.propmodel.motorheatsink.T_initial", "T_motor_initial", "degC", "K"⟩,
     ⟨"analysis", "climb.propmodel.batteryheatsink.T_initial", "T_batt_initial", "degC", "K"⟩,
     ⟨"margins", "MTOW_margin", "margins.MTOW_margin", "lbm", "lbm"⟩, ⟨"margins", "MTOW", "ac|weights|MTOW", "kg", "lbm"⟩,
     ⟨"margins", "OEW", "cruise.OEW", "kg", "lbm"⟩, ⟨"margins", "total_fuel", "descent.fuel_used_final", "kg", "lbm"⟩,
     ⟨"margins", "W_battery", "ac|weights|W_battery", "kg", "lbm"⟩, ⟨"margins", "payload", "payload", "lbm", "lbm"⟩,
     ⟨"aug_obj", "mixed_objective", "mixed_objective", "kg", "kg"⟩,
     ⟨"aug_obj", "fuel_burn", "descent.fuel_used_final", "kg", "kg"⟩,
     ⟨"aug_obj", "ac|weights|MTOW", "ac|weights|MTOW", "kg", "kg"⟩] := by
  decide +kernel

end Verif.Wiring
