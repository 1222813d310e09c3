import Verif.Proof.FeedComponents
import Verif.Props.WiringAirplanes

namespace Verif.Wiring

open Verif.Units Verif.VectorComps

variable {m : ℕ}

/-! ### C120: groups whose connections go forward have one converged state -/

/-- the integrator of the fuel in a phase -/
theorem solves_fuel {p : Phase m} {o : Opts} {s : Sub} (hs : s.sys = integ fuelIntegrand) (hn : s.name = "intfuel")
    (hp : p.coupled = [("intfuel", integRel fuelIntegrand)]) : s.Solves p o := by
  have hins : (integ fuelIntegrand).ins = [⟨"duration", "s", false, true⟩, ⟨"fuel_flow", "(kg) / (s)", true, true⟩,
    ⟨"fuel_used_initial", "kg", false, true⟩] := by decide +kernel
  have houts : (integ fuelIntegrand).outs = [⟨"fuel_used_final", "kg", false, true⟩, ⟨"fuel_used", "kg", true, true⟩] := by decide +kernel
  apply solves_eqs [("fuel_used_final", fun T _ => Integrals.integratorFinal (Integrals.simpsonTri m) (T "fuel_used_initial" 0)
      (.duration (T "duration" 0)) (T "fuel_flow")),
    ("fuel_used", fun T => Integrals.integratorCompute (Integrals.simpsonTri m) (T "fuel_used_initial" 0)
      (.duration (T "duration" 0)) (T "fuel_flow"))]
  · rw [hs, houts]; rfl
  · simp
  · rw [hs, hins]; simp
  · intro T
    simp [Phase.sat, hs, hn, hp, integ_rel, integRel, fuelIntegrand, integrand, AddIntegrand.entry, integOpts, AddIntegrand.orDefault, AddIntegrand.truthy, funext_iff, and_comm]
  · intro T T' h
    rw [hs, hins] at h
    simp only [List.forall_mem_cons, List.not_mem_nil, false_imp_iff, implies_true, and_true] at h ⊢
    obtain ⟨h1, h2, h3⟩ := h
    simp only [h1, h2, h3, true_and]
  · intro T h
    rw [hs, houts]
    simp [flat]

/-- what the airplanes of this kind have in common -/
theorem forward_turboprop {grp : String → Grp} (h : ∀ c ∈ cd0Names, (grp c).forward (grp c).subs = true) (phase : String) :
    Forward (turbopropPhase (m := m) grp phase).grp (grp (Aircraft.cd0Source phase)).subs :=
  .of (.refl _) (h _ (cd0Source_mem phase))

/-- for all inputs, scalars being the same at all nodes, there is a state over the nodes with these inputs, and only one -/
def OneState (p : Phase m) (o : Opts) : Prop :=
  (∀ E₀ : String → Fin (m + 1) → ℝ, (∀ v ∈ p.grp.ins, v.vec = false → ∀ a, E₀ v.name a = E₀ v.name 0) →
    ∃ E, p.Rel o E ∧ ∀ n, n ∉ p.grp.outs.map Var.name → E n = E₀ n) ∧
  ∀ E E', p.Rel o E → p.Rel o E' → (∀ v ∈ p.grp.ins, E v.name = E' v.name) → ∀ v ∈ p.grp.outs, E v.name = E' v.name

theorem one_of {p : Phase m} {o : Opts} {l : List Sub} (F : Forward p.grp l) (h : ∀ s ∈ l, s.Solves p o)
    (hc : ∀ c ∈ p.coupled, c.1 ∈ l.map Sub.name) : OneState p o :=
  ⟨phase_exists F h hc, fun _ _ hE hE' hi => phase_unique F h hE hE' hi⟩

theorem C120_caravan (o : Opts) (phase : String) : OneState (m := m) (turbopropPhase caravanGrp phase) o := by
  have F : Forward (turbopropPhase (m := m) caravanGrp phase).grp _ := forward_turboprop (by unfold cd0Names; decide +kernel) phase
  have hv := F.vars
  refine one_of F ?_ (by simp [turbopropPhase, caravanGrp])
  simp only [caravanGrp, polarSub, weightSub, List.forall_mem_cons, List.not_mem_nil, false_imp_iff, implies_true, and_true] at hv ⊢
  obtain ⟨v1, v2, v3, v4, -, v6⟩ := hv
  exact ⟨solves_of_det (det_consts _ (by decide +kernel) o) v1 (by simp [turbopropPhase]),
    solves_of_det (det_turboprop o) v2 (by simp [turbopropPhase]),
    solves_of_det (det_explicit (proper_polarDrag _) (by decide +kernel) (by decide +kernel) _ o) v3 (by simp [turbopropPhase]),
    solves_of_det (det_singleEmpty o) v4 (by simp [turbopropPhase]),
    solves_fuel rfl rfl rfl,
    solves_of_det (det_sum _ _ (by decide +kernel) (by decide +kernel) o) v6 (by simp [turbopropPhase])⟩

theorem C120_kingAir (o : Opts) (phase : String) : OneState (m := m) (turbopropPhase kingAirGrp phase) o := by
  have F : Forward (turbopropPhase (m := m) kingAirGrp phase).grp _ := forward_turboprop (by unfold cd0Names; decide +kernel) phase
  have hv := F.vars
  refine one_of F ?_ (by simp [turbopropPhase, kingAirGrp])
  simp only [kingAirGrp, polarSub, weightSub, List.forall_mem_cons, List.not_mem_nil, false_imp_iff, implies_true, and_true] at hv ⊢
  obtain ⟨v1, v2, v3, v4, -, v6⟩ := hv
  exact ⟨solves_of_det (det_consts _ (by decide +kernel) o) v1 (by simp [turbopropPhase]),
    solves_of_det (det_twinTurboprop o) v2 (by simp [turbopropPhase]),
    solves_of_det (det_explicit (proper_polarDrag _) (by decide +kernel) (by decide +kernel) _ o) v3 (by simp [turbopropPhase]),
    solves_of_det (det_singleEmpty o) v4 (by simp [turbopropPhase]),
    solves_fuel rfl rfl rfl,
    solves_of_det (det_sum _ _ (by decide +kernel) (by decide +kernel) o) v6 (by simp [turbopropPhase])⟩

theorem C120_tbm (o : Opts) (phase : String) : OneState (m := m) (turbopropPhase tbmGrp phase) o := by
  have F : Forward (turbopropPhase (m := m) tbmGrp phase).grp _ := forward_turboprop (by unfold cd0Names; decide +kernel) phase
  have hv := F.vars
  refine one_of F ?_ (by simp [turbopropPhase, tbmGrp])
  simp only [tbmGrp, polarSub, weightSub, List.forall_mem_cons, List.not_mem_nil, false_imp_iff, implies_true, and_true] at hv ⊢
  obtain ⟨v2, v3, v4, -, v6⟩ := hv
  exact ⟨solves_of_det (det_turboprop o) v2 (by simp [turbopropPhase]),
    solves_of_det (det_explicit (proper_polarDrag _) (by decide +kernel) (by decide +kernel) _ o) v3 (by simp [turbopropPhase]),
    solves_of_det (det_singleEmpty o) v4 (by simp [turbopropPhase]),
    solves_fuel rfl rfl rfl,
    solves_of_det (det_sum _ _ (by decide +kernel) (by decide +kernel) o) v6 (by simp [turbopropPhase])⟩

/-- for all inputs there is a converged state with these inputs, and only one -/
def OneGroup (g : Grp) (o : Opts) : Prop :=
  (∀ e₀ : String → ℝ, ∃ e, g.rel o e ∧ ∀ n, n ∉ g.outs.map Var.name → e n = e₀ n) ∧
  ∀ e e', g.rel o e → g.rel o e' → (∀ v ∈ g.ins, e v.name = e' v.name) → ∀ v ∈ g.outs, e v.name = e' v.name

theorem one_group {g : Grp} {o : Opts} (h : g.sys.Det o) : OneGroup g o := ⟨h.solve, h.unique⟩

/-- **C120** (groups).  The propulsion systems, the empty weights, the parasite drags and the turbofans have, for every input, exactly one
converged state. -/
theorem C120_groups (o : Opts) :
    OneGroup propeller o ∧ OneGroup turboprop o ∧ OneGroup twinTurboprop o ∧ OneGroup singleEmpty o ∧ OneGroup twinEmpty o ∧
    (∀ T, OneGroup (jetEmpty T) o) ∧ OneGroup bwbEmpty o ∧ (∀ wing takeoff, OneGroup (jetDrag wing takeoff) o) ∧
    (∀ takeoff, OneGroup (bwbDrag takeoff) o) ∧ ∀ d hydrogen, OneGroup (rubberTurbofan d hydrogen) o :=
  ⟨one_group (det_propeller o), one_group (det_turboprop o), one_group (det_twinTurboprop o), one_group (det_singleEmpty o),
    one_group (det_twinEmpty o), fun T => one_group (det_jetEmpty T o), one_group (det_bwbEmpty o),
    fun w t => one_group (det_jetDrag w t o), fun t => one_group (det_bwbDrag t o), fun d y => one_group (det_rubberTurbofan d y o)⟩

/-- the twin turboprop at half throttle with one engine off: C114 applies to the state that exists -/
example (o : Opts) : ∃ e, twinTurboprop.rel o e ∧ e "throttle" = 1 / 2 ∧ e "propulsor_active" = 0 ∧ e "ac|propulsion|engine|rating" = 850 ∧
    e "engines_weight" = 2 * (0.14 / 1000 * (850 * 745.7) + 104) := by
  obtain ⟨e, he, hi⟩ := (C120_groups o).2.2.1.1 fun n => if n = "throttle" then 1 / 2 else if n = "ac|propulsion|engine|rating" then 850 else 0
  have hi : ∀ n, (!(twinTurboprop.outs.map Var.name).contains n) = true → e n = _ := fun n hn => hi n (by simpa using hn)
  have h1 : e "throttle" = 1 / 2 := by rw [hi _ (by decide +kernel)]; simp
  have h2 : e "propulsor_active" = 0 := by rw [hi _ (by decide +kernel)]; simp
  have h3 : e "ac|propulsion|engine|rating" = 850 := by rw [hi _ (by decide +kernel)]; simp
  refine ⟨e, he, h1, h2, h3, ?_⟩
  have h := (C114_twinTurboprop o e he).2.2.1
  rwa [h3] at h

/-- the cruise of a Caravan with five nodes, 3000 kg and full throttle: the state exists, and C119 describes it -/
example (o : Opts) : ∃ E : String → Fin 5 → ℝ, (turbopropPhase (m := 4) caravanGrp "cruise").Rel o E ∧ (∀ a, E "throttle" a = 1) ∧
    (∀ a, E "ac|weights|MTOW" a = 3000 / 0.45359237) ∧ (∀ a, E "fltcond|Utrue" a = 80 + a) ∧
    IsTurboprop o false 2000 "fuel_used_initial" "cruise" E := by
  obtain ⟨E, hE, hi⟩ := (C120_caravan (m := 4) o "cruise").1
    (fun n a => if n = "throttle" then 1 else if n = "ac|weights|MTOW" then 3000 / 0.45359237
      else if n = "fltcond|Utrue" then 80 + a else 0) (by
        intro v hv hvec a
        have : v.name ≠ "fltcond|Utrue" := by
          have h : ∀ v ∈ (caravanGrp "ac|aero|polar|CD0_cruise").ins, v.vec = false → v.name ≠ "fltcond|Utrue" := by decide +kernel
          exact h v hv hvec
        simp [this])
  have hi : ∀ n, (!((caravanGrp "ac|aero|polar|CD0_cruise").outs.map Var.name).contains n) = true → E n = _ := fun n hn =>
    hi n (show n ∉ (caravanGrp "ac|aero|polar|CD0_cruise").outs.map Var.name by simpa using hn)
  refine ⟨E, hE, fun a => ?_, fun a => ?_, fun a => ?_, C119_caravan o _ E hE⟩
  all_goals rw [hi _ (by decide +kernel)]; simp

/-- a take-off segment of a King Air -/
example (o : Opts) : ∃ E : String → Fin 3 → ℝ, (turbopropPhase (m := 2) kingAirGrp "v0v1").Rel o E ∧ (∀ a, E "throttle" a = 1) ∧
    IsTurboprop o true 1900 "fuel_used_initial" "v0v1" E ∧
    E "OEW" 0 = Turboprop.kingAirOEW (1 / 0.45359237) (emptyOf (fun n => E n 0) 0 0) (E "ac|propulsion|engine|rating" 0)
      (E "ac|propulsion|engine|rating" 0 * 745.7) 4 (E "ac|propulsion|propeller|diameter" 0 / 0.3048) fun n => E n 0 := by
  obtain ⟨E, hE, hi⟩ := (C120_kingAir (m := 2) o "v0v1").1 (fun _ _ => 1) (by simp)
  have hi : ∀ n, (!((kingAirGrp "ac|aero|polar|CD0_TO").outs.map Var.name).contains n) = true → E n = _ := fun n hn =>
    hi n (show n ∉ (kingAirGrp "ac|aero|polar|CD0_TO").outs.map Var.name by simpa using hn)
  refine ⟨E, hE, fun a => ?_, C119_kingAir o _ E hE, C119_kingAir_empty o _ E hE⟩
  rw [hi _ (by decide +kernel)]

/-- a climb of a TBM 850 with propellers at 2000 rpm -/
example (o : Opts) : ∃ E : String → Fin 3 → ℝ, (turbopropPhase (m := 2) tbmGrp "climb").Rel o E ∧ (∀ a, E "throttle" a = 1) ∧
    IsTurboprop o false 2000 "intfuel.fuel_used_initial" "climb" E := by
  obtain ⟨E, hE, hi⟩ := (C120_tbm (m := 2) o "climb").1 (fun n _ => if n = "propmodel.prop1.rpm" then 2000 else 1) (by simp)
  have hi : ∀ n, (!((tbmGrp "ac|aero|polar|CD0_cruise").outs.map Var.name).contains n) = true → E n = _ := fun n hn =>
    hi n (show n ∉ (tbmGrp "ac|aero|polar|CD0_cruise").outs.map Var.name by simpa using hn)
  refine ⟨E, hE, fun a => ?_, C119_tbm o _ E hE 2000 (fun a => ?_) ?_⟩
  · rw [hi _ (by decide +kernel)]; simp
  · rw [hi _ (by decide +kernel)]; simp
  · rw [hi _ (by decide +kernel), hi _ (by decide +kernel)]; simp

end Verif.Wiring
