import Verif.Props.Feedforward

namespace Verif.Wiring

open Verif.Units Verif.VectorComps

/-! ### C121: one pass of the default solver -/

/-- a pass through the group is possible from every state, leaves the inputs alone and ends in a converged state -/
def RunsOnce (g : Grp) (o : Opts) : Prop :=
  (∀ e, ∃ e', g.RunOnce o e e') ∧ ∀ e e', g.RunOnce o e e' → g.rel o e' ∧ ∀ v ∈ g.ins, e' v.name = e v.name

theorem runs_once {g : Grp} {o : Opts} (h : Plan g o) : RunsOnce g o := by
  refine ⟨pass_exists g o g.subs h.det, fun e e' hr => ⟨pass_forward h.forward hr, fun v hv => ?_⟩⟩
  exact pass_other hr _ (ins_not_outs h.forward hv)

/-- **C121** (proved part).  With the default solver one run of these groups gives their converged state. -/
theorem C121_run_once_partial (o : Opts) :
    RunsOnce propeller o ∧ RunsOnce turboprop o ∧ RunsOnce singleEmpty o ∧ RunsOnce twinEmpty o ∧ (∀ T, RunsOnce (jetEmpty T) o) ∧
    RunsOnce bwbEmpty o ∧ (∀ wing takeoff, RunsOnce (jetDrag wing takeoff) o) ∧ (∀ takeoff, RunsOnce (bwbDrag takeoff) o) ∧
    ∀ d hydrogen, RunsOnce (rubberTurbofan d hydrogen) o :=
  ⟨runs_once (plan_propeller o), runs_once (plan_turboprop o), runs_once (plan_singleEmpty o), runs_once (plan_twinEmpty o),
    fun T => runs_once (plan_jetEmpty T o), runs_once (plan_bwbEmpty o), fun w t => runs_once (plan_jetDrag w t o),
    fun t => runs_once (plan_bwbDrag t o), fun d y => runs_once (plan_rubberTurbofan d y o)⟩

/-! #### the twin turboprop

`failedengine`, which writes the throttle of the second engine, is added after that engine (`simple_turboprop.py:154-157`). -/

theorem twin_forward : Forward twinTurboprop twinOrder := .of twin_perm (by decide +kernel)

/-- the names written by subsystems -/
def written (l : List Sub) : List String := l.flatMap fun s => s.sys.outs.map s.outName

noncomputable def eng2Sub : Sub := ⟨"eng2", heavyTurboshaft, .only [("shaft_power_rating", "ac|propulsion|engine|rating")], .only []⟩

noncomputable def failedSub : Sub := ⟨"failedengine", failed "eng2throttle", names ["throttle", "propulsor_active"], .only []⟩

theorem twin_at_eng2 : twinTurboprop.subs.take 2 ++ eng2Sub :: twinTurboprop.subs.drop 3 = twinTurboprop.subs := rfl

theorem twin_at_failed : twinTurboprop.subs.take 4 ++ failedSub :: twinTurboprop.subs.drop 5 = twinTurboprop.subs := rfl

/-- **C121** (twin turboprop).  In one pass the second engine runs with the throttle that the pass before has left (1 before the first),
whatever the throttle of the pass is. -/
theorem C121_twin_lags (o : Opts) (e e' : String → ℝ) (h : twinTurboprop.RunOnce o e e') :
    e' "eng2.shaft_power_out" = e "ac|propulsion|engine|rating" * 745.7 * e "failedengine.eng2throttle" := by
  unfold Grp.RunOnce at h
  rw [← twin_at_eng2] at h
  obtain ⟨e₀, e₁, h0, ⟨T, hT, hin, h1⟩, h2⟩ := pass_at h
  have h0 : ∀ n, (!(written (twinTurboprop.subs.take 2)).contains n) = true → e₀ n = e n := fun n hn => h0 n (by simpa [written] using hn)
  have h2 : ∀ n, (!(written (twinTurboprop.subs.drop 3)).contains n) = true → e' n = e₁ n := fun n hn =>
    pass_other h2 n (by simpa [written] using hn)
  rw [h2 _ (by decide +kernel), h1]
  have hp := put_out (s := eng2Sub) (by decide +kernel) T e₀ (v := ⟨"shaft_power_out", "W", true, true⟩) (by decide +kernel)
  have hn : eng2Sub.outName ⟨"shaft_power_out", "W", true, true⟩ = "eng2.shaft_power_out" := by decide +kernel
  rw [hn] at hp
  rw [hp]
  have hT := ((heavyTurboshaft_rel o T).1 hT).1
  rw [hT, hin _ (by decide +kernel), hin _ (by decide +kernel)]
  show (Propulsion.turboshaft _ (twinTurboprop.view e₀ "eng2" "throttle") (twinTurboprop.view e₀ "eng2" "shaft_power_rating")).shaft = _
  views twinTurboprop twinTurboprop_links e₀
  rw [h0 _ (by decide +kernel), h0 _ (by decide +kernel)]
  exact mul_comm _ _

/-- **C121** is false of `TwinTurbopropPropulsionSystem`: at half throttle the first run leaves the second engine at full power. -/
theorem C121_twin_false (o : Opts) : ¬RunsOnce twinTurboprop o := by
  rintro ⟨hex, hrun⟩
  obtain ⟨e', h⟩ := hex fun n => if n = "throttle" then 1 / 2 else 1
  obtain ⟨hrel, hin⟩ := hrun _ _ h
  have hl := C121_twin_lags o _ _ h
  have hin : ∀ n ∈ twinTurboprop.ins.map Var.name, e' n = if n = "throttle" then 1 / 2 else 1 := fun n hn => by
    obtain ⟨v, hv, rfl⟩ := List.mem_map.1 hn
    exact hin v hv
  revert hrel
  parts twinTurboprop [twinTurboprop, heavyTurboshaft_rel, C114_propeller, coefOf, failed_rel]
  views twinTurboprop twinTurboprop_links e'
  rintro ⟨-, -, ⟨g1, -⟩, -, hf, -⟩
  rw [g1, hf, hin "throttle" (by decide +kernel), hin "propulsor_active" (by decide +kernel),
    hin "ac|propulsion|engine|rating" (by decide +kernel)] at hl
  simp [Propulsion.turboshaft] at hl
  norm_num at hl

/-- **C121** (twin turboprop).  A second run with the same inputs converges. -/
theorem C121_twin_twice (o : Opts) (e e' e'' : String → ℝ) (h : twinTurboprop.RunOnce o e e') (h' : twinTurboprop.RunOnce o e' e'') :
    twinTurboprop.rel o e'' := by
  have F := twin_forward
  have hfail : ∀ a b, twinTurboprop.RunOnce o a b → b "failedengine.eng2throttle" = a "throttle" * a "propulsor_active" := by
    intro a b hr
    have hk : ∀ n ∈ twinTurboprop.ins.map Var.name, b n = a n := fun n hn => by
      obtain ⟨v, hv, rfl⟩ := List.mem_map.1 hn
      exact pass_other hr _ fun hm => ins_not_outs F hv ((twin_perm.flatMap_right _).mem_iff.2 hm)
    have hr' := hr
    unfold Grp.RunOnce at hr'
    rw [← twin_at_failed] at hr'
    have := pass_rel F (s := failedSub) (twin_at_failed ▸ twin_perm.symm) hr' fun v hv => .inl ?_
    · have := (failed_rel o _ _).1 this
      revert this
      show twinTurboprop.view b "failedengine" _ = twinTurboprop.view b "failedengine" _ * twinTurboprop.view b "failedengine" _ → _
      views twinTurboprop twinTurboprop_links b
      rw [hk "throttle" (by decide +kernel), hk "propulsor_active" (by decide +kernel)]
      exact id
    · revert v
      decide +kernel
  have hk : ∀ n ∈ twinTurboprop.ins.map Var.name, e' n = e n := fun n hn => by
    obtain ⟨v, hv, rfl⟩ := List.mem_map.1 hn
    exact pass_other h _ fun hm => ins_not_outs F hv ((twin_perm.flatMap_right _).mem_iff.2 hm)
  have hsame : e' "failedengine.eng2throttle" = e'' "failedengine.eng2throttle" := by
    rw [hfail _ _ h, hfail _ _ h', hk "throttle" (by decide +kernel), hk "propulsor_active" (by decide +kernel)]
  -- every other subsystem reads forward
  have hread : ∀ i (hi : i < 6), ∀ v ∈ (twinTurboprop.subs[i]'hi).sys.ins,
      (∀ r ∈ twinTurboprop.subs.drop i, ∀ w ∈ r.sys.outs, r.outName w ≠ twinTurboprop.feed (twinTurboprop.subs[i]'hi) v) ∨
      twinTurboprop.feed (twinTurboprop.subs[i]'hi) v = "failedengine.eng2throttle" := by decide +kernel
  intro s hs
  obtain ⟨i, hi, rfl⟩ := List.mem_iff_getElem.1 hs
  have hd : twinTurboprop.subs.take i ++ twinTurboprop.subs[i] :: twinTurboprop.subs.drop (i + 1) = twinTurboprop.subs := by
    rw [List.getElem_cons_drop, List.take_append_drop]
  have hp : (twinTurboprop.subs.take i ++ twinTurboprop.subs[i] :: twinTurboprop.subs.drop (i + 1)).Perm twinOrder := by
    rw [hd]
    exact twin_perm.symm
  unfold Grp.RunOnce at h'
  have h'' := h'
  rw [← hd] at h''
  refine pass_rel F hp h'' fun v hv => ?_
  rcases hread i hi v hv with hr | hr
  · left
    rwa [List.getElem_cons_drop]
  · right
    rw [hr, hsame]

/-- from the state before the first run: throttle 1/2, rating 1 hp, the throttle of the second engine at its default -/
example (o : Opts) : ∃ e e' e'', e "throttle" = 1 / 2 ∧ twinTurboprop.RunOnce o e e' ∧ twinTurboprop.RunOnce o e' e'' ∧
    e' "eng2.shaft_power_out" = 745.7 ∧ twinTurboprop.rel o e'' := by
  have hd : ∀ s ∈ twinTurboprop.subs, s.sys.Det o := fun s hs => (det_twin o) s hs
  obtain ⟨e', h⟩ := pass_exists twinTurboprop o _ hd fun n => if n = "throttle" then 1 / 2 else 1
  obtain ⟨e'', h'⟩ := pass_exists twinTurboprop o _ hd e'
  refine ⟨_, e', e'', ?_, h, h', ?_, C121_twin_twice o _ _ _ h h'⟩
  · simp
  · rw [C121_twin_lags o _ _ h]
    simp

/-- a turboprop with 850 hp at half throttle, run once -/
example (o : Opts) : ∃ e e', e "throttle" = 1 / 2 ∧ turboprop.RunOnce o e e' ∧ turboprop.rel o e' ∧ e' "throttle" = 1 / 2 := by
  obtain ⟨hex, hrun⟩ := (C121_run_once_partial o).2.1
  obtain ⟨e', h⟩ := hex fun n => if n = "throttle" then 1 / 2 else 850
  refine ⟨_, e', ?_, h, (hrun _ _ h).1, ?_⟩
  · simp
  · have := (hrun _ _ h).2
    have hm : (⟨"throttle", "", true, true⟩ : Var) ∈ turboprop.ins := by decide +kernel
    rw [this _ hm]
    simp

end Verif.Wiring
