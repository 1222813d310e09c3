import Verif.Model.WiringVlm
import Verif.Props.WiringAirplanes2
import Verif.Props.DragPolar

namespace Verif.Wiring

open Verif.Units Verif.VectorComps

variable {m : ℕ}

theorem vlmGrp_links : vlmGrp.links =
    [⟨"ode_integ", "fuel_used_final", "fuel_used_final", "kg", "kg"⟩, ⟨"ode_integ", "fuel_used", "fuel_used", "kg", "kg"⟩,
     ⟨"ode_integ", "duration", "ode_integ.duration", "s", "s"⟩,
     ⟨"ode_integ", "fuel_flow", "fuel_flow", "kg/s", "(kg) / (s)"⟩,
     ⟨"ode_integ", "fuel_used_initial", "fuel_used_initial", "kg", "kg"⟩,
     ⟨"propmodel", "thrust", "propmodel.thrust", "lbf", "lbf"⟩,
     ⟨"propmodel", "fuel_flow", "propmodel.fuel_flow", "lbm/s", "lbm/s"⟩,
     ⟨"propmodel", "T4", "propmodel.T4", "degR", "degR"⟩, ⟨"propmodel", "throttle", "throttle", "", ""⟩,
     ⟨"propmodel", "fltcond|h", "fltcond|h", "ft", "ft"⟩, ⟨"propmodel", "fltcond|M", "fltcond|M", "", ""⟩,
     ⟨"doubler", "thrust", "thrust", "kN", "kN"⟩, ⟨"doubler", "fuel_flow", "fuel_flow", "kg/s", "kg/s"⟩,
     ⟨"doubler", "thrust_in", "propmodel.thrust", "lbf", "kN"⟩,
     ⟨"doubler", "fuel_flow_in", "propmodel.fuel_flow", "lbm/s", "kg/s"⟩, ⟨"drag", "drag", "drag", "N", "N"⟩,
     ⟨"drag", "alpha_bal.alpha", "drag.alpha_bal.alpha", "deg", "deg"⟩, ⟨"drag", "fltcond|M", "fltcond|M", "", ""⟩,
     ⟨"drag", "fltcond|h", "fltcond|h", "ft", "m"⟩, ⟨"drag", "ac|geom|wing|S_ref", "ac|geom|wing|S_ref", "m**2", "m**2"⟩,
     ⟨"drag", "ac|geom|wing|AR", "ac|geom|wing|AR", "", ""⟩, ⟨"drag", "ac|geom|wing|taper", "ac|geom|wing|taper", "", ""⟩,
     ⟨"drag", "ac|geom|wing|c4sweep", "ac|geom|wing|c4sweep", "deg", "deg"⟩,
     ⟨"drag", "ac|geom|wing|twist", "ac|geom|wing|twist", "deg", "deg"⟩,
     ⟨"drag", "ac|geom|wing|toverc", "drag.ac|geom|wing|toverc", "", ""⟩,
     ⟨"drag", "fltcond|TempIncrement", "drag.fltcond|TempIncrement", "degC", "degC"⟩,
     ⟨"drag", "fltcond|CL", "fltcond|CL", "", ""⟩, ⟨"drag", "fltcond|q", "fltcond|q", "Pa", "Pa"⟩,
     ⟨"drag", "ac|aero|CD_nonwing", "ac|aero|CD_nonwing", "", ""⟩, ⟨"OEW", "OEW", "OEW", "kg", "kg"⟩,
     ⟨"OEW", "x", "ac|weights|OEW", "kg", "kg"⟩, ⟨"weight", "weight", "weight", "kg", "kg"⟩,
     ⟨"weight", "ac|weights|MTOW", "ac|weights|MTOW", "kg", "kg"⟩, ⟨"weight", "fuel_used", "fuel_used", "kg", "kg"⟩] := by
  decide +kernel


set_option maxHeartbeats 2000000 in
theorem vlmFed_links : (fed b738Dvs vlmGrp).links =
    [⟨"dv_comp", "ac|aero|CLmax_TO", "ac|aero|CLmax_TO", "", ""⟩, ⟨"dv_comp", "ac|aero|polar|e", "ac|aero|polar|e", "", ""⟩,
     ⟨"dv_comp", "ac|aero|polar|CD0_TO", "ac|aero|polar|CD0_TO", "", ""⟩,
     ⟨"dv_comp", "ac|aero|polar|CD0_cruise", "ac|aero|polar|CD0_cruise", "", ""⟩,
     ⟨"dv_comp", "ac|geom|wing|S_ref", "ac|geom|wing|S_ref", "m**2", "m**2"⟩,
     ⟨"dv_comp", "ac|geom|wing|AR", "ac|geom|wing|AR", "", ""⟩,
     ⟨"dv_comp", "ac|geom|wing|c4sweep", "ac|geom|wing|c4sweep", "deg", "deg"⟩,
     ⟨"dv_comp", "ac|geom|wing|taper", "ac|geom|wing|taper", "", ""⟩,
     ⟨"dv_comp", "ac|geom|wing|toverc", "ac|geom|wing|toverc", "", ""⟩,
     ⟨"dv_comp", "ac|geom|hstab|S_ref", "ac|geom|hstab|S_ref", "m**2", "m**2"⟩,
     ⟨"dv_comp", "ac|geom|hstab|c4_to_wing_c4", "ac|geom|hstab|c4_to_wing_c4", "m", "m"⟩,
     ⟨"dv_comp", "ac|geom|vstab|S_ref", "ac|geom|vstab|S_ref", "m**2", "m**2"⟩,
     ⟨"dv_comp", "ac|geom|nosegear|length", "ac|geom|nosegear|length", "ft", "ft"⟩,
     ⟨"dv_comp", "ac|geom|maingear|length", "ac|geom|maingear|length", "ft", "ft"⟩,
     ⟨"dv_comp", "ac|weights|MTOW", "ac|weights|MTOW", "kg", "kg"⟩,
     ⟨"dv_comp", "ac|weights|W_fuel_max", "ac|weights|W_fuel_max", "kg", "kg"⟩,
     ⟨"dv_comp", "ac|weights|MLW", "ac|weights|MLW", "kg", "kg"⟩,
     ⟨"dv_comp", "ac|weights|OEW", "ac|weights|OEW", "kg", "kg"⟩,
     ⟨"dv_comp", "ac|propulsion|engine|rating", "ac|propulsion|engine|rating", "lbf", "lbf"⟩,
     ⟨"dv_comp", "ac|num_passengers_max", "ac|num_passengers_max", "", ""⟩,
     ⟨"dv_comp", "ac|q_cruise", "ac|q_cruise", "lb*ft**-2", "lb*ft**-2"⟩,
     ⟨"acmodel", "fuel_used_final", "fuel_used_final", "kg", "kg"⟩, ⟨"acmodel", "fuel_used", "fuel_used", "kg", "kg"⟩,
     ⟨"acmodel", "propmodel.thrust", "propmodel.thrust", "lbf", "lbf"⟩,
     ⟨"acmodel", "propmodel.fuel_flow", "propmodel.fuel_flow", "lbm/s", "lbm/s"⟩,
     ⟨"acmodel", "propmodel.T4", "propmodel.T4", "degR", "degR"⟩, ⟨"acmodel", "thrust", "thrust", "kN", "kN"⟩,
     ⟨"acmodel", "fuel_flow", "fuel_flow", "kg/s", "kg/s"⟩, ⟨"acmodel", "drag", "drag", "N", "N"⟩,
     ⟨"acmodel", "drag.alpha_bal.alpha", "drag.alpha_bal.alpha", "deg", "deg"⟩, ⟨"acmodel", "OEW", "OEW", "kg", "kg"⟩,
     ⟨"acmodel", "weight", "weight", "kg", "kg"⟩, ⟨"acmodel", "ode_integ.duration", "ode_integ.duration", "s", "s"⟩,
     ⟨"acmodel", "fuel_used_initial", "fuel_used_initial", "kg", "kg"⟩, ⟨"acmodel", "throttle", "throttle", "", ""⟩,
     ⟨"acmodel", "fltcond|h", "fltcond|h", "ft", "ft"⟩, ⟨"acmodel", "fltcond|M", "fltcond|M", "", ""⟩,
     ⟨"acmodel", "ac|geom|wing|S_ref", "ac|geom|wing|S_ref", "m**2", "m**2"⟩,
     ⟨"acmodel", "ac|geom|wing|AR", "ac|geom|wing|AR", "", ""⟩,
     ⟨"acmodel", "ac|geom|wing|taper", "ac|geom|wing|taper", "", ""⟩,
     ⟨"acmodel", "ac|geom|wing|c4sweep", "ac|geom|wing|c4sweep", "deg", "deg"⟩,
     ⟨"acmodel", "ac|geom|wing|twist", "ac|geom|wing|twist", "deg", "deg"⟩,
     ⟨"acmodel", "drag.ac|geom|wing|toverc", "drag.ac|geom|wing|toverc", "", ""⟩,
     ⟨"acmodel", "drag.fltcond|TempIncrement", "drag.fltcond|TempIncrement", "degC", "degC"⟩,
     ⟨"acmodel", "fltcond|CL", "fltcond|CL", "", ""⟩, ⟨"acmodel", "fltcond|q", "fltcond|q", "Pa", "Pa"⟩,
     ⟨"acmodel", "ac|aero|CD_nonwing", "ac|aero|CD_nonwing", "", ""⟩,
     ⟨"acmodel", "ac|weights|OEW", "ac|weights|OEW", "kg", "kg"⟩,
     ⟨"acmodel", "ac|weights|MTOW", "ac|weights|MTOW", "kg", "kg"⟩] := by
  decide +kernel


/-! ### C132: the jet with the vortex lattice drag polar -/

/-- the group is accepted with the variables of B738_VLM_drag.py:113-139, which are those of B738.py; what then is left open -/
theorem C132_setup :
    vlmGrp.problems = [.ambiguous "fltcond|h"] ∧ (fed b738Dvs vlmGrp).problems = [] ∧
    missionInputs [⟨"ode_integ.duration", "s", false, false⟩, ⟨"fuel_used_initial", "kg", false, true⟩, ⟨"fltcond|h", "ft", true, true⟩,
      ⟨"ac|geom|wing|twist", "deg", false, true⟩, ⟨"ac|aero|CD_nonwing", "", false, true⟩,
      ⟨"drag.ac|geom|wing|toverc", "", false, false⟩, ⟨"drag.fltcond|TempIncrement", "degC", false, false⟩] (fed b738Dvs vlmGrp).ins ∧
    hasOutputs vlmGrp ∧
    (∃ v ∈ (fed b738Dvs vlmGrp).outs, v.name = "ac|geom|wing|toverc") ∧
    ∃ v ∈ (fed b738Dvs vlmGrp).ins, v.name = "drag.ac|geom|wing|toverc" := by
  unfold missionInputs hasOutputs
  decide +kernel

/-- what the surrogate of the polar is asked for at a node -/
def vlmAsked (e : String → ℝ) : List ℝ :=
  [e "fltcond|M", e "drag.alpha_bal.alpha", e "fltcond|h" * 0.3048, e "ac|geom|wing|S_ref", e "ac|geom|wing|AR", e "ac|geom|wing|taper",
    e "ac|geom|wing|c4sweep", e "ac|geom|wing|twist", e "drag.ac|geom|wing|toverc", e "drag.fltcond|TempIncrement"]

theorem vlm_rel_iff (o : Opts) (e : String → ℝ) : vlmGrp.rel o e ↔
    (e "propmodel.thrust" = o.map "thrust" [e "throttle", e "fltcond|h", e "fltcond|M"] ∧
      e "propmodel.fuel_flow" = o.map "fuel_flow" [e "throttle", e "fltcond|h", e "fltcond|M"] ∧
      e "propmodel.T4" = o.map "T4" [e "throttle", e "fltcond|h", e "fltcond|M"]) ∧
    (e "thrust" = 2 * (e "propmodel.thrust" * (0.45359237 * 9.80665) / 1000) ∧ e "fuel_flow" = 2 * (e "propmodel.fuel_flow" * 0.45359237)) ∧
    (o.map "CL" (vlmAsked e) = e "fltcond|CL" ∧
      e "drag" = e "fltcond|q" * e "ac|geom|wing|S_ref" * (o.map "CD" (vlmAsked e) + e "ac|aero|CD_nonwing")) ∧
    e "OEW" = e "ac|weights|OEW" ∧ e "weight" = e "ac|weights|MTOW" - e "fuel_used" := by
  have hl := vlmGrp_links
  parts vlmGrp [vlmGrp, engineDeck_rel, doubler, passthru, vlmPolar, weightSub, weightSys_rel, integ_rel]
  simp only [vlmShape, List.map_cons, List.map_nil]
  views vlmGrp hl e
  simp only [conv_lbf_kN, conv_lbm_kg, Aircraft.doubled, DragPolar.balance_zero, DragPolar.vlmDrag, vlmAsked]


/-- in the converged aircraft model the variable `n` of the problem may change and nothing else has to -/
def unread (g : Grp) (n : String) : Prop := ∀ (o : Opts) (e : String → ℝ), g.rel o e → ∀ t, g.rel o (Function.update e n t)

theorem look_update (e : String → ℝ) (n s x : String) (t : ℝ) (l : List Link) (h : ∀ k ∈ l, k.sub = s → k.src ≠ n) :
    look (Function.update e n t) s x l = look e s x l := by
  induction l with
  | nil => rfl
  | cons k l ih =>
    rw [List.forall_mem_cons] at h
    unfold look
    rw [ih h.2]
    split_ifs with hk
    · rw [Function.update_of_ne (h.1 hk.1)]
    · rfl

/-- a variable which only the design variables know -/
theorem unread_of (dvs : List Var) (g : Grp) (n : String) (h : ∀ k ∈ (fed dvs g).links, k.sub = "acmodel" → k.src ≠ n) :
    unread (fed dvs g) n := by
  intro o e he t s hs
  have h1 := he s hs
  simp only [fed, List.mem_cons, List.not_mem_nil, or_false] at hs
  rcases hs with rfl | rfl
  · trivial
  · have : (fed dvs g).view (Function.update e n t) "acmodel" = (fed dvs g).view e "acmodel" :=
      funext fun x => look_update e n _ x t _ h
    simpa only [this] using h1

/-- **C132** (the thickness of the airplane reaching its drag is refuted).  The model is fed with the thickness ratio of the airplane,
and a converged state stays converged whatever that ratio is changed to: drag, fuel and weight do not know of it.  The same goes for the
temperature increment of the mission. -/
theorem C132_unread : unread (fed b738Dvs vlmGrp) "ac|geom|wing|toverc" ∧ unread (fed b738Dvs vlmGrp) "fltcond|TempIncrement" := by
  have h : ∀ k ∈ (fed b738Dvs vlmGrp).links, k.sub = "acmodel" → k.src ≠ "ac|geom|wing|toverc" ∧ k.src ≠ "fltcond|TempIncrement" := by
    rw [vlmFed_links]
    decide +kernel
  exact ⟨unread_of _ _ _ fun k hk hs => (h k hk hs).1, unread_of _ _ _ fun k hk hs => (h k hk hs).2⟩

/-- **C132**.  In a converged state of the model the lift of the surrogate at the angle of attack is that asked for, the drag is that of
the same wing at the same angle, and the wing is that of the airplane but for its thickness, which is the one left at the polar. -/
theorem C132_vlm (o : Opts) (E : String → Fin (m + 1) → ℝ) (h : vlmPhase.Rel o E) (hT : E "ode_integ.duration" 0 = E "duration" 0) :
    (∀ a, E "thrust" a = 2 * (o.map "thrust" [E "throttle" a, E "fltcond|h" a, E "fltcond|M" a] * (0.45359237 * 9.80665) / 1000)) ∧
    E "fuel_flow" = (jetSeg o E).flow ∧
    (∀ a, ∃ wing, wing = [E "ac|geom|wing|S_ref" 0, E "ac|geom|wing|AR" 0, E "ac|geom|wing|taper" 0, E "ac|geom|wing|c4sweep" 0,
        E "ac|geom|wing|twist" 0, E "drag.ac|geom|wing|toverc" 0, E "drag.fltcond|TempIncrement" 0] ∧
      o.map "CL" (E "fltcond|M" a :: E "drag.alpha_bal.alpha" a :: E "fltcond|h" a * 0.3048 :: wing) = E "fltcond|CL" a ∧
      E "drag" a = E "fltcond|q" a * E "ac|geom|wing|S_ref" 0 *
        (o.map "CD" (E "fltcond|M" a :: E "drag.alpha_bal.alpha" a :: E "fltcond|h" a * 0.3048 :: wing) + E "ac|aero|CD_nonwing" 0)) ∧
    E "weight" = Aircraft.weight (E "ac|weights|MTOW" 0) (Aircraft.segFuel (Integrals.simpsonTri m) (E "fuel_used_initial" 0) (jetSeg o E)) ∧
    E "fuel_used_final" 0 = Aircraft.segFinal (Integrals.simpsonTri m) (E "fuel_used_initial" 0) (jetSeg o E) ∧
    E "OEW" 0 = E "ac|weights|OEW" 0 := by
  have hn := fun a => (vlm_rel_iff o _).1 (h.node a)
  have hs : ∀ n ∈ ["ac|weights|MTOW", "ac|geom|wing|S_ref", "ac|geom|wing|AR", "ac|geom|wing|taper", "ac|geom|wing|c4sweep",
      "ac|geom|wing|twist", "drag.ac|geom|wing|toverc", "drag.fltcond|TempIncrement", "ac|aero|CD_nonwing"], ∀ a, E n a = E n 0 :=
    scalars_of h _ (by simp only [vlmPhase]; decide +kernel)
  have hl := vlmGrp_links
  have ho := h.over
  clear h
  simp only [vlmPhase] at ho
  overs [fuelIntegrand] vlmGrp hl E at ho
  simp only [conv_flow] at ho
  obtain ⟨h1, h2⟩ := ho
  rw [hT] at h1 h2
  simp only [List.forall_mem_cons, List.not_mem_nil, false_imp_iff, implies_true, and_true] at hs
  obtain ⟨s0, s1, s2, s3, s4, s5, s6, s7, s8⟩ := hs
  have hf : E "fuel_flow" = (jetSeg o E).flow := by
    funext a
    obtain ⟨⟨-, h4, -⟩, ⟨-, h5⟩, -⟩ := hn a
    rw [h5, h4]
    rfl
  refine ⟨fun a => ?_, hf, fun a => ⟨_, rfl, ?_, ?_⟩, ?_, ?_, (hn 0).2.2.2.1⟩
  · obtain ⟨⟨h4, -, -⟩, ⟨h5, -⟩, -⟩ := hn a
    rw [h5, h4]
  · rw [← s1 a, ← s2 a, ← s3 a, ← s4 a, ← s5 a, ← s6 a, ← s7 a]
    exact (hn a).2.2.1.1
  · rw [← s1 a, ← s2 a, ← s3 a, ← s4 a, ← s5 a, ← s6 a, ← s7 a, ← s8 a]
    exact (hn a).2.2.1.2
  · funext a
    have h1' : E "fuel_used" = _ := h1
    rw [(hn a).2.2.2.2, Aircraft.C92_weight, s0 a, h1']
    unfold Aircraft.segFuel
    rw [← hf]
    rfl
  · rw [h2 0]
    unfold Aircraft.segFinal
    rw [← hf]
    rfl

/-- the state of the jet over the inputs and angles of attack `I` -/
noncomputable def vlmState (o : Opts) (I : String → Fin (m + 1) → ℝ) (n : String) : Fin (m + 1) → ℝ :=
  if n = "drag" then fun a => I "fltcond|q" a * I "ac|geom|wing|S_ref" a *
    (o.map "CD" (vlmAsked fun x => I x a) + I "ac|aero|CD_nonwing" a)
  else jetState o "" I n

/-- for every flight whose lift the wing can give there is a converged state of the jet -/
theorem C132_exists (o : Opts) (I : String → Fin (m + 1) → ℝ)
    (hI : ∀ v ∈ vlmGrp.ins, v.vec = false → ∀ a, I v.name a = I v.name 0)
    (hL : ∀ a, o.map "CL" (vlmAsked fun x => I x a) = I "fltcond|CL" a) :
    ∃ E, vlmPhase.Rel o E ∧ E "duration" = I "duration" ∧ E "drag.alpha_bal.alpha" = I "drag.alpha_bal.alpha" ∧
      ∀ v ∈ vlmGrp.ins, E v.name = I v.name := by
  have hl := vlmGrp_links
  have hd : (∀ v ∈ vlmGrp.ins, v.name ∉ ["propmodel.thrust", "propmodel.fuel_flow", "propmodel.T4", "thrust",
        "fuel_flow", "fuel_used", "fuel_used_final", "drag", "OEW", "weight"]) ∧
      (∀ v ∈ vlmGrp.outs, v.vec = false → v.name ∈ ["fuel_used_final", "OEW"]) ∧
      ∃ w ∈ vlmGrp.ins, w.name = "ac|weights|OEW" ∧ w.vec = false := by
    decide +kernel
  obtain ⟨d1, d2, w, w1, w2, w3⟩ := hd
  have hin : ∀ v ∈ vlmGrp.ins, vlmState o I v.name = I v.name := by
    intro v hv
    have := d1 v hv
    simp only [List.mem_cons, List.not_mem_nil, or_false, not_or] at this
    simp [vlmState, jetState, this]
  refine ⟨vlmState o I, ⟨?_, ?_, ?_⟩, by simp [vlmState, jetState], by simp [vlmState, jetState], hin⟩
  · intro v hv hs a
    have hv' : v ∈ vlmGrp.ins ++ vlmGrp.outs := hv
    rcases List.mem_append.1 hv' with h | h
    · rw [hin v h]; exact hI v h hs a
    · have hO := hI w w1 w3 a
      rw [w2] at hO
      have h3 := d2 v h hs
      simp only [List.mem_cons, List.not_mem_nil, or_false] at h3
      rcases h3 with h3 | h3 <;> rw [h3]
      · simp [vlmState, jetState]
      · simp [vlmState, jetState, hO]
  · intro a
    show vlmGrp.rel o fun n => vlmState o I n a
    rw [vlm_rel_iff]
    have hq : vlmAsked (fun x => vlmState o I x a) = vlmAsked fun x => I x a := by simp [vlmAsked, vlmState, jetState]
    rw [hq, hL a]
    simp [vlmState, jetState]
  · simp only [vlmPhase]
    generalize he : vlmState o I = E
    overs [fuelIntegrand] vlmGrp hl E
    simp only [conv_flow]
    subst he
    simp [vlmState, jetState]

/-- a wing whose lift coefficient is a tenth of the angle of attack and whose drag coefficient is a tenth of the thickness ratio -/
noncomputable def thickWing : Opts := ⟨fun _ => 0, fun n l => if n = "CL" then l[1]?.getD 0 / 10 else if n = "CD" then l[8]?.getD 0 / 10 else 0⟩

/-- it flies at 5 degrees with a lift coefficient of 0.5, at 1000 Pa, with 100 m² and the thickness ratio `t` -/
noncomputable def thickState (t : ℝ) : String → ℝ :=
  table [("fltcond|CL", 0.5), ("drag.alpha_bal.alpha", 5), ("fltcond|q", 1000), ("ac|geom|wing|S_ref", 100),
    ("drag.ac|geom|wing|toverc", t), ("drag", 10000 * t), ("ac|weights|MTOW", 70000), ("weight", 70000)]

/-- **C132**.  The thickness at the polar is one that can matter: the same airplane with another value there has another drag. -/
theorem C132_polar_reads (t : ℝ) : vlmGrp.rel thickWing (thickState t) ∧ thickState t "drag" = 10000 * t := by
  rw [vlm_rel_iff]
  simp [thickWing, thickState, table, vlmAsked, List.lookup]
  norm_num
  ring_nf

example : ∃ e e', vlmGrp.rel thickWing e ∧ vlmGrp.rel thickWing e' ∧ e "fltcond|CL" = e' "fltcond|CL" ∧ e "drag" < e' "drag" :=
  ⟨_, _, (C132_polar_reads 0.12).1, (C132_polar_reads 0.15).1, by simp [thickState, table, List.lookup],
    by rw [(C132_polar_reads _).2, (C132_polar_reads _).2]; norm_num⟩

theorem vlmFed_rel (o : Opts) (e : String → ℝ) : (fed b738Dvs vlmGrp).rel o e ↔ vlmGrp.rel o e := by
  have hl := vlmFed_links
  rw [vlm_rel_iff o e]
  parts (fed b738Dvs vlmGrp) [fed, vlm_rel_iff, vlmAsked]
  views (fed b738Dvs vlmGrp) hl e

/-- the airplane with design variables in a converged state, of whatever thickness it is said to be -/
example (t : ℝ) : (fed b738Dvs vlmGrp).rel thickWing (Function.update (thickState 0.12) "ac|geom|wing|toverc" t) := by
  exact C132_unread.1 _ _ ((vlmFed_rel _ _).2 (C132_polar_reads _).1) t

/-- a flight of this airplane with three nodes: 1200 N, of the twelve percent of the polar -/
example : ∃ E : String → Fin 3 → ℝ, vlmPhase.Rel thickWing E ∧ ∀ a, E "drag" a = 1200 := by
  obtain ⟨E, h, hd, ha, hi⟩ := C132_exists (m := 2) thickWing (fun n _ => thickState 0.12 n) (fun _ _ _ _ => rfl)
    (by simp [thickWing, thickState, table, vlmAsked, List.lookup]; norm_num)
  have hi' : ∀ n ∈ ["fltcond|q", "ac|geom|wing|S_ref", "drag.ac|geom|wing|toverc", "ac|aero|CD_nonwing"], E n = fun _ => thickState 0.12 n := by
    have : ∀ n ∈ ["fltcond|q", "ac|geom|wing|S_ref", "drag.ac|geom|wing|toverc", "ac|aero|CD_nonwing"], ∃ v ∈ vlmGrp.ins, v.name = n := by
      decide +kernel
    intro n hn
    obtain ⟨v, hv, rfl⟩ := this n hn
    exact hi v hv
  simp only [List.forall_mem_cons, List.not_mem_nil, false_imp_iff, implies_true, and_true] at hi'
  obtain ⟨i1, i2, i3, i4⟩ := hi'
  refine ⟨E, h, fun a => ?_⟩
  have := ((vlm_rel_iff _ _).1 (h.node a)).2.2.1.2
  simp only [i1, i2, i3, i4, vlmAsked] at this
  rw [this]
  simp [thickWing, thickState, table, List.lookup]
  norm_num

end Verif.Wiring
