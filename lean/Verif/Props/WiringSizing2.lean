import Verif.Props.WiringSizing
import Verif.Proof.FeedComponents

/-!
# C125: converged states of the outer group of the sized airplane
-/

namespace Verif.Wiring

open Verif.Units

attribute [local instance 10000] fastString

/-- the design `D₀` with take-off weight `W` and mission fuel `F`, before its empty weight -/
noncomputable def sizedState (D₀ : String → ℝ) (W F : ℝ) (n : String) : ℝ :=
  let sweep := D₀ "ac|geom|wing|c4sweep" * (Real.pi / 180)
  if n = "tail_lever_arm_estimate.c4_to_wing_c4" then 0.5 * D₀ "ac|geom|fuselage|length"
  else if n = "ac|geom|wing|MAC" then Geometry.macTrap (D₀ "ac|geom|wing|S_ref") (D₀ "ac|geom|wing|AR") (D₀ "ac|geom|wing|taper")
  else if n = "ac|geom|hstab|S_ref" then (sizedPlane D₀).Sh
  else if n = "ac|geom|vstab|S_ref" then (sizedPlane D₀).Sv
  else if n = "ac|geom|nacelle|S_wet" then Geometry.cylinder (D₀ "ac|geom|nacelle|length") (D₀ "ac|geom|nacelle|diameter")
  else if n = "ac|geom|fuselage|S_wet" then Geometry.cylinder (D₀ "ac|geom|fuselage|length") (D₀ "ac|geom|fuselage|height")
  else if n = "ac|weights|MTOW" then W
  else if n = "ac|weights|MLW" then 0.8 * W
  else if n = "mission.loiter.fuel_burn_integ.fuel_burn_final" then F
  else if n = "ac|aero|CLmax_cruise" then Aero.cleanCL 1 (D₀ "ac|aero|airfoil_Cl_max") sweep
  else if n = "ac|aero|CLmax_TO" then Aero.flapCL ⟨0.2, 0.9, 0.1, 0.8, 1⟩ ⟨D₀ "ac|aero|takeoff_flap_deg", sweep,
    Aero.cleanCL 1 (D₀ "ac|aero|airfoil_Cl_max") sweep, D₀ "ac|geom|wing|toverc"⟩
  else D₀ n

/-- the names of the empty weight group in the outer one -/
def emptyName (n : String) : String := if n = "OEW" then "ac|weights|OEW" else "empty_weight." ++ n

/-- the same with the state `V` of the empty weight group and a payload that closes the weight balance -/
noncomputable def sizedWith (D₀ : String → ℝ) (W F : ℝ) (V : String → ℝ) (n : String) : ℝ :=
  match (jetEmpty false).outs.find? fun v => decide (emptyName v.name = n) with
  | some v => V v.name
  | none => if n = "ac|weights|W_payload" then W - V "OEW" * 0.45359237 - F else sizedState D₀ W F n

theorem sizedWith_in (D₀ : String → ℝ) (W F : ℝ) (V : String → ℝ) : ∀ v ∈ (jetEmpty false).outs,
    sizedWith D₀ W F V (emptyName v.name) = V v.name := by
  have hi : ∀ v ∈ (jetEmpty false).outs, ∀ w ∈ (jetEmpty false).outs, emptyName w.name = emptyName v.name → w.name = v.name := by
    decide +kernel
  intro v hv
  unfold sizedWith
  split
  · rename_i w hw
    rw [hi v hv w (List.mem_of_find?_eq_some hw) (by simpa using List.find?_some hw)]
  · rename_i h
    exact absurd (List.find?_eq_none.1 h v hv) (by simp)

theorem sizedWith_out (D₀ : String → ℝ) (W F : ℝ) (V : String → ℝ) {n : String} (hn : n ∉ (jetEmpty false).outs.map fun v => emptyName v.name) :
    sizedWith D₀ W F V n = if n = "ac|weights|W_payload" then W - V "OEW" * 0.45359237 - F else sizedState D₀ W F n := by
  unfold sizedWith
  split
  · rename_i w hw
    exact absurd (List.mem_map.2 ⟨w, List.mem_of_find?_eq_some hw, by simpa using List.find?_some hw⟩) hn
  · rfl

theorem look_congr' {e e' : String → ℝ} {s x : String} :
    ∀ {l : List Link}, (∀ k ∈ l, k.sub = s → k.var = x → e k.src = e' k.src) → look e s x l = look e' s x l
  | [], _ => rfl
  | k :: l, h => by
    rw [look, look]
    split_ifs with hk
    · rw [h k List.mem_cons_self hk.1 hk.2]
    · exact look_congr' fun c hc => h c (List.mem_cons_of_mem _ hc)

theorem sizedWith_empty (o : Opts) (D₀ : String → ℝ) (W F : ℝ) (V : String → ℝ)
    (hn : ∀ n, n ∉ (jetEmpty false).outs.map Var.name → V n = sizedGrp.view (sizedState D₀ W F) "empty_weight" n) :
    sizedGrp.view (sizedWith D₀ W F V) "empty_weight" = V := by
  funext x
  by_cases hx : x ∈ (jetEmpty false).outs.map Var.name
  · have hl : ∀ v ∈ (jetEmpty false).outs, ∃ k ∈ sizedGrp.links, k.sub = "empty_weight" ∧ k.var = v.name ∧ k.src = emptyName v.name ∧
        k.unit = k.want := by
      rw [sizedGrp_links]
      decide +kernel
    obtain ⟨v, hv, rfl⟩ := List.mem_map.1 hx
    obtain ⟨k, hk, k1, k2, k3, k4⟩ := hl v hv
    have := view_all sizedGrp rfl (by rw [sizedGrp_links]; exact fast_nodup (by decide +kernel)) (sizedWith D₀ W F V) k hk
    rw [k1, k2, k3, k4, conv_self, sizedWith_in _ _ _ _ v hv] at this
    exact this
  · rw [hn x hx]
    have hl : ∀ k ∈ sizedGrp.links, k.sub = "empty_weight" → k.var ∉ (jetEmpty false).outs.map Var.name →
        k.src ∉ ((jetEmpty false).outs.map fun v => emptyName v.name) ∧ k.src ≠ "ac|weights|W_payload" := by
      rw [sizedGrp_links]
      decide +kernel
    apply look_congr'
    intro k hk k1 k2
    obtain ⟨a, b⟩ := hl k hk k1 (k2 ▸ hx)
    rw [sizedWith_out _ _ _ _ a, if_neg b]

/-- the names of the outer group other than those of the empty weight -/
def outerNames : List String := sizingDvs.map Var.name ++ ["tail_lever_arm_estimate.c4_to_wing_c4", "ac|geom|wing|MAC", "ac|geom|hstab|S_ref",
  "ac|geom|vstab|S_ref", "ac|geom|nacelle|S_wet", "ac|geom|fuselage|S_wet", "ac|weights|MTOW", "ac|weights|MLW",
  "mission.loiter.fuel_burn_integ.fuel_burn_final", "ac|aero|CLmax_cruise", "ac|aero|CLmax_TO"]

theorem sizedState_dvs (D₀ : String → ℝ) (W F : ℝ) : ∀ n ∈ sizingDvs.map Var.name, sizedState D₀ W F n = D₀ n := by
  have : ∀ n ∈ sizingDvs.map Var.name, n ∉ ["tail_lever_arm_estimate.c4_to_wing_c4", "ac|geom|wing|MAC", "ac|geom|hstab|S_ref",
    "ac|geom|vstab|S_ref", "ac|geom|nacelle|S_wet", "ac|geom|fuselage|S_wet", "ac|weights|MTOW", "ac|weights|MLW",
    "mission.loiter.fuel_burn_integ.fuel_burn_final", "ac|aero|CLmax_cruise", "ac|aero|CLmax_TO"] := by decide +kernel
  intro n hn
  have := this n hn
  simp only [List.mem_cons, List.not_mem_nil, or_false, not_or] at this
  simp [sizedState, this]

set_option maxHeartbeats 4000000 in
/-- **C125** (existence).  For every design, every take-off weight and every mission fuel there is a converged state of the outer group
with them; the payload is what is left. -/
theorem C125_designed_exists (o : Opts) (D₀ : String → ℝ) (W F : ℝ) : ∃ D, sizedGrp.rel o D ∧ D "ac|weights|MTOW" = W ∧
    D "mission.loiter.fuel_burn_integ.fuel_burn_final" = F ∧ ∀ v ∈ sizingDvs, v.name ≠ "ac|weights|W_payload" → D v.name = D₀ v.name := by
  obtain ⟨V, hV, hn⟩ := (det_jetEmpty false o).solve (sizedGrp.view (sizedState D₀ W F) "empty_weight")
  have hlook := sizedWith_empty o D₀ W F V hn
  have hrel : (jetEmpty false).rel o (sizedGrp.view (sizedWith D₀ W F V) "empty_weight") := by rw [hlook]; exact hV
  have hfree : ∀ n ∈ outerNames, n ∉ (jetEmpty false).outs.map fun v => emptyName v.name := by decide +kernel
  have ho : sizedWith D₀ W F V "ac|weights|OEW" = V "OEW" := by
    have : ∃ v ∈ (jetEmpty false).outs, v.name = "OEW" := by decide +kernel
    obtain ⟨v, hv, e⟩ := this
    have := sizedWith_in D₀ W F V v hv
    rw [e] at this
    exact this
  have hp : sizedWith D₀ W F V "ac|weights|W_payload" = W - V "OEW" * 0.45359237 - F := by
    rw [sizedWith_out _ _ _ _ (hfree _ (by decide +kernel)), if_pos rfl]
  have hs : ∀ n ∈ outerNames, n ≠ "ac|weights|W_payload" → sizedWith D₀ W F V n = sizedState D₀ W F n := fun n h1 h2 => by
    rw [sizedWith_out _ _ _ _ (hfree _ h1), if_neg h2]
  have hd : ∀ n ∈ sizingDvs.map Var.name, n ≠ "ac|weights|W_payload" → sizedWith D₀ W F V n = D₀ n := fun n h1 h2 => by
    rw [hs n (List.mem_append_left _ h1) h2, sizedState_dvs D₀ W F n h1]
  refine ⟨sizedWith D₀ W F V, ?_, ?_, ?_, ?_⟩
  · have s1 := hs "tail_lever_arm_estimate.c4_to_wing_c4" (by decide +kernel) (by decide)
    have s2 := hs "ac|geom|wing|MAC" (by decide +kernel) (by decide)
    have s3 := hs "ac|geom|hstab|S_ref" (by decide +kernel) (by decide)
    have s4 := hs "ac|geom|vstab|S_ref" (by decide +kernel) (by decide)
    have s5 := hs "ac|geom|nacelle|S_wet" (by decide +kernel) (by decide)
    have s6 := hs "ac|geom|fuselage|S_wet" (by decide +kernel) (by decide)
    have s7 := hs "ac|weights|MTOW" (by decide +kernel) (by decide)
    have s8 := hs "ac|weights|MLW" (by decide +kernel) (by decide)
    have s9 := hs "mission.loiter.fuel_burn_integ.fuel_burn_final" (by decide +kernel) (by decide)
    have s10 := hs "ac|aero|CLmax_cruise" (by decide +kernel) (by decide)
    have s11 := hs "ac|aero|CLmax_TO" (by decide +kernel) (by decide)
    have d1 := hd "ac|geom|fuselage|length" (by decide +kernel) (by decide)
    have d2 := hd "ac|geom|wing|S_ref" (by decide +kernel) (by decide)
    have d3 := hd "ac|geom|wing|AR" (by decide +kernel) (by decide)
    have d4 := hd "ac|geom|wing|taper" (by decide +kernel) (by decide)
    have d5 := hd "ac|geom|nacelle|length" (by decide +kernel) (by decide)
    have d6 := hd "ac|geom|nacelle|diameter" (by decide +kernel) (by decide)
    have d7 := hd "ac|geom|fuselage|height" (by decide +kernel) (by decide)
    have d8 := hd "ac|aero|airfoil_Cl_max" (by decide +kernel) (by decide)
    have d9 := hd "ac|aero|takeoff_flap_deg" (by decide +kernel) (by decide)
    have d10 := hd "ac|geom|wing|toverc" (by decide +kernel) (by decide)
    have d11 := hd "ac|geom|wing|c4sweep" (by decide +kernel) (by decide)
    clear hs hd hfree hlook hn hV
    generalize hD : sizedWith D₀ W F V = D at *
    clear hD
    parts sizedGrp [sizedGrp, lever_rel, mlw_rel, mtow_rel, vstabArea_rel, hstabArea_rel, wingMAC_rel, cylinderArea_rel, cleanCLmax_rel,
      flapCLmax_rel, sizedMission]
    simp only [hrel, true_and]
    clear hrel
    views sizedGrp sizedGrp_links D
    simp only [conv_areaFt, conv_areaM, conv_rad, conv_inch, conv_burned_lb, conv_burned, conv_kg_lb]
    rw [s1, s2, s3, s4, s5, s6, s7, s8, s9, s10, s11, d1, d2, d3, d4, d5, d6, d7, d8, d9, d10, d11, ho, hp]
    simp only [sizedState, String.reduceEq, if_false, if_true, sizedPlane, true_and]
    ring
  · rw [hs _ (by decide +kernel) (by decide)]; rfl
  · rw [hs _ (by decide +kernel) (by decide)]; rfl
  · exact fun v hv h => hd _ (List.mem_map_of_mem hv) h

/-- a design with a wing of 125 m², 79 t at take-off and 17 t of fuel: what is left for empty weight and payload -/
example (o : Opts) : ∃ D, sizedGrp.rel o D ∧ D "ac|geom|wing|S_ref" = 125 ∧ D "ac|weights|MTOW" = 79000 ∧
    D "ac|weights|OEW" * 0.45359237 + D "ac|weights|W_payload" = 62000 ∧ sizedGrp.view D "mission" "ac|geom|wing|S_ref" = 125 := by
  obtain ⟨D, h, h1, h2, h3⟩ := C125_designed_exists o (fun _ => 125) 79000 17000
  have d := C125_designed o D h
  have hS : D "ac|geom|wing|S_ref" = 125 := h3 ⟨"ac|geom|wing|S_ref", "m**2", false, true⟩ (by decide +kernel) (by decide)
  have := d.close
  refine ⟨D, h, hS, h1, by linarith, ?_⟩
  rw [d.other _ (by simp), hS]

end Verif.Wiring
