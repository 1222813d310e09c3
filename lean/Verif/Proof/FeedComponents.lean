import Verif.Proof.FeedSystems
import Verif.Model.WiringAirplanes

/-!
The components of the turboprop airplanes give all outputs, read inputs and options only, and their scalar outputs read scalars only.
-/

namespace Verif.Wiring

open Verif.Units Verif.VectorComps

/-- unfold a component and its formulas -/
macro "proper" "[" l:Lean.Parser.Tactic.simpLemma,* "]" : tactic =>
  `(tactic| (
    constructor
    · intro e
      simp [$l,*]
    · intro e e' h1 h2
      simp [$l,*] at h1 h2 ⊢
      simp [h1, h2]
    · intro e e' h1 h2
      simp [$l,*] at h1 h2 ⊢
      try simp [h1, h2]))

theorem proper_propCoefficients : Proper dPropCoefficients := by proper [dPropCoefficients, propCoefficients]
theorem proper_thrustCalc : Proper dThrustCalc := by proper [dThrustCalc, thrustCalc]
theorem proper_propellerWeight : Proper dPropellerWeight := by proper [dPropellerWeight, propellerWeight]
theorem proper_turboshaft : Proper dTurboshaft := by proper [dTurboshaft, turboshaft, Propulsion.turboshaft]
theorem proper_polarDrag (b : Bool) : Proper (dPolarDrag b) := by cases b <;> proper [dPolarDrag, polarDrag]
theorem proper_wingTP : Proper dWingTP := by proper [dWingTP, wingTP]
theorem proper_empennageTP : Proper dEmpennageTP := by proper [dEmpennageTP, empennageTP]
theorem proper_fuselageTP : Proper dFuselageTP := by proper [dFuselageTP, fuselageTP]
theorem proper_nacelleTP : Proper dNacelleTP := by proper [dNacelleTP, nacelleTP]
theorem proper_gearTP : Proper dGearTP := by proper [dGearTP, gearTP]
theorem proper_fuelSystemTP : Proper dFuelSystemTP := by proper [dFuelSystemTP, fuelSystemTP]
theorem proper_equipmentTP : Proper dEquipmentTP := by proper [dEquipmentTP, equipmentTP]

theorem proper_hstabConstJet : Proper dHstabConstJet := by proper [dHstabConstJet, hstabConstJet]
theorem proper_hstabJet : Proper dHstabJet := by proper [dHstabJet, hstabJet]
theorem proper_kwsJet : Proper dKwsJet := by proper [dKwsJet, kwsJet]
theorem proper_fuselageJet : Proper dFuselageJet := by proper [dFuselageJet, fuselageJet]
theorem proper_wingJet : Proper dWingJet := by proper [dWingJet, wingJet]
theorem proper_vstabJet (T : Bool) : Proper (dVstabJet T) := by proper [dVstabJet, vstabJet]
theorem proper_mainGearJet : Proper dMainGearJet := by proper [dMainGearJet, mainGearJet]
theorem proper_noseGearJet : Proper dNoseGearJet := by proper [dNoseGearJet, noseGearJet]
theorem proper_engineJet : Proper dEngineJet := by proper [dEngineJet, engineJet]
theorem proper_engineSystems : Proper dEngineSystems := by proper [dEngineSystems, engineSystems]
theorem proper_nacelleJet : Proper dNacelleJet := by proper [dNacelleJet, nacelleJet]
theorem proper_furnishing : Proper dFurnishing := by proper [dFurnishing, furnishing]
theorem proper_equipment : Proper dEquipment := by proper [dEquipment, equipment]
theorem proper_cabinBWB : Proper dCabinBWB := by proper [dCabinBWB, cabinBWB]
theorem proper_aftbodyBWB : Proper dAftbodyBWB := by proper [dAftbodyBWB, aftbodyBWB]
theorem proper_fuselageForm : Proper dFuselageForm := by proper [dFuselageForm, fuselageForm]
theorem proper_wingForm : Proper dWingForm := by proper [dWingForm, wingForm]
theorem proper_flapComp : Proper dFlapComp := by proper [dFlapComp, flapComp]
theorem proper_skinFriction : Proper dSkinFriction := by proper [dSkinFriction, skinFriction]
theorem proper_wingMAC : Proper dWingMAC := by proper [dWingMAC, wingMAC]

theorem det_given (l : List (String × OptVal)) (hn : (l.map Prod.fst).Nodup) (o : Opts) : (given l).Det o := by
  apply det_eqs (l.map fun c => (c.1, fun _ => OptVal.get o c.1 (some c.2)))
  · simp [given, Function.comp_def]
  · simpa [Function.comp_def] using hn
  · simp [given]
  · intro V
    simp only [given, List.forall_mem_map]
  · intro V V' _ r hr
    obtain ⟨c, -, rfl⟩ := List.mem_map.1 hr
    rfl
  · intro V V' _ v _ _ r hr _
    obtain ⟨c, -, rfl⟩ := List.mem_map.1 hr
    rfl

theorem det_sumOf (s : Opts → AddSys ℝ) (t : AddSys ℝ) (hs : s ⟨fun _ => 0, fun _ _ => 0⟩ = t) (o : Opts) (hin : (s o).inputs = t.inputs)
    (hout : (s o).output = t.output) (hd : t.output ∉ t.inputs) : (sumOf s).Det o := by
  subst hs
  apply det_eqs [((s o).output, fun V => (s o).compute (fun n _ _ => V n) 0 0)]
  · simp [sumOf, hout]
  · simp
  · intro v hv hm
    obtain ⟨n, hn, rfl⟩ := List.mem_map.1 hv
    rw [List.map_singleton, List.mem_singleton] at hm
    have hm' : n = (s o).output := hm
    rw [hout] at hm'
    exact hd (hm' ▸ hn)
  · intro V
    simp [sumOf]
  · intro V V' hi r hr
    rw [List.mem_singleton] at hr
    subst hr
    exact add_congr _ fun n hn => hi ⟨n, _, false, true⟩ (List.mem_map.2 ⟨n, hin ▸ hn, rfl⟩)
  · intro V V' hi v hvo hvec r hr _
    rw [List.mem_singleton] at hr
    subst hr
    exact add_congr _ fun n hn => hi ⟨n, _, false, true⟩ (List.mem_map.2 ⟨n, hin ▸ hn, rfl⟩) rfl

theorem det_sumBy (s : Opts → AddSys ℝ) (vec : String → Bool) (t : AddSys ℝ) (hs : s ⟨fun _ => 0, fun _ _ => 0⟩ = t) (o : Opts)
    (hin : (s o).inputs = t.inputs) (hout : (s o).output = t.output) (hd : t.output ∉ t.inputs)
    (hv : vec t.output = false → ∀ n ∈ t.inputs, vec n = false) : (sumBy s vec).Det o := by
  subst hs
  apply det_eqs [((s o).output, fun V => (s o).compute (fun n _ _ => V n) 0 0)]
  · simp [sumBy, hout]
  · simp
  · intro v hv hm
    obtain ⟨n, hn, rfl⟩ := List.mem_map.1 hv
    rw [List.map_singleton, List.mem_singleton] at hm
    have hm' : n = (s o).output := hm
    rw [hout] at hm'
    exact hd (hm' ▸ hn)
  · intro V
    simp [sumBy]
  · intro V V' hi r hr
    rw [List.mem_singleton] at hr
    subst hr
    exact add_congr _ fun n hn => hi ⟨n, _, vec n, true⟩ (List.mem_map.2 ⟨n, hin ▸ hn, rfl⟩)
  · intro V V' hi v hvo hvec r hr _
    rw [List.mem_singleton] at hr
    subst hr
    have hvo' := List.mem_singleton.1 hvo
    subst hvo'
    exact add_congr _ fun n hn => hi ⟨n, _, vec n, true⟩ (List.mem_map.2 ⟨n, hin ▸ hn, rfl⟩) (hv hvec n (hin ▸ hn))

theorem det_products (l : List (MulSys ℝ)) (vec : String → Bool) (hn : (l.map fun s => s.output).Nodup)
    (hd : ∀ s ∈ l, ∀ n ∈ s.inputs, n ∉ l.map fun s => s.output) (hu : ∀ s ∈ l, s.inputs.length ≤ s.units.length)
    (hv : ∀ s ∈ l, vec s.output = false → ∀ n ∈ s.inputs, vec n = false) (o : Opts) : (products l vec).Det o := by
  have hi2 : ∀ s ∈ l, ∀ n ∈ s.inputs, ∃ u, (⟨n, u, vec n, true⟩ : Var) ∈ (products l vec).ins := fun s hs n hn => by
    have : n ∈ (s.inputs.zip s.units).map Prod.fst := by rwa [List.map_fst_zip (hu s hs)]
    obtain ⟨p, hp, rfl⟩ := List.mem_map.1 this
    exact ⟨p.2.getD "", List.mem_flatMap.2 ⟨s, hs, List.mem_map.2 ⟨p, hp, rfl⟩⟩⟩
  apply det_eqs (l.map fun s => (s.output, fun V => s.compute (fun n _ _ => V n) 0 0))
  · simp [products, Function.comp_def]
  · simpa [Function.comp_def] using hn
  · intro v hv hm
    unfold products at hv
    simp only at hv
    rw [List.mem_flatMap] at hv
    obtain ⟨s, hs, hv⟩ := hv
    obtain ⟨p, hp, rfl⟩ := List.mem_map.1 hv
    rw [List.map_map] at hm
    exact hd s hs p.1 (List.of_mem_zip hp).1 hm
  · intro V
    simp only [products, List.forall_mem_map]
  · intro V V' hi r hr
    obtain ⟨s, hs, rfl⟩ := List.mem_map.1 hr
    refine mul_congr s fun n hn => ?_
    obtain ⟨u, hu⟩ := hi2 s hs n hn
    exact hi _ hu
  · intro V V' hi v hvo hvec r hr he
    obtain ⟨s, hs, rfl⟩ := List.mem_map.1 hr
    obtain ⟨t, ht, rfl⟩ := List.mem_map.1 hvo
    have : s = t := List.inj_on_of_nodup_map hn hs ht he
    subst this
    refine mul_congr s fun n hn => ?_
    obtain ⟨u, hu⟩ := hi2 s hs n hn
    exact hi _ hu (hv s hs hvec n hn)

theorem det_deckOf (d : Propulsion.Deck) (o : Opts) : (deckOf d).Det o := by
  have h : ∀ third unit, third ∉ ["thrust", "fuel_flow", "throttle", "fltcond|h", "fltcond|M"] → (engineDeck false third unit).Det o := by
    intro third unit ht
    simp only [List.mem_cons, List.not_mem_nil, or_false, not_or] at ht
    obtain ⟨h1, h2, h3, h4, h5⟩ := ht
    apply det_eqs [("thrust", fun V => o.map "thrust" ((deckIns false).map fun i => V i.name)),
      ("fuel_flow", fun V => o.map "fuel_flow" ((deckIns false).map fun i => V i.name)),
      (third, fun V => o.map third ((deckIns false).map fun i => V i.name))]
    · rfl
    · simp [Ne.symm h1, Ne.symm h2]
    · simp [engineDeck, deckIns, Ne.symm h3, Ne.symm h4, Ne.symm h5]
    · intro V
      simp [engineDeck]
    · intro V V' hi r hr
      have := List.map_congr_left hi
      simp only [engineDeck] at this
      simp only [List.mem_cons, List.not_mem_nil, or_false] at hr
      rcases hr with rfl | rfl | rfl <;> simp only [this]
    · intro V V' _ v hv hvec
      simp only [engineDeck, List.mem_cons, List.not_mem_nil, or_false] at hv
      rcases hv with rfl | rfl | rfl <;> cases hvec
  cases d
  · exact h _ _ (by decide)
  · exact h _ _ (by decide)

theorem det_cabinVolume (o : Opts) : cabinVolumeSub.sys.Det o := by
  apply det_eqs [("V_pressurized", fun V => Weights.cabinVolume (V "fus_height") (V "fus_length") (o "cabin_length_frac"))]
  · rfl
  · simp
  · simp [cabinVolumeSub]
  · intro V
    simp [cabinVolumeSub]
  · intro V V' hi
    simp only [cabinVolumeSub, List.forall_mem_cons, List.not_mem_nil, false_imp_iff, implies_true, and_true] at hi ⊢
    rw [hi.1, hi.2]
  · intro V V' hi
    simp only [cabinVolumeSub, List.forall_mem_cons, List.not_mem_nil, false_imp_iff, implies_true, and_true, true_imp_iff] at hi ⊢
    rw [hi.1, hi.2]

/-! ### groups -/

theorem plan_propeller (o : Opts) : Plan propeller o := by
  refine ⟨.of (.refl _) (by decide +kernel), ?_⟩
  simp only [propeller, List.forall_mem_cons, List.not_mem_nil, false_imp_iff, implies_true, and_true]
  exact ⟨det_explicit proper_propCoefficients (by decide +kernel) (by decide +kernel) _ o,
    det_surrogate _ _ _ (by decide +kernel) (by decide +kernel) o, det_surrogate _ _ _ (by decide +kernel) (by decide +kernel) o,
    det_explicit proper_thrustCalc (by decide +kernel) (by decide +kernel) _ o,
    det_explicit proper_propellerWeight (by decide +kernel) (by decide +kernel) _ o⟩

theorem det_propeller (o : Opts) : propeller.sys.Det o := (plan_propeller o).sys

theorem det_heavyTurboshaft (o : Opts) : heavyTurboshaft.Det o :=
  det_explicit proper_turboshaft (by decide +kernel) (by decide +kernel) _ o

theorem plan_turboprop (o : Opts) : Plan turboprop o := by
  refine ⟨.of (.refl _) (by decide +kernel), ?_⟩
  simp only [turboprop, List.forall_mem_cons, List.not_mem_nil, false_imp_iff, implies_true, and_true]
  exact ⟨det_label _ (by decide +kernel) (by decide +kernel) o, det_heavyTurboshaft o, det_propeller o⟩

theorem det_turboprop (o : Opts) : turboprop.sys.Det o := (plan_turboprop o).sys

/-- an order in which `failedengine` comes before the engine that reads it -/
noncomputable def twinOrder : List Sub :=
  match twinTurboprop.subs with
  | [a, b, c, d, e, f] => [a, b, e, c, d, f]
  | l => l

theorem twin_perm : twinOrder.Perm twinTurboprop.subs := by
  show List.Perm [_, _, _, _, _, _] [_, _, _, _, _, _]
  exact ((List.Perm.swap _ _ _).trans ((List.Perm.swap _ _ _).cons _)).cons _ |>.cons _

theorem det_twin (o : Opts) : ∀ s ∈ twinTurboprop.subs, s.sys.Det o := by
  simp only [twinTurboprop, List.forall_mem_cons, List.not_mem_nil, false_imp_iff, implies_true, and_true]
  exact ⟨det_heavyTurboshaft o, det_propeller o, det_heavyTurboshaft o, det_propeller o,
    det_product _ _ (by decide +kernel) (by decide +kernel) (by decide +kernel) o,
    det_sums _ (by decide +kernel) (by decide +kernel) (by decide +kernel) o⟩

theorem det_twinTurboprop (o : Opts) : twinTurboprop.sys.Det o :=
  det_grp (.of twin_perm (by decide +kernel)) fun s hs => det_twin o s (twin_perm.mem_iff.1 hs)

theorem plan_singleEmpty (o : Opts) : Plan singleEmpty o := by
  refine ⟨.of (.refl _) (by decide +kernel), ?_⟩
  simp only [singleEmpty, subsTP, constTP, List.cons_append, List.nil_append, List.forall_mem_cons, List.not_mem_nil, false_imp_iff, implies_true, and_true]
  exact ⟨det_consts _ (by decide +kernel) o, det_explicit proper_wingTP (by decide +kernel) (by decide +kernel) _ o,
    det_explicit proper_empennageTP (by decide +kernel) (by decide +kernel) _ o,
    det_explicit proper_fuselageTP (by decide +kernel) (by decide +kernel) _ o,
    det_explicit proper_nacelleTP (by decide +kernel) (by decide +kernel) _ o,
    det_explicit proper_gearTP (by decide +kernel) (by decide +kernel) _ o,
    det_explicit proper_fuelSystemTP (by decide +kernel) (by decide +kernel) _ o,
    det_explicit proper_equipmentTP (by decide +kernel) (by decide +kernel) _ o,
    det_sum _ _ (by decide +kernel) (by decide +kernel) o,
    det_product _ _ (by decide +kernel) (by decide +kernel) (by decide +kernel) o,
    det_sum _ _ (by decide +kernel) (by decide +kernel) o⟩

theorem det_singleEmpty (o : Opts) : singleEmpty.sys.Det o := (plan_singleEmpty o).sys

theorem plan_twinEmpty (o : Opts) : Plan twinEmpty o := by
  refine ⟨.of (.refl _) (by decide +kernel), ?_⟩
  simp only [twinEmpty, subsTP, constTP, List.cons_append, List.nil_append, List.forall_mem_cons, List.not_mem_nil, false_imp_iff, implies_true, and_true]
  exact ⟨det_consts _ (by decide +kernel) o, det_explicit proper_wingTP (by decide +kernel) (by decide +kernel) _ o,
    det_explicit proper_empennageTP (by decide +kernel) (by decide +kernel) _ o,
    det_explicit proper_fuselageTP (by decide +kernel) (by decide +kernel) _ o,
    det_explicit proper_nacelleTP (by decide +kernel) (by decide +kernel) _ o,
    det_explicit proper_gearTP (by decide +kernel) (by decide +kernel) _ o,
    det_explicit proper_fuelSystemTP (by decide +kernel) (by decide +kernel) _ o,
    det_explicit proper_equipmentTP (by decide +kernel) (by decide +kernel) _ o,
    det_sum _ _ (by decide +kernel) (by decide +kernel) o,
    det_product _ _ (by decide +kernel) (by decide +kernel) (by decide +kernel) o,
    det_sum _ _ (by decide +kernel) (by decide +kernel) o⟩

theorem det_twinEmpty (o : Opts) : twinEmpty.sys.Det o := (plan_twinEmpty o).sys

theorem plan_hstabGroup (o : Opts) : Plan hstabGroup o := by
  refine ⟨.of (.refl _) (by decide +kernel), ?_⟩
  simp only [hstabGroup, List.forall_mem_cons, List.not_mem_nil, false_imp_iff, implies_true, and_true]
  exact ⟨det_explicit proper_hstabConstJet (by decide +kernel) (by decide +kernel) _ o,
    det_explicit proper_hstabJet (by decide +kernel) (by decide +kernel) _ o⟩

theorem det_hstabGroup (o : Opts) : hstabGroup.sys.Det o := (plan_hstabGroup o).sys

theorem plan_fuselageGroup (o : Opts) : Plan fuselageGroup o := by
  refine ⟨.of (.refl _) (by decide +kernel), ?_⟩
  simp only [fuselageGroup, List.forall_mem_cons, List.not_mem_nil, false_imp_iff, implies_true, and_true]
  exact ⟨det_explicit proper_kwsJet (by decide +kernel) (by decide +kernel) _ o,
    det_explicit proper_fuselageJet (by decide +kernel) (by decide +kernel) _ o⟩

theorem det_fuselageGroup (o : Opts) : fuselageGroup.sys.Det o := (plan_fuselageGroup o).sys

theorem det_gearEngine (o : Opts) : ∀ s ∈ gearEngineSubs, s.sys.Det o := by
  simp only [gearEngineSubs, List.forall_mem_cons, List.not_mem_nil, false_imp_iff, implies_true, and_true]
  exact ⟨det_explicit proper_mainGearJet (by decide +kernel) (by decide +kernel) _ o,
    det_explicit proper_noseGearJet (by decide +kernel) (by decide +kernel) _ o,
    det_explicit proper_engineJet (by decide +kernel) (by decide +kernel) _ o,
    det_product _ _ (by decide +kernel) (by decide +kernel) (by decide +kernel) o,
    det_explicit proper_engineSystems (by decide +kernel) (by decide +kernel) _ o,
    det_explicit proper_nacelleJet (by decide +kernel) (by decide +kernel) _ o,
    det_explicit proper_furnishing (by decide +kernel) (by decide +kernel) _ o⟩

theorem det_sumSubs (l : List String) (h : "W_structure" ∉ l) (o : Opts) : ∀ s ∈ sumSubs l, s.sys.Det o := by
  simp only [sumSubs, List.forall_mem_cons, List.not_mem_nil, false_imp_iff, implies_true, and_true]
  exact ⟨det_sumOf _ _ rfl o rfl rfl h, det_sumOf _ _ rfl o rfl rfl (by decide)⟩

theorem plan_jetEmpty (T : Bool) (o : Opts) : Plan (jetEmpty T) o := by
  refine ⟨.of (.refl _) (by revert T; decide +kernel), ?_⟩
  simp only [jetEmpty, List.forall_mem_append, List.forall_mem_cons, List.not_mem_nil, false_imp_iff, implies_true, and_true]
  exact ⟨⟨⟨⟨det_explicit proper_wingJet (by decide +kernel) (by decide +kernel) _ o, det_hstabGroup o,
    det_explicit (proper_vstabJet T) (by revert T; decide +kernel) (by revert T; decide +kernel) _ o, det_fuselageGroup o⟩,
    det_gearEngine o⟩, det_cabinVolume o, det_explicit proper_equipment (by decide +kernel) (by decide +kernel) _ o⟩,
    det_sumSubs _ (by decide) o⟩

theorem det_jetEmpty (T : Bool) (o : Opts) : (jetEmpty T).sys.Det o := (plan_jetEmpty T o).sys

theorem plan_bwbEmpty (o : Opts) : Plan bwbEmpty o := by
  refine ⟨.of (.refl _) (by decide +kernel), ?_⟩
  simp only [bwbEmpty, List.forall_mem_append, List.forall_mem_cons, List.not_mem_nil, false_imp_iff, implies_true, and_true]
  exact ⟨⟨⟨⟨det_explicit proper_cabinBWB (by decide +kernel) (by decide +kernel) _ o,
    det_explicit proper_aftbodyBWB (by decide +kernel) (by decide +kernel) _ o,
    det_explicit proper_wingJet (by decide +kernel) (by decide +kernel) _ o⟩,
    det_gearEngine o⟩, det_explicit proper_equipment (by decide +kernel) (by decide +kernel) _ o⟩,
    det_sumSubs _ (by decide) o⟩

theorem det_bwbEmpty (o : Opts) : bwbEmpty.sys.Det o := (plan_bwbEmpty o).sys

theorem det_surface (surf : String) (o : Opts) : ∀ s ∈ surface surf, s.sys.Det o := by
  simp only [surface, List.forall_mem_cons, List.not_mem_nil, false_imp_iff, implies_true, and_true]
  exact ⟨det_explicit proper_wingMAC (by decide +kernel) (by decide +kernel) _ o,
    det_explicit proper_skinFriction (by decide +kernel) (by decide +kernel) _ o⟩

theorem forall_if {α : Type*} {c : Bool} {l : List α} {P : α → Prop} (h : ∀ x ∈ l, P x) : ∀ x ∈ (if c = true then l else []), P x := by
  cases c
  · simp
  · simpa using h

theorem plan_jetDrag (wing takeoff : Bool) (o : Opts) : Plan (jetDrag wing takeoff) o := by
  have hf : (explicit dFlapComp).Det o := det_explicit proper_flapComp (by decide +kernel) (by decide +kernel) _ o
  have hw : ∀ n, (explicit dWingForm [ref "Q" n]).Det o := fun n => det_explicit proper_wingForm (by decide +kernel) (by decide +kernel) _ o
  have hs : ∀ n, (explicit dSkinFriction [ref "laminar_frac" n]).Det o := fun n =>
    det_explicit proper_skinFriction (by decide +kernel) (by decide +kernel) _ o
  refine ⟨.of (.refl _) (by revert wing takeoff; decide +kernel), ?_⟩
  simp only [jetDrag, List.forall_mem_append, List.forall_mem_cons, List.not_mem_nil, false_imp_iff, implies_true, and_true]
  refine ⟨⟨⟨⟨⟨⟨⟨⟨⟨det_given _ ?_ o, det_explicit proper_fuselageForm (by decide +kernel) (by decide +kernel) _ o, hw _, hw _⟩,
    forall_if ?_⟩, hs _⟩, det_surface _ o⟩, det_surface _ o⟩, forall_if (det_surface _ o)⟩, hs _, ?_⟩, forall_if ?_⟩, ?_⟩
  · cases takeoff <;> decide
  · simpa using hw _
  · refine det_products _ _ ?_ ?_ ?_ ?_ o <;> (revert wing; decide +kernel)
  · simpa [flapSub] using hf
  · refine det_sumBy _ _ _ rfl o rfl rfl ?_ ?_ <;> (revert wing; decide +kernel)

theorem det_jetDrag (wing takeoff : Bool) (o : Opts) : (jetDrag wing takeoff).sys.Det o := (plan_jetDrag wing takeoff o).sys

theorem plan_bwbDrag (takeoff : Bool) (o : Opts) : Plan (bwbDrag takeoff) o := by
  have hf : (explicit dFlapComp).Det o := det_explicit proper_flapComp (by decide +kernel) (by decide +kernel) _ o
  refine ⟨.of (.refl _) (by revert takeoff; decide +kernel), ?_⟩
  simp only [bwbDrag, List.forall_mem_append, List.forall_mem_cons, List.not_mem_nil, false_imp_iff, implies_true, and_true]
  refine ⟨⟨⟨det_given _ ?_ o, det_explicit proper_skinFriction (by decide +kernel) (by decide +kernel) _ o,
    det_products _ _ (by decide +kernel) (by decide +kernel) (by decide +kernel) (by decide +kernel) o⟩, forall_if ?_⟩, ?_⟩
  · cases takeoff <;> decide
  · simpa [flapSub] using hf
  · exact det_sumBy _ _ _ rfl o rfl rfl (by decide +kernel) (by decide +kernel)

theorem det_bwbDrag (takeoff : Bool) (o : Opts) : (bwbDrag takeoff).sys.Det o := (plan_bwbDrag takeoff o).sys

theorem plan_rubberTurbofan (d : Propulsion.Deck) (hydrogen : Bool) (o : Opts) : Plan (rubberTurbofan d hydrogen) o := by
  refine ⟨.of (.refl _) (by cases d <;> revert hydrogen <;> decide +kernel), ?_⟩
  simp only [rubberTurbofan, List.forall_mem_cons, List.not_mem_nil, false_imp_iff, implies_true, and_true]
  refine ⟨det_deckOf d o, det_products _ _ ?_ ?_ ?_ ?_ o⟩ <;> (revert hydrogen; decide +kernel)

theorem det_rubberTurbofan (d : Propulsion.Deck) (hydrogen : Bool) (o : Opts) : (rubberTurbofan d hydrogen).sys.Det o := (plan_rubberTurbofan d hydrogen o).sys

end Verif.Wiring
