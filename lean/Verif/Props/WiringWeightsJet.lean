import Verif.Proof.WiringWeights
import Verif.Props.WeightsJet

/-!
# C117: wiring of the empty weight groups of the jet transport and of the blended wing body

`JetTransportEmptyWeight` and `BWBEmptyWeight`: what the groups accept as inputs, and which state they converge to.
-/

namespace Verif.Wiring

open VectorComps

/-- the inputs of both groups, with the units in which they are read -/
def inputsJ : List Var :=
  [⟨"ac|weights|MTOW", "lb", false, true⟩, ⟨"ac|weights|MLW", "lb", false, true⟩, ⟨"ac|weights|W_fuel_max", "lb", false, true⟩,
   ⟨"ac|geom|wing|S_ref", "ft**2", false, true⟩, ⟨"ac|geom|wing|AR", "", false, true⟩, ⟨"ac|geom|wing|c4sweep", "rad", false, true⟩,
   ⟨"ac|geom|wing|taper", "", false, true⟩, ⟨"ac|geom|wing|toverc", "", false, true⟩,
   ⟨"ac|geom|maingear|length", "inch", false, true⟩, ⟨"ac|geom|maingear|num_wheels", "", false, true⟩,
   ⟨"ac|geom|maingear|num_shock_struts", "", false, true⟩, ⟨"ac|geom|nosegear|length", "inch", false, true⟩,
   ⟨"ac|geom|nosegear|num_wheels", "", false, true⟩, ⟨"ac|aero|Vstall_land", "kn", false, true⟩, ⟨"ac|aero|Mach_max", "", false, true⟩,
   ⟨"ac|propulsion|engine|rating", "lbf", false, true⟩, ⟨"ac|propulsion|num_engines", "", false, true⟩,
   ⟨"ac|num_passengers_max", "", false, true⟩, ⟨"ac|num_flight_deck_crew", "", false, true⟩, ⟨"ac|num_cabin_crew", "", false, true⟩,
   ⟨"ac|cabin_pressure", "psi", false, true⟩]

/-- the further inputs of the jet transport: its tails and its fuselage -/
def moreJet : List Var :=
  [⟨"ac|geom|hstab|S_ref", "ft**2", false, true⟩, ⟨"ac|geom|hstab|AR", "", false, true⟩, ⟨"ac|geom|hstab|c4sweep", "rad", false, true⟩,
   ⟨"ac|geom|hstab|c4_to_wing_c4", "ft", false, true⟩, ⟨"ac|geom|vstab|S_ref", "ft**2", false, true⟩,
   ⟨"ac|geom|vstab|AR", "", false, true⟩, ⟨"ac|geom|vstab|c4sweep", "rad", false, true⟩,
   ⟨"ac|geom|vstab|c4_to_wing_c4", "ft", false, true⟩, ⟨"ac|geom|vstab|toverc", "", false, true⟩,
   ⟨"ac|geom|fuselage|length", "ft", false, true⟩, ⟨"ac|geom|fuselage|height", "ft", false, true⟩,
   ⟨"ac|geom|fuselage|S_wet", "ft**2", false, true⟩]

/-- the further inputs of the blended wing body: its centerbody -/
def moreBWB : List Var :=
  [⟨"ac|geom|centerbody|S_cabin", "ft**2", false, true⟩, ⟨"ac|geom|centerbody|S_aftbody", "ft**2", false, true⟩,
   ⟨"ac|geom|centerbody|taper_aftbody", "", false, true⟩, ⟨"ac|geom|V_pressurized", "ft**3", false, true⟩]

/-- the documented outputs of both groups -/
def weightsJ : List String :=
  ["W_wing", "W_mlg", "W_nlg", "W_nacelle", "W_structure", "W_engines", "W_thrust_rev", "W_eng_control", "W_fuelsystem",
   "W_eng_start", "W_furnishings", "W_flight_controls", "W_avionics", "W_electrical", "W_ac_pressurize_antiice", "W_oxygen", "W_APU", "OEW"]

/-- C117.  The groups set up without conflict for both kinds of tail: every input of a component is promoted or connected, no two
components disagree about a unit; the inputs are those of the documentation. -/
theorem C117_jet_setup : (∀ T, (jetEmpty T).problems = []) ∧ bwbEmpty.problems = [] ∧
    (∀ T, ∀ v, v ∈ (jetEmpty T).ins ↔ v ∈ inputsJ ++ moreJet) ∧ (∀ v, v ∈ bwbEmpty.ins ↔ v ∈ inputsJ ++ moreBWB) ∧
    (∀ T, (jetEmpty T).ins.length = (inputsJ ++ moreJet).length) ∧ bwbEmpty.ins.length = (inputsJ ++ moreBWB).length := by
  have h1 : ∀ T, (jetEmpty T).ins ⊆ inputsJ ++ moreJet ∧ inputsJ ++ moreJet ⊆ (jetEmpty T).ins := by decide +kernel
  have h2 : bwbEmpty.ins ⊆ inputsJ ++ moreBWB ∧ inputsJ ++ moreBWB ⊆ bwbEmpty.ins := by decide +kernel
  exact ⟨by decide +kernel, by decide +kernel, fun T v => ⟨fun h => (h1 T).1 h, fun h => (h1 T).2 h⟩,
    fun v => ⟨fun h => h2.1 h, fun h => h2.2 h⟩, by decide +kernel, by decide +kernel⟩

/-- the airplane described by the inputs `e` -/
def airplaneJ (e : String → ℝ) : Weights.AircraftJ where
  MTOW := e "ac|weights|MTOW"
  MLW := e "ac|weights|MLW"
  Wf := e "ac|weights|W_fuel_max"
  S := e "ac|geom|wing|S_ref"
  AR := e "ac|geom|wing|AR"
  sweep := e "ac|geom|wing|c4sweep"
  taper := e "ac|geom|wing|taper"
  toverc := e "ac|geom|wing|toverc"
  Sh := e "ac|geom|hstab|S_ref"
  ARh := e "ac|geom|hstab|AR"
  sweeph := e "ac|geom|hstab|c4sweep"
  armh := e "ac|geom|hstab|c4_to_wing_c4"
  Sv := e "ac|geom|vstab|S_ref"
  ARv := e "ac|geom|vstab|AR"
  sweepv := e "ac|geom|vstab|c4sweep"
  armv := e "ac|geom|vstab|c4_to_wing_c4"
  tocv := e "ac|geom|vstab|toverc"
  length := e "ac|geom|fuselage|length"
  height := e "ac|geom|fuselage|height"
  Swet := e "ac|geom|fuselage|S_wet"
  mainLen := e "ac|geom|maingear|length"
  mainWheels := e "ac|geom|maingear|num_wheels"
  struts := e "ac|geom|maingear|num_shock_struts"
  noseLen := e "ac|geom|nosegear|length"
  noseWheels := e "ac|geom|nosegear|num_wheels"
  Vstall := e "ac|aero|Vstall_land"
  Mmax := e "ac|aero|Mach_max"
  T := e "ac|propulsion|engine|rating"
  neng := e "ac|propulsion|num_engines"
  pax := e "ac|num_passengers_max"
  deck := e "ac|num_flight_deck_crew"
  cabin := e "ac|num_cabin_crew"
  press := e "ac|cabin_pressure"
  Scabin := e "ac|geom|centerbody|S_cabin"
  Saft := e "ac|geom|centerbody|S_aftbody"
  taperAft := e "ac|geom|centerbody|taper_aftbody"
  Vpress := e "ac|geom|V_pressurized"

/-- the options of the group -/
def optionsJ (T : Bool) (o : Opts) : Weights.OptJ where
  fudge := o "structural_fudge"
  total := o "total_fudge"
  wingMult := o "wing_weight_multiplier"
  nult := o "n_ult"
  nland := o "n_land_ult"
  cs := o "control_surface_area_frac"
  widthFrac := o "fuselage_width_frac"
  Kuht := o "K_uht"
  elev := o "elevator_area_frac"
  Ttail := T
  Kdoor := o "K_door"
  Klg := o "K_lg"
  kneelMain := o "kneeling_main_gear_parameter"
  kneelNose := o "kneeling_nose_gear_parameter"
  Klav := o "K_lav"
  Kbuf := o "K_buf"
  cfc := o "coeff_fc"
  cav := o "coeff_avionics"
  cabinFrac := o "cabin_length_frac"
  apu := o "APU_weight_frac"

theorem enginesJ_rel (o : Opts) (V : String → ℝ) (b) :
    (product ⟨"W_engines", ["W_engine", "ac|propulsion|num_engines"], .all 1, 1, 1, none, some [some "lb", none]⟩ b).rel o V ↔
    V "W_engines" = V "W_engine" * V "ac|propulsion|num_engines" := by
  simp [product, MulSys.compute, MulSys.read, MulSys.div, List.zipIdx]

theorem structJ_rel (o : Opts) (V : String → ℝ) :
    (sumOf fun o => Weights.structSys Weights.structNamesJ (o "structural_fudge") (o "wing_weight_multiplier")).rel o V ↔
    V "W_structure" = o "structural_fudge" * (o "wing_weight_multiplier" * V "W_wing" + V "W_hstab" + V "W_vstab" + V "W_fuselage"
      + V "W_mlg" + V "W_nlg" + V "W_nacelle") := by
  have : ∀ a b : ℝ, a = b → ∀ x : ℝ, (x = a ↔ x = b) := fun a b h x => by rw [h]
  simp only [sumOf, Weights.structSys]
  apply this
  simp [Weights.structNamesJ, AddSys.compute, AddSys.factors, Weights.structFactors, List.replicate]
  ring

theorem structBWB_rel (o : Opts) (V : String → ℝ) :
    (sumOf fun o => Weights.structSys Weights.structNamesBWB (o "structural_fudge") (o "wing_weight_multiplier")).rel o V ↔
    V "W_structure" = o "structural_fudge" * (o "wing_weight_multiplier" * V "W_wing" + V "W_cabin" + V "W_aftbody"
      + V "W_mlg" + V "W_nlg" + V "W_nacelle") := by
  have : ∀ a b : ℝ, a = b → ∀ x : ℝ, (x = a ↔ x = b) := fun a b h x => by rw [h]
  simp only [sumOf, Weights.structSys]
  apply this
  simp [Weights.structNamesBWB, AddSys.compute, AddSys.factors, Weights.structFactors, List.replicate]
  ring

theorem totalJ_rel (o : Opts) (V : String → ℝ) :
    (sumOf fun o => Weights.totalSys (o "total_fudge")).rel o V ↔
    V "OEW" = o "total_fudge" * (V "W_structure" + V "W_engines" + V "W_thrust_rev" + V "W_eng_control" + V "W_fuelsystem"
      + V "W_eng_start" + V "W_furnishings" + V "W_flight_controls" + V "W_avionics" + V "W_electrical"
      + V "W_ac_pressurize_antiice" + V "W_oxygen" + V "W_APU") := by
  have : ∀ a b : ℝ, a = b → ∀ x : ℝ, (x = a ↔ x = b) := fun a b h x => by rw [h]
  simp only [sumOf, Weights.totalSys]
  apply this
  simp [Weights.finalNames, AddSys.compute, AddSys.factors, List.replicate]
  ring

theorem cabinVolume_rel (o : Opts) (V : String → ℝ) : cabinVolumeSub.sys.rel o V ↔
    V "V_pressurized" = Weights.cabinVolume (V "fus_height") (V "fus_length") (o "cabin_length_frac") := Iff.rfl

/-- the group `hstab`: constant and weight of the tail -/
theorem hstabGroup_rel (o : Opts) (e : String → ℝ) : hstabGroup.rel o e ↔
    e "hstab_const.HstabConst" = Weights.hstabConst (o "fuselage_width_frac") (e "ac|geom|hstab|S_ref") (e "ac|geom|hstab|AR")
      (e "ac|geom|fuselage|height") ∧
    e "W_hstab" = Weights.HstabJ.compute ⟨o "n_ult", o "K_uht", o "elevator_area_frac", e "ac|weights|MTOW", e "ac|geom|hstab|S_ref",
      e "ac|geom|hstab|AR", e "ac|geom|hstab|c4sweep", e "ac|geom|hstab|c4_to_wing_c4", e "hstab_const.HstabConst"⟩ := by
  parts hstabGroup [hstabGroup, hstabConstJet_rel, hstabJet_rel]
  views hstabGroup hstabGroup_links e

/-- the group `fuselage`: wing sweep term and weight of the fuselage -/
theorem fuselageGroup_rel (o : Opts) (e : String → ℝ) : fuselageGroup.rel o e ↔
    e "K_ws_term.K_ws" = Weights.KwsJ.compute ⟨e "ac|geom|wing|taper", e "ac|geom|wing|S_ref", e "ac|geom|wing|AR",
      e "ac|geom|wing|c4sweep", e "ac|geom|fuselage|length"⟩ ∧
    e "W_fuselage" = Weights.FusJ.compute ⟨o "n_ult", o "K_door", o "K_lg", e "ac|weights|MTOW", e "ac|geom|fuselage|length",
      e "ac|geom|fuselage|S_wet", e "ac|geom|fuselage|height", e "K_ws_term.K_ws"⟩ := by
  parts fuselageGroup [fuselageGroup, kwsJet_rel, fuselageJet_rel]
  views fuselageGroup fuselageGroup_links e

/-- the value of the structural weight -/
theorem runOEW_struct (f w t : ℝ) (E : Weights.Env) :
    Weights.runOEW Weights.structNamesJ f w t E "W_structure" =
      f * (w * E "W_wing" + E "W_hstab" + E "W_vstab" + E "W_fuselage" + E "W_mlg" + E "W_nlg" + E "W_nacelle") ∧
    Weights.runOEW Weights.structNamesBWB f w t E "W_structure" =
      f * (w * E "W_wing" + E "W_cabin" + E "W_aftbody" + E "W_mlg" + E "W_nlg" + E "W_nacelle") := by
  constructor <;> simp [Weights.runOEW, Weights.runAdd, Weights.totalSys, Weights.structSys, Weights.structNamesJ,
    Weights.structNamesBWB, Weights.finalNames, Weights.structFactors, AddSys.compute, Weights.Env.arr, AddSys.factors, List.zipIdx,
    List.replicate] <;> ring

set_option maxHeartbeats 2000000 in
/-- C117, `JetTransportEmptyWeight`: the state is converged if and only if every weight, the structural weight and the empty weight
are those of the airplane the inputs describe, with the options of the group. -/
theorem C117_jet (T : Bool) (o : Opts) (e : String → ℝ) : (jetEmpty T).rel o e ↔
    e "hstab.hstab_const.HstabConst" = Weights.hstabConst (o "fuselage_width_frac") (e "ac|geom|hstab|S_ref") (e "ac|geom|hstab|AR")
      (e "ac|geom|fuselage|height") ∧
    e "fuselage.K_ws_term.K_ws" = Weights.KwsJ.compute ⟨e "ac|geom|wing|taper", e "ac|geom|wing|S_ref", e "ac|geom|wing|AR",
      e "ac|geom|wing|c4sweep", e "ac|geom|fuselage|length"⟩ ∧
    e "single_engine.W_engine" = Weights.engineJ (e "ac|propulsion|engine|rating") ∧
    e "cabin_volume.V_pressurized" = Weights.cabinVolume (e "ac|geom|fuselage|height") (e "ac|geom|fuselage|length")
      (o "cabin_length_frac") ∧
    ∀ v ∈ "W_hstab" :: "W_vstab" :: "W_fuselage" :: weightsJ, e v =
      Weights.runOEW Weights.structNamesJ (o "structural_fudge") (o "wing_weight_multiplier") (o "total_fudge")
        ((airplaneJ e).envJ (optionsJ T o) e) v := by
  obtain ⟨ht, hs⟩ := Weights.C73_jet_total (o "structural_fudge") (o "wing_weight_multiplier") (o "total_fudge")
    ((airplaneJ e).envJ (optionsJ T o) e)
  have h1 := (runOEW_struct (o "structural_fudge") (o "wing_weight_multiplier") (o "total_fudge")
    ((airplaneJ e).envJ (optionsJ T o) e)).1
  have hl := jetEmpty_links T
  parts (jetEmpty T) [jetEmpty, wingSub, gearEngineSubs, sumSubs, cabinVolumeSub, equipmentSub, hstabGroup_rel, fuselageGroup_rel,
    wingJet_rel, vstabJet_rel, mainGearJet_rel, noseGearJet_rel, engineJet_rel, enginesJ_rel, engineSystems_rel, nacelleJet_rel,
    furnishing_rel, equipment_rel, equipOf, structJ_rel, totalJ_rel]
  views (jetEmpty T) hl e
  simp only [weightsJ, List.forall_mem_cons, List.not_mem_nil, false_imp_iff, implies_true, and_true, ht, h1]
  have hk : ∀ v ∈ "W_hstab" :: "W_vstab" :: "W_fuselage" :: weightsJ, v ≠ "W_structure" → v ≠ "OEW" →
      Weights.runOEW Weights.structNamesJ (o "structural_fudge") (o "wing_weight_multiplier") (o "total_fudge")
        ((airplaneJ e).envJ (optionsJ T o) e) v = (airplaneJ e).envJ (optionsJ T o) e v := fun v _ h1 h2 => hs v h1 h2
  simp only [weightsJ, List.forall_mem_cons, List.not_mem_nil, false_imp_iff, implies_true, and_true, ne_eq, String.reduceEq,
    not_false_eq_true, true_imp_iff, not_true, true_and] at hk
  simp only [hk]
  clear hk hs ht h1 hl
  simp only [Weights.AircraftJ.envJ, Weights.AircraftJ.common, String.reduceEq, if_true, if_false, Weights.AircraftJ.wing,
    Weights.AircraftJ.hstab, Weights.AircraftJ.vstab, Weights.AircraftJ.fus, Weights.AircraftJ.mlg, Weights.AircraftJ.nlg,
    Weights.AircraftJ.furn, Weights.AircraftJ.equip, airplaneJ, optionsJ, conv_lb1]
  constructor
  · rintro ⟨a1, ⟨k1, a2⟩, a3, ⟨k2, a4⟩, a5, a6, k3, a7, ⟨a8, a9, a10, a11⟩, a12, a13, k4, ⟨a14, a15, a16, a17, a18, a19⟩, a20, a21⟩
    rw [k1] at a2
    rw [k2] at a4
    rw [k3] at a7 a11
    rw [a10, k4] at a14 a15 a16 a17 a18 a19
    rw [a1, a2, a3, a4, a5, a6, a12] at a20
    rw [a7, a8, a9, a10, a11, a13, a14, a15, a16, a17, a18, a19, a20] at a21
    exact ⟨k1, k2, k3, k4, a2, a3, a4, a1, a5, a6, a12, a20, a7, a8, a9, a10, a11, a13, a14, a15, a16, a17, a18, a19, a21⟩
  · rintro ⟨k1, k2, k3, k4, a2, a3, a4, a1, a5, a6, a12, a20, a7, a8, a9, a10, a11, a13, a14, a15, a16, a17, a18, a19, a21⟩
    refine ⟨a1, ⟨k1, ?_⟩, a3, ⟨k2, ?_⟩, a5, a6, k3, ?_, ⟨a8, a9, a10, ?_⟩, a12, a13, k4, ⟨?_, ?_, ?_, ?_, ?_, ?_⟩, ?_, ?_⟩
    · rw [a2, k1]
    · rw [a4, k2]
    · rw [a7, k3]
    · rw [a11, k3]
    · rw [a14, a10, k4]
    · rw [a15, a10, k4]
    · rw [a16, a10, k4]
    · rw [a17, a10, k4]
    · rw [a18, a10, k4]
    · rw [a19, a10, k4]
    · rw [a20, a1, a2, a3, a4, a5, a6, a12]
    · rw [a21, a20, a7, a8, a9, a10, a11, a13, a14, a15, a16, a17, a18, a19]

set_option maxHeartbeats 2000000 in
/-- C117, `BWBEmptyWeight`: the state is converged if and only if every weight, the structural weight and the empty weight
are those of the airplane the inputs describe, with the options of the group. -/
theorem C117_bwb (o : Opts) (e : String → ℝ) : bwbEmpty.rel o e ↔
    e "single_engine.W_engine" = Weights.engineJ (e "ac|propulsion|engine|rating") ∧
    ∀ v ∈ "W_cabin" :: "W_aftbody" :: weightsJ, e v =
      Weights.runOEW Weights.structNamesBWB (o "structural_fudge") (o "wing_weight_multiplier") (o "total_fudge")
        ((airplaneJ e).envBWB (optionsJ false o) e) v := by
  obtain ⟨ht, hs⟩ := Weights.C73_bwb_total (o "structural_fudge") (o "wing_weight_multiplier") (o "total_fudge")
    ((airplaneJ e).envBWB (optionsJ false o) e)
  have h1 := (runOEW_struct (o "structural_fudge") (o "wing_weight_multiplier") (o "total_fudge")
    ((airplaneJ e).envBWB (optionsJ false o) e)).2
  parts bwbEmpty [bwbEmpty, wingSub, gearEngineSubs, sumSubs, equipmentSub, cabinBWB_rel, aftbodyBWB_rel,
    wingJet_rel, mainGearJet_rel, noseGearJet_rel, engineJet_rel, enginesJ_rel, engineSystems_rel, nacelleJet_rel,
    furnishing_rel, equipment_rel, equipOf, structBWB_rel, totalJ_rel]
  views bwbEmpty bwbEmpty_links e
  simp only [weightsJ, List.forall_mem_cons, List.not_mem_nil, false_imp_iff, implies_true, and_true, ht, h1]
  have hk : ∀ v ∈ "W_cabin" :: "W_aftbody" :: weightsJ, v ≠ "W_structure" → v ≠ "OEW" →
      Weights.runOEW Weights.structNamesBWB (o "structural_fudge") (o "wing_weight_multiplier") (o "total_fudge")
        ((airplaneJ e).envBWB (optionsJ false o) e) v = (airplaneJ e).envBWB (optionsJ false o) e v := fun v _ h1 h2 => hs v h1 h2
  simp only [weightsJ, List.forall_mem_cons, List.not_mem_nil, false_imp_iff, implies_true, and_true, ne_eq, String.reduceEq,
    not_false_eq_true, true_imp_iff, not_true, true_and] at hk
  simp only [hk]
  clear hk hs ht h1
  simp only [Weights.AircraftJ.envBWB, Weights.AircraftJ.common, String.reduceEq, if_true, if_false, Weights.AircraftJ.wing,
    Weights.AircraftJ.mlg, Weights.AircraftJ.nlg,
    Weights.AircraftJ.furn, Weights.AircraftJ.equip, airplaneJ, optionsJ, conv_lb1]
  constructor
  · rintro ⟨a1, a2, a3, a5, a6, k3, a7, ⟨a8, a9, a10, a11⟩, a12, a13, ⟨a14, a15, a16, a17, a18, a19⟩, a20, a21⟩
    rw [k3] at a7 a11
    rw [a10] at a14 a15 a16 a17 a18 a19
    rw [a1, a2, a3, a5, a6, a12] at a20
    rw [a7, a8, a9, a10, a11, a13, a14, a15, a16, a17, a18, a19, a20] at a21
    exact ⟨k3, a1, a2, a3, a5, a6, a12, a20, a7, a8, a9, a10, a11, a13, a14, a15, a16, a17, a18, a19, a21⟩
  · rintro ⟨k3, a1, a2, a3, a5, a6, a12, a20, a7, a8, a9, a10, a11, a13, a14, a15, a16, a17, a18, a19, a21⟩
    refine ⟨a1, a2, a3, a5, a6, k3, ?_, ⟨a8, a9, a10, ?_⟩, a12, a13, ⟨?_, ?_, ?_, ?_, ?_, ?_⟩, ?_, ?_⟩
    · rw [a7, k3]
    · rw [a11, k3]
    · rw [a14, a10]
    · rw [a15, a10]
    · rw [a16, a10]
    · rw [a17, a10]
    · rw [a18, a10]
    · rw [a19, a10]
    · rw [a20, a1, a2, a3, a5, a6, a12]
    · rw [a21, a20, a7, a8, a9, a10, a11, a13, a14, a15, a16, a17, a18, a19]

/-- the sums depend on the other variables only through the weights -/
theorem runOEW_other (q : Weights.OptJ) (a : Weights.AircraftJ) (f w t : ℝ) (E F : Weights.Env) :
    (∀ v ∈ "W_hstab" :: "W_vstab" :: "W_fuselage" :: weightsJ,
      Weights.runOEW Weights.structNamesJ f w t (a.envJ q E) v = Weights.runOEW Weights.structNamesJ f w t (a.envJ q F) v) ∧
    (∀ v ∈ "W_cabin" :: "W_aftbody" :: weightsJ,
      Weights.runOEW Weights.structNamesBWB f w t (a.envBWB q E) v = Weights.runOEW Weights.structNamesBWB f w t (a.envBWB q F) v) := by
  simp [weightsJ, Weights.runOEW, Weights.runAdd, Weights.totalSys, Weights.structSys, Weights.structNamesJ,
    Weights.structNamesBWB, Weights.finalNames, Weights.structFactors, AddSys.compute, Weights.Env.arr, AddSys.factors, List.zipIdx,
    List.replicate, Weights.AircraftJ.envJ, Weights.AircraftJ.envBWB, Weights.AircraftJ.common]

/-- the inputs pass through the sums -/
theorem runOEW_inputs (q : Weights.OptJ) (a : Weights.AircraftJ) (f w t : ℝ) (E : Weights.Env) :
    ∀ v ∈ (inputsJ ++ moreJet ++ moreBWB).map Var.name,
      Weights.runOEW Weights.structNamesJ f w t (a.envJ q E) v = E v ∧
      Weights.runOEW Weights.structNamesBWB f w t (a.envBWB q E) v = E v := by
  simp [inputsJ, moreJet, moreBWB, Weights.runOEW, Weights.runAdd, Weights.totalSys, Weights.structSys,
    Weights.AircraftJ.envJ, Weights.AircraftJ.envBWB, Weights.AircraftJ.common]

/-- airplanes with the same inputs are the same -/
theorem airplaneJ_congr {e f : String → ℝ} (h : ∀ v ∈ (inputsJ ++ moreJet ++ moreBWB).map Var.name, e v = f v) :
    airplaneJ e = airplaneJ f := by
  simp [inputsJ, moreJet, moreBWB] at h
  simp [airplaneJ, h]

/-- C117.  For all inputs there is a converged state of each of the two groups. -/
theorem C117_jet_solution (T : Bool) (o : Opts) (e₀ : String → ℝ) :
    (∃ e, (jetEmpty T).rel o e ∧ ∀ v ∈ (jetEmpty T).ins, e v.name = e₀ v.name) ∧
    (∃ e, bwbEmpty.rel o e ∧ ∀ v ∈ bwbEmpty.ins, e v.name = e₀ v.name) := by
  obtain ⟨-, -, hi1, hi2, -, -⟩ := C117_jet_setup
  constructor
  · obtain ⟨e, he⟩ : ∃ e : String → ℝ, e = fun v =>
        if v = "hstab.hstab_const.HstabConst" then Weights.hstabConst (o "fuselage_width_frac") (e₀ "ac|geom|hstab|S_ref")
          (e₀ "ac|geom|hstab|AR") (e₀ "ac|geom|fuselage|height")
        else if v = "fuselage.K_ws_term.K_ws" then Weights.KwsJ.compute ⟨e₀ "ac|geom|wing|taper", e₀ "ac|geom|wing|S_ref",
          e₀ "ac|geom|wing|AR", e₀ "ac|geom|wing|c4sweep", e₀ "ac|geom|fuselage|length"⟩
        else if v = "single_engine.W_engine" then Weights.engineJ (e₀ "ac|propulsion|engine|rating")
        else if v = "cabin_volume.V_pressurized" then Weights.cabinVolume (e₀ "ac|geom|fuselage|height")
          (e₀ "ac|geom|fuselage|length") (o "cabin_length_frac")
        else Weights.runOEW Weights.structNamesJ (o "structural_fudge") (o "wing_weight_multiplier") (o "total_fudge")
          ((airplaneJ e₀).envJ (optionsJ T o) e₀) v := ⟨_, rfl⟩
    have hin : ∀ v ∈ (inputsJ ++ moreJet ++ moreBWB).map Var.name, e v = e₀ v := by
      intro v hv
      rw [← (runOEW_inputs (optionsJ T o) (airplaneJ e₀) (o "structural_fudge") (o "wing_weight_multiplier") (o "total_fudge") e₀
        v hv).1, he]
      have hne : v ≠ "hstab.hstab_const.HstabConst" ∧ v ≠ "fuselage.K_ws_term.K_ws" ∧ v ≠ "single_engine.W_engine" ∧
          v ≠ "cabin_volume.V_pressurized" := by
        refine ⟨?_, ?_, ?_, ?_⟩ <;> rintro rfl <;> revert hv <;> decide
      simp only [if_neg hne.1, if_neg hne.2.1, if_neg hne.2.2.1, if_neg hne.2.2.2]
    have hv0 : ∀ v ∈ (inputsJ ++ moreJet ++ moreBWB).map Var.name, e v = e₀ v := hin
    refine ⟨e, ?_, fun v hv => hin _ (List.mem_map_of_mem (List.mem_append_left _ ((hi1 T v).1 hv)))⟩
    rw [C117_jet, airplaneJ_congr hin]
    simp [inputsJ, moreJet, moreBWB] at hv0
    simp only [hv0]
    refine ⟨by rw [he]; rfl, by rw [he]; rfl, by rw [he]; rfl, by rw [he]; rfl, fun v hv => ?_⟩
    rw [(runOEW_other _ _ _ _ _ e e₀).1 v hv, he]
    have hne : v ≠ "hstab.hstab_const.HstabConst" ∧ v ≠ "fuselage.K_ws_term.K_ws" ∧ v ≠ "single_engine.W_engine" ∧
        v ≠ "cabin_volume.V_pressurized" := by
      refine ⟨?_, ?_, ?_, ?_⟩ <;> rintro rfl <;> revert hv <;> decide
    simp only [if_neg hne.1, if_neg hne.2.1, if_neg hne.2.2.1, if_neg hne.2.2.2]
  · obtain ⟨e, he⟩ : ∃ e : String → ℝ, e = fun v =>
        if v = "single_engine.W_engine" then Weights.engineJ (e₀ "ac|propulsion|engine|rating")
        else Weights.runOEW Weights.structNamesBWB (o "structural_fudge") (o "wing_weight_multiplier") (o "total_fudge")
          ((airplaneJ e₀).envBWB (optionsJ false o) e₀) v := ⟨_, rfl⟩
    have hin : ∀ v ∈ (inputsJ ++ moreJet ++ moreBWB).map Var.name, e v = e₀ v := by
      intro v hv
      rw [← (runOEW_inputs (optionsJ false o) (airplaneJ e₀) (o "structural_fudge") (o "wing_weight_multiplier") (o "total_fudge") e₀
        v hv).2, he]
      have hne : v ≠ "single_engine.W_engine" := by rintro rfl; revert hv; decide
      simp only [if_neg hne]
    refine ⟨e, ?_, fun v hv => hin _ ?_⟩
    · rw [C117_bwb, airplaneJ_congr hin, hin "ac|propulsion|engine|rating" (by decide)]
      refine ⟨by rw [he]; rfl, fun v hv => ?_⟩
      rw [(runOEW_other _ _ _ _ _ e e₀).2 v hv, he]
      have hne : v ≠ "single_engine.W_engine" := by rintro rfl; revert hv; decide
      simp only [if_neg hne]
    · rcases List.mem_append.1 ((hi2 v).1 hv) with h | h
      · exact List.mem_map_of_mem (List.mem_append_left _ (List.mem_append_left _ h))
      · exact List.mem_map_of_mem (List.mem_append_right _ h)

/-- the jet transport has no centerbody: the weights do not depend on it -/
def noCenterbody (a : Weights.AircraftJ) : Weights.AircraftJ := { a with Scabin := 1, Saft := 1, taperAft := 1, Vpress := 1 }

/-- the blended wing body has no tails and no fuselage: the weights do not depend on them -/
def noTails (a : Weights.AircraftJ) : Weights.AircraftJ :=
  { a with Sh := 1, ARh := 1, sweeph := 0, armh := 1, Sv := 1, ARv := 1, sweepv := 0, armv := 1, tocv := 1, length := 1, height := 1, Swet := 1 }

theorem noCenterbody_env (q : Weights.OptJ) (a : Weights.AircraftJ) (E : Weights.Env) : (noCenterbody a).envJ q E = a.envJ q E := rfl

theorem noTails_env (q : Weights.OptJ) (a : Weights.AircraftJ) (E : Weights.Env) : (noTails a).envBWB q E = a.envBWB q E := rfl

/-- the blended wing body has none of the options of tails and fuselage -/
def optionsBWB (o : Opts) : Weights.OptJ := { optionsJ false o with widthFrac := 0, Kuht := 1, elev := 0, Kdoor := 1, Klg := 1 }

/-- C117.  The inputs and options determine the outputs: two converged states with the same inputs agree on all outputs. -/
theorem C117_jet_unique (T : Bool) (o : Opts) (e f : String → ℝ) :
    ((jetEmpty T).rel o e → (jetEmpty T).rel o f → (∀ v ∈ (jetEmpty T).ins, e v.name = f v.name) →
      ∀ v ∈ (jetEmpty T).outs, e v.name = f v.name) ∧
    (bwbEmpty.rel o e → bwbEmpty.rel o f → (∀ v ∈ bwbEmpty.ins, e v.name = f v.name) →
      ∀ v ∈ bwbEmpty.outs, e v.name = f v.name) := by
  obtain ⟨-, -, hi1, hi2, -, -⟩ := C117_jet_setup
  have ho1 : ∀ T, ∀ v ∈ (jetEmpty T).outs, v.name ∈ ["hstab.hstab_const.HstabConst", "fuselage.K_ws_term.K_ws",
      "single_engine.W_engine", "cabin_volume.V_pressurized"] ∨ v.name ∈ "W_hstab" :: "W_vstab" :: "W_fuselage" :: weightsJ := by
    decide +kernel
  have ho2 : ∀ v ∈ bwbEmpty.outs, v.name = "single_engine.W_engine" ∨ v.name ∈ "W_cabin" :: "W_aftbody" :: weightsJ := by
    decide +kernel
  constructor
  · intro he hf hin v hv
    rw [C117_jet] at he hf
    simp only [hi1 T] at hin
    have ha : noCenterbody (airplaneJ e) = noCenterbody (airplaneJ f) := by
      simp [inputsJ, moreJet] at hin
      simp [noCenterbody, airplaneJ, hin]
    rw [← noCenterbody_env, ha, noCenterbody_env] at he
    obtain ⟨e1, e2, e3, e4, e5⟩ := he
    obtain ⟨f1, f2, f3, f4, f5⟩ := hf
    rcases ho1 T v hv with h | h
    · simp [inputsJ, moreJet] at hin
      simp only [List.mem_cons, List.not_mem_nil, or_false] at h
      rcases h with h | h | h | h
      · rw [h, e1, f1]; simp only [hin]
      · rw [h, e2, f2]; simp only [hin]
      · rw [h, e3, f3]; simp only [hin]
      · rw [h, e4, f4]; simp only [hin]
    · rw [e5 _ h, f5 _ h]
      exact (runOEW_other _ _ _ _ _ _ _).1 _ h
  · intro he hf hin v hv
    rw [C117_bwb] at he hf
    simp only [hi2] at hin
    have ha : noTails (airplaneJ e) = noTails (airplaneJ f) := by
      simp [inputsJ, moreBWB] at hin
      simp [noTails, airplaneJ, hin]
    rw [← noTails_env, ha, noTails_env] at he
    obtain ⟨e3, e5⟩ := he
    obtain ⟨f3, f5⟩ := hf
    rcases ho2 v hv with h | h
    · simp [inputsJ, moreBWB] at hin
      rw [h, e3, f3]; simp only [hin]
    · rw [e5 _ h, f5 _ h]
      exact (runOEW_other _ _ _ _ _ _ _).2 _ h

/-- C117.  In the converged group of the jet transport, a heavier airplane (greater `ac|weights|MTOW`, all other inputs and all options
the same) has a strictly greater empty weight. -/
theorem C117_jet_mono (T : Bool) (o : Opts) {e f : String → ℝ} (he : (jetEmpty T).rel o e) (hf : (jetEmpty T).rel o f)
    (h : ∀ v ∈ (jetEmpty T).ins.map Var.name, v ≠ "ac|weights|MTOW" → e v = f v)
    (ho : (optionsJ T o).Ok) (ha : (noCenterbody (airplaneJ e)).Ok)
    (hM : e "ac|weights|MTOW" < f "ac|weights|MTOW") : e "OEW" < f "OEW" := by
  rw [C117_jet] at he hf
  rw [he.2.2.2.2 "OEW" (by decide), hf.2.2.2.2 "OEW" (by decide)]
  have hk : ∀ v ∈ inputsJ ++ moreJet, v.name ≠ "ac|weights|MTOW" → e v.name = f v.name := fun v hv =>
    h _ (List.mem_map_of_mem ((C117_jet_setup.2.2.1 T v).2 hv))
  have hf' : noCenterbody (airplaneJ f) = { noCenterbody (airplaneJ e) with MTOW := f "ac|weights|MTOW" } := by
    simp [inputsJ, moreJet] at hk
    simp [noCenterbody, airplaneJ, hk]
  have := (Weights.C73_total_mono (optionsJ T o) _ e ho ha hM).1
  rw [← hf'] at this
  rw [(runOEW_other _ (airplaneJ f) _ _ _ f e).1 "OEW" (by decide)]
  exact this

/-- C117.  The same for the blended wing body. -/
theorem C117_bwb_mono (o : Opts) {e f : String → ℝ} (he : bwbEmpty.rel o e) (hf : bwbEmpty.rel o f)
    (h : ∀ v ∈ bwbEmpty.ins.map Var.name, v ≠ "ac|weights|MTOW" → e v = f v)
    (ho : (optionsBWB o).Ok) (ha : (noTails (airplaneJ e)).Ok)
    (hM : e "ac|weights|MTOW" < f "ac|weights|MTOW") : e "OEW" < f "OEW" := by
  rw [C117_bwb] at he hf
  rw [he.2 "OEW" (by decide), hf.2 "OEW" (by decide)]
  have hk : ∀ v ∈ inputsJ ++ moreBWB, v.name ≠ "ac|weights|MTOW" → e v.name = f v.name := fun v hv =>
    h _ (List.mem_map_of_mem ((C117_jet_setup.2.2.2.1 v).2 hv))
  have hf' : noTails (airplaneJ f) = { noTails (airplaneJ e) with MTOW := f "ac|weights|MTOW" } := by
    simp [inputsJ, moreBWB] at hk
    simp [noTails, airplaneJ, hk]
  have := (Weights.C73_total_mono (optionsBWB o) _ e ho ha hM).2
  rw [← hf'] at this
  rw [(runOEW_other _ (airplaneJ f) _ _ _ f e).2 "OEW" (by decide)]
  exact this

/-- options and inputs for the example: all 1, sweeps 0 -/
noncomputable def onesJ (M : ℝ) (v : String) : ℝ := if v = "ac|weights|MTOW" then M else if v ∈ ["ac|geom|wing|c4sweep", "ac|geom|hstab|c4sweep",
  "ac|geom|vstab|c4sweep"] then 0 else 1

/-- two jet transports of 1 lb and 2 lb: both have a converged state, and the second is heavier -/
example (T : Bool) : ∃ e f : String → ℝ, (jetEmpty T).rel ⟨fun _ => 1, fun _ _ => 0⟩ e ∧ (jetEmpty T).rel ⟨fun _ => 1, fun _ _ => 0⟩ f ∧
    e "ac|weights|MTOW" = 1 ∧ f "ac|weights|MTOW" = 2 ∧ e "OEW" < f "OEW" := by
  obtain ⟨e, he, hie⟩ := (C117_jet_solution T ⟨fun _ => 1, fun _ _ => 0⟩ (onesJ 1)).1
  obtain ⟨f, hf, hif⟩ := (C117_jet_solution T ⟨fun _ => 1, fun _ _ => 0⟩ (onesJ 2)).1
  simp only [C117_jet_setup.2.2.1 T] at hie hif
  simp [inputsJ, moreJet, onesJ] at hie hif
  refine ⟨e, f, he, hf, hie.1, hif.1, C117_jet_mono T _ he hf ?_ ?_ ?_ ?_⟩
  · intro v hv hM
    obtain ⟨w, hw, rfl⟩ := List.mem_map.1 hv
    rw [C117_jet_setup.2.2.1 T] at hw
    revert hw hM w
    simp only [inputsJ, moreJet, List.cons_append, List.nil_append, List.forall_mem_cons]
    simp [hie, hif]
  · simp [Weights.OptJ.Ok, optionsJ]
  · simp [Weights.AircraftJ.Ok, noCenterbody, airplaneJ, hie]
  · rw [hie.1, hif.1]; norm_num

/-- the same for two blended wing bodies -/
example : ∃ e f : String → ℝ, bwbEmpty.rel ⟨fun _ => 1, fun _ _ => 0⟩ e ∧ bwbEmpty.rel ⟨fun _ => 1, fun _ _ => 0⟩ f ∧
    e "ac|weights|MTOW" = 1 ∧ f "ac|weights|MTOW" = 2 ∧ e "OEW" < f "OEW" := by
  obtain ⟨e, he, hie⟩ := (C117_jet_solution false ⟨fun _ => 1, fun _ _ => 0⟩ (onesJ 1)).2
  obtain ⟨f, hf, hif⟩ := (C117_jet_solution false ⟨fun _ => 1, fun _ _ => 0⟩ (onesJ 2)).2
  simp only [C117_jet_setup.2.2.2.1] at hie hif
  simp [inputsJ, moreBWB, onesJ] at hie hif
  refine ⟨e, f, he, hf, hie.1, hif.1, C117_bwb_mono _ he hf ?_ ?_ ?_ ?_⟩
  · intro v hv hM
    obtain ⟨w, hw, rfl⟩ := List.mem_map.1 hv
    rw [C117_jet_setup.2.2.2.1] at hw
    revert hw hM w
    simp only [inputsJ, moreBWB, List.cons_append, List.nil_append, List.forall_mem_cons]
    simp [hie, hif]
  · simp [Weights.OptJ.Ok, optionsBWB, optionsJ]
  · simp [Weights.AircraftJ.Ok, noTails, airplaneJ, hie]
  · rw [hie.1, hif.1]; norm_num

end Verif.Wiring
