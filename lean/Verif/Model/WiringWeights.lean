import Verif.Model.WiringMission
import Verif.Model.WeightsJet

/-!
The groups of openconcept/weights as written: subsystems, promotions, connections and options.  The formulas are those of
Model/Weights.lean and Model/WeightsJet.lean.
-/

namespace Verif.Wiring

open Verif.Units Verif.VectorComps

/-! ### components -/

/-- weights/weights_turboprop.py:20-37 `WingWeight_SmallTurboprop` -/
noncomputable def wingTP : Comp where
  ins := [("ac|weights|MTOW", "lb"), ("ac|weights|W_fuel_max", "lb"), ("ac|geom|wing|S_ref", "ft**2"),
    ("ac|geom|wing|AR", ""), ("ac|geom|wing|c4sweep", "rad"), ("ac|geom|wing|taper", ""), ("ac|geom|wing|toverc", ""),
    ("ac|q_cruise", "lb*ft**-2")]
  opts := [("n_ult", "")]
  outs := [("W_wing", "lb")]
  consts := []
  run e o :=
    if o = "W_wing" then some (Weights.WingTP.compute ⟨e "n_ult", e "ac|weights|MTOW", e "ac|weights|W_fuel_max", e "ac|geom|wing|S_ref", e "ac|geom|wing|AR",
      e "ac|geom|wing|c4sweep", e "ac|geom|wing|taper", e "ac|geom|wing|toverc", e "ac|q_cruise"⟩)
    else none

/-- weights/weights_turboprop.py:37 -/
noncomputable def dWingTP : Decl where
  comp := wingTP
  vecs := []
  parts := every ["W_wing"] ["ac|weights|MTOW", "ac|weights|W_fuel_max", "ac|geom|wing|S_ref", "ac|geom|wing|AR", "ac|geom|wing|c4sweep",
    "ac|geom|wing|taper", "ac|geom|wing|toverc", "ac|q_cruise"] .dense

/-- weights/weights_turboprop.py:180-194 `EmpennageWeight_SmallTurboprop` -/
noncomputable def empennageTP : Comp where
  ins := [("ac|geom|hstab|S_ref", "ft**2"), ("ac|geom|vstab|S_ref", "ft**2")]
  opts := [("n_ult", "")]
  outs := [("W_empennage", "lb")]
  consts := []
  run e o :=
    if o = "W_empennage" then some (Weights.empennage (e "n_ult") (e "ac|geom|vstab|S_ref") (e "ac|geom|hstab|S_ref"))
    else none

/-- weights/weights_turboprop.py:194 -/
noncomputable def dEmpennageTP : Decl where
  comp := empennageTP
  vecs := []
  parts := every ["W_empennage"] ["ac|geom|hstab|S_ref", "ac|geom|vstab|S_ref"] .dense

/-- weights/weights_turboprop.py:231-247 `FuselageWeight_SmallTurboprop` -/
noncomputable def fuselageTP : Comp where
  ins := [("ac|weights|MTOW", "lb"), ("ac|geom|fuselage|length", "ft"), ("ac|geom|fuselage|height", "ft"),
    ("ac|geom|fuselage|width", "ft"), ("ac|geom|fuselage|S_wet", "ft**2"), ("ac|geom|hstab|c4_to_wing_c4", "ft"),
    ("ac|q_cruise", "lb*ft**-2")]
  opts := [("n_ult", "")]
  outs := [("W_fuselage", "lb")]
  consts := []
  run e o :=
    if o = "W_fuselage" then some (Weights.FusTP.compute ⟨e "n_ult", e "ac|weights|MTOW", e "ac|geom|fuselage|length", e "ac|geom|fuselage|height",
      e "ac|geom|fuselage|width", e "ac|geom|fuselage|S_wet", e "ac|geom|hstab|c4_to_wing_c4", e "ac|q_cruise"⟩)
    else none

/-- weights/weights_turboprop.py:247 -/
noncomputable def dFuselageTP : Decl where
  comp := fuselageTP
  vecs := []
  parts := every ["W_fuselage"] ["ac|weights|MTOW", "ac|geom|fuselage|length", "ac|geom|fuselage|height", "ac|geom|fuselage|width",
    "ac|geom|fuselage|S_wet", "ac|geom|hstab|c4_to_wing_c4", "ac|q_cruise"] .dense

/-- weights/weights_turboprop.py:388-396 `NacelleWeight_SmallSingleTurboprop` -/
noncomputable def nacelleTP : Comp where
  ins := [("P_TO", "hp")]
  opts := [("n_ult", "")]
  outs := [("W_nacelle", "lb")]
  consts := []
  run e o :=
    if o = "W_nacelle" then some (Weights.nacelle1 (e "P_TO"))
    else none

/-- weights/weights_turboprop.py:396 -/
noncomputable def dNacelleTP : Decl where
  comp := nacelleTP
  vecs := []
  parts := every ["W_nacelle"] ["P_TO"] .dense

/-- weights/weights_turboprop.py:448-459 `LandingGearWeight_SmallTurboprop` -/
noncomputable def gearTP : Comp where
  ins := [("ac|weights|MLW", "lb"), ("ac|geom|maingear|length", "ft"), ("ac|geom|nosegear|length", "ft")]
  opts := [("n_ult", "")]
  outs := [("W_gear", "lb")]
  consts := []
  run e o :=
    if o = "W_gear" then some (Weights.GearTP.compute ⟨e "n_ult", e "ac|weights|MLW", e "ac|geom|maingear|length", e "ac|geom|nosegear|length"⟩)
    else none

/-- weights/weights_turboprop.py:459 -/
noncomputable def dGearTP : Decl where
  comp := gearTP
  vecs := []
  parts := every ["W_gear"] ["ac|weights|MLW", "ac|geom|maingear|length", "ac|geom|nosegear|length"] .dense

/-- weights/weights_turboprop.py:511-521 `FuelSystemWeight_SmallTurboprop` -/
noncomputable def fuelSystemTP : Comp where
  ins := [("ac|weights|W_fuel_max", "lb")]
  opts := [("Kfsp", "")]
  outs := [("W_fuelsystem", "lb")]
  consts := []
  run e o :=
    if o = "W_fuelsystem" then some (Weights.fuelSystem (e "Kfsp") (e "ac|weights|W_fuel_max"))
    else none

/-- weights/weights_turboprop.py:521 -/
noncomputable def dFuelSystemTP : Decl where
  comp := fuelSystemTP
  vecs := []
  parts := every ["W_fuelsystem"] ["ac|weights|W_fuel_max"] .dense

/-- weights/weights_turboprop.py:545-552 `EquipmentWeight_SmallTurboprop` -/
noncomputable def equipmentTP : Comp where
  ins := [("ac|weights|MTOW", "lb"), ("ac|num_passengers_max", ""), ("ac|geom|fuselage|length", "ft"),
    ("ac|geom|wing|AR", ""), ("ac|geom|wing|S_ref", "ft**2"), ("W_fuelsystem", "lb")]
  opts := []
  outs := [("W_equipment", "lb")]
  consts := []
  run e o :=
    if o = "W_equipment" then some (Weights.EquipTP.compute ⟨e "ac|weights|MTOW", e "ac|num_passengers_max", e "ac|geom|fuselage|length", e "ac|geom|wing|AR",
      e "ac|geom|wing|S_ref", e "W_fuelsystem"⟩)
    else none

/-- weights/weights_turboprop.py:552 -/
noncomputable def dEquipmentTP : Decl where
  comp := equipmentTP
  vecs := []
  parts := every ["W_equipment"] ["ac|weights|MTOW", "ac|num_passengers_max", "ac|geom|fuselage|length", "ac|geom|wing|AR", "ac|geom|wing|S_ref",
    "W_fuelsystem"] .dense

/-- weights/weights_jet_transport.py:533-547 `WingWeight_JetTransport` -/
noncomputable def wingJet : Comp where
  ins := [("ac|weights|MTOW", "lb"), ("ac|geom|wing|S_ref", "ft**2"), ("ac|geom|wing|AR", ""),
    ("ac|geom|wing|c4sweep", "rad"), ("ac|geom|wing|taper", ""), ("ac|geom|wing|toverc", "")]
  opts := [("n_ult", ""), ("control_surface_area_frac", "")]
  outs := [("W_wing", "lb")]
  consts := []
  run e o :=
    if o = "W_wing" then some (Weights.WingJ.compute ⟨e "n_ult", e "control_surface_area_frac", e "ac|weights|MTOW", e "ac|geom|wing|S_ref", e "ac|geom|wing|AR",
      e "ac|geom|wing|c4sweep", e "ac|geom|wing|taper", e "ac|geom|wing|toverc"⟩)
    else none

/-- weights/weights_jet_transport.py:547 -/
noncomputable def dWingJet : Decl where
  comp := wingJet
  vecs := []
  parts := every ["W_wing"] ["ac|weights|MTOW", "ac|geom|wing|S_ref", "ac|geom|wing|AR", "ac|geom|wing|c4sweep", "ac|geom|wing|taper",
    "ac|geom|wing|toverc"] .dense

/-- weights/weights_jet_transport.py:663-672 `HstabConst_JetTransport` -/
noncomputable def hstabConstJet : Comp where
  ins := [("ac|geom|hstab|S_ref", "ft**2"), ("ac|geom|hstab|AR", ""), ("ac|geom|fuselage|height", "ft")]
  opts := [("fuselage_width_frac", "")]
  outs := [("HstabConst", "")]
  consts := []
  run e o :=
    if o = "HstabConst" then some (Weights.hstabConst (e "fuselage_width_frac") (e "ac|geom|hstab|S_ref") (e "ac|geom|hstab|AR") (e "ac|geom|fuselage|height"))
    else none

/-- weights/weights_jet_transport.py:672 -/
noncomputable def dHstabConstJet : Decl where
  comp := hstabConstJet
  vecs := []
  parts := every ["HstabConst"] ["ac|geom|hstab|S_ref", "ac|geom|hstab|AR", "ac|geom|fuselage|height"] .dense

/-- weights/weights_jet_transport.py:727-742 `HstabWeight_JetTransport` -/
noncomputable def hstabJet : Comp where
  ins := [("ac|weights|MTOW", "lb"), ("ac|geom|hstab|S_ref", "ft**2"), ("ac|geom|hstab|AR", ""),
    ("ac|geom|hstab|c4sweep", "rad"), ("ac|geom|hstab|c4_to_wing_c4", "ft"), ("HstabConst", "")]
  opts := [("n_ult", ""), ("K_uht", ""), ("elevator_area_frac", "")]
  outs := [("W_hstab", "lb")]
  consts := []
  run e o :=
    if o = "W_hstab" then some (Weights.HstabJ.compute ⟨e "n_ult", e "K_uht", e "elevator_area_frac", e "ac|weights|MTOW", e "ac|geom|hstab|S_ref", e "ac|geom|hstab|AR",
      e "ac|geom|hstab|c4sweep", e "ac|geom|hstab|c4_to_wing_c4", e "HstabConst"⟩)
    else none

/-- weights/weights_jet_transport.py:742 -/
noncomputable def dHstabJet : Decl where
  comp := hstabJet
  vecs := []
  parts := every ["W_hstab"] ["ac|weights|MTOW", "ac|geom|hstab|S_ref", "ac|geom|hstab|AR", "ac|geom|hstab|c4sweep",
    "ac|geom|hstab|c4_to_wing_c4", "HstabConst"] .dense

/-- weights/weights_jet_transport.py:897-909 `VstabWeight_JetTransport` -/
noncomputable def vstabJet (T : Bool) : Comp where
  ins := [("ac|weights|MTOW", "lb"), ("ac|geom|vstab|S_ref", "ft**2"), ("ac|geom|vstab|AR", ""),
    ("ac|geom|vstab|c4sweep", "rad"), ("ac|geom|vstab|c4_to_wing_c4", "ft"), ("ac|geom|vstab|toverc", "")]
  opts := [("n_ult", "")]
  outs := [("W_vstab", "lb")]
  consts := []
  run e o :=
    if o = "W_vstab" then some (Weights.VstabJ.compute ⟨e "n_ult", T, e "ac|weights|MTOW", e "ac|geom|vstab|S_ref", e "ac|geom|vstab|AR", e "ac|geom|vstab|c4sweep",
      e "ac|geom|vstab|c4_to_wing_c4", e "ac|geom|vstab|toverc"⟩)
    else none

/-- weights/weights_jet_transport.py:909 -/
noncomputable def dVstabJet (T : Bool) : Decl where
  comp := vstabJet T
  vecs := []
  parts := every ["W_vstab"] ["ac|weights|MTOW", "ac|geom|vstab|S_ref", "ac|geom|vstab|AR", "ac|geom|vstab|c4sweep",
    "ac|geom|vstab|c4_to_wing_c4", "ac|geom|vstab|toverc"] .dense

/-- weights/weights_jet_transport.py:1031-1037 `FuselageKws_JetTransport` -/
noncomputable def kwsJet : Comp where
  ins := [("ac|geom|wing|taper", ""), ("ac|geom|wing|S_ref", "ft**2"), ("ac|geom|wing|AR", ""),
    ("ac|geom|wing|c4sweep", "rad"), ("ac|geom|fuselage|length", "ft")]
  opts := []
  outs := [("K_ws", "")]
  consts := []
  run e o :=
    if o = "K_ws" then some (Weights.KwsJ.compute ⟨e "ac|geom|wing|taper", e "ac|geom|wing|S_ref", e "ac|geom|wing|AR", e "ac|geom|wing|c4sweep",
      e "ac|geom|fuselage|length"⟩)
    else none

/-- weights/weights_jet_transport.py:1037 -/
noncomputable def dKwsJet : Decl where
  comp := kwsJet
  vecs := []
  parts := every ["K_ws"] ["ac|geom|wing|taper", "ac|geom|wing|S_ref", "ac|geom|wing|AR", "ac|geom|wing|c4sweep", "ac|geom|fuselage|length"] .dense

/-- weights/weights_jet_transport.py:1137-1149 `FuselageWeight_JetTransport` -/
noncomputable def fuselageJet : Comp where
  ins := [("ac|weights|MTOW", "lb"), ("ac|geom|fuselage|length", "ft"), ("ac|geom|fuselage|S_wet", "ft**2"),
    ("ac|geom|fuselage|height", "ft"), ("K_ws", "")]
  opts := [("n_ult", ""), ("K_door", ""), ("K_lg", "")]
  outs := [("W_fuselage", "lb")]
  consts := []
  run e o :=
    if o = "W_fuselage" then some (Weights.FusJ.compute ⟨e "n_ult", e "K_door", e "K_lg", e "ac|weights|MTOW", e "ac|geom|fuselage|length", e "ac|geom|fuselage|S_wet",
      e "ac|geom|fuselage|height", e "K_ws"⟩)
    else none

/-- weights/weights_jet_transport.py:1149 -/
noncomputable def dFuselageJet : Decl where
  comp := fuselageJet
  vecs := []
  parts := every ["W_fuselage"] ["ac|weights|MTOW", "ac|geom|fuselage|length", "ac|geom|fuselage|S_wet", "ac|geom|fuselage|height", "K_ws"] .dense

/-- weights/weights_jet_transport.py:1269-1280 `MainLandingGearWeight_JetTransport` -/
noncomputable def mainGearJet : Comp where
  ins := [("ac|geom|maingear|length", "inch"), ("ac|weights|MLW", "lb"), ("ac|geom|maingear|num_wheels", ""),
    ("ac|geom|maingear|num_shock_struts", ""), ("ac|aero|Vstall_land", "kn")]
  opts := [("n_land_ult", ""), ("kneeling_gear_parameter", "")]
  outs := [("W_mlg", "lb")]
  consts := []
  run e o :=
    if o = "W_mlg" then some (Weights.MainGearJ.compute ⟨e "n_land_ult", e "kneeling_gear_parameter", e "ac|weights|MLW", e "ac|geom|maingear|length",
      e "ac|geom|maingear|num_wheels", e "ac|geom|maingear|num_shock_struts", e "ac|aero|Vstall_land"⟩)
    else none

/-- weights/weights_jet_transport.py:1280 -/
noncomputable def dMainGearJet : Decl where
  comp := mainGearJet
  vecs := []
  parts := every ["W_mlg"] ["ac|geom|maingear|length", "ac|weights|MLW", "ac|geom|maingear|num_wheels", "ac|geom|maingear|num_shock_struts",
    "ac|aero|Vstall_land"] .dense

/-- weights/weights_jet_transport.py:1386-1395 `NoseLandingGearWeight_JetTransport` -/
noncomputable def noseGearJet : Comp where
  ins := [("ac|geom|nosegear|length", "inch"), ("ac|weights|MLW", "lb"), ("ac|geom|nosegear|num_wheels", "")]
  opts := [("n_land_ult", ""), ("kneeling_gear_parameter", "")]
  outs := [("W_nlg", "lb")]
  consts := []
  run e o :=
    if o = "W_nlg" then some (Weights.NoseGearJ.compute ⟨e "n_land_ult", e "kneeling_gear_parameter", e "ac|weights|MLW", e "ac|geom|nosegear|length",
      e "ac|geom|nosegear|num_wheels"⟩)
    else none

/-- weights/weights_jet_transport.py:1395 -/
noncomputable def dNoseGearJet : Decl where
  comp := noseGearJet
  vecs := []
  parts := every ["W_nlg"] ["ac|geom|nosegear|length", "ac|weights|MLW", "ac|geom|nosegear|num_wheels"] .dense

/-- weights/weights_jet_transport.py:1457-1459 `EngineWeight_JetTransport` -/
noncomputable def engineJet : Comp where
  ins := [("ac|propulsion|engine|rating", "lbf")]
  opts := []
  outs := [("W_engine", "lb")]
  consts := []
  run e o :=
    if o = "W_engine" then some (Weights.engineJ (e "ac|propulsion|engine|rating"))
    else none

/-- weights/weights_jet_transport.py:1459 -/
noncomputable def dEngineJet : Decl where
  comp := engineJet
  vecs := []
  parts := every ["W_engine"] ["ac|propulsion|engine|rating"] .dense

/-- weights/weights_jet_transport.py:1573-1577 `NacelleWeight_JetTransport` -/
noncomputable def nacelleJet : Comp where
  ins := [("ac|propulsion|engine|rating", "lbf"), ("ac|propulsion|num_engines", "")]
  opts := []
  outs := [("W_nacelle", "lb")]
  consts := []
  run e o :=
    if o = "W_nacelle" then some (Weights.nacelleJ (e "ac|propulsion|engine|rating") (e "ac|propulsion|num_engines"))
    else none

/-- weights/weights_jet_transport.py:1577 -/
noncomputable def dNacelleJet : Decl where
  comp := nacelleJet
  vecs := []
  parts := every ["W_nacelle"] ["ac|propulsion|engine|rating", "ac|propulsion|num_engines"] .dense

/-- weights/weights_BWB.py:429-432 `CabinWeight_BWB` -/
noncomputable def cabinBWB : Comp where
  ins := [("ac|geom|centerbody|S_cabin", "ft**2"), ("ac|weights|MTOW", "lb")]
  opts := []
  outs := [("W_cabin", "lb")]
  consts := []
  run e o :=
    if o = "W_cabin" then some (Weights.cabinBWB (e "ac|geom|centerbody|S_cabin") (e "ac|weights|MTOW"))
    else none

/-- weights/weights_BWB.py:432 -/
noncomputable def dCabinBWB : Decl where
  comp := cabinBWB
  vecs := []
  parts := every ["W_cabin"] ["ac|geom|centerbody|S_cabin", "ac|weights|MTOW"] .dense

/-- weights/weights_BWB.py:479-484 `AftbodyWeight_BWB` -/
noncomputable def aftbodyBWB : Comp where
  ins := [("ac|geom|centerbody|S_aftbody", "ft**2"), ("ac|geom|centerbody|taper_aftbody", ""),
    ("ac|propulsion|num_engines", ""), ("ac|weights|MTOW", "lb")]
  opts := []
  outs := [("W_aftbody", "lb")]
  consts := []
  run e o :=
    if o = "W_aftbody" then some (Weights.AftBWB.compute ⟨e "ac|geom|centerbody|S_aftbody", e "ac|geom|centerbody|taper_aftbody", e "ac|propulsion|num_engines",
      e "ac|weights|MTOW"⟩)
    else none

/-- weights/weights_BWB.py:484 -/
noncomputable def dAftbodyBWB : Decl where
  comp := aftbodyBWB
  vecs := []
  parts := every ["W_aftbody"] ["ac|geom|centerbody|S_aftbody", "ac|geom|centerbody|taper_aftbody", "ac|propulsion|num_engines", "ac|weights|MTOW"] .dense
/-- `AddSubtractComp` with one equation of scalars, whose scaling factors are options of the group -/
noncomputable def sumOf (s : Opts → AddSys ℝ) : Sys where
  ins := (s ⟨fun _ => 0, fun _ _ => 0⟩).inputs.map fun n =>
    ⟨n, ((s ⟨fun _ => 0, fun _ _ => 0⟩).kwargs.units.getD none).getD "", false, true⟩
  outs := [⟨(s ⟨fun _ => 0, fun _ _ => 0⟩).output, ((s ⟨fun _ => 0, fun _ _ => 0⟩).kwargs.units.getD none).getD "", false, true⟩]
  rel o e := e (s o).output = (s o).compute (fun n _ _ => e n) 0 0

/-! ### turboprops -/

/-- weights/weights_turboprop.py:634-636 and weights/weights_twin_hybrid.py:16-18 -/
noncomputable def constTP : Sub :=
  ⟨"const", consts [("W_fluids", "kg", false, 20), ("structural_fudge", "m/m", false, 1.6)], .only [], .all⟩

/-- weights/weights_turboprop.py:637-667 and weights/weights_twin_hybrid.py:19-49: all options have their defaults (lines 20, 180, 231,
388, 448 and 511 of weights_turboprop.py) -/
noncomputable def subsTP : List Sub :=
  [constTP,
   ⟨"wing", explicit dWingTP [lit "n_ult" (3.8 * 1.5)], .all, .all⟩,
   ⟨"empennage", explicit dEmpennageTP [lit "n_ult" (3.8 * 1.5)], .all, .all⟩,
   ⟨"fuselage", explicit dFuselageTP [lit "n_ult" (3.8 * 1.5)], .all, .all⟩,
   ⟨"nacelle", explicit dNacelleTP [lit "n_ult" (3.8 * 1.5)], .all, .all⟩,
   ⟨"gear", explicit dGearTP [lit "n_ult" (3.8 * 1.5)], .all, .all⟩,
   ⟨"fuelsystem", explicit dFuelSystemTP [lit "Kfsp" 6.55], .all, .all⟩,
   ⟨"equipment", explicit dEquipmentTP, .all, .all⟩,
   ⟨"structural", sum Weights.structTP fun _ => false, .all, .all⟩,
   ⟨"structural_fudge", product Weights.fudgeTP fun _ => false, .all, .all⟩]

/-- weights/weights_turboprop.py:633-684 `SingleTurboPropEmptyWeight.setup` -/
noncomputable def singleEmpty : Grp where
  subs := subsTP ++ [⟨"totalempty", sum Weights.totalSingle fun _ => false, .all, .all⟩]

/-- weights/weights_twin_hybrid.py:15-68 `TwinSeriesHybridEmptyWeight.setup` -/
noncomputable def twinEmpty : Grp where
  subs := subsTP ++ [⟨"totalempty", sum Weights.totalTwin fun _ => false, .all, .all⟩]

/-! ### jet transport -/

/-- weights/weights_jet_transport.py:234-261: the group `hstab` -/
noncomputable def hstabGroup : Grp where
  subs :=
    [⟨"hstab_const", explicit dHstabConstJet, names ["ac|geom|hstab|S_ref", "ac|geom|hstab|AR", "ac|geom|fuselage|height"], .only []⟩,
     ⟨"hstab_calc", explicit dHstabJet, names ["ac|weights|MTOW", "ac|geom|hstab|S_ref", "ac|geom|hstab|AR", "ac|geom|hstab|c4sweep",
        "ac|geom|hstab|c4_to_wing_c4"], names ["W_hstab"]⟩]
  conns := [("hstab_const.HstabConst", "hstab_calc.HstabConst")]

/-- weights/weights_jet_transport.py:284-308: the group `fuselage` -/
noncomputable def fuselageGroup : Grp where
  subs :=
    [⟨"K_ws_term", explicit dKwsJet, names ["ac|geom|wing|taper", "ac|geom|wing|S_ref", "ac|geom|wing|AR", "ac|geom|wing|c4sweep",
        "ac|geom|fuselage|length"], .only []⟩,
     ⟨"fuselage_calc", explicit dFuselageJet, names ["ac|weights|MTOW", "ac|geom|fuselage|length", "ac|geom|fuselage|S_wet",
        "ac|geom|fuselage|height"], names ["W_fuselage"]⟩]
  conns := [("K_ws_term.K_ws", "fuselage_calc.K_ws")]

/-- weights/weights_jet_transport.py:219-231 and weights/weights_BWB.py:219-231 -/
noncomputable def wingSub : Sub :=
  ⟨"wing", explicit dWingJet, names ["ac|weights|MTOW", "ac|geom|wing|S_ref", "ac|geom|wing|AR", "ac|geom|wing|c4sweep",
    "ac|geom|wing|taper", "ac|geom|wing|toverc"], names ["W_wing"]⟩

/-- weights/weights_jet_transport.py:314-391 and weights/weights_BWB.py:237-314: landing gear, engines, nacelles -/
noncomputable def gearEngineSubs : List Sub :=
  [⟨"main_gear", explicit dMainGearJet [ref "kneeling_gear_parameter" "kneeling_main_gear_parameter"], names ["ac|weights|MLW",
      "ac|geom|maingear|length", "ac|geom|maingear|num_wheels", "ac|geom|maingear|num_shock_struts", "ac|aero|Vstall_land"],
      names ["W_mlg"]⟩,
   ⟨"nose_gear", explicit dNoseGearJet [ref "kneeling_gear_parameter" "kneeling_nose_gear_parameter"], names ["ac|weights|MLW",
      "ac|geom|nosegear|length", "ac|geom|nosegear|num_wheels"], names ["W_nlg"]⟩,
   ⟨"single_engine", explicit dEngineJet, names ["ac|propulsion|engine|rating"], .only []⟩,
   ⟨"engine_multiplier", product ⟨"W_engines", ["W_engine", "ac|propulsion|num_engines"], .all 1, 1, 1, none, some [some "lb", none]⟩
      (fun _ => false), names ["ac|propulsion|num_engines"], names ["W_engines"]⟩,
   ⟨"engine_systems", explicit dEngineSystems, names ["ac|propulsion|engine|rating", "ac|propulsion|num_engines", "ac|aero|Mach_max",
      "ac|weights|W_fuel_max"], names ["W_thrust_rev", "W_eng_control", "W_fuelsystem", "W_eng_start"]⟩,
   ⟨"nacelles", explicit dNacelleJet, names ["ac|propulsion|engine|rating", "ac|propulsion|num_engines"], names ["W_nacelle"]⟩,
   ⟨"furnishings", explicit dFurnishing, names ["ac|num_passengers_max", "ac|num_flight_deck_crew", "ac|num_cabin_crew",
      "ac|cabin_pressure", "ac|weights|MTOW"], names ["W_furnishings"]⟩]

/-- weights/weights_jet_transport.py:425-448 and weights/weights_BWB.py:334-358; `more` are further promoted inputs -/
noncomputable def equipmentSub (more : List String) : Sub :=
  ⟨"equipment", explicit dEquipment, names (["ac|weights|MTOW", "ac|num_passengers_max", "ac|num_cabin_crew",
    "ac|num_flight_deck_crew", "ac|propulsion|num_engines"] ++ more ++ ["W_fuelsystem"]),
    names ["W_flight_controls", "W_avionics", "W_electrical", "W_ac_pressurize_antiice", "W_oxygen", "W_APU"]⟩

/-- weights/weights_jet_transport.py:414-424 -/
noncomputable def cabinVolumeSub : Sub :=
  ⟨"cabin_volume", ⟨[⟨"fus_height", "ft", false, true⟩, ⟨"fus_length", "ft", false, true⟩], [⟨"V_pressurized", "ft**3", false, true⟩],
    fun o e => e "V_pressurized" = Weights.cabinVolume (e "fus_height") (e "fus_length") (o "cabin_length_frac")⟩,
    .only [("fus_height", "ac|geom|fuselage|height"), ("fus_length", "ac|geom|fuselage|length")], .only []⟩

/-- weights/weights_jet_transport.py:451-497 and weights/weights_BWB.py:360-405: the two sums -/
noncomputable def sumSubs (l : List String) : List Sub :=
  [⟨"structural_adjustment", sumOf fun o => Weights.structSys l (o "structural_fudge") (o "wing_weight_multiplier"), .all,
      names ["W_structure"]⟩,
   ⟨"sum_weights", sumOf fun o => Weights.totalSys (o "total_fudge"), .all, names ["OEW"]⟩]

/-- weights/weights_jet_transport.py:212-497 `JetTransportEmptyWeight.setup`; `T`: option `T_tail` -/
noncomputable def jetEmpty (T : Bool) : Grp where
  subs :=
    [wingSub,
     ⟨"hstab", hstabGroup.sys, .all, names ["W_hstab"]⟩,
     ⟨"vstab", explicit (dVstabJet T), names ["ac|weights|MTOW", "ac|geom|vstab|S_ref", "ac|geom|vstab|AR", "ac|geom|vstab|c4sweep",
        "ac|geom|vstab|toverc", "ac|geom|vstab|c4_to_wing_c4"], names ["W_vstab"]⟩,
     ⟨"fuselage", fuselageGroup.sys, .all, names ["W_fuselage"]⟩]
    ++ gearEngineSubs ++ [cabinVolumeSub, equipmentSub []] ++ sumSubs Weights.structNamesJ
  conns :=
    [("single_engine.W_engine", "engine_multiplier.W_engine"), ("single_engine.W_engine", "engine_systems.W_engine"),
     ("cabin_volume.V_pressurized", "equipment.ac|geom|V_pressurized")]

/-! ### blended wing body -/

/-- weights/weights_BWB.py:191-405 `BWBEmptyWeight.setup` -/
noncomputable def bwbEmpty : Grp where
  subs :=
    [⟨"cabin", explicit dCabinBWB, names ["ac|geom|centerbody|S_cabin", "ac|weights|MTOW"], names ["W_cabin"]⟩,
     ⟨"aftbody", explicit dAftbodyBWB, names ["ac|geom|centerbody|S_aftbody", "ac|geom|centerbody|taper_aftbody",
        "ac|propulsion|num_engines", "ac|weights|MTOW"], names ["W_aftbody"]⟩,
     wingSub]
    ++ gearEngineSubs ++ [equipmentSub ["ac|geom|V_pressurized"]] ++ sumSubs Weights.structNamesBWB
  conns :=
    [("single_engine.W_engine", "engine_multiplier.W_engine"), ("single_engine.W_engine", "engine_systems.W_engine")]

end Verif.Wiring
