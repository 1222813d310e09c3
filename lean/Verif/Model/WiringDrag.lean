import Verif.Model.WiringWeights
import Verif.Model.CriticalSection

/-!
The drag build-ups of openconcept/aerodynamics and the turbofans of openconcept/propulsion as groups: subsystems, promotions,
connections and options as written.  The formulas are those of Model/Aero.lean and Model/CriticalSection.lean; engine decks are
arbitrary functions of throttle, altitude and Mach number.
-/

namespace Verif.Wiring

open Verif.Units Verif.VectorComps

/-! ### components -/

/-- aerodynamics/drag_jet_transport.py:376-387 `FuselageFormFactor_JetTransport` -/
noncomputable def fuselageForm : Comp where
  ins := [("ac|geom|fuselage|length", "m"), ("ac|geom|fuselage|height", "m")]
  opts := [("Q_fuselage", "")]
  outs := [("FF_fuselage", "")]
  consts := []
  run e o :=
    if o = "FF_fuselage" then some (Aero.fusFF (e "Q_fuselage") (e "ac|geom|fuselage|length") (e "ac|geom|fuselage|height"))
    else none

/-- aerodynamics/drag_jet_transport.py:383 -/
noncomputable def dFuselageForm : Decl where
  comp := fuselageForm
  vecs := []
  parts := every ["FF_fuselage"] ["ac|geom|fuselage|length", "ac|geom|fuselage|height"] .dense

/-- aerodynamics/drag_jet_transport.py:428-438 `WingFormFactor_JetTransport` -/
noncomputable def wingForm : Comp where
  ins := [("toverc", "")]
  opts := [("Q", "")]
  outs := [("FF_wing", "")]
  consts := []
  run e o := if o = "FF_wing" then some (Aero.wingFF (e "Q") (e "toverc")) else none

/-- aerodynamics/drag_jet_transport.py:434 -/
noncomputable def dWingForm : Decl where
  comp := wingForm
  vecs := []
  parts := every ["FF_wing"] ["toverc"] .dense

/-- aerodynamics/drag_jet_transport.py:472-501 `FlapDrag_JetTransport` -/
noncomputable def flapComp : Comp where
  ins := [("flap_extension", "deg"), ("ac|geom|wing|c4sweep", "rad")]
  opts := [("flap_chord_frac", ""), ("Q_flap", ""), ("wing_area_flapped_frac", "")]
  outs := [("CD_flap", "")]
  consts := []
  run e o :=
    if o = "CD_flap" then some (Aero.flapDrag (e "flap_chord_frac") (e "wing_area_flapped_frac") (e "Q_flap") (e "flap_extension")
      (e "ac|geom|wing|c4sweep"))
    else none

/-- aerodynamics/drag_jet_transport.py:481 -/
noncomputable def dFlapComp : Decl where
  comp := flapComp
  vecs := []
  parts := every ["CD_flap"] ["flap_extension", "ac|geom|wing|c4sweep"] .dense

/-- `IndepVarComp` with scalar outputs whose values are options of the group or numbers -/
noncomputable def given (l : List (String × OptVal)) : Sys where
  ins := []
  outs := l.map fun c => ⟨c.1, "", false, true⟩
  rel o e := ∀ c ∈ l, e c.1 = OptVal.get o c.1 (some c.2)

/-- `ElementMultiplyDivideComp` with several equations that share no input -/
noncomputable def products (l : List (MulSys ℝ)) (vec : String → Bool) : Sys where
  ins := l.flatMap fun s => (s.inputs.zip s.units).map fun p => ⟨p.1, p.2.getD "", vec p.1, true⟩
  outs := l.map fun s => ⟨s.output, (outputUnits (s.div.zip s.units)).getD "", vec s.output, true⟩
  rel _ e := ∀ s ∈ l, e s.output = s.compute (fun n _ _ => e n) 0 0

/-- `AddSubtractComp` with one equation whose scaling factors are options of the group -/
noncomputable def sumBy (s : Opts → AddSys ℝ) (vec : String → Bool) : Sys where
  ins := (s ⟨fun _ => 0, fun _ _ => 0⟩).inputs.map fun n => ⟨n, "", vec n, true⟩
  outs := [⟨(s ⟨fun _ => 0, fun _ _ => 0⟩).output, "", vec (s ⟨fun _ => 0, fun _ _ => 0⟩).output, true⟩]
  rel o e := e (s o).output = (s o).compute (fun n _ _ => e n) 0 0

/-! ### drag of jet transports -/

/-- drag_jet_transport.py:247-286: the equations of `drag_coeffs` -/
noncomputable def dragCoeffs (wing : Bool) : List (MulSys ℝ) :=
  [⟨"CD_fuselage", ["ac|geom|fuselage|S_wet", "FF_fuselage", "Cf_fuselage", "S_wing_1"], .each [1, 1, 2, 1], 1, 1,
      some [false, false, false, true], some [some "m**2", none, none, some "m**2"]⟩,
   ⟨"CD_hstab", ["ac|geom|hstab|S_ref", "FF_hstab", "Cf_hstab", "S_wing_2"], .each [1, 1, 2, 1], 1, 2,
      some [false, false, false, true], some [some "m**2", none, none, some "m**2"]⟩,
   ⟨"CD_vstab", ["ac|geom|vstab|S_ref", "FF_vstab", "Cf_vstab", "S_wing_3"], .each [1, 1, 2, 1], 1, 2,
      some [false, false, false, true], some [some "m**2", none, none, some "m**2"]⟩,
   ⟨"CD_nacelle", ["ac|geom|nacelle|S_wet", "FF_nacelle", "Cf_nacelle", "ac|propulsion|num_engines", "S_wing_4"],
      .each [1, 1, 2, 1, 1], 1, 1, some [false, false, false, false, true], some [some "m**2", none, none, none, some "m**2"]⟩] ++
  if wing then [⟨"CD_wing", ["FF_wing", "Cf_wing"], .each [1, 2], 1, 2, some [false, false], some [none, none]⟩] else []

/-- variables of the drag build-ups with one entry for each node -/
def dragVec (n : String) : Bool :=
  ["Cf_fuselage", "Cf_hstab", "Cf_vstab", "Cf_nacelle", "Cf_wing", "CD_fuselage", "CD_hstab", "CD_vstab", "CD_nacelle", "CD_wing",
    "CD0"].contains n

/-- a trapezoidal surface and its friction, drag_jet_transport.py:207-223 -/
noncomputable def surface (surf : String) : List Sub :=
  [⟨surf ++ "_MAC_calc", explicit dWingMAC, .only [("S_ref", "ac|geom|" ++ surf ++ "|S_ref"), ("AR", "ac|geom|" ++ surf ++ "|AR"),
      ("taper", "ac|geom|" ++ surf ++ "|taper")], .only []⟩,
   ⟨surf ++ "_friction", explicit dSkinFriction [ref "laminar_frac" (surf ++ "_laminar_frac")],
      names ["fltcond|Utrue", "fltcond|rho", "fltcond|T"], .only []⟩]

/-- drag_jet_transport.py:329-341: `sum_CD0` -/
noncomputable def cd0Sum (wing : Bool) (o : Opts) : AddSys ℝ :=
  let l := ["CD_fuselage", "CD_hstab", "CD_vstab", "CD_nacelle"] ++ (if wing then ["CD_wing"] else []) ++ ["CD_flap", "CD_landing_gear"]
  ⟨"CD0", l, .each (List.replicate (l.length - 2) 2 ++ [1, 1]), 1, some (List.replicate l.length (o "drag_fudge_factor")), ⟨none, none⟩⟩

/-- the flaps in the take-off configuration, drag_jet_transport.py:308-317 and drag_BWB.py:157-166 -/
noncomputable def flapSub : Sub :=
  ⟨"flaps", explicit dFlapComp, .only [("flap_extension", "ac|aero|takeoff_flap_deg"),
    ("ac|geom|wing|c4sweep", "ac|geom|wing|c4sweep")], .only []⟩

/-- aerodynamics/drag_jet_transport.py:151-352 `ParasiteDragCoefficient_JetTransport.setup`; `wing`: `include_wing`, `takeoff`:
`configuration="takeoff"` -/
noncomputable def jetDrag (wing takeoff : Bool) : Grp where
  subs :=
    [⟨"iv", given ([ref "FF_nacelle" "FF_nacelle"] ++ (if takeoff then [] else [lit "CD_flap" 0]) ++
        [lit "CD_landing_gear" (if takeoff then 0.02 else 0)]), .only [], .only []⟩,
     ⟨"fuselage_form", explicit dFuselageForm, names ["ac|geom|fuselage|length", "ac|geom|fuselage|height"], .only []⟩,
     ⟨"hstab_form", explicit dWingForm [ref "Q" "Q_tail"], .only [("toverc", "ac|geom|hstab|toverc")], .only []⟩,
     ⟨"vstab_form", explicit dWingForm [ref "Q" "Q_tail"], .only [("toverc", "ac|geom|vstab|toverc")], .only []⟩] ++
    (if wing then [⟨"wing_form", explicit dWingForm [ref "Q" "Q_wing"], .only [("toverc", "ac|geom|wing|toverc")], .only []⟩] else []) ++
    [⟨"fuselage_friction", explicit dSkinFriction [ref "laminar_frac" "fuselage_laminar_frac"],
        .only [("fltcond|Utrue", "fltcond|Utrue"), ("fltcond|rho", "fltcond|rho"), ("fltcond|T", "fltcond|T"),
          ("L", "ac|geom|fuselage|length")], .only []⟩] ++
    surface "hstab" ++ surface "vstab" ++ (if wing then surface "wing" else []) ++
    [⟨"nacelle_friction", explicit dSkinFriction [ref "laminar_frac" "nacelle_laminar_frac"],
        .only [("fltcond|Utrue", "fltcond|Utrue"), ("fltcond|rho", "fltcond|rho"), ("fltcond|T", "fltcond|T"),
          ("L", "ac|geom|nacelle|length")], .only []⟩,
     ⟨"drag_coeffs", products (dragCoeffs wing) dragVec,
        .only [("ac|geom|fuselage|S_wet", "ac|geom|fuselage|S_wet"), ("ac|geom|hstab|S_ref", "ac|geom|hstab|S_ref"),
          ("ac|geom|vstab|S_ref", "ac|geom|vstab|S_ref"), ("ac|geom|nacelle|S_wet", "ac|geom|nacelle|S_wet"),
          ("ac|propulsion|num_engines", "ac|propulsion|num_engines"), ("S_wing_1", "ac|geom|wing|S_ref"),
          ("S_wing_2", "ac|geom|wing|S_ref"), ("S_wing_3", "ac|geom|wing|S_ref"), ("S_wing_4", "ac|geom|wing|S_ref")], .only []⟩] ++
    (if takeoff then [flapSub] else []) ++
    [⟨"sum_CD0", sumBy (cd0Sum wing) dragVec, .only [], names ["CD0"]⟩]
  conns :=
    (["hstab", "vstab"] ++ if wing then ["wing"] else []).map (fun s => (s ++ "_MAC_calc.MAC", s ++ "_friction.L")) ++
    [("fuselage_form.FF_fuselage", "drag_coeffs.FF_fuselage"), ("hstab_form.FF_wing", "drag_coeffs.FF_hstab"),
     ("vstab_form.FF_wing", "drag_coeffs.FF_vstab"), ("iv.FF_nacelle", "drag_coeffs.FF_nacelle")] ++
    ["fuselage", "hstab", "vstab", "nacelle"].map (fun s => (s ++ "_friction.Cf", "drag_coeffs.Cf_" ++ s)) ++
    (if wing then [("wing_form.FF_wing", "drag_coeffs.FF_wing"), ("wing_friction.Cf", "drag_coeffs.Cf_wing")] else []) ++
    [("drag_coeffs.CD_fuselage", "sum_CD0.CD_fuselage"), ("drag_coeffs.CD_hstab", "sum_CD0.CD_hstab"),
     ("drag_coeffs.CD_vstab", "sum_CD0.CD_vstab"), ("drag_coeffs.CD_nacelle", "sum_CD0.CD_nacelle")] ++
    (if wing then [("drag_coeffs.CD_wing", "sum_CD0.CD_wing")] else []) ++
    [((if takeoff then "flaps.CD_flap" else "iv.CD_flap"), "sum_CD0.CD_flap"), ("iv.CD_landing_gear", "sum_CD0.CD_landing_gear")]

/-! ### drag of blended wing bodies -/

/-- drag_BWB.py:97-192 `ParasiteDragCoefficient_BWB.setup` -/
noncomputable def bwbDrag (takeoff : Bool) : Grp where
  subs :=
    [⟨"iv", given ([ref "FF_nacelle" "FF_nacelle"] ++ (if takeoff then [] else [lit "CD_flap" 0]) ++
        [lit "CD_landing_gear" (if takeoff then 0.01 else 0)]), .only [], .only []⟩,
     ⟨"nacelle_friction", explicit dSkinFriction [ref "laminar_frac" "nacelle_laminar_frac"],
        .only [("fltcond|Utrue", "fltcond|Utrue"), ("fltcond|rho", "fltcond|rho"), ("fltcond|T", "fltcond|T"),
          ("L", "ac|geom|nacelle|length")], .only []⟩,
     ⟨"drag_coeffs", products [Aero.bwbNacSys] dragVec,
        names ["ac|geom|nacelle|S_wet", "ac|propulsion|num_engines", "ac|geom|wing|S_ref"], .only []⟩] ++
    (if takeoff then [flapSub] else []) ++
    [⟨"sum_CD0", sumBy (fun o => Aero.bwbSum (o "drag_fudge_factor")) dragVec, .only [], names ["CD0"]⟩]
  conns :=
    [("iv.FF_nacelle", "drag_coeffs.FF_nacelle"), ("nacelle_friction.Cf", "drag_coeffs.Cf_nacelle"),
     ("drag_coeffs.CD_nacelle", "sum_CD0.CD_nacelle"), ((if takeoff then "flaps.CD_flap" else "iv.CD_flap"), "sum_CD0.CD_flap"),
     ("iv.CD_landing_gear", "sum_CD0.CD_landing_gear")]

/-! ### turbofans -/

/-- throttle, altitude in feet and Mach number; with `hybrid` also the power of the electric motors -/
def deckIns (hybrid : Bool) : List Var :=
  [⟨"throttle", "", true, true⟩, ⟨"fltcond|h", "ft", true, true⟩, ⟨"fltcond|M", "", true, true⟩] ++
  if hybrid then [⟨"hybrid_power", "kW", true, true⟩] else []

/-- propulsion/cfm56.py:65-89 `CFM56`, N3.py:333-357 `N3` and N3.py:118-143 `N3Hybrid`: thrust, fuel flow and a third output are
surrogates over the inputs -/
def engineDeck (hybrid : Bool) (third thirdUnit : String) : Sys where
  ins := deckIns hybrid
  outs := [⟨"thrust", "lbf", true, true⟩, ⟨"fuel_flow", "lbm/s", true, true⟩, ⟨third, thirdUnit, true, true⟩]
  rel o e := ∀ v ∈ ["thrust", "fuel_flow", third], e v = o.map v ((deckIns hybrid).map fun i => e i.name)

/-- the deck of a rubberized turbofan -/
def deckOf : Propulsion.Deck → Sys
  | .N3 => engineDeck false "surge_margin" ""
  | .CFM56 => engineDeck false "T4" "degR"

/-- the third output of the deck -/
def deckThird : Propulsion.Deck → String
  | .N3 => "surge_margin"
  | .CFM56 => "T4"

/-- rubberized_turbofan.py:115-129: the equations of `scale_engine` -/
noncomputable def scaleEngine (hydrogen : Bool) : List (MulSys ℝ) :=
  [⟨"thrust", ["unit_thrust", "rating_thrust", "orig_rating_thrust"], .each [2, 1, 1], 1, 1, some [false, false, true],
      some [some "lbf", some "lbf", some "lbf"]⟩,
   ⟨"fuel_flow", ["unit_fuel_flow", "rating_fuel_flow", "orig_rating_fuel_flow"], .each [2, 1, 1], 1,
      Propulsion.lhvScale hydrogen, some [false, false, true], some [some "lbm/s", some "lbf", some "lbf"]⟩]

/-- rubberized_turbofan.py:66-133 `RubberizedTurbofan.setup`.  The original ratings are open inputs with default values
(lines 130-131). -/
noncomputable def rubberTurbofan (d : Propulsion.Deck) (hydrogen : Bool) : Grp where
  subs :=
    [⟨"engine_deck", deckOf d, names ["throttle", "fltcond|h", "fltcond|M"], names [deckThird d]⟩,
     ⟨"scale_engine", products (scaleEngine hydrogen) (fun n => ["unit_thrust", "unit_fuel_flow", "thrust", "fuel_flow"].contains n),
        .only [("rating_thrust", "ac|propulsion|engine|rating"), ("rating_fuel_flow", "ac|propulsion|engine|rating")],
        names ["thrust", "fuel_flow"]⟩]
  conns := [("engine_deck.thrust", "scale_engine.unit_thrust"), ("engine_deck.fuel_flow", "scale_engine.unit_fuel_flow")]
  defaults := [("scale_engine.orig_rating_thrust", "lbf"), ("scale_engine.orig_rating_fuel_flow", "lbf")]

end Verif.Wiring
