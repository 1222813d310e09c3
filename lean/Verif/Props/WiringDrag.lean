import Verif.Proof.WiringDrag

/-!
# C118: wiring of the drag build-ups and of the rubberized turbofans

`ParasiteDragCoefficient_JetTransport`, `ParasiteDragCoefficient_BWB` and `RubberizedTurbofan`: what the groups accept as inputs and
which state they converge to.
-/

namespace Verif.Wiring

open VectorComps

/-- the inputs of the drag of a jet transport -/
def inputsDrag (wing takeoff : Bool) : List Var :=
  [⟨"fltcond|Utrue", "m/s", true, true⟩, ⟨"fltcond|rho", "kg/m**3", true, true⟩, ⟨"fltcond|T", "K", true, true⟩,
   ⟨"ac|geom|fuselage|length", "m", false, true⟩, ⟨"ac|geom|fuselage|height", "m", false, true⟩,
   ⟨"ac|geom|fuselage|S_wet", "m**2", false, true⟩, ⟨"ac|geom|hstab|S_ref", "m**2", false, true⟩,
   ⟨"ac|geom|hstab|AR", "", false, true⟩, ⟨"ac|geom|hstab|taper", "", false, true⟩, ⟨"ac|geom|hstab|toverc", "", false, true⟩,
   ⟨"ac|geom|vstab|S_ref", "m**2", false, true⟩, ⟨"ac|geom|vstab|AR", "", false, true⟩, ⟨"ac|geom|vstab|taper", "", false, true⟩,
   ⟨"ac|geom|vstab|toverc", "", false, true⟩, ⟨"ac|geom|wing|S_ref", "m**2", false, true⟩,
   ⟨"ac|geom|nacelle|length", "m", false, true⟩, ⟨"ac|geom|nacelle|S_wet", "m**2", false, true⟩,
   ⟨"ac|propulsion|num_engines", "", false, true⟩] ++
  (if wing then [⟨"ac|geom|wing|AR", "", false, true⟩, ⟨"ac|geom|wing|taper", "", false, true⟩, ⟨"ac|geom|wing|toverc", "", false, true⟩]
    else []) ++
  (if takeoff then [⟨"ac|geom|wing|c4sweep", "rad", false, true⟩, ⟨"ac|aero|takeoff_flap_deg", "deg", false, true⟩] else [])

/-- the inputs of the drag of a blended wing body -/
def inputsBWBDrag (takeoff : Bool) : List Var :=
  [⟨"fltcond|Utrue", "m/s", true, true⟩, ⟨"fltcond|rho", "kg/m**3", true, true⟩, ⟨"fltcond|T", "K", true, true⟩,
   ⟨"ac|geom|wing|S_ref", "m**2", false, true⟩, ⟨"ac|geom|nacelle|length", "m", false, true⟩,
   ⟨"ac|geom|nacelle|S_wet", "m**2", false, true⟩, ⟨"ac|propulsion|num_engines", "", false, true⟩] ++
  (if takeoff then [⟨"ac|geom|wing|c4sweep", "rad", false, true⟩, ⟨"ac|aero|takeoff_flap_deg", "deg", false, true⟩] else [])

/-- the inputs of the turbofans; the original ratings keep their default values unless somebody sets them -/
def inputsFan : List Var :=
  [⟨"throttle", "", true, true⟩, ⟨"fltcond|h", "ft", true, true⟩, ⟨"fltcond|M", "", true, true⟩,
   ⟨"ac|propulsion|engine|rating", "lbf", false, true⟩, ⟨"scale_engine.orig_rating_thrust", "lbf", false, false⟩,
   ⟨"scale_engine.orig_rating_fuel_flow", "lbf", false, false⟩]

/-- C118.  The groups set up without conflict in every configuration; the wing's aspect ratio, taper and thickness are inputs only
if the wing is included, its sweep and the flap angle only in the take-off configuration. -/
theorem C118_setup :
    (∀ w t, (jetDrag w t).problems = [] ∧ ∀ v, v ∈ (jetDrag w t).ins ↔ v ∈ inputsDrag w t) ∧
    (∀ t, (bwbDrag t).problems = [] ∧ ∀ v, v ∈ (bwbDrag t).ins ↔ v ∈ inputsBWBDrag t) ∧
    ∀ d y, (rubberTurbofan d y).problems = [] ∧ ∀ v, v ∈ (rubberTurbofan d y).ins ↔ v ∈ inputsFan := by
  have h1 : ∀ w t, (jetDrag w t).ins ⊆ inputsDrag w t ∧ inputsDrag w t ⊆ (jetDrag w t).ins := by decide +kernel
  have h2 : ∀ t, (bwbDrag t).ins ⊆ inputsBWBDrag t ∧ inputsBWBDrag t ⊆ (bwbDrag t).ins := by decide +kernel
  have h3 : ∀ d y, (rubberTurbofan d y).ins ⊆ inputsFan ∧ inputsFan ⊆ (rubberTurbofan d y).ins := by
    intro d y
    cases d <;> cases y <;> decide +kernel
  refine ⟨fun w t => ⟨?_, fun v => ⟨fun h => (h1 w t).1 h, fun h => (h1 w t).2 h⟩⟩,
    fun t => ⟨?_, fun v => ⟨fun h => (h2 t).1 h, fun h => (h2 t).2 h⟩⟩,
    fun d y => ⟨?_, fun v => ⟨fun h => (h3 d y).1 h, fun h => (h3 d y).2 h⟩⟩⟩
  · cases w <;> cases t <;> decide +kernel
  · cases t <;> decide +kernel
  · cases d <;> cases y <;> decide +kernel

/-- the airplane described by the inputs and the options -/
def parasite (wing takeoff : Bool) (o : Opts) (e : String → ℝ) : Aero.ParasiteIn where
  takeoff := takeoff
  wing := wing
  fudge := o "drag_fudge_factor"
  Qfus := o "Q_fuselage"
  Qtail := o "Q_tail"
  Qwing := o "Q_wing"
  Qflap := o "Q_flap"
  FFnac := o "FF_nacelle"
  flapChord := o "flap_chord_frac"
  flapArea := o "wing_area_flapped_frac"
  lamFus := o "fuselage_laminar_frac"
  lamH := o "hstab_laminar_frac"
  lamV := o "vstab_laminar_frac"
  lamW := o "wing_laminar_frac"
  lamN := o "nacelle_laminar_frac"
  U := e "fltcond|Utrue"
  rho := e "fltcond|rho"
  T := e "fltcond|T"
  fusL := e "ac|geom|fuselage|length"
  fusH := e "ac|geom|fuselage|height"
  fusWet := e "ac|geom|fuselage|S_wet"
  hS := e "ac|geom|hstab|S_ref"
  hAR := e "ac|geom|hstab|AR"
  htaper := e "ac|geom|hstab|taper"
  htc := e "ac|geom|hstab|toverc"
  vS := e "ac|geom|vstab|S_ref"
  vAR := e "ac|geom|vstab|AR"
  vtaper := e "ac|geom|vstab|taper"
  vtc := e "ac|geom|vstab|toverc"
  wS := e "ac|geom|wing|S_ref"
  wAR := e "ac|geom|wing|AR"
  wtaper := e "ac|geom|wing|taper"
  wtc := e "ac|geom|wing|toverc"
  nacL := e "ac|geom|nacelle|length"
  nacWet := e "ac|geom|nacelle|S_wet"
  nEng := e "ac|propulsion|num_engines"
  flapDeg := e "ac|aero|takeoff_flap_deg"
  sweep := e "ac|geom|wing|c4sweep"

/-- the values of all outputs, from the airplane -/
noncomputable def dragValues (i : Aero.ParasiteIn) : List (String × ℝ) :=
  [("CD0", Aero.cd0 i), ("drag_coeffs.CD_fuselage", Aero.cdFus i), ("drag_coeffs.CD_hstab", Aero.cdH i),
   ("drag_coeffs.CD_vstab", Aero.cdV i), ("drag_coeffs.CD_nacelle", Aero.cdN i),
   ("iv.FF_nacelle", i.FFnac), ("iv.CD_landing_gear", Aero.cdGear i),
   (if i.takeoff then "flaps.CD_flap" else "iv.CD_flap", Aero.cdFlap i),
   ("fuselage_form.FF_fuselage", Aero.fusFF i.Qfus i.fusL i.fusH), ("hstab_form.FF_wing", Aero.wingFF i.Qtail i.htc),
   ("vstab_form.FF_wing", Aero.wingFF i.Qtail i.vtc), ("fuselage_friction.Cf", Aero.cf i.lamFus ⟨i.fusL, i.U, i.rho, i.T⟩),
   ("hstab_MAC_calc.MAC", Geometry.macTrap i.hS i.hAR i.htaper), ("vstab_MAC_calc.MAC", Geometry.macTrap i.vS i.vAR i.vtaper),
   ("hstab_friction.Cf", Aero.cf i.lamH ⟨Geometry.macTrap i.hS i.hAR i.htaper, i.U, i.rho, i.T⟩),
   ("vstab_friction.Cf", Aero.cf i.lamV ⟨Geometry.macTrap i.vS i.vAR i.vtaper, i.U, i.rho, i.T⟩),
   ("nacelle_friction.Cf", Aero.cf i.lamN ⟨i.nacL, i.U, i.rho, i.T⟩)] ++
  if i.wing then
    [("drag_coeffs.CD_wing", Aero.cdW i), ("wing_form.FF_wing", Aero.wingFF i.Qwing i.wtc),
     ("wing_MAC_calc.MAC", Geometry.macTrap i.wS i.wAR i.wtaper),
     ("wing_friction.Cf", Aero.cf i.lamW ⟨Geometry.macTrap i.wS i.wAR i.wtaper, i.U, i.rho, i.T⟩)]
  else []

/-- C118, `ParasiteDragCoefficient_JetTransport`: the state is converged if and only if every friction and form factor, every drag
coefficient and their sum are those of the airplane the inputs and the options describe. -/
theorem C118_jet_drag (w t : Bool) (o : Opts) (e : String → ℝ) :
    (jetDrag w t).rel o e ↔ ∀ p ∈ dragValues (parasite w t o e), e p.1 = p.2 := by
  cases w <;> cases t
  all_goals
    simp only [dragValues, List.forall_mem_cons, List.forall_mem_append, List.not_mem_nil, false_imp_iff, implies_true, and_true,
      parasite, Aero.cd0, Aero.cdFus, Aero.cdH, Aero.cdV, Aero.cdN, Aero.cdW, Aero.cdFlap, Aero.cdGear, if_true, if_false,
      Bool.false_eq_true]
  · parts (jetDrag false false) [jetDrag, surface, flapSub, given, lit, ref, OptVal.get, fuselageForm_rel, wingForm_rel, wingMAC_rel,
      skinFriction_rel, flapComp_rel, dragCoeffs_rel, cd0Sum_rel]
    simp only [String.reduceAppend, true_imp_iff, add_zero, implies_true, and_true, if_true]
    views (jetDrag false false) jetDrag_false_false_links e
    simp only [conv_ratio]
    constructor
    · intro h
      simp_all
    · intro h
      simp_all
  · parts (jetDrag false true) [jetDrag, surface, flapSub, given, lit, ref, OptVal.get, fuselageForm_rel, wingForm_rel, wingMAC_rel,
      skinFriction_rel, flapComp_rel, dragCoeffs_rel, cd0Sum_rel]
    simp only [String.reduceAppend, true_imp_iff, add_zero, implies_true, and_true, if_true]
    views (jetDrag false true) jetDrag_false_true_links e
    simp only [conv_ratio]
    constructor
    · intro h
      simp_all
    · intro h
      simp_all
  · parts (jetDrag true false) [jetDrag, surface, flapSub, given, lit, ref, OptVal.get, fuselageForm_rel, wingForm_rel, wingMAC_rel,
      skinFriction_rel, flapComp_rel, dragCoeffs_rel, cd0Sum_rel]
    simp only [String.reduceAppend, true_imp_iff, add_zero, implies_true, and_true, if_true]
    views (jetDrag true false) jetDrag_true_false_links e
    simp only [conv_ratio]
    constructor
    · intro h
      simp_all
    · intro h
      simp_all
  · parts (jetDrag true true) [jetDrag, surface, flapSub, given, lit, ref, OptVal.get, fuselageForm_rel, wingForm_rel, wingMAC_rel,
      skinFriction_rel, flapComp_rel, dragCoeffs_rel, cd0Sum_rel]
    simp only [String.reduceAppend, true_imp_iff, add_zero, implies_true, and_true, if_true]
    views (jetDrag true true) jetDrag_true_true_links e
    simp only [conv_ratio]
    constructor
    · intro h
      simp_all
    · intro h
      simp_all

/-- `dragValues` is about every output of the group, each exactly once -/
theorem C118_jet_outputs (w t : Bool) (i : Aero.ParasiteIn) (hw : i.wing = w) (ht : i.takeoff = t) :
    ((dragValues i).map Prod.fst).Perm ((jetDrag w t).outs.map Var.name) ∧ ((dragValues i).map Prod.fst).Nodup := by
  have h : (dragValues i).map Prod.fst =
      ["CD0", "drag_coeffs.CD_fuselage", "drag_coeffs.CD_hstab", "drag_coeffs.CD_vstab", "drag_coeffs.CD_nacelle", "iv.FF_nacelle",
       "iv.CD_landing_gear", if t then "flaps.CD_flap" else "iv.CD_flap", "fuselage_form.FF_fuselage", "hstab_form.FF_wing",
       "vstab_form.FF_wing", "fuselage_friction.Cf", "hstab_MAC_calc.MAC", "vstab_MAC_calc.MAC", "hstab_friction.Cf",
       "vstab_friction.Cf", "nacelle_friction.Cf"] ++
      if w then ["drag_coeffs.CD_wing", "wing_form.FF_wing", "wing_MAC_calc.MAC", "wing_friction.Cf"] else [] := by
    subst hw ht
    cases hw : i.wing <;> simp [dragValues, hw]
  rw [h]
  clear h hw ht
  revert w t
  decide +kernel

/-- C118.  For all inputs there is a converged state. -/
theorem C118_jet_solution (w t : Bool) (o : Opts) (e₀ : String → ℝ) :
    ∃ e, (jetDrag w t).rel o e ∧ ∀ v ∈ (jetDrag w t).ins, e v.name = e₀ v.name := by
  obtain ⟨ho, hn⟩ := C118_jet_outputs w t (parasite w t o e₀) rfl rfl
  refine ⟨over (dragValues (parasite w t o e₀)) e₀, ?_, ?_⟩
  · rw [C118_jet_drag]
    have hp : parasite w t o (over (dragValues (parasite w t o e₀)) e₀) = parasite w t o e₀ := by
      generalize hi : parasite w t o e₀ = i
      have hk : ∀ v ∈ (inputsDrag true true).map Var.name, over (dragValues i) e₀ v = e₀ v := by
        intro v hv
        apply over_other
        rw [← hi, ho.mem_iff]
        clear ho hn hi
        revert v
        revert w t
        decide +kernel
      simp only [inputsDrag, if_true, List.cons_append, List.nil_append, List.map_cons, List.map_nil, List.forall_mem_cons,
        List.not_mem_nil, false_imp_iff, implies_true, and_true] at hk
      rw [← hi]
      rw [← hi] at hk
      simp only [parasite] at hk ⊢
      simp only [hk]
    rw [hp]
    exact fun p hp => over_mem hn hp e₀
  · intro v hv
    apply over_other
    rw [ho.mem_iff]
    clear ho hn
    revert v
    revert w t
    decide +kernel

/-! ### blended wing body -/

/-- the airplane described by the inputs and the options -/
def bwbParasite (takeoff : Bool) (o : Opts) (e : String → ℝ) : Aero.BWBIn where
  takeoff := takeoff
  fudge := o "drag_fudge_factor"
  FFnac := o "FF_nacelle"
  flapChord := o "flap_chord_frac"
  Qflap := o "Q_flap"
  flapArea := o "wing_area_flapped_frac"
  lamN := o "nacelle_laminar_frac"
  U := e "fltcond|Utrue"
  rho := e "fltcond|rho"
  T := e "fltcond|T"
  S := e "ac|geom|wing|S_ref"
  sweep := e "ac|geom|wing|c4sweep"
  nacL := e "ac|geom|nacelle|length"
  nacWet := e "ac|geom|nacelle|S_wet"
  nEng := e "ac|propulsion|num_engines"
  flapDeg := e "ac|aero|takeoff_flap_deg"

/-- the values of all outputs -/
noncomputable def bwbValues (i : Aero.BWBIn) : List (String × ℝ) :=
  [("CD0", Aero.bwbCD0 i), ("drag_coeffs.CD_nacelle", Aero.bwbNacelle i), ("iv.FF_nacelle", i.FFnac),
   ("iv.CD_landing_gear", Aero.bwbGear i), (if i.takeoff then "flaps.CD_flap" else "iv.CD_flap", Aero.bwbFlap i),
   ("nacelle_friction.Cf", Aero.cf i.lamN ⟨i.nacL, i.U, i.rho, i.T⟩)]

/-- C118, `ParasiteDragCoefficient_BWB`: the state is converged if and only if every factor, every drag coefficient and their sum are
those of the airplane the inputs and the options describe. -/
theorem C118_bwb_drag (t : Bool) (o : Opts) (e : String → ℝ) :
    (bwbDrag t).rel o e ↔ ∀ p ∈ bwbValues (bwbParasite t o e), e p.1 = p.2 := by
  have hc : ∀ i, Aero.bwbCD0 i = i.fudge * Aero.bwbNacelle i + i.fudge * Aero.bwbFlap i + i.fudge * Aero.bwbGear i := fun i => by
    simp [Aero.bwbCD0, Aero.bwbSum, AddSys.compute, AddSys.factors, mul_comm]
  have hm : ∀ i, Aero.bwbNacelle i = i.nacWet * i.FFnac * Aero.cf i.lamN ⟨i.nacL, i.U, i.rho, i.T⟩ * i.nEng / i.S := fun i => by
    simp [Aero.bwbNacelle, Aero.bwbNacSys, MulSys.compute, MulSys.div, MulSys.read, Aero.bwbNacEnv]
  cases t
  all_goals
    simp only [bwbValues, List.forall_mem_cons, List.forall_mem_append, List.not_mem_nil, false_imp_iff, implies_true, and_true,
      hc, hm, bwbParasite, Aero.bwbFlap, Aero.bwbGear, if_true, if_false, Bool.false_eq_true]
  · parts (bwbDrag false) [bwbDrag, flapSub, given, lit, ref, OptVal.get, skinFriction_rel, flapComp_rel, bwbCoeffs_rel, bwbSum_rel]
    views (bwbDrag false) bwbDrag_false_links e
    simp only [conv_ratio]
    constructor
    · intro h
      simp_all
    · intro h
      simp_all
  · parts (bwbDrag true) [bwbDrag, flapSub, given, lit, ref, OptVal.get, skinFriction_rel, flapComp_rel, bwbCoeffs_rel, bwbSum_rel]
    views (bwbDrag true) bwbDrag_true_links e
    simp only [conv_ratio]
    constructor
    · intro h
      simp_all
    · intro h
      simp_all

/-- C118.  The values are those of every output, and for all inputs there is a converged state. -/
theorem C118_bwb_solution (t : Bool) (o : Opts) (e₀ : String → ℝ) :
    ((bwbValues (bwbParasite t o e₀)).map Prod.fst).Perm ((bwbDrag t).outs.map Var.name) ∧
    ∃ e, (bwbDrag t).rel o e ∧ ∀ v ∈ (bwbDrag t).ins, e v.name = e₀ v.name := by
  have h : (bwbValues (bwbParasite t o e₀)).map Prod.fst =
      ["CD0", "drag_coeffs.CD_nacelle", "iv.FF_nacelle", "iv.CD_landing_gear", if t then "flaps.CD_flap" else "iv.CD_flap",
       "nacelle_friction.Cf"] := by
    cases t <;> simp [bwbValues, bwbParasite]
  have ho : ((bwbValues (bwbParasite t o e₀)).map Prod.fst).Perm ((bwbDrag t).outs.map Var.name) := by
    rw [h]
    clear h
    revert t
    decide +kernel
  have hn : ((bwbValues (bwbParasite t o e₀)).map Prod.fst).Nodup := by
    rw [h]
    clear h ho
    revert t
    decide +kernel
  refine ⟨ho, over (bwbValues (bwbParasite t o e₀)) e₀, ?_, ?_⟩
  · rw [C118_bwb_drag]
    have hp : bwbParasite t o (over (bwbValues (bwbParasite t o e₀)) e₀) = bwbParasite t o e₀ := by
      generalize hi : bwbParasite t o e₀ = i at *
      have hk : ∀ v ∈ (inputsBWBDrag true).map Var.name, over (bwbValues i) e₀ v = e₀ v := by
        intro v hv
        apply over_other
        rw [ho.mem_iff]
        clear ho hn hi h
        revert v
        revert t
        decide +kernel
      simp only [inputsBWBDrag, if_true, List.cons_append, List.nil_append, List.map_cons, List.map_nil, List.forall_mem_cons,
        List.not_mem_nil, false_imp_iff, implies_true, and_true] at hk
      rw [← hi]
      rw [← hi] at hk
      simp only [bwbParasite] at hk ⊢
      simp only [hk]
    rw [hp]
    exact fun p hp => over_mem hn hp e₀
  · intro v hv
    apply over_other
    rw [ho.mem_iff]
    clear ho hn h
    revert v
    revert t
    decide +kernel

/-! ### turbofans -/

/-- C118, `RubberizedTurbofan`: the deck is read at throttle, altitude and Mach number, and thrust and fuel flow of the group are
those of the deck scaled from the deck's rating to the rating of the engine; the fuel flow also by the ratio of the heating values
if hydrogen is burned.  The original ratings have their default values. -/
theorem C118_turbofan (d : Propulsion.Deck) (y : Bool) (o : Opts) (e : String → ℝ)
    (h1 : e "scale_engine.orig_rating_thrust" = Propulsion.origThrust d)
    (h2 : e "scale_engine.orig_rating_fuel_flow" = Propulsion.origThrust d) :
    (rubberTurbofan d y).rel o e ↔
      (∀ v ∈ ["thrust", "fuel_flow"], e ("engine_deck." ++ v) = o.map v [e "throttle", e "fltcond|h", e "fltcond|M"]) ∧
      e (deckThird d) = o.map (deckThird d) [e "throttle", e "fltcond|h", e "fltcond|M"] ∧
      e "thrust" = (Propulsion.turbofan d y (e "engine_deck.thrust") (e "engine_deck.fuel_flow")
        (e "ac|propulsion|engine|rating")).thrust ∧
      e "fuel_flow" = (Propulsion.turbofan d y (e "engine_deck.thrust") (e "engine_deck.fuel_flow")
        (e "ac|propulsion|engine|rating")).fuel := by
  simp only [List.forall_mem_cons, List.not_mem_nil, false_imp_iff, implies_true, and_true, String.reduceAppend, Propulsion.turbofan,
    and_assoc]
  cases d
  · have hl := rubberTurbofan_N3_links y
    parts (rubberTurbofan .N3 y) [rubberTurbofan, deckOf, deckThird, engineDeck_rel, scaleEngine_rel]
    views (rubberTurbofan .N3 y) hl e
    rw [h1, h2]
    tauto
  · have hl := rubberTurbofan_CFM56_links y
    parts (rubberTurbofan .CFM56 y) [rubberTurbofan, deckOf, deckThird, engineDeck_rel, scaleEngine_rel]
    views (rubberTurbofan .CFM56 y) hl e
    rw [h1, h2]
    tauto

/-- a hydrogen burning N+3 engine rated at half the thrust of the deck: half the thrust, 43/240 of the fuel flow -/
example : ∃ (o : Opts) (e : String → ℝ), (rubberTurbofan .N3 true).rel o e ∧ e "throttle" = 0.9 ∧ e "thrust" = 2000 ∧
    e "fuel_flow" = 43 / 240 := by
  refine ⟨⟨fun _ => 0, fun n _ => if n = "thrust" then 4000 else 1⟩,
    table [("throttle", 0.9), ("fltcond|h", 30000), ("fltcond|M", 0.7), ("ac|propulsion|engine|rating", Propulsion.origThrust .N3 / 2),
      ("scale_engine.orig_rating_thrust", Propulsion.origThrust .N3), ("scale_engine.orig_rating_fuel_flow", Propulsion.origThrust .N3),
      ("engine_deck.thrust", 4000), ("engine_deck.fuel_flow", 1), ("surge_margin", 1), ("thrust", 2000), ("fuel_flow", 43 / 240)],
    ?_, by simp [table, List.lookup], by simp [table, List.lookup], by simp [table, List.lookup]⟩
  rw [C118_turbofan _ _ _ _ (by simp [table, List.lookup]) (by simp [table, List.lookup])]
  simp [table, List.lookup, deckThird, Propulsion.turbofan, Propulsion.origThrust, Propulsion.lhvScale]
  norm_num

/-- at take-off the drag of a jet transport includes the landing gear's 0.02 -/
example (o : Opts) (e : String → ℝ) (h : (jetDrag true true).rel o e) : e "iv.CD_landing_gear" = 0.02 := by
  rw [C118_jet_drag] at h
  simpa [Aero.cdGear, parasite] using h ("iv.CD_landing_gear", Aero.cdGear (parasite true true o e)) (by simp [dragValues])

end Verif.Wiring
