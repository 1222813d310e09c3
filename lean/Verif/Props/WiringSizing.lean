import Verif.Proof.WiringSizing
import Verif.Props.WiringAirplanes2
import Verif.Props.WiringWeightsJet
import Verif.Props.WiringProfiles3

/-!
C125: the states of the airplane models along a mission, and the sized Boeing 737-800 of `examples/B738_sizing.py`, whose take-off
weight is closed with the fuel of its mission.
-/

namespace Verif.Wiring

open Verif.Units

variable {m : ℕ}

/-! ### the outer group -/

/-- **C125** (setup).  The outer group sets up without complaint and leaves no input open. -/
theorem C125_sized_setup : sizedGrp.problems = [] ∧ sizedGrp.ins = [] := by decide +kernel

/-- the airplane that the empty weight is estimated for, by the design variables `D` -/
noncomputable def sizedPlane (D : String → ℝ) : Weights.AircraftJ where
  MTOW := D "ac|weights|MTOW" / 0.45359237
  MLW := 0.8 * D "ac|weights|MTOW" / 0.45359237
  Wf := D "mission.loiter.fuel_burn_integ.fuel_burn_final" / 0.45359237
  S := D "ac|geom|wing|S_ref" / 0.3048 ^ 2
  AR := D "ac|geom|wing|AR"
  sweep := D "ac|geom|wing|c4sweep" * (Real.pi / 180)
  taper := D "ac|geom|wing|taper"
  toverc := D "ac|geom|wing|toverc"
  Sh := Geometry.hstab 1 (D "ac|geom|wing|S_ref" / 0.3048 ^ 2)
    (Geometry.macTrap (D "ac|geom|wing|S_ref") (D "ac|geom|wing|AR") (D "ac|geom|wing|taper") / 0.3048)
    (0.5 * D "ac|geom|fuselage|length" / 0.3048)
  ARh := D "ac|geom|hstab|AR"
  sweeph := D "ac|geom|hstab|c4sweep" * (Real.pi / 180)
  armh := 0.5 * D "ac|geom|fuselage|length" / 0.3048
  Sv := Geometry.vstab 0.09 (D "ac|geom|wing|S_ref" / 0.3048 ^ 2) (D "ac|geom|wing|AR") (0.5 * D "ac|geom|fuselage|length" / 0.3048)
  ARv := D "ac|geom|vstab|AR"
  sweepv := D "ac|geom|vstab|c4sweep" * (Real.pi / 180)
  armv := 0.5 * D "ac|geom|fuselage|length" / 0.3048
  tocv := D "ac|geom|vstab|toverc"
  length := D "ac|geom|fuselage|length" / 0.3048
  height := D "ac|geom|fuselage|height" / 0.3048
  Swet := Geometry.cylinder (D "ac|geom|fuselage|length") (D "ac|geom|fuselage|height") / 0.3048 ^ 2
  mainLen := D "ac|geom|maingear|length" / 0.0254
  mainWheels := D "ac|geom|maingear|num_wheels"
  struts := D "ac|geom|maingear|num_shock_struts"
  noseLen := D "ac|geom|nosegear|length" / 0.0254
  noseWheels := D "ac|geom|nosegear|num_wheels"
  Vstall := D "ac|aero|Vstall_land"
  Mmax := D "ac|aero|Mach_max"
  T := D "ac|propulsion|engine|rating"
  neng := D "ac|propulsion|num_engines"
  pax := D "ac|num_passengers_max"
  deck := D "ac|num_flight_deck_crew"
  cabin := D "ac|num_cabin_crew"
  press := D "ac|cabin_pressure"
  Scabin := 0
  Saft := 0
  taperAft := 0
  Vpress := 0

/-- the empty weight is the sum of weights which do not depend on further variables, nor on the blended wing body -/
theorem oew_other (o : Weights.OptJ) (A B : Weights.AircraftJ) (e e' : String → ℝ)
    (h : { A with Scabin := 0, Saft := 0, taperAft := 0, Vpress := 0 } = B) : A.OEW o e = B.OEW o e' := by
  subst h
  unfold Weights.AircraftJ.OEW
  rw [(Weights.C73_jet_total _ _ _ _).1, (Weights.C73_jet_total _ _ _ _).1]
  simp only [Weights.AircraftJ.envJ, Weights.AircraftJ.common, String.reduceEq, if_false, if_true]
  rfl

/-- what the mission of the sized airplane is given, by the design variables `D` -/
structure Designed (o : Opts) (D : String → ℝ) : Prop where
  /-- take-off weight: empty weight, payload and the fuel burned at the end of the loiter phase -/
  close : D "ac|weights|MTOW" = D "ac|weights|OEW" * 0.45359237 + D "ac|weights|W_payload" +
    D "mission.loiter.fuel_burn_integ.fuel_burn_final"
  /-- empty weight -/
  empty : ∀ other, D "ac|weights|OEW" = (sizedPlane D).OEW (optionsJ false o) other
  weight : sizedGrp.view D "mission" "ac|weights|MTOW" = D "ac|weights|MTOW"
  hstab : sizedGrp.view D "mission" "ac|geom|hstab|S_ref" = (sizedPlane D).Sh * 0.3048 ^ 2
  vstab : sizedGrp.view D "mission" "ac|geom|vstab|S_ref" = (sizedPlane D).Sv * 0.3048 ^ 2
  fuselage : sizedGrp.view D "mission" "ac|geom|fuselage|S_wet" =
    Geometry.cylinder (D "ac|geom|fuselage|length") (D "ac|geom|fuselage|height")
  nacelle : sizedGrp.view D "mission" "ac|geom|nacelle|S_wet" =
    Geometry.cylinder (D "ac|geom|nacelle|length") (D "ac|geom|nacelle|diameter")
  lift : sizedGrp.view D "mission" "ac|aero|CLmax_TO" = Aero.flapCL ⟨0.2, 0.9, 0.1, 0.8, 1⟩ ⟨D "ac|aero|takeoff_flap_deg",
    D "ac|geom|wing|c4sweep" * (Real.pi / 180),
    Aero.cleanCL 1 (D "ac|aero|airfoil_Cl_max") (D "ac|geom|wing|c4sweep" * (Real.pi / 180)), D "ac|geom|wing|toverc"⟩
  sweep : sizedGrp.view D "mission" "ac|geom|wing|c4sweep" = D "ac|geom|wing|c4sweep" * (Real.pi / 180)
  /-- everything else is a design variable -/
  other : ∀ n ∈ ["ac|geom|fuselage|length", "ac|geom|fuselage|height", "ac|geom|hstab|toverc", "ac|geom|vstab|toverc",
    "ac|geom|wing|toverc", "ac|geom|hstab|AR", "ac|geom|hstab|taper", "ac|geom|vstab|AR", "ac|geom|vstab|taper", "ac|geom|wing|S_ref",
    "ac|geom|wing|AR", "ac|geom|wing|taper", "ac|geom|nacelle|length", "ac|propulsion|num_engines", "ac|aero|takeoff_flap_deg",
    "ac|aero|polar|e", "ac|propulsion|engine|rating"], sizedGrp.view D "mission" n = D n

set_option maxHeartbeats 4000000 in
/-- **C125** (outer group).  In a converged state take-off weight, empty weight and the geometry handed to the mission are those of
the design variables. -/
theorem C125_designed (o : Opts) (D : String → ℝ) (h : sizedGrp.rel o D) : Designed o D := by
  revert h
  parts sizedGrp [sizedGrp, lever_rel, mlw_rel, mtow_rel, vstabArea_rel, hstabArea_rel, wingMAC_rel, cylinderArea_rel, cleanCLmax_rel,
    flapCLmax_rel, sizedMission]
  rintro ⟨l, mac, v, t, c1, c2, w, e, cl1, cl2, k⟩
  replace e := ((C117_jet false o _).1 e).2.2.2.2 "OEW" (by simp [weightsJ])
  have e' : ∀ other, sizedGrp.view D "empty_weight" "OEW" = (sizedPlane D).OEW (optionsJ false o) other := by
    intro other
    rw [e]
    apply oew_other
    revert l mac v t c1 c2 w cl1 cl2 k
    clear e
    simp only [airplaneJ, sizedPlane]
    views sizedGrp sizedGrp_links D
    simp only [conv_areaFt, conv_areaM, conv_rad, conv_inch, conv_burned_lb, conv_burned, conv_kg_lb]
    intro l mac v t c1 c2 w cl1 cl2 k
    rw [l, mac] at t
    rw [l] at v
    rw [t, v, c2, w, l]
  clear e
  revert l mac v t c1 c2 w e' cl1 cl2 k
  views sizedGrp sizedGrp_links D
  simp only [conv_areaFt, conv_areaM, conv_rad, conv_inch, conv_burned_lb, conv_burned, conv_kg_lb]
  intro l mac v t c1 c2 w cl1 cl2 k e
  refine ⟨?_, ?_, ?_, ?_, ?_, ?_, ?_, ?_, ?_, ?_⟩
  all_goals try views sizedGrp sizedGrp_links D
  all_goals try simp only [conv_areaFt, conv_areaM, conv_rad, conv_inch, conv_burned_lb, conv_burned, conv_kg_lb]
  · exact k
  · exact e
  · rw [t, mac, l]; rfl
  · rw [v, l]; rfl
  · exact c2
  · exact c1
  · rw [cl2, cl1]
  · intro n hn
    fin_cases hn <;> (views sizedGrp sizedGrp_links D)

/-- the airplane models and the phases of the mission of the sized airplane -/
noncomputable def missionParts : List Grp := [sizingGrp true, sizingGrp false, groundGrp .v0v1, groundGrp .v1vr, groundGrp .v1v0, robustGrp,
  rotationGrp, legGrp .climb, legGrp .cruise, legGrp .descent, legGrp .reserveClimb, legGrp .reserveCruise, legGrp .reserveDescent,
  legGrp .loiter]

def isDesign (v : Var) : Bool := v.name.toList.take 3 == "ac|".toList

/-- **C125** (faces).  What the outer group promotes into the mission is what the phases and the airplane model in them take from the
design variables, in units of the same kind. -/
theorem C125_faces : (∀ g ∈ missionParts, ∀ v ∈ g.ins, isDesign v = true →
      ∃ w ∈ sizedMission.ins, w.name = v.name ∧ kind w.unit = kind v.unit ∧ w.vec = v.vec) ∧
    ∀ w ∈ sizedMission.ins, isDesign w = true ∧ ∃ g ∈ missionParts, w.name ∈ g.ins.map Var.name := by
  unfold missionParts
  decide +kernel

/-! ### the states of the airplanes along a mission -/

/-- consecutive phases -/
def nextPhase (k : Phases.MissionKind) : List (String × String) :=
  (if k.includeTakeoff then [("v0v1", "v1vr"), ("v1vr", "rotate"), ("v0v1", "v1v0"), ("rotate", "climb")]
   else if !k.includeReserve && k.groundRoll then [("groundroll", "climb")] else []) ++
  [("climb", "cruise"), ("cruise", "descent")] ++
  if k.includeReserve then [("descent", "reserve_climb"), ("reserve_climb", "reserve_cruise"), ("reserve_cruise", "reserve_descent"),
    ("reserve_descent", "loiter")] else []

/-- final and initial values of a state in consecutive phases -/
def handed (k : Phases.MissionKind) (l : List (String × String)) : List (String × String) :=
  (nextPhase k).flatMap fun p => l.map fun x => (p.1 ++ "." ++ x.1, p.2 ++ "." ++ x.2)

/-- `link_phases` makes exactly the connections `handed k l` -/
noncomputable def linked (k : Phases.MissionKind) (ode : Bool) (a : AcStates) (l : List (String × String)) : Bool :=
  match craftLinks k ode a with | .ok c => decide (c = handed k l) | .error _ => false

theorem craft_linked (a : AcStates) (l : List (String × String))
    (h : linked ⟨false, false, false⟩ false a l = true ∧ linked ⟨false, false, true⟩ false a l = true ∧
      linked ⟨false, true, false⟩ false a l = true ∧ linked ⟨true, false, false⟩ false a l = true ∧
      linked ⟨true, true, false⟩ false a l = true) (k : Phases.MissionKind) (ode : Bool) :
    craftLinks k ode a = .ok (handed k l) := by
  obtain ⟨h1, h2, h3, h4, h5⟩ := h
  have : linked k ode a l = true := by
    obtain ⟨t, r, g⟩ := k
    have e : ∀ t r g, linked ⟨t, r, g⟩ true a l = linked ⟨t, r, g⟩ false a l := by
      intro t r g
      cases t <;> cases r <;> cases g <;> rfl
    cases ode
    · cases t <;> cases r <;> cases g <;> first | exact h1 | exact h2 | exact h3 | exact h4 | exact h5
    · rw [e]
      cases t <;> cases r <;> cases g <;> first | exact h1 | exact h2 | exact h3 | exact h4 | exact h5
  unfold linked at this
  split at this
  · rename_i c hc
    rw [hc, of_decide_eq_true this]
  · cases this

/-- **C125** (links).  In every mission `link_phases` connects the final value of each state of each airplane model to the initial value
of that state in the next phase, and makes no other connection.  The fuel integrator of the TBM 850 promotes its outputs only. -/
theorem C125_links (k : Phases.MissionKind) (ode : Bool) :
    craftLinks k ode caravanStates = .ok (handed k [("fuel_used_final", "fuel_used_initial")]) ∧
    craftLinks k ode kingAirStates = .ok (handed k [("fuel_used_final", "fuel_used_initial")]) ∧
    craftLinks k ode tbmStates = .ok (handed k [("fuel_used_final", "intfuel.fuel_used_initial")]) ∧
    craftLinks k ode b738States = .ok (handed k [("fuel_used_final", "fuel_used_initial")]) ∧
    craftLinks k ode sizingStates = .ok (handed k [("fuel_burn_integ.fuel_burn_final", "fuel_burn_integ.fuel_burn_initial")]) ∧
    craftLinks k ode hybridStates = .ok (handed k [("propmodel.batt1.SOC_final", "propmodel.batt1.SOC_initial"),
      ("fuel_used_final", "fuel_used_initial")]) ∧
    craftLinks k ode electricStates = .ok (handed k [("propmodel.batt1.SOC_final", "propmodel.batt1.SOC_initial")]) := by
  refine ⟨?_, ?_, ?_, ?_, ?_, ?_, ?_⟩ <;>
    exact craft_linked _ _ (by decide +kernel) k ode

/-- the phases flown one after the other -/
def route (k : Phases.MissionKind) : List String :=
  (if k.includeTakeoff then ["v0v1", "v1vr", "rotate"] else if !k.includeReserve && k.groundRoll then ["groundroll"] else []) ++
  ["climb", "cruise", "descent"] ++
  if k.includeReserve then ["reserve_climb", "reserve_cruise", "reserve_descent", "loiter"] else []

theorem route_next (k : Phases.MissionKind) : (route k).IsChain fun p q => (p, q) ∈ nextPhase k := by
  obtain ⟨t, r, g⟩ := k
  revert t r g
  decide

/-- the state of the phase `p` in a state of the mission -/
def inPhase (X : String → Fin (m + 1) → ℝ) (p x : String) : Fin (m + 1) → ℝ := X (p ++ "." ++ x)

/-- the connections made by `link_phases` for the airplane hold; initial and final values of a state have one unit -/
def Joined (k : Phases.MissionKind) (ode : Bool) (a : AcStates) (X : String → Fin (m + 1) → ℝ) : Prop :=
  ∃ l, craftLinks k ode a = .ok l ∧ ∀ c ∈ l, X c.2 0 = X c.1 0

/-- values of a state at the end of a phase and at the beginning of the next one -/
theorem joined_route {k : Phases.MissionKind} {ode : Bool} {a : AcStates} {X : String → Fin (m + 1) → ℝ} (h : Joined k ode a X)
    {l : List (String × String)} (hl : craftLinks k ode a = .ok (handed k l)) {fin ini : String} (hx : (fin, ini) ∈ l) :
    (route k).IsChain fun p q => inPhase X q ini 0 = inPhase X p fin 0 := by
  refine (route_next k).imp fun p q hpq => ?_
  obtain ⟨c, hc, h⟩ := h
  rw [hl] at hc
  cases hc
  exact h (p ++ "." ++ fin, q ++ "." ++ ini) (List.mem_flatMap.2 ⟨(p, q), hpq, List.mem_map.2 ⟨(fin, ini), hx, rfl⟩⟩)

/-- a quantity integrated over phases each of which begins where the one before ended -/
theorem chain_final (M : Matrix (Fin (m + 1)) (Fin (m + 1)) ℝ) (S : String → Aircraft.Seg m) (ini fin : String → ℝ) :
    ∀ (l : List String) (p : String), (∀ q ∈ p :: l, fin q = Aircraft.segFinal M (ini q) (S q)) →
      (p :: l).IsChain (fun p q => ini q = fin p) →
      (∀ q ∈ (p :: l).getLast?, fin q = Aircraft.missionFinal M (ini p) ((p :: l).map S)) ∧
      (p :: l).map (fun q => Aircraft.segFuel M (ini q) (S q)) = Aircraft.missionFuel M (ini p) ((p :: l).map S)
  | [], p, h, _ => by
    refine ⟨fun q hq => ?_, rfl⟩
    obtain rfl : p = q := by simpa using hq
    exact h p (by simp)
  | r :: l, p, h, hc => by
    obtain ⟨h1, h2⟩ := List.isChain_cons_cons.1 hc
    obtain ⟨a, b⟩ := chain_final M S ini fin l r (fun q hq => h q (List.mem_cons_of_mem _ hq)) h2
    have e : ini r = Aircraft.segFinal M (ini p) (S p) := by rw [h1, h p (by simp)]
    refine ⟨fun q hq => ?_, ?_⟩
    · rw [a q (by simpa using hq), e]
      rfl
    · rw [List.map_cons, b, e]
      rfl

/-- the state `x` over the mission: it begins at `x0`, no phase interrupts it, and its last value is that of all the phases -/
structure Carried (k : Phases.MissionKind) (x : String → Fin (m + 1) → ℝ) (x0 : ℝ)
    (S : String → Aircraft.Seg m) : Prop where
  start : ∀ p ∈ (route k).head?, x p 0 = x0
  continuous : (route k).IsChain fun p q => x q 0 = x p (Fin.last m)
  total : ∀ p ∈ (route k).getLast?, x p (Fin.last m) = x0 + ((route k).map fun p => Aircraft.segFinal (Integrals.simpsonTri m) 0 (S p)).sum
  history : (route k).map x = Aircraft.missionFuel (Integrals.simpsonTri m) x0 ((route k).map S)

theorem route_cons (k : Phases.MissionKind) : ∃ p l, route k = p :: l := by
  obtain ⟨t, r, g⟩ := k
  cases t <;> cases r <;> cases g <;> exact ⟨_, _, rfl⟩

theorem carried (hm : m % 2 = 0) {k : Phases.MissionKind} {x : String → Fin (m + 1) → ℝ} {x0 : ℝ} {S : String → Aircraft.Seg m}
    {ini fin : String → ℝ} (hx : ∀ p ∈ route k, x p = Aircraft.segFuel (Integrals.simpsonTri m) (ini p) (S p))
    (hf : ∀ p ∈ route k, fin p = Aircraft.segFinal (Integrals.simpsonTri m) (ini p) (S p))
    (hc : (route k).IsChain fun p q => ini q = fin p) (h0 : ∀ p ∈ (route k).head?, ini p = x0) :
    Carried k x x0 S ∧ ∀ p ∈ (route k).getLast?, fin p = Aircraft.missionFinal (Integrals.simpsonTri m) x0 ((route k).map S) := by
  have hM : Integrals.methodMatrix (K := ℝ) .simpson m = some (Integrals.simpsonTri m) := by simp [Integrals.methodMatrix, hm]
  obtain ⟨p, l, e⟩ := route_cons k
  rw [e] at hx hf hc h0
  obtain ⟨a, b⟩ := chain_final (Integrals.simpsonTri m) S ini fin l p hf hc
  have hp : ini p = x0 := h0 p (by simp)
  rw [hp] at a b
  have hist : (p :: l).map x = Aircraft.missionFuel (Integrals.simpsonTri m) x0 ((p :: l).map S) := by
    rw [← b]
    exact List.map_congr_left hx
  have hi : ∀ q ∈ p :: l, x q 0 = ini q := fun q hq => by rw [hx q hq]; exact Integrals.C03_first_node hM _ _ _
  have hl : ∀ q ∈ p :: l, x q (Fin.last m) = fin q := fun q hq => by rw [hx q hq, hf q hq]; rfl
  refine ⟨⟨fun q hq => ?_, ?_, fun q hq => ?_, ?_⟩, fun q hq => ?_⟩
  · rw [e] at hq
    obtain rfl : p = q := by simpa using hq
    rw [hi p (by simp), hp]
  · rw [e]
    clear a b hist hp h0 e
    have := List.isChain_iff_getElem.1 hc
    refine List.isChain_iff_getElem.2 fun i h => ?_
    rw [hi _ (List.getElem_mem _), hl _ (List.getElem_mem _)]
    exact this i h
  · rw [e] at hq ⊢
    rw [hl q (List.mem_of_mem_getLast? hq), a q hq, (Aircraft.C92_total _ _).1, List.map_map]
    rfl
  · rw [e, hist]
  · rw [e] at hq ⊢
    exact a q hq

/-- the weight over the mission: take-off weight at the beginning, no jump between phases, all the fuel gone at the end; it does not
increase where the fuel flow is not negative, seen at every other node -/
structure Lightens (k : Phases.MissionKind) (X : String → Fin (m + 1) → ℝ) (W : ℝ) (S : String → Aircraft.Seg m) : Prop where
  start : ∀ p ∈ (route k).head?, inPhase X p "weight" 0 = W
  continuous : (route k).IsChain fun p q => inPhase X q "weight" 0 = inPhase X p "weight" (Fin.last m)
  landing : ∀ p ∈ (route k).getLast?, inPhase X p "weight" (Fin.last m) =
    W - ((route k).map fun p => Aircraft.segFinal (Integrals.simpsonTri m) 0 (S p)).sum
  history : (route k).map (fun p => inPhase X p "weight") =
    (Aircraft.missionFuel (Integrals.simpsonTri m) 0 ((route k).map S)).map (Aircraft.weight W)

theorem lightens (hm : m % 2 = 0) {k : Phases.MissionKind} {X : String → Fin (m + 1) → ℝ} {W : ℝ} {S : String → Aircraft.Seg m}
    {ini fin : String → ℝ}
    (hx : ∀ p ∈ route k, inPhase X p "weight" = Aircraft.weight W (Aircraft.segFuel (Integrals.simpsonTri m) (ini p) (S p)))
    (hf : ∀ p ∈ route k, fin p = Aircraft.segFinal (Integrals.simpsonTri m) (ini p) (S p))
    (hc : (route k).IsChain fun p q => ini q = fin p) (h0 : ∀ p ∈ (route k).head?, ini p = 0) :
    Lightens k X W S ∧ ∀ p ∈ (route k).getLast?, fin p = Aircraft.missionFinal (Integrals.simpsonTri m) 0 ((route k).map S) := by
  obtain ⟨c, t⟩ := carried hm (x := fun p => Aircraft.segFuel (Integrals.simpsonTri m) (ini p) (S p)) (fun _ _ => rfl) hf hc h0
  have hw : ∀ p ∈ route k, ∀ a, inPhase X p "weight" a = W - Aircraft.segFuel (Integrals.simpsonTri m) (ini p) (S p) a := fun p hp a => by
    rw [hx p hp, Aircraft.C92_weight]
  refine ⟨⟨fun p hp => ?_, ?_, fun p hp => ?_, ?_⟩, t⟩
  · rw [hw p (List.mem_of_mem_head? hp), c.start p hp, sub_zero]
  · have := List.isChain_iff_getElem.1 c.continuous
    refine List.isChain_iff_getElem.2 fun i h => ?_
    rw [hw _ (List.getElem_mem _), hw _ (List.getElem_mem _), this i h]
  · rw [hw p (List.mem_of_mem_getLast? hp), c.total p hp, zero_add]
  · rw [← c.history, List.map_map]
    exact List.map_congr_left hx

/-- **C125** (Boeing 737-800).  Over a whole mission the weight of the jet is continuous from phase to phase, begins at the take-off
weight and ends lighter by the fuel of all phases.  The initial fuel of the first phase is an open input with default 0; the take-off
weight is promoted from all phases; every phase connects its duration to that of the integrator. -/
theorem C125_b738 (k : Phases.MissionKind) (ode : Bool) (o : Opts) (X : String → Fin (m + 1) → ℝ) (W : ℝ) (hm : m % 2 = 0)
    (h : ∀ p ∈ route k, (b738Phase p).Rel o (inPhase X p)) (hj : Joined k ode b738States X)
    (hT : ∀ p ∈ route k, inPhase X p "ode_integ.duration" 0 = inPhase X p "duration" 0)
    (hW : ∀ p ∈ route k, inPhase X p "ac|weights|MTOW" 0 = W)
    (h0 : ∀ p ∈ (route k).head?, inPhase X p "fuel_used_initial" 0 = 0) :
    Lightens k X W (fun p => jetSeg o (inPhase X p)) ∧
    ∀ p ∈ (route k).getLast?, inPhase X p "fuel_used_final" 0 =
      Aircraft.missionFinal (Integrals.simpsonTri m) 0 ((route k).map fun p => jetSeg o (inPhase X p)) :=
  lightens hm (ini := fun p => inPhase X p "fuel_used_initial" 0) (fin := fun p => inPhase X p "fuel_used_final" 0)
    (fun p hp => by rw [(C124_b738 o p _ (h p hp) (hT p hp)).2.2.2.1, hW p hp])
    (fun p hp => (C124_b738 o p _ (h p hp) (hT p hp)).2.2.2.2.1)
    (joined_route hj (C125_links k ode).2.2.2.1 (by simp)) h0

/-- the same for a turboprop; `fuel0` is the name of the initial fuel -/
theorem turboprop_lightens (k : Phases.MissionKind) (o : Opts) (X : String → Fin (m + 1) → ℝ) (W : ℝ) (hm : m % 2 = 0) (twin : Bool) (rpm : ℝ)
    (fuel0 : String) (h : ∀ p ∈ route k, IsTurboprop o twin rpm fuel0 p (inPhase X p))
    (hj : (route k).IsChain fun p q => inPhase X q fuel0 0 = inPhase X p "fuel_used_final" 0)
    (hW : ∀ p ∈ route k, inPhase X p "ac|weights|MTOW" 0 = W)
    (h0 : ∀ p ∈ (route k).head?, inPhase X p fuel0 0 = 0) :
    Lightens k X (W * 0.45359237) (fun p => (planeOf twin rpm fun n => inPhase X p n 0).fuelSeg o.maps (acOf (inPhase X p))) ∧
    ∀ p ∈ (route k).getLast?, inPhase X p "fuel_used_final" 0 = Aircraft.missionFinal (Integrals.simpsonTri m) 0
      ((route k).map fun p => (planeOf twin rpm fun n => inPhase X p n 0).fuelSeg o.maps (acOf (inPhase X p))) := by
  refine lightens hm (ini := fun p => inPhase X p fuel0 0) (fin := fun p => inPhase X p "fuel_used_final" 0)
    (fun p hp => ?_) (fun p hp => (h p hp).final) hj h0
  have := congrArg Bfl.AcOut.weight (h p hp).craft
  rw [← hW p hp]
  exact this

/-- **C125** (Cessna Caravan). -/
theorem C125_caravan (k : Phases.MissionKind) (ode : Bool) (o : Opts) (X : String → Fin (m + 1) → ℝ) (W : ℝ) (hm : m % 2 = 0)
    (h : ∀ p ∈ route k, (turbopropPhase caravanGrp p).Rel o (inPhase X p)) (hj : Joined k ode caravanStates X)
    (hW : ∀ p ∈ route k, inPhase X p "ac|weights|MTOW" 0 = W)
    (h0 : ∀ p ∈ (route k).head?, inPhase X p "fuel_used_initial" 0 = 0) :
    Lightens k X (W * 0.45359237) (fun p => (planeOf false 2000 fun n => inPhase X p n 0).fuelSeg o.maps (acOf (inPhase X p))) :=
  (turboprop_lightens k o X W hm false 2000 _ (fun p hp => C119_caravan o p _ (h p hp))
    (joined_route hj (C125_links k ode).1 (by simp)) hW h0).1

/-- **C125** (King Air C90GT). -/
theorem C125_kingAir (k : Phases.MissionKind) (ode : Bool) (o : Opts) (X : String → Fin (m + 1) → ℝ) (W : ℝ) (hm : m % 2 = 0)
    (h : ∀ p ∈ route k, (turbopropPhase kingAirGrp p).Rel o (inPhase X p)) (hj : Joined k ode kingAirStates X)
    (hW : ∀ p ∈ route k, inPhase X p "ac|weights|MTOW" 0 = W)
    (h0 : ∀ p ∈ (route k).head?, inPhase X p "fuel_used_initial" 0 = 0) :
    Lightens k X (W * 0.45359237) (fun p => (planeOf true 1900 fun n => inPhase X p n 0).fuelSeg o.maps (acOf (inPhase X p))) :=
  (turboprop_lightens k o X W hm true 1900 _ (fun p hp => C119_kingAir o p _ (h p hp))
    (joined_route hj (C125_links k ode).2.1 (by simp)) hW h0).1

/-- **C125** (TBM 850). -/
theorem C125_tbm (k : Phases.MissionKind) (ode : Bool) (o : Opts) (X : String → Fin (m + 1) → ℝ) (W rpm : ℝ) (hm : m % 2 = 0)
    (h : ∀ p ∈ route k, (turbopropPhase tbmGrp p).Rel o (inPhase X p)) (hj : Joined k ode tbmStates X)
    (hr : ∀ p ∈ route k, ∀ a, inPhase X p "propmodel.prop1.rpm" a = rpm)
    (hT : ∀ p ∈ route k, inPhase X p "intfuel.duration" 0 = inPhase X p "duration" 0)
    (hW : ∀ p ∈ route k, inPhase X p "ac|weights|MTOW" 0 = W)
    (h0 : ∀ p ∈ (route k).head?, inPhase X p "intfuel.fuel_used_initial" 0 = 0) :
    Lightens k X (W * 0.45359237) (fun p => (planeOf false rpm fun n => inPhase X p n 0).fuelSeg o.maps (acOf (inPhase X p))) :=
  (turboprop_lightens k o X W hm false rpm _ (fun p hp => C119_tbm o p _ (h p hp) rpm (hr p hp) (hT p hp))
    (joined_route hj (C125_links k ode).2.2.1 (by simp)) hW h0).1

/-- **C125** (hybrid twin).  Fuel and charge over the whole mission: the fuel as for the others, and the state of charge of the battery
is continuous, begins at `soc0` and ends lower by what the phases draw. -/
theorem C125_hybrid (k : Phases.MissionKind) (ode : Bool) (o : Opts) (X : String → Fin (m + 1) → ℝ) (W soc0 : ℝ) (hm : m % 2 = 0)
    (h : ∀ p ∈ route k, (hybridTwinPhase p).Rel o (inPhase X p)) (hj : Joined k ode hybridStates X)
    (hW : ∀ p ∈ route k, inPhase X p "ac|weights|MTOW" 0 = W)
    (h0 : ∀ p ∈ (route k).head?, inPhase X p "fuel_used_initial" 0 = 0)
    (hs : ∀ p ∈ (route k).head?, inPhase X p "propmodel.batt1.SOC_initial" 0 = soc0) :
    let leg := fun p => hybridLeg p (inPhase X p)
    let d := fun p => hybridPlane fun n => inPhase X p n 0
    Lightens k X (W * 0.45359237) (fun p => (leg p).fuelSeg o.maps (d p)) ∧
    Carried k (fun p => inPhase X p "propmodel.batt1.SOC") soc0 (fun p => (leg p).socSeg o.maps (d p)) := by
  have hh := fun p hp => (C124_hybridTwin o p _ (h p hp)).1
  refine ⟨(lightens hm (ini := fun p => inPhase X p "fuel_used_initial" 0) (fin := fun p => inPhase X p "fuel_used_final" 0)
      (fun p hp => ?_) (fun p hp => (hh p hp).fuel) (joined_route hj (C125_links k ode).2.2.2.2.2.1 (by simp)) h0).1,
    (carried hm (ini := fun p => inPhase X p "propmodel.batt1.SOC_initial" 0) (fin := fun p => inPhase X p "propmodel.batt1.SOC_final" 0)
      (fun p hp => (hh p hp).soc) (fun p hp => (hh p hp).socFinal) (joined_route hj (C125_links k ode).2.2.2.2.2.1 (by simp)) hs).1⟩
  rw [(hh p hp).weight, hW p hp]

/-- **C125** (electric single).  The state of charge over the whole mission. -/
theorem C125_electric (k : Phases.MissionKind) (ode : Bool) (o : Opts) (X : String → Fin (m + 1) → ℝ) (soc0 : ℝ) (hm : m % 2 = 0)
    (h : ∀ p ∈ route k, (electricPhase p).Rel o (inPhase X p)) (hj : Joined k ode electricStates X)
    (h1 : o "fouling_factor_cold" = 0) (h2 : o "fouling_factor_hot" = 0)
    (hs : ∀ p ∈ (route k).head?, inPhase X p "propmodel.batt1.SOC_initial" 0 = soc0) :
    Carried k (fun p => inPhase X p "propmodel.batt1.SOC") soc0
      (fun p => (electricPlane fun n => inPhase X p n 0).socSeg (acOf (inPhase X p))) :=
  (carried hm (ini := fun p => inPhase X p "propmodel.batt1.SOC_initial" 0) (fin := fun p => inPhase X p "propmodel.batt1.SOC_final" 0)
      (fun p hp => (C124_electric o p _ (h p hp) h1 h2).2.1) (fun p hp => (C124_electric o p _ (h p hp) h1 h2).2.2.1)
      (joined_route hj (C125_links k ode).2.2.2.2.2.2 (by simp)) hs).1

/-- **C125** (sized Boeing 737-800).  The converged sizing closes: take-off weight, empty weight (that of the design variables) and
payload satisfy the equation of C92 with the fuel of all phases of `FullMissionWithReserve`; the airplane begins the mission at the
take-off weight and ends the loiter with empty weight and payload.  The hypotheses on `D` and `X` are the promotion of the take-off
weight into the phases and the output of the mission the outer group reads. -/
theorem C125_sized (ode : Bool) (o : Opts) (D : String → ℝ) (X : String → Fin (m + 1) → ℝ) (hm : m % 2 = 0) (hD : sizedGrp.rel o D)
    (h : ∀ p ∈ route ⟨true, true, false⟩, (sizingPhase p).Rel o (inPhase X p)) (hj : Joined ⟨true, true, false⟩ ode sizingStates X)
    (h1 : ∀ p ∈ route ⟨true, true, false⟩, ∀ a, inPhase X p "num_engine_calc.one" a = 1)
    (h2 : ∀ p ∈ route ⟨true, true, false⟩, ∀ a, inPhase X p "CFM56.scale_engine.orig_rating_thrust" a = Propulsion.origThrust .CFM56)
    (h3 : ∀ p ∈ route ⟨true, true, false⟩, ∀ a, inPhase X p "CFM56.scale_engine.orig_rating_fuel_flow" a = Propulsion.origThrust .CFM56)
    (hT : ∀ p ∈ route ⟨true, true, false⟩, inPhase X p "fuel_burn_integ.duration" 0 = inPhase X p "duration" 0)
    (h0 : inPhase X "v0v1" "fuel_burn_integ.fuel_burn_initial" 0 = 0)
    (hW : ∀ p ∈ route ⟨true, true, false⟩, inPhase X p "ac|weights|MTOW" 0 = sizedGrp.view D "mission" "ac|weights|MTOW")
    (hF : D "mission.loiter.fuel_burn_integ.fuel_burn_final" = inPhase X "loiter" "fuel_burn_integ.fuel_burn_final" 0) :
    Lightens ⟨true, true, false⟩ X (D "ac|weights|MTOW") (fun p => sizedSeg o (inPhase X p)) ∧
    (∀ other, Aircraft.Sized (Integrals.simpsonTri m) ((route ⟨true, true, false⟩).map fun p => sizedSeg o (inPhase X p))
      ((sizedPlane D).OEW (optionsJ false o) other * 0.45359237) (D "ac|weights|W_payload") (D "ac|weights|MTOW")) ∧
    inPhase X "v0v1" "weight" 0 = D "ac|weights|MTOW" ∧
    inPhase X "loiter" "weight" (Fin.last m) = D "ac|weights|OEW" * 0.45359237 + D "ac|weights|W_payload" := by
  have d := C125_designed o D hD
  have hs := fun p hp => C124_sizing o p _ (h p hp) (h1 p hp) (h2 p hp) (h3 p hp) (hT p hp)
  obtain ⟨l, t⟩ := lightens hm (k := ⟨true, true, false⟩) (X := X) (W := D "ac|weights|MTOW") (S := fun p => sizedSeg o (inPhase X p))
    (ini := fun p => inPhase X p "fuel_burn_integ.fuel_burn_initial" 0) (fin := fun p => inPhase X p "fuel_burn_integ.fuel_burn_final" 0)
    (fun p hp => by rw [(hs p hp).2.1, hW p hp, d.weight]) (fun p hp => (hs p hp).2.2)
    (joined_route hj (C125_links _ ode).2.2.2.2.1 (by simp))
    (fun p hp => by obtain rfl : "v0v1" = p := by simpa [route] using hp
                    exact h0)
  have t' := t "loiter" rfl
  refine ⟨l, fun other => ⟨?_⟩, l.start _ rfl, ?_⟩
  · rw [d.close, hF, t', d.empty other]
    simp [Aircraft.mtowSys, Weights.runAdd, Weights.Env.arr, VectorComps.AddSys.compute, VectorComps.AddSys.factors, List.zipIdx]
  · rw [l.landing "loiter" rfl, d.close, hF, t', (Aircraft.C92_total _ _).1, List.map_map]
    simp only [Function.comp_def]
    ring

/-! ### existence -/

/-- one state of the mission out of states of its phases -/
def glue (Es : String → String → Fin (m + 1) → ℝ) (n : String) : Fin (m + 1) → ℝ :=
  Es (String.ofList (n.toList.takeWhile (· != '.'))) (String.ofList ((n.toList.dropWhile (· != '.')).drop 1))

theorem inPhase_glue (Es : String → String → Fin (m + 1) → ℝ) (p : String) (hp : p.toList.all (· != '.') = true) :
    inPhase (glue Es) p = Es p := by
  have hp' : ∀ c ∈ p.toList, (c != '.') = true := List.all_eq_true.1 hp
  funext x
  unfold inPhase glue
  have e : (p ++ "." ++ x).toList = p.toList ++ '.' :: x.toList := by simp
  rw [e, List.takeWhile_append_of_pos hp', List.dropWhile_append_of_pos hp']
  simp

/-- the phases flown before `p` -/
def before (k : Phases.MissionKind) (p : String) : List String :=
  if p = "v1v0" then ["v0v1"] else (route k).takeWhile (· ≠ p)

theorem before_next (k : Phases.MissionKind) : (∀ c ∈ nextPhase k, before k c.2 = before k c.1 ++ [c.1] ∧
      c.1.toList.all (· != '.') = true ∧ c.2.toList.all (· != '.') = true) ∧
    (∀ p ∈ (route k).head?, before k p = []) ∧ ∀ p ∈ route k, p.toList.all (· != '.') = true := by
  obtain ⟨t, r, g⟩ := k
  revert t r g
  decide +kernel

/-- **C125** (existence).  Whatever throttles, flight conditions and durations the phases give to the jet, there is a state of the whole
mission as in `C125_b738`. -/
theorem C125_b738_exists (k : Phases.MissionKind) (ode : Bool) (o : Opts) (I : String → String → Fin (m + 1) → ℝ) (W : ℝ)
    (hI : ∀ p, ∀ v ∈ (b738Grp (Aircraft.cd0Source p)).ins, v.vec = false → ∀ a, I p v.name a = I p v.name 0)
    (hd : ∀ p, ∀ a, I p "duration" a = I p "duration" 0) :
    ∃ X : String → Fin (m + 1) → ℝ, (∀ p ∈ route k, (b738Phase p).Rel o (inPhase X p)) ∧ Joined k ode b738States X ∧
      (∀ p ∈ route k, inPhase X p "ode_integ.duration" 0 = inPhase X p "duration" 0) ∧
      (∀ p ∈ route k, inPhase X p "ac|weights|MTOW" 0 = W) ∧
      (∀ p ∈ (route k).head?, inPhase X p "fuel_used_initial" 0 = 0) ∧
      ∀ p ∈ route k, inPhase X p "throttle" = I p "throttle" ∧ inPhase X p "fltcond|h" = I p "fltcond|h" ∧
        inPhase X p "fltcond|M" = I p "fltcond|M" ∧ inPhase X p "duration" = I p "duration" := by
  have hi : ∀ p, ∀ n ∈ ["ac|weights|MTOW", "ode_integ.duration", "fuel_used_initial", "throttle", "fltcond|h", "fltcond|M"],
      ∃ v ∈ (b738Grp (Aircraft.cd0Source p)).ins, v.name = n := by
    intro p
    have hc := cd0Source_mem p
    generalize Aircraft.cd0Source p = c at hc
    revert c
    unfold cd0Names
    decide +kernel
  let q : String → ℝ := fun p => Aircraft.missionFinal (Integrals.simpsonTri m) 0 ((before k p).map fun p => jetSeg o (I p))
  let J : String → String → Fin (m + 1) → ℝ := fun p n => if n = "fuel_used_initial" then fun _ => q p
    else if n = "ac|weights|MTOW" then fun _ => W else if n = "ode_integ.duration" then I p "duration" else I p n
  have hJ : ∀ p, ∀ v ∈ (b738Grp (Aircraft.cd0Source p)).ins, v.vec = false → ∀ a, J p v.name a = J p v.name 0 := by
    intro p v hv hs a
    simp only [J]
    split_ifs
    · rfl
    · rfl
    · exact hd p a
    · exact hI p v hv hs a
  choose E hE hdur hin using fun p => C124_b738_exists o p (J p) (hJ p)
  have hn : ∀ p, ∀ n ∈ ["ac|weights|MTOW", "ode_integ.duration", "fuel_used_initial", "throttle", "fltcond|h", "fltcond|M"],
      E p n = J p n := fun p n h => by
    obtain ⟨v, hv, e⟩ := hi p n h
    rw [← e]
    exact hin p v hv
  simp only [List.forall_mem_cons, List.not_mem_nil, false_imp_iff, implies_true, and_true] at hn
  have hD : ∀ p, E p "ode_integ.duration" 0 = E p "duration" 0 := fun p => by rw [(hn p).2.1, hdur p]; simp [J]
  have hS : ∀ p, jetSeg o (E p) = jetSeg o (I p) := fun p => by
    unfold jetSeg
    rw [(hn p).2.2.2.1, (hn p).2.2.2.2.1, (hn p).2.2.2.2.2, hdur p]
    simp [J]
  have hin0 : ∀ p, E p "fuel_used_initial" 0 = q p := fun p => by rw [(hn p).2.2.1]; simp [J]
  obtain ⟨b1, b2, b3⟩ := before_next k
  refine ⟨glue E, fun p hp => ?_, ⟨_, (C125_links k ode).2.2.2.1, fun c hc => ?_⟩, fun p hp => ?_, fun p hp => ?_, fun p hp => ?_,
    fun p hp => ?_⟩
  · rw [inPhase_glue E p (b3 p hp)]; exact hE p
  · obtain ⟨⟨p, p'⟩, h1, h2⟩ := List.mem_flatMap.1 hc
    simp only [List.map_cons, List.map_nil, List.mem_singleton] at h2
    subst h2
    obtain ⟨e, e1, e2⟩ := b1 _ h1
    have f1 : glue E (p ++ "." ++ "fuel_used_final") = E p "fuel_used_final" := congrFun (inPhase_glue E p e1) _
    have f2 : glue E (p' ++ "." ++ "fuel_used_initial") = E p' "fuel_used_initial" := congrFun (inPhase_glue E p' e2) _
    simp only at e ⊢
    rw [f1, f2, (C124_b738 o p _ (hE p) (hD p)).2.2.2.2.1, hin0, hin0, hS]
    simp only [q, e, Aircraft.missionFinal, List.map_append, List.foldl_append, List.map_cons, List.map_nil, List.foldl_cons, List.foldl_nil]
  · rw [inPhase_glue E p (b3 p hp)]; exact hD p
  · rw [inPhase_glue E p (b3 p hp), (hn p).1]; simp [J]
  · rw [inPhase_glue E p (b3 p (List.mem_of_mem_head? hp)), hin0]
    simp only [q, b2 p hp]
    rfl
  · rw [inPhase_glue E p (b3 p hp), (hn p).2.2.2.1, (hn p).2.2.2.2.1, (hn p).2.2.2.2.2, hdur p]
    simp [J]

/-- a jet of 70 t whose engines burn 1 lbm/s each, seven phases of 100 s: reserves included it ends 635 kg lighter -/
example : ∃ X : String → Fin 3 → ℝ, (∀ p ∈ route ⟨false, true, false⟩, (b738Phase p).Rel ⟨fun _ => 0, fun _ _ => 1⟩ (inPhase X p)) ∧
    Joined ⟨false, true, false⟩ true b738States X ∧ inPhase X "climb" "weight" 0 = 70000 ∧
    inPhase X "loiter" "weight" 2 = 70000 - 7 * 90.718474 := by
  obtain ⟨X, h1, h2, h3, h4, h5, h6⟩ := C125_b738_exists (m := 2) ⟨false, true, false⟩ true ⟨fun _ => 0, fun _ _ => 1⟩ (fun _ _ _ => 100) 70000
    (fun _ _ _ _ _ => rfl) (fun _ _ => rfl)
  obtain ⟨l, -⟩ := C125_b738 _ _ _ X 70000 rfl h1 h2 h3 h4 h5
  refine ⟨X, h1, h2, l.start "climb" rfl, ?_⟩
  have := l.landing "loiter" rfl
  rw [show (Fin.last 2) = 2 from rfl] at this
  rw [this]
  have hs : ∀ p ∈ route ⟨false, true, false⟩, Aircraft.segFinal (Integrals.simpsonTri 2) 0 (jetSeg ⟨fun _ => 0, fun _ _ => 1⟩ (inPhase X p)) = 90.718474 := by
    intro p hp
    rw [← Aircraft.segFuel_last]
    simp only [Aircraft.segFuel, Integrals.integratorCompute_eq, jetSeg, (h6 p hp).2.2.2, Phases.simpson_const (m := 2) rfl]
    simp [Integrals.TimeInput.step]
    norm_num
  rw [List.map_congr_left (g := fun _ => (90.718474 : ℝ)) hs]
  simp [route]
  norm_num

end Verif.Wiring
