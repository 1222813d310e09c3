import Verif.Props.WiringProfiles

namespace Verif.Wiring

open Verif.Units
open Verif.Bfl (Craft Seg AcIn AcOut)

variable {m : ℕ} {k : Phases.MissionKind} {ode : Bool} {ac : Craft m} {ac1 : Craft 0} {o : Opts} {E : String → Fin (m + 1) → ℝ}
  {F : String → String → Fin (m + 1) → ℝ}

/-! ### C116: missions -/

/-- two steady phases whose final and initial range, and height, are one variable of the mission -/
theorem MissionRel.linked (h : MissionRel k ode ac ac1 o E F) (a b : Leg) (ha : a ∈ legsOf k) (hb : b ∈ legsOf k) (skip : Bool)
    (hs : ∀ l ∈ finalLinks a.name ++ stepLinks a.name b.name (!skip), l ∈ missionLinks k ode) :
    Phases.linked skip (steadyOf (F a.name)) (steadyOf (F b.name)) := by
  have r1 := h.atLeg a ha _ _ _ _ (hs _ (List.mem_append_left _ (List.mem_cons_of_mem _ List.mem_cons_self)))
  have r2 := h.atLeg b hb _ _ _ _ (hs _ (List.mem_append_right _ (List.mem_append_left _ List.mem_cons_self)))
  rw [conv_self] at r1 r2
  refine ⟨r2.trans (r1.symm.trans (h.leg ha).rangeFinal), fun hk => ?_⟩
  subst hk
  have h1 := h.atLeg a ha _ _ _ _ (hs _ (List.mem_append_left _ List.mem_cons_self))
  have h2 := h.atLeg b hb _ _ _ _ (hs _ (List.mem_append_right _ (List.mem_append_right _ List.mem_cons_self)))
  rw [conv_self] at h1 h2
  exact h2.trans (h1.symm.trans (h.leg ha).hFinal)

theorem flight_sub : ∀ l ∈ flightLinks, l ∈ missionLinks k ode := fun _ hl =>
  List.mem_append_left _ (List.mem_append_right _ hl)

theorem reserve_sub (hk : k.includeReserve = true) : ∀ l ∈ reserveLinks, l ∈ missionLinks k ode := fun l hl => by
  refine List.mem_append_right _ ?_
  rw [if_pos hk]
  exact hl

theorem takeoff_sub (hk : k.includeTakeoff = true) : ∀ l ∈ takeoffLinks ode, l ∈ missionLinks k ode := fun l hl => by
  refine List.mem_append_left _ (List.mem_append_left _ (List.mem_append_left _ (List.mem_append_left _ ?_)))
  rw [if_pos hk]
  exact hl

theorem roll_sub (h1 : k.includeTakeoff = false) (h2 : k.includeReserve = false) (h3 : k.groundRoll = true) :
    ∀ l ∈ rollLinks, l ∈ missionLinks k ode := fun l hl => by
  refine List.mem_append_left _ (List.mem_append_left _ (List.mem_append_right _ ?_))
  rw [if_pos (by simp [h1, h2, h3])]
  exact hl

theorem basic_sub (h1 : k.includeTakeoff = false) (h2 : k.includeReserve = false) :
    (⟨"climb", "ode_integ_phase.fltcond|h_initial", "takeoff|h", "ft", "m"⟩ : Link) ∈ missionLinks k ode := by
  refine List.mem_append_left _ (List.mem_append_left _ (List.mem_append_left _ (List.mem_append_right _ ?_)))
  rw [if_pos (by simp [h1, h2])]
  exact List.mem_cons_self

theorem legs_flight {l : Leg} (h : l = .climb ∨ l = .cruise ∨ l = .descent) : l ∈ legsOf k :=
  List.mem_append_left _ (by rcases h with rfl | rfl | rfl <;> decide)

theorem legs_reserve (hk : k.includeReserve = true) (l : Leg) : l ∈ legsOf k := by
  rw [legsOf, if_pos hk]
  cases l <;> decide

theorem takeoff_names (hk : k.includeTakeoff = true) : ∀ n ∈ ["v0v1", "v1vr", "rotate", "v1v0", "engineoutclimb"],
    n ∈ (missionPhases k ode ac ac1 o).map Prod.fst := by
  intro n hn
  rw [missionPhases, if_pos hk, List.map_append]
  exact List.mem_append_left _ hn

theorem roll_name (h1 : k.includeTakeoff = false) (h2 : k.includeReserve = false) (h3 : k.groundRoll = true) :
    ("groundroll", (ground ac .v0v1).Rel o) ∈ missionPhases k ode ac ac1 o := by
  rw [missionPhases, if_neg (by simp [h1]), if_pos (by simp [h2, h3])]
  exact List.mem_append_left _ List.mem_cons_self

/-- **C116** (missions).  In every converged state of a mission of any of the four classes, the phases as wired by `connect` and
`link_phases` satisfy all equations of C31 in SI units: the parameters in feet and nautical miles are the targets of the right phases,
and final heights and ranges are the initial ones of the phases that follow. -/
theorem C116_mission (h : MissionRel k ode ac ac1 o E F) : Phases.Converged k (paramsOf E) (missionOf k F) := by
  have f1 : Leg.climb ∈ legsOf k := legs_flight (by simp)
  have f2 : Leg.cruise ∈ legsOf k := legs_flight (by simp)
  have f3 : Leg.descent ∈ legsOf k := legs_flight (by simp)
  have hd := h.atLeg .descent f3 "ode_integ_phase.range_final" "descent.ode_integ_phase.range_final" "m" "m"
    (flight_sub _ (by decide))
  have hd' := (h.leg f3).rangeFinal
  rw [conv_self] at hd
  constructor
  · intro hk
    have a1 := h.atLeg .climb f1 "ode_integ_phase.range_initial" "rotate.range_final" "m" "m"
      (takeoff_sub hk _ (by cases ode <;> decide))
    have a2 := h.atLeg .climb f1 "ode_integ_phase.fltcond|h_initial" "rotate.fltcond|h_final" "m" "m"
      (takeoff_sub hk _ (by cases ode <;> decide))
    have b1 := h.at_ (l := ⟨"rotate", "range_final", "rotate.range_final", "m", "m"⟩) (takeoff_sub hk _ (by cases ode <;> decide))
      (takeoff_names hk _ (by decide)) 0
    have b2 := h.at_ (l := ⟨"rotate", "fltcond|h_final", "rotate.fltcond|h_final", "m", "m"⟩)
      (takeoff_sub hk _ (by cases ode <;> decide)) (takeoff_names hk _ (by decide)) 0
    rw [conv_self] at a1 a2 b1 b2
    refine ⟨a1.trans ?_, a2.trans b2.symm⟩
    rw [missionOf, if_pos hk]
    exact b1.symm
  · intro h1 h2
    have a := h.atLeg .climb f1 _ _ _ _ (basic_sub h1 h2)
    rw [conv_ft_m] at a
    exact a
  · intro h1 h2 h3
    have a := h.atLeg .climb f1 "ode_integ_phase.range_initial" "groundroll.range_final" "m" "m" (roll_sub h1 h2 h3 _ (by decide))
    have b := h.at_ (l := ⟨"groundroll", "range_final", "groundroll.range_final", "m", "m"⟩) (roll_sub h1 h2 h3 _ (by decide))
      (List.mem_map_of_mem (roll_name h1 h2 h3)) 0
    rw [conv_self] at a b
    rw [missionOf, if_neg (by simp [h1])]
    exact a.trans b.symm
  · have a := h.atLeg .climb f1 "climbdt.cruise|h0" "cruise|h0" "ft" "m" (flight_sub _ (by decide))
    rw [conv_ft_m] at a
    exact (h.leg f1).hFinal.symm.trans ((h.leg f1).target.trans a)
  · exact h.linked .climb .cruise f1 f2 false fun l hl => flight_sub l (by revert l; decide)
  · exact h.linked .cruise .descent f2 f3 false fun l hl => flight_sub l (by revert l; decide)
  · have a := h.atLeg .cruise f2 "cruisedt.range_final" "descent.ode_integ_phase.range_final" "m" "km" (flight_sub _ (by decide))
    have b := h.atLeg .cruise f2 "cruisedt.mission_range" "mission_range" "NM" "km" (flight_sub _ (by decide))
    have t : F "cruise" "cruisedt.range_final" 0 = F "cruise" "cruisedt.mission_range" 0 := (h.leg f2).target
    rw [conv_m_km] at a
    rw [conv_NM_km] at b
    rw [show Leg.name .cruise = "cruise" from rfl] at a b
    rw [a, b] at t
    show Phases.Steady.rangeFinal (steadyOf (F "descent")) = E "mission_range" 0 * 1852
    rw [show Phases.Steady.rangeFinal (steadyOf (F "descent")) = E "descent.ode_integ_phase.range_final" 0 from hd'.symm.trans hd]
    linarith
  · have a := h.atLeg .descent f3 "descentdt.takeoff|h" "takeoff|h" "ft" "m" (flight_sub _ (by decide))
    rw [conv_ft_m] at a
    exact (h.leg f3).hFinal.symm.trans ((h.leg f3).target.trans a)
  · intro hk
    refine h.linked .descent .reserveClimb f3 (legs_reserve hk _) true fun l hl => ?_
    rcases List.mem_append.1 hl with hl | hl
    · exact flight_sub l (by revert l; decide)
    · exact reserve_sub hk l (by revert l; decide)
  · intro hk
    exact h.linked .reserveClimb .reserveCruise (legs_reserve hk _) (legs_reserve hk _) false fun l hl =>
      reserve_sub hk l (by revert l; decide)
  · intro hk
    exact h.linked .reserveCruise .reserveDescent (legs_reserve hk _) (legs_reserve hk _) false fun l hl =>
      reserve_sub hk l (by revert l; decide)
  · intro hk
    exact h.linked .reserveDescent .loiter (legs_reserve hk _) (legs_reserve hk _) true fun l hl =>
      reserve_sub hk l (by revert l; decide)
  · intro hk
    have a := h.atLeg .reserveClimb (legs_reserve hk _) "reserve_climbdt.reserve|h0" "reserve|h0" "ft" "m"
      (reserve_sub hk _ (by decide))
    rw [conv_ft_m] at a
    exact (h.leg (legs_reserve hk .reserveClimb)).hFinal.symm.trans ((h.leg (legs_reserve hk .reserveClimb)).target.trans a)
  · intro hk
    have a := h.atLeg .reserveCruise (legs_reserve hk _) "reserve_cruisedt.range_final" "resrange.reserverange" "NM" "m"
      (reserve_sub hk _ (by decide))
    have b := h.atLeg .reserveCruise (legs_reserve hk _) "reserve_cruisedt.reserve_range" "reserve_range" "NM" "m"
      (reserve_sub hk _ (by decide))
    have t : F "reserve_cruise" "reserve_cruisedt.range_final" 0 = F "reserve_cruise" "reserve_cruisedt.reserve_range" 0 :=
      (h.leg (legs_reserve hk .reserveCruise)).target
    rw [conv_NM_m, show Leg.name .reserveCruise = "reserve_cruise" from rfl] at a b
    rw [a, b] at t
    have e : (missionGrp k ode).view (fun n => E n 0) "resrange" "reserverange" =
        (missionGrp k ode).view (fun n => E n 0) "resrange" "rangef" - (missionGrp k ode).view (fun n => E n 0) "resrange" "rangeo" :=
      h.node 0 ⟨"resrange", reserveRange, .only [], .only []⟩ (by simp [missionGrp, hk])
    rw [mission_view (l := ⟨"resrange", "reserverange", "resrange.reserverange", "NM", "NM"⟩) (reserve_sub hk _ (by decide)),
      mission_view (l := ⟨"resrange", "rangef", "reserve_descent.ode_integ_phase.range_final", "m", "NM"⟩)
        (reserve_sub hk _ (by decide)),
      mission_view (l := ⟨"resrange", "rangeo", "descent.ode_integ_phase.range_final", "m", "NM"⟩)
        (reserve_sub hk _ (by decide)), conv_self, conv_m_NM, conv_m_NM] at e
    have hr := h.atLeg .reserveDescent (legs_reserve hk _) "ode_integ_phase.range_final"
      "reserve_descent.ode_integ_phase.range_final" "m" "m" (reserve_sub hk _ (by decide))
    rw [conv_self] at hr
    have hr' := (h.leg (legs_reserve hk .reserveDescent)).rangeFinal
    show Phases.Steady.rangeFinal (steadyOf (F "reserve_descent")) - Phases.Steady.rangeFinal (steadyOf (F "descent")) =
      E "reserve_range" 0 * 1852
    rw [show Phases.Steady.rangeFinal (steadyOf (F "descent")) = E "descent.ode_integ_phase.range_final" 0 from hd'.symm.trans hd,
      show Phases.Steady.rangeFinal (steadyOf (F "reserve_descent")) = E "reserve_descent.ode_integ_phase.range_final" 0 from
        hr'.symm.trans hr]
    dsimp only at e
    rw [e] at t
    linarith
  · intro hk
    have a := h.atLeg .reserveDescent (legs_reserve hk _) "reserve_descentdt.takeoff|h" "takeoff|h" "ft" "m"
      (reserve_sub hk _ (by decide))
    rw [conv_ft_m] at a
    exact (h.leg (legs_reserve hk .reserveDescent)).hFinal.symm.trans
      ((h.leg (legs_reserve hk .reserveDescent)).target.trans a)
  · intro hk
    have a := h.atLeg .loiter (legs_reserve hk _) "ode_integ_phase.fltcond|h_initial" "loiter|h0" "ft" "m"
      (reserve_sub hk _ (by decide))
    rw [conv_ft_m] at a
    exact a
  · intro hk
    have a := h.atLeg .loiter (legs_reserve hk _) "duration_in" "loiter_duration" "s" "s" (reserve_sub hk _ (by decide))
    rw [conv_self] at a
    have t : F "loiter" "duration" 0 = F "loiter" "duration_in" 0 := (h.leg (legs_reserve hk .loiter)).target
    simp only [Utils.dvLabel, List.foldl, ↓reduceIte]
    exact t.trans a

/-! ### C116: take-off -/

/-- the take-off of the mission -/
noncomputable def takeoffOf (ode : Bool) (E : String → Fin (m + 1) → ℝ) (F : String → String → Fin (m + 1) → ℝ) : Bfl.Takeoff m where
  v1 := E "takeoff|v1" 0
  v0v1 := groundOf .v0v1 (F "v0v1")
  v1vr := groundOf .v1vr (F "v1vr")
  v1v0 := groundOf .v1v0 (F "v1v0")
  rotate := if ode then .ode (rotationOf (F "rotate")) else .simplified (robustOf (F "rotate"))

theorem conv_area (u v : String) (hu : u = "m **2") (hv : v = "m **2" ∨ v = "m**2") (x : ℝ) : conv u v x = x := by
  rcases hv with rfl | rfl <;> subst hu
  · exact conv_self _ _
  · exact conv_m2b _

/-- a phase gets the design variables of the mission -/
theorem MissionRel.design (h : MissionRel k ode ac ac1 o E F) (s u : String) (hu : u = "m **2" ∨ u = "m**2")
    (hp : s ∈ (missionPhases k ode ac ac1 o).map Prod.fst) (hs : ∀ l ∈ acLinks s u, l ∈ missionLinks k ode) :
    designOf (F s) = designOf E := by
  have a := h.at_ (hs _ List.mem_cons_self) hp 0
  have b := h.at_ (hs _ (List.mem_cons_of_mem _ List.mem_cons_self)) hp 0
  have c := h.at_ (hs _ (List.mem_cons_of_mem _ (List.mem_cons_of_mem _ List.mem_cons_self))) hp 0
  dsimp only at a b c
  rw [conv_area _ _ rfl hu] at a
  rw [conv_self] at b c
  rw [designOf, a, b, c]
  rfl

/-- the rotation does not depend on the take-off weight of the design -/
theorem ode_design {r : Bfl.Ode m} {d d' : Bfl.Design} {M : Matrix (Fin (m + 1)) (Fin (m + 1)) ℝ} (h : r.Converged ac d M)
    (hs : d.sref = d'.sref) (hc : d.clmax = d'.clmax) : r.Converged ac d' M := by
  have e1 : Bfl.Ode.cl d = Bfl.Ode.cl d' := by rw [Bfl.Ode.cl, Bfl.Ode.cl, hc]
  have e2 : r.accelIn d = r.accelIn d' := by
    funext a
    rw [Bfl.Ode.accelIn, Bfl.Ode.accelIn, e1, hs]
  have e3 : r.acIn d = r.acIn d' := by rw [Bfl.Ode.acIn, Bfl.Ode.acIn, e1]
  exact ⟨h.atmos, e3 ▸ h.craft, e2 ▸ h.speed, e2 ▸ h.climb, h.height, h.balance⟩

/-- **C116** (take-off).  In every converged state of a mission with take-off, for both transition methods, the phases as wired form
a converged balanced field take-off of C102 of the design that all phases share, and the engine-out climb is that of C103. -/
theorem C116_takeoff (h : MissionRel k ode ac ac1 o E F) (hk : k.includeTakeoff = true) :
    (takeoffOf ode E F).Converged ac (designOf E) (Integrals.simpsonTri m) ∧
    (climboutOf fun x _ => F "engineoutclimb" x 0).Converged ac1 (designOf E) false (F "engineoutclimb" "duration" 0) := by
  have hn := fun n hn => takeoff_names (k := k) (ode := ode) (ac := ac) (ac1 := ac1) (o := o) hk n hn
  have ph : ∀ p ∈ [("v0v1", (ground ac .v0v1).Rel o), ("v1vr", (ground ac .v1vr).Rel o),
     ("rotate", if ode then (rotation ac).Rel o else (robust ac).Rel o), ("v1v0", (ground ac .v1v0).Rel o),
     ("engineoutclimb", fun T => (climbAngle1 ac1 false).Rel o fun x _ => T x 0)], p.2 (F p.1) := by
    intro p hp
    refine h.phase p ?_
    rw [missionPhases, if_pos hk]
    exact List.mem_append_left _ hp
  simp only [List.forall_mem_cons, List.not_mem_nil, false_imp_iff, implies_true, and_true] at ph
  obtain ⟨p1, p2, p3, p4, p5⟩ := ph
  have lk : ∀ s x src u, (⟨s, x, src, u, u⟩ : Link) ∈ takeoffLinks ode → s ∈ ["v0v1", "v1vr", "rotate", "v1v0", "engineoutclimb"] →
      F s x 0 = E src 0 := by
    intro s x src u hl hs
    have := h.at_ (takeoff_sub hk _ hl) (hn s hs) 0
    rwa [conv_self] at this
  have d1 := h.design "v0v1" "m **2" (by simp) (hn _ (by decide)) fun l hl => takeoff_sub hk l (by revert l; cases ode <;> decide)
  have d2 := h.design "v1vr" "m **2" (by simp) (hn _ (by decide)) fun l hl => takeoff_sub hk l (by revert l; cases ode <;> decide)
  have d3 := h.design "v1v0" "m **2" (by simp) (hn _ (by decide)) fun l hl => takeoff_sub hk l (by revert l; cases ode <;> decide)
  have d4 := h.design "engineoutclimb" "m**2" (by simp) (hn _ (by decide)) fun l hl =>
    takeoff_sub hk l (by revert l; cases ode <;> decide)
  have c1 := C115_ground_v0v1 ac o _ p1
  have c2 := C115_ground_v1vr ac o _ p2 (E "takeoff|v1" 0)
    (lk "v1vr" "fltcond|Utrue_initial" "takeoff|v1" "m/s" (by cases ode <;> decide) (by decide))
  have c3 := C115_ground_v1v0 ac o _ p4
  rw [d1, lk "v0v1" "takeoff|v1" "takeoff|v1" "m/s" (by cases ode <;> decide) (by decide)] at c1
  rw [d2] at c2
  rw [d3, lk "v1v0" "takeoff|v1" "takeoff|v1" "m/s" (by cases ode <;> decide) (by decide)] at c3
  have r1 := lk "v0v1" "range_final" "v0v1.range_final" "m" (by cases ode <;> decide) (by decide)
  have r2 := lk "v1vr" "range_final" "v1vr.range_final" "m" (by cases ode <;> decide) (by decide)
  have r3 := lk "v1v0" "range_final" "v1v0.range_final" "m" (by cases ode <;> decide) (by decide)
  have r4 := lk "rotate" "range_final" "rotate.range_final" "m" (by cases ode <;> decide) (by decide)
  have i2 := lk "v1vr" "range_initial" "v0v1.range_final" "m" (by cases ode <;> decide) (by decide)
  have i3 := lk "v1v0" "range_initial" "v0v1.range_final" "m" (by cases ode <;> decide) (by decide)
  have i4 := lk "rotate" "range_initial" "v1vr.range_final" "m" (by cases ode <;> decide) (by decide)
  have vr := lk "v1vr" "takeoff|vr" "v1vr.takeoff|vr" "m/s " (by cases ode <;> decide) (by decide)
  have hb : Phases.bflResidual ⟨E "rotate.range_final" 0, E "v1v0.range_final" 0, E "v1vr.takeoff|vr" 0, E "takeoff|v1" 0⟩ = 0 := by
    have := h.node 0 ⟨"bfl", bflSolve, .only [], names ["takeoff|v1"]⟩ (by
      refine List.mem_append_left _ (List.mem_append_left _ (List.mem_append_right _ ?_))
      rw [if_pos hk]
      exact List.mem_cons_self)
    have e : ∀ x src u, (⟨"bfl", x, src, u, u⟩ : Link) ∈ takeoffLinks ode →
        (missionGrp k ode).view (fun n => E n 0) "bfl" x = E src 0 := by
      intro x src u hl
      rw [mission_view (takeoff_sub hk _ hl), conv_self]
    have e1 := e "distance_continue" "rotate.range_final" "m" (by cases ode <;> decide)
    have e2 := e "distance_abort" "v1v0.range_final" "m" (by cases ode <;> decide)
    have e3 := mission_view (l := ⟨"bfl", "takeoff|vr", "v1vr.takeoff|vr", "m/s ", "m/s"⟩)
      (takeoff_sub hk _ ((by decide : ∀ b, (⟨"bfl", "takeoff|vr", "v1vr.takeoff|vr", "m/s ", "m/s"⟩ : Link) ∈ takeoffLinks b) ode))
      fun n => E n 0
    rw [conv_ms5] at e3
    dsimp only at e3
    have e4 := e "takeoff|v1" "takeoff|v1" "m/s" (by cases ode <;> decide)
    simp only [bflSolve] at this
    rwa [e1, e2, e3, e4] at this
  have q1 : (groundOf .v0v1 (F "v0v1")).range (Integrals.simpsonTri m) .v0v1 (Fin.last m) = E "v0v1.range_final" 0 := by
    rw [← r1, c1.2.2, c1.2.1]
  have q2 : (groundOf .v1vr (F "v1vr")).range (Integrals.simpsonTri m) .v1vr (Fin.last m) = E "v1vr.range_final" 0 := by
    rw [← r2, c2.2.2.2.2, c2.2.2.2.1]
  have q3 : (groundOf .v1v0 (F "v1v0")).range (Integrals.simpsonTri m) .v1v0 (Fin.last m) = E "v1v0.range_final" 0 := by
    rw [← r3, c3.2.2, c3.2.1]
  have hro : (takeoffOf ode E F).rotate.Converged ac (designOf E) (Integrals.simpsonTri m) (F "v1vr" "fltcond|Utrue" (Fin.last m)) ∧
      (takeoffOf ode E F).rotate.rangeFinal (Integrals.simpsonTri m) = E "rotate.range_final" 0 ∧
      (takeoffOf ode E F).rotate.rangeInitial = E "v1vr.range_final" 0 := by
    cases ode
    · have c4 := C115_simplified ac o _ p3
      rw [h.design "rotate" "m**2" (by simp) (hn _ (by decide)) fun l hl => takeoff_sub hk l (by revert l; decide)] at c4
      exact ⟨c4.1, by rw [← r4, c4.2.2.1]; rfl, i4⟩
    · have c4 := C115_rotation ac o _ p3
      have u1 := lk "v1vr" "fltcond|Utrue_final" "v1vr.fltcond|Utrue_final" "m/s" (by decide) (by decide)
      have u2 := lk "rotate" "fltcond|Utrue_initial" "v1vr.fltcond|Utrue_final" "m/s" (by decide) (by decide)
      refine ⟨⟨ode_design c4.1 ?_ ?_, ?_⟩, ?_, i4⟩
      · exact lk "rotate" "ac|geom|wing|S_ref" "ac|geom|wing|S_ref" "m **2" (by decide) (by decide)
      · exact lk "rotate" "ac|aero|CLmax_TO" "ac|aero|CLmax_TO" "" (by decide) (by decide)
      · exact u2.trans (u1.symm.trans c2.2.2.1)
      · rw [← r4, c4.2.2.1, c4.2.1]
        rfl
  refine ⟨⟨c1.1, c2.1, c3.1, hro.1, ?_, ?_, ?_, ?_⟩, ?_⟩
  · exact i2.trans q1.symm
  · exact hro.2.2.trans q2.symm
  · exact i3.trans q1.symm
  · rw [← hb, ← vr, c2.2.1]
    unfold Bfl.Takeoff.continueDist Bfl.Takeoff.abortDist
    rw [hro.2.1]
    rw [show (takeoffOf ode E F).v1v0 = groundOf .v1v0 (F "v1v0") from rfl, q3]
    rfl
  · have := (C115_climb_angle ac1 false o _ p5).1
    rw [show designOf (fun x (_ : Fin 1) => F "engineoutclimb" x 0) = designOf (F "engineoutclimb") from rfl, d4] at this
    exact this

/-- **C116** (ground roll of `BasicMission`).  The ground roll is that of C102 up to the parameter `takeoff|v2`, and from 2 m/s. -/
theorem C116_ground_roll (h : MissionRel k ode ac ac1 o E F) (h1 : k.includeTakeoff = false) (h2 : k.includeReserve = false)
    (h3 : k.groundRoll = true) :
    (groundOf .v0v1 (F "groundroll")).Converged ac (designOf E) (Integrals.simpsonTri m) (E "takeoff|v2" 0 * (1852 / 3600)) .v0v1 := by
  have hp := List.mem_map_of_mem (f := Prod.fst) (roll_name (ode := ode) (ac := ac) (ac1 := ac1) (o := o) h1 h2 h3)
  have c := C115_ground_v0v1 ac o _ (h.phase _ (roll_name h1 h2 h3))
  have v := h.at_ (l := ⟨"groundroll", "takeoff|v1", "takeoff|v2", "kn", "m/s"⟩) (roll_sub h1 h2 h3 _ (by decide)) hp 0
  rw [conv_kn3] at v
  have d := h.design "groundroll" "m **2" (by simp) hp fun l hl => roll_sub h1 h2 h3 l (by revert l; decide)
  dsimp only at v
  rw [d, v] at c
  exact c.1

end Verif.Wiring
