import Verif.Props.Trajectory
import Verif.Props.WiringProfiles4

namespace Verif.Wiring

open Verif.Units
open Verif.Bfl (Craft Seg AcIn AcOut)
open Verif.Phases (Profile Follows Trip Flyable Ordinary Level)

variable {m : ℕ}

/-! ### C122: the trajectory of a mission -/

/-- the profile prescribed in a phase -/
def profileOf (G : String → Fin (m + 1) → ℝ) : Profile m := ⟨G "fltcond|vs", G "fltcond|TempIncrement", G "fltcond|Ueas"⟩

theorem SteadyPhase.follows {ac : Craft m} {l : Leg} {G : String → Fin (m + 1) → ℝ} (h : SteadyPhase ac l G) :
    Follows (profileOf G) (steadyOf G) where
  vs := rfl
  cond a := ⟨condOf G a, by rw [← congrFun h.h a]; exact h.atmos a, rfl⟩

/-- the same trajectory in two phases: duration, initial values, profile and airspeed; histories of altitude and range; and the
flight conditions -/
structure SameFlight (G G' : String → Fin (m + 1) → ℝ) : Prop where
  steady : steadyOf G = steadyOf G'
  duration : G "duration" 0 = G' "duration" 0
  h : G "fltcond|h" = G' "fltcond|h"
  range : G "range" = G' "range"
  cond : condOf G = condOf G'

theorem SameFlight.of {ac ac' : Craft m} {l l' : Leg} {G G' : String → Fin (m + 1) → ℝ} (h : SteadyPhase ac l G)
    (h' : SteadyPhase ac' l' G') (hq : profileOf G = profileOf G') (hs : steadyOf G = steadyOf G') : SameFlight G G' := by
  have hh : G "fltcond|h" = G' "fltcond|h" := by rw [h.h, h'.h, hs]
  refine ⟨hs, congrArg Phases.Steady.duration hs, hh, by rw [h.range, h'.range, hs], funext fun a => ?_⟩
  have e := h.atmos a
  have e' := h'.atmos a
  have q1 : G "fltcond|TempIncrement" = G' "fltcond|TempIncrement" := congrArg Profile.inc hq
  have q2 : G "fltcond|Ueas" = G' "fltcond|Ueas" := congrArg Profile.ueas hq
  rw [hh, q1, q2, e'] at e
  exact (Option.some.inj e).symm

section
variable {k : Phases.MissionKind} {ode ode' : Bool} {ac ac' : Craft m} {ac1 ac1' : Craft 0} {o o' : Opts}
  {E E' : String → Fin (m + 1) → ℝ} {F F' : String → String → Fin (m + 1) → ℝ}

/-- climb, cruise and descent of a converged mission -/
theorem MissionRel.trip (h : MissionRel k ode ac ac1 o E F) :
    Trip (profileOf (F "climb")) (profileOf (F "cruise")) (profileOf (F "descent")) (F "climb" "ode_integ_phase.fltcond|h_initial" 0)
      (F "climb" "ode_integ_phase.range_initial" 0) (E "cruise|h0" 0 * 0.3048) (E "takeoff|h" 0 * 0.3048) (E "mission_range" 0 * 1852)
      (steadyOf (F "climb")) (steadyOf (F "cruise")) (steadyOf (F "descent")) := by
  have C := C116_mission h
  exact ⟨(h.leg (l := .climb) (legs_flight (by simp))).follows, (h.leg (l := .cruise) (legs_flight (by simp))).follows,
    (h.leg (l := .descent) (legs_flight (by simp))).follows, ⟨rfl, rfl⟩, C.climbBalance, C.linkCruise, C.linkDescent, C.descentBalance,
    C.cruiseBalance⟩

/-- the reserve segment -/
theorem MissionRel.reserveTrip (h : MissionRel k ode ac ac1 o E F) (hk : k.includeReserve = true) :
    Trip (profileOf (F "reserve_climb")) (profileOf (F "reserve_cruise")) (profileOf (F "reserve_descent"))
      (F "reserve_climb" "ode_integ_phase.fltcond|h_initial" 0) (E "mission_range" 0 * 1852) (E "reserve|h0" 0 * 0.3048)
      (E "takeoff|h" 0 * 0.3048) (E "mission_range" 0 * 1852 + E "reserve_range" 0 * 1852)
      (steadyOf (F "reserve_climb")) (steadyOf (F "reserve_cruise")) (steadyOf (F "reserve_descent")) := by
  have C := C116_mission h
  have e := C.reserveCruiseBalance hk
  have e' := C.cruiseBalance
  have hR : Phases.Steady.rangeFinal (steadyOf (F "reserve_descent")) = E "mission_range" 0 * 1852 + E "reserve_range" 0 * 1852 := by
    have e1 : Phases.Steady.rangeFinal (steadyOf (F "reserve_descent")) - Phases.Steady.rangeFinal (steadyOf (F "descent")) =
      E "reserve_range" 0 * 1852 := e
    have e2 : Phases.Steady.rangeFinal (steadyOf (F "descent")) = E "mission_range" 0 * 1852 := e'
    linarith
  exact ⟨(h.leg (legs_reserve hk .reserveClimb)).follows, (h.leg (legs_reserve hk .reserveCruise)).follows,
    (h.leg (legs_reserve hk .reserveDescent)).follows, ⟨rfl, (C.linkReserveClimb hk).1.trans e'⟩, C.reserveClimbBalance hk,
    C.linkReserveCruise hk, C.linkReserveDescent hk, C.reserveDescentBalance hk, hR⟩

/-- a converged mission on an ordinary flight: see `Flyable` and `Ordinary` -/
structure OrdinaryMission (k : Phases.MissionKind) (F : String → String → Fin (m + 1) → ℝ) : Prop where
  flyable : Flyable (profileOf (F "climb")) (profileOf (F "cruise")) (profileOf (F "descent"))
  flight : Ordinary (steadyOf (F "cruise")) (steadyOf (F "descent"))
  reserveFlyable : k.includeReserve = true →
    Flyable (profileOf (F "reserve_climb")) (profileOf (F "reserve_cruise")) (profileOf (F "reserve_descent"))
  reserve : k.includeReserve = true → Ordinary (steadyOf (F "reserve_cruise")) (steadyOf (F "reserve_descent"))

/-- the mission parameters that shape the trajectory: all except the payload and the take-off speeds -/
def flightParams (k : Phases.MissionKind) : List String :=
  ["takeoff|h", "cruise|h0", "mission_range"] ++
    if k.includeReserve then ["reserve_range", "reserve|h0", "loiter|h0", "loiter_duration"] else []

/-- two missions whose trips are determined -/
theorem same_flight (h : MissionRel k ode ac ac1 o E F) (h' : MissionRel k ode' ac' ac1' o' E' F')
    (hp : ∀ n ∈ flightParams k, E n 0 = E' n 0)
    (hq : ∀ l ∈ legsOf k, profileOf (F l.name) = profileOf (F' l.name))
    (hs : ∀ x ∈ ["ode_integ_phase.fltcond|h_initial", "ode_integ_phase.range_initial"], F "climb" x 0 = F' "climb" x 0)
    (hr : k.includeReserve = true → F "reserve_climb" "ode_integ_phase.fltcond|h_initial" 0 =
      F' "reserve_climb" "ode_integ_phase.fltcond|h_initial" 0)
    (hu : ∀ (h0 r0 H L R : ℝ), Trip (profileOf (F "climb")) (profileOf (F "cruise")) (profileOf (F "descent")) h0 r0 H L R
        (steadyOf (F "climb")) (steadyOf (F "cruise")) (steadyOf (F "descent")) →
      Trip (profileOf (F "climb")) (profileOf (F "cruise")) (profileOf (F "descent")) h0 r0 H L R
        (steadyOf (F' "climb")) (steadyOf (F' "cruise")) (steadyOf (F' "descent")) →
      steadyOf (F "climb") = steadyOf (F' "climb") ∧ steadyOf (F "cruise") = steadyOf (F' "cruise") ∧
        steadyOf (F "descent") = steadyOf (F' "descent"))
    (hu' : k.includeReserve = true → ∀ (h0 r0 H L R : ℝ),
      Trip (profileOf (F "reserve_climb")) (profileOf (F "reserve_cruise")) (profileOf (F "reserve_descent")) h0 r0 H L R
        (steadyOf (F "reserve_climb")) (steadyOf (F "reserve_cruise")) (steadyOf (F "reserve_descent")) →
      Trip (profileOf (F "reserve_climb")) (profileOf (F "reserve_cruise")) (profileOf (F "reserve_descent")) h0 r0 H L R
        (steadyOf (F' "reserve_climb")) (steadyOf (F' "reserve_cruise")) (steadyOf (F' "reserve_descent")) →
      steadyOf (F "reserve_climb") = steadyOf (F' "reserve_climb") ∧ steadyOf (F "reserve_cruise") = steadyOf (F' "reserve_cruise") ∧
        steadyOf (F "reserve_descent") = steadyOf (F' "reserve_descent")) :
    ∀ l ∈ legsOf k, SameFlight (F l.name) (F' l.name) := by
  have par : ∀ n, n ∈ ["takeoff|h", "cruise|h0", "mission_range"] → E n 0 = E' n 0 := fun n hn =>
    hp n (List.mem_append_left _ hn)
  have parR : k.includeReserve = true → ∀ n, n ∈ ["reserve_range", "reserve|h0", "loiter|h0", "loiter_duration"] →
      E n 0 = E' n 0 := fun hk n hn => hp n (List.mem_append_right _ (by rw [if_pos hk]; exact hn))
  have t := h.trip
  have t' := h'.trip
  rw [← par "takeoff|h" (by simp), ← par "cruise|h0" (by simp), ← par "mission_range" (by simp), ← hs _ List.mem_cons_self,
    ← hs _ (List.mem_cons_of_mem _ List.mem_cons_self), ← (show profileOf (F "climb") = profileOf (F' "climb") from hq .climb (legs_flight (by simp))),
    ← (show profileOf (F "cruise") = profileOf (F' "cruise") from hq .cruise (legs_flight (by simp))),
    ← (show profileOf (F "descent") = profileOf (F' "descent") from hq .descent (legs_flight (by simp)))] at t'
  obtain ⟨u1, u2, u3⟩ := hu _ _ _ _ _ t t'
  have key : ∀ l ∈ legsOf k, steadyOf (F l.name) = steadyOf (F' l.name) := by
    intro l hl
    by_cases hk : k.includeReserve = true
    · have s := h.reserveTrip hk
      have s' := h'.reserveTrip hk
      rw [← par "takeoff|h" (by simp), ← par "mission_range" (by simp), ← parR hk "reserve|h0" (by simp),
        ← parR hk "reserve_range" (by simp), ← hr hk, ← (show profileOf (F "reserve_climb") = profileOf (F' "reserve_climb") from hq .reserveClimb (legs_reserve hk _)), ← (show profileOf (F "reserve_cruise") = profileOf (F' "reserve_cruise") from hq .reserveCruise (legs_reserve hk _)),
        ← (show profileOf (F "reserve_descent") = profileOf (F' "reserve_descent") from hq .reserveDescent (legs_reserve hk _))] at s'
      obtain ⟨v1, v2, v3⟩ := hu' hk _ _ _ _ _ s s'
      have C := C116_mission h
      have C' := C116_mission h'
      have w : steadyOf (F "loiter") = steadyOf (F' "loiter") := by
        have f' : Follows (profileOf (F' "loiter")) (steadyOf (F' "loiter")) := (h'.leg (legs_reserve hk .loiter)).follows
        rw [← (show profileOf (F "loiter") = profileOf (F' "loiter") from hq .loiter (legs_reserve hk _))] at f'
        refine (h.leg (legs_reserve hk .loiter)).follows.unique f' ?_ ?_ ?_
        · refine (C.loiterDuration hk).trans (Eq.trans ?_ (C'.loiterDuration hk).symm)
          simp only [paramsOf]
          rw [parR hk "loiter_duration" (by simp)]
        · refine (C.loiterStart hk).trans (Eq.trans ?_ (C'.loiterStart hk).symm)
          simp only [paramsOf]
          rw [parR hk "loiter|h0" (by simp)]
        · refine (C.linkLoiter hk).1.trans (Eq.trans ?_ (C'.linkLoiter hk).1.symm)
          exact congrArg Phases.Steady.rangeFinal v3
      cases l
      · exact u1
      · exact u2
      · exact u3
      · exact v1
      · exact v2
      · exact v3
      · exact w
    · rw [legsOf, if_neg hk, List.append_nil] at hl
      fin_cases hl
      · exact u1
      · exact u2
      · exact u3
  exact fun l hl => .of (h.leg hl) (h'.leg hl) (hq l hl) (key l hl)

/-- **C122**.  The trajectory does not depend on the airplane.  Take two converged missions of the same class with arbitrary aircraft
models, with the same mission parameters, prescribed profiles and initial values.  If both are ordinary flights, then all steady
phases have the same duration, altitude and range histories and flight conditions in both. -/
theorem C122_trajectory (hm : m % 2 = 0) (hm0 : m ≠ 0) (h : MissionRel k ode ac ac1 o E F) (h' : MissionRel k ode' ac' ac1' o' E' F')
    (hp : ∀ n ∈ flightParams k, E n 0 = E' n 0)
    (hq : ∀ l ∈ legsOf k, profileOf (F l.name) = profileOf (F' l.name))
    (hs : ∀ x ∈ ["ode_integ_phase.fltcond|h_initial", "ode_integ_phase.range_initial"], F "climb" x 0 = F' "climb" x 0)
    (hr : k.includeReserve = true → F "reserve_climb" "ode_integ_phase.fltcond|h_initial" 0 =
      F' "reserve_climb" "ode_integ_phase.fltcond|h_initial" 0)
    (ho : OrdinaryMission k F) (ho' : OrdinaryMission k F') : ∀ l ∈ legsOf k, SameFlight (F l.name) (F' l.name) :=
  same_flight h h' hp hq hs hr (fun _ _ _ _ _ t t' => t.unique hm hm0 ho.flyable t' ho.flight ho'.flight)
    fun hk _ _ _ _ _ t t' => t.unique hm hm0 (ho.reserveFlyable hk) t' (ho.reserve hk) (ho'.reserve hk)

/-- **C122** (level cruise).  If the cruise is level, and so is that of the reserve, the same holds for all converged missions, also
for those with a negative duration. -/
theorem C122_level (hm : m % 2 = 0) (hm0 : m ≠ 0) (h : MissionRel k ode ac ac1 o E F) (h' : MissionRel k ode' ac' ac1' o' E' F')
    (hp : ∀ n ∈ flightParams k, E n 0 = E' n 0)
    (hq : ∀ l ∈ legsOf k, profileOf (F l.name) = profileOf (F' l.name))
    (hs : ∀ x ∈ ["ode_integ_phase.fltcond|h_initial", "ode_integ_phase.range_initial"], F "climb" x 0 = F' "climb" x 0)
    (hr : k.includeReserve = true → F "reserve_climb" "ode_integ_phase.fltcond|h_initial" 0 =
      F' "reserve_climb" "ode_integ_phase.fltcond|h_initial" 0)
    (hl : Level (profileOf (F "climb")) (profileOf (F "cruise")) (profileOf (F "descent")))
    (hl' : k.includeReserve = true →
      Level (profileOf (F "reserve_climb")) (profileOf (F "reserve_cruise")) (profileOf (F "reserve_descent"))) :
    ∀ l ∈ legsOf k, SameFlight (F l.name) (F' l.name) :=
  same_flight h h' hp hq hs hr (fun _ _ _ _ _ t t' => t.unique_level hm hm0 hl t')
    fun hk _ _ _ _ _ t t' => t.unique_level hm hm0 (hl' hk) t'

end

end Verif.Wiring
