import Verif.Model.WiringProfiles
import Verif.Props.WiringPhases

namespace Verif.Wiring

open Verif.Units
open Verif.Bfl (Craft Seg AcIn AcOut)

variable {m : ℕ}

/-! ### C116: connections -/

/-- where a phase finds the design variables -/
def acLinks (s unit : String) : List Link :=
  [⟨s, "ac|geom|wing|S_ref", "ac|geom|wing|S_ref", "m **2", unit⟩, ⟨s, "ac|weights|MTOW", "ac|weights|MTOW", "kg", "kg"⟩,
   ⟨s, "ac|aero|CLmax_TO", "ac|aero|CLmax_TO", "", ""⟩]

/-- the take-off: V1 is that of the solver, the ranges join, and the solver compares the two distances -/
def takeoffLinks (ode : Bool) : List Link :=
  acLinks "v0v1" "m **2" ++ acLinks "v1vr" "m **2" ++ acLinks "v1v0" "m **2" ++ acLinks "engineoutclimb" "m**2" ++
  [⟨"v0v1", "takeoff|v1", "takeoff|v1", "m/s", "m/s"⟩, ⟨"v0v1", "range_final", "v0v1.range_final", "m", "m"⟩,
   ⟨"v1vr", "fltcond|Utrue_initial", "takeoff|v1", "m/s", "m/s"⟩, ⟨"v1vr", "range_initial", "v0v1.range_final", "m", "m"⟩,
   ⟨"v1vr", "takeoff|vr", "v1vr.takeoff|vr", "m/s ", "m/s "⟩, ⟨"v1vr", "range_final", "v1vr.range_final", "m", "m"⟩,
   ⟨"rotate", "range_initial", "v1vr.range_final", "m", "m"⟩, ⟨"rotate", "range_final", "rotate.range_final", "m", "m"⟩,
   ⟨"rotate", "fltcond|h_final", "rotate.fltcond|h_final", "m", "m"⟩,
   ⟨"v1v0", "takeoff|v1", "takeoff|v1", "m/s", "m/s"⟩, ⟨"v1v0", "range_initial", "v0v1.range_final", "m", "m"⟩,
   ⟨"v1v0", "range_final", "v1v0.range_final", "m", "m"⟩,
   ⟨"bfl", "distance_continue", "rotate.range_final", "m", "m"⟩, ⟨"bfl", "distance_abort", "v1v0.range_final", "m", "m"⟩,
   ⟨"bfl", "takeoff|vr", "v1vr.takeoff|vr", "m/s ", "m/s"⟩, ⟨"bfl", "takeoff|v1", "takeoff|v1", "m/s", "m/s"⟩,
   ⟨"climb", "ode_integ_phase.range_initial", "rotate.range_final", "m", "m"⟩,
   ⟨"climb", "ode_integ_phase.fltcond|h_initial", "rotate.fltcond|h_final", "m", "m"⟩] ++
  if ode then
    [⟨"rotate", "ac|geom|wing|S_ref", "ac|geom|wing|S_ref", "m **2", "m **2"⟩,
     ⟨"rotate", "ac|aero|CLmax_TO", "ac|aero|CLmax_TO", "", ""⟩,
     ⟨"v1vr", "fltcond|Utrue_final", "v1vr.fltcond|Utrue_final", "m/s", "m/s"⟩,
     ⟨"rotate", "fltcond|Utrue_initial", "v1vr.fltcond|Utrue_final", "m/s", "m/s"⟩]
  else acLinks "rotate" "m**2"

/-- final values of a steady phase, and its initial values: those of another one -/
def stepLinks (a b : String) (h : Bool) : List Link :=
  [⟨b, "ode_integ_phase.range_initial", a ++ ".ode_integ_phase.range_final", "m", "m"⟩] ++
  if h then [⟨b, "ode_integ_phase.fltcond|h_initial", a ++ ".ode_integ_phase.fltcond|h_final", "m", "m"⟩] else []

def finalLinks (a : String) : List Link :=
  [⟨a, "ode_integ_phase.fltcond|h_final", a ++ ".ode_integ_phase.fltcond|h_final", "m", "m"⟩,
   ⟨a, "ode_integ_phase.range_final", a ++ ".ode_integ_phase.range_final", "m", "m"⟩]

/-- climb, cruise and descent: their targets are the mission parameters -/
def flightLinks : List Link :=
  finalLinks "climb" ++ finalLinks "cruise" ++ finalLinks "descent" ++ stepLinks "climb" "cruise" true ++
  stepLinks "cruise" "descent" true ++
  [⟨"climb", "climbdt.cruise|h0", "cruise|h0", "ft", "m"⟩, ⟨"cruise", "cruisedt.mission_range", "mission_range", "NM", "km"⟩,
   ⟨"cruise", "cruisedt.range_final", "descent.ode_integ_phase.range_final", "m", "km"⟩,
   ⟨"descent", "descentdt.takeoff|h", "takeoff|h", "ft", "m"⟩]

/-- the reserve -/
def reserveLinks : List Link :=
  finalLinks "reserve_climb" ++ finalLinks "reserve_cruise" ++ finalLinks "reserve_descent" ++
  stepLinks "descent" "reserve_climb" false ++ stepLinks "reserve_climb" "reserve_cruise" true ++
  stepLinks "reserve_cruise" "reserve_descent" true ++ stepLinks "reserve_descent" "loiter" false ++
  [⟨"reserve_climb", "reserve_climbdt.reserve|h0", "reserve|h0", "ft", "m"⟩,
   ⟨"reserve_cruise", "reserve_cruisedt.reserve_range", "reserve_range", "NM", "m"⟩,
   ⟨"reserve_cruise", "reserve_cruisedt.range_final", "resrange.reserverange", "NM", "m"⟩,
   ⟨"reserve_descent", "reserve_descentdt.takeoff|h", "takeoff|h", "ft", "m"⟩,
   ⟨"resrange", "rangeo", "descent.ode_integ_phase.range_final", "m", "NM"⟩,
   ⟨"resrange", "rangef", "reserve_descent.ode_integ_phase.range_final", "m", "NM"⟩,
   ⟨"resrange", "reserverange", "resrange.reserverange", "NM", "NM"⟩,
   ⟨"loiter", "ode_integ_phase.fltcond|h_initial", "loiter|h0", "ft", "m"⟩, ⟨"loiter", "duration_in", "loiter_duration", "s", "s"⟩]

/-- a ground roll before the climb of `BasicMission` -/
def rollLinks : List Link :=
  acLinks "groundroll" "m **2" ++
  [⟨"groundroll", "takeoff|v1", "takeoff|v2", "kn", "m/s"⟩, ⟨"groundroll", "range_final", "groundroll.range_final", "m", "m"⟩,
   ⟨"climb", "ode_integ_phase.range_initial", "groundroll.range_final", "m", "m"⟩]

def missionLinks (k : Phases.MissionKind) (ode : Bool) : List Link :=
  (if k.includeTakeoff then takeoffLinks ode else []) ++
  (if !k.includeTakeoff && !k.includeReserve then [⟨"climb", "ode_integ_phase.fltcond|h_initial", "takeoff|h", "ft", "m"⟩] else []) ++
  (if !k.includeTakeoff && !k.includeReserve && k.groundRoll then rollLinks else []) ++ flightLinks ++
  if k.includeReserve then reserveLinks else []

theorem missionGrp_roll (t r g ode : Bool) (h : (t || r) = true) : missionGrp ⟨t, r, g⟩ ode = missionGrp ⟨t, r, false⟩ ode := by
  cases t <;> cases r <;> cases g <;> first | rfl | simp at h

theorem missionGrp_ode (r g ode : Bool) : missionGrp ⟨false, r, g⟩ ode = missionGrp ⟨false, r, g⟩ false := rfl

/-- the seven missions: the ground roll is only an option without take-off and reserve, the transition method only with take-off -/
theorem by_config {P : Phases.MissionKind → Bool → Prop}
    (hg : ∀ t r g ode, (t || r) = true → P ⟨t, r, false⟩ ode → P ⟨t, r, g⟩ ode)
    (ho : ∀ r g ode, P ⟨false, r, g⟩ false → P ⟨false, r, g⟩ ode)
    (h1 : P ⟨true, true, false⟩ true) (h2 : P ⟨true, true, false⟩ false) (h3 : P ⟨true, false, false⟩ true)
    (h4 : P ⟨true, false, false⟩ false) (h5 : P ⟨false, true, false⟩ false) (h6 : P ⟨false, false, true⟩ false)
    (h7 : P ⟨false, false, false⟩ false) (k : Phases.MissionKind) (ode : Bool) : P k ode := by
  rcases k with ⟨t, r, g⟩
  cases t
  · refine ho _ _ _ ?_
    cases r
    · cases g
      · exact h7
      · exact h6
    · exact hg _ _ _ _ rfl h5
  · refine hg _ _ _ _ rfl ?_
    cases r <;> cases ode
    · exact h4
    · exact h3
    · exact h2
    · exact h1

theorem missionLinks_roll (t r g ode : Bool) (h : (t || r) = true) : missionLinks ⟨t, r, g⟩ ode = missionLinks ⟨t, r, false⟩ ode := by
  cases t <;> cases r <;> cases g <;> first | rfl | simp at h

theorem missionLinks_ode (r g ode : Bool) : missionLinks ⟨false, r, g⟩ ode = missionLinks ⟨false, r, g⟩ false := rfl

set_option maxRecDepth 4000 in
/-- the connections of the missions, with the units of source and target -/
theorem mission_links (k : Phases.MissionKind) (ode : Bool) : ∀ l ∈ missionLinks k ode,
    (missionGrp k ode).links.find? (fun c => c.sub == l.sub && c.var == l.var) = some l := by
  have : ((missionLinks k ode).all fun l =>
      decide ((missionGrp k ode).links.find? (fun c => c.sub == l.sub && c.var == l.var) = some l)) = true := by
    revert ode
    revert k
    refine by_config ?_ ?_ ?_ ?_ ?_ ?_ ?_ ?_ ?_
    · intro t r g ode h
      rw [missionGrp_roll t r g ode h, missionLinks_roll t r g ode h]
      exact id
    · intro r g ode
      rw [missionGrp_ode r g ode, missionLinks_ode r g ode]
      exact id
    all_goals decide +kernel
  intro l hl
  exact of_decide_eq_true (List.all_eq_true.1 this l hl)

theorem look_find (e : String → ℝ) {s x : String} {c : Link} :
    ∀ {l : List Link}, l.find? (fun k => k.sub == s && k.var == x) = some c → look e s x l = conv c.unit c.want (e c.src)
  | [], h => by simp at h
  | k :: l, h => by
    rw [List.find?_cons] at h
    rw [look]
    by_cases hk : k.sub = s ∧ k.var = x
    · rw [if_pos hk]
      simp only [hk.1, hk.2, BEq.rfl, Bool.and_self] at h
      rw [Option.some.inj h]
    · rw [if_neg hk]
      have : (k.sub == s && k.var == x) = false := by simpa [Bool.and_eq_true] using fun h1 h2 => hk ⟨h1, h2⟩
      rw [this] at h
      exact look_find e h

/-- a variable of a component or phase is found as the table says -/
theorem mission_view {k : Phases.MissionKind} {ode : Bool} {l : Link} (hl : l ∈ missionLinks k ode) (e : String → ℝ) :
    (missionGrp k ode).view e l.sub l.var = conv l.unit l.want (e l.src) := look_find e (mission_links k ode l hl)

/-- every link belongs to a variable of a subsystem -/
theorem links_mem {g : Grp} {l : Link} (h : l ∈ g.links) : ∃ s ∈ g.subs, s.name = l.sub ∧ ∃ v ∈ s.sys.ins ++ s.sys.outs,
    v.name = l.var := by
  simp only [Grp.links, List.mem_flatMap, List.mem_append, List.mem_map] at h
  obtain ⟨s, hs, ⟨v, hv, rfl⟩ | ⟨v, hv, rfl⟩⟩ := h
  · exact ⟨s, hs, rfl, v, List.mem_append_right _ hv, rfl⟩
  · exact ⟨s, hs, rfl, v, List.mem_append_left _ hv, rfl⟩

section
variable {k : Phases.MissionKind} {ode : Bool} {ac : Craft m} {ac1 : Craft 0} {o : Opts} {E : String → Fin (m + 1) → ℝ}
  {F : String → String → Fin (m + 1) → ℝ}

/-- a connected variable of a phase -/
theorem MissionRel.at_ (h : MissionRel k ode ac ac1 o E F) {l : Link} (hl : l ∈ missionLinks k ode)
    (hp : l.sub ∈ (missionPhases k ode ac ac1 o).map Prod.fst) (a : Fin (m + 1)) :
    F l.sub l.var a = conv l.unit l.want (E l.src a) := by
  obtain ⟨s, hs, hn, v, hv, hx⟩ := links_mem (List.mem_of_find?_eq_some (mission_links k ode l hl))
  have := h.face s hs (by rw [hn]; exact hp) v hv
  rw [hn, hx] at this
  rw [this]
  exact mission_view hl _

theorem leg_mem {l : Leg} (hl : l ∈ legsOf k) : (l.name, (leg ac l).Rel o) ∈ missionPhases k ode ac ac1 o :=
  List.mem_append_right _ (List.mem_map_of_mem hl)

/-- a steady phase -/
theorem MissionRel.leg (h : MissionRel k ode ac ac1 o E F) {l : Leg} (hl : l ∈ legsOf k) : SteadyPhase ac l (F l.name) :=
  C115_steady ac l o _ (h.phase _ (leg_mem hl))

/-- a connected variable of a steady phase -/
theorem MissionRel.atLeg (h : MissionRel k ode ac ac1 o E F) (l : Leg) (hl : l ∈ legsOf k) (x src u w : String)
    (hm : (⟨l.name, x, src, u, w⟩ : Link) ∈ missionLinks k ode) : F l.name x 0 = conv u w (E src 0) :=
  h.at_ hm (List.mem_map_of_mem (leg_mem hl)) 0

/-! ### C116: the mission -/

/-- the mission parameters in SI units -/
noncomputable def paramsOf (E : String → Fin (m + 1) → ℝ) : Phases.MissionParams where
  takeoffH := E "takeoff|h" 0 * 0.3048
  cruiseH0 := E "cruise|h0" 0 * 0.3048
  missionRange := E "mission_range" 0 * 1852
  reserveRange := E "reserve_range" 0 * 1852
  reserveH0 := E "reserve|h0" 0 * 0.3048
  loiterH0 := E "loiter|h0" 0 * 0.3048
  loiterDuration := E "loiter_duration" 0

/-- the phases of the mission; those that its class does not have are not constrained by anything -/
def missionOf (k : Phases.MissionKind) (F : String → String → Fin (m + 1) → ℝ) : Phases.Mission m where
  prevRangeFinal := F (if k.includeTakeoff then "rotate" else "groundroll") "range_final" 0
  prevHFinal := F "rotate" "fltcond|h_final" 0
  climb := steadyOf (F "climb")
  cruise := steadyOf (F "cruise")
  descent := steadyOf (F "descent")
  reserveClimb := steadyOf (F "reserve_climb")
  reserveCruise := steadyOf (F "reserve_cruise")
  reserveDescent := steadyOf (F "reserve_descent")
  loiter := steadyOf (F "loiter")

end
end Verif.Wiring
