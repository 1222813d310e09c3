import Verif.Props.WiringProfiles2
import Verif.Props.WiringPhases2

namespace Verif.Wiring

open Verif.Units
open Verif.Bfl (Craft Seg AcIn AcOut)

variable {m : ℕ}

/-! ### C116: setup -/

set_option maxRecDepth 4000 in
/-- **C116** (setup).  Every mission can be set up: every connection is between existing variables of compatible units and shapes, no
variable is computed twice and all promoted inputs agree. -/
theorem C116_setup (k : Phases.MissionKind) (ode : Bool) : (missionGrp k ode).problems = [] := by
  revert ode
  revert k
  refine by_config ?_ ?_ (by decide +kernel) (by decide +kernel) (by decide +kernel) (by decide +kernel) (by decide +kernel)
    (by decide +kernel) (by decide +kernel)
  · intro t r g ode h
    rw [missionGrp_roll t r g ode h]
    exact id
  · intro r g ode
    rw [missionGrp_ode r g ode]
    exact id

/-- a phase is seen through its own inputs, and through outputs that it has -/
def Face (s : Sys) (g : Grp) : Prop := s.ins = g.ins ∧ ∀ v ∈ s.outs, v ∈ g.outs

/-- **C116** (interfaces).  The missions see the phases of C115 as they are. -/
theorem C116_faces : (∀ s, Face (groundFace s) (groundGrp s)) ∧ Face (rotateFace true) rotationGrp ∧ Face (rotateFace false) robustGrp ∧
    Face climbAngleFace (climbAngleGrp false).single ∧ ∀ l, Face (legFace l) (legGrp l) := by
  unfold Face
  refine ⟨fun s => ?_, ⟨by decide +kernel, by decide +kernel⟩, ⟨by decide +kernel, by decide +kernel⟩,
    ⟨by decide +kernel, by decide +kernel⟩, fun l => ?_⟩
  · cases s <;> exact ⟨by decide +kernel, by decide +kernel⟩
  · cases l <;> exact ⟨by decide +kernel, by decide +kernel⟩

set_option maxRecDepth 4000 in
/-- **C116** (linked phases).  What the calls of `link_phases` connect, by the algorithm of C24 applied to the integrators of the
phases: range and height of consecutive steady phases, except the height at the start of the reserve and of the loiter; nothing
in a take-off, whose states are skipped or have different names; and the range of a ground roll. -/
theorem C116_linked (k : Phases.MissionKind) (ode : Bool) :
    ∃ l, linkResult k ode = .ok l ∧ l = linkConns k := by
  have : (match linkResult k ode with | .ok l => decide (l = linkConns k) | .error _ => false) = true := by
    revert ode
    revert k
    refine by_config ?_ ?_ (by decide +kernel) (by decide +kernel) (by decide +kernel) (by decide +kernel) (by decide +kernel)
      (by decide +kernel) (by decide +kernel)
    · intro t r g ode h
      have e1 : linkResult ⟨t, r, g⟩ ode = linkResult ⟨t, r, false⟩ ode := by
        cases t <;> cases r <;> cases g <;> first | rfl | simp at h
      have e2 : linkConns ⟨t, r, g⟩ = linkConns ⟨t, r, false⟩ := by
        cases t <;> cases r <;> cases g <;> first | rfl | simp at h
      rw [e1, e2]
      exact id
    · intro r g ode
      rw [show linkResult ⟨false, r, g⟩ ode = linkResult ⟨false, r, g⟩ false from rfl]
      exact id
  split at this
  · rename_i l h
    exact ⟨l, h, of_decide_eq_true this⟩
  · exact absurd this (by decide)

/-- the inputs at which a phase starts -/
def initials : List String :=
  ["v1vr.fltcond|Utrue_initial", "v1vr.range_initial", "v1v0.range_initial", "rotate.fltcond|Utrue_initial", "rotate.range_initial",
   "rotate.h_initial"] ++
  ["climb", "cruise", "descent", "reserve_climb", "reserve_cruise", "reserve_descent", "loiter"].flatMap fun n =>
    [n ++ ".ode_integ_phase.fltcond|h_initial", n ++ ".ode_integ_phase.range_initial"]

/-- those that a mission leaves to the user -/
def openInitials (k : Phases.MissionKind) (ode : Bool) : List String :=
  (if k.includeTakeoff && !ode then ["rotate.h_initial"] else []) ++
  (if !k.includeTakeoff && k.includeReserve then ["climb.ode_integ_phase.fltcond|h_initial"] else []) ++
  (if !k.includeTakeoff && (k.includeReserve || !k.groundRoll) then ["climb.ode_integ_phase.range_initial"] else []) ++
  if k.includeReserve then ["reserve_climb.ode_integ_phase.fltcond|h_initial"] else []

set_option maxRecDepth 4000 in
/-- **C116** (open initial values).  Which phases do not start where another one ends or at a mission parameter: the simplified
rotation (height), the climb without take-off (range, and with reserves also the height, although there is a parameter `takeoff|h`),
and the reserve climb (height). -/
theorem C116_open (k : Phases.MissionKind) (ode : Bool) :
    ((missionGrp k ode).ins.map (·.name)).filter (initials.contains ·) = openInitials k ode := by
  revert ode
  revert k
  refine by_config ?_ ?_ (by decide +kernel) (by decide +kernel) (by decide +kernel) (by decide +kernel) (by decide +kernel)
    (by decide +kernel) (by decide +kernel)
  · intro t r g ode h
    have e : openInitials ⟨t, r, g⟩ ode = openInitials ⟨t, r, false⟩ ode := by
      cases t <;> cases r <;> cases g <;> first | rfl | simp at h
    rw [missionGrp_roll t r g ode h, e]
    exact id
  · intro r g ode
    rw [missionGrp_ode r g ode, show openInitials ⟨false, r, g⟩ ode = openInitials ⟨false, r, g⟩ false from rfl]
    exact id

set_option maxRecDepth 4000 in
theorem unused_links (k : Phases.MissionKind) (ode : Bool) (n : String) (hn : n = "takeoff|v0" ∨ n = "payload") :
    ∀ l ∈ (missionGrp k ode).links, l.src = n → l.sub = "missionparams" := by
  have : ∀ n ∈ ["takeoff|v0", "payload"], ∀ l ∈ (missionGrp k ode).links, l.src = n → l.sub = "missionparams" := by
    revert ode
    revert k
    refine by_config ?_ ?_ (by decide +kernel) (by decide +kernel) (by decide +kernel) (by decide +kernel) (by decide +kernel)
      (by decide +kernel) (by decide +kernel)
    · intro t r g ode h
      rw [missionGrp_roll t r g ode h]
      exact id
    · intro r g ode
      rw [missionGrp_ode r g ode]
      exact id
  exact this n (by rcases hn with rfl | rfl <;> decide)

theorem look_congr {e e' : String → ℝ} {s x : String} :
    ∀ {l : List Link}, (∀ k ∈ l, k.sub = s → e k.src = e' k.src) → look e s x l = look e' s x l
  | [], _ => rfl
  | k :: l, h => by
    rw [look, look]
    split_ifs with hk
    · rw [h k List.mem_cons_self hk.1]
    · exact look_congr fun c hc => h c (List.mem_cons_of_mem _ hc)

theorem phase_names (k : Phases.MissionKind) (ode : Bool) (ac : Craft m) (ac1 : Craft 0) (o : Opts) :
    "missionparams" ∉ (missionPhases k ode ac ac1 o).map Prod.fst := by
  rcases k with ⟨t, r, g⟩
  cases t <;> cases r <;> cases g <;> simp [missionPhases, legsOf, Leg.name]

/-- **C116** (parameters without effect).  The parameter `takeoff|v0` of `BasicMission` with a ground roll has no effect: whatever
its value, the same state of all phases is converged (the ground roll starts at 2 m/s by `C116_ground_roll`).  `payload` has none
either as long as the user connects nothing to it. -/
theorem C116_unused {k : Phases.MissionKind} {ode : Bool} {ac : Craft m} {ac1 : Craft 0} {o : Opts} {E : String → Fin (m + 1) → ℝ}
    {F : String → String → Fin (m + 1) → ℝ} (h : MissionRel k ode ac ac1 o E F) (n : String) (hn : n = "takeoff|v0" ∨ n = "payload")
    (x : ℝ) : MissionRel k ode ac ac1 o (fun v => if v = n then fun _ => x else E v) F := by
  have hv : ∀ (a : Fin (m + 1)) s, s ≠ "missionparams" →
      (missionGrp k ode).view (fun v => (if v = n then fun _ => x else E v) a) s = (missionGrp k ode).view (fun v => E v a) s := by
    intro a s hs
    funext y
    refine look_congr fun l hl h1 => ?_
    rw [if_neg fun h2 => hs (h1 ▸ unused_links k ode n hn l hl h2)]
  refine ⟨?_, ?_, h.phase, ?_⟩
  · intro v hv hs a
    by_cases e : v.name = n
    · simp [e]
    · simp only [if_neg e]
      exact h.scalar v hv hs a
  · intro a s hs
    by_cases e : s.name = "missionparams"
    · have : s = ⟨"missionparams", missionParams k, .only [], .all⟩ := by
        revert e
        revert hs s
        rcases k with ⟨t, r, g⟩
        cases t <;> cases r <;> cases g <;> simp [missionGrp, legSub, Leg.name, takeoffSubs]
      rw [this]
      trivial
    · have := h.node a s hs
      rw [← hv a s.name e] at this
      exact this
  · intro s hs hp v hm
    rw [h.face s hs hp v hm]
    funext a
    have e : s.name ≠ "missionparams" := fun e => phase_names k ode ac ac1 o (e ▸ hp)
    unfold Grp.seen
    rw [hv a s.name e]

end Verif.Wiring
