import Verif.Props.Phases

/-! Properties C31 (mission bookkeeping) and C77 (backward shooting of the rejected take-off). -/

namespace Verif.Phases

open Integrals Matrix

/-! ### C77 -/

/-- the cumulative Simpson sums of a sequence -/
noncomputable def simpsonSeq (r : ℕ → ℝ) (n : ℕ) : ℝ :=
  ∑ i ∈ Finset.range n,
    if i % 2 = 0 then 5 / 12 * r i + 8 / 12 * r (i + 1) - 1 / 12 * r (i + 2)
    else -1 / 12 * r (i - 1) + 8 / 12 * r i + 5 / 12 * r (i + 1)

theorem simpsonSeq_odd (r : ℕ → ℝ) (k : ℕ) : simpsonSeq r (2 * k + 1) = simpsonSeq r (2 * k) +
    (5 / 12 * r (2 * k) + 8 / 12 * r (2 * k + 1) - 1 / 12 * r (2 * k + 2)) := by
  unfold simpsonSeq
  rw [Finset.sum_range_succ, if_pos (by omega)]

theorem simpsonSeq_even (r : ℕ → ℝ) (k : ℕ) : simpsonSeq r (2 * k + 2) = simpsonSeq r (2 * k + 1) +
    (-1 / 12 * r (2 * k) + 8 / 12 * r (2 * k + 1) + 5 / 12 * r (2 * k + 2)) := by
  unfold simpsonSeq
  rw [Finset.sum_range_succ, if_neg (by omega)]
  simp

theorem simpsonTri_seq {m : ℕ} (hm : m % 2 = 0) (r : ℕ → ℝ) (a : Fin (m + 1)) :
    (simpsonTri m *ᵥ fun b : Fin (m + 1) => r b) a = simpsonSeq r a :=
  simpsonTri_eq hm (simpsonSeq r) r (by simp [simpsonSeq])
    (by intro k _; rw [simpsonSeq_odd]; ring) (by intro k _; rw [simpsonSeq_even]; ring) a

/-- reversed and negated data give the reversed sums, counted from the end -/
theorem simpsonTri_rev {m : ℕ} (hm : m % 2 = 0) (r : ℕ → ℝ) (a : Fin (m + 1)) :
    (simpsonTri m *ᵥ fun b : Fin (m + 1) => -r (m - b)) a = simpsonSeq r (m - a) - simpsonSeq r m := by
  refine simpsonTri_eq hm (fun n => simpsonSeq r (m - n) - simpsonSeq r m) (fun n => -r (m - n)) (by simp) ?_ ?_ a
  · intro k hk
    have h := simpsonSeq_even r (m / 2 - k - 1)
    have e0 : m - (2 * k) = 2 * (m / 2 - k - 1) + 2 := by omega
    have e1 : m - (2 * k + 1) = 2 * (m / 2 - k - 1) + 1 := by omega
    have e2 : m - (2 * k + 2) = 2 * (m / 2 - k - 1) := by omega
    simp only [e0, e1, e2]
    rw [h]; ring
  · intro k hk
    have h := simpsonSeq_odd r (m / 2 - k - 1)
    have e0 : m - (2 * k) = 2 * (m / 2 - k - 1) + 2 := by omega
    have e1 : m - (2 * k + 1) = 2 * (m / 2 - k - 1) + 1 := by omega
    have e2 : m - (2 * k + 2) = 2 * (m / 2 - k - 1) := by omega
    simp only [e0, e1, e2]
    rw [h]; ring

/-- C77.  Backward shooting is forward integration: if the duration balance has converged (the reversed
integration ends at V1), the velocities at all nodes are those obtained by integrating the
accelerations forward in time from V1, they start at V1 and end at `zero_speed`. -/
theorem C77_backward_is_forward {m : ℕ} {M : Matrix (Fin (m + 1)) (Fin (m + 1)) ℝ}
    (hM : methodMatrix .simpson m = some M) (zeroSpeed duration v1 : ℝ) (accel : Fin (m + 1) → ℝ)
    (hconv : brakingInitial M zeroSpeed duration accel = v1) :
    (∀ a, brakingVelocity M zeroSpeed duration accel a = integratorCompute M v1 (.duration duration) accel a) ∧
    brakingVelocity M zeroSpeed duration accel 0 = v1 ∧
    brakingVelocity M zeroSpeed duration accel (Fin.last m) = zeroSpeed := by
  obtain ⟨hm, rfl⟩ := methodMatrix_simpson.1 hM
  have hflip : flip true accel = fun b : Fin (m + 1) => -(ext0 accel) (m - b) := by
    funext b
    have : (ext0 accel) (m - b) = accel b.rev := by
      rw [← ext0_fin accel b.rev, Fin.val_rev]; congr 1; omega
    rw [this]; simp [flip, flipScaler]
  have hbw : ∀ a, integratorCompute (simpsonTri m) zeroSpeed (.duration duration) (flip true accel) a =
      duration / m * (simpsonSeq (ext0 accel) (m - a) - simpsonSeq (ext0 accel) m) + zeroSpeed := by
    intro a
    rw [integratorCompute_eq, hflip, simpsonTri_rev hm]
    simp only [TimeInput.step]; ring
  have hfw : ∀ a, integratorCompute (simpsonTri m) v1 (.duration duration) accel a =
      duration / m * simpsonSeq (ext0 accel) a + v1 := by
    intro a
    have := simpsonTri_seq hm (ext0 accel) a
    rw [ext0_eq] at this
    rw [integratorCompute_eq, this]
    simp only [TimeInput.step]; ring
  have hc : duration / m * (0 - simpsonSeq (ext0 accel) m) + zeroSpeed = v1 := by
    have := hbw (Fin.last m)
    rw [← hconv, brakingInitial, integratorFinal, this, Fin.val_last, Nat.sub_self]
    simp [simpsonSeq]
  have key : ∀ a, brakingVelocity (simpsonTri m) zeroSpeed duration accel a =
      integratorCompute (simpsonTri m) v1 (.duration duration) accel a := by
    intro a
    have : brakingVelocity (simpsonTri m) zeroSpeed duration accel a =
      integratorCompute (simpsonTri m) zeroSpeed (.duration duration) (flip true accel) a.rev := by
      simp [brakingVelocity, flip, flipScaler]
    rw [this, hbw, hfw, Fin.val_rev]
    have e : m - (m + 1 - (↑a + 1)) = (a : ℕ) := by omega
    rw [e]
    linear_combination hc
  refine ⟨key, ?_, ?_⟩
  · rw [key, C03_first_node hM]
  · rw [key, hfw, Fin.val_last]
    linear_combination -hc

/-- constant deceleration 3 m/s² for 10 s from 32 m/s, on 3 nodes -/
example : ∃ M, methodMatrix (K := ℝ) .simpson 2 = some M ∧
    brakingInitial M 2 10 (fun _ => -3) = 32 := by
  refine ⟨simpsonTri 2, methodMatrix_simpson.2 ⟨rfl, rfl⟩, ?_⟩
  have h := simpsonTri_seq (m := 2) rfl (fun _ => 3) (Fin.last 2)
  rw [brakingInitial, integratorFinal, integratorCompute_eq]
  have e : flip true (fun _ : Fin 3 => (-3 : ℝ)) = fun b : Fin 3 => (fun _ => 3 : ℕ → ℝ) b := by
    funext b; simp [flip, flipScaler]
  rw [e, h]
  simp [TimeInput.step, simpsonSeq, Finset.sum_range_succ]
  norm_num

/-! ### C31 -/

variable {m : ℕ}

/-- distance flown in a phase: Simpson integral of the ground speed -/
noncomputable def Steady.distance (p : Steady m) : ℝ :=
  integratorFinal (simpsonTri m) 0 (.duration p.duration) p.gs

/-- height gained in a phase: Simpson integral of the vertical speed -/
noncomputable def Steady.gain (p : Steady m) : ℝ :=
  integratorFinal (simpsonTri m) 0 (.duration p.duration) p.vs

theorem rangeFinal_eq (p : Steady m) : p.rangeFinal = p.rangeInitial + p.distance := by
  unfold Steady.rangeFinal Steady.range Steady.distance integratorFinal
  rw [integratorCompute_eq, integratorCompute_eq]; ring

theorem hFinal_eq (p : Steady m) : p.hFinal = p.hInitial + p.gain := by
  unfold Steady.hFinal Steady.h Steady.gain integratorFinal
  rw [integratorCompute_eq, integratorCompute_eq]; ring

/-- C31.  In a converged mission of any kind the distances flown in climb, cruise and descent, added to the
range at the start of the climb, make up the requested mission range. -/
theorem C31_mission_range {k : MissionKind} {P : MissionParams} {M : Mission m} (h : Converged k P M) :
    M.climb.rangeInitial + (M.climb.distance + M.cruise.distance + M.descent.distance) = P.missionRange := by
  have h1 := h.linkCruise.1
  have h2 := h.linkDescent.1
  have h3 := h.cruiseBalance
  rw [rangeFinal_eq] at h1 h2 h3
  linarith

/-- C31.  The reserve segment flies exactly the reserve range. -/
theorem C31_reserve_range {k : MissionKind} {P : MissionParams} {M : Mission m} (h : Converged k P M)
    (hk : k.includeReserve = true) :
    M.reserveClimb.distance + M.reserveCruise.distance + M.reserveDescent.distance = P.reserveRange := by
  have h1 := (h.linkReserveClimb hk).1
  have h2 := (h.linkReserveCruise hk).1
  have h3 := (h.linkReserveDescent hk).1
  have h4 := h.reserveCruiseBalance hk
  rw [rangeFinal_eq M.reserveDescent] at h4
  rw [rangeFinal_eq] at h2 h3
  linarith

/-- C31.  Target altitudes: the climb ends and the cruise starts at the cruise altitude, descents end at the
take-off altitude, the reserve cruise starts at the reserve altitude, the loiter at the loiter altitude. -/
theorem C31_altitudes {k : MissionKind} {P : MissionParams} {M : Mission m} {T : Matrix (Fin (m + 1)) (Fin (m + 1)) ℝ}
    (hT : methodMatrix .simpson m = some T) (h : Converged k P M) :
    M.climb.h (Fin.last m) = P.cruiseH0 ∧ M.cruise.h 0 = P.cruiseH0 ∧ M.descent.h (Fin.last m) = P.takeoffH ∧
    (k.includeReserve = true → M.reserveClimb.h (Fin.last m) = P.reserveH0 ∧ M.reserveCruise.h 0 = P.reserveH0 ∧
      M.reserveDescent.h (Fin.last m) = P.takeoffH ∧ M.loiter.h 0 = P.loiterH0) := by
  obtain ⟨hm, rfl⟩ := methodMatrix_simpson.1 hT
  have first : ∀ p : Steady m, p.h 0 = p.hInitial := fun p => C03_first_node hT _ _ _
  refine ⟨h.climbBalance, ?_, h.descentBalance, fun hk => ⟨h.reserveClimbBalance hk, ?_,
    h.reserveDescentBalance hk, ?_⟩⟩
  · rw [first, h.linkCruise.2 rfl]; exact h.climbBalance
  · rw [first, (h.linkReserveCruise hk).2 rfl]; exact h.reserveClimbBalance hk
  · rw [first]; exact h.loiterStart hk

theorem gain_const {T : Matrix (Fin (m + 1)) (Fin (m + 1)) ℝ} (hT : methodMatrix .simpson m = some T) (hm0 : m ≠ 0)
    (d c : ℝ) : integratorFinal (simpsonTri m) 0 (.duration d) (fun _ => c) = d * c := by
  obtain ⟨hm, rfl⟩ := methodMatrix_simpson.1 hT
  rw [integratorFinal, integratorCompute_eq]
  have := mulVec_ones hT (Fin.last m)
  have e : (fun _ : Fin (m + 1) => c) = c • (fun _ : Fin (m + 1) => (1 : ℝ)) := by funext b; simp
  rw [e, Matrix.mulVec_smul, Pi.smul_apply, this]
  simp only [TimeInput.step, Fin.val_last, smul_eq_mul]
  have : (m : ℝ) ≠ 0 := by exact_mod_cast hm0
  field_simp
  ring

/-- C31.  With constant vertical speeds the converged durations are the elementary ones: climb duration times
rate of climb is the altitude difference; with zero vertical speed in cruise the descent starts at
the cruise altitude. -/
theorem C31_constant_rate {k : MissionKind} {P : MissionParams} {M : Mission m} {T : Matrix (Fin (m + 1)) (Fin (m + 1)) ℝ}
    (hT : methodMatrix .simpson m = some T) (hm0 : m ≠ 0) (h : Converged k P M) (c d : ℝ)
    (hc : M.climb.vs = fun _ => c) (hcr : M.cruise.vs = fun _ => 0) (hd : M.descent.vs = fun _ => d) :
    M.climb.duration * c = P.cruiseH0 - M.climb.hInitial ∧
    M.descent.duration * d = P.takeoffH - P.cruiseH0 := by
  have hm := (methodMatrix_simpson.1 hT).1
  have h1 := h.climbBalance
  have h2 := h.descentBalance
  have l1 := h.linkCruise.2 rfl
  have l2 := h.linkDescent.2 rfl
  rw [hFinal_eq, Steady.gain, hc, gain_const hT hm0] at h1
  rw [hFinal_eq, Steady.gain, hd, gain_const hT hm0] at h2
  rw [hFinal_eq M.cruise, Steady.gain, hcr, gain_const hT hm0] at l2
  rw [h.climbBalance] at l1
  constructor <;> linarith

/-- C31.  The loiter lasts exactly the requested time. -/
theorem C31_loiter {k : MissionKind} {P : MissionParams} {M : Mission m} (h : Converged k P M)
    (hk : k.includeReserve = true) : M.loiter.duration = P.loiterDuration := by
  rw [h.loiterDuration hk]; simp [Utils.dvLabel]

/-- C31.  BasicMission starts its climb at the take-off altitude. -/
theorem C31_basic_start {g : Bool} {P : MissionParams} {M : Mission m} (h : Converged (.basic g) P M) :
    M.climb.hInitial = P.takeoffH := h.climbStartBasic rfl rfl

/-- C31.  The altitude profile of a converged mission is continuous from climb to descent. -/
theorem C31_continuous {k : MissionKind} {P : MissionParams} {M : Mission m} {T : Matrix (Fin (m + 1)) (Fin (m + 1)) ℝ}
    (hT : methodMatrix .simpson m = some T) (h : Converged k P M) :
    M.cruise.h 0 = M.climb.h (Fin.last m) ∧ M.descent.h 0 = M.cruise.h (Fin.last m) ∧
    M.cruise.range 0 = M.climb.range (Fin.last m) ∧ M.descent.range 0 = M.cruise.range (Fin.last m) := by
  obtain ⟨hm, rfl⟩ := methodMatrix_simpson.1 hT
  have f1 : ∀ p : Steady m, p.h 0 = p.hInitial := fun p => C03_first_node hT _ _ _
  have f2 : ∀ p : Steady m, p.range 0 = p.rangeInitial := fun p => C03_first_node hT _ _ _
  rw [f1, f1, f2, f2]
  exact ⟨h.linkCruise.2 rfl, h.linkDescent.2 rfl, h.linkCruise.1, h.linkDescent.1⟩

/-! A converged mission with reserves on 3 nodes. -/

/-- 100 m/s air speed, the given vertical speed, start values and duration -/
def demoPhase (d h r vs : ℝ) (u : ℝ) : Steady 2 := ⟨d, h, r, fun _ => vs, fun _ => u⟩

theorem demo_gs (d h r vs u g : ℝ) (hg : 0 ≤ g) (hv : u ^ 2 - vs ^ 2 = g ^ 2) :
    (demoPhase d h r vs u).gs = fun _ => g := by
  funext a
  show groundspeed ⟨vs, u⟩ = g
  have : ¬ (GsIn.inside ⟨vs, u⟩ < 0) := by simp only [GsIn.inside, hv]; nlinarith [sq_nonneg g]
  rw [groundspeed, if_neg this]
  simp only [GsIn.inside, hv, Real.sqrt_sq hg]

theorem demo_range (d h r vs u g : ℝ) (hg : 0 ≤ g) (hv : u ^ 2 - vs ^ 2 = g ^ 2) :
    (demoPhase d h r vs u).rangeFinal = r + d * g := by
  rw [rangeFinal_eq, Steady.distance, demo_gs d h r vs u g hg hv,
    gain_const (T := simpsonTri 2) (methodMatrix_simpson.2 ⟨rfl, rfl⟩) (by norm_num)]
  rfl

theorem demo_h (d h r vs u : ℝ) : (demoPhase d h r vs u).hFinal = h + d * vs := by
  rw [hFinal_eq, Steady.gain]
  show h + integratorFinal (simpsonTri 2) 0 (.duration d) (fun _ => vs) = _
  rw [gain_const (T := simpsonTri 2) (methodMatrix_simpson.2 ⟨rfl, rfl⟩) (by norm_num)]

/-- take-off altitude 300 m, climb at 3 m/s, speed 5 m/s, 4 m/s over ground; the climb starts at altitude
`h0` -/
noncomputable def demoMission (h0 : ℝ) : Mission 2 where
  prevRangeFinal := 0
  prevHFinal := 0
  climb := demoPhase ((3000 - h0) / 3) h0 0 3 5
  cruise := demoPhase (2000 - (3000 - h0) / 3) 3000 ((3000 - h0) / 3 * 4) 0 4
  descent := demoPhase 900 3000 8000 (-3) 5
  reserveClimb := demoPhase 500 0 11600 3 5
  reserveCruise := demoPhase 100 1500 13600 0 4
  reserveDescent := demoPhase 400 1500 14000 (-3) 5
  loiter := demoPhase 1800 400 15600 0 4

noncomputable def demoParams : MissionParams := ⟨300, 3000, 11600, 4000, 1500, 400, 1800⟩

theorem demo_converged (h0 : ℝ) : Converged .withReserve demoParams (demoMission h0) := by
  have g3 : (5 : ℝ) ^ 2 - 3 ^ 2 = 4 ^ 2 := by norm_num
  have g3' : (5 : ℝ) ^ 2 - (-3) ^ 2 = 4 ^ 2 := by norm_num
  have g0 : (4 : ℝ) ^ 2 - 0 ^ 2 = 4 ^ 2 := by norm_num
  have p4 : (0 : ℝ) ≤ 4 := by norm_num
  constructor
  · intro h; cases h
  · intro _ h; cases h
  · intro _ h; cases h
  · show (demoPhase _ _ _ _ _).hFinal = _
    rw [demo_h]; show _ = (3000 : ℝ); ring
  · refine ⟨?_, fun _ => ?_⟩
    · show _ = (demoPhase _ _ _ _ _).rangeFinal
      rw [demo_range _ _ _ _ _ 4 p4 g3]; show (3000 - h0) / 3 * 4 = _; ring
    · show _ = (demoPhase _ _ _ _ _).hFinal
      rw [demo_h]; show (3000 : ℝ) = _; ring
  · refine ⟨?_, fun _ => ?_⟩
    · show _ = (demoPhase _ _ _ _ _).rangeFinal
      rw [demo_range _ _ _ _ _ 4 p4 g0]; show (8000 : ℝ) = _; ring
    · show _ = (demoPhase _ _ _ _ _).hFinal
      rw [demo_h]; show (3000 : ℝ) = _; ring
  · show (demoPhase _ _ _ _ _).rangeFinal = _
    rw [demo_range _ _ _ _ _ 4 p4 g3']; show _ = (11600 : ℝ); ring
  · show (demoPhase _ _ _ _ _).hFinal = _
    rw [demo_h]; show _ = (300 : ℝ); ring
  · refine fun _ => ⟨?_, fun h => by cases h⟩
    show _ = (demoPhase _ _ _ _ _).rangeFinal
    rw [demo_range _ _ _ _ _ 4 p4 g3']; show (11600 : ℝ) = _; ring
  · refine fun _ => ⟨?_, fun _ => ?_⟩
    · show _ = (demoPhase _ _ _ _ _).rangeFinal
      rw [demo_range _ _ _ _ _ 4 p4 g3]; show (13600 : ℝ) = _; ring
    · show _ = (demoPhase _ _ _ _ _).hFinal
      rw [demo_h]; show (1500 : ℝ) = _; ring
  · refine fun _ => ⟨?_, fun _ => ?_⟩
    · show _ = (demoPhase _ _ _ _ _).rangeFinal
      rw [demo_range _ _ _ _ _ 4 p4 g0]; show (14000 : ℝ) = _; ring
    · show _ = (demoPhase _ _ _ _ _).hFinal
      rw [demo_h]; show (1500 : ℝ) = _; ring
  · refine fun _ => ⟨?_, fun h => by cases h⟩
    show _ = (demoPhase _ _ _ _ _).rangeFinal
    rw [demo_range _ _ _ _ _ 4 p4 g3']; show (15600 : ℝ) = _; ring
  · intro _; show (demoPhase _ _ _ _ _).hFinal = _
    rw [demo_h]; show _ = (1500 : ℝ); ring
  · intro _; show (demoPhase _ _ _ _ _).rangeFinal - (demoPhase _ _ _ _ _).rangeFinal = _
    rw [demo_range _ _ _ _ _ 4 p4 g3', demo_range _ _ _ _ _ 4 p4 g3']; show _ = (4000 : ℝ); ring
  · intro _; show (demoPhase _ _ _ _ _).hFinal = _
    rw [demo_h]; show _ = (300 : ℝ); ring
  · intro _; rfl
  · intro _; simp [Utils.dvLabel, demoMission, demoPhase, demoParams]

example : (demoMission 300).climb.rangeInitial = 0 ∧ (demoMission 300).climb.distance = 3600 := by
  refine ⟨rfl, ?_⟩
  have := rangeFinal_eq (demoMission 300).climb
  have h2 : (demoMission 300).climb.rangeFinal = 0 + (3000 - 300) / 3 * 4 :=
    demo_range _ _ _ _ _ 4 (by norm_num) (by norm_num)
  have h3 : (demoMission 300).climb.rangeInitial = 0 := rfl
  rw [h2, h3] at this
  linarith

/-- C31.  In MissionWithReserve the take-off altitude does not determine where the climb and the reserve climb
start: those inputs are not connected (default 0), so that converged missions exist which start
their climb and reserve climb elsewhere than at the take-off altitude where the descents end. -/
theorem C31_reserve_start_ignored : ∃ (P : MissionParams) (M : Mission 2), Converged .withReserve P M ∧
    M.climb.hInitial = 0 ∧ M.reserveClimb.hInitial = 0 ∧ P.takeoffH = 300 ∧ M.descent.hFinal = 300 :=
  ⟨demoParams, demoMission 0, demo_converged 0, rfl, rfl, rfl, (demo_converged 0).descentBalance⟩

end Verif.Phases
