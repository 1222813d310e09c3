import Verif.Model.Takeoff
import Verif.Props.Missions
import Verif.Props.FltCond
import Verif.Props.Aero

/-! Properties C102 (converged balanced field length take-off) and C103 (speed margins over the stall at take-off). -/

namespace Verif.Bfl

open Integrals Phases Matrix
open Verif.Atmos (FltCond atmosTas atmosEas)
open Verif.Aero (vStall linspace)

variable {m : ℕ} {M : Matrix (Fin (m + 1)) (Fin (m + 1)) ℝ} {ac : Craft m} {d : Design} {v1 : ℝ} {s : Seg} {g : Ground m}

/-! ### C102 -/

/-- the speeds at which the three ground rolls are meant to start and end -/
noncomputable def Seg.from (v1 : ℝ) : Seg → ℝ
  | .v0v1 => 2
  | .v1vr => v1
  | .v1v0 => v1
noncomputable def Seg.to (d : Design) (v1 : ℝ) : Seg → ℝ
  | .v0v1 => v1
  | .v1vr => 1.1 * d.vs
  | .v1v0 => 2

/-- C102.  In every converged ground roll, also in the one that is integrated backwards, the speeds are the integral of
the acceleration from the intended first speed to the intended last speed. -/
theorem C102_ground_roll (hM : methodMatrix .simpson m = some M) (h : g.Converged ac d M v1 s) :
    (∀ a, g.utrue a = integratorCompute M (s.from v1) (.duration g.duration) (g.accel d s) a) ∧
    g.utrue 0 = s.from v1 ∧ g.utrue (Fin.last m) = s.to d v1 := by
  have hs := h.start
  have hu := h.speed
  have hb := h.balance
  cases s
  · simp only [Ground.start, Ground.speeds, Ground.balance, zeroSpeed] at hs hu hb
    rw [hs] at hu
    refine ⟨fun a => by rw [hu]; rfl, ?_, ?_⟩
    · rw [hu, C03_first_node hM]; rfl
    · show _ = v1
      linarith
  · simp only [Ground.start, Ground.speeds, Ground.balance] at hs hu hb
    rw [hs] at hu
    refine ⟨fun a => by rw [hu]; rfl, ?_, ?_⟩
    · rw [hu, C03_first_node hM]; rfl
    · show _ = 1.1 * d.vs
      unfold Design.vr at hb
      linarith
  · simp only [Ground.start, Ground.speeds, Ground.balance, zeroSpeed] at hs hu hb
    have hc : brakingInitial M 2 g.duration (g.accel d .v1v0) = v1 := by rw [← hs]; linarith
    obtain ⟨e, e0, e1⟩ := C77_backward_is_forward hM 2 g.duration v1 _ hc
    exact ⟨fun a => by rw [hu, e]; rfl, by rw [hu, e0]; rfl, by rw [hu, e1]; rfl⟩

/-- C102.  The ground speed of a ground roll is the magnitude of the true airspeed. -/
theorem groundspeed_roll (g : Ground m) (a : Fin (m + 1)) : groundspeed (g.gsIn a) = |g.utrue a| := by
  unfold groundspeed Ground.gsIn GsIn.inside
  rw [if_neg (by simp only; nlinarith [sq_nonneg (g.utrue a)])]
  simp [Real.sqrt_sq_eq_abs]

/-- C102.  The speeds join: from 2 m/s to the decision speed, from there to the rotation speed of 1.1 times the stall
speed with an engine out, or back to 2 m/s. -/
theorem C102_speeds (hM : methodMatrix .simpson m = some M) {t : Takeoff m} (h : t.Converged ac d M) :
    t.v0v1.utrue 0 = 2 ∧ t.v0v1.utrue (Fin.last m) = t.v1 ∧ t.v1vr.utrue 0 = t.v1 ∧
    t.v1vr.utrue (Fin.last m) = 1.1 * vStall d.mtow d.sref d.clmax ∧
    t.v1v0.utrue 0 = t.v1 ∧ t.v1v0.utrue (Fin.last m) = 2 := by
  obtain ⟨-, a0, a1⟩ := C102_ground_roll hM h.v0v1
  obtain ⟨-, b0, b1⟩ := C102_ground_roll hM h.v1vr
  obtain ⟨-, c0, c1⟩ := C102_ground_roll hM h.v1v0
  exact ⟨a0, a1, b0, b1, c0, c1⟩

/-- distance rolled in a phase: Simpson integral of the speed -/
noncomputable def Ground.distance (M : Matrix (Fin (m + 1)) (Fin (m + 1)) ℝ) (g : Ground m) : ℝ :=
  integratorFinal M 0 (.duration g.duration) fun a => |g.utrue a|

theorem range_eq (hM : methodMatrix .simpson m = some M) (s : Seg) (g : Ground m) :
    g.range M s 0 = g.range0 s ∧ g.range M s (Fin.last m) = g.range0 s + g.distance M := by
  unfold Ground.range Ground.distance
  refine ⟨C03_first_node hM _ _ _, ?_⟩
  rw [integratorFinal, integratorCompute_eq, integratorCompute_eq]
  simp only [groundspeed_roll]
  ring

/-- distance covered by the rotation -/
noncomputable def Rotation.distance (M : Matrix (Fin (m + 1)) (Fin (m + 1)) ℝ) : Rotation m → ℝ
  | .simplified r => sTrans r.rotation.trans + sClimb r.rotation.climb
  | .ode r => integratorFinal M 0 (.duration r.duration) fun a => groundspeed (r.gsIn a)

theorem rotation_range (R : Rotation m) : R.rangeFinal M = R.rangeInitial + R.distance M := by
  cases R with
  | simplified r => simp only [Rotation.rangeFinal, Rotation.rangeInitial, Rotation.distance, rotationRangeFinal,
      Simple.rotation]; ring
  | ode r =>
    simp only [Rotation.rangeFinal, Rotation.rangeInitial, Rotation.distance, Ode.range, integratorFinal,
      integratorCompute_eq]
    ring

/-- C102.  The ranges join, and the two distances compared by the solver are the sums of the distances of the
phases flown. -/
theorem C102_ranges (hM : methodMatrix .simpson m = some M) {t : Takeoff m} (h : t.Converged ac d M) :
    t.v0v1.range M .v0v1 0 = 0 ∧
    t.v1vr.range M .v1vr 0 = t.v0v1.range M .v0v1 (Fin.last m) ∧
    t.v1v0.range M .v1v0 0 = t.v0v1.range M .v0v1 (Fin.last m) ∧
    t.continueDist M = t.v0v1.distance M + t.v1vr.distance M + t.rotate.distance M ∧
    t.abortDist M = t.v0v1.distance M + t.v1v0.distance M := by
  have e1 := range_eq hM .v0v1 t.v0v1
  have e2 := range_eq hM .v1vr t.v1vr
  have e3 := range_eq hM .v1v0 t.v1v0
  have a := h.rangeVr
  have b := h.rangeRotate
  have c := h.rangeStop
  simp only [Ground.range0] at e1 e2 e3
  refine ⟨e1.1, by rw [e2.1, a], by rw [e3.1, c], ?_, ?_⟩
  · rw [Takeoff.continueDist, rotation_range, b, e2.2, a, e1.2]
    ring
  · rw [Takeoff.abortDist, e3.2, c, e1.2]
    ring

/-- C102.  The field is balanced: accelerating and stopping takes as long a runway as accelerating, losing an engine and
clearing the obstacle; unless even at the rotation speed stopping takes less. -/
theorem C102_balanced (hM : methodMatrix .simpson m = some M) {t : Takeoff m} (h : t.Converged ac d M) :
    (t.v1 < d.vr → t.v0v1.distance M + t.v1v0.distance M =
      t.v0v1.distance M + t.v1vr.distance M + t.rotate.distance M) ∧
    t.v1 ≤ 1.1 * vStall d.mtow d.sref d.clmax ∧
    t.v0v1.distance M + t.v1v0.distance M ≤ t.v0v1.distance M + t.v1vr.distance M + t.rotate.distance M := by
  obtain ⟨-, -, -, c, a⟩ := C102_ranges hM h
  have hb := (C25_zero_iff _).1 h.bfl
  simp only at hb
  have hv : d.vr = 1.1 * vStall d.mtow d.sref d.clmax := by unfold Design.vr Design.vs; ring
  rw [← c, ← a, ← hv]
  rcases hb with ⟨e, l⟩ | ⟨l, e⟩
  · exact ⟨fun hlt => absurd e hlt.ne, e.le, l⟩
  · exact ⟨fun _ => e, by norm_num at l; linarith, e.le⟩

/-- C102.  The engine fails at the decision speed: both engines and full throttle before, one engine out with full
throttle when continuing, idle throttle with brakes when stopping. -/
theorem C102_configuration {t : Takeoff m} (h : t.Converged ac d M) :
    (∃ c, t.v0v1.out = ac "v0v1" ⟨fun _ => 1, fun _ => 1, fun _ => 0.1, c, t.v0v1.duration⟩ ∧
      ∀ a, atmosTas (t.v0v1.h a) (t.v0v1.inc a) (t.v0v1.utrue a) = some (c a)) ∧
    (∃ c, t.v1vr.out = ac "v1vr" ⟨fun _ => 1, fun _ => 0, fun _ => 0.1, c, t.v1vr.duration⟩ ∧
      ∀ a, atmosTas (t.v1vr.h a) (t.v1vr.inc a) (t.v1vr.utrue a) = some (c a)) ∧
    (∃ c, t.v1v0.out = ac "v1v0" ⟨fun _ => 0, fun _ => 0, fun _ => 0.1, c, t.v1v0.duration⟩ ∧
      ∀ a, atmosTas (t.v1v0.h a) (t.v1v0.inc a) (t.v1v0.utrue a) = some (c a)) :=
  ⟨⟨_, h.v0v1.craft, h.v0v1.atmos⟩, ⟨_, h.v1vr.craft, h.v1vr.atmos⟩, ⟨_, h.v1v0.craft, h.v1v0.atmos⟩⟩

/-- C102.  With the weight on the wheels, mass times acceleration is thrust less drag less friction (3 percent of the wheel
load when accelerating, 40 percent when stopping); the wing carries `0.1 q S`. -/
theorem C102_forces (a : Fin (m + 1)) (hw : 0 < g.out.weight a)
    (hq : 0.1 * (g.cond a).q * d.sref ≤ g.out.weight a * grav) :
    g.out.weight a * g.accel d s a = g.out.thrust a - g.out.drag a -
      (match s with | .v0v1 => 0.03 | .v1vr => 0.03 | .v1v0 => 0.4) *
      (g.out.weight a * grav - 0.1 * (g.cond a).q * d.sref) := by
  have hs : singamma (g.gsIn a) = 0 := by
    unfold singamma Ground.gsIn GsIn.inside
    rw [if_neg (by simp only; nlinarith [sq_nonneg (g.utrue a)])]
    simp
  have hf : (g.accelIn d s a).floor = 1 := by
    unfold AccelIn.floor
    rw [if_neg]
    simp only [Ground.accelIn, Phases.lift, clGround, not_lt, sub_nonneg]
    rw [div_le_iff₀ hw]
    linarith
  unfold Ground.accel accelHoriz
  rw [hf]
  simp only [Ground.accelIn, hs, Phases.lift, clGround]
  cases s <;> simp only [Seg.braking] <;> field_simp <;> ring

/-- C102.  With uniform acceleration a ground roll takes the time and the distance of the textbook formulas, on any
number of nodes. -/
theorem C102_uniform (hM : methodMatrix .simpson m = some M) (hm0 : m ≠ 0) (h : g.Converged ac d M v1 s) (k : ℝ) (hk : k ≠ 0)
    (ha : ∀ a, g.accel d s a = k) (h1 : 0 ≤ v1) :
    g.duration = (s.to d v1 - s.from v1) / k ∧
    g.distance M = (s.to d v1 ^ 2 - s.from v1 ^ 2) / (2 * k) := by
  obtain ⟨hu, hu0, huN⟩ := C102_ground_roll hM h
  obtain ⟨hm, rfl⟩ := methodMatrix_simpson.1 hM
  have hm' : (m : ℝ) ≠ 0 := Nat.cast_ne_zero.2 hm0
  have hlin : ∀ a : Fin (m + 1), g.utrue a = s.from v1 + k * g.duration / m * a := by
    intro a
    rw [hu, integratorCompute_eq]
    have : g.accel d s = fun b : Fin (m + 1) => (fun _ => k : ℕ → ℝ) b := funext ha
    rw [this, simpsonTri_eq hm (fun i => k * i) (fun _ => k) (by simp) (by intros; push_cast; ring)
      (by intros; push_cast; ring)]
    simp only [TimeInput.step]
    ring
  have hend : s.to d v1 - s.from v1 = k * g.duration := by
    rw [← huN, hlin, Fin.val_last]; field_simp; ring
  have hdur : g.duration = (s.to d v1 - s.from v1) / k := by rw [hend]; field_simp
  refine ⟨hdur, ?_⟩
  have hto : 0 ≤ s.to d v1 := by
    cases s
    · exact h1
    · simp only [Seg.to]; have : 0 ≤ d.vs := Real.sqrt_nonneg _
      positivity
    · simp only [Seg.to]; norm_num
  have hfrom : 0 ≤ s.from v1 := by
    cases s
    · simp only [Seg.from]; norm_num
    · exact h1
    · exact h1
  have hnn : ∀ a : Fin (m + 1), 0 ≤ g.utrue a := by
    intro a
    rw [hlin]
    have hx : (0 : ℝ) ≤ (a : ℕ) / (m : ℝ) := by positivity
    have hx1 : ((a : ℕ) : ℝ) / (m : ℝ) ≤ 1 := by
      rw [div_le_one (by positivity)]; exact_mod_cast Nat.lt_succ_iff.1 a.2
    have e : s.from v1 + k * g.duration / m * a
        = s.from v1 * (1 - (a : ℕ) / (m : ℝ)) + s.to d v1 * ((a : ℕ) / (m : ℝ)) := by
      rw [← hend]; ring
    rw [e]
    have : 0 ≤ 1 - ((a : ℕ) : ℝ) / (m : ℝ) := by linarith
    positivity
  have hgs : (fun a => |g.utrue a|) = fun b : Fin (m + 1) => (fun i : ℕ => s.from v1 + k * g.duration / m * i) b := by
    funext b; rw [abs_of_nonneg (hnn b), hlin]
  unfold Ground.distance
  rw [integratorFinal, integratorCompute_eq, hgs,
    simpsonTri_eq hm (fun i => s.from v1 * i + k * g.duration / m * i ^ 2 / 2)
      (fun i : ℕ => s.from v1 + k * g.duration / m * i) (by simp) (by intros; push_cast; ring) (by intros; push_cast; ring)]
  simp only [TimeInput.step, Fin.val_last]
  rw [← hend, hdur]
  field_simp
  ring

theorem simpson_bounds (hm : m % 2 = 0) (r : Fin (m + 1) → ℝ) (lo hi : ℝ) (h : ∀ a, lo ≤ r a ∧ r a ≤ hi) :
    lo * m ≤ (simpsonTri m *ᵥ r) (Fin.last m) ∧ (simpsonTri m *ᵥ r) (Fin.last m) ≤ hi * m := by
  have e := simpsonTri_seq hm (ext0 r) (Fin.last m)
  rw [ext0_eq, Fin.val_last] at e
  have key : ∀ k, 2 * k ≤ m → lo * (2 * k : ℕ) ≤ simpsonSeq (ext0 r) (2 * k) ∧ simpsonSeq (ext0 r) (2 * k) ≤ hi * (2 * k : ℕ) := by
    intro k
    induction k with
    | zero => intro _; simp [simpsonSeq]
    | succ k ih =>
      intro hk
      have i := ih (by omega)
      have b : ∀ j, j < m + 1 → lo ≤ ext0 r j ∧ ext0 r j ≤ hi := fun j hj => by
        have := h ⟨j, hj⟩
        rwa [← ext0_fin r ⟨j, hj⟩] at this
      have b0 := b (2 * k) (by omega)
      have b1 := b (2 * k + 1) (by omega)
      have b2 := b (2 * k + 2) (by omega)
      have e1 := simpsonSeq_odd (ext0 r) k
      have e2 := simpsonSeq_even (ext0 r) k
      have : 2 * (k + 1) = 2 * k + 2 := by ring
      rw [this, e2, e1]
      push_cast at i ⊢
      constructor <;> linarith [i.1, i.2, b0.1, b0.2, b1.1, b1.2, b2.1, b2.2]
  have := key (m / 2) (by omega)
  rw [show 2 * (m / 2) = m by omega] at this
  rw [e]; exact this

/-- C102.  When the acceleration of a ground roll lies between two bounds, its duration lies between the times the two
constant accelerations would take. -/
theorem C102_duration (hM : methodMatrix .simpson m = some M) (hm0 : m ≠ 0) (h : g.Converged ac d M v1 s) (lo hi : ℝ)
    (hlo : 0 < lo) (ha : ∀ a, lo ≤ g.accel d s a ∧ g.accel d s a ≤ hi) (hd : 0 ≤ g.duration) :
    (s.to d v1 - s.from v1) / hi ≤ g.duration ∧ g.duration ≤ (s.to d v1 - s.from v1) / lo := by
  obtain ⟨hu, -, huN⟩ := C102_ground_roll hM h
  obtain ⟨hm, rfl⟩ := methodMatrix_simpson.1 hM
  have hm' : (0 : ℝ) < m := Nat.cast_pos.2 (Nat.pos_of_ne_zero hm0)
  have b := simpson_bounds hm _ lo hi ha
  have hhi : 0 < hi := lt_of_lt_of_le hlo ((ha 0).1.trans (ha 0).2)
  have e := hu (Fin.last m)
  rw [huN, integratorCompute_eq] at e
  simp only [TimeInput.step] at e
  set S := (simpsonTri m *ᵥ g.accel d s) (Fin.last m)
  have e' : s.to d v1 - s.from v1 = S / m * g.duration := by rw [e]; ring
  have l : lo ≤ S / m := by rw [le_div_iff₀ hm']; exact b.1
  have u : S / m ≤ hi := by rw [div_le_iff₀ hm']; exact b.2
  rw [e', div_le_iff₀ hhi, le_div_iff₀ hlo]
  constructor <;> nlinarith

/-- C102.  The integrated rotation starts on the runway, level, at the rotation speed and ends 35 ft above it. -/
theorem C102_rotation (hM : methodMatrix .simpson m = some M) {t : Takeoff m} (h : t.Converged ac d M) {r : Ode m}
    (hr : t.rotate = .ode r) :
    r.utrue 0 = 1.1 * vStall d.mtow d.sref d.clmax ∧ r.vs 0 = 0 ∧ r.h 0 = 0 ∧ r.h (Fin.last m) = 10.668 ∧
    r.range M 0 = t.v1vr.range M .v1vr (Fin.last m) := by
  have hc := h.rotate
  have hi := h.rangeRotate
  rw [hr] at hc hi
  obtain ⟨c, e⟩ := hc
  refine ⟨?_, ?_, ?_, ?_, ?_⟩
  · rw [c.speed, C03_first_node hM, e, (C102_speeds hM h).2.2.2.1]
  · rw [c.climb, C03_first_node hM]
  · rw [c.height, C03_first_node hM]
  · have := c.balance; unfold hObs at this; linarith
  · rw [Ode.range, C03_first_node hM, ← hi]; rfl

/-- C102.  The equations of motion of the integrated rotation, while the climb is slower than the airspeed: no friction, thrust
less drag less the weight component along the path accelerate the airplane; lift and excess thrust less the weight (limited
to -1 g and 2.5 g) accelerate it upward; the altitude integrates the vertical speed. -/
theorem C102_rotation_motion {r : Ode m} (h : r.Converged ac d M) (hw : ∀ a, 0 < r.out.weight a)
    (hv : ∀ a, |r.vs a| ≤ r.utrue a) (hu : ∀ a, 0 < r.utrue a) :
    let up := fun a => (0.83 * d.clmax * (r.cond a).q * d.sref * √(r.utrue a ^ 2 - r.vs a ^ 2) / r.utrue a
      + (r.out.thrust a - r.out.drag a) * (r.vs a / r.utrue a)) / r.out.weight a - grav
    (∀ a, r.utrue a = r.utrueInitial + (M *ᵥ fun b => (r.out.thrust b - r.out.drag b) / r.out.weight b
      - grav * (r.vs b / r.utrue b)) a * (r.duration / m)) ∧
    (∀ a, r.vs a = (M *ᵥ fun b => min (max (up b) (-grav)) (2.5 * grav)) a * (r.duration / m)) ∧
    (∀ a, r.h a = (M *ᵥ r.vs) a * (r.duration / m)) ∧
    (∀ a, r.range M a = r.rangeInitial + (M *ᵥ fun b => √(r.utrue b ^ 2 - r.vs b ^ 2)) a * (r.duration / m)) := by
  intro up
  have hin : ∀ b, ¬ (r.gsIn b).inside < 0 := by
    intro b
    have := sq_le_sq' (by have := (abs_le.1 (hv b)).1; linarith) (le_of_abs_le (hv b))
    simp only [Ode.gsIn, GsIn.inside, not_lt]
    linarith
  have hs : ∀ b, singamma (r.gsIn b) = r.vs b / r.utrue b := by
    intro b; unfold singamma; rw [if_neg (hin b)]; rfl
  have hg : ∀ b, groundspeed (r.gsIn b) = √(r.utrue b ^ 2 - r.vs b ^ 2) := by
    intro b; unfold groundspeed; rw [if_neg (hin b)]; rfl
  refine ⟨fun a => ?_, fun a => ?_, fun a => ?_, fun a => ?_⟩
  · have := congrFun h.speed a
    rw [integratorCompute_eq] at this
    rw [this, add_comm]
    simp only [TimeInput.step]
    congr 4
    funext b
    unfold accelHoriz
    simp only [Ode.accelIn, hs, mul_zero, zero_mul, sub_zero]
    rw [sub_div]
  · have := congrFun h.climb a
    rw [integratorCompute_eq] at this
    rw [this, add_zero]
    simp only [TimeInput.step]
    congr 3
    funext b
    unfold accelVert accelVertRaw
    congr 2
    simp only [Ode.accelIn, hs, cosgamma, hg, Phases.lift, Ode.cl, up]
    have h1 := (hw b).ne'
    have h2 := (hu b).ne'
    simp only [Ode.gsIn]
    generalize √(r.utrue b ^ 2 - r.vs b ^ 2) = G
    field_simp
  · have := congrFun h.height a
    rw [integratorCompute_eq] at this
    rw [this, add_zero]
    rfl
  · unfold Ode.range
    rw [integratorCompute_eq, add_comm]
    simp only [TimeInput.step, hg]

/-- An airplane with two engines of thrust `T` at full throttle, the second of which can be switched off, and a drag
coefficient `cd` that depends on the flight phase and the lift coefficient. -/
structure Twin (ac : Craft m) (d : Design) (T : FltCond → ℝ) (cd : String → ℝ → ℝ) : Prop where
  thrust : ∀ n i a, (i.throttle a = 0 ∨ i.throttle a = 1) → (i.active a = 0 ∨ i.active a = 1) →
    (ac n i).thrust a = T (i.cond a) * i.throttle a * (1 + i.active a)
  drag : ∀ n i a, (ac n i).drag a = cd n (i.cl a) * (i.cond a).q * d.sref

variable {T : FltCond → ℝ} {cd : String → ℝ → ℝ}

/-- C102.  The options of a ground roll: exactly the three documented names are accepted and each selects its own segment. -/
theorem C102_segment (s : String) (g : Seg) : seg s = some g ↔ s = g.name := by
  unfold seg
  cases g <;> simp only [Seg.name] <;> split_ifs with h1 h2 h3 <;> simp_all

example : seg "v1vr" = some .v1vr ∧ seg "rotate" = none := by decide

/-- C102.  Thrust and drag of a twin in the phases of the take-off: two engines up to the decision speed, one in `v1vr` and
in either kind of rotation, none while stopping. -/
theorem C102_twin {t : Takeoff m} (h : t.Converged ac d M) (hac : Twin ac d T cd) (a : Fin (m + 1)) :
    (t.v0v1.out.thrust a = 2 * T (t.v0v1.cond a) ∧ t.v0v1.out.drag a = cd "v0v1" 0.1 * (t.v0v1.cond a).q * d.sref) ∧
    (t.v1vr.out.thrust a = T (t.v1vr.cond a) ∧ t.v1vr.out.drag a = cd "v1vr" 0.1 * (t.v1vr.cond a).q * d.sref) ∧
    (t.v1v0.out.thrust a = 0 ∧ t.v1v0.out.drag a = cd "v1v0" 0.1 * (t.v1v0.cond a).q * d.sref) ∧
    (∀ r, t.rotate = .simplified r → r.out.thrust a = T (r.cond a) ∧
      r.out.drag a = cd "rotate" (r.out.weight a * grav / ((r.cond a).q * d.sref)) * (r.cond a).q * d.sref) ∧
    (∀ r, t.rotate = .ode r → r.out.thrust a = T (r.cond a) ∧
      r.out.drag a = cd "rotate" (0.83 * d.clmax) * (r.cond a).q * d.sref) := by
  refine ⟨?_, ?_, ?_, fun r hr => ?_, fun r hr => ?_⟩
  · rw [h.v0v1.craft, hac.thrust _ _ _ (by simp [Ground.acIn, Seg.throttle]) (by simp [Ground.acIn, Seg.active]), hac.drag]
    exact ⟨by simp only [Ground.acIn, Seg.throttle, Seg.active]; ring, rfl⟩
  · rw [h.v1vr.craft, hac.thrust _ _ _ (by simp [Ground.acIn, Seg.throttle]) (by simp [Ground.acIn, Seg.active]), hac.drag]
    exact ⟨by simp only [Ground.acIn, Seg.throttle, Seg.active]; ring, rfl⟩
  · rw [h.v1v0.craft, hac.thrust _ _ _ (by simp [Ground.acIn, Seg.throttle]) (by simp [Ground.acIn, Seg.active]), hac.drag]
    exact ⟨by simp only [Ground.acIn, Seg.throttle, Seg.active]; ring, rfl⟩
  · have hc := h.rotate
    rw [hr] at hc
    have hc : r.Converged ac d := hc
    have hd := hac.drag "rotate" (r.acIn d) a
    have ht := hac.thrust "rotate" (r.acIn d) a (Or.inr rfl) (Or.inl rfl)
    rw [← hc.craft] at hd ht
    refine ⟨by rw [ht]; simp only [Simple.acIn]; ring, ?_⟩
    rw [hd]
    simp only [Simple.acIn, Simple.cl, steadyCL]
    congr 3
    rw [div_div]; ring_nf
  · have hc := h.rotate
    rw [hr] at hc
    have hc : r.Converged ac d M := hc.1
    rw [hc.craft, hac.thrust _ _ _ (Or.inr rfl) (Or.inl rfl), hac.drag]
    exact ⟨by simp only [Ode.acIn]; ring, rfl⟩

/-- C102.  The simplified rotation runs from the rotation speed to 1.2 times the stall speed. -/
theorem C102_rotation_speeds (hm0 : m ≠ 0) :
    Simple.ueas d (0 : Fin (m + 1)) = 1.1 * vStall d.mtow d.sref d.clmax ∧
    Simple.ueas d (Fin.last m) = 1.2 * vStall d.mtow d.sref d.clmax ∧
    ∀ a : Fin (m + 1), 1.1 * vStall d.mtow d.sref d.clmax ≤ Simple.ueas d a ∧
      Simple.ueas d a ≤ 1.2 * vStall d.mtow d.sref d.clmax := by
  have hm : (0 : ℝ) < m := Nat.cast_pos.2 (Nat.pos_of_ne_zero hm0)
  have h0 : 0 ≤ d.vs := Real.sqrt_nonneg _
  have e : ∀ a : Fin (m + 1), Simple.ueas d a = d.vs * (1.1 + 0.1 * ((a : ℕ) / m)) := by
    intro a
    unfold Simple.ueas linspace Design.vr Design.v2
    push_cast
    rw [add_sub_cancel_right]
    ring
  refine ⟨?_, ?_, fun a => ?_⟩
  · rw [e]; simp [Design.vs]; ring
  · rw [e, Fin.val_last, div_self hm.ne']; unfold Design.vs; ring
  · have hx : (0 : ℝ) ≤ (a : ℕ) / (m : ℝ) := by positivity
    have hx1 : ((a : ℕ) : ℝ) / (m : ℝ) ≤ 1 := by
      rw [div_le_one hm]; exact_mod_cast Nat.lt_succ_iff.1 a.2
    rw [e]
    change 1.1 * d.vs ≤ _ ∧ _ ≤ 1.2 * d.vs
    constructor <;> nlinarith

/-! The hypotheses are satisfiable: an airplane whose engines produce a uniform acceleration in each ground roll. -/

/-- thrust that makes the accelerations of the ground rolls uniform, and `rot` in the air -/
noncomputable def uniformCraft (d : Design) (rot : AcOut m) (k0 k1 k2 : ℝ) : Craft m := fun name i =>
  if name = "rotate" then rot else
  { weight := fun _ => d.mtow
    drag := fun _ => 0
    thrust := fun a => d.mtow * ((if name = "v0v1" then k0 else if name = "v1vr" then k1 else k2) +
        (AccelIn.mk d.mtow 0 (Phases.lift clGround (i.cond a).q d.sref) 0 0 0 0).floor *
          (if name = "v1v0" then 0.4 else 0.03) * (grav - Phases.lift clGround (i.cond a).q d.sref / d.mtow)) }

noncomputable def Seg.pick (k0 k1 k2 : ℝ) : Seg → ℝ
  | .v0v1 => k0
  | .v1vr => k1
  | .v1v0 => k2

theorem pressure_some {h : ℝ} (hh : h ≤ 288.16 / 0.0065) : ∃ p, Atmos.pressure h = some p ∧ 0 < p := by
  refine ⟨_, ?_, Atmos.pblend_pos h⟩
  rw [Atmos.pressure_eq, if_neg]
  exact not_lt.2 hh

theorem singamma_roll (g : Ground m) (a : Fin (m + 1)) : singamma (g.gsIn a) = 0 := by
  unfold singamma Ground.gsIn GsIn.inside
  rw [if_neg (by simp only; nlinarith [sq_nonneg (g.utrue a)])]
  simp

theorem uniform_accel (hd : 0 < d.mtow) (rot : AcOut m) (k0 k1 k2 : ℝ) (g : Ground m)
    (hg : g.out = uniformCraft d rot k0 k1 k2 s.name (g.acIn s))
    (a : Fin (m + 1)) : g.accel d s a = s.pick k0 k1 k2 := by
  unfold Ground.accel accelHoriz AccelIn.floor
  simp only [Ground.accelIn, singamma_roll, hg]
  cases s <;> simp [uniformCraft, Seg.name, Ground.acIn, Seg.braking, Seg.pick, AccelIn.floor] <;> field_simp <;> ring

theorem ground_exists (hm : m % 2 = 0) (hm0 : m ≠ 0) (hd : 0 < d.mtow) (s : Seg) (rot : AcOut m) (h inc r0 k0 k1 k2 v1 : ℝ)
    (hh : h ≤ 288.16 / 0.0065) (hk : s.pick k0 k1 k2 ≠ 0) :
    ∃ g : Ground m, g.Converged (uniformCraft d rot k0 k1 k2) d (simpsonTri m) v1 s ∧ (∀ a, g.h a = h ∧ g.inc a = inc) ∧
      g.rangeInitial = r0 ∧ (∀ a, g.accel d s a = s.pick k0 k1 k2) ∧ g.duration = (s.to d v1 - s.from v1) / s.pick k0 k1 k2 := by
  have hm' : (m : ℝ) ≠ 0 := Nat.cast_ne_zero.2 hm0
  obtain ⟨p, hp, -⟩ := pressure_some hh
  set k := s.pick k0 k1 k2
  set T := (s.to d v1 - s.from v1) / k
  let u : Fin (m + 1) → ℝ := fun a => s.from v1 + k * T / m * a
  have hc : ∀ a, ∃ c, atmosTas h inc (u a) = some c := fun a => by unfold atmosTas; rw [hp]; exact ⟨_, rfl⟩
  choose c hc using hc
  let g : Ground m := ⟨fun _ => h, fun _ => inc, T, s.from v1, r0, u, c,
    uniformCraft d rot k0 k1 k2 s.name ⟨fun _ => s.throttle, fun _ => s.active, fun _ => clGround, c, T⟩⟩
  have hacc : ∀ a, g.accel d s a = k := fun a => uniform_accel hd rot k0 k1 k2 g rfl a
  have hkT : k * T = s.to d v1 - s.from v1 := by simp only [T]; field_simp
  have hint : ∀ (x q : ℝ) (a : Fin (m + 1)), integratorCompute (simpsonTri m) q (.duration T) (fun _ => x) a = q + x * T / m * a := by
    intro x q a
    have := simpsonTri_eq hm (fun i => x * i) (fun _ => x) (by simp) (by intros; push_cast; ring) (by intros; push_cast; ring) a
    rw [integratorCompute_eq, this]
    simp only [TimeInput.step]
    ring
  have hlast : u (Fin.last m) = s.to d v1 := by
    simp only [u, Fin.val_last]
    rw [hkT]; field_simp; ring
  have hbi : s = .v1v0 → brakingInitial (simpsonTri m) zeroSpeed T (g.accel d .v1v0) = v1 := by
    rintro rfl
    have e : Phases.flip true (g.accel d .v1v0) = fun _ => -k := by
      funext b; simp [Phases.flip, flipScaler, hacc]
    rw [brakingInitial, integratorFinal, e, hint, Fin.val_last]
    simp only [Seg.to, Seg.from] at hkT
    have : -k * T / m * m = v1 - 2 := by field_simp; linarith
    rw [this, zeroSpeed]; ring
  refine ⟨g, ⟨hc, rfl, ?_, ?_, ?_⟩, fun _ => ⟨rfl, rfl⟩, rfl, hacc, rfl⟩
  · cases s with
    | v0v1 => rfl
    | v1vr => rfl
    | v1v0 => exact (hbi rfl).symm
  · funext a
    cases s with
    | v0v1 =>
      have : g.accel d .v0v1 = fun _ => k := funext hacc
      simp only [Ground.speeds, this]
      exact (hint _ _ a).symm
    | v1vr =>
      have : g.accel d .v1vr = fun _ => k := funext hacc
      simp only [Ground.speeds, this]
      exact (hint _ _ a).symm
    | v1v0 =>
      have : g.accel d .v1v0 = fun _ => k := funext hacc
      have e := (C77_backward_is_forward (methodMatrix_simpson.2 ⟨hm, rfl⟩) zeroSpeed T v1 _ (hbi rfl)).1 a
      simp only [Ground.speeds]
      refine Eq.trans ?_ e.symm
      rw [this]
      exact (hint _ _ a).symm
  · cases s with
    | v0v1 => simp only [Ground.balance]; rw [show g.utrue = u from rfl, hlast]; exact sub_self _
    | v1vr =>
      simp only [Ground.balance]; rw [show g.utrue = u from rfl, hlast]
      simp only [Seg.to, Design.vr]; ring
    | v1v0 => exact sub_self _

theorem simple_exists (hd : 0 < d.mtow) (inc r0 : ℝ) :
    ∃ (rot : AcOut m) (r : Simple m), (∀ k0 k1 k2, r.Converged (uniformCraft d rot k0 k1 k2) d) ∧ (∀ a, r.inc a = inc) ∧
      r.rangeInitial = r0 ∧ 0 ≤ sTrans r.rotation.trans + sClimb r.rotation.climb := by
  have hg : (0 : ℝ) < grav := by norm_num [grav]
  let h : Fin (m + 1) → ℝ := fun a => linspace 1 hObs (m + 1) a
  have hle : ∀ a, h a ≤ 288.16 / 0.0065 := by
    intro a
    simp only [h, linspace, hObs]
    push_cast
    rw [add_sub_cancel_right]
    have hx : ((a : ℕ) : ℝ) * ((35 * 0.3048 - 1) / m) ≤ 35 * 0.3048 - 1 := by
      have e : ((a : ℕ) : ℝ) * ((35 * 0.3048 - 1) / m) = (35 * 0.3048 - 1) * ((a : ℕ) / m) := by ring
      rw [e]
      have : ((a : ℕ) : ℝ) / (m : ℝ) ≤ 1 :=
        div_le_one_of_le₀ (by exact_mod_cast Nat.lt_succ_iff.1 a.2) (Nat.cast_nonneg _)
      norm_num at this ⊢
      nlinarith
    norm_num at hx ⊢
    linarith
  have hc : ∀ a, ∃ c, atmosEas (h a) inc (Simple.ueas d a) = some c := fun a => by
    obtain ⟨p, hp, -⟩ := pressure_some (hle a)
    unfold atmosEas; rw [hp]; exact ⟨_, rfl⟩
  choose c hc using hc
  let out : AcOut m := ⟨fun _ => 0.1 * d.mtow * grav, fun _ => 0, fun _ => d.mtow⟩
  let r : Simple m := ⟨1, fun _ => inc, r0, c, out, fun _ => Real.arcsin 0.1⟩
  refine ⟨out, r, fun k0 k1 k2 => ⟨hc, ?_, ?_⟩, fun _ => rfl, rfl, ?_⟩
  · show out = _
    simp [uniformCraft, out]
  · intro a
    have e : (ClimbIn.mk (r.out.drag a) (r.out.weight a) (r.out.thrust a)).inner = 0.1 := by
      simp only [ClimbIn.inner, r, out]; field_simp; ring
    unfold climbAngle
    rw [e, if_pos (by norm_num)]
  · have hs : Real.sin (Real.arcsin 0.1) = 0.1 := Real.sin_arcsin (by norm_num) (by norm_num)
    have hpos : 0 < Real.arcsin 0.1 := Real.arcsin_pos.2 (by norm_num)
    have hlt : Real.arcsin 0.1 < Real.pi / 2 := by
      rcases (Real.arcsin_le_pi_div_two 0.1).lt_or_eq with h | h
      · exact h
      · rw [h, Real.sin_pi_div_two] at hs; norm_num at hs
    have htan : 0 < Real.tan (Real.arcsin 0.1) := Real.tan_pos_of_pos_of_lt_pi_div_two hpos hlt
    apply add_nonneg
    · unfold sTrans
      split_ifs
      · exact Real.sqrt_nonneg _
      · apply mul_nonneg
        · simp only [TransIn.radius, RotationIn.trans]
          have : (0 : ℝ) ≤ 1.2 - 1 := by norm_num
          positivity
        · show 0 ≤ Real.sin (Real.arcsin 0.1)
          rw [hs]; norm_num
    · unfold sClimb
      apply div_nonneg _ htan.le
      simp only [RotationIn.climb, sub_nonneg]
      unfold hTrans
      split_ifs with hq
      · exact le_rfl
      · exact not_lt.1 hq

/-- a balanced take-off around any rotation that has converged -/
theorem takeoff_exists (hm : m % 2 = 0) (hm0 : m ≠ 0) (hd : 0 < d.mtow) (v1 h inc : ℝ) (h1 : 2 < v1) (hv : v1 + 0.1 ≤ d.vr)
    (hh : h ≤ 288.16 / 0.0065) (rot : AcOut m) (R : Rotation m)
    (hR : ∀ k0 k1 k2, R.Converged (uniformCraft d rot k0 k1 k2) d (simpsonTri m) d.vr)
    (hr0 : R.rangeInitial = (v1 ^ 2 - 4) / 4 + (d.vr ^ 2 - v1 ^ 2) / 2) (hD0 : 0 ≤ R.distance (simpsonTri m)) :
    ∃ (ac : Craft m) (t : Takeoff m), t.Converged ac d (simpsonTri m) ∧ t.v1 = v1 ∧ t.rotate = R ∧
      ∀ a, t.v1vr.h a = h ∧ t.v1vr.inc a = inc := by
  have hM : methodMatrix (K := ℝ) .simpson m = some (simpsonTri m) := methodMatrix_simpson.2 ⟨hm, rfl⟩
  norm_num at hv
  have hvr : d.vr = 1.1 * d.vs := by unfold Design.vr; ring
  have h4 : 0 < v1 ^ 2 - 4 := by nlinarith
  have hroll : 0 < d.vr ^ 2 - v1 ^ 2 := by nlinarith
  set D := R.distance (simpsonTri m) with hD
  have hden : 0 < (d.vr ^ 2 - v1 ^ 2) / 2 + D := by linarith
  set k2 := -((v1 ^ 2 - 4) / (2 * ((d.vr ^ 2 - v1 ^ 2) / 2 + D))) with hk2
  have hk2n : k2 < 0 := by rw [hk2, neg_lt_zero]; positivity
  obtain ⟨g0, c0, -, i0, a0, -⟩ := ground_exists hm hm0 hd .v0v1 rot h inc 0 2 1 k2 v1 hh (by norm_num [Seg.pick])
  obtain ⟨g1, c1, b1, i1, a1, -⟩ := ground_exists hm hm0 hd .v1vr rot h inc ((v1 ^ 2 - 4) / 4) 2 1 k2 v1 hh (by norm_num [Seg.pick])
  obtain ⟨g2, c2, -, i2, a2, -⟩ := ground_exists hm hm0 hd .v1v0 rot h inc ((v1 ^ 2 - 4) / 4) 2 1 k2 v1 hh hk2n.ne
  have d0 := (C102_uniform hM hm0 c0 2 (by norm_num) a0 (by linarith)).2
  have d1 := (C102_uniform hM hm0 c1 1 (by norm_num) a1 (by linarith)).2
  have d2 := (C102_uniform hM hm0 c2 k2 hk2n.ne a2 (by linarith)).2
  simp only [Seg.to, Seg.from] at d0 d1 d2
  rw [← hvr] at d1
  have e2 : g2.distance (simpsonTri m) = (d.vr ^ 2 - v1 ^ 2) / 2 + D := by
    rw [d2, hk2]; field_simp; ring
  have ev : g1.utrue (Fin.last m) = d.vr := by rw [(C102_ground_roll hM c1).2.2, hvr]; rfl
  refine ⟨uniformCraft d rot 2 1 k2, ⟨v1, g0, g1, g2, R⟩, ⟨c0, c1, c2, ?_, ?_, ?_, ?_, ?_⟩, rfl, rfl, b1⟩
  · show R.Converged _ _ _ (g1.utrue (Fin.last m))
    rw [ev]; exact hR 2 1 k2
  · show g1.rangeInitial = _
    rw [i1, (range_eq hM _ _).2, d0]
    simp only [Ground.range0]; ring
  · show R.rangeInitial = _
    rw [hr0, (range_eq hM _ _).2, d1]
    simp only [Ground.range0, i1]; ring
  · show g2.rangeInitial = _
    rw [i2, (range_eq hM _ _).2, d0]
    simp only [Ground.range0]; ring
  · rw [C25_zero_iff]
    refine Or.inr ⟨by norm_num; linarith, ?_⟩
    show g2.range (simpsonTri m) .v1v0 (Fin.last m) = R.rangeFinal (simpsonTri m)
    rw [(range_eq hM _ _).2, e2, rotation_range, hr0]
    simp only [Ground.range0, i2]; ring

/-- C102.  For every design, every decision speed below the rotation speed, every runway altitude and every temperature
there is an airplane with a converged balanced take-off. -/
theorem C102_reachable (hm : m % 2 = 0) (hm0 : m ≠ 0) (hd : 0 < d.mtow) (v1 h inc : ℝ) (h1 : 2 < v1) (hv : v1 + 0.1 ≤ d.vr)
    (hh : h ≤ 288.16 / 0.0065) :
    ∃ (ac : Craft m) (t : Takeoff m), t.Converged ac d (simpsonTri m) ∧ t.v1 = v1 ∧
      ∀ a, t.v1vr.h a = h ∧ t.v1vr.inc a = inc := by
  obtain ⟨rot, r, rc, -, r0, rd⟩ := simple_exists (m := m) (d := d) hd inc ((v1 ^ 2 - 4) / 4 + (d.vr ^ 2 - v1 ^ 2) / 2)
  obtain ⟨ac, t, a, b, -, c⟩ := takeoff_exists hm hm0 hd v1 h inc h1 hv hh rot (.simplified r) rc r0 rd
  exact ⟨ac, t, a, b, c⟩

/-- a 5.7 t airplane with 30 m² of wing and CLmax 2: Vr is about 43 m/s -/
example : ∃ (ac : Craft 10) (t : Takeoff 10), t.Converged ac ⟨5700, 30, 2⟩ (simpsonTri 10) ∧ t.v1 = 40 ∧
    t.v0v1.utrue 0 = 2 ∧ t.v1v0.utrue 0 = 40 ∧ t.v1v0.utrue 10 = 2 := by
  have hv : (40 : ℝ) + 0.1 ≤ Design.vr ⟨5700, 30, 2⟩ := by
    unfold Design.vr Design.vs vStall
    have : (38 : ℝ) ≤ √(2 * 5700 * grav / 1.225 / 30 / 2) := by
      rw [Real.le_sqrt' (by norm_num)]; norm_num [grav]
    norm_num at this ⊢
    linarith
  obtain ⟨ac, t, h, e, -⟩ := C102_reachable (m := 10) (d := ⟨5700, 30, 2⟩) rfl (by norm_num) (by norm_num) 40 0 15 (by norm_num) hv
    (by norm_num)
  obtain ⟨a, -, -, -, b, c⟩ := C102_speeds (methodMatrix_simpson.2 ⟨rfl, rfl⟩) h
  exact ⟨ac, t, h, e, a, by rw [b, e], c⟩

/-! ### C103 -/

theorem vs_sq (hW : 0 < d.mtow) (hS : 0 < d.sref) (hC : 0 < d.clmax) :
    1 / 2 * 1.225 * d.vs ^ 2 * d.sref * d.clmax = d.mtow * grav := by
  have := Aero.C60_stall d.mtow d.sref d.clmax hW hS hC
  unfold Aero.lift at this
  exact this

theorem vs_pos (hW : 0 < d.mtow) (hS : 0 < d.sref) (hC : 0 < d.clmax) : 0 < d.vs := by
  have hg : (0 : ℝ) < grav := by norm_num [grav]
  unfold Design.vs vStall
  exact Real.sqrt_pos.2 (by positivity)

/-- C103.  On all days the lift coefficient of the climb-out is the maximum divided by 1.2 squared. -/
theorem C103_climbout (hW : 0 < d.mtow) (hS : 0 < d.sref) (hC : 0 < d.clmax) {ac : Craft 0} {b : Bool} {dur : ℝ}
    {r : Climbout} (h : r.Converged ac d b dur) (hi : -216.65 < r.inc) : r.cl d = d.clmax / 1.44 := by
  have hq := (Atmos.C95_dynamic_pressure 0 r.inc d.v2 hi r.cond h.atmos).1
  have hv := vs_pos hW hS hC
  unfold Climbout.cl steadyCL
  simp only [hq, Design.v2]
  rw [div_div, div_eq_div_iff (by positivity) (by norm_num)]
  linear_combination -1.44 * vs_sq hW hS hC

/-- C103.  Climb gradients of a twin at V2 and the maximum take-off weight: `sin γ` is the thrust of the running engines over
the weight less drag over lift at `CLmax / 1.44`.  The failed engine costs its thrust over the weight. -/
theorem C103_climb_gradient (hW : 0 < d.mtow) (hS : 0 < d.sref) (hC : 0 < d.clmax) {ac : Craft 0} {du du' : ℝ}
    {r r' : Climbout} (hac : Twin ac d T cd) (h : r.Converged ac d true du) (h' : r'.Converged ac d false du')
    (hi : -216.65 < r.inc) (he : r'.inc = r.inc) :
    Real.sin r.gamma = 2 * T r.cond / (d.mtow * grav) - cd "AllEngineClimbAngle" (d.clmax / 1.44) / (d.clmax / 1.44) ∧
    Real.sin r'.gamma = T r.cond / (d.mtow * grav) - cd "EngineOutClimbAngle" (d.clmax / 1.44) / (d.clmax / 1.44) ∧
    (cd "AllEngineClimbAngle" = cd "EngineOutClimbAngle" →
      Real.sin r.gamma - Real.sin r'.gamma = T r.cond / (d.mtow * grav)) := by
  have hcond : r'.cond = r.cond := by
    have := h'.atmos
    rw [he, h.atmos] at this
    exact (Option.some.inj this).symm
  have hg : (0 : ℝ) < grav := by norm_num [grav]
  have hsin : ∀ {D Th g : ℝ}, climbAngle ⟨D, d.mtow, Th⟩ = some g → Real.sin g = (Th - D) / (d.mtow * grav) := by
    intro D Th g hc
    unfold climbAngle at hc
    split_ifs at hc with hb
    rw [← Option.some.inj hc, Real.sin_arcsin hb.1 hb.2]
    simp only [ClimbIn.inner, div_div]
  have hq : ∀ {r : Climbout} {b : Bool} {du : ℝ}, r.Converged ac d b du → -216.65 < r.inc →
      r.out.drag 0 / (d.mtow * grav)
        = cd (if b then "AllEngineClimbAngle" else "EngineOutClimbAngle") (d.clmax / 1.44) / (d.clmax / 1.44) ∧
      r.out.thrust 0 = T r.cond * (if b then 2 else 1) := by
    intro r b du h hi
    have e := C103_climbout hW hS hC h hi
    have hq := (Atmos.C95_dynamic_pressure 0 r.inc d.v2 hi r.cond h.atmos).1
    constructor
    · rw [h.craft, hac.drag]
      show cd _ (r.cl d) * r.cond.q * d.sref / _ = _
      rw [e, hq, div_eq_div_iff (by positivity) (by positivity)]
      unfold Design.v2
      have := vs_sq hW hS hC
      linear_combination cd (if b then "AllEngineClimbAngle" else "EngineOutClimbAngle") (d.clmax / 1.44) * this
    · rw [h.craft, hac.thrust _ _ _ (Or.inr rfl) (by cases b <;> simp [Climbout.acIn])]
      cases b
      · simp [Climbout.acIn]
      · simp [Climbout.acIn]; norm_num
  obtain ⟨d1, t1⟩ := hq h hi
  obtain ⟨d2, t2⟩ := hq h' (by rw [he]; exact hi)
  have s1 := hsin h.angle
  have s2 := hsin h'.angle
  rw [sub_div, d1, t1] at s1
  rw [sub_div, d2, t2, hcond] at s2
  simp only [if_true, Bool.false_eq_true, if_false, mul_one] at s1 s2
  rw [s1, s2]
  refine ⟨by ring, rfl, fun hcd => by rw [hcd]; ring⟩

/-- A 5.7 t twin with 10 percent of its weight as thrust per engine and a drag of a tenth of the lift: on one engine it just
holds its altitude, with both it climbs with `sin γ = 0.1`. -/
example : ∃ (ac : Craft 0) (r r' : Climbout), Twin ac ⟨5700, 30, 2⟩ (fun _ => 0.1 * (5700 * grav)) (fun _ cl => 0.1 * cl) ∧
    r.Converged ac ⟨5700, 30, 2⟩ true 0 ∧ r'.Converged ac ⟨5700, 30, 2⟩ false 0 ∧ Real.sin r.gamma = 0.1 ∧
    Real.sin r'.gamma = 0 := by
  let d : Design := ⟨5700, 30, 2⟩
  have hW : 0 < d.mtow := by norm_num [d]
  have hS : 0 < d.sref := by norm_num [d]
  have hC : 0 < d.clmax := by norm_num [d]
  have hg : (0 : ℝ) < grav := by norm_num [grav]
  let ac : Craft 0 := fun _ i => ⟨fun a => 0.1 * (5700 * grav) * i.throttle a * (1 + i.active a),
    fun a => 0.1 * i.cl a * (i.cond a).q * d.sref, fun _ => 5700⟩
  have hac : Twin ac d (fun _ => 0.1 * (5700 * grav)) (fun _ cl => 0.1 * cl) := ⟨fun _ _ _ _ _ => rfl, fun _ _ _ => rfl⟩
  obtain ⟨p, hp, -⟩ := pressure_some (h := 0) (by norm_num)
  obtain ⟨c, hc⟩ : ∃ c, atmosEas 0 0 d.v2 = some c := by unfold atmosEas; rw [hp]; exact ⟨_, rfl⟩
  have hq := (Atmos.C95_dynamic_pressure 0 0 d.v2 (by norm_num) c hc).1
  have hqs : 0 < c.q * d.sref := by
    rw [hq]
    have := vs_pos hW hS hC
    unfold Design.v2; positivity
  have mk : ∀ b : Bool, ∃ r : Climbout, r.inc = 0 ∧ r.cond = c ∧ r.Converged ac d b 0 := by
    intro b
    let r0 : Climbout := ⟨0, c, ⟨fun _ => 0, fun _ => 0, fun _ => 0⟩, 0⟩
    have key : (ClimbIn.mk ((ac "" (r0.acIn d b 0)).drag 0) d.mtow ((ac "" (r0.acIn d b 0)).thrust 0)).inner
        = if b then 0.1 else 0 := by
      simp only [ClimbIn.inner, ac, Climbout.acIn, Climbout.cl, steadyCL, r0]
      have h1 := hqs.ne'
      have h2 : c.q ≠ 0 := left_ne_zero_of_mul h1
      cases b <;> (simp only [d, if_true, Bool.false_eq_true, if_false]; field_simp; norm_num)
    refine ⟨⟨0, c, ac "" (r0.acIn d b 0), Real.arcsin (if b then 0.1 else 0)⟩, rfl, rfl, hc, rfl, ?_⟩
    show climbAngle ⟨(ac "" (r0.acIn d b 0)).drag 0, d.mtow, (ac "" (r0.acIn d b 0)).thrust 0⟩ = _
    unfold climbAngle
    rw [key, if_pos]
    cases b <;> norm_num
  obtain ⟨r, i1, -, h1⟩ := mk true
  obtain ⟨r', i2, -, h2⟩ := mk false
  obtain ⟨g1, g2, -⟩ := C103_climb_gradient hW hS hC hac h1 h2 (by rw [i1]; norm_num) (by rw [i1, i2])
  refine ⟨ac, r, r', hac, h1, h2, ?_, ?_⟩
  · rw [g1]; simp only [d]; field_simp; norm_num
  · rw [g2]; simp only [d]; field_simp; norm_num

/-- C103.  In the simplified rotation the wing carries the weight with less than the maximum lift coefficient, on all days:
at most CLmax / 1.21 at the first node, CLmax / 1.44 at the last. -/
theorem C103_simplified (hm0 : m ≠ 0) (hW : 0 < d.mtow) (hS : 0 < d.sref) (hC : 0 < d.clmax) {r : Simple m} (h : r.Converged ac d)
    (hi : ∀ a, -216.65 < r.inc a) :
    (∀ a, Phases.lift (r.cl d a) (r.cond a).q d.sref = r.out.weight a * grav) ∧
    (∀ a, 0 ≤ r.out.weight a → r.cl d a ≤ d.clmax / 1.21 * (r.out.weight a / d.mtow)) ∧
    r.cl d 0 = d.clmax / 1.21 * (r.out.weight 0 / d.mtow) ∧
    r.cl d (Fin.last m) = d.clmax / 1.44 * (r.out.weight (Fin.last m) / d.mtow) := by
  have hv := vs_pos hW hS hC
  have hq := fun a => (Atmos.C95_dynamic_pressure _ _ _ (hi a) _ (h.atmos a)).1
  obtain ⟨u0, uN, ub⟩ := C102_rotation_speeds (d := d) hm0
  change Simple.ueas d (0 : Fin (m + 1)) = 1.1 * d.vs at u0
  change Simple.ueas d (Fin.last m) = 1.2 * d.vs at uN
  have key : ∀ a, r.cl d a = d.clmax * (d.vs ^ 2 / Simple.ueas d a ^ 2) * (r.out.weight a / d.mtow) := by
    intro a
    have ua : 0 < Simple.ueas d a := lt_of_lt_of_le (by positivity) (ub a).1
    unfold Simple.cl steadyCL
    simp only [hq]
    rw [div_div, div_eq_iff (by positivity)]
    field_simp
    linear_combination -2 * r.out.weight a * vs_sq hW hS hC
  refine ⟨fun a => ?_, fun a ha => ?_, ?_, ?_⟩
  · have ua : 0 < Simple.ueas d a := lt_of_lt_of_le (by positivity) (ub a).1
    unfold Phases.lift Simple.cl steadyCL
    simp only [hq]
    field_simp
  · rw [key]
    apply mul_le_mul_of_nonneg_right _ (by positivity)
    have ua := (ub a).1
    change 1.1 * d.vs ≤ _ at ua
    have ua0 : 0 < Simple.ueas d a := lt_of_lt_of_le (by positivity) ua
    rw [le_div_iff₀ (by norm_num)]
    have : d.vs ^ 2 / Simple.ueas d a ^ 2 ≤ 1 / 1.21 := by
      rw [div_le_div_iff₀ (by positivity) (by norm_num)]
      norm_num at ua ⊢
      nlinarith
    norm_num at this ⊢
    nlinarith
  · rw [key, u0]; field_simp; ring
  · rw [key, uN]; field_simp; ring

/-- specific excess thrust at a node of the simplified rotation -/
noncomputable def Simple.excess (r : Simple m) (a : Fin (m + 1)) : ℝ :=
  (r.out.thrust a - r.out.drag a) / (r.out.weight a * grav)

/-- C102.  The path of the simplified rotation in terms of thrust, drag, weight and speed: an arc with a load factor of 1.2
flown with the speed at the first node, until the path angle at which the excess thrust of the *first* node balances the
weight, then a straight climb with the excess thrust and the speed of the *last* node to 10.66 m.  Distance and time are the
sums over both parts, and the reported ranges run linearly over that distance. -/
theorem C102_simplified_path {r : Simple m} (h : r.Converged ac d) (hm0 : m ≠ 0)
    (h0 : 0 < r.excess 0) (hN : 0 < r.excess (Fin.last m))
    (ha : (r.cond 0).utrue ^ 2 / 0.2 / grav * (1 - √(1 - r.excess 0 ^ 2)) ≤ 10.66) :
    let R := (r.cond 0).utrue ^ 2 / 0.2 / grav
    let X := r.excess 0
    let Y := r.excess (Fin.last m)
    let climb := (10.66 - R * (1 - √(1 - X ^ 2))) * (√(1 - Y ^ 2) / Y)
    r.range (Fin.last m) - r.range 0 = R * X + climb ∧
    (r.acIn d).duration = R * X / (r.cond 0).utrue + climb / (r.cond (Fin.last m)).utrue ∧
    ∀ a : Fin (m + 1), r.range a = r.rangeInitial + (R * X + climb) * ((a : ℕ) / m) := by
  intro R X Y climb
  have key : ∀ a, 0 < r.excess a → Real.sin (r.gamma a) = r.excess a ∧ Real.cos (r.gamma a) = √(1 - r.excess a ^ 2) := by
    intro a hx
    have hc := h.angle a
    have e : (ClimbIn.mk (r.out.drag a) (r.out.weight a) (r.out.thrust a)).inner = r.excess a := by
      simp only [ClimbIn.inner, Simple.excess, div_div]
    unfold climbAngle at hc
    rw [e] at hc
    split_ifs at hc with hb
    have hg : r.gamma a = Real.arcsin (r.excess a) := (Option.some.inj hc).symm
    rw [hg]
    exact ⟨Real.sin_arcsin hb.1 hb.2, Real.cos_arcsin _⟩
  obtain ⟨s0, c0⟩ := key 0 h0
  obtain ⟨sN, cN⟩ := key (Fin.last m) hN
  have hR : r.rotation.trans.radius = R := by
    simp only [TransIn.radius, RotationIn.trans, Simple.rotation, R]; norm_num
  have hA : r.rotation.trans.arcHeight = R * (1 - √(1 - X ^ 2)) := by
    unfold TransIn.arcHeight
    rw [hR]
    show R * (1 - Real.cos (r.gamma 0)) = _
    rw [c0]
  have hle : ¬ r.rotation.trans.arcHeight > r.rotation.trans.hObstacle := by
    rw [hA]
    exact not_lt.2 ha
  have hs : sTrans r.rotation.trans = R * X := by
    unfold sTrans
    rw [if_neg hle, hR]
    show R * Real.sin (r.gamma 0) = _
    rw [s0]
  have hh : hTrans r.rotation.trans = R * (1 - √(1 - X ^ 2)) := by
    unfold hTrans
    rw [if_neg hle, hA]
  have hc : sClimb r.rotation.climb = climb := by
    unfold sClimb
    show (10.66 - hTrans r.rotation.trans) / Real.tan (r.gamma (Fin.last m)) = climb
    rw [hh, Real.tan_eq_sin_div_cos, sN, cN, div_eq_mul_inv, inv_div]
  have hrange : ∀ a : Fin (m + 1), r.range a = r.rangeInitial + (R * X + climb) * ((a : ℕ) / m) := by
    intro a
    have hm' : (m : ℝ) ≠ 0 := by exact_mod_cast hm0
    simp only [Simple.range, linspace, rotationRangeFinal, hs, hc]
    rw [show r.rotation.rangeInitial = r.rangeInitial from rfl]
    push_cast
    rw [add_sub_cancel_right]
    field_simp
    ring
  refine ⟨?_, ?_, hrange⟩
  · have hm' : (m : ℝ) ≠ 0 := by exact_mod_cast hm0
    rw [hrange, hrange]
    simp only [Fin.val_last, Fin.val_zero, Nat.cast_zero, zero_div, mul_zero, div_self hm']
    ring
  · show rotationDuration r.rotation = _
    unfold rotationDuration tTrans tClimb
    rw [hs, hc]
    rfl

/-- with 50 m/s and an excess thrust of a tenth of the weight the arc stays below the obstacle -/
example : (50 : ℝ) ^ 2 / 0.2 / grav * (1 - √(1 - 0.1 ^ 2)) ≤ 10.66 := by
  have hs : (0.9949 : ℝ) ≤ √(1 - 0.1 ^ 2) := by
    apply Real.le_sqrt_of_sq_le; norm_num
  norm_num [grav] at hs ⊢
  nlinarith

/-- C103.  The equivalent airspeed at the end of the ground roll: the balance compares the true airspeed with the rotation
speed, which is an equivalent airspeed, so that the margin over the stall changes with the density. -/
theorem C103_rotation_speed (hM : methodMatrix .simpson m = some M) (h : g.Converged ac d M v1 .v1vr) :
    (g.cond (Fin.last m)).ueas = 1.1 * d.vs * √((g.cond (Fin.last m)).rho / 1.225) := by
  have hl := (C102_ground_roll hM h).2.2
  have ha := h.atmos (Fin.last m)
  rw [hl] at ha
  unfold atmosTas at ha
  obtain ⟨p, -, e⟩ := Option.map_eq_some_iff.1 ha
  rw [← e]
  rfl

/-- C103, part: in air of standard sea level density or denser the airplane rotates with at least 1.1 times the stall speed.
Missing: all other days and altitudes, where it is false (`C103_rotation_warm`, `C103_rotation_below_stall`). -/
theorem C103_rotation_speed_partial (hM : methodMatrix .simpson m = some M) (h : g.Converged ac d M v1 .v1vr)
    (hr : 1.225 ≤ (g.cond (Fin.last m)).rho) : 1.1 * d.vs ≤ (g.cond (Fin.last m)).ueas := by
  rw [C103_rotation_speed hM h]
  have h0 : 0 ≤ d.vs := Real.sqrt_nonneg _
  have : 1 ≤ √((g.cond (Fin.last m)).rho / 1.225) := by
    rw [Real.one_le_sqrt, le_div_iff₀ (by norm_num)]; linarith
  nlinarith

theorem sl_density {inc : ℝ} {p : ℝ} (hp : Atmos.pressure 0 = some p) :
    Atmos.density p (Atmos.temperature 0 inc) = 101325 / 287.058 / (288.16 + inc) := by
  have e0 : Atmos.pressure 0 = some (Atmos.pblend 0) := by
    rw [Atmos.pressure_eq, if_neg (by unfold Atmos.hMax; norm_num)]
  have p0 : Atmos.pblend 0 = 101325 := by
    unfold Atmos.pblend Atmos.ptrop
    rw [if_pos (by norm_num [Atmos.hUpper, Atmos.hTrans, Atmos.epsilon]),
      if_pos (by norm_num [Atmos.hLower, Atmos.hTrans, Atmos.epsilon])]
    norm_num
  have t0 : Atmos.temperature 0 inc = 288.16 + inc := by
    unfold Atmos.temperature
    rw [Atmos.temp_eq]
    unfold Atmos.tblend
    rw [if_pos (by norm_num [Atmos.hUpper, Atmos.hTrans, Atmos.epsilon]),
      if_pos (by norm_num [Atmos.hLower, Atmos.hTrans, Atmos.epsilon])]
    norm_num
  rw [e0, p0] at hp
  cases hp
  rw [t0]
  unfold Atmos.density Atmos.R
  rfl

theorem cond_rho {h inc u : ℝ} {c : FltCond} (hc : atmosTas h inc u = some c) :
    ∃ p, Atmos.pressure h = some p ∧ c.rho = Atmos.density p (Atmos.temperature h inc) ∧ c.q = 0.5 * c.rho * u ^ 2 := by
  unfold atmosTas at hc
  obtain ⟨p, hp, e⟩ := Option.map_eq_some_iff.1 hc
  exact ⟨p, hp, by rw [← e], by rw [← e]; rfl⟩

/-- C103.  False at and above sea level on every standard or warmer day: the airplane rotates below 1.1 times the stall
speed. -/
theorem C103_rotation_warm (hM : methodMatrix .simpson m = some M) (hW : 0 < d.mtow) (hS : 0 < d.sref) (hC : 0 < d.clmax)
    (h : g.Converged ac d M v1 .v1vr) (hh : 0 ≤ g.h (Fin.last m)) (hh' : g.h (Fin.last m) ≤ 288.16 / 0.0065)
    (hi : 0 ≤ g.inc (Fin.last m)) : (g.cond (Fin.last m)).ueas < 1.1 * d.vs := by
  have hv := vs_pos hW hS hC
  rw [C103_rotation_speed hM h]
  obtain ⟨p, hp, er, -⟩ := cond_rho (h.atmos (Fin.last m))
  have sl : ∀ p0, Atmos.pressure 0 = some p0 → Atmos.density p0 (Atmos.temperature 0 (g.inc (Fin.last m))) < 1.225 := by
    intro p0 h0
    rw [sl_density h0, div_lt_iff₀ (by linarith)]
    norm_num
    linarith
  have lt : (g.cond (Fin.last m)).rho < 1.225 := by
    rw [er]
    rcases hh.eq_or_lt with h0 | h0
    · rw [← h0] at hp ⊢
      exact sl p hp
    · obtain ⟨p0, p', e0, e', -, l⟩ := Atmos.C95_density_decreasing (g.inc (Fin.last m)) 0 _ (by linarith) h0 hh'
      rw [hp] at e'; cases e'
      exact l.trans (sl p0 e0)
  have : √((g.cond (Fin.last m)).rho / 1.225) < 1 := by
    rw [Real.sqrt_lt' one_pos, div_lt_iff₀ (by norm_num)]; linarith
  nlinarith

/-- C103.  Below a density of 1.225 / 1.21 the airplane rotates below its stall speed. -/
theorem C103_rotation_stall (hM : methodMatrix .simpson m = some M) (hW : 0 < d.mtow) (hS : 0 < d.sref) (hC : 0 < d.clmax)
    (h : g.Converged ac d M v1 .v1vr) (hr : (g.cond (Fin.last m)).rho < 1.225 / 1.21) :
    (g.cond (Fin.last m)).ueas < d.vs := by
  have hv := vs_pos hW hS hC
  rw [C103_rotation_speed hM h]
  have : √((g.cond (Fin.last m)).rho / 1.225) < 1 / 1.1 := by
    rw [Real.sqrt_lt' (by norm_num), div_lt_iff₀ (by norm_num)]
    norm_num at hr ⊢
    linarith
  norm_num at this ⊢
  nlinarith

/-- C103.  Witness: with the runway altitude set to 3000 m a converged take-off rotates below the stall speed, where the
wing cannot carry the maximum take-off weight at any lift coefficient up to CLmax. -/
theorem C103_rotation_below_stall : ∃ (ac : Craft 2) (t : Takeoff 2) (d : Design), t.Converged ac d (simpsonTri 2) ∧
    0 < d.mtow ∧ 0 < d.sref ∧ 0 < d.clmax ∧ (∀ a, t.v1vr.h a = 3000 ∧ t.v1vr.inc a = 0) ∧
    (t.v1vr.cond 2).ueas < d.vs ∧
    ∀ cl ≤ d.clmax, Phases.lift cl (t.v1vr.cond 2).q d.sref < d.mtow * grav := by
  have hv : (40 : ℝ) + 0.1 ≤ Design.vr ⟨5700, 30, 2⟩ := by
    unfold Design.vr Design.vs vStall
    have : (38 : ℝ) ≤ √(2 * 5700 * grav / 1.225 / 30 / 2) := by
      rw [Real.le_sqrt' (by norm_num)]; norm_num [grav]
    norm_num at this ⊢
    linarith
  have hM : methodMatrix (K := ℝ) .simpson 2 = some (simpsonTri 2) := methodMatrix_simpson.2 ⟨rfl, rfl⟩
  obtain ⟨ac, t, h, -, e⟩ := C102_reachable (m := 2) (d := ⟨5700, 30, 2⟩) rfl (by norm_num) (by norm_num) 40 3000 0 (by norm_num) hv
    (by norm_num)
  have hr : (t.v1vr.cond (Fin.last 2)).rho < 1.225 / 1.21 := by
    obtain ⟨p, hp, er, -⟩ := cond_rho (h.v1vr.atmos (Fin.last 2))
    rw [(e _).1] at hp er
    rw [(e _).2] at er
    have hl : Atmos.hLower = 10500 := by norm_num [Atmos.hLower, Atmos.hTrans, Atmos.epsilon]
    have hu : Atmos.hUpper = 11500 := by norm_num [Atmos.hUpper, Atmos.hTrans, Atmos.epsilon]
    have hpv : Atmos.pressure 3000 = some (101325 * (1 - 0.0065 * 3000 / 288.16) ^ (5.2561 : ℝ)) := by
      rw [Atmos.pressure_eq, if_neg (by unfold Atmos.hMax; norm_num)]
      unfold Atmos.pblend Atmos.ptrop
      rw [hl, hu, if_pos (by norm_num), if_pos (by norm_num)]
    have ht : Atmos.temperature 3000 0 = 288.16 - 0.0065 * 3000 := by
      unfold Atmos.temperature
      rw [Atmos.temp_eq]
      unfold Atmos.tblend
      rw [hl, hu, if_pos (by norm_num), if_pos (by norm_num)]
      norm_num
    rw [hpv] at hp; cases hp
    rw [er, ht]
    unfold Atmos.density Atmos.R
    have hx : (1 - 0.0065 * 3000 / 288.16 : ℝ) ^ (5.2561 : ℝ) ≤ (1 - 0.0065 * 3000 / 288.16 : ℝ) ^ (5 : ℝ) :=
      Real.rpow_le_rpow_of_exponent_ge (by norm_num) (by norm_num) (by norm_num)
    rw [show (5 : ℝ) = ((5 : ℕ) : ℝ) by norm_num, Real.rpow_natCast] at hx
    refine lt_of_le_of_lt (div_le_div_of_nonneg_right (div_le_div_of_nonneg_right
      (mul_le_mul_of_nonneg_left hx (by norm_num)) (by norm_num)) (by norm_num)) ?_
    norm_num
  have hs := C103_rotation_stall hM (by norm_num) (by norm_num) (by norm_num) h.v1vr hr
  refine ⟨ac, t, _, h, by norm_num, by norm_num, by norm_num, e, hs, fun cl hcl => ?_⟩
  obtain ⟨p, hp, er, hq⟩ := cond_rho (h.v1vr.atmos (Fin.last 2))
  have hspd := C103_rotation_speed hM h.v1vr
  have hu := (C102_ground_roll hM h.v1vr).2.2
  have hrho : 0 ≤ (t.v1vr.cond (Fin.last 2)).rho := by
    rw [er, (e _).1, (e _).2]
    rw [(e _).1] at hp
    obtain ⟨p', hp', hpos⟩ := pressure_some (h := 3000) (by norm_num)
    rw [hp'] at hp; cases hp
    have := (Atmos.C35_temperature 3000 3000 0 le_rfl).2
    norm_num at this
    unfold Atmos.density Atmos.R
    have : 0 < Atmos.temperature 3000 0 := by linarith
    positivity
  have h0 : 0 ≤ (t.v1vr.cond (Fin.last 2)).ueas := by
    rw [hspd]
    have : 0 ≤ Design.vs ⟨5700, 30, 2⟩ := Real.sqrt_nonneg _
    positivity
  have hb := Aero.C60_below_stall 5700 30 2 _ cl (by norm_num) (by norm_num) (by norm_num) h0 hs hcl
  have hqe : (t.v1vr.cond (Fin.last 2)).q = 1 / 2 * 1.225 * (t.v1vr.cond (Fin.last 2)).ueas ^ 2 := by
    rw [hq, hu, hspd, mul_pow _ (√_), Real.sq_sqrt (by positivity)]
    simp only [Seg.to]
    ring
  unfold Aero.lift at hb
  unfold Phases.lift
  change (t.v1vr.cond (Fin.last 2)).q * _ * _ < _
  rw [hqe]
  exact hb

/-- C103.  With the simplified transition the airspeed jumps at rotation: the ground roll ends at the true airspeed that
the next phase takes as equivalent airspeed. -/
theorem C103_speed_jump (hM : methodMatrix .simpson m = some M) (hm0 : m ≠ 0) (hW : 0 < d.mtow) (hS : 0 < d.sref)
    (hC : 0 < d.clmax) {t : Takeoff m} (h : t.Converged ac d M) {r : Simple m} (hr : t.rotate = .simplified r)
    (hi : 0 ≤ r.inc 0) (hh : 0 ≤ r.hInitial) (hh' : r.hInitial ≤ 288.16 / 0.0065) :
    t.v1vr.utrue (Fin.last m) < (r.cond 0).utrue := by
  have hv := vs_pos hW hS hC
  have hc := h.rotate
  rw [hr] at hc
  have ha := hc.atmos 0
  have e0 : r.h 0 = r.hInitial := by simp [Simple.h, linspace]
  have u0 := (C102_rotation_speeds (d := d) hm0).1
  rw [e0, u0] at ha
  obtain ⟨c, ec, lt⟩ := Atmos.C95_true_exceeds (r.inc 0) r.hInitial (1.1 * d.vs) hi hh hh' (by positivity)
  change atmosEas _ _ (1.1 * d.vs) = _ at ha
  rw [ha] at ec; cases ec
  rw [(C102_speeds hM h).2.2.2.1]
  exact lt

/-- C103.  The integrated rotation lifts off exactly if the air is dense enough: the first vertical acceleration is
nonnegative iff `0.83 · 1.21 · ρ · MTOW ≥ 1.225 · weight`. -/
theorem C103_liftoff_iff (hM : methodMatrix .simpson m = some M) (hW : 0 < d.mtow) (hS : 0 < d.sref) (hC : 0 < d.clmax)
    {t : Takeoff m} (h : t.Converged ac d M) {r : Ode m} (hr : t.rotate = .ode r) (hw : 0 < r.out.weight 0) :
    0 ≤ accelVert (r.accelIn d 0) ↔ 1.225 * r.out.weight 0 ≤ 0.83 * 1.21 * (r.cond 0).rho * d.mtow := by
  have hg : (0 : ℝ) < grav := by norm_num [grav]
  have hv := vs_pos hW hS hC
  obtain ⟨hu, hvs, hh, -, -⟩ := C102_rotation hM h hr
  change r.utrue 0 = 1.1 * d.vs at hu
  have hc := h.rotate
  rw [hr] at hc
  obtain ⟨p, hp, er, hq⟩ := cond_rho (hc.1.atmos 0)
  have hgs : (r.gsIn 0).inside = r.utrue 0 ^ 2 := by simp [GsIn.inside, Ode.gsIn, hvs]
  have hsin : singamma (r.gsIn 0) = 0 := by
    unfold singamma; rw [hgs, if_neg (not_lt.2 (sq_nonneg _))]; simp [Ode.gsIn, hvs]
  have hcos : cosgamma (r.gsIn 0) = 1 := by
    unfold cosgamma groundspeed
    rw [hgs, if_neg (not_lt.2 (sq_nonneg _)), hu, Real.sqrt_sq (by positivity)]
    simp only [Ode.gsIn, hu]
    exact div_self (by positivity)
  have hraw : accelVertRaw (r.accelIn d 0) * r.out.weight 0 =
      grav * (0.83 * 1.21 * (r.cond 0).rho * d.mtow / 1.225 - r.out.weight 0) := by
    unfold accelVertRaw
    simp only [Ode.accelIn, hsin, hcos, Phases.lift, Ode.cl, hq, hu]
    field_simp
    linear_combination 0.83 * 1.21 * (r.cond 0).rho * vs_sq hW hS hC
  have hsgn : 0 ≤ accelVert (r.accelIn d 0) ↔ 0 ≤ accelVertRaw (r.accelIn d 0) := by
    unfold accelVert
    rw [le_min_iff, le_max_iff]
    constructor
    · rintro ⟨a | a, -⟩
      · exact a
      · linarith
    · intro a; exact ⟨Or.inl a, by positivity⟩
  rw [hsgn]
  constructor
  · intro a
    have : 0 ≤ grav * (0.83 * 1.21 * (r.cond 0).rho * d.mtow / 1.225 - r.out.weight 0) := by
      rw [← hraw]; positivity
    have := nonneg_of_mul_nonneg_right this hg
    rw [sub_nonneg, le_div_iff₀ (by norm_num)] at this
    linarith
  · intro a
    have : 0 ≤ accelVertRaw (r.accelIn d 0) * r.out.weight 0 := by
      rw [hraw]
      apply mul_nonneg hg.le
      rw [sub_nonneg, le_div_iff₀ (by norm_num)]
      linarith
    exact nonneg_of_mul_nonneg_left this hw

/-- C103, part: on a standard or colder day, at up to the maximum take-off weight, the integrated rotation starts upwards.
Missing: warmer days, where it is false (`C103_liftoff_hot`). -/
theorem C103_liftoff_partial (hM : methodMatrix .simpson m = some M) (hW : 0 < d.mtow) (hS : 0 < d.sref) (hC : 0 < d.clmax)
    {t : Takeoff m} (h : t.Converged ac d M) {r : Ode m} (hr : t.rotate = .ode r) (hw : 0 < r.out.weight 0)
    (hw' : r.out.weight 0 ≤ d.mtow) (hi : r.inc 0 ≤ 1) (hi' : -288 < r.inc 0) : 0 ≤ accelVert (r.accelIn d 0) := by
  rw [C103_liftoff_iff hM hW hS hC h hr hw]
  have hc := h.rotate
  rw [hr] at hc
  obtain ⟨p, hp, er, -⟩ := cond_rho (hc.1.atmos 0)
  rw [(C102_rotation hM h hr).2.2.1] at hp er
  rw [er, sl_density hp]
  have : 1.225 / (0.83 * 1.21) ≤ 101325 / 287.058 / (288.16 + r.inc 0) := by
    rw [le_div_iff₀ (by linarith)]
    norm_num
    linarith
  norm_num at this ⊢
  nlinarith

/-- C103.  False on every day at least 2 K warmer than standard: at the maximum take-off weight every converged integrated
rotation starts by sinking, below the runway it starts from. -/
theorem C103_liftoff_hot (hM : methodMatrix .simpson m = some M) (hW : 0 < d.mtow) (hS : 0 < d.sref) (hC : 0 < d.clmax)
    {t : Takeoff m} (h : t.Converged ac d M) {r : Ode m} (hr : t.rotate = .ode r)
    (hw : d.mtow ≤ r.out.weight 0) (hi : 2 ≤ r.inc 0) : accelVert (r.accelIn d 0) < 0 := by
  rw [← not_le, C103_liftoff_iff hM hW hS hC h hr (by linarith), not_le]
  have hc := h.rotate
  rw [hr] at hc
  obtain ⟨p, hp, er, -⟩ := cond_rho (hc.1.atmos 0)
  rw [(C102_rotation hM h hr).2.2.1] at hp er
  rw [er, sl_density hp]
  have : 101325 / 287.058 / (288.16 + r.inc 0) < 1.225 / (0.83 * 1.21) := by
    rw [div_lt_iff₀ (by linarith)]
    norm_num
    linarith
  norm_num at this ⊢
  nlinarith

theorem integrate_two (q T : ℝ) (f : Fin 3 → ℝ) :
    integratorCompute (simpsonTri 2) q (.duration T) f =
      ![q, q + T / 2 * ((5 * f 0 + 8 * f 1 - f 2) / 12), q + T / 2 * ((f 0 + 4 * f 1 + f 2) / 3)] := by
  have e0 : ext0 f 0 = f 0 := ext0_fin f 0
  have e1 : ext0 f 1 = f 1 := ext0_fin f 1
  have e2 : ext0 f 2 = f 2 := ext0_fin f 2
  funext a
  have h := simpsonTri_seq (m := 2) rfl (ext0 f) a
  rw [ext0_eq] at h
  rw [integratorCompute_eq, h]
  fin_cases a <;> simp [simpsonSeq, Finset.sum_range_succ, TimeInput.step, e0, e1, e2] <;> ring

/-- the simplest integrated rotation on a day 10 K above standard: constant airspeed, the vertical acceleration that the
rotation speed allows at the first node and 1 m/s² after it -/
theorem ode_exists (d : Design) (hW : 0 < d.mtow) (hS : 0 < d.sref) (hC : 0 < d.clmax) (hvr : 20 ≤ d.vr) (r0 : ℝ) :
    ∃ (rot : AcOut 2) (r : Ode 2), (∀ k0 k1 k2, Rotation.Converged (uniformCraft d rot k0 k1 k2) d (simpsonTri 2) d.vr (.ode r)) ∧
      r.rangeInitial = r0 ∧ 0 ≤ Rotation.distance (simpsonTri 2) (.ode r) ∧ r.inc 0 = 10 ∧ r.out.weight 0 = d.mtow := by
  have hg : grav = 9.80665 := by norm_num [grav]
  have hg0 : (0 : ℝ) < grav := by norm_num [grav]
  set σ : ℝ := 101325 / 287.058 / (288.16 + 10) / 1.225 with hσ
  set α : ℝ := grav * (0.83 * 1.21 * σ - 1) with hα
  have hα1 : -0.3 < α := by rw [hα, hσ, hg]; norm_num
  have hα2 : α < 0 := by rw [hα, hσ, hg]; norm_num
  set τ : ℝ := √(3 * hObs / (4 + 2 * α)) with hτ
  have hden : 0 < 4 + 2 * α := by linarith
  have hobs : 0 < hObs := by norm_num [hObs]
  have hτ2 : τ ^ 2 * (4 + 2 * α) = 3 * hObs := by
    rw [hτ, Real.sq_sqrt (by positivity)]; field_simp
  have hτ0 : 0 < τ := Real.sqrt_pos.2 (by positivity)
  have hτ3 : τ < 4 := by
    by_contra hc
    have : 4 ≤ τ := not_lt.1 hc
    norm_num [hObs] at hτ2
    nlinarith
  set u := d.vr with hu
  have hu0 : 0 < u := by linarith
  have huvs : u = 1.1 * d.vs := by rw [hu]; unfold Design.vr; ring
  let w1 : ℝ := τ * ((5 * α + 7) / 12)
  let w2 : ℝ := τ * ((α + 5) / 3)
  have hw1 : 0 < w1 ∧ w1 < 3 := by
    constructor
    · have : 0 < 5 * α + 7 := by linarith
      simp only [w1]; positivity
    · simp only [w1]; nlinarith
  have hw2 : 0 < w2 ∧ w2 < 8 := by
    constructor
    · have : 0 < α + 5 := by linarith
      simp only [w2]; positivity
    · simp only [w2]; nlinarith
  let h1 : ℝ := τ * ((8 * w1 - w2) / 12)
  have hh1 : h1 < 20 := by simp only [h1]; nlinarith [hw1.1, hw1.2, hw2.1]
  let vs : Fin 3 → ℝ := ![0, w1, w2]
  let h : Fin 3 → ℝ := ![0, h1, hObs]
  have hvs : ∀ a, |vs a| < u := by
    intro a
    fin_cases a
    · simpa [vs] using hu0
    · simp only [vs]; rw [abs_lt]; constructor <;> simp <;> linarith [hw1.1, hw1.2]
    · simp only [vs]; rw [abs_lt]; constructor <;> simp <;> linarith [hw2.1, hw2.2]
  have hle : ∀ a, h a ≤ 288.16 / 0.0065 := by
    intro a
    fin_cases a <;> norm_num [h, hObs]
    linarith
  have hc : ∀ a, ∃ c, atmosTas (h a) 10 u = some c ∧ 0 < c.rho := fun a => by
    obtain ⟨p, hp, h0⟩ := pressure_some (hle a)
    refine ⟨_, by unfold atmosTas; rw [hp]; rfl, ?_⟩
    have := (Atmos.C35_temperature (h a) (h a) 10 le_rfl).2
    have hT : 0 < Atmos.temperature (h a) 10 := by linarith
    simp only [Atmos.density, Atmos.R]
    positivity
  choose c hc hρ using hc
  have hq : ∀ a, (c a).q = 0.5 * (c a).rho * u ^ 2 := fun a => (cond_rho (hc a)).choose_spec.2.2
  let L : Fin 3 → ℝ := fun a => Phases.lift (Ode.cl d) (c a).q d.sref
  have hL : ∀ a, 0 < L a := fun a => by
    simp only [L, Phases.lift, Ode.cl, hq]; have := hρ a; positivity
  let sn : Fin 3 → ℝ := fun a => vs a / u
  let cs : Fin 3 → ℝ := fun a => √(u ^ 2 - vs a ^ 2) / u
  have hin : ∀ a, 0 < u ^ 2 - vs a ^ 2 := fun a => by
    have := sq_lt_sq' (abs_lt.1 (hvs a)).1 (abs_lt.1 (hvs a)).2
    linarith
  have hcs : ∀ a, 0 < cs a := fun a => div_pos (Real.sqrt_pos.2 (hin a)) hu0
  have hcs2 : ∀ a, cs a ^ 2 = 1 - sn a ^ 2 := fun a => by
    simp only [cs, sn, div_pow, Real.sq_sqrt (hin a).le]; field_simp
  let w : Fin 3 → ℝ := fun a => if a = 0 then d.mtow else L a * cs a / (1 + grav * cs a ^ 2)
  have hw : ∀ a, 0 < w a := fun a => by
    simp only [w]; split_ifs
    · exact hW
    · have := hL a; have := hcs a; positivity
  let out : AcOut 2 := ⟨fun a => w a * grav * sn a, fun _ => 0, w⟩
  let r : Ode 2 := ⟨fun _ => 10, 2 * τ, u, r0, fun _ => u, vs, h, c, out⟩
  have hgs : ∀ a, (r.gsIn a).inside = u ^ 2 - vs a ^ 2 := fun a => rfl
  have hsin : ∀ a, singamma (r.gsIn a) = sn a := fun a => by
    unfold singamma; rw [hgs, if_neg (not_lt.2 (hin a).le)]; rfl
  have hcos : ∀ a, cosgamma (r.gsIn a) = cs a := fun a => by
    unfold cosgamma groundspeed; rw [hgs, if_neg (not_lt.2 (hin a).le)]; rfl
  have hL0 : L 0 = d.mtow * (grav * (0.83 * 1.21 * σ)) := by
    obtain ⟨p, hp, er, -⟩ := cond_rho (hc 0)
    have hp' : Atmos.pressure 0 = some p := hp
    have er' : (c 0).rho = 1.225 * σ := by
      rw [er]; show Atmos.density p (Atmos.temperature 0 10) = _
      rw [sl_density hp', hσ]; ring
    simp only [L, Phases.lift, Ode.cl, hq, er', huvs]
    linear_combination (0.83 * 1.21 * σ) * vs_sq hW hS hC
  have hraw : ∀ a, accelVertRaw (r.accelIn d a) = if a = 0 then α else 1 := by
    intro a
    have hwa := (hw a).ne'
    unfold accelVertRaw
    simp only [Ode.accelIn, hsin, hcos]
    show (L a * cs a + (w a * grav * sn a - 0) * sn a - grav * w a) / w a = _
    have e : (L a * cs a + (w a * grav * sn a - 0) * sn a - grav * w a) / w a = L a * cs a / w a - grav * cs a ^ 2 := by
      rw [hcs2]; field_simp; ring
    rw [e]
    by_cases ha : a = 0
    · subst ha
      have c0 : cs 0 = 1 := by
        simp only [cs, vs]; simp [Real.sqrt_sq hu0.le]; exact hu0.ne'
      rw [if_pos rfl, c0]
      simp only [w, if_true, hL0, hα]
      field_simp
    · rw [if_neg ha]
      simp only [w, if_neg ha]
      have := (hL a).ne'; have := (hcs a).ne'
      have h3 : 1 + grav * cs a ^ 2 ≠ 0 := by have := hcs a; positivity
      have h4 : L a * cs a ≠ 0 := mul_ne_zero ‹_› ‹_›
      rw [div_div_cancel₀ h4]; ring
  have hvert : ∀ a, accelVert (r.accelIn d a) = if a = 0 then α else 1 := by
    intro a
    unfold accelVert
    rw [hraw]
    split_ifs
    · rw [max_eq_left (by rw [hg]; linarith), min_eq_left (by rw [hg]; norm_num; linarith)]
    · rw [max_eq_left (by rw [hg]; norm_num), min_eq_left (by rw [hg]; norm_num)]
  have hhor : ∀ a, accelHoriz (r.accelIn d a) = 0 := by
    intro a
    have hwa := (hw a).ne'
    unfold accelHoriz
    simp only [Ode.accelIn, hsin]
    show w a * grav * sn a / w a - 0 / w a - _ * 0 * _ - grav * sn a = 0
    field_simp
    ring
  refine ⟨out, r, fun k0 k1 k2 => ⟨⟨hc, ?_, ?_, ?_, ?_, ?_⟩, rfl⟩, rfl, ?_, rfl, ?_⟩
  · show out = _
    simp [uniformCraft]
  · funext a
    simp only [hhor]
    show u = _
    rw [integrate_two]
    fin_cases a <;> simp [r]
  · show vs = _
    simp only [hvert]
    rw [integrate_two]
    funext a
    fin_cases a
    · simp [r, vs]
    · simp [r, vs, w1]; left; ring
    · simp [r, vs, w2]; left; ring
  · show h = integratorCompute _ _ _ vs
    rw [integrate_two]
    funext a
    fin_cases a
    · simp [r, h]
    · simp [r, h, vs, h1]
    · simp [r, h, vs, w1, w2]
      linear_combination -1 / 3 * hτ2
  · show hObs - h (Fin.last 2) = 0
    simp [h]
  · simp only [Rotation.distance, integratorFinal, integrate_two]
    have hpos : ∀ a, 0 ≤ groundspeed (r.gsIn a) := fun a => Real.sqrt_nonneg _
    have := hpos 0; have := hpos 1; have := hpos 2
    simp [r]
    positivity
  · simp [r, out, w]

/-- C103.  Witness of a sinking rotation: a converged balanced take-off on a day 10 K above standard. -/
theorem C103_liftoff_witness : ∃ (ac : Craft 2) (t : Takeoff 2) (r : Ode 2) (d : Design), t.Converged ac d (simpsonTri 2) ∧
    t.rotate = .ode r ∧ 0 < d.mtow ∧ 0 < d.sref ∧ 0 < d.clmax ∧ r.inc 0 = 10 ∧ r.out.weight 0 = d.mtow ∧
    accelVert (r.accelIn d 0) < 0 := by
  have hv : (40 : ℝ) + 0.1 ≤ Design.vr ⟨5700, 30, 2⟩ := by
    unfold Design.vr Design.vs vStall
    have : (38 : ℝ) ≤ √(2 * 5700 * grav / 1.225 / 30 / 2) := by
      rw [Real.le_sqrt' (by norm_num)]; norm_num [grav]
    norm_num at this ⊢
    linarith
  obtain ⟨rot, r, rc, ri, rd, inc, wt⟩ := ode_exists ⟨5700, 30, 2⟩ (by norm_num) (by norm_num) (by norm_num)
    (by norm_num at hv; linarith) ((40 ^ 2 - 4) / 4 + (Design.vr ⟨5700, 30, 2⟩ ^ 2 - 40 ^ 2) / 2)
  obtain ⟨ac, t, h, -, e, -⟩ := takeoff_exists (m := 2) (d := ⟨5700, 30, 2⟩) rfl (by norm_num) (by norm_num) 40 0 10
    (by norm_num) hv (by norm_num) rot (.ode r) rc ri rd
  exact ⟨ac, t, r, _, h, e, by norm_num, by norm_num, by norm_num, inc, wt,
    C103_liftoff_hot (methodMatrix_simpson.2 ⟨rfl, rfl⟩) (by norm_num) (by norm_num) (by norm_num) h e wt.ge (by rw [inc]; norm_num)⟩

end Verif.Bfl
