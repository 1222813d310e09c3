import Verif.Props.Tutorial2

/-! Property C123: the fuel burn of the tutorial airplane. -/

namespace Verif.Phases

open Integrals Matrix

variable {m : ℕ}

/-- `W` decays at the relative rates `g` per step, integrated with Simpson's rule -/
def Decays (g : Fin (m + 1) → ℝ) (w0 : ℝ) (W : Fin (m + 1) → ℝ) : Prop :=
  ∀ a, W a = w0 - (simpsonTri m *ᵥ fun b => g b * W b) a

/-- the two equations of a pair of steps -/
theorem Decays.pair (hm : m % 2 = 0) {g : Fin (m + 1) → ℝ} {w0 : ℝ} {W : Fin (m + 1) → ℝ} (h : Decays g w0 W) (k : ℕ) (hk : 2 * k + 2 ≤ m) :
    W ⟨2 * k + 1, by omega⟩ = W ⟨2 * k, by omega⟩ - (5 / 12 * (g ⟨2 * k, by omega⟩ * W ⟨2 * k, by omega⟩) +
      8 / 12 * (g ⟨2 * k + 1, by omega⟩ * W ⟨2 * k + 1, by omega⟩) - 1 / 12 * (g ⟨2 * k + 2, by omega⟩ * W ⟨2 * k + 2, by omega⟩)) ∧
    W ⟨2 * k + 2, by omega⟩ = W ⟨2 * k, by omega⟩ - 1 / 3 * (g ⟨2 * k, by omega⟩ * W ⟨2 * k, by omega⟩ +
      4 * (g ⟨2 * k + 1, by omega⟩ * W ⟨2 * k + 1, by omega⟩) + g ⟨2 * k + 2, by omega⟩ * W ⟨2 * k + 2, by omega⟩) := by
  have key : ∀ a : Fin (m + 1), W a = w0 - simpsonSeq (ext0 fun b => g b * W b) a := by
    intro a
    rw [h a, ← simpsonTri_seq hm, ext0_eq]
  have e0 := key ⟨2 * k, by omega⟩
  have e1 := key ⟨2 * k + 1, by omega⟩
  have e2 := key ⟨2 * k + 2, by omega⟩
  dsimp only at e0 e1 e2
  rw [simpsonSeq_even, simpsonSeq_odd] at e2
  rw [simpsonSeq_odd] at e1
  rw [ext0_of_lt _ (2 * k) (by omega), ext0_of_lt _ (2 * k + 1) (by omega), ext0_of_lt _ (2 * k + 2) (by omega)] at e1 e2
  constructor <;> linarith

theorem Decays.start (hm : m % 2 = 0) {g : Fin (m + 1) → ℝ} {w0 : ℝ} {W : Fin (m + 1) → ℝ} (h : Decays g w0 W) : W 0 = w0 := by
  have e := h 0
  rw [← ext0_eq (fun b => g b * W b), simpsonTri_seq hm] at e
  simpa [simpsonSeq] using e

theorem pair_det {b d x y : ℝ} (hb : 0 ≤ b) (hd : 0 ≤ d) {P Q : ℝ} (e1 : x + 8 / 12 * (b * x) - 1 / 12 * (d * y) = P)
    (e2 : y + 4 / 3 * (b * x) + 1 / 3 * (d * y) = Q) :
    x * (1 + 2 / 3 * b + 1 / 3 * d + 1 / 3 * (b * d)) = P * (1 + d / 3) + Q * (d / 12) ∧
    y * (1 + 2 / 3 * b + 1 / 3 * d + 1 / 3 * (b * d)) = Q * (1 + 2 / 3 * b) - P * (4 / 3 * b) ∧
    0 < 1 + 2 / 3 * b + 1 / 3 * d + 1 / 3 * (b * d) := by
  subst e1 e2
  exact ⟨by ring, by ring, by positivity⟩

/-- no other solution than zero starts at zero -/
theorem Decays.zero (hm : m % 2 = 0) {g : Fin (m + 1) → ℝ} (hg : ∀ a, 0 ≤ g a) {W : Fin (m + 1) → ℝ} (h : Decays g 0 W) : W = 0 := by
  have key : ∀ k (hk : 2 * k ≤ m), W ⟨2 * k, by omega⟩ = 0 ∧ (∀ hk' : 2 * k + 1 ≤ m, W ⟨2 * k + 1, by omega⟩ = 0) := by
    intro k
    have step : ∀ k (hk : 2 * k + 2 ≤ m), W ⟨2 * k, by omega⟩ = 0 → W ⟨2 * k + 1, by omega⟩ = 0 ∧ W ⟨2 * k + 2, by omega⟩ = 0 := by
      intro k hk h0
      obtain ⟨e1, e2⟩ := h.pair hm k hk
      rw [h0] at e1 e2
      obtain ⟨d1, d2, d3⟩ := pair_det (hg ⟨2 * k + 1, by omega⟩) (hg ⟨2 * k + 2, by omega⟩) (P := 0) (Q := 0)
        (x := W ⟨2 * k + 1, by omega⟩) (y := W ⟨2 * k + 2, by omega⟩) (by linarith) (by linarith)
      simp only [zero_mul, add_zero, sub_zero, mul_eq_zero, d3.ne', or_false] at d1 d2
      exact ⟨d1, d2⟩
    induction k with
    | zero =>
      intro _
      have h0 : W ⟨2 * 0, by omega⟩ = 0 := h.start hm
      exact ⟨h0, fun hk' => (step 0 (by omega) h0).1⟩
    | succ k ih =>
      intro hk
      have h0 := (step k (by omega) (ih (by omega)).1).2
      exact ⟨h0, fun hk' => (step (k + 1) (by omega) h0).1⟩
  funext a
  obtain ⟨n, hn⟩ := a
  rcases Nat.even_or_odd' n with ⟨k, rfl | rfl⟩
  · exact (key k (by omega)).1
  · exact (key k (by omega)).2 (by omega)

/-- there is exactly one solution for nonnegative rates, whatever the step -/
theorem Decays.existsUnique (hm : m % 2 = 0) {g : Fin (m + 1) → ℝ} (hg : ∀ a, 0 ≤ g a) (w0 : ℝ) : ∃! W, Decays g w0 W := by
  let L : (Fin (m + 1) → ℝ) →ₗ[ℝ] (Fin (m + 1) → ℝ) :=
    LinearMap.id + (Matrix.mulVecLin (simpsonTri m)) ∘ₗ (LinearMap.pi fun b => g b • LinearMap.proj b)
  have hL : ∀ W, L W = W + simpsonTri m *ᵥ fun b => g b * W b := by
    intro W
    simp only [L, LinearMap.add_apply, LinearMap.id_apply, LinearMap.comp_apply, Matrix.mulVecLin_apply]
    rfl
  have inj : Function.Injective L := by
    rw [← LinearMap.ker_eq_bot, LinearMap.ker_eq_bot']
    intro W hW
    refine Decays.zero hm hg fun a => ?_
    have := congrFun (hL W ▸ hW) a
    simp only [Pi.add_apply, Pi.zero_apply] at this
    linarith
  obtain ⟨W, hW⟩ := LinearMap.surjective_of_injective inj (fun _ => w0)
  refine ⟨W, fun a => ?_, fun V hV => ?_⟩
  · have := congrFun (hL W ▸ hW) a
    simp only [Pi.add_apply] at this
    linarith
  · refine inj ?_
    rw [hW, hL]
    funext a
    have := hV a
    simp only [Pi.add_apply]
    linarith

/-- if at most the whole weight would burn in one step, the weight stays positive, and does not grow over the phase -/
theorem Decays.pos (hm : m % 2 = 0) {g : Fin (m + 1) → ℝ} (hg : ∀ a, 0 ≤ g a ∧ g a ≤ 1) {w0 : ℝ} (hw : 0 < w0) {W : Fin (m + 1) → ℝ}
    (h : Decays g w0 W) : (∀ a, 0 < W a) ∧ W (Fin.last m) ≤ w0 := by
  have step : ∀ k (hk : 2 * k + 2 ≤ m), 0 < W ⟨2 * k, by omega⟩ →
      0 < W ⟨2 * k + 1, by omega⟩ ∧ 0 < W ⟨2 * k + 2, by omega⟩ ∧ W ⟨2 * k + 2, by omega⟩ ≤ W ⟨2 * k, by omega⟩ := by
    intro k hk h0
    obtain ⟨e1, e2⟩ := h.pair hm k hk
    have ha := hg ⟨2 * k, by omega⟩
    have hb := hg ⟨2 * k + 1, by omega⟩
    have hd := hg ⟨2 * k + 2, by omega⟩
    generalize W ⟨2 * k, by omega⟩ = z at *
    generalize g ⟨2 * k, by omega⟩ = a at *
    obtain ⟨d1, d2, d3⟩ := pair_det hb.1 hd.1 (P := z * (1 - 5 / 12 * a)) (Q := z * (1 - 1 / 3 * a))
      (x := W ⟨2 * k + 1, by omega⟩) (y := W ⟨2 * k + 2, by omega⟩) (by linarith) (by linarith)
    generalize W ⟨2 * k + 1, by omega⟩ = x at *
    generalize W ⟨2 * k + 2, by omega⟩ = y at *
    generalize g ⟨2 * k + 1, by omega⟩ = b at *
    generalize g ⟨2 * k + 2, by omega⟩ = d at *
    have p1 : 0 < x * (1 + 2 / 3 * b + 1 / 3 * d + 1 / 3 * (b * d)) := by
      rw [d1]
      have : 0 < z * (1 - 5 / 12 * a) := mul_pos h0 (by linarith)
      have : 0 < z * (1 - 1 / 3 * a) := mul_pos h0 (by linarith)
      have := hd.1
      positivity
    have p2 : 0 < y * (1 + 2 / 3 * b + 1 / 3 * d + 1 / 3 * (b * d)) := by
      rw [d2, show z * (1 - 1 / 3 * a) * (1 + 2 / 3 * b) - z * (1 - 5 / 12 * a) * (4 / 3 * b) =
        z * ((1 - a / 3) * (1 - b) + b / 3) by ring]
      refine mul_pos h0 ?_
      rcases hb.1.eq_or_lt with e | e
      · rw [← e]; linarith
      · have := mul_nonneg (by linarith : 0 ≤ 1 - a / 3) (by linarith : 0 ≤ 1 - b)
        linarith
    refine ⟨(mul_pos_iff_of_pos_right d3).1 p1, (mul_pos_iff_of_pos_right d3).1 p2, ?_⟩
    have p3 : y * (1 + 2 / 3 * b + 1 / 3 * d + 1 / 3 * (b * d)) ≤ z * (1 + 2 / 3 * b + 1 / 3 * d + 1 / 3 * (b * d)) := by
      rw [d2, show z * (1 - 1 / 3 * a) * (1 + 2 / 3 * b) - z * (1 - 5 / 12 * a) * (4 / 3 * b) =
        z * ((1 - a / 3) * (1 - b) + b / 3) by ring]
      refine mul_le_mul_of_nonneg_left ?_ h0.le
      have := mul_nonneg hb.1 hd.1
      have := mul_nonneg ha.1 (by linarith : 0 ≤ 1 - b)
      nlinarith [hb.1, hd.1]
    exact le_of_mul_le_mul_right p3 d3
  have key : ∀ k (hk : 2 * k ≤ m), 0 < W ⟨2 * k, by omega⟩ ∧ W ⟨2 * k, by omega⟩ ≤ w0 := by
    intro k
    induction k with
    | zero =>
      intro _
      have h0 : W ⟨2 * 0, by omega⟩ = w0 := h.start hm
      rw [h0]
      exact ⟨hw, le_rfl⟩
    | succ k ih =>
      intro hk
      obtain ⟨i1, i2⟩ := ih (by omega)
      obtain ⟨-, s2, s3⟩ := step k (by omega) i1
      exact ⟨s2, s3.trans i2⟩
  refine ⟨fun a => ?_, ?_⟩
  · obtain ⟨n, hn⟩ := a
    rcases Nat.even_or_odd' n with ⟨k, rfl | rfl⟩
    · exact (key k (by omega)).1
    · exact (step k (by omega) (key k (by omega)).1).1
  · have := (key (m / 2) (by omega)).2
    have e : (⟨2 * (m / 2), by omega⟩ : Fin (m + 1)) = Fin.last m := Fin.ext (by simp only [Fin.val_last]; omega)
    rwa [e] at this

end Verif.Phases

namespace Verif.Wiring

open Verif.Units
open Verif.Bfl (Craft Seg AcIn AcOut)
open Verif.Phases (Profile Follows Trip Level Steady Decays)
open Verif.Tutorial (Minimal fuelFlow fuelBurned)

variable {m : ℕ}

/-- thrust over weight in steady flight, at a lift-to-drag ratio -/
noncomputable def thrustRatio (lOverD : ℝ) (s : Steady m) (a : Fin (m + 1)) : ℝ :=
  Phases.cosgamma ⟨s.vs a, s.utrue a⟩ / lOverD + Phases.singamma ⟨s.vs a, s.utrue a⟩

/-- the fraction of the weight that burns in one step -/
noncomputable def burnRate (tsfc lOverD : ℝ) (s : Steady m) (a : Fin (m + 1)) : ℝ :=
  tsfc * grav * thrustRatio lOverD s a * (s.duration / m)

theorem fuelBurned_eq (f0 T : ℝ) (x : Fin (m + 1) → ℝ) (a : Fin (m + 1)) :
    fuelBurned f0 T x a = f0 + (Matrix.mulVec (Integrals.simpsonTri m) x) a * (T / m) := by
  rw [fuelBurned, Integrals.integratorCompute_eq]
  simp only [Integrals.TimeInput.step]
  ring

theorem simpson_scale (x : Fin (m + 1) → ℝ) (c : ℝ) (a : Fin (m + 1)) :
    (Matrix.mulVec (Integrals.simpsonTri m) fun b => x b * c) a = (Matrix.mulVec (Integrals.simpsonTri m) x) a * c := by
  have : (fun b => x b * c) = c • x := by funext b; simp [mul_comm]
  rw [this, Matrix.mulVec_smul]
  simp [mul_comm]

section
variable {k : Phases.MissionKind} {ode : Bool} {ac1 : Craft 0} {o : Opts}
  {E : String → Fin (m + 1) → ℝ} {F : String → String → Fin (m + 1) → ℝ}

/-- **C123** (a phase).  In every converged phase of a mission with the tutorial airplane that burns fuel, the throttle is that of the
current weight, and the weight decays at the rate `TSFC · g · (cos γ / (L/D) + sin γ)`. -/
theorem C123_phase (p : Minimal) (tsfc : ℝ) (fuel0 : String → ℝ) (hS : p.sRef ≠ 0) (hT : p.maxThrust ≠ 0)
    (h : MissionRel k ode (p.fuelCraft tsfc fuel0) ac1 o E F) {l : Leg} (hl : l ∈ legsOf k)
    (hs : F l.name "ac|geom|wing|S_ref" 0 = p.sRef) (hu : ∀ a, 0 < F l.name "fltcond|Ueas" a)
    (hi : ∀ a, -216.65 < F l.name "fltcond|TempIncrement" a) (hz : ∀ a, F l.name "braking" a = 0 ∧ F l.name "zero_accel" a = 0)
    (hW : ∀ a, F l.name "weight" a ≠ 0) :
    (∀ a, F l.name "drag" a = F l.name "weight" a * grav * Phases.cosgamma ⟨F l.name "fltcond|vs" a, F l.name "fltcond|Utrue" a⟩ / p.lOverD) ∧
    (∀ a, F l.name "thrust" a = F l.name "weight" a * grav * thrustRatio p.lOverD (steadyOf (F l.name)) a) ∧
    (∀ a, F l.name "throttle" a = F l.name "weight" a * grav * thrustRatio p.lOverD (steadyOf (F l.name)) a / p.maxThrust) ∧
    (∀ a, F l.name "weight" a = p.tow - fuelBurned (fuel0 l.name) (F l.name "duration" 0)
      (fun b => fuelFlow tsfc (F l.name "thrust" b)) a) ∧
    Decays (burnRate tsfc p.lOverD (steadyOf (F l.name))) (p.tow - fuel0 l.name) (F l.name "weight") := by
  have P := h.leg hl
  have hc := P.craft
  have w : ∀ a, F l.name "weight" a = p.tow - fuelBurned (fuel0 l.name) (F l.name "duration" 0)
      (fun b => fuelFlow tsfc (p.thrust (F l.name "throttle" b))) a := fun a => congrFun (congrArg AcOut.weight hc) a
  have d : ∀ a, F l.name "drag" a = F l.name "fltcond|q" a * F l.name "fltcond|CL" a * p.sRef / p.lOverD :=
    fun a => congrFun (congrArg AcOut.drag hc) a
  have t : ∀ a, F l.name "thrust" a = F l.name "throttle" a * p.maxThrust := fun a => congrFun (congrArg AcOut.thrust hc) a
  have d' : ∀ a, F l.name "drag" a =
      F l.name "weight" a * grav * Phases.cosgamma ⟨F l.name "fltcond|vs" a, F l.name "fltcond|Utrue" a⟩ / p.lOverD := by
    intro a
    obtain ⟨N, hSa⟩ := leg_nodes (h.phase _ (leg_mem hl)) a
    have q0 : F l.name "fltcond|q" a ≠ 0 := (q_pos (hi a) (hu a) (P.atmos a)).ne'
    have c := N.cl
    have c2 := N.cos
    dsimp only at c c2
    rw [hSa, hs, c2, Phases.steadyCL] at c
    rw [d, c]
    field_simp
  have th : ∀ a, F l.name "thrust" a = F l.name "weight" a * grav * thrustRatio p.lOverD (steadyOf (F l.name)) a := by
    intro a
    rw [P.thrust a (hW a) (hz a).1 (hz a).2, d']
    simp only [thrustRatio, steadyOf]
    ring
  have w' : ∀ a, F l.name "weight" a = p.tow - fuelBurned (fuel0 l.name) (F l.name "duration" 0)
      (fun b => fuelFlow tsfc (F l.name "thrust" b)) a := by
    intro a
    rw [w a]
    congr 2
    funext b
    rw [t b]
    rfl
  refine ⟨d', th, fun a => ?_, w', fun a => ?_⟩
  · rw [eq_div_iff hT, ← t, th]
  · have e := w' a
    rw [fuelBurned_eq] at e
    rw [e, ← sub_sub, ← simpson_scale]
    congr 2
    funext b
    rw [fuelFlow, th b]
    simp only [burnRate, steadyOf]
    ring

end

/-- the states of the phases are linked: `link_phases` connects the fuel burned at the end of a phase to the start of the next -/
structure FuelLinked (tsfc : ℝ) (fuel0 : String → ℝ) (F : String → String → Fin (m + 1) → ℝ) : Prop where
  start : fuel0 "climb" = 0
  cruise : fuel0 "cruise" = fuelBurned (fuel0 "climb") (F "climb" "duration" 0) (fun b => fuelFlow tsfc (F "climb" "thrust" b)) (Fin.last m)
  descent : fuel0 "descent" =
    fuelBurned (fuel0 "cruise") (F "cruise" "duration" 0) (fun b => fuelFlow tsfc (F "cruise" "thrust" b)) (Fin.last m)

/-- the flight data of the airplane along a trajectory -/
theorem fuel_data (hm : m % 2 = 0) (p : Minimal) (tsfc : ℝ) (fuel0 : String → ℝ) (hS : p.sRef ≠ 0) (hT : p.maxThrust ≠ 0) (n : String)
    {q : Profile m} {s : Steady m} (hf : Follows q s) (hu : ∀ a, 0 < q.ueas a) (hi : ∀ a, -216.65 < q.inc a)
    (hr : ∀ a, 0 ≤ burnRate tsfc p.lOverD s a ∧ burnRate tsfc p.lOverD s a ≤ 1) (hw : 0 < p.tow - fuel0 n) :
    ∃ c tau out, FlightData (p.fuelCraft tsfc fuel0) n s q p.sRef c tau out ∧ (∀ a, 0 < out.weight a) ∧
      out.weight (Fin.last m) ≤ p.tow - fuel0 n ∧
      ∀ a, out.weight a = p.tow - fuelBurned (fuel0 n) s.duration (fun b => fuelFlow tsfc (out.thrust b)) a := by
  choose c hc hcu using hf.cond
  obtain ⟨W, hW, -⟩ := Decays.existsUnique hm (fun a => (hr a).1) (p.tow - fuel0 n)
  obtain ⟨pos, last⟩ := Decays.pos hm hr hw hW
  let X : Fin (m + 1) → ℝ := fun a => W a * grav * thrustRatio p.lOverD s a
  have hX : ∀ a, W a = p.tow - fuelBurned (fuel0 n) s.duration (fun b => fuelFlow tsfc (X b)) a := by
    intro a
    rw [fuelBurned_eq, ← sub_sub, ← simpson_scale, hW a]
    congr 2
    funext b
    simp only [X, fuelFlow, burnRate]
    ring
  have hD : ∀ a, p.drag (c a).q (flightCL s p.sRef c W a) = W a * grav * Phases.cosgamma ⟨s.vs a, (c a).utrue⟩ / p.lOverD := by
    intro a
    have q0 : (c a).q ≠ 0 := (q_pos (hi a) (hu a) (hc a)).ne'
    rw [Minimal.drag, flightCL, Phases.steadyCL]
    field_simp
  refine ⟨c, fun a => X a / p.maxThrust, ⟨X, fun a => p.drag (c a).q (flightCL s p.sRef c W a), W⟩,
    ⟨hf.vs, hc, fun a => (hcu a).symm, ?_, fun a => (pos a).ne', fun a => ?_⟩, pos, last, hX⟩
  · simp only [Minimal.fuelCraft, Minimal.thrust, div_mul_cancel₀ _ hT]
    congr 1
    funext a
    exact hX a
  · dsimp only
    rw [hD]
    simp only [X, thrustRatio, hcu]
    ring

/-- a state of the tutorial mission with fuel burn -/
structure FuelMission (p : Minimal) (tsfc : ℝ) (ac1 : Craft 0) (o : Opts) (h0 H R r0 : ℝ) (q : Leg → Profile m) (fuel0 : String → ℝ)
    (E : String → Fin (m + 1) → ℝ) (F : String → String → Fin (m + 1) → ℝ) : Prop where
  rel : MissionRel ⟨false, false, false⟩ false (p.fuelCraft tsfc fuel0) ac1 o E F
  inputs : TutorialInputs p h0 H R r0 q E F
  linked : FuelLinked tsfc fuel0 F
  weight : ∀ l ∈ legsOf ⟨false, false, false⟩, ∀ a, F l.name "weight" a ≠ 0

/-- the trajectory of a state of the mission -/
theorem FuelMission.trip {p : Minimal} {tsfc : ℝ} {ac1 : Craft 0} {o : Opts} {h0 H R r0 : ℝ} {q : Leg → Profile m} {fuel0 : String → ℝ}
    {E : String → Fin (m + 1) → ℝ} {F : String → String → Fin (m + 1) → ℝ} (g : FuelMission p tsfc ac1 o h0 H R r0 q fuel0 E F) :
    Trip (q .climb) (q .cruise) (q .descent) h0 r0 H h0 R (steadyOf (F "climb")) (steadyOf (F "cruise")) (steadyOf (F "descent")) := by
  have t := g.rel.trip
  have i1 : profileOf (F "climb") = q .climb := g.inputs.profile .climb (legs_flight (by simp))
  have i2 : profileOf (F "cruise") = q .cruise := g.inputs.profile .cruise (legs_flight (by simp))
  have i3 : profileOf (F "descent") = q .descent := g.inputs.profile .descent (legs_flight (by simp))
  have s1 : F "climb" "ode_integ_phase.fltcond|h_initial" 0 = h0 :=
    ((C116_mission g.rel).climbStartBasic rfl rfl).trans g.inputs.takeoff
  rwa [i1, i2, i3, s1, g.inputs.start, g.inputs.cruise, g.inputs.takeoff, g.inputs.range] at t

/-- **C123** (the mission).  Take a trajectory of the tutorial mission with a level cruise.  If the thrust never has to be negative and
at most the whole weight would burn in one time step, then there is a converged state of the mission with fuel burn, with positive
weights that do not grow from phase to phase; and all its states have the same trajectory, weight, thrust, throttle and fuel burn. -/
theorem C123_fuel (hm : m % 2 = 0) (hm0 : m ≠ 0) (o : Opts) (ac1 : Craft 0) (p : Minimal) (tsfc : ℝ) (hS : p.sRef ≠ 0) (hW : 0 < p.tow)
    (hT : p.maxThrust ≠ 0) (q : Leg → Profile m) (lv : Level (q .climb) (q .cruise) (q .descent))
    (hu : ∀ l a, 0 < (q l).ueas a) (hi : ∀ l a, -216.65 < (q l).inc a) (h0 H R r0 : ℝ) (s : Leg → Steady m)
    (t : Trip (q .climb) (q .cruise) (q .descent) h0 r0 H h0 R (s .climb) (s .cruise) (s .descent))
    (hr : ∀ l a, 0 ≤ burnRate tsfc p.lOverD (s l) a ∧ burnRate tsfc p.lOverD (s l) a ≤ 1) :
    (∃ fuel0 E F, FuelMission p tsfc ac1 o h0 H R r0 q fuel0 E F ∧ (∀ l ∈ legsOf ⟨false, false, false⟩, ∀ a, 0 < F l.name "weight" a) ∧
      0 ≤ fuel0 "cruise" ∧ fuel0 "cruise" ≤ fuel0 "descent" ∧ F "descent" "weight" (Fin.last m) ≤ p.tow - fuel0 "descent") ∧
    ∀ fuel0 E F fuel0' E' F', FuelMission p tsfc ac1 o h0 H R r0 q fuel0 E F → FuelMission p tsfc ac1 o h0 H R r0 q fuel0' E' F' →
      ∀ l ∈ legsOf ⟨false, false, false⟩, SameFlight (F l.name) (F' l.name) ∧ fuel0 l.name = fuel0' l.name ∧
        ∀ n ∈ ["throttle", "thrust", "drag", "weight"], F l.name n = F' l.name n := by
  constructor
  · obtain ⟨cc, tc, oc, d1, p1, l1, w1⟩ := fuel_data hm p tsfc (fun _ => 0) hS hT "climb" t.followC (hu _) (hi _) (hr .climb) (by simpa using hW)
    obtain ⟨f1, hf1⟩ : ∃ f, f = p.tow - oc.weight (Fin.last m) := ⟨_, rfl⟩
    obtain ⟨ck, tk, ok, d2, p2, l2, w2⟩ := fuel_data hm p tsfc (fun _ => f1) hS hT "cruise" t.followK (hu _) (hi _) (hr .cruise)
      (by rw [hf1]; linarith [p1 (Fin.last m)])
    obtain ⟨f2, hf2⟩ : ∃ f, f = p.tow - ok.weight (Fin.last m) := ⟨_, rfl⟩
    obtain ⟨cd, td, od, d3, p3, l3, w3⟩ := fuel_data hm p tsfc (fun _ => f2) hS hT "descent" t.followD (hu _) (hi _) (hr .descent)
      (by rw [hf2]; linarith [p2 (Fin.last m)])
    let fuel0 : String → ℝ := fun n => if n = "climb" then 0 else if n = "cruise" then f1 else f2
    have d1' : FlightData (p.fuelCraft tsfc fuel0) "climb" (s .climb) (q .climb) p.sRef cc tc oc := ⟨d1.1, d1.2, d1.3, d1.4, d1.5, d1.6⟩
    have d2' : FlightData (p.fuelCraft tsfc fuel0) "cruise" (s .cruise) (q .cruise) p.sRef ck tk ok := ⟨d2.1, d2.2, d2.3, d2.4, d2.5, d2.6⟩
    have d3' : FlightData (p.fuelCraft tsfc fuel0) "descent" (s .descent) (q .descent) p.sRef cd td od :=
      ⟨d3.1, d3.2, d3.3, d3.4, d3.5, d3.6⟩
    obtain ⟨E, F, h, e1, e2, e3, g1, g2, g3⟩ := basic_exists o ac1 t d1' d2' d3'
    have v1 : F "climb" "weight" = oc.weight ∧ F "climb" "thrust" = oc.thrust ∧ F "climb" "duration" 0 = (s .climb).duration := by
      rw [g1]; exact ⟨rfl, rfl, rfl⟩
    have v2 : F "cruise" "weight" = ok.weight ∧ F "cruise" "thrust" = ok.thrust ∧ F "cruise" "duration" 0 = (s .cruise).duration := by
      rw [g2]; exact ⟨rfl, rfl, rfl⟩
    have v3 : F "descent" "weight" = od.weight := by rw [g3]; rfl
    have wpos : ∀ l ∈ legsOf ⟨false, false, false⟩, ∀ a, 0 < F l.name "weight" a := by
      intro l hl a
      simp only [legsOf, Bool.false_eq_true, if_false, List.append_nil] at hl
      fin_cases hl
      · change 0 < F "climb" "weight" a; rw [v1.1]; exact p1 a
      · change 0 < F "cruise" "weight" a; rw [v2.1]; exact p2 a
      · change 0 < F "descent" "weight" a; rw [v3]; exact p3 a
    have ef : fuel0 "climb" = 0 ∧ fuel0 "cruise" = f1 ∧ fuel0 "descent" = f2 := ⟨rfl, rfl, rfl⟩
    refine ⟨fuel0, E, F, ⟨h, ⟨e1, e2, e3, by rw [g1]; exact t.start.2, ?_, ?_, ?_⟩, ⟨rfl, ?_, ?_⟩, fun l hl a => (wpos l hl a).ne'⟩, wpos,
      ?_, ?_, ?_⟩
    · intro l hl
      simp only [legsOf, Bool.false_eq_true, if_false, List.append_nil] at hl
      fin_cases hl
      · change profileOf (F "climb") = _
        rw [g1, ← show (⟨(s .climb).vs, (q .climb).inc, (q .climb).ueas⟩ : Profile m) = q .climb by rw [t.followC.vs]]
        rfl
      · change profileOf (F "cruise") = _
        rw [g2, ← show (⟨(s .cruise).vs, (q .cruise).inc, (q .cruise).ueas⟩ : Profile m) = q .cruise by rw [t.followK.vs]]
        rfl
      · change profileOf (F "descent") = _
        rw [g3, ← show (⟨(s .descent).vs, (q .descent).inc, (q .descent).ueas⟩ : Profile m) = q .descent by rw [t.followD.vs]]
        rfl
    · intro l hl
      simp only [legsOf, Bool.false_eq_true, if_false, List.append_nil] at hl
      fin_cases hl
      · change F "climb" _ _ = _
        rw [g1]; rfl
      · change F "cruise" _ _ = _
        rw [g2]; rfl
      · change F "descent" _ _ = _
        rw [g3]; rfl
    · intro l hl a
      simp only [legsOf, Bool.false_eq_true, if_false, List.append_nil] at hl
      fin_cases hl
      · change F "climb" _ _ = _ ∧ F "climb" _ _ = _
        rw [g1]; exact ⟨rfl, rfl⟩
      · change F "cruise" _ _ = _ ∧ F "cruise" _ _ = _
        rw [g2]; exact ⟨rfl, rfl⟩
      · change F "descent" _ _ = _ ∧ F "descent" _ _ = _
        rw [g3]; exact ⟨rfl, rfl⟩
    · rw [v1.2.1, v1.2.2, ef.1, ef.2.1]; linarith [w1 (Fin.last m)]
    · rw [v2.2.1, v2.2.2, ef.2.1, ef.2.2]; linarith [w2 (Fin.last m)]
    · rw [ef.2.1]; linarith
    · rw [ef.2.1, ef.2.2]; linarith
    · rw [ef.2.2, v3]; exact l3
  · intro fuel0 E F fuel0' E' F' g g'
    obtain ⟨u1, u2, u3⟩ := g.trip.unique_level hm hm0 lv t
    obtain ⟨u1', u2', u3'⟩ := g'.trip.unique_level hm hm0 lv t
    have us : ∀ l ∈ legsOf ⟨false, false, false⟩, steadyOf (F l.name) = s l ∧ steadyOf (F' l.name) = s l := by
      intro l hl
      simp only [legsOf, Bool.false_eq_true, if_false, List.append_nil] at hl
      fin_cases hl
      · exact ⟨u1, u1'⟩
      · exact ⟨u2, u2'⟩
      · exact ⟨u3, u3'⟩
    have A : ∀ l ∈ legsOf ⟨false, false, false⟩, _ := fun l hl => C123_phase p tsfc fuel0 hS hT g.rel hl (g.inputs.wing l hl)
      (fun a => by rw [show F l.name "fltcond|Ueas" a = (q l).ueas a from congrFun (congrArg Profile.ueas (g.inputs.profile l hl)) a]; exact hu l a)
      (fun a => by rw [show F l.name "fltcond|TempIncrement" a = (q l).inc a from congrFun (congrArg Profile.inc (g.inputs.profile l hl)) a]; exact hi l a)
      (fun a => g.inputs.steady l hl a) (g.weight l hl)
    have A' : ∀ l ∈ legsOf ⟨false, false, false⟩, _ := fun l hl => C123_phase p tsfc fuel0' hS hT g'.rel hl (g'.inputs.wing l hl)
      (fun a => by rw [show F' l.name "fltcond|Ueas" a = (q l).ueas a from congrFun (congrArg Profile.ueas (g'.inputs.profile l hl)) a]; exact hu l a)
      (fun a => by rw [show F' l.name "fltcond|TempIncrement" a = (q l).inc a from congrFun (congrArg Profile.inc (g'.inputs.profile l hl)) a]; exact hi l a)
      (fun a => g'.inputs.steady l hl a) (g'.weight l hl)
    have same : ∀ l ∈ legsOf ⟨false, false, false⟩, fuel0 l.name = fuel0' l.name → F l.name "weight" = F' l.name "weight" := by
      intro l hl e
      have x := (A l hl).2.2.2.2
      have x' := (A' l hl).2.2.2.2
      rw [(us l hl).1] at x
      rw [(us l hl).2, ← e] at x'
      exact (Decays.existsUnique hm (fun a => (hr l a).1) _).unique x x'
    have m1 : Leg.climb ∈ legsOf ⟨false, false, false⟩ := legs_flight (by simp)
    have m2 : Leg.cruise ∈ legsOf ⟨false, false, false⟩ := legs_flight (by simp)
    have f1 : fuel0 "climb" = fuel0' "climb" := by rw [g.linked.start, g'.linked.start]
    have f2 : fuel0 "cruise" = fuel0' "cruise" := by
      have x := congrFun (same .climb m1 f1) (Fin.last m)
      have y : F "climb" "weight" (Fin.last m) = _ := (A .climb m1).2.2.2.1 (Fin.last m)
      have y' : F' "climb" "weight" (Fin.last m) = _ := (A' .climb m1).2.2.2.1 (Fin.last m)
      have z := g.linked.cruise
      have z' := g'.linked.cruise
      change F "climb" "weight" (Fin.last m) = p.tow - fuelBurned (fuel0 "climb") (F "climb" "duration" 0) _ _ at y
      change F' "climb" "weight" (Fin.last m) = p.tow - fuelBurned (fuel0' "climb") (F' "climb" "duration" 0) _ _ at y'
      change F "climb" "weight" (Fin.last m) = F' "climb" "weight" (Fin.last m) at x
      have y1 : F "climb" "weight" (Fin.last m) = p.tow - fuel0 "cruise" := by rw [y, z]; rfl
      have y2 : F' "climb" "weight" (Fin.last m) = p.tow - fuel0' "cruise" := by rw [y', z']; rfl
      linarith
    have f3 : fuel0 "descent" = fuel0' "descent" := by
      have x := congrFun (same .cruise m2 f2) (Fin.last m)
      have y : F "cruise" "weight" (Fin.last m) = _ := (A .cruise m2).2.2.2.1 (Fin.last m)
      have y' : F' "cruise" "weight" (Fin.last m) = _ := (A' .cruise m2).2.2.2.1 (Fin.last m)
      have z := g.linked.descent
      have z' := g'.linked.descent
      change F "cruise" "weight" (Fin.last m) = F' "cruise" "weight" (Fin.last m) at x
      have y1 : F "cruise" "weight" (Fin.last m) = p.tow - fuel0 "descent" := by rw [y, z]; rfl
      have y2 : F' "cruise" "weight" (Fin.last m) = p.tow - fuel0' "descent" := by rw [y', z']; rfl
      linarith
    intro l hl
    have e : fuel0 l.name = fuel0' l.name := by
      simp only [legsOf, Bool.false_eq_true, if_false, List.append_nil] at hl
      fin_cases hl
      · exact f1
      · exact f2
      · exact f3
    have sf := SameFlight.of (g.rel.leg hl) (g'.rel.leg hl) ((g.inputs.profile l hl).trans (g'.inputs.profile l hl).symm)
      ((us l hl).1.trans (us l hl).2.symm)
    refine ⟨sf, e, ?_⟩
    have w := same l hl e
    obtain ⟨a1, a2, a3, -⟩ := A l hl
    obtain ⟨b1, b2, b3, -⟩ := A' l hl
    have v : F l.name "fltcond|vs" = F' l.name "fltcond|vs" :=
      congrArg Profile.vs ((g.inputs.profile l hl).trans (g'.inputs.profile l hl).symm)
    have ut : ∀ a, F l.name "fltcond|Utrue" a = F' l.name "fltcond|Utrue" a := fun a =>
      congrArg Atmos.FltCond.utrue (congrFun sf.cond a)
    intro n hn
    funext a
    fin_cases hn
    · rw [a3, b3, w, (us l hl).1, (us l hl).2]
    · rw [a2, b2, w, (us l hl).1, (us l hl).2]
    · rw [a1, b1, w, v, ut]
    · rw [w]

/-- the thrust ratio of a shallow path is near the reciprocal of the lift-to-drag ratio -/
theorem thrustRatio_bounds {s : Steady m} {a : Fin (m + 1)} {e lOverD : ℝ} (he : e ≤ 1) (hL : 1 ≤ lOverD) (hu : 0 < s.utrue a)
    (hv : |s.vs a| ≤ e * s.utrue a) : (1 - e) / lOverD - e ≤ thrustRatio lOverD s a ∧ thrustRatio lOverD s a ≤ 1 / lOverD + e := by
  obtain ⟨u, hu'⟩ : ∃ u, s.utrue a = u := ⟨_, rfl⟩
  obtain ⟨v, hv'⟩ : ∃ v, s.vs a = v := ⟨_, rfl⟩
  rw [hu'] at hu hv
  rw [hv'] at hv
  have e0 : 0 ≤ e := by
    by_contra hn
    have := mul_neg_of_neg_of_pos (not_le.1 hn) hu
    linarith [abs_nonneg v]
  obtain ⟨h1, h2⟩ := abs_le.1 hv
  have eu : e * u ≤ u := by nlinarith
  have hi : ¬ u ^ 2 - v ^ 2 < 0 := by
    rw [not_lt]
    nlinarith
  have hs : -e ≤ v / u ∧ v / u ≤ e := by
    rw [le_div_iff₀ hu, div_le_iff₀ hu]
    constructor <;> linarith
  have hc1 : Real.sqrt (u ^ 2 - v ^ 2) ≤ u := by
    rw [Real.sqrt_le_left hu.le]
    nlinarith [sq_nonneg v]
  have hc2 : (1 - e) * u ≤ Real.sqrt (u ^ 2 - v ^ 2) := by
    refine Real.le_sqrt_of_sq_le ?_
    have h3 : v ^ 2 ≤ (e * u) ^ 2 := sq_le_sq' (by linarith) h2
    have h4 : 0 ≤ e * (1 - e) * u ^ 2 := by
      have := sub_nonneg.2 he
      positivity
    nlinarith
  unfold thrustRatio Phases.cosgamma Phases.singamma Phases.groundspeed Phases.GsIn.inside
  rw [hu', hv']
  dsimp only
  rw [if_neg hi, if_neg hi]
  have hc3 : (1 - e) ≤ Real.sqrt (u ^ 2 - v ^ 2) / u ∧ Real.sqrt (u ^ 2 - v ^ 2) / u ≤ 1 := by
    rw [le_div_iff₀ hu, div_le_iff₀ hu]
    constructor <;> linarith
  have hL' : 0 < lOverD := by linarith
  have a1 := div_le_div_of_nonneg_right hc3.1 hL'.le
  have a2 := div_le_div_of_nonneg_right hc3.2 hL'.le
  constructor <;> linarith [hs.1, hs.2]

/-- the numbers of `minimal_integrator.py` with an hour of cruise: TSFC 20 g/kN/s -/
example (o : Opts) (ac1 : Craft 0) : ∃ R fuel0 E F,
    FuelMission (m := 10) ⟨25, 5000, 10000, 10⟩ 0.00002 ac1 o 0 4572 R 0 tutorialProfile fuel0 E F ∧ F "cruise" "duration" 0 = 3600 ∧
    0 ≤ fuel0 "cruise" := by
  obtain ⟨R, c, k, d, t, hT⟩ := Trip.exists_time (m := 10) (qc := tutorialProfile .climb) (qk := tutorialProfile .cruise)
    (qd := tutorialProfile .descent) (vc := 2.54) (vd := -2.54) (by norm_num) (by norm_num) rfl (by norm_num) rfl rfl (by norm_num)
    0 0 4572 0 3600 (by norm_num) (by norm_num) (by norm_num)
  have ord := t.ordinary (vd := -2.54) (by norm_num) (by norm_num) rfl rfl (by norm_num) (by rw [hT]; norm_num) le_rfl (by norm_num)
    (by norm_num) (fun a => by simp only [tutorialProfile]; norm_num) (fun a => by simp only [tutorialProfile]; norm_num)
  have lv : Level (tutorialProfile .climb) (tutorialProfile .cruise) (tutorialProfile .descent) := by
    refine ⟨?_, rfl, ?_, fun a => (tutorial_speed _ a).1, fun a => (tutorial_speed _ a).2⟩
    · simp only [tutorialProfile]
      rw [Phases.simpson_const (by norm_num), Fin.val_last]
      norm_num
    · simp only [tutorialProfile]
      rw [Phases.simpson_const (by norm_num), Fin.val_last]
      norm_num
  have hc : c.duration = 1800 := by
    have e := t.climb
    rw [Phases.hFinal_at, t.followC.vs, t.start.1] at e
    simp only [tutorialProfile] at e
    rw [Phases.simpson_const (by norm_num), Fin.val_last] at e
    norm_num at e
    linarith
  have kH : k.hInitial = 4572 := (t.linkK.2 rfl).trans t.climb
  have kl : ∀ a, k.h a = 4572 := fun a => by rw [Phases.level_h (t.followK.vs.trans rfl), kH]
  have dH : d.hInitial = 4572 := (t.linkD.2 rfl).trans (kl _)
  have hd : d.duration = 1800 := by
    have e := t.descent
    rw [Phases.hFinal_at, t.followD.vs, dH] at e
    simp only [tutorialProfile] at e
    rw [Phases.simpson_const (by norm_num), Fin.val_last] at e
    norm_num at e
    linarith
  have fast : ∀ {q : Profile 10} {s : Steady 10}, Follows q s → (∀ a, 0 ≤ s.h a ∧ s.h a ≤ 4572) → (∀ a, q.inc a = 0 ∧ 77 ≤ q.ueas a) →
      ∀ a, 77 < s.utrue a := by
    intro q s hf hh hq a
    obtain ⟨x, hx, e⟩ := hf.cond a
    obtain ⟨x', hx', hlt⟩ := Atmos.C95_true_exceeds (q.inc a) (s.h a) (q.ueas a) (hq a).1.ge (hh a).1 ((hh a).2.trans (by norm_num))
      (by linarith [(hq a).2])
    rw [hx] at hx'
    rw [← e, Option.some.inj hx']
    exact (hq a).2.trans_lt hlt
  have uc : ∀ a, 77 < c.utrue a := fast t.followC (fun a => by
    rw [Phases.h_at, t.followC.vs, t.start.1, hc]
    simp only [tutorialProfile]
    rw [Phases.simpson_const (by norm_num)]
    have ha : ((a : ℕ) : ℝ) ≤ 10 := by exact_mod_cast Nat.lt_succ_iff.1 a.2
    have ha0 : (0 : ℝ) ≤ ((a : ℕ) : ℝ) := by positivity
    norm_num
    linarith) (fun a => ⟨rfl, le_rfl⟩)
  have uk : ∀ a, 77 < k.utrue a := fast t.followK (fun a => by rw [kl]; norm_num) (fun a => ⟨rfl, by simp only [tutorialProfile]; norm_num⟩)
  have ud : ∀ a, 77 < d.utrue a := fast t.followD (fun a => by
    have := ord.descent a
    rw [t.descent, dH] at this
    exact this) (fun a => ⟨rfl, le_rfl⟩)
  have rate : ∀ s : Steady 10, (∀ a, 77 < s.utrue a) → (∀ a, |s.vs a| ≤ 2.54) → 0 ≤ s.duration → s.duration ≤ 3600 →
      ∀ a, 0 ≤ burnRate 0.00002 10 s a ∧ burnRate 0.00002 10 s a ≤ 1 := by
    intro s h1 h2 h3 h4 a
    obtain ⟨b1, b2⟩ := thrustRatio_bounds (s := s) (a := a) (e := 1 / 30) (lOverD := 10) (by norm_num) (by norm_num)
      (by linarith [h1 a]) (by have := h1 a; have := h2 a; norm_num at this; linarith)
    unfold burnRate
    rw [grav]
    push_cast
    generalize thrustRatio 10 s a = x at b1 b2
    have x0 : 0 ≤ x := by linarith
    have x1 : x ≤ 1 := by linarith
    constructor
    · positivity
    · have e1 : x * s.duration ≤ 1 * 3600 := mul_le_mul x1 h4 h3 (by norm_num)
      have e2 : (0.00002 : ℝ) * 9.80665 * x * (s.duration / 10) = 0.000002 * 9.80665 * (x * s.duration) := by ring
      rw [e2]
      norm_num at e1 ⊢
      linarith
  let s : Leg → Steady 10 := fun | .climb => c | .cruise => k | _ => d
  have ac : ∀ a, |c.vs a| ≤ 2.54 := fun a => by rw [t.followC.vs]; simp only [tutorialProfile]; norm_num [abs_le]
  have ak : ∀ a, |k.vs a| ≤ 2.54 := fun a => by rw [t.followK.vs]; simp only [tutorialProfile]; norm_num [abs_le]
  have ad : ∀ a, |d.vs a| ≤ 2.54 := fun a => by rw [t.followD.vs]; simp only [tutorialProfile]; norm_num [abs_le]
  have hr : ∀ l a, 0 ≤ burnRate 0.00002 10 (s l) a ∧ burnRate 0.00002 10 (s l) a ≤ 1 := by
    intro l
    have hd' := rate d ud ad (by rw [hd]; norm_num) (by rw [hd]; norm_num)
    cases l
    · exact rate c uc ac (by rw [hc]; norm_num) (by rw [hc]; norm_num)
    · exact rate k uk ak (by rw [hT]; norm_num) (by rw [hT])
    all_goals exact hd'
  obtain ⟨fuel0, E, F, g, -, g0, -⟩ := (C123_fuel (by norm_num) (by norm_num) o ac1 ⟨25, 5000, 10000, 10⟩ 0.00002 (by norm_num) (by norm_num)
    (by norm_num) tutorialProfile lv (fun l a => (tutorial_speed l a).1) (fun l a => (tutorial_speed l a).2) 0 4572 R 0 s t hr).1
  refine ⟨R, fuel0, E, F, g, ?_, g0⟩
  have := (g.trip.unique_level (by norm_num) (by norm_num) lv t).2.1
  have e : (steadyOf (F "cruise")).duration = k.duration := congrArg _ this
  exact e.trans hT

end Verif.Wiring
