import Verif.Props.Tutorial

namespace Verif.Phases

open Integrals Matrix

variable {m : ℕ}

/-- a profile that stays in the atmosphere of the code can be flown for any duration -/
theorem Follows.exists_ (q : Profile m) (T h0 r0 : ℝ) (hh : ∀ a, h0 + (simpsonTri m *ᵥ q.vs) a * (T / m) ≤ 288.16 / 0.0065) :
    ∃ p : Steady m, Follows q p ∧ p.duration = T ∧ p.hInitial = h0 ∧ p.rangeInitial = r0 := by
  have : ∀ a, ∃ c, Atmos.atmosEas (h0 + (simpsonTri m *ᵥ q.vs) a * (T / m)) (q.inc a) (q.ueas a) = some c := by
    intro a
    obtain ⟨p, hp, -⟩ := Bfl.pressure_some (hh a)
    unfold Atmos.atmosEas
    rw [hp]
    exact ⟨_, rfl⟩
  choose c hc using this
  refine ⟨⟨T, h0, r0, q.vs, fun a => (c a).utrue⟩, ⟨rfl, fun a => ⟨c a, ?_, rfl⟩⟩, rfl, rfl, rfl⟩
  rw [h_at]
  exact hc a

theorem simpson_const (hm : m % 2 = 0) (x : ℝ) (a : Fin (m + 1)) : (simpsonTri m *ᵥ fun _ => x) a = x * a :=
  simpsonTri_eq hm (fun i => x * i) (fun _ => x) (by simp) (by intros; push_cast; ring) (by intros; push_cast; ring) a

/-- between two altitudes at a constant vertical speed -/
theorem const_height (hm : m % 2 = 0) (hm0 : m ≠ 0) {v h0 H : ℝ} (hv : v ≠ 0) (a : Fin (m + 1)) :
    h0 + (simpsonTri m *ᵥ fun _ => v) a * ((H - h0) / v / m) = h0 + (H - h0) * (a / m) := by
  have hm' : (m : ℝ) ≠ 0 := Nat.cast_ne_zero.2 hm0
  rw [simpson_const hm]
  field_simp

theorem const_height_le (hm : m % 2 = 0) (hm0 : m ≠ 0) {v h0 H M : ℝ} (hv : v ≠ 0) (h1 : h0 ≤ M) (h2 : H ≤ M) (a : Fin (m + 1)) :
    h0 + (simpsonTri m *ᵥ fun _ => v) a * ((H - h0) / v / m) ≤ M := by
  have hm' : (0 : ℝ) < m := by exact_mod_cast Nat.pos_of_ne_zero hm0
  rw [const_height hm hm0 hv]
  have ha : ((a : ℕ) : ℝ) / m ≤ 1 := by
    rw [div_le_one hm']
    exact_mod_cast Nat.lt_succ_iff.1 a.2
  have ha0 : 0 ≤ ((a : ℕ) : ℝ) / m := by positivity
  have e : h0 + (H - h0) * ((a : ℕ) / m) = h0 * (1 - ((a : ℕ) : ℝ) / m) + H * (((a : ℕ) : ℝ) / m) := by ring
  rw [e]
  nlinarith

/-- climb and descent at constant vertical speeds with a level cruise between them: for all targets there is a trip -/
theorem Trip.exists_level (hm : m % 2 = 0) (hm0 : m ≠ 0) {qc qk qd : Profile m} {vc vd : ℝ} (hc : qc.vs = fun _ => vc) (hvc : vc ≠ 0)
    (hk : qk.vs = fun _ => 0) (hd : qd.vs = fun _ => vd) (hvd : vd ≠ 0) (hu : ∀ a, 0 < qk.ueas a) (hi : ∀ a, -216.65 < qk.inc a)
    (h0 r0 H L R : ℝ) (b0 : h0 ≤ 288.16 / 0.0065) (bH : H ≤ 288.16 / 0.0065) (bL : L ≤ 288.16 / 0.0065) :
    ∃ c k d : Steady m, Trip qc qk qd h0 r0 H L R c k d ∧ c.duration = (H - h0) / vc ∧ d.duration = (L - H) / vd ∧
      k.duration * ((simpsonTri m *ᵥ k.gs) (Fin.last m) / m) =
        R - r0 - (c.rangeFinal - c.rangeInitial) - (d.rangeFinal - d.rangeInitial) := by
  have hm' : (m : ℝ) ≠ 0 := Nat.cast_ne_zero.2 hm0
  have hlast : ∀ {v h H : ℝ}, v ≠ 0 → h + (simpsonTri m *ᵥ fun _ => v) (Fin.last m) * ((H - h) / v / m) = H := by
    intro v h H hv
    rw [const_height hm hm0 hv, Fin.val_last, div_self hm']
    ring
  obtain ⟨c, fc, tc, hc0, rc0⟩ := Follows.exists_ qc ((H - h0) / vc) h0 r0 (by rw [hc]; exact const_height_le hm hm0 hvc b0 bH)
  have hcH : c.hFinal = H := by rw [hFinal_at, fc.vs, hc, hc0, tc]; exact hlast hvc
  -- the cruise with any duration, to find the ground speed
  have level : ∀ T a, H + (simpsonTri m *ᵥ qk.vs) a * (T / m) ≤ 288.16 / 0.0065 := by
    intro T a
    rw [hk, show (fun _ : Fin (m + 1) => (0 : ℝ)) = 0 from rfl, Matrix.mulVec_zero]
    simpa using bH
  obtain ⟨k0, fk0, tk0, hk0, rk0⟩ := Follows.exists_ qk 0 H c.rangeFinal (level 0)
  have gpos := simpson_last_pos hm hm0 k0.gs (level_gs fk0 hk hu hi)
  have bd : ∀ a, H + (simpsonTri m *ᵥ qd.vs) a * ((L - H) / vd / m) ≤ 288.16 / 0.0065 := by
    rw [hd]; exact const_height_le hm hm0 hvd bH bL
  obtain ⟨d0, fd0, td0, hd0, rd0⟩ := Follows.exists_ qd ((L - H) / vd) H 0 bd
  obtain ⟨T, hT⟩ : ∃ T, T * ((simpsonTri m *ᵥ k0.gs) (Fin.last m) / m) =
      R - r0 - (c.rangeFinal - r0) - (d0.rangeFinal - d0.rangeInitial) :=
    ⟨(R - r0 - (c.rangeFinal - r0) - (d0.rangeFinal - d0.rangeInitial)) / ((simpsonTri m *ᵥ k0.gs) (Fin.last m) / m),
      div_mul_cancel₀ _ (div_ne_zero gpos.ne' hm')⟩
  obtain ⟨k, fk, tk, hk1, rk⟩ := Follows.exists_ qk T H c.rangeFinal (level T)
  obtain ⟨d, fd, td, hd1, rd⟩ := Follows.exists_ qd ((L - H) / vd) H k.rangeFinal bd
  have hkF : k.hFinal = H := by rw [Steady.hFinal, level_h (fk.vs.trans hk), hk1]
  have gk : k.gs = k0.gs := by
    funext a
    obtain ⟨x, hx, e⟩ := fk.cond a
    obtain ⟨x', hx', e'⟩ := fk0.cond a
    rw [level_h (fk.vs.trans hk), hk1] at hx
    rw [level_h (fk0.vs.trans hk), hk0, hx] at hx'
    unfold Steady.gs
    rw [fk.vs, fk0.vs, ← e, ← e', Option.some.inj hx']
  have gd : d.gs = d0.gs := by
    funext a
    obtain ⟨x, hx, e⟩ := fd.cond a
    obtain ⟨x', hx', e'⟩ := fd0.cond a
    rw [h_at, fd.vs, hd1, td] at hx
    rw [h_at, fd0.vs, hd0, td0, hx] at hx'
    unfold Steady.gs
    rw [fd.vs, fd0.vs, ← e, ← e', Option.some.inj hx']
  have ed : d.rangeFinal - d.rangeInitial = d0.rangeFinal - d0.rangeInitial := by
    rw [rangeFinal_at, rangeFinal_at, gd, td, td0]; ring
  have ek : k.rangeFinal = c.rangeFinal + T * ((simpsonTri m *ᵥ k0.gs) (Fin.last m) / m) := by
    rw [rangeFinal_at, rk, gk, tk]; ring
  refine ⟨c, k, d, ⟨fc, fk, fd, ⟨hc0, rc0⟩, hcH, ⟨rk, fun _ => hk1.trans hcH.symm⟩, ⟨rd, fun _ => hd1.trans hkF.symm⟩, ?_, ?_⟩, tc, td, ?_⟩
  · rw [hFinal_at, fd.vs, hd, hd1, td]; exact hlast hvd
  · have : d.rangeFinal = k.rangeFinal + (d0.rangeFinal - d0.rangeInitial) := by rw [← ed, rd]; ring
    rw [this, ek, hT]
    ring
  · rw [tk, gk, hT, ed, rc0]

/-- the same with a given duration of the cruise instead of a given range -/
theorem Trip.exists_time (hm : m % 2 = 0) (hm0 : m ≠ 0) {qc qk qd : Profile m} {vc vd : ℝ} (hc : qc.vs = fun _ => vc) (hvc : vc ≠ 0)
    (hk : qk.vs = fun _ => 0) (hd : qd.vs = fun _ => vd) (hvd : vd ≠ 0) (h0 r0 H L T : ℝ) (b0 : h0 ≤ 288.16 / 0.0065)
    (bH : H ≤ 288.16 / 0.0065) (bL : L ≤ 288.16 / 0.0065) :
    ∃ (R : ℝ) (c k d : Steady m), Trip qc qk qd h0 r0 H L R c k d ∧ k.duration = T := by
  have hm' : (m : ℝ) ≠ 0 := Nat.cast_ne_zero.2 hm0
  have hlast : ∀ {v h H : ℝ}, v ≠ 0 → h + (simpsonTri m *ᵥ fun _ => v) (Fin.last m) * ((H - h) / v / m) = H := by
    intro v h H hv
    rw [const_height hm hm0 hv, Fin.val_last, div_self hm']
    ring
  obtain ⟨c, fc, tc, hc0, rc0⟩ := Follows.exists_ qc ((H - h0) / vc) h0 r0 (by rw [hc]; exact const_height_le hm hm0 hvc b0 bH)
  have hcH : c.hFinal = H := by rw [hFinal_at, fc.vs, hc, hc0, tc]; exact hlast hvc
  obtain ⟨k, fk, tk, hk1, rk⟩ := Follows.exists_ qk T H c.rangeFinal (by
    intro a
    rw [hk, show (fun _ : Fin (m + 1) => (0 : ℝ)) = 0 from rfl, Matrix.mulVec_zero]
    simpa using bH)
  have hkF : k.hFinal = H := by rw [Steady.hFinal, level_h (fk.vs.trans hk), hk1]
  obtain ⟨d, fd, td, hd1, rd⟩ := Follows.exists_ qd ((L - H) / vd) H k.rangeFinal (by rw [hd]; exact const_height_le hm hm0 hvd bH bL)
  exact ⟨_, c, k, d, ⟨fc, fk, fd, ⟨hc0, rc0⟩, hcH, ⟨rk, fun _ => hk1.trans hcH.symm⟩, ⟨rd, fun _ => hd1.trans hkF.symm⟩,
    by rw [hFinal_at, fd.vs, hd, hd1, td]; exact hlast hvd, rfl⟩, tk⟩

/-- such a trip is an ordinary flight -/
theorem Trip.ordinary (hm : m % 2 = 0) (hm0 : m ≠ 0) {qc qk qd : Profile m} {vd h0 r0 H L R : ℝ} {c k d : Steady m}
    (t : Trip qc qk qd h0 r0 H L R c k d) (hk : qk.vs = fun _ => 0) (hd : qd.vs = fun _ => vd) (hvd : vd < 0) (hT : 0 ≤ k.duration)
    (hL : 0 ≤ L) (hLH : L ≤ H) (bH : H ≤ 288.16 / 0.0065) (hu : ∀ a, 0 < qk.ueas a ∧ -vd < qd.ueas a)
    (hi : ∀ a, 0 ≤ qk.inc a ∧ 0 ≤ qd.inc a) : Ordinary k d := by
  have hm' : (0 : ℝ) < m := by exact_mod_cast Nat.pos_of_ne_zero hm0
  have kH : k.hInitial = H := (t.linkK.2 rfl).trans t.climb
  have lev := fun a => level_h (p := k) (t.followK.vs.trans hk) a
  have dH : d.hInitial = H := (t.linkD.2 rfl).trans ((lev _).trans kH)
  have hd' : ∀ a : Fin (m + 1), d.h a = H + (L - H) * (a / m) := by
    intro a
    have e := t.descent
    rw [hFinal_at, t.followD.vs, hd, dH, simpson_const hm, Fin.val_last] at e
    rw [h_at, t.followD.vs, hd, dH, simpson_const hm]
    have : vd * d.duration = L - H := by rw [← e]; field_simp; ring
    rw [← this]
    field_simp
  have bnd : ∀ a : Fin (m + 1), L ≤ d.h a ∧ d.h a ≤ H := by
    intro a
    rw [hd']
    have ha : ((a : ℕ) : ℝ) / m ≤ 1 := by
      rw [div_le_one hm']
      exact_mod_cast Nat.lt_succ_iff.1 a.2
    have ha0 : 0 ≤ ((a : ℕ) : ℝ) / m := by positivity
    constructor <;> nlinarith
  have fast : ∀ {h inc u : ℝ} {c : Atmos.FltCond}, 0 ≤ inc → 0 ≤ h → h ≤ 288.16 / 0.0065 → 0 < u → Atmos.atmosEas h inc u = some c →
      u < c.utrue := by
    intro h inc u c h1 h2 h3 h4 e
    obtain ⟨c', e', hc⟩ := Atmos.C95_true_exceeds inc h u h1 h2 h3 h4
    rw [e] at e'
    rwa [Option.some.inj e']
  refine ⟨hT, fun a => (lev a).ge, fun a => ⟨by rw [t.descent]; exact (bnd a).1, by rw [dH]; exact (bnd a).2⟩, fun a => ⟨?_, ?_⟩⟩
  · obtain ⟨x, hx, e⟩ := t.followK.cond a
    rw [t.followK.vs, hk, abs_zero, ← e]
    exact (hu a).1.trans (fast (hi a).1 (by rw [lev, kH]; linarith) (by rw [lev, kH]; exact bH) (hu a).1 hx)
  · obtain ⟨x, hx, e⟩ := t.followD.cond a
    rw [t.followD.vs, hd, abs_of_neg hvd, ← e]
    exact ((hu a).2.trans (fast (hi a).2 (hL.trans (bnd a).1) ((bnd a).2.trans bH) (by linarith [(hu a).2]) hx)).le

end Verif.Phases

namespace Verif.Wiring

open Verif.Units
open Verif.Bfl (Craft Seg AcIn AcOut)
open Verif.Phases (Profile Follows Trip Level Steady)
open Verif.Tutorial (Minimal)

variable {m : ℕ}

/-- the equations of every node of a steady phase, and one wing area -/
theorem leg_nodes {ac : Craft m} {l : Leg} {o : Opts} {G : String → Fin (m + 1) → ℝ} (h : (leg ac l).Rel o G) (a : Fin (m + 1)) :
    (SteadyNode fun n => G n a) ∧ G "ac|geom|wing|S_ref" a = G "ac|geom|wing|S_ref" 0 := by
  cases l
  · exact ⟨(leg_climb_node o _ (h.node a)).1, scalar_of h (legGrp .climb) rfl "ac|geom|wing|S_ref" (by decide +kernel) a⟩
  · exact ⟨(leg_cruise_node o _ (h.node a)).1, scalar_of h (legGrp .cruise) rfl "ac|geom|wing|S_ref" (by decide +kernel) a⟩
  · exact ⟨(leg_descent_node o _ (h.node a)).1, scalar_of h (legGrp .descent) rfl "ac|geom|wing|S_ref" (by decide +kernel) a⟩
  · exact ⟨(leg_reserveClimb_node o _ (h.node a)).1, scalar_of h (legGrp .reserveClimb) rfl "ac|geom|wing|S_ref" (by decide +kernel) a⟩
  · exact ⟨(leg_reserveCruise_node o _ (h.node a)).1, scalar_of h (legGrp .reserveCruise) rfl "ac|geom|wing|S_ref" (by decide +kernel) a⟩
  · exact ⟨(leg_reserveDescent_node o _ (h.node a)).1, scalar_of h (legGrp .reserveDescent) rfl "ac|geom|wing|S_ref" (by decide +kernel) a⟩
  · exact ⟨(leg_loiter_node o _ (h.node a)).1, scalar_of h (legGrp .loiter) rfl "ac|geom|wing|S_ref" (by decide +kernel) a⟩

theorem q_pos {h inc u : ℝ} (hi : -216.65 < inc) (hu : 0 < u) {c : Atmos.FltCond} (hc : Atmos.atmosEas h inc u = some c) : 0 < c.q := by
  have hu' := Phases.utrue_pos hi hu hc
  rw [(Atmos.C95_dynamic_pressure h inc u hi c hc).1]
  positivity

section
variable {k : Phases.MissionKind} {ode : Bool} {ac : Craft m} {ac1 : Craft 0} {o : Opts}
  {E : String → Fin (m + 1) → ℝ} {F : String → String → Fin (m + 1) → ℝ}

/-- **C122** (too short).  In a mission with a level cruise the cruise takes a nonnegative time exactly if climb and descent together
are not longer than the mission. -/
theorem C122_cruise_time (hm : m % 2 = 0) (hm0 : m ≠ 0) (h : MissionRel k ode ac ac1 o E F) (hv : ∀ a, F "cruise" "fltcond|vs" a = 0)
    (hu : ∀ a, 0 < F "cruise" "fltcond|Ueas" a) (hi : ∀ a, -216.65 < F "cruise" "fltcond|TempIncrement" a) :
    0 ≤ F "cruise" "duration" 0 ↔
      (F "climb" "ode_integ_phase.range_final" 0 - F "climb" "ode_integ_phase.range_initial" 0) +
      (F "descent" "ode_integ_phase.range_final" 0 - F "descent" "ode_integ_phase.range_initial" 0) ≤
        E "mission_range" 0 * 1852 - F "climb" "ode_integ_phase.range_initial" 0 := by
  have hm' : (0 : ℝ) < m := by exact_mod_cast Nat.pos_of_ne_zero hm0
  have t := h.trip
  have e1 := (h.leg (l := .climb) (legs_flight (by simp))).rangeFinal
  have e3 := (h.leg (l := .descent) (legs_flight (by simp))).rangeFinal
  have gpos := Phases.simpson_last_pos hm hm0 _ (Phases.level_gs t.followK (funext hv) hu hi)
  have hk := t.linkK.1
  have hd := t.linkD.1
  have hr := t.range
  have e2 := Phases.rangeFinal_at (steadyOf (F "cruise"))
  generalize (Matrix.mulVec (Integrals.simpsonTri m) (steadyOf (F "cruise")).gs) (Fin.last m) = s at gpos e2
  change F "climb" "ode_integ_phase.range_final" 0 = (steadyOf (F "climb")).rangeFinal at e1
  change F "descent" "ode_integ_phase.range_final" 0 = (steadyOf (F "descent")).rangeFinal at e3
  change F "cruise" "ode_integ_phase.range_initial" 0 = _ at hk
  change F "descent" "ode_integ_phase.range_initial" 0 = _ at hd
  change _ = F "cruise" "ode_integ_phase.range_initial" 0 + s * (F "cruise" "duration" 0 / m) at e2
  rw [e3, hd, e2, hk, e1, hr]
  have : 0 ≤ F "cruise" "duration" 0 ↔ 0 ≤ s * (F "cruise" "duration" 0 / m) := by
    rw [mul_nonneg_iff_of_pos_left gpos]
    exact ⟨fun x => div_nonneg x hm'.le, fun x => by simpa [div_mul_cancel₀ _ hm'.ne'] using mul_nonneg x hm'.le⟩
  rw [this]
  constructor <;> intro hh <;> linarith

/-- **C122** (the tutorial airplane).  In every converged mission with the airplane of the tutorial the throttle is that of its
lift-to-drag ratio, at every node of every phase. -/
theorem C122_minimal_throttle (p : Minimal) (hS : p.sRef ≠ 0) (hW : p.tow ≠ 0) (hT : p.maxThrust ≠ 0)
    (h : MissionRel k ode p.craft ac1 o E F) {l : Leg} (hl : l ∈ legsOf k) (a : Fin (m + 1))
    (hs : F l.name "ac|geom|wing|S_ref" 0 = p.sRef) (hu : 0 < F l.name "fltcond|Ueas" a)
    (hi : -216.65 < F l.name "fltcond|TempIncrement" a) (hb : F l.name "braking" a = 0) (hz : F l.name "zero_accel" a = 0) :
    F l.name "weight" a = p.tow ∧
    F l.name "drag" a = p.tow * grav * Phases.cosgamma ⟨F l.name "fltcond|vs" a, F l.name "fltcond|Utrue" a⟩ / p.lOverD ∧
    F l.name "throttle" a = p.tow * grav * (Phases.cosgamma ⟨F l.name "fltcond|vs" a, F l.name "fltcond|Utrue" a⟩ / p.lOverD +
      Phases.singamma ⟨F l.name "fltcond|vs" a, F l.name "fltcond|Utrue" a⟩) / p.maxThrust := by
  have P := h.leg hl
  obtain ⟨N, hSa⟩ := leg_nodes (h.phase _ (leg_mem hl)) a
  have q0 : F l.name "fltcond|q" a ≠ 0 := (q_pos hi hu (P.atmos a)).ne'
  have hc := P.craft
  have w : F l.name "weight" a = p.tow := congrFun (congrArg AcOut.weight hc) a
  have d : F l.name "drag" a = F l.name "fltcond|q" a * F l.name "fltcond|CL" a * p.sRef / p.lOverD :=
    congrFun (congrArg AcOut.drag hc) a
  have t : F l.name "thrust" a = F l.name "throttle" a * p.maxThrust := congrFun (congrArg AcOut.thrust hc) a
  have f := P.thrust a (by rw [w]; exact hW) hb hz
  have c := N.cl
  have c2 := N.cos
  dsimp only at c c2
  rw [hSa, hs, w, c2, Phases.steadyCL] at c
  have d' : F l.name "drag" a = p.tow * grav * Phases.cosgamma ⟨F l.name "fltcond|vs" a, F l.name "fltcond|Utrue" a⟩ / p.lOverD := by
    rw [d, c]
    field_simp
  refine ⟨w, d', ?_⟩
  rw [t, d', w] at f
  rw [eq_div_iff hT, f]
  ring

theorem minimal_rest (p : Minimal) (h : MissionRel k ode p.craft ac1 o E F) {l : Leg} (hl : l ∈ legsOf k) (a : Fin (m + 1))
    (hs : F l.name "ac|geom|wing|S_ref" 0 = p.sRef) :
    F l.name "thrust" a = F l.name "throttle" a * p.maxThrust ∧
    F l.name "fltcond|CL" a = Phases.steadyCL ⟨p.tow, F l.name "fltcond|q" a, p.sRef,
      Phases.cosgamma ⟨F l.name "fltcond|vs" a, F l.name "fltcond|Utrue" a⟩⟩ ∧
    F l.name "lift" a = F l.name "fltcond|q" a * p.sRef * F l.name "fltcond|CL" a := by
  have P := h.leg hl
  obtain ⟨N, hSa⟩ := leg_nodes (h.phase _ (leg_mem hl)) a
  have hc := P.craft
  have w : F l.name "weight" a = p.tow := congrFun (congrArg AcOut.weight hc) a
  have c := N.cl
  have c2 := N.cos
  have c3 := N.lift
  dsimp only at c c2 c3
  rw [hSa, hs, w, c2] at c
  rw [hSa, hs] at c3
  exact ⟨congrFun (congrArg AcOut.thrust hc) a, c, c3⟩

end

/-- the inputs of a `BasicMission` with the tutorial airplane: altitudes and range in m, profiles, wing area -/
structure TutorialInputs (p : Minimal) (h0 H R r0 : ℝ) (q : Leg → Profile m) (E : String → Fin (m + 1) → ℝ)
    (F : String → String → Fin (m + 1) → ℝ) : Prop where
  takeoff : E "takeoff|h" 0 * 0.3048 = h0
  cruise : E "cruise|h0" 0 * 0.3048 = H
  range : E "mission_range" 0 * 1852 = R
  start : F "climb" "ode_integ_phase.range_initial" 0 = r0
  profile : ∀ l ∈ legsOf ⟨false, false, false⟩, profileOf (F l.name) = q l
  wing : ∀ l ∈ legsOf ⟨false, false, false⟩, F l.name "ac|geom|wing|S_ref" 0 = p.sRef
  steady : ∀ l ∈ legsOf ⟨false, false, false⟩, ∀ a, F l.name "braking" a = 0 ∧ F l.name "zero_accel" a = 0

/-- the flight data of the tutorial airplane along a trajectory -/
theorem minimal_data (p : Minimal) (hW : p.tow ≠ 0) (hT : p.maxThrust ≠ 0) (n : String) {q : Profile m} {s : Steady m}
    (hf : Follows q s) :
    ∃ c tau out, FlightData p.craft n s q p.sRef c tau out := by
  choose c hc hcu using hf.cond
  let D : Fin (m + 1) → ℝ := fun a => p.drag (c a).q (flightCL s p.sRef c (fun _ => p.tow) a)
  let X : Fin (m + 1) → ℝ := fun a => D a + p.tow * grav * Phases.singamma ⟨s.vs a, (c a).utrue⟩
  refine ⟨c, fun a => X a / p.maxThrust, ⟨X, D, fun _ => p.tow⟩, hf.vs, hc, fun a => (hcu a).symm, ?_, fun _ => hW, fun a => rfl⟩
  simp only [Minimal.craft, Minimal.thrust, div_mul_cancel₀ _ hT]
  rfl

/-- **C122** (the tutorial mission).  For all design variables, a climb and a descent at constant vertical speed, a level cruise and
positive airspeeds, for all altitudes of the atmosphere and all ranges, the mission of the tutorial has a converged state; and all
converged states have the same trajectory, throttle, thrust, drag, weight and lift. -/
theorem C122_minimal (hm : m % 2 = 0) (hm0 : m ≠ 0) (o : Opts) (ac1 : Craft 0) (p : Minimal) (hS : p.sRef ≠ 0) (hW : p.tow ≠ 0)
    (hT : p.maxThrust ≠ 0) (q : Leg → Profile m) {vc vd : ℝ} (hvc : vc ≠ 0) (hvd : vd ≠ 0) (qc : (q .climb).vs = fun _ => vc)
    (qk : (q .cruise).vs = fun _ => 0) (qd : (q .descent).vs = fun _ => vd)
    (hu : ∀ l a, 0 < (q l).ueas a) (hi : ∀ l a, -216.65 < (q l).inc a) (h0 H R r0 : ℝ) (b0 : h0 ≤ 288.16 / 0.0065)
    (bH : H ≤ 288.16 / 0.0065) :
    (∃ E F, MissionRel ⟨false, false, false⟩ false p.craft ac1 o E F ∧ TutorialInputs p h0 H R r0 q E F) ∧
    ∀ E F E' F', MissionRel ⟨false, false, false⟩ false p.craft ac1 o E F → TutorialInputs p h0 H R r0 q E F →
      MissionRel ⟨false, false, false⟩ false p.craft ac1 o E' F' → TutorialInputs p h0 H R r0 q E' F' →
      ∀ l ∈ legsOf ⟨false, false, false⟩, SameFlight (F l.name) (F' l.name) ∧
        ∀ n ∈ ["throttle", "thrust", "drag", "weight", "fltcond|CL", "lift"], F l.name n = F' l.name n := by
  constructor
  · obtain ⟨c, k, d, t, -⟩ := Trip.exists_level hm hm0 qc hvc qk qd hvd (hu .cruise) (hi .cruise) h0 r0 H h0 R b0 bH b0
    obtain ⟨cc, tc, oc, d1⟩ := minimal_data p hW hT "climb" t.followC
    obtain ⟨ck, tk, ok, d2⟩ := minimal_data p hW hT "cruise" t.followK
    obtain ⟨cd, td, od, d3⟩ := minimal_data p hW hT "descent" t.followD
    obtain ⟨E, F, h, e1, e2, e3, f1, f2, f3⟩ := basic_exists o ac1 t d1 d2 d3
    refine ⟨E, F, h, e1, e2, e3, by rw [f1]; exact t.start.2, ?_, ?_, ?_⟩
    · intro l hl
      simp only [legsOf, Bool.false_eq_true, if_false, List.append_nil] at hl
      fin_cases hl
      · change profileOf (F "climb") = _
        rw [f1, ← show (⟨c.vs, (q .climb).inc, (q .climb).ueas⟩ : Profile m) = q .climb by rw [t.followC.vs]]
        rfl
      · change profileOf (F "cruise") = _
        rw [f2, ← show (⟨k.vs, (q .cruise).inc, (q .cruise).ueas⟩ : Profile m) = q .cruise by rw [t.followK.vs]]
        rfl
      · change profileOf (F "descent") = _
        rw [f3, ← show (⟨d.vs, (q .descent).inc, (q .descent).ueas⟩ : Profile m) = q .descent by rw [t.followD.vs]]
        rfl
    · intro l hl
      simp only [legsOf, Bool.false_eq_true, if_false, List.append_nil] at hl
      fin_cases hl
      · change F "climb" _ _ = _
        rw [f1]; rfl
      · change F "cruise" _ _ = _
        rw [f2]; rfl
      · change F "descent" _ _ = _
        rw [f3]; rfl
    · intro l hl a
      simp only [legsOf, Bool.false_eq_true, if_false, List.append_nil] at hl
      fin_cases hl
      · change F "climb" _ _ = _ ∧ F "climb" _ _ = _
        rw [f1]; exact ⟨rfl, rfl⟩
      · change F "cruise" _ _ = _ ∧ F "cruise" _ _ = _
        rw [f2]; exact ⟨rfl, rfl⟩
      · change F "descent" _ _ = _ ∧ F "descent" _ _ = _
        rw [f3]; exact ⟨rfl, rfl⟩
  · intro E F E' F' h g h' g' l hl
    have hq : ∀ l ∈ legsOf ⟨false, false, false⟩, profileOf (F l.name) = profileOf (F' l.name) := fun l hl =>
      (g.profile l hl).trans (g'.profile l hl).symm
    have t := h.trip
    have t' := h'.trip
    have i1 : profileOf (F "climb") = q .climb := g.profile .climb (legs_flight (by simp))
    have i2 : profileOf (F "cruise") = q .cruise := g.profile .cruise (legs_flight (by simp))
    have i3 : profileOf (F "descent") = q .descent := g.profile .descent (legs_flight (by simp))
    have j1 : profileOf (F' "climb") = q .climb := g'.profile .climb (legs_flight (by simp))
    have j2 : profileOf (F' "cruise") = q .cruise := g'.profile .cruise (legs_flight (by simp))
    have j3 : profileOf (F' "descent") = q .descent := g'.profile .descent (legs_flight (by simp))
    have s1 : F "climb" "ode_integ_phase.fltcond|h_initial" 0 = h0 := ((C116_mission h).climbStartBasic rfl rfl).trans g.takeoff
    have s2 : F' "climb" "ode_integ_phase.fltcond|h_initial" 0 = h0 := ((C116_mission h').climbStartBasic rfl rfl).trans g'.takeoff
    rw [i1, i2, i3, s1, g.start, g.cruise, g.takeoff, g.range] at t
    rw [j1, j2, j3, s2, g'.start, g'.cruise, g'.takeoff, g'.range] at t'
    have hm' : (m : ℝ) ≠ 0 := Nat.cast_ne_zero.2 hm0
    have lv : Level (q .climb) (q .cruise) (q .descent) :=
      ⟨by rw [qc, Phases.simpson_const hm, Fin.val_last]; exact mul_ne_zero hvc hm', qk,
        by rw [qd, Phases.simpson_const hm, Fin.val_last]; exact mul_ne_zero hvd hm', hu _, hi _⟩
    obtain ⟨u1, u2, u3⟩ := t.unique_level hm hm0 lv t'
    have u : steadyOf (F l.name) = steadyOf (F' l.name) := by
      simp only [legsOf, Bool.false_eq_true, if_false, List.append_nil] at hl
      fin_cases hl
      · exact u1
      · exact u2
      · exact u3
    have sf := SameFlight.of (h.leg hl) (h'.leg hl) (hq l hl) u
    refine ⟨sf, ?_⟩
    have pu : ∀ a, F l.name "fltcond|Ueas" a = (q l).ueas a := fun a => congrFun (congrArg Profile.ueas (g.profile l hl)) a
    have pi : ∀ a, F l.name "fltcond|TempIncrement" a = (q l).inc a := fun a => congrFun (congrArg Profile.inc (g.profile l hl)) a
    have pu' : ∀ a, F' l.name "fltcond|Ueas" a = (q l).ueas a := fun a => congrFun (congrArg Profile.ueas (g'.profile l hl)) a
    have pi' : ∀ a, F' l.name "fltcond|TempIncrement" a = (q l).inc a := fun a => congrFun (congrArg Profile.inc (g'.profile l hl)) a
    have A := fun a => C122_minimal_throttle p hS hW hT h hl a (g.wing l hl) (by rw [pu]; exact hu l a) (by rw [pi]; exact hi l a)
      (g.steady l hl a).1 (g.steady l hl a).2
    have A' := fun a => C122_minimal_throttle p hS hW hT h' hl a (g'.wing l hl) (by rw [pu']; exact hu l a) (by rw [pi']; exact hi l a)
      (g'.steady l hl a).1 (g'.steady l hl a).2
    have B := fun a => minimal_rest p h hl a (g.wing l hl)
    have B' := fun a => minimal_rest p h' hl a (g'.wing l hl)
    have v : F l.name "fltcond|vs" = F' l.name "fltcond|vs" := congrArg Profile.vs (hq l hl)
    have ut : ∀ a, F l.name "fltcond|Utrue" a = F' l.name "fltcond|Utrue" a := fun a =>
      congrArg Atmos.FltCond.utrue (congrFun sf.cond a)
    have qq : ∀ a, F l.name "fltcond|q" a = F' l.name "fltcond|q" a := fun a => congrArg Atmos.FltCond.q (congrFun sf.cond a)
    have th : ∀ a, F l.name "throttle" a = F' l.name "throttle" a := fun a => by rw [(A a).2.2, (A' a).2.2, v, ut]
    have cl : ∀ a, F l.name "fltcond|CL" a = F' l.name "fltcond|CL" a := fun a => by rw [(B a).2.1, (B' a).2.1, v, ut, qq]
    intro n hn
    funext a
    fin_cases hn
    · exact th a
    · rw [(B a).1, (B' a).1, th]
    · rw [(A a).2.1, (A' a).2.1, v, ut]
    · rw [(A a).1, (A' a).1]
    · exact cl a
    · rw [(B a).2.2, (B' a).2.2, cl, qq]

/-- the profile of `minimal.py`:96-101 -/
noncomputable def tutorialProfile : Leg → Profile 10
  | .climb => ⟨fun _ => 2.54, fun _ => 0, fun _ => 77⟩
  | .cruise => ⟨fun _ => 0, fun _ => 0, fun _ => 103⟩
  | _ => ⟨fun _ => -2.54, fun _ => 0, fun _ => 77⟩

theorem tutorial_speed (l : Leg) (a : Fin 11) : 0 < (tutorialProfile l).ueas a ∧ -216.65 < (tutorialProfile l).inc a := by
  cases l <;> constructor <;> simp only [tutorialProfile] <;> norm_num

theorem tutorial_exists (p : Minimal) (hS : p.sRef ≠ 0) (hW : p.tow ≠ 0) (hT : p.maxThrust ≠ 0) (o : Opts) (ac1 : Craft 0) :
    ∃ E F, MissionRel ⟨false, false, false⟩ false (m := 10) p.craft ac1 o E F ∧ TutorialInputs p 0 4572 740800 0 tutorialProfile E F :=
  (C122_minimal (by norm_num) (by norm_num) o ac1 p hS hW hT tutorialProfile (vc := 2.54) (vd := -2.54) (by norm_num) (by norm_num)
    rfl rfl rfl (fun l a => (tutorial_speed l a).1) (fun l a => (tutorial_speed l a).2) 0 4572 740800 0 (by norm_num) (by norm_num)).1

/-- the numbers of `minimal.py`: level cruise at 15000 ft with a tenth of the weight as thrust needs half the throttle (0.49) -/
example (o : Opts) (ac1 : Craft 0) : ∃ E F, MissionRel ⟨false, false, false⟩ false (m := 10) (Minimal.craft ⟨25, 5000, 10000, 10⟩) ac1 o E F ∧
    (steadyOf (F "climb")).duration = 1800 ∧ ∀ a, F "cruise" "throttle" a = 5000 * grav * (1 / 10) / 10000 := by
  obtain ⟨E, F, h, g⟩ := tutorial_exists ⟨25, 5000, 10000, 10⟩ (by norm_num) (by norm_num) (by norm_num) o ac1
  refine ⟨E, F, h, ?_, fun a => ?_⟩
  · have t := h.trip
    have i1 : profileOf (F "climb") = tutorialProfile .climb := g.profile .climb (legs_flight (by simp))
    have s1 : F "climb" "ode_integ_phase.fltcond|h_initial" 0 = 0 := ((C116_mission h).climbStartBasic rfl rfl).trans g.takeoff
    have c := t.climb
    have e := t.start.1
    rw [Phases.hFinal_at, t.followC.vs, i1, e, s1, g.cruise] at c
    simp only [tutorialProfile] at c
    rw [Phases.simpson_const (by norm_num), Fin.val_last] at c
    norm_num at c
    linarith
  · have hl : Leg.cruise ∈ legsOf ⟨false, false, false⟩ := legs_flight (by simp)
    have i2 := g.profile .cruise hl
    have pv : F "cruise" "fltcond|vs" a = 0 := congrFun (congrArg Profile.vs i2) a
    have pu : F "cruise" "fltcond|Ueas" a = 103 := congrFun (congrArg Profile.ueas i2) a
    have pi : F "cruise" "fltcond|TempIncrement" a = 0 := congrFun (congrArg Profile.inc i2) a
    have T := C122_minimal_throttle _ (by norm_num) (by norm_num) (by norm_num) h hl a (g.wing _ hl)
      (by rw [show F Leg.cruise.name "fltcond|Ueas" a = 103 from pu]; norm_num)
      (by rw [show F Leg.cruise.name "fltcond|TempIncrement" a = 0 from pi]; norm_num) (g.steady _ hl a).1 (g.steady _ hl a).2
    have at_ := (h.leg hl).atmos a
    have up : 0 < F "cruise" "fltcond|Utrue" a := Phases.utrue_pos
      (by rw [show F Leg.cruise.name "fltcond|TempIncrement" a = 0 from pi]; norm_num)
      (by rw [show F Leg.cruise.name "fltcond|Ueas" a = 103 from pu]; norm_num) at_
    have T' : F "cruise" "throttle" a = 5000 * grav * (Phases.cosgamma ⟨F "cruise" "fltcond|vs" a, F "cruise" "fltcond|Utrue" a⟩ / 10 +
      Phases.singamma ⟨F "cruise" "fltcond|vs" a, F "cruise" "fltcond|Utrue" a⟩) / 10000 := T.2.2
    rw [T', pv]
    have n : ¬ F "cruise" "fltcond|Utrue" a ^ 2 - 0 ^ 2 < 0 := by
      rw [not_lt]; nlinarith
    unfold Phases.cosgamma Phases.singamma Phases.groundspeed Phases.GsIn.inside
    rw [if_neg n, if_neg n]
    dsimp only
    rw [show F "cruise" "fltcond|Utrue" a ^ 2 - 0 ^ 2 = F "cruise" "fltcond|Utrue" a ^ 2 by ring, Real.sqrt_sq up.le, div_self up.ne']
    ring

/-- two airplanes on the same mission: C122_level applies and gives the same trajectory -/
example (o : Opts) (ac1 : Craft 0) : ∃ E F E' F',
    MissionRel ⟨false, false, false⟩ false (m := 10) (Minimal.craft ⟨25, 5000, 10000, 10⟩) ac1 o E F ∧
    MissionRel ⟨false, false, false⟩ false (m := 10) (Minimal.craft ⟨80, 30000, 50000, 18⟩) ac1 o E' F' ∧
    F "cruise" "weight" 0 ≠ F' "cruise" "weight" 0 ∧
    ∀ l ∈ legsOf ⟨false, false, false⟩, profileOf (F l.name) = profileOf (F' l.name) ∧ F l.name "duration" 0 = F' l.name "duration" 0 ∧
      F l.name "range" = F' l.name "range" := by
  obtain ⟨E, F, h, g⟩ := tutorial_exists ⟨25, 5000, 10000, 10⟩ (by norm_num) (by norm_num) (by norm_num) o ac1
  obtain ⟨E', F', h', g'⟩ := tutorial_exists ⟨80, 30000, 50000, 18⟩ (by norm_num) (by norm_num) (by norm_num) o ac1
  have hq : ∀ l ∈ legsOf ⟨false, false, false⟩, profileOf (F l.name) = profileOf (F' l.name) := fun l hl =>
    (g.profile l hl).trans (g'.profile l hl).symm
  have i1 : profileOf (F "climb") = tutorialProfile .climb := g.profile .climb (legs_flight (by simp))
  have i2 : profileOf (F "cruise") = tutorialProfile .cruise := g.profile .cruise (legs_flight (by simp))
  have i3 : profileOf (F "descent") = tutorialProfile .descent := g.profile .descent (legs_flight (by simp))
  have hp : ∀ n ∈ flightParams ⟨false, false, false⟩, E n 0 = E' n 0 := by
    intro n hn
    simp only [flightParams, Bool.false_eq_true, if_false, List.append_nil] at hn
    fin_cases hn
    · linarith [g.takeoff, g'.takeoff]
    · linarith [g.cruise, g'.cruise]
    · linarith [g.range, g'.range]
  have hs : ∀ x ∈ ["ode_integ_phase.fltcond|h_initial", "ode_integ_phase.range_initial"], F "climb" x 0 = F' "climb" x 0 := by
    intro x hx
    fin_cases hx
    · exact (((C116_mission h).climbStartBasic rfl rfl).trans g.takeoff).trans
        (((C116_mission h').climbStartBasic rfl rfl).trans g'.takeoff).symm
    · exact g.start.trans g'.start.symm
  refine ⟨E, F, E', F', h, h', ?_, fun l hl => ⟨hq l hl, ?_⟩⟩
  · have hl : Leg.cruise ∈ legsOf ⟨false, false, false⟩ := legs_flight (by simp)
    have w : F "cruise" "weight" 0 = 5000 := congrFun (congrArg AcOut.weight (h.leg hl).craft) 0
    have w' : F' "cruise" "weight" 0 = 30000 := congrFun (congrArg AcOut.weight (h'.leg hl).craft) 0
    rw [w, w']
    norm_num
  · have := C122_level (by norm_num) (by norm_num) h h' hp hq hs (by simp) ?_ (by simp) l hl
    · exact ⟨this.duration, this.range⟩
    · rw [i1, i2, i3]
      refine ⟨?_, rfl, ?_, fun a => (tutorial_speed _ a).1, fun a => (tutorial_speed _ a).2⟩
      · simp only [tutorialProfile]
        rw [Phases.simpson_const (by norm_num), Fin.val_last]
        norm_num
      · simp only [tutorialProfile]
        rw [Phases.simpson_const (by norm_num), Fin.val_last]
        norm_num

/-- two airplanes cruise for an hour: C122_trajectory applies -/
example (o : Opts) (ac1 : Craft 0) : ∃ E F E' F',
    MissionRel ⟨false, false, false⟩ false (m := 10) (Minimal.craft ⟨25, 5000, 10000, 10⟩) ac1 o E F ∧
    MissionRel ⟨false, false, false⟩ false (m := 10) (Minimal.craft ⟨80, 30000, 50000, 18⟩) ac1 o E' F' ∧
    OrdinaryMission ⟨false, false, false⟩ F ∧ OrdinaryMission ⟨false, false, false⟩ F' ∧ F "cruise" "duration" 0 = 3600 ∧
    ∀ l ∈ legsOf ⟨false, false, false⟩, SameFlight (F l.name) (F' l.name) := by
  obtain ⟨R, c, k, d, t, hT⟩ := Trip.exists_time (m := 10) (qc := tutorialProfile .climb) (qk := tutorialProfile .cruise)
    (qd := tutorialProfile .descent) (vc := 2.54) (vd := -2.54) (by norm_num) (by norm_num) rfl (by norm_num) rfl rfl (by norm_num)
    0 0 4572 0 3600 (by norm_num) (by norm_num) (by norm_num)
  have ord := t.ordinary (vd := -2.54) (by norm_num) (by norm_num) rfl rfl (by norm_num) (by rw [hT]; norm_num) le_rfl (by norm_num)
    (by norm_num) (fun a => by simp only [tutorialProfile]; norm_num) (fun a => by simp only [tutorialProfile]; norm_num)
  have fly : Phases.Flyable (tutorialProfile .climb) (tutorialProfile .cruise) (tutorialProfile .descent) := by
    constructor <;> intro a <;> simp only [tutorialProfile] <;> norm_num
  have pr : ∀ {l : Leg} {s : Steady 10} {S x : ℝ} {c : Fin 11 → Atmos.FltCond} {tau : Fin 11 → ℝ} {out : AcOut 10},
      Follows (tutorialProfile l) s → profileOf (flightState l s (tutorialProfile l) S x c tau out) = tutorialProfile l := by
    intro l s S x c tau out hf
    rw [← show (⟨s.vs, (tutorialProfile l).inc, (tutorialProfile l).ueas⟩ : Profile 10) = tutorialProfile l by rw [hf.vs]]
    cases l <;> rfl
  have st : ∀ {l : Leg} {s : Steady 10} {S x : ℝ} {c : Fin 11 → Atmos.FltCond} {tau : Fin 11 → ℝ} {out : AcOut 10} {ac : Craft 10}
      {n : String}, FlightData ac n s (tutorialProfile l) S c tau out →
      steadyOf (flightState l s (tutorialProfile l) S x c tau out) = s := by
    intro l s S x c tau out ac n hf
    rw [show s = (⟨s.duration, s.hInitial, s.rangeInitial, s.vs, fun a => (c a).utrue⟩ : Steady 10) by rw [← funext hf.utrue]]
    cases l <;> rfl
  have mk : ∀ p : Minimal, p.tow ≠ 0 → p.maxThrust ≠ 0 → ∃ E F, MissionRel ⟨false, false, false⟩ false (m := 10) p.craft ac1 o E F ∧
      OrdinaryMission ⟨false, false, false⟩ F ∧ F "cruise" "duration" 0 = 3600 ∧ E "takeoff|h" 0 * 0.3048 = 0 ∧
      E "cruise|h0" 0 * 0.3048 = 4572 ∧ E "mission_range" 0 * 1852 = R ∧
      (∀ l ∈ legsOf ⟨false, false, false⟩, profileOf (F l.name) = tutorialProfile l) ∧
      F "climb" "ode_integ_phase.range_initial" 0 = 0 := by
    intro p hW hT'
    obtain ⟨cc, tc, oc, d1⟩ := minimal_data p hW hT' "climb" t.followC
    obtain ⟨ck, tk, ok, d2⟩ := minimal_data p hW hT' "cruise" t.followK
    obtain ⟨cd, td, od, d3⟩ := minimal_data p hW hT' "descent" t.followD
    obtain ⟨E, F, h, e1, e2, e3, f1, f2, f3⟩ := basic_exists o ac1 t d1 d2 d3
    refine ⟨E, F, h, ⟨?_, ?_, by simp, by simp⟩, ?_, e1, e2, e3, ?_, ?_⟩
    · rw [f1, f2, f3, pr t.followC, pr t.followK, pr t.followD]; exact fly
    · rw [f2, f3, st d2, st d3]; exact ord
    · rw [f2]; exact hT
    · intro l hl
      simp only [legsOf, Bool.false_eq_true, if_false, List.append_nil] at hl
      fin_cases hl
      · change profileOf (F "climb") = _
        rw [f1, pr t.followC]
      · change profileOf (F "cruise") = _
        rw [f2, pr t.followK]
      · change profileOf (F "descent") = _
        rw [f3, pr t.followD]
    · rw [f1]; exact t.start.2
  obtain ⟨E, F, h, ho, e, g1, g2, g3, g4, g5⟩ := mk ⟨25, 5000, 10000, 10⟩ (by norm_num) (by norm_num)
  obtain ⟨E', F', h', ho', -, g1', g2', g3', g4', g5'⟩ := mk ⟨80, 30000, 50000, 18⟩ (by norm_num) (by norm_num)
  refine ⟨E, F, E', F', h, h', ho, ho', e, C122_trajectory (by norm_num) (by norm_num) h h' ?_ ?_ ?_ (by simp) ho ho'⟩
  · intro n hn
    simp only [flightParams, Bool.false_eq_true, if_false, List.append_nil] at hn
    fin_cases hn <;> linarith
  · exact fun l hl => (g4 l hl).trans (g4' l hl).symm
  · intro x hx
    fin_cases hx
    · exact (((C116_mission h).climbStartBasic rfl rfl).trans g1).trans (((C116_mission h').climbStartBasic rfl rfl).trans g1').symm
    · exact g5.trans g5'.symm

end Verif.Wiring
