import Verif.Props.Missions
import Verif.Props.FltCond

/-! Property C122: the profile of a mission determines its trajectory. -/

namespace Verif.Atmos

theorem utrue_mono {h h' inc u : ℝ} (hi : -100 ≤ inc) (hu : 0 < u) {c c' : FltCond} (hc : atmosEas h inc u = some c)
    (hc' : atmosEas h' inc u = some c') (hle : h ≤ h') : c.utrue ≤ c'.utrue := by
  rcases hle.eq_or_lt with rfl | hlt
  · rw [hc] at hc'
    rw [Option.some.inj hc']
  · have hm : h' ≤ hMax := by
      by_contra hn
      unfold atmosEas at hc'
      rw [pressure_eq, if_pos (not_le.1 hn)] at hc'
      exact absurd hc' (by simp)
    obtain ⟨d, d', e, e', hd, -⟩ := C95_climb inc h h' u hi hlt hm hu
    rw [hc] at e
    rw [hc'] at e'
    rw [Option.some.inj e, Option.some.inj e']
    exact hd.le

end Verif.Atmos

namespace Verif.Phases

open Integrals Matrix

variable {m : ℕ}

/-! ### Simpson's rule over a whole phase -/

theorem simpson_last (hm : m % 2 = 0) (r : Fin (m + 1) → ℝ) : (simpsonTri m *ᵥ r) (Fin.last m) =
    ∑ k ∈ Finset.range (m / 2), (ext0 r (2 * k) + 4 * ext0 r (2 * k + 1) + ext0 r (2 * k + 2)) / 3 := by
  have h := simpsonTri_seq hm (ext0 r) (Fin.last m)
  rw [ext0_eq] at h
  rw [h, Fin.val_last]
  have key : ∀ n, simpsonSeq (ext0 r) (2 * n) =
      ∑ k ∈ Finset.range n, (ext0 r (2 * k) + 4 * ext0 r (2 * k + 1) + ext0 r (2 * k + 2)) / 3 := by
    intro n
    induction n with
    | zero => simp [simpsonSeq]
    | succ n ih =>
      rw [Finset.sum_range_succ, ← ih, show 2 * (n + 1) = 2 * n + 2 by ring, simpsonSeq_even, simpsonSeq_odd]
      ring
  rw [← key, show 2 * (m / 2) = m by omega]

theorem ext0_of_lt (r : Fin (m + 1) → ℝ) (n : ℕ) (hn : n < m + 1) : ext0 r n = r ⟨n, hn⟩ := ext0_fin r ⟨n, hn⟩

theorem simpson_last_pos (hm : m % 2 = 0) (hm0 : m ≠ 0) (r : Fin (m + 1) → ℝ) (hr : ∀ a, 0 < r a) :
    0 < (simpsonTri m *ᵥ r) (Fin.last m) := by
  rw [simpson_last hm]
  refine Finset.sum_pos (fun k hk => ?_) ⟨0, Finset.mem_range.2 (by omega)⟩
  have hk := Finset.mem_range.1 hk
  rw [ext0_of_lt r (2 * k) (by omega), ext0_of_lt r (2 * k + 1) (by omega), ext0_of_lt r (2 * k + 2) (by omega)]
  linarith [hr ⟨2 * k, by omega⟩, hr ⟨2 * k + 1, by omega⟩, hr ⟨2 * k + 2, by omega⟩]

theorem simpson_last_mono (hm : m % 2 = 0) (r s : Fin (m + 1) → ℝ) (hr : ∀ a, r a ≤ s a) :
    (simpsonTri m *ᵥ r) (Fin.last m) ≤ (simpsonTri m *ᵥ s) (Fin.last m) := by
  rw [simpson_last hm, simpson_last hm]
  refine Finset.sum_le_sum fun k hk => ?_
  have hk := Finset.mem_range.1 hk
  rw [ext0_of_lt r (2 * k) (by omega), ext0_of_lt r (2 * k + 1) (by omega), ext0_of_lt r (2 * k + 2) (by omega),
    ext0_of_lt s (2 * k) (by omega), ext0_of_lt s (2 * k + 1) (by omega), ext0_of_lt s (2 * k + 2) (by omega)]
  linarith [hr ⟨2 * k, by omega⟩, hr ⟨2 * k + 1, by omega⟩, hr ⟨2 * k + 2, by omega⟩]

theorem simpson_last_neg (hm : m % 2 = 0) (hm0 : m ≠ 0) (r : Fin (m + 1) → ℝ) (hr : ∀ a, r a < 0) :
    (simpsonTri m *ᵥ r) (Fin.last m) < 0 := by
  have := simpson_last_pos hm hm0 (-r) fun a => by simpa using hr a
  rw [Matrix.mulVec_neg] at this
  simpa using this

/-! ### legs -/

/-- the profile that the user prescribes in a steady phase -/
structure Profile (m : ℕ) where
  vs : Fin (m + 1) → ℝ
  inc : Fin (m + 1) → ℝ
  ueas : Fin (m + 1) → ℝ

/-- a steady phase follows a profile: its true airspeed is that of the atmosphere at its altitude -/
structure Follows (q : Profile m) (p : Steady m) : Prop where
  vs : p.vs = q.vs
  cond : ∀ a, ∃ c, Atmos.atmosEas (p.h a) (q.inc a) (q.ueas a) = some c ∧ c.utrue = p.utrue a

theorem h_at (p : Steady m) (a : Fin (m + 1)) : p.h a = p.hInitial + (simpsonTri m *ᵥ p.vs) a * (p.duration / m) := by
  rw [Steady.h, integratorCompute_eq]
  simp only [TimeInput.step]
  ring

theorem hFinal_at (p : Steady m) : p.hFinal = p.hInitial + (simpsonTri m *ᵥ p.vs) (Fin.last m) * (p.duration / m) := h_at p _

theorem rangeFinal_at (p : Steady m) :
    p.rangeFinal = p.rangeInitial + (simpsonTri m *ᵥ p.gs) (Fin.last m) * (p.duration / m) := by
  rw [Steady.rangeFinal, Steady.range, integratorCompute_eq]
  simp only [TimeInput.step]
  ring

/-- a profile, an initial state and a duration determine a leg -/
theorem Follows.unique {q : Profile m} {p p' : Steady m} (h : Follows q p) (h' : Follows q p') (hd : p.duration = p'.duration)
    (hh : p.hInitial = p'.hInitial) (hr : p.rangeInitial = p'.rangeInitial) : p = p' := by
  obtain ⟨T, h0, r0, vs, u⟩ := p
  obtain ⟨T', h0', r0', vs', u'⟩ := p'
  obtain ⟨v, c⟩ := h
  obtain ⟨v', c'⟩ := h'
  dsimp only at hd hh hr v v'
  subst hd hh hr v v'
  have : u = u' := by
    funext a
    obtain ⟨x, hx, hu⟩ := c a
    obtain ⟨x', hx', hu'⟩ := c' a
    have e : (⟨T, h0, r0, q.vs, u⟩ : Steady m).h a = (⟨T, h0, r0, q.vs, u'⟩ : Steady m).h a := rfl
    rw [e, hx'] at hx
    cases Option.some.inj hx
    exact hu.symm.trans hu'
  rw [this]

/-- and a target altitude determines the duration, unless the mean vertical speed is zero -/
theorem Follows.duration {q : Profile m} {p p' : Steady m} (hm0 : m ≠ 0) (h : Follows q p) (h' : Follows q p')
    (hv : (simpsonTri m *ᵥ q.vs) (Fin.last m) ≠ 0) (hh : p.hInitial = p'.hInitial) (hf : p.hFinal = p'.hFinal) :
    p.duration = p'.duration := by
  have hm' : (m : ℝ) ≠ 0 := Nat.cast_ne_zero.2 hm0
  rw [hFinal_at, hFinal_at, h.vs, h'.vs, hh] at hf
  have := mul_left_cancel₀ hv (add_left_cancel hf)
  field_simp at this
  exact this

theorem gs_mono {vs u u' : ℝ} (h : |vs| ≤ u) (hu : u ≤ u') : groundspeed ⟨vs, u⟩ ≤ groundspeed ⟨vs, u'⟩ := by
  have h0 := abs_nonneg vs
  have h1 : vs ^ 2 ≤ u ^ 2 := sq_le_sq' (by linarith [neg_abs_le vs]) ((le_abs_self vs).trans h)
  have h2 : u ^ 2 ≤ u' ^ 2 := pow_le_pow_left₀ (h0.trans h) hu 2
  unfold groundspeed GsIn.inside
  rw [if_neg (by dsimp only; linarith), if_neg (by dsimp only; linarith)]
  exact Real.sqrt_le_sqrt (by dsimp only; linarith)

theorem gs_pos {vs u : ℝ} (h : |vs| < u) : 0 < groundspeed ⟨vs, u⟩ := by
  have h0 := abs_nonneg vs
  have h1 : vs ^ 2 < u ^ 2 := sq_lt_sq' (by linarith [neg_abs_le vs]) ((le_abs_self vs).trans_lt h)
  unfold groundspeed GsIn.inside
  rw [if_neg (by dsimp only; linarith)]
  exact Real.sqrt_pos.2 (by dsimp only; linarith)

theorem gs_nonneg (i : GsIn) : 0 ≤ groundspeed i := Real.sqrt_nonneg _

/-! ### climb, cruise and descent -/

/-- climb from `h0`, `r0` to the altitude `H`, cruise, and descent to the altitude `L` at the range `R` -/
structure Trip (qc qk qd : Profile m) (h0 r0 H L R : ℝ) (c k d : Steady m) : Prop where
  followC : Follows qc c
  followK : Follows qk k
  followD : Follows qd d
  start : c.hInitial = h0 ∧ c.rangeInitial = r0
  climb : c.hFinal = H
  linkK : linked false c k
  linkD : linked false k d
  descent : d.hFinal = L
  range : d.rangeFinal = R

/-- a flyable profile -/
structure Flyable (qc qk qd : Profile m) : Prop where
  climbs : ∀ a, 0 < qc.vs a
  descends : ∀ a, qd.vs a < 0
  speed : ∀ a, 0 < qk.ueas a ∧ 0 < qd.ueas a
  warm : ∀ a, -100 ≤ qk.inc a ∧ -100 ≤ qd.inc a

/-- an ordinary flight: time runs forward, the cruise does not fall below its initial altitude, the descent stays between its
initial and its final altitude, and the vertical speed is less than the airspeed -/
structure Ordinary (k d : Steady m) : Prop where
  forward : 0 ≤ k.duration
  cruise : ∀ a, k.hInitial ≤ k.h a
  descent : ∀ a, d.hFinal ≤ d.h a ∧ d.h a ≤ d.hInitial
  slow : ∀ a, |k.vs a| < k.utrue a ∧ |d.vs a| ≤ d.utrue a

/-- a longer cruise arrives farther away -/
theorem Trip.farther (hm : m % 2 = 0) (hm0 : m ≠ 0) {qc qk qd : Profile m} {h0 r0 H L R R' : ℝ} {c k d c' k' d' : Steady m}
    (hf : Flyable qc qk qd) (h : Trip qc qk qd h0 r0 H L R c k d) (h' : Trip qc qk qd h0 r0 H L R' c' k' d')
    (ho : Ordinary k d) (ho' : Ordinary k' d') (hcc : c = c') (hlt : k.duration < k'.duration) : R < R' := by
  have hm' : (0 : ℝ) < m := by exact_mod_cast Nat.pos_of_ne_zero hm0
  have hT' : 0 < k'.duration / m := div_pos (ho.forward.trans_lt hlt) hm'
  have hT : 0 ≤ k.duration / m := div_nonneg ho.forward hm'.le
  have hTT : k.duration / m < k'.duration / m := div_lt_div_of_pos_right hlt hm'
  have hh0 : k.hInitial = k'.hInitial := by rw [h.linkK.2 rfl, h'.linkK.2 rfl, hcc]
  have hr0 : k.rangeInitial = k'.rangeInitial := by rw [h.linkK.1, h'.linkK.1, hcc]
  -- the cruise
  have hS : ∀ a, 0 ≤ (simpsonTri m *ᵥ qk.vs) a := by
    intro a
    have := ho'.cruise a
    rw [h_at, h'.followK.vs] at this
    by_contra hn
    have := mul_neg_of_neg_of_pos (not_le.1 hn) hT'
    linarith
  have hk : ∀ a, k.h a ≤ k'.h a := by
    intro a
    rw [h_at, h_at, h.followK.vs, h'.followK.vs, hh0]
    have := mul_le_mul_of_nonneg_left hTT.le (hS a)
    linarith
  have hgk : ∀ a, k.gs a ≤ k'.gs a := by
    intro a
    obtain ⟨x, hx, hu⟩ := h.followK.cond a
    obtain ⟨x', hx', hu'⟩ := h'.followK.cond a
    have := Atmos.utrue_mono (hf.warm a).1 (hf.speed a).1 hx hx' (hk a)
    rw [hu, hu'] at this
    unfold Steady.gs
    rw [← (congrFun (h.followK.vs.trans h'.followK.vs.symm) a)]
    exact gs_mono (ho.slow a).1.le this
  have hLk := simpson_last_mono hm _ _ hgk
  have hLk' : 0 < (simpsonTri m *ᵥ k'.gs) (Fin.last m) := simpson_last_pos hm hm0 _ fun a => gs_pos (ho'.slow a).1
  have hrk : k.rangeFinal < k'.rangeFinal := by
    rw [rangeFinal_at, rangeFinal_at, hr0]
    have e1 := mul_le_mul_of_nonneg_right hLk hT
    have e2 := mul_lt_mul_of_pos_left hTT hLk'
    linarith
  have hhk : k.hFinal ≤ k'.hFinal := hk _
  -- the descent
  have hx : d.hInitial ≤ d'.hInitial := by rw [h.linkD.2 rfl, h'.linkD.2 rfl]; exact hhk
  have hSd : (simpsonTri m *ᵥ qd.vs) (Fin.last m) < 0 := simpson_last_neg hm hm0 _ hf.descends
  have hLx : L ≤ d.hInitial := by rw [← h.descent]; exact (ho.descent 0).1.trans (ho.descent 0).2
  have ed : (simpsonTri m *ᵥ qd.vs) (Fin.last m) * (d.duration / m) = L - d.hInitial := by
    have := h.descent
    rw [hFinal_at, h.followD.vs] at this
    linarith
  have ed' : (simpsonTri m *ᵥ qd.vs) (Fin.last m) * (d'.duration / m) = L - d'.hInitial := by
    have := h'.descent
    rw [hFinal_at, h'.followD.vs] at this
    linarith
  have hTd : 0 ≤ d.duration / m := by
    by_contra hn
    have := mul_pos_of_neg_of_neg hSd (not_le.1 hn)
    linarith
  have hTd' : d.duration / m ≤ d'.duration / m := by
    by_contra hn
    have := mul_lt_mul_of_neg_left (not_le.1 hn) hSd
    linarith
  have hd : ∀ a, d.h a ≤ d'.h a := by
    intro a
    have hb := ho'.descent a
    rw [h'.descent, h_at, h'.followD.vs] at hb
    rw [h_at, h_at, h.followD.vs, h'.followD.vs]
    generalize (simpsonTri m *ᵥ qd.vs) a = s at hb
    generalize (simpsonTri m *ᵥ qd.vs) (Fin.last m) = S at hSd ed ed'
    generalize d.duration / m = t at *
    generalize d'.duration / m = t' at *
    have hS0 := hSd.ne
    obtain ⟨w, rfl⟩ : ∃ w, s = S * w := ⟨s / S, by field_simp⟩
    have e1 : S * w * t = (L - d.hInitial) * w := by rw [← ed]; ring
    have e2 : S * w * t' = (L - d'.hInitial) * w := by rw [← ed']; ring
    rw [e2] at hb
    rw [e1, e2]
    rcases (hLx.trans hx).eq_or_lt with e | e
    · have : d.hInitial = d'.hInitial := le_antisymm hx (e ▸ hLx)
      rw [this]
    · have w1 : w ≤ 1 := by nlinarith
      nlinarith
  have hgd : ∀ a, d.gs a ≤ d'.gs a := by
    intro a
    obtain ⟨x, hx, hu⟩ := h.followD.cond a
    obtain ⟨x', hx', hu'⟩ := h'.followD.cond a
    have := Atmos.utrue_mono (hf.warm a).2 (hf.speed a).2 hx hx' (hd a)
    rw [hu, hu'] at this
    unfold Steady.gs
    rw [← (congrFun (h.followD.vs.trans h'.followD.vs.symm) a)]
    exact gs_mono (ho.slow a).2 this
  have hLd := simpson_last_mono hm _ _ hgd
  have hLd' : 0 ≤ (simpsonTri m *ᵥ d'.gs) (Fin.last m) := by
    have := simpson_last_mono hm (fun _ => 0) d'.gs fun a => gs_nonneg _
    rwa [show (fun _ : Fin (m + 1) => (0 : ℝ)) = 0 from rfl, Matrix.mulVec_zero] at this
  rw [← h.range, ← h'.range, rangeFinal_at, rangeFinal_at, h.linkD.1, h'.linkD.1]
  have e1 := mul_le_mul_of_nonneg_right hLd hTd
  have e2 := mul_le_mul_of_nonneg_left hTd' hLd'
  linarith

/-- the trip is determined by the profiles, the start and the targets -/
theorem Trip.unique (hm : m % 2 = 0) (hm0 : m ≠ 0) {qc qk qd : Profile m} {h0 r0 H L R : ℝ} {c k d c' k' d' : Steady m}
    (hf : Flyable qc qk qd) (h : Trip qc qk qd h0 r0 H L R c k d) (h' : Trip qc qk qd h0 r0 H L R c' k' d')
    (ho : Ordinary k d) (ho' : Ordinary k' d') : c = c' ∧ k = k' ∧ d = d' := by
  have hc0 := h.start.1.trans h'.start.1.symm
  have hc : c = c' := h.followC.unique h'.followC
    (h.followC.duration hm0 h'.followC (simpson_last_pos hm hm0 _ hf.climbs).ne' hc0 (h.climb.trans h'.climb.symm)) hc0
    (h.start.2.trans h'.start.2.symm)
  have hT : k.duration = k'.duration := by
    rcases lt_trichotomy k.duration k'.duration with hl | hl | hl
    · exact absurd (h.farther hm hm0 hf h' ho ho' hc hl) (lt_irrefl _)
    · exact hl
    · exact absurd (h'.farther hm hm0 hf h ho' ho hc.symm hl) (lt_irrefl _)
  have hk : k = k' := h.followK.unique h'.followK hT (by rw [h.linkK.2 rfl, h'.linkK.2 rfl, hc])
    (by rw [h.linkK.1, h'.linkK.1, hc])
  have hd0 : d.hInitial = d'.hInitial := by rw [h.linkD.2 rfl, h'.linkD.2 rfl, hk]
  exact ⟨hc, hk, h.followD.unique h'.followD
    (h.followD.duration hm0 h'.followD (simpson_last_neg hm hm0 _ hf.descends).ne hd0 (h.descent.trans h'.descent.symm)) hd0
    (by rw [h.linkD.1, h'.linkD.1, hk])⟩

/-! ### level cruise -/

/-- a profile with a level cruise -/
structure Level (qc qk qd : Profile m) : Prop where
  climb : (simpsonTri m *ᵥ qc.vs) (Fin.last m) ≠ 0
  cruise : qk.vs = fun _ => 0
  descent : (simpsonTri m *ᵥ qd.vs) (Fin.last m) ≠ 0
  speed : ∀ a, 0 < qk.ueas a
  warm : ∀ a, -216.65 < qk.inc a

theorem level_h {p : Steady m} (h : p.vs = fun _ => 0) (a : Fin (m + 1)) : p.h a = p.hInitial := by
  rw [h_at, h, show (fun _ : Fin (m + 1) => (0 : ℝ)) = 0 from rfl, Matrix.mulVec_zero]
  simp

theorem utrue_pos {h inc u : ℝ} (hi : -216.65 < inc) (hu : 0 < u) {c : Atmos.FltCond} (hc : Atmos.atmosEas h inc u = some c) :
    0 < c.utrue := by
  unfold Atmos.atmosEas at hc
  obtain ⟨p, hp, rfl⟩ := Option.map_eq_some_iff.1 hc
  rw [Atmos.pressure_eq] at hp
  split_ifs at hp
  have hp : Atmos.pblend h = p := Option.some.inj hp
  have h1 := Atmos.pblend_pos h
  have h2 : 0 < Atmos.temperature h inc := by linarith [(Atmos.C35_temperature h h inc le_rfl).2]
  rw [hp] at h1
  show 0 < Atmos.trueAirspeed _ _
  unfold Atmos.trueAirspeed Atmos.density Atmos.R
  positivity

theorem level_gs {p : Steady m} {q : Profile m} (hf : Follows q p) (h : q.vs = fun _ => 0) (hu : ∀ a, 0 < q.ueas a)
    (hi : ∀ a, -216.65 < q.inc a) (a : Fin (m + 1)) : 0 < p.gs a := by
  obtain ⟨c, hc, e⟩ := hf.cond a
  have := utrue_pos (hi a) (hu a) hc
  rw [e] at this
  unfold Steady.gs
  rw [hf.vs, h]
  exact gs_pos (by simpa using this)

/-- the trip with a level cruise is determined whatever its durations are -/
theorem Trip.unique_level (hm : m % 2 = 0) (hm0 : m ≠ 0) {qc qk qd : Profile m} {h0 r0 H L R : ℝ} {c k d c' k' d' : Steady m}
    (hl : Level qc qk qd) (h : Trip qc qk qd h0 r0 H L R c k d) (h' : Trip qc qk qd h0 r0 H L R c' k' d') :
    c = c' ∧ k = k' ∧ d = d' := by
  have hm' : (m : ℝ) ≠ 0 := Nat.cast_ne_zero.2 hm0
  have hc0 := h.start.1.trans h'.start.1.symm
  have hc : c = c' := h.followC.unique h'.followC
    (h.followC.duration hm0 h'.followC hl.climb hc0 (h.climb.trans h'.climb.symm)) hc0
    (h.start.2.trans h'.start.2.symm)
  have hkh : k.hInitial = k'.hInitial := by rw [h.linkK.2 rfl, h'.linkK.2 rfl, hc]
  have hkr : k.rangeInitial = k'.rangeInitial := by rw [h.linkK.1, h'.linkK.1, hc]
  have lk : ∀ a, k.h a = k'.h a := fun a => by
    rw [level_h (h.followK.vs.trans hl.cruise), level_h (h'.followK.vs.trans hl.cruise), hkh]
  have gk : k.gs = k'.gs := by
    funext a
    obtain ⟨x, hx, hu⟩ := h.followK.cond a
    obtain ⟨x', hx', hu'⟩ := h'.followK.cond a
    rw [lk a, hx'] at hx
    unfold Steady.gs
    rw [h.followK.vs, h'.followK.vs, ← hu, ← hu', Option.some.inj hx]
  have hd0 : d.hInitial = d'.hInitial := by rw [h.linkD.2 rfl, h'.linkD.2 rfl]; exact lk _
  have hTd := h.followD.duration hm0 h'.followD hl.descent hd0 (h.descent.trans h'.descent.symm)
  have gd : d.gs = d'.gs := by
    funext a
    obtain ⟨x, hx, hu⟩ := h.followD.cond a
    obtain ⟨x', hx', hu'⟩ := h'.followD.cond a
    rw [h_at, h.followD.vs, hd0, hTd, ← h'.followD.vs, ← h_at, hx'] at hx
    unfold Steady.gs
    rw [h.followD.vs, h'.followD.vs, ← hu, ← hu', Option.some.inj hx]
  have hT : k.duration = k'.duration := by
    have e := h.range.trans h'.range.symm
    rw [rangeFinal_at, rangeFinal_at, h.linkD.1, h'.linkD.1, rangeFinal_at, rangeFinal_at, gd, hTd, gk, hkr] at e
    have hp := simpson_last_pos hm hm0 k'.gs (level_gs h'.followK hl.cruise hl.speed hl.warm)
    have := mul_left_cancel₀ hp.ne' (add_left_cancel (add_right_cancel e))
    field_simp at this
    exact this
  have hk : k = k' := h.followK.unique h'.followK hT hkh hkr
  exact ⟨hc, hk, h.followD.unique h'.followD hTd hd0 (by rw [h.linkD.1, h'.linkD.1, hk])⟩

end Verif.Phases
