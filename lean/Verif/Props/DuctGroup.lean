import Verif.Model.DuctGroup
import Verif.Props.Ducts
import Verif.Props.HeatExchanger

/-! Properties C96 and C97: ducted heat exchanger groups. -/

namespace Verif.Ducts

open Real Verif.HX

/-! ### balances -/

/-- C96.  Energy: the total enthalpy flow gained between the free stream and the nozzle is the heat added at the three
stations. -/
theorem C96_energy (R gam : ℝ) (d : DuctIn) (dp q : ℝ) (s : DuctState) (hc : d.cp ≠ 0) (h : d.Converged R gam dp q s) :
    s.mdot * d.cp * ((d.nozzle R gam dp q s).Tt - inletTt R gam d.TInf d.U) = d.q1 + d.q2 + q := by
  have hm := h.flow.ne'
  simp only [DuctIn.nozzle, DuctIn.sta3, DuctIn.sta2, DuctIn.sta1, ttOut]
  field_simp
  ring

/-- C96.  Total pressure: recoveries, increments and the loss factor of station 1, in the order of the stations. -/
theorem C96_pressure (R gam : ℝ) (d : DuctIn) (dp q : ℝ) (s : DuctState) :
    (d.nozzle R gam dp q s).pt s.rhoN =
      ((inletPt R gam 1 d.pInf d.TInf d.U * d.rec1 - 0.5 * s.mdot ^ 2 / s.rho1 / d.area1 ^ 2 * d.loss1 + d.dp1) * d.rec2
        + d.dp2) * d.rec3 + dp := by
  simp only [DuctIn.nozzle, DuctIn.sta3, DuctIn.sta2, DuctIn.sta1, ptOut, Nozzle.pt, nozzlePt]
  ring

/-- C96.  Mass: every station and the nozzle pass the same flow, density times speed times area. -/
theorem C96_mass (R gam : ℝ) (d : DuctIn) (dp q : ℝ) (s : DuctState) (h : d.Converged R gam dp q s) :
    s.mdot = s.rho1 * d.area1 * speed R gam (ttOut (d.sta1 R gam s)) s.M1 ∧
    s.mdot = s.rho2 * d.area2 * speed R gam (ttOut (d.sta2 R gam s)) s.M2 ∧
    s.mdot = s.rho3 * d.area3 * speed R gam (ttOut (d.sta3 R gam dp q s)) s.M3 ∧
    s.mdot = s.rhoN * d.areaN * speed R gam (ttOut (d.sta3 R gam dp q s)) s.MN := by
  have a1 := h.s1.mach
  have a2 := h.s2.mach
  have a3 := h.s3.mach
  have a4 := h.nz.flow
  unfold machRes at a1 a2 a3
  unfold matchRes massFlow at a4
  simp only [speed]
  refine ⟨?_, ?_, ?_, ?_⟩
  · have e : (d.sta1 R gam s).mdot = s.mdot ∧ (d.sta1 R gam s).area = d.area1 ∧ (d.sta1 R gam s).rho = s.rho1 :=
      ⟨rfl, rfl, rfl⟩
    rw [e.1, e.2.1, e.2.2] at a1; linarith
  · have e : (d.sta2 R gam s).mdot = s.mdot ∧ (d.sta2 R gam s).area = d.area2 ∧ (d.sta2 R gam s).rho = s.rho2 :=
      ⟨rfl, rfl, rfl⟩
    rw [e.1, e.2.1, e.2.2] at a2; linarith
  · have e : (d.sta3 R gam dp q s).mdot = s.mdot ∧ (d.sta3 R gam dp q s).area = d.area3 ∧
        (d.sta3 R gam dp q s).rho = s.rho3 := ⟨rfl, rfl, rfl⟩
    rw [e.1, e.2.1, e.2.2] at a3; linarith
  · have e : (d.nozzle R gam dp q s).T gam = tStatic gam (ttOut (d.sta3 R gam dp q s)) s.MN := rfl
    rw [e] at a4
    simp only [DuctIn.nozzle] at a4
    linarith

/-! ### the converged flow is unique and exists -/

theorem speed_nonneg (R gam Tt M : ℝ) (h : 0 ≤ M) : 0 ≤ speed R gam Tt M := by
  unfold speed sos; positivity

theorem flowParam_pos {gam M : ℝ} (hg : 1 < gam) (h : 0 < M) : 0 < flowParam gam M := by
  unfold flowParam; exact mul_pos h (rpow_pos_of_pos (iso_pos hg M) _)

/-- what every converged nozzle with positive flow, area and exit pressure satisfies -/
theorem nozzle_facts (R gam : ℝ) (z : Nozzle) (rho : ℝ) (hR : 0 < R) (hg : 1 < gam) (hA : 0 < z.area) (hpe : 0 < z.pExit)
    (hm : 0 < z.mdot) (hz : z.Converged R gam rho) :
    0 < z.pt rho ∧ z.pExit < z.pt rho ∧ 0 < z.Tt ∧ 0 < rho ∧ 0 < z.M ∧ z.M ≤ 1 ∧
    z.mdot = streamFlow R gam z.Tt (z.pt rho) z.area z.M ∧ exitMach gam (z.pExit / z.pt rho) = some z.M ∧
    z.mdot / z.area / rho = speed R gam z.Tt z.M := by
  have hz0 := hz
  obtain ⟨h1, ⟨h2, h3⟩, h4, h5⟩ := hz
  have hpr : z.pr = z.pExit / z.pt rho := by unfold prRes at h1; linarith
  have hpt : 0 < z.pt rho := by
    by_contra hc
    have : z.pr ≤ 0 := by rw [hpr]; exact div_nonpos_of_nonneg_of_nonpos hpe.le (not_lt.1 hc)
    linarith
  have hm' : z.mdot = z.M * sos R gam (z.T gam) * z.area * rho := by unfold matchRes massFlow at h5; linarith
  have hr1 : z.pr ≤ 1 := by
    by_contra hc
    rw [(C56_invalid gam hg).2 z.pr (not_le.1 hc)] at h3
    cases h3
  have hM0 : 0 ≤ z.M ∧ z.M ≤ 1 ∧ (z.pr = 1 → z.M = 0) := by
    by_cases hch : z.pr ≤ critPR gam
    · rw [C56_choked gam _ hch] at h3
      injection h3 with h3
      rw [← h3]
      exact ⟨zero_le_one, le_rfl, fun h => by rw [h] at hch; linarith [critPR_lt_one hg]⟩
    · obtain ⟨M, e, m0, m1, m2⟩ := C56_unchoked gam z.pr hg (not_le.1 hch) hr1
      rw [e] at h3
      injection h3 with h3
      rw [← h3]
      refine ⟨m0, m1.le, fun h => ?_⟩
      by_contra hne
      have hlt := pStatic_anti hg le_rfl (lt_of_le_of_ne m0 (Ne.symm hne))
      have e1 := m2 1
      rw [h] at e1
      rw [e1] at hlt
      unfold pStatic at hlt
      norm_num at hlt
  have hMpos : 0 < z.M := by
    refine lt_of_le_of_ne hM0.1 fun h => ?_
    rw [← h] at hm'; simp at hm'; linarith
  have hrho : 0 < rho := by
    by_contra hc
    have : z.mdot ≤ 0 := by
      rw [hm']
      have : 0 ≤ z.M * sos R gam (z.T gam) * z.area := by unfold sos; positivity
      exact mul_nonpos_of_nonneg_of_nonpos this (not_lt.1 hc)
    linarith
  have hTt : 0 < z.Tt := by
    by_contra hc
    have hT : z.T gam ≤ 0 := by
      unfold Nozzle.T tStatic
      exact mul_nonpos_of_nonpos_of_nonneg (not_lt.1 hc) (inv_nonneg.2 (iso_pos hg _).le)
    have hp : 0 ≤ z.p gam rho := by
      unfold Nozzle.p pStatic; have := iso_pos hg z.M; positivity
    have : rho ≤ 0 := by
      rw [h4]; unfold density
      exact div_nonpos_of_nonneg_of_nonpos (div_nonneg hp hR.le) hT
    linarith
  have hlt : z.pExit < z.pt rho := by
    have : z.pr < 1 := lt_of_le_of_ne hr1 fun h => by rw [hM0.2.2 h] at hMpos; exact lt_irrefl _ hMpos
    rw [hpr, div_lt_one hpt] at this
    exact this
  refine ⟨hpt, hlt, hTt, hrho, hMpos, hM0.2.1, ?_, by rw [← hpr]; exact h3,
    (C81_nozzle R gam z rho hz0 hg hA.ne' hrho.ne').1⟩
  unfold streamFlow massFlow
  have e : density R (pStatic gam (z.pt rho) z.M) (tStatic gam z.Tt z.M) = rho := h4.symm
  rw [e]
  exact hm'

/-- the flow through a nozzle heated by `Q` satisfies a quadratic with one positive root -/
theorem flow_quadratic {R gam Tt0 cp Q pt A M m : ℝ} (hR : 0 < R) (hg : 1 < gam) (hm : 0 < m)
    (hT : 0 < Tt0 + Q / cp / m) (h : m = streamFlow R gam (Tt0 + Q / cp / m) pt A M) :
    Tt0 * m ^ 2 + Q / cp * m = (A * pt * flowParam gam M) ^ 2 * (gam / R) := by
  rw [streamFlow_eq _ _ _ _ _ _ hR hg hT] at h
  have h2 : m ^ 2 * (Tt0 + Q / cp / m) = (A * pt * flowParam gam M) ^ 2 * (gam / R) := by
    have : m ^ 2 = (A * pt * flowParam gam M) ^ 2 * (gam / (R * (Tt0 + Q / cp / m))) := by
      conv_lhs => rw [h]
      rw [mul_pow, mul_pow, sq_sqrt (by positivity)]
      ring
    rw [this]
    generalize Tt0 + Q / cp / m = t at hT
    field_simp
  rw [← h2]
  field_simp

theorem nozzleTt (R gam : ℝ) (d : DuctIn) (dp q : ℝ) (s : DuctState) :
    (d.nozzle R gam dp q s).Tt = inletTt R gam d.TInf d.U + (d.q1 + d.q2 + q) / d.cp / s.mdot := by
  simp only [DuctIn.nozzle, DuctIn.sta3, DuctIn.sta2, DuctIn.sta1, ttOut]
  ring

/-- C96.  With the default loss factor of station 1, the mass flow and the nozzle state do not depend on the initial guess:
any two converged states of the same duct have the same flow, exit Mach number and exit density. -/
theorem C96_flow_unique (R gam : ℝ) (d : DuctIn) (dp q : ℝ) (s s' : DuctState) (hR : 0 < R) (hg : 1 < gam)
    (hT : 0 < inletTt R gam d.TInf d.U) (hA : 0 < d.areaN) (hpe : 0 < d.pInf + d.hack) (hl : d.loss1 = 0)
    (h : d.Converged R gam dp q s) (h' : d.Converged R gam dp q s') :
    s.mdot = s'.mdot ∧ s.MN = s'.MN ∧ s.rhoN = s'.rhoN := by
  obtain ⟨p1, _, t1, _, m1, _, f1, e1, _⟩ := nozzle_facts R gam (d.nozzle R gam dp q s) s.rhoN hR hg hA hpe h.flow h.nz
  obtain ⟨p2, _, t2, _, m2, _, f2, e2, _⟩ := nozzle_facts R gam (d.nozzle R gam dp q s') s'.rhoN hR hg hA hpe h'.flow h'.nz
  have ep : (d.nozzle R gam dp q s').pt s'.rhoN = (d.nozzle R gam dp q s).pt s.rhoN := by
    rw [C96_pressure, C96_pressure, hl, mul_zero, mul_zero]
  have eM : s.MN = s'.MN := by
    have a : exitMach gam ((d.pInf + d.hack) / (d.nozzle R gam dp q s).pt s.rhoN) = some s.MN := e1
    have b : exitMach gam ((d.pInf + d.hack) / (d.nozzle R gam dp q s').pt s'.rhoN) = some s'.MN := e2
    rw [ep, a] at b
    injection b
  rw [nozzleTt] at t1 t2 f1 f2
  rw [ep] at f2
  have q1 := flow_quadratic (Q := d.q1 + d.q2 + q) hR hg h.flow t1 f1
  have q2 := flow_quadratic (Q := d.q1 + d.q2 + q) hR hg h'.flow t2 f2
  have eM' : (d.nozzle R gam dp q s').M = (d.nozzle R gam dp q s).M := eM.symm
  rw [eM'] at q2
  have eA : (d.nozzle R gam dp q s').area = (d.nozzle R gam dp q s).area := rfl
  rw [eA, ← q1] at q2
  have hs := h.flow
  have hs' := h'.flow
  have K : 0 < inletTt R gam d.TInf d.U * s.mdot ^ 2 + (d.q1 + d.q2 + q) / d.cp * s.mdot := by
    rw [q1]
    have := flowParam_pos hg m1
    have hA' : 0 < (d.nozzle R gam dp q s).area := hA
    positivity
  have em : s.mdot = s'.mdot := by
    generalize (d.q1 + d.q2 + q) / d.cp = b at *
    generalize inletTt R gam d.TInf d.U = t at *
    have h0 : (s.mdot - s'.mdot) * (t * (s.mdot + s'.mdot) + b) = 0 := by linear_combination -q2
    rcases mul_eq_zero.1 h0 with h1 | h1
    · linarith
    · exfalso
      have h2 : t * s.mdot + b = -(t * s'.mdot) := by linarith
      have h3 : t * s.mdot ^ 2 + b * s.mdot = s.mdot * (t * s.mdot + b) := by ring
      rw [h3, h2] at K
      have : 0 < s.mdot * (t * s'.mdot) := by positivity
      linarith
  refine ⟨em, eM, ?_⟩
  have d1 := h.nz.dens
  have d2 := h'.nz.dens
  unfold Nozzle.p Nozzle.T at d1 d2
  rw [nozzleTt] at d1 d2
  rw [ep, eM', ← em] at d2
  rw [d1, d2]

/-- C96.  With subsonic stations the whole converged state is unique. -/
theorem C96_state_unique (R gam : ℝ) (d : DuctIn) (dp q : ℝ) (s s' : DuctState) (hR : 0 < R) (hg : 1 < gam)
    (hT : 0 < inletTt R gam d.TInf d.U) (hA : 0 < d.areaN) (hpe : 0 < d.pInf + d.hack) (hl : d.loss1 = 0)
    (ha1 : 0 < d.area1) (ha2 : 0 < d.area2) (ha3 : 0 < d.area3)
    (hT1 : 0 < ttOut (d.sta1 R gam s)) (hT2 : 0 < ttOut (d.sta2 R gam s))
    (hp1 : 0 < ptOut (d.sta1 R gam s)) (hp2 : 0 < ptOut (d.sta2 R gam s))
    (hs : (0 ≤ s.M1 ∧ s.M1 ≤ 1) ∧ (0 ≤ s.M2 ∧ s.M2 ≤ 1) ∧ 0 ≤ s.M3 ∧ s.M3 ≤ 1)
    (hs' : (0 ≤ s'.M1 ∧ s'.M1 ≤ 1) ∧ (0 ≤ s'.M2 ∧ s'.M2 ≤ 1) ∧ 0 ≤ s'.M3 ∧ s'.M3 ≤ 1)
    (h : d.Converged R gam dp q s) (h' : d.Converged R gam dp q s') : s = s' := by
  obtain ⟨em, eM, er⟩ := C96_flow_unique R gam d dp q s s' hR hg hT hA hpe hl h h'
  obtain ⟨p3, _, t3, _⟩ := nozzle_facts R gam (d.nozzle R gam dp q s) s.rhoN hR hg hA hpe h.flow h.nz
  have t3' : 0 < ttOut (d.sta3 R gam dp q s) := t3
  have p3' : 0 < ptOut (d.sta3 R gam dp q s) := by
    have : (d.nozzle R gam dp q s).pt s.rhoN = ptOut (d.sta3 R gam dp q s) := by
      simp [DuctIn.nozzle, Nozzle.pt, nozzlePt]
    rwa [this] at p3
  have eT1 : ttOut (d.sta1 R gam s') = ttOut (d.sta1 R gam s) := by simp only [ttOut, DuctIn.sta1, em]
  have eP1 : ptOut (d.sta1 R gam s') = ptOut (d.sta1 R gam s) := by simp only [ptOut, DuctIn.sta1, hl, mul_zero]
  have eT2 : ttOut (d.sta2 R gam s') = ttOut (d.sta2 R gam s) := by
    have a : ∀ t : DuctState, ttOut (d.sta2 R gam t) = ttOut (d.sta1 R gam t) + d.q2 / d.cp / t.mdot := fun _ => rfl
    rw [a, a, eT1, em]
  have eP2 : ptOut (d.sta2 R gam s') = ptOut (d.sta2 R gam s) := by
    have a : ∀ t : DuctState, ptOut (d.sta2 R gam t) = ptOut (d.sta1 R gam t) * d.rec2 + d.dp2 := fun t => by
      simp [ptOut, DuctIn.sta2]
    rw [a, a, eP1]
  have eT3 : ttOut (d.sta3 R gam dp q s') = ttOut (d.sta3 R gam dp q s) := by
    have a : ∀ t : DuctState, ttOut (d.sta3 R gam dp q t) = ttOut (d.sta2 R gam t) + q / d.cp / t.mdot := fun _ => rfl
    rw [a, a, eT2, em]
  have eP3 : ptOut (d.sta3 R gam dp q s') = ptOut (d.sta3 R gam dp q s) := by
    have a : ∀ t : DuctState, ptOut (d.sta3 R gam dp q t) = ptOut (d.sta2 R gam t) * d.rec3 + dp := fun t => by
      simp [ptOut, DuctIn.sta3]
    rw [a, a, eP2]
  have f : ∀ t : DuctState, (d.sta1 R gam t).area = d.area1 ∧ (d.sta1 R gam t).mdot = t.mdot ∧ (d.sta1 R gam t).rho = t.rho1 ∧
      (d.sta2 R gam t).area = d.area2 ∧ (d.sta2 R gam t).mdot = t.mdot ∧ (d.sta2 R gam t).rho = t.rho2 ∧
      (d.sta3 R gam dp q t).area = d.area3 ∧ (d.sta3 R gam dp q t).mdot = t.mdot ∧ (d.sta3 R gam dp q t).rho = t.rho3 :=
    fun _ => ⟨rfl, rfl, rfl, rfl, rfl, rfl, rfl, rfl, rfl⟩
  have g1 := C81_station R gam _ _ h.s1
  have g1' := C81_station R gam _ _ h'.s1
  have g2 := C81_station R gam _ _ h.s2
  have g2' := C81_station R gam _ _ h'.s2
  have g3 := C81_station R gam _ _ h.s3
  have g3' := C81_station R gam _ _ h'.s3
  have r1 := h.s1.rho
  have r1' := h'.s1.rho
  have r2 := h.s2.rho
  have r2' := h'.s2.rho
  have r3 := h.s3.rho
  have r3' := h'.s3.rho
  rw [(f _).1, (f _).2.1] at g1
  rw [(f _).1, (f _).2.1, eT1, eP1, ← em] at g1'
  rw [(f _).2.2.2.1, (f _).2.2.2.2.1] at g2
  rw [(f _).2.2.2.1, (f _).2.2.2.2.1, eT2, eP2, ← em] at g2'
  rw [(f _).2.2.2.2.2.2.1, (f _).2.2.2.2.2.2.2.1] at g3
  rw [(f _).2.2.2.2.2.2.1, (f _).2.2.2.2.2.2.2.1, eT3, eP3, ← em] at g3'
  rw [(f _).2.2.1] at r1 r1'
  rw [(f _).2.2.2.2.2.1] at r2 r2'
  rw [(f _).2.2.2.2.2.2.2.2] at r3 r3'
  have m1 := C81_station_unique R gam _ _ _ _ _ hR hg hT1 hp1 ha1 hs.1.1 hs.1.2 hs'.1.1 hs'.1.2 (g1.trans g1'.symm)
  have m2 := C81_station_unique R gam _ _ _ _ _ hR hg hT2 hp2 ha2 hs.2.1.1 hs.2.1.2 hs'.2.1.1 hs'.2.1.2
    (g2.trans g2'.symm)
  have m3 := C81_station_unique R gam _ _ _ _ _ hR hg t3' p3' ha3 hs.2.2.1 hs.2.2.2 hs'.2.2.1 hs'.2.2.2
    (g3.trans g3'.symm)
  rw [eT1, eP1, ← m1, ← r1] at r1'
  rw [eT2, eP2, ← m2, ← r2] at r2'
  rw [eT3, eP3, ← m3, ← r3] at r3'
  have epr : s.prN = s'.prN := by
    have a := h.nz.pr
    have b := h'.nz.pr
    have ep : (d.nozzle R gam dp q s').pt s'.rhoN = (d.nozzle R gam dp q s).pt s.rhoN := by
      rw [C96_pressure, C96_pressure, hl, mul_zero, mul_zero]
    unfold prRes at a b
    rw [ep] at b
    have c : ∀ t : DuctState, (d.nozzle R gam dp q t).pr = t.prN ∧ (d.nozzle R gam dp q t).pExit = d.pInf + d.hack :=
      fun _ => ⟨rfl, rfl⟩
    rw [(c _).1, (c _).2] at a b
    linarith
  cases s; cases s'
  simp only [DuctState.mk.injEq]
  exact ⟨em, r1'.symm, m1, r2'.symm, m2, r3'.symm, m3, epr, eM, er⟩

/-- C96.  Existence: for any heat and pressure change with a total pressure above the exit pressure there is a converged
nozzle flow, and the group converges whenever that flow does not choke a station. -/
theorem C96_exists (R gam : ℝ) (d : DuctIn) (dp q : ℝ) (hR : 0 < R) (hg : 1 < gam)
    (hT : 0 < inletTt R gam d.TInf d.U) (hA : 0 < d.areaN) (hpe : 0 < d.pInf + d.hack) (hl : d.loss1 = 0)
    (ha1 : 0 < d.area1) (ha2 : 0 < d.area2) (ha3 : 0 < d.area3) (hq1 : 0 ≤ d.q1) (hq2 : 0 ≤ d.q2) (hcp : 0 < d.cp)
    (hp1 : 0 < inletPt R gam 1 d.pInf d.TInf d.U * d.rec1 + d.dp1)
    (hp2 : 0 < (inletPt R gam 1 d.pInf d.TInf d.U * d.rec1 + d.dp1) * d.rec2 + d.dp2)
    (hp3 : d.pInf + d.hack < ((inletPt R gam 1 d.pInf d.TInf d.U * d.rec1 + d.dp1) * d.rec2 + d.dp2) * d.rec3 + dp) :
    ∃ m MN, 0 < m ∧ 0 < inletTt R gam d.TInf d.U + (d.q1 + d.q2 + q) / d.cp / m ∧ 0 < MN ∧ MN ≤ 1 ∧
      m = streamFlow R gam (inletTt R gam d.TInf d.U + (d.q1 + d.q2 + q) / d.cp / m)
        (((inletPt R gam 1 d.pInf d.TInf d.U * d.rec1 + d.dp1) * d.rec2 + d.dp2) * d.rec3 + dp) d.areaN MN ∧
      (m < streamFlow R gam (inletTt R gam d.TInf d.U + d.q1 / d.cp / m)
          (inletPt R gam 1 d.pInf d.TInf d.U * d.rec1 + d.dp1) d.area1 1 →
        m < streamFlow R gam (inletTt R gam d.TInf d.U + d.q1 / d.cp / m + d.q2 / d.cp / m)
          ((inletPt R gam 1 d.pInf d.TInf d.U * d.rec1 + d.dp1) * d.rec2 + d.dp2) d.area2 1 →
        m < streamFlow R gam (inletTt R gam d.TInf d.U + (d.q1 + d.q2 + q) / d.cp / m)
          (((inletPt R gam 1 d.pInf d.TInf d.U * d.rec1 + d.dp1) * d.rec2 + d.dp2) * d.rec3 + dp) d.area3 1 →
        ∃ s, s.mdot = m ∧ s.MN = MN ∧ (0 < s.M1 ∧ s.M1 < 1) ∧ (0 < s.M2 ∧ s.M2 < 1) ∧ (0 < s.M3 ∧ s.M3 < 1) ∧
          d.Converged R gam dp q s) := by
  set P1 := inletPt R gam 1 d.pInf d.TInf d.U * d.rec1 + d.dp1 with hP1
  set P2 := P1 * d.rec2 + d.dp2 with hP2
  set P3 := P2 * d.rec3 + dp with hP3
  set T0 := inletTt R gam d.TInf d.U with hT0
  have hp3' : 0 < P3 := hpe.trans hp3
  have hpr : 0 < (d.pInf + d.hack) / P3 := by positivity
  obtain ⟨MN, hM, m0, m1⟩ : ∃ M, exitMach gam ((d.pInf + d.hack) / P3) = some M ∧ 0 < M ∧ M ≤ 1 := by
    by_cases h : (d.pInf + d.hack) / P3 ≤ critPR gam
    · exact ⟨1, C56_choked gam _ h, one_pos, le_rfl⟩
    · obtain ⟨M, h1, h2, h3, h4⟩ := C56_unchoked gam _ hg (not_le.1 h) ((div_le_one hp3').2 hp3.le)
      refine ⟨M, h1, lt_of_le_of_ne h2 ?_, h3.le⟩
      rintro rfl
      have := h4 1
      unfold pStatic at this
      norm_num at this
      have h5 : (d.pInf + d.hack) / P3 < 1 := (div_lt_one hp3').2 hp3
      linarith
  have hφ := flowParam_pos hg m0
  -- the positive root of the flow equation
  set K := (d.areaN * P3 * flowParam gam MN) ^ 2 * (gam / R) with hK
  have hKp : 0 < K := by have : 0 < gam := by linarith
                         positivity
  set b := (d.q1 + d.q2 + q) / d.cp with hb
  have hdisc : b ^ 2 < b ^ 2 + 4 * T0 * K := by have : 0 < T0 * K := mul_pos hT hKp
                                                linarith
  have hdn : 0 ≤ b ^ 2 + 4 * T0 * K := (sq_nonneg b).trans hdisc.le
  have hsq : |b| < √(b ^ 2 + 4 * T0 * K) := by
    rw [← sqrt_sq_eq_abs]; exact sqrt_lt_sqrt (sq_nonneg _) hdisc
  set m := (-b + √(b ^ 2 + 4 * T0 * K)) / (2 * T0) with hm
  have hmp : 0 < m := by
    rw [hm]; refine div_pos ?_ (by linarith)
    linarith [le_abs_self b]
  have hquad : T0 * m ^ 2 + b * m = K := by
    have e := sq_sqrt hdn
    rw [hm]
    generalize √(b ^ 2 + 4 * T0 * K) = r at *
    have : K = (r ^ 2 - b ^ 2) / (4 * T0) := by field_simp; linarith
    rw [this]
    field_simp
    ring
  have hTN : T0 + b / m = K / m ^ 2 := by rw [← hquad]; field_simp
  have hTNp : 0 < T0 + b / m := by rw [hTN]; positivity
  have hflow : m = streamFlow R gam (T0 + b / m) P3 d.areaN MN := by
    rw [streamFlow_eq _ _ _ _ _ _ hR hg hTNp, hTN]
    have e : gam / (R * (K / m ^ 2)) = (m / (d.areaN * P3 * flowParam gam MN)) ^ 2 := by
      rw [hK]
      have : 0 < gam := by linarith
      field_simp
    rw [e, sqrt_sq (by positivity)]
    field_simp
  refine ⟨m, MN, hmp, hTNp, m0, m1, hflow, fun c1 c2 c3 => ?_⟩
  have hT1 : 0 < T0 + d.q1 / d.cp / m := by positivity
  have hT2 : 0 < T0 + d.q1 / d.cp / m + d.q2 / d.cp / m := by positivity
  obtain ⟨M1, u1, u1', e1⟩ := (C81_station_exists R gam _ _ _ m hR hg hT1 hp1 ha1 hmp).2 c1
  obtain ⟨M2, u2, u2', e2⟩ := (C81_station_exists R gam _ _ _ m hR hg hT2 hp2 ha2 hmp).2 c2
  obtain ⟨M3, u3, u3', e3⟩ := (C81_station_exists R gam _ _ _ m hR hg hTNp hp3' ha3 hmp).2 c3
  let s : DuctState := ⟨m, density R (pStatic gam P1 M1) (tStatic gam (T0 + d.q1 / d.cp / m) M1), M1,
    density R (pStatic gam P2 M2) (tStatic gam (T0 + d.q1 / d.cp / m + d.q2 / d.cp / m) M2), M2,
    density R (pStatic gam P3 M3) (tStatic gam (T0 + b / m) M3), M3, (d.pInf + d.hack) / P3, MN,
    density R (pStatic gam P3 MN) (tStatic gam (T0 + b / m) MN)⟩
  have t1 : ttOut (d.sta1 R gam s) = T0 + d.q1 / d.cp / m := rfl
  have t2 : ttOut (d.sta2 R gam s) = T0 + d.q1 / d.cp / m + d.q2 / d.cp / m := rfl
  have t3 : ttOut (d.sta3 R gam dp q s) = T0 + b / m := by
    have : ttOut (d.sta3 R gam dp q s) = T0 + d.q1 / d.cp / m + d.q2 / d.cp / m + q / d.cp / m := rfl
    rw [this, hb]; ring
  have o1 : ptOut (d.sta1 R gam s) = P1 := by simp [ptOut, DuctIn.sta1, hl, hP1]
  have o2 : ptOut (d.sta2 R gam s) = P2 := by
    have : ptOut (d.sta2 R gam s) = ptOut (d.sta1 R gam s) * d.rec2 + d.dp2 := by simp [ptOut, DuctIn.sta2]
    rw [this, o1]
  have o3 : ptOut (d.sta3 R gam dp q s) = P3 := by
    have : ptOut (d.sta3 R gam dp q s) = ptOut (d.sta2 R gam s) * d.rec3 + dp := by simp [ptOut, DuctIn.sta3]
    rw [this, o2]
  have oz : ∀ r, (d.nozzle R gam dp q s).pt r = P3 := fun r => by
    have : (d.nozzle R gam dp q s).pt r = ptOut (d.sta3 R gam dp q s) := by simp [DuctIn.nozzle, Nozzle.pt, nozzlePt]
    rw [this, o3]
  refine ⟨s, rfl, rfl, ⟨u1, u1'⟩, ⟨u2, u2'⟩, ⟨u3, u3'⟩, hmp, ⟨?_, ?_⟩, ⟨?_, ?_⟩, ⟨?_, ?_⟩, ?_, ?_, ?_, ?_⟩
  · rw [o1, t1]; rfl
  · rw [t1]
    have : machRes m M1 (sos R gam (tStatic gam (T0 + d.q1 / d.cp / m) M1)) d.area1
        (density R (pStatic gam P1 M1) (tStatic gam (T0 + d.q1 / d.cp / m) M1)) = 0 := by
      unfold machRes; unfold streamFlow massFlow at e1; linarith
    exact this
  · rw [o2, t2]; rfl
  · rw [t2]
    have : machRes m M2 (sos R gam (tStatic gam (T0 + d.q1 / d.cp / m + d.q2 / d.cp / m) M2)) d.area2
        (density R (pStatic gam P2 M2) (tStatic gam (T0 + d.q1 / d.cp / m + d.q2 / d.cp / m) M2)) = 0 := by
      unfold machRes; unfold streamFlow massFlow at e2; linarith
    exact this
  · rw [o3, t3]; rfl
  · rw [t3]
    have : machRes m M3 (sos R gam (tStatic gam (T0 + b / m) M3)) d.area3
        (density R (pStatic gam P3 M3) (tStatic gam (T0 + b / m) M3)) = 0 := by
      unfold machRes; unfold streamFlow massFlow at e3; linarith
    exact this
  · rw [oz]
    have : prRes ((d.pInf + d.hack) / P3) (d.pInf + d.hack) P3 = 0 := by unfold prRes; ring
    exact this
  · exact ⟨hpr, hM⟩
  · unfold Nozzle.p Nozzle.T
    rw [oz]
    have : (d.nozzle R gam dp q s).Tt = T0 + b / m := t3
    rw [this]; rfl
  · have : (d.nozzle R gam dp q s).T gam = tStatic gam (T0 + b / m) MN := by
      have h : (d.nozzle R gam dp q s).Tt = T0 + b / m := t3
      unfold Nozzle.T; rw [h]; rfl
    rw [this]
    have h2 : matchRes (massFlow MN (sos R gam (tStatic gam (T0 + b / m) MN)) d.areaN
        (density R (pStatic gam P3 MN) (tStatic gam (T0 + b / m) MN))) m = 0 := by
      unfold matchRes; unfold streamFlow at hflow; linarith
    exact h2

/-! ### force -/

/-- thrust per area of a stream with total state `pt`, `Tt` leaving at Mach number `M`, flight speed `U` -/
noncomputable def impulse (R gam Tt pt U M : ℝ) : ℝ :=
  pStatic gam pt M * (1 + gam * M ^ 2) - pt * √(gam / (R * Tt)) * flowParam gam M * U

theorem impulse_deriv (R gam Tt pt U M : ℝ) (hg : 1 < gam) :
    HasDerivAt (impulse R gam Tt pt U)
      (pt * (1 - M ^ 2) * (1 + (gam - 1) / 2 * M ^ 2) ^ (-gam / (gam - 1) - 1) *
        (gam * M - √(gam / (R * Tt)) * U * √(1 + (gam - 1) / 2 * M ^ 2))) M := by
  have h := iso_pos hg M
  have hgm : gam - 1 ≠ 0 := by linarith
  have hd : HasDerivAt (fun y : ℝ => 1 + (gam - 1) / 2 * y ^ 2) ((gam - 1) * M) M := by
    refine hd_congr (((hasDerivAt_pow 2 M).const_mul ((gam - 1) / 2)).const_add 1) ?_
    push_cast; ring
  have h1 : HasDerivAt (fun y => pStatic gam pt y) _ M :=
    (hd.rpow_const (p := -gam / (gam - 1)) (Or.inl h.ne')).const_mul pt
  have h2 : HasDerivAt (fun y : ℝ => 1 + gam * y ^ 2) (gam * (2 * M)) M := by
    refine hd_congr (((hasDerivAt_pow 2 M).const_mul gam).const_add 1) ?_
    push_cast; ring
  have h3 := ((flowParam_deriv gam M hg).const_mul (pt * √(gam / (R * Tt)))).mul_const U
  refine hd_congr ((h1.fun_mul h2).sub h3) ?_
  unfold pStatic
  have e1 : (1 + (gam - 1) / 2 * M ^ 2) ^ (-gam / (gam - 1))
      = (1 + (gam - 1) / 2 * M ^ 2) ^ (-gam / (gam - 1) - 1) * (1 + (gam - 1) / 2 * M ^ 2) := by
    rw [← rpow_add_one h.ne']; congr 1; ring
  have e2 : (1 + (gam - 1) / 2 * M ^ 2) ^ (-(gam + 1) / (2 * (gam - 1)) - 1)
      = (1 + (gam - 1) / 2 * M ^ 2) ^ (-gam / (gam - 1) - 1) * √(1 + (gam - 1) / 2 * M ^ 2) := by
    rw [sqrt_eq_rpow, ← rpow_add h]; congr 1; field_simp; ring
  rw [e1, e2]
  generalize (1 + (gam - 1) / 2 * M ^ 2) ^ (-gam / (gam - 1) - 1) = A
  generalize √(1 + (gam - 1) / 2 * M ^ 2) = B
  field_simp
  ring

/-- leaving faster than the flight Mach number gives thrust -/
theorem impulse_lt (R gam Tt pt U M0 M : ℝ) (hR : 0 < R) (hg : 1 < gam) (hT : 0 < Tt) (hp : 0 < pt) (h0 : 0 ≤ M0)
    (hU : U = speed R gam Tt M0) (h : M0 < M) (h1 : M ≤ 1) : impulse R gam Tt pt U M0 < impulse R gam Tt pt U M := by
  have hgp : 0 < gam := by linarith
  have mono : StrictMonoOn (impulse R gam Tt pt U) (Set.Icc M0 1) := by
    refine strictMonoOn_of_deriv_pos (convex_Icc M0 1) ?_ ?_
    · intro x _; exact (impulse_deriv R gam Tt pt U x hg).continuousAt.continuousWithinAt
    · intro x hx
      rw [interior_Icc] at hx
      rw [(impulse_deriv R gam Tt pt U x hg).deriv]
      have hx0 : 0 < x := h0.trans_lt hx.1
      have hq := iso_pos hg x
      have hx2 : x ^ 2 < 1 := by nlinarith [hx.2]
      have hUn : 0 ≤ U := by rw [hU]; exact speed_nonneg _ _ _ _ h0
      refine mul_pos (mul_pos (mul_pos hp (by linarith)) (rpow_pos_of_pos hq _)) ?_
      rw [sub_pos]
      refine lt_of_pow_lt_pow_left₀ 2 (by positivity) ?_
      rw [mul_pow, mul_pow, sq_sqrt (by positivity), sq_sqrt hq.le, hU, speed_sq R gam Tt M0 hR hg hT]
      have hf := mach_frac_lt hg h0 hx.1
      rw [lt_div_iff₀ hq] at hf
      have e : gam / (R * Tt) * (gam * R * Tt * (M0 ^ 2 / (1 + (gam - 1) / 2 * M0 ^ 2))) * (1 + (gam - 1) / 2 * x ^ 2)
          = gam ^ 2 * (M0 ^ 2 / (1 + (gam - 1) / 2 * M0 ^ 2) * (1 + (gam - 1) / 2 * x ^ 2)) := by
        field_simp
      rw [e, mul_pow]
      exact mul_lt_mul_of_pos_left hf (by positivity)
  exact mono ⟨le_rfl, h.le.trans h1⟩ ⟨h.le, h1⟩ h

/-- the group's force with unit gross thrust coefficient, through the exit Mach number -/
theorem force_impulse (R gam U pInf : ℝ) (z : Nozzle) (rho : ℝ) (hR : 0 < R) (hg : 1 < gam) (hA : 0 < z.area)
    (hpe : 0 < z.pExit) (hm : 0 < z.mdot) (hz : z.Converged R gam rho) :
    netForce 1 z.mdot U pInf z.area (z.p gam rho) rho
      = z.area * (impulse R gam z.Tt (z.pt rho) U z.M - pInf) := by
  obtain ⟨hpt, _, hT, hr, hM, _, hf, _, hv⟩ := nozzle_facts R gam z rho hR hg hA hpe hm hz
  have hi := iso_pos hg z.M
  have hden := hz.dens
  have hmom : rho * speed R gam z.Tt z.M ^ 2 = gam * z.M ^ 2 * z.p gam rho := by
    rw [speed_sq R gam z.Tt z.M hR hg hT]
    conv_lhs => rw [hden]
    unfold density Nozzle.T tStatic
    generalize 1 + (gam - 1) / 2 * z.M ^ 2 = q at *
    field_simp
  have hflux : z.mdot = z.area * (z.pt rho * √(gam / (R * z.Tt)) * flowParam gam z.M) := by
    rw [hf, streamFlow_eq _ _ _ _ _ _ hR hg hT]; ring
  have hmv : z.mdot = rho * z.area * speed R gam z.Tt z.M := by rw [← hv]; field_simp
  unfold netForce impulse
  rw [hv]
  have hp : pStatic gam (z.pt rho) z.M = z.p gam rho := rfl
  rw [hp]
  linear_combination speed R gam z.Tt z.M * hmv + z.area * hmom - U * hflux

theorem inlet_speed (R gam T U : ℝ) (hR : 0 < R) (hg : 1 < gam) (hT : 0 < T) :
    U = speed R gam (inletTt R gam T U) (inletM R gam T U) ∧ 0 < inletTt R gam T U := by
  have ha : 0 < sos R gam T := by
    have : 0 < gam := by linarith
    unfold sos clipT; rw [if_neg (not_lt.2 hT.le)]; positivity
  have hi := iso_pos hg (inletM R gam T U)
  refine ⟨?_, by unfold inletTt tTotal; positivity⟩
  unfold speed inletTt
  rw [(C56_round_trip gam T _ hg).1]
  unfold inletM machFromSpeed
  field_simp

theorem flux_speed (R gam Tt pt M : ℝ) (hR : 0 < R) (hg : 1 < gam) (hT : 0 < Tt) :
    pt * √(gam / (R * Tt)) * flowParam gam M * speed R gam Tt M = gam * M ^ 2 * pStatic gam pt M := by
  have hi := iso_pos hg M
  have h := streamFlow_eq R gam Tt pt 1 M hR hg hT
  rw [one_mul] at h
  rw [← h]
  have e : streamFlow R gam Tt pt 1 M = density R (pStatic gam pt M) (tStatic gam Tt M) * speed R gam Tt M := by
    unfold streamFlow massFlow speed; ring
  rw [e, mul_assoc, ← sq, speed_sq R gam Tt M hR hg hT]
  unfold density tStatic
  generalize 1 + (gam - 1) / 2 * M ^ 2 = q at *
  field_simp

/-- the default duct keeps the inlet's total pressure, plus the exchanger's pressure change, and its total temperature, plus
the exchanger's heat -/
theorem default_totals (R gam : ℝ) (d : DuctIn) (dp q : ℝ) (s : DuctState) (hd : d.Default) :
    (d.nozzle R gam dp q s).pt s.rhoN = inletPt R gam 1 d.pInf d.TInf d.U + dp ∧
    (d.nozzle R gam dp q s).Tt = inletTt R gam d.TInf d.U + q / d.cp / s.mdot := by
  rw [C96_pressure, nozzleTt]
  simp [hd.dp1, hd.q1, hd.rec1, hd.loss1, hd.dp2, hd.q2, hd.rec2, hd.rec3]

/-- C97, what holds: without `convergence_hack` a duct without pressure change and heat has no net force in subsonic flight.
Missing: the default settings, see `C97_hack_thrust`. -/
theorem C97_neutral_partial (R gam : ℝ) (d : DuctIn) (s : DuctState) (hR : 0 < R) (hg : 1 < gam) (hd : d.Default)
    (hp : 0 < d.pInf) (hT : 0 < d.TInf) (hU : 0 < d.U) (hM : inletM R gam d.TInf d.U < 1) (hA : 0 < d.areaN)
    (hh : d.hack = 0) (hc : d.cfg = 1) (h : d.Converged R gam 0 0 s) : d.force R gam 0 0 s = 0 := by
  obtain ⟨e1, e2⟩ := default_totals R gam d 0 0 s hd
  have hpe : (d.nozzle R gam 0 0 s).pExit = d.pInf := by simp [DuctIn.nozzle, hh]
  obtain ⟨_, _, t, r, _⟩ := nozzle_facts R gam (d.nozzle R gam 0 0 s) s.rhoN hR hg hA (by rw [hpe]; exact hp) h.flow h.nz
  have := (C81_force_sign R gam d.pInf d.TInf d.U (d.nozzle R gam 0 0 s) s.rhoN hR hg hp hT hU hM h.nz hA r t hpe
    h.flow).1 (by rw [e1, add_zero])
  unfold DuctIn.force
  rw [hc]
  exact this.1.2 (by rw [e2]; simp)

/-- C97, negation for the default settings: `convergence_hack` (−20 or −40 Pa) lowers the pressure the nozzle exhausts to,
so a duct without heat and losses produces thrust in every subsonic flight condition, also at rest. -/
theorem C97_hack_thrust (R gam : ℝ) (d : DuctIn) (s : DuctState) (hR : 0 < R) (hg : 1 < gam) (hd : d.Default)
    (hT : 0 < d.TInf) (hU : 0 ≤ d.U) (hM : inletM R gam d.TInf d.U < 1) (hA : 0 < d.areaN)
    (hh : d.hack < 0) (hpe : 0 < d.pInf + d.hack) (hc : d.cfg = 1) (h : d.Converged R gam 0 0 s) :
    0 < d.force R gam 0 0 s := by
  obtain ⟨e1, e2⟩ := default_totals R gam d 0 0 s hd
  rw [add_zero] at e1
  rw [zero_div, zero_div, add_zero] at e2
  obtain ⟨hUs, hT0⟩ := inlet_speed R gam d.TInf d.U hR hg hT
  have hM0 : 0 ≤ inletM R gam d.TInf d.U := by unfold inletM machFromSpeed sos; positivity
  obtain ⟨k1, k2, k3, k4, k5, k6, k7, k8, k9⟩ :=
    nozzle_facts R gam (d.nozzle R gam 0 0 s) s.rhoN hR hg hA hpe h.flow h.nz
  have hF : d.force R gam 0 0 s = d.areaN * (impulse R gam (inletTt R gam d.TInf d.U) (inletPt R gam 1 d.pInf d.TInf d.U)
      d.U s.MN - d.pInf) := by
    have := force_impulse R gam d.U d.pInf (d.nozzle R gam 0 0 s) s.rhoN hR hg hA hpe h.flow h.nz
    rw [e1, e2] at this
    unfold DuctIn.force
    rw [hc]
    exact this
  rw [e1] at k1 k2 k8
  have hpi : pStatic gam (inletPt R gam 1 d.pInf d.TInf d.U) (inletM R gam d.TInf d.U) = d.pInf := by
    unfold inletPt; rw [mul_one, (C56_round_trip gam d.pInf _ hg).2.2.1]
  have hscale : ∀ M, pStatic gam (inletPt R gam 1 d.pInf d.TInf d.U) M
      = inletPt R gam 1 d.pInf d.TInf d.U * pStatic gam 1 M := by intro M; unfold pStatic; ring
  -- the exit Mach number exceeds the flight Mach number
  have hlt : inletM R gam d.TInf d.U < s.MN := by
    by_contra hcon
    push Not at hcon
    have hM1 : s.MN < 1 := hcon.trans_lt hM
    have hpx : pStatic gam (inletPt R gam 1 d.pInf d.TInf d.U) s.MN = d.pInf + d.hack := by
      have := (C81_nozzle R gam (d.nozzle R gam 0 0 s) s.rhoN h.nz hg hA.ne' k4.ne').2.2.2 hM1 hpe
      unfold Nozzle.p at this
      rw [e1] at this
      exact this
    have : pStatic gam 1 (inletM R gam d.TInf d.U) ≤ pStatic gam 1 s.MN := by
      rcases hcon.lt_or_eq with h1 | h1
      · exact (pStatic_anti hg k5.le h1).le
      · rw [h1]
    have h2 : d.pInf ≤ d.pInf + d.hack := by
      have h3 := mul_le_mul_of_nonneg_left this k1.le
      rwa [← hscale, ← hscale, hpi, hpx] at h3
    linarith
  have himp := impulse_lt R gam (inletTt R gam d.TInf d.U) (inletPt R gam 1 d.pInf d.TInf d.U) d.U
    (inletM R gam d.TInf d.U) s.MN hR hg hT0 k1 hM0 hUs hlt k6
  -- at the flight Mach number the impulse is the ambient pressure
  have h0 : impulse R gam (inletTt R gam d.TInf d.U) (inletPt R gam 1 d.pInf d.TInf d.U) d.U (inletM R gam d.TInf d.U)
      = d.pInf := by
    have hx := flux_speed R gam (inletTt R gam d.TInf d.U) (inletPt R gam 1 d.pInf d.TInf d.U)
      (inletM R gam d.TInf d.U) hR hg hT0
    rw [← hUs, hpi] at hx
    unfold impulse
    rw [hpi, hx]
    ring
  rw [hF]
  exact mul_pos hA (by linarith)

/-- C96.  The gross thrust coefficient scales the gross thrust only. -/
theorem C96_cfg (R gam : ℝ) (d : DuctIn) (dp q : ℝ) (s : DuctState) :
    d.force R gam dp q s
      = d.cfg * (s.mdot * (s.mdot / d.areaN / s.rhoN) + d.areaN * ((d.nozzle R gam dp q s).p gam s.rhoN - d.pInf))
        - s.mdot * d.U := by
  unfold DuctIn.force netForce; ring

/-- C97, negation for the default settings: a parked aircraft with the heat exchanger off moves air through the duct and
gets thrust from it, for every positive gross thrust coefficient. -/
theorem C97_parked (R gam : ℝ) (d : DuctIn) (s : DuctState) (hR : 0 < R) (hg : 1 < gam) (hd : d.Default)
    (hT : 0 < d.TInf) (hU : d.U = 0) (hA : 0 < d.areaN)
    (hh : d.hack < 0) (hpe : 0 < d.pInf + d.hack) (hc : 0 < d.cfg) (h : d.Converged R gam 0 0 s) :
    0 < s.mdot ∧ 0 < d.force R gam 0 0 s := by
  refine ⟨h.flow, ?_⟩
  have h1 := C97_hack_thrust R gam {d with cfg := 1} s hR hg ⟨hd.1, hd.2, hd.3, hd.4, hd.5, hd.6, hd.7, hd.8⟩ hT
    (by rw [hU]) (by rw [hU]; unfold inletM machFromSpeed; simp) hA hh hpe rfl
    ⟨h.flow, ⟨h.s1.rho, h.s1.mach⟩, ⟨h.s2.rho, h.s2.mach⟩, ⟨h.s3.rho, h.s3.mach⟩, ⟨h.nz.pr, h.nz.mach, h.nz.dens, h.nz.flow⟩⟩
  rw [C96_cfg] at h1 ⊢
  have e : ({d with cfg := 1} : DuctIn).nozzle R gam 0 0 s = d.nozzle R gam 0 0 s := rfl
  rw [e] at h1
  simp only [hU, one_mul, mul_zero, sub_zero] at h1 ⊢
  exact mul_pos hc h1

/-- C96.  The default duct without heat and pressure change converges for every flight condition whenever the nozzle is
narrower than the stations. -/
theorem C96_default_exists (R gam : ℝ) (d : DuctIn) (hR : 0 < R) (hg : 1 < gam) (hd : d.Default)
    (hp : 0 < d.pInf) (hT : 0 < d.TInf) (hcp : 0 < d.cp) (hA : 0 < d.areaN) (hA1 : d.areaN < d.area1)
    (hA2 : d.areaN < d.area2) (hA3 : d.areaN < d.area3) (hh : d.hack < 0) (hpe : 0 < d.pInf + d.hack) :
    ∃ s, d.Converged R gam 0 0 s := by
  obtain ⟨_, hT0⟩ := inlet_speed R gam d.TInf d.U hR hg hT
  have hpt : d.pInf ≤ inletPt R gam 1 d.pInf d.TInf d.U := by
    unfold inletPt pTotal
    rw [mul_one]
    have h1 : 1 ≤ 1 + (gam - 1) / 2 * inletM R gam d.TInf d.U ^ 2 := by
      have : 0 ≤ (gam - 1) / 2 * inletM R gam d.TInf d.U ^ 2 := mul_nonneg (by linarith) (sq_nonneg _)
      linarith
    have h2 := one_le_rpow h1 (show 0 ≤ gam / (gam - 1) from div_nonneg (by linarith) (by linarith))
    nlinarith
  obtain ⟨m, MN, hm, _, hM, hM1, hf, hx⟩ := C96_exists R gam d 0 0 hR hg hT0 hA hpe hd.loss1 (hA.trans hA1) (hA.trans hA2)
    (hA.trans hA3) hd.q1.ge hd.q2.ge hcp (by rw [hd.rec1, hd.dp1]; linarith)
    (by rw [hd.rec1, hd.dp1, hd.rec2, hd.dp2]; linarith)
    (by rw [hd.rec1, hd.dp1, hd.rec2, hd.dp2, hd.rec3]; linarith)
  have hc : ∀ a, d.areaN < a → m < streamFlow R gam (inletTt R gam d.TInf d.U) (inletPt R gam 1 d.pInf d.TInf d.U) a 1 := by
    intro a ha
    simp only [hd.rec1, hd.dp1, hd.rec2, hd.dp2, hd.rec3, hd.q1, hd.q2, mul_one, add_zero, zero_div] at hf
    have hpt0 : 0 < inletPt R gam 1 d.pInf d.TInf d.U := hp.trans_le hpt
    have hgp : 0 < gam := by linarith
    rw [streamFlow_eq _ _ _ _ _ _ hR hg hT0] at hf ⊢
    rw [hf]
    have h1 : flowParam gam MN ≤ flowParam gam 1 :=
      (flowParam_strictMono gam hg).monotoneOn ⟨hM.le, hM1⟩ ⟨zero_le_one, le_rfl⟩ hM1
    have h2 := flowParam_pos hg (one_pos : (0 : ℝ) < 1)
    have h3 : 0 < √(gam / (R * inletTt R gam d.TInf d.U)) := by positivity
    generalize √(gam / (R * inletTt R gam d.TInf d.U)) = c at *
    generalize inletPt R gam 1 d.pInf d.TInf d.U = P at *
    have h4 : d.areaN * P * c * flowParam gam MN ≤ d.areaN * P * c * flowParam gam 1 := by gcongr
    refine h4.trans_lt ?_
    gcongr
  simp only [hd.rec1, hd.dp1, hd.rec2, hd.dp2, hd.rec3, hd.q1, hd.q2, mul_one, add_zero, zero_div] at hx
  obtain ⟨s, _, _, _, _, _, h⟩ := hx (hc _ hA1) (hc _ hA2) (hc _ hA3)
  exact ⟨s, h⟩

/-- sea level, parked, heat exchanger off, the default nozzle and station areas of ducts.py:979-990 (58 and 60 square
inches), frontal area 0.1 m² -/
noncomputable def parkedDuct : DuctIn :=
  ⟨101325, 288.15, 0, 1002.93, 60 * 0.0254 ^ 2, 0, 0, 1, 0, 0.1, 0, 0, 1, 0.1, 1, 58 * 0.0254 ^ 2, -20, 0.98⟩

example : ∃ s, parkedDuct.Converged 287.05 1.4 0 0 s ∧ 0 < parkedDuct.force 287.05 1.4 0 0 s := by
  have hd : parkedDuct.Default := ⟨rfl, rfl, rfl, rfl, rfl, rfl, rfl, rfl⟩
  obtain ⟨s, hs⟩ := C96_default_exists 287.05 1.4 parkedDuct (by norm_num) (by norm_num) hd (by norm_num [parkedDuct])
    (by norm_num [parkedDuct]) (by norm_num [parkedDuct]) (by norm_num [parkedDuct]) (by norm_num [parkedDuct])
    (by norm_num [parkedDuct]) (by norm_num [parkedDuct]) (by norm_num [parkedDuct]) (by norm_num [parkedDuct])
  exact ⟨s, hs, (C97_parked 287.05 1.4 parkedDuct s (by norm_num) (by norm_num) hd (by norm_num [parkedDuct]) rfl
    (by norm_num [parkedDuct]) (by norm_num [parkedDuct]) (by norm_num [parkedDuct]) (by norm_num [parkedDuct]) hs).2⟩

/-! ### the group with its own heat exchanger -/

theorem station_pos (R gam : ℝ) (i : HeatIn) (M : ℝ) (hR : 0 < R) (hg : 1 < gam) (h : Station R gam i M) (hm : 0 < i.mdot)
    (ha : 0 < i.area) (hM : 0 ≤ M) (hT : 0 < ttOut i) : 0 < i.rho ∧ 0 < ptOut i ∧ 0 < tStatic gam (ttOut i) M := by
  have hi := iso_pos hg M
  have hts : 0 < tStatic gam (ttOut i) M := by unfold tStatic; positivity
  have hr : 0 < i.rho := by
    by_contra hc
    have h2 := h.mach
    unfold machRes at h2
    have : 0 ≤ M * sos R gam (tStatic gam (ttOut i) M) * i.area := by unfold sos; positivity
    have := mul_nonpos_of_nonneg_of_nonpos this (not_lt.1 hc)
    linarith
  refine ⟨hr, ?_, hts⟩
  by_contra hc
  have h2 := h.rho
  have : density R (pStatic gam (ptOut i) M) (tStatic gam (ttOut i) M) ≤ 0 := by
    unfold density pStatic
    refine div_nonpos_of_nonpos_of_nonneg (div_nonpos_of_nonpos_of_nonneg ?_ hR.le) hts.le
    exact mul_nonpos_of_nonpos_of_nonneg (not_lt.1 hc) (rpow_nonneg hi.le _)
  linarith

/-- C96.  The converged group with its own heat exchanger: for positive geometry and properties and a coolant hotter than
the air at the exchanger face, the coolant's heat loss is the air's total enthalpy gain, the coolant leaves cooler but not
colder than the air, the air leaves with a higher total temperature and a lower total pressure than the free stream, and an
unchoked nozzle exhausts at `p_inf + convergence_hack`. -/
theorem C96_exchanger (R gam : ℝ) (d : DuctIn) (x : HxIn) (s : DuctState) (hR : 0 < R) (hg : 1 < gam) (hd : d.Default)
    (hT : 0 < d.TInf) (hcp : 0 < d.cp) (hA : 0 < d.areaN) (hpe : 0 < d.pInf + d.hack) (hgeo : x.geo.Pos) (hkm : 0 < x.km)
    (c2 : 0 < x.cpc) (c3 : 0 < x.kc) (c4 : 0 < x.muc) (h1 : 0 < x.hot.mdot) (h2 : 0 < x.hot.cp) (h3 : 0 < x.hot.k)
    (h4 : 0 < x.hot.mu) (hK : 0 ≤ x.Kc + x.Ke) (hM2 : 0 ≤ s.M2)
    (hhot : tStatic gam (inletTt R gam d.TInf d.U) s.M2 < x.hot.T) (h : d.ConvergedHx R gam x s) :
    let z := d.nozzle R gam (x.dp s) (x.q R gam d s) s
    x.hot.mdot * x.hot.cp * (x.hot.T - x.tHotOut R gam d s) = s.mdot * d.cp * (z.Tt - inletTt R gam d.TInf d.U) ∧
    inletTt R gam d.TInf d.U < z.Tt ∧ z.pt s.rhoN < inletPt R gam 1 d.pInf d.TInf d.U ∧
    tStatic gam (inletTt R gam d.TInf d.U) s.M2 < x.tHotOut R gam d s ∧ x.tHotOut R gam d s < x.hot.T ∧
    (s.MN < 1 → z.p gam s.rhoN = d.pInf + d.hack) := by
  intro z
  obtain ⟨_, hT0⟩ := inlet_speed R gam d.TInf d.U hR hg hT
  have hc := h.duct
  have hm := hc.flow
  obtain ⟨e1, e2⟩ := default_totals R gam d (x.dp s) (x.q R gam d s) s hd
  have eT2 : ttOut (d.sta2 R gam s) = inletTt R gam d.TInf d.U := by
    simp [ttOut, DuctIn.sta2, DuctIn.sta1, hd.q1, hd.q2]
  have hcold : (x.cold R gam d s).T = tStatic gam (inletTt R gam d.TInf d.U) s.M2 := by
    unfold HxIn.cold; dsimp only; rw [eT2]
  obtain ⟨g1, g2, g3, g4, g5, g6, g7, g8⟩ := C55_positive x.geo hgeo
  have hr2 := station_pos R gam (d.sta2 R gam s) s.M2 hR hg hc.s2 hm (by
    show 0 < d.area2
    rw [h.a2]; exact g4) hM2 (by rw [eT2]; exact hT0)
  have hrho : 0 < s.rho2 := hr2.1
  obtain ⟨q1, _, _, q4, q5, q6⟩ := C54_group x.geo x.km (x.cold R gam d s) x.hot hgeo hkm hm c2 c3 c4 h1 h2 h3 h4
    (by rw [hcold]; exact hhot)
  have hqp : 0 < x.q R gam d s := q1
  rw [hcold] at q4
  -- pressure drop
  have hRe : 0 < reDh s.mdot x.geo.dhCold x.geo.xsCold x.muc := by unfold reDh; positivity
  have hs1 : 0 < x.geo.shapeCold.1 := by unfold Geo.shapeCold; exact div_pos hgeo.wc hgeo.hc
  have hs2 : 0 < x.geo.shapeCold.2.1 := by unfold Geo.shapeCold; exact div_pos hgeo.tf hgeo.lc
  have hs3 : 0 < x.geo.shapeCold.2.2 := by unfold Geo.shapeCold; exact div_pos hgeo.tf hgeo.wc
  have hf : 0 < friction (f1 x.geo.shapeCold) (f2 x.geo.shapeCold) (reDh s.mdot x.geo.dhCold x.geo.xsCold x.muc) :=
    (C55_fin_data_partials _ _ _ (by unfold f1; positivity) (by unfold f2; positivity) hRe).2.1
  have hdp : x.dp s < 0 := by
    unfold HxIn.dp deltaP
    refine mul_neg_of_pos_of_neg ?_ ?_
    · unfold dynP HxIn.dpIn; dsimp only; positivity
    · unfold losses HxIn.dpIn; dsimp only
      have : 0 < 4 * x.geo.length * friction (f1 x.geo.shapeCold) (f2 x.geo.shapeCold)
        (reDh s.mdot x.geo.dhCold x.geo.xsCold x.muc) / x.geo.dhCold := by positivity
      linarith
  have hen := C96_energy R gam d (x.dp s) (x.q R gam d s) s hcp.ne' hc
  rw [hd.q1, hd.q2] at hen
  refine ⟨?_, ?_, ?_, q4, q5, fun hlt => ?_⟩
  · rw [show s.mdot * d.cp * (z.Tt - inletTt R gam d.TInf d.U) = 0 + 0 + x.q R gam d s from hen]
    unfold HxIn.tHotOut toutHot
    field_simp
    ring
  · show _ < (d.nozzle R gam (x.dp s) (x.q R gam d s) s).Tt
    rw [e2]
    have : 0 < x.q R gam d s / d.cp / s.mdot := by positivity
    linarith
  · show (d.nozzle R gam (x.dp s) (x.q R gam d s) s).pt s.rhoN < _
    rw [e1]; linarith
  · obtain ⟨_, _, _, k4, _⟩ := nozzle_facts R gam z s.rhoN hR hg hA hpe hm hc.nz
    exact (C81_nozzle R gam z s.rhoN hc.nz hg hA.ne' k4.ne').2.2.2 hlt hpe

/-- C96, negation: the exchanger and the duct do not agree on the air's temperature rise.  The exchanger uses its own
specific heat (1005 by default), the stations the group's (1002.93), and neither is the `γR/(γ-1)` of the isentropic
relations. -/
theorem C96_specific_heats (R gam : ℝ) (d : DuctIn) (x : HxIn) (s : DuctState) (hcp : 0 < d.cp) (hcc : 0 < x.cpc)
    (hm : 0 < s.mdot) :
    x.cpc * (x.tColdOut R gam d s - (x.cold R gam d s).T)
      = d.cp * (ttOut (d.sta3 R gam (x.dp s) (x.q R gam d s) s) - ttOut (d.sta2 R gam s)) ∧
    (0 < x.q R gam d s → d.cp < x.cpc → x.tColdOut R gam d s - (x.cold R gam d s).T
      < ttOut (d.sta3 R gam (x.dp s) (x.q R gam d s) s) - ttOut (d.sta2 R gam s)) ∧
    (1002.93 : ℝ) < 1.4 * 287.05 / (1.4 - 1) ∧ (1.4 : ℝ) * 287.05 / (1.4 - 1) < 1005 := by
  have e1 : x.tColdOut R gam d s - (x.cold R gam d s).T = x.q R gam d s / s.mdot / x.cpc := by
    unfold HxIn.tColdOut toutCold; ring
  have e2 : ttOut (d.sta3 R gam (x.dp s) (x.q R gam d s) s) - ttOut (d.sta2 R gam s) = x.q R gam d s / d.cp / s.mdot := by
    have : ttOut (d.sta3 R gam (x.dp s) (x.q R gam d s) s) = ttOut (d.sta2 R gam s) + x.q R gam d s / d.cp / s.mdot := rfl
    rw [this]; ring
  refine ⟨?_, fun hq hlt => ?_, by norm_num, by norm_num⟩
  · rw [e1, e2]; field_simp
  · rw [e1, e2, div_right_comm]
    gcongr

theorem linear_large {c a : ℝ} (hc : 0 < c) (P : ℝ) (h : a / c < P) : a < c * P := by
  rw [div_lt_iff₀ hc] at h; linarith

set_option maxHeartbeats 1600000 in
/-- C96.  The group with its own heat exchanger has converged states: for every exchanger, coolant hotter than the
stagnation temperature and air flow, at large enough ambient pressure some nozzle area passes that flow. -/
theorem C96_exchanger_exists (R gam T U m cp cfg : ℝ) (x : HxIn) (hR : 0 < R) (hg : 1 < gam) (hT : 0 < T) (hm : 0 < m)
    (hcp : 0 < cp) (hgeo : x.geo.Pos) (hkm : 0 < x.km) (c2 : 0 < x.cpc) (c3 : 0 < x.kc) (c4 : 0 < x.muc)
    (h1 : 0 < x.hot.mdot) (h2 : 0 < x.hot.cp) (h3 : 0 < x.hot.k) (h4 : 0 < x.hot.mu) (hK : 0 ≤ x.Kc + x.Ke)
    (hhot : inletTt R gam T U < x.hot.T) :
    ∃ P0, ∀ P, P0 < P → ∃ (d : DuctIn) (s : DuctState), d.Default ∧ d.pInf = P ∧ d.TInf = T ∧ d.U = U ∧ d.cp = cp ∧
      d.cfg = cfg ∧ d.hack = -20 ∧ 0 < d.areaN ∧ s.mdot = m ∧ (0 < s.M2 ∧ s.M2 < 1) ∧ d.ConvergedHx R gam x s := by
  obtain ⟨_, hT0⟩ := inlet_speed R gam T U hR hg hT
  set T0 := inletTt R gam T U with hT0d
  have hgp : 0 < gam := by linarith
  obtain ⟨g1, g2, g3, g4, g5, g6, g7, g8⟩ := C55_positive x.geo hgeo
  have hRe : 0 < reDh m x.geo.dhCold x.geo.xsCold x.muc := by unfold reDh; positivity
  have hs1 : 0 < x.geo.shapeCold.1 := by unfold Geo.shapeCold; exact div_pos hgeo.wc hgeo.hc
  have hs2 : 0 < x.geo.shapeCold.2.1 := by unfold Geo.shapeCold; exact div_pos hgeo.tf hgeo.lc
  have hs3 : 0 < x.geo.shapeCold.2.2 := by unfold Geo.shapeCold; exact div_pos hgeo.tf hgeo.wc
  have hf : 0 < friction (f1 x.geo.shapeCold) (f2 x.geo.shapeCold) (reDh m x.geo.dhCold x.geo.xsCold x.muc) :=
    (C55_fin_data_partials _ _ _ (by unfold f1; positivity) (by unfold f2; positivity) hRe).2.1
  set F := friction (f1 x.geo.shapeCold) (f2 x.geo.shapeCold) (reDh m x.geo.dhCold x.geo.xsCold x.muc) with hF
  -- pressure drop times density
  set C := 1 / 2 * (m / x.geo.xsCold) ^ 2 * (x.Ke + x.Kc + 4 * x.geo.length * F / x.geo.dhCold) with hC
  have hCp : 0 < C := by
    have : 0 < x.Ke + x.Kc + 4 * x.geo.length * F / x.geo.dhCold := by
      have : 0 < 4 * x.geo.length * F / x.geo.dhCold := by positivity
      linarith
    positivity
  set k := (1 + (gam - 1) / 2 * inletM R gam T U ^ 2) ^ (gam / (gam - 1)) with hk
  have hk1 : 1 ≤ k := by
    have h1 : 1 ≤ 1 + (gam - 1) / 2 * inletM R gam T U ^ 2 := by
      have : 0 ≤ (gam - 1) / 2 * inletM R gam T U ^ 2 := mul_nonneg (by linarith) (sq_nonneg _)
      linarith
    exact one_le_rpow h1 (div_nonneg (by linarith) (by linarith))
  set Tm := T0 + x.cpc / cp * x.hot.T with hTm
  have hThot : 0 < x.hot.T := hT0.trans hhot
  have hTmp : 0 < Tm := by positivity
  have hφ := flowParam_pos hg (one_pos : (0 : ℝ) < 1)
  have hcr := critPR_pos hg
  set a0 := x.geo.frontal * √(gam / (R * T0)) * flowParam gam 1 with ha0
  set a3 := x.geo.frontal * √(gam / (R * Tm)) * flowParam gam 1 with ha3
  have ha0p : 0 < a0 := by positivity
  have ha3p : 0 < a3 := by positivity
  refine ⟨21 + m / a0 + m / a3 + C * (R * T0) / critPR gam / 20, fun P hP => ?_⟩
  have w1 : 0 < m / a0 := by positivity
  have w2 : 0 < m / a3 := by positivity
  have w3 : 0 < C * (R * T0) / critPR gam / 20 := by positivity
  have hPp : 21 < P := by linarith
  have hP0 : 0 < P := by linarith
  have hkP : P ≤ k * P := le_mul_of_one_le_left hP0.le hk1
  -- station 2
  have s2lim : m < streamFlow R gam T0 (k * P) x.geo.frontal 1 := by
    rw [streamFlow_eq _ _ _ _ _ _ hR hg hT0]
    have := linear_large ha0p P (by linarith : m / a0 < P)
    rw [ha0] at this
    have h5 : x.geo.frontal * √(gam / (R * T0)) * flowParam gam 1 * P
        ≤ x.geo.frontal * √(gam / (R * T0)) * flowParam gam 1 * (k * P) := by gcongr
    linarith
  obtain ⟨M2, u2, u2', e2⟩ := (C81_station_exists R gam T0 (k * P) x.geo.frontal m hR hg hT0 (by positivity) g4 hm).2 s2lim
  have hi2 := iso_pos hg M2
  set T2 := tStatic gam T0 M2 with hT2
  have hT2p : 0 < T2 := by rw [hT2]; unfold tStatic; positivity
  have hT2le : T2 ≤ T0 := by
    rw [hT2]; unfold tStatic
    have : 1 ≤ 1 + (gam - 1) / 2 * M2 ^ 2 := by
      have : 0 ≤ (gam - 1) / 2 * M2 ^ 2 := mul_nonneg (by linarith) (sq_nonneg _)
      linarith
    exact mul_le_of_le_one_right hT0.le (inv_le_one_of_one_le₀ this)
  set r2 := density R (pStatic gam (k * P) M2) T2 with hr2
  have hr2p : 0 < r2 := by rw [hr2]; unfold density pStatic; positivity
  have hr2lo : P * critPR gam / (R * T0) ≤ r2 := by
    have e : pStatic gam (k * P) 1 = k * P * critPR gam := C56_critical gam _ hg
    have h5 : pStatic gam 1 1 ≤ pStatic gam 1 M2 := (pStatic_anti hg u2.le u2').le
    have h6 : ∀ M, pStatic gam (k * P) M = k * P * pStatic gam 1 M := by intro M; unfold pStatic; ring
    have h7 : P * critPR gam ≤ pStatic gam (k * P) M2 := by
      rw [h6]
      rw [h6] at e
      have h8 : k * P * pStatic gam 1 1 ≤ k * P * pStatic gam 1 M2 := by gcongr
      rw [e] at h8
      refine le_trans ?_ h8
      gcongr
    rw [hr2]; unfold density
    rw [div_div]
    have h9 : 0 < pStatic gam (k * P) M2 := by unfold pStatic; positivity
    gcongr
  -- heat and pressure change
  let c : Fluid := ⟨m, T2, x.cpc, x.kc, x.muc⟩
  obtain ⟨q1, _, q3, _, _, _⟩ := C54_group x.geo x.km c x.hot hgeo hkm hm c2 c3 c4 h1 h2 h3 h4 (hT2le.trans_lt hhot)
  set q := groupQ (groupNtu x.geo x.km c x.hot) with hq
  set dp := -(C / r2) with hdp
  have hdplo : -20 < dp := by
    have h5 : C / r2 ≤ C / (P * critPR gam / (R * T0)) := by gcongr
    have h6 : C / (P * critPR gam / (R * T0)) < 20 := by
      have e : C / (P * critPR gam / (R * T0)) = C * (R * T0) / critPR gam / P := by field_simp
      rw [e, div_lt_iff₀ hP0]
      have : C * (R * T0) / critPR gam / 20 < P := by linarith
      rw [div_lt_iff₀ (by norm_num)] at this
      linarith
    rw [hdp]; linarith
  have hP3 : P - 20 < k * P + dp := by linarith
  have hP3p : 0 < k * P + dp := by linarith
  set T3 := T0 + q / cp / m with hT3
  have hT3p : 0 < T3 := by positivity
  have hT3le : T3 ≤ Tm := by
    have h5 : q / m / x.cpc < x.hot.T := by
      have : toutCold q m T2 x.cpc < x.hot.T := q3
      unfold toutCold at this
      linarith
    have h6 : q / cp / m = x.cpc / cp * (q / m / x.cpc) := by field_simp
    rw [hT3, hTm, h6]
    gcongr
  have s3lim : m < streamFlow R gam T3 (k * P + dp) x.geo.frontal 1 := by
    rw [streamFlow_eq _ _ _ _ _ _ hR hg hT3p]
    have h5 := linear_large ha3p (P - 20) (by linarith : m / a3 < P - 20)
    rw [ha3] at h5
    have h6 : √(gam / (R * Tm)) ≤ √(gam / (R * T3)) := by
      apply sqrt_le_sqrt; gcongr
    have hP20 : 0 ≤ P - 20 := by linarith
    have h7 : x.geo.frontal * √(gam / (R * Tm)) * flowParam gam 1 * (P - 20)
        ≤ x.geo.frontal * √(gam / (R * T3)) * flowParam gam 1 * (k * P + dp) := by
      gcongr
    linarith
  obtain ⟨M3, u3, u3', e3⟩ := (C81_station_exists R gam T3 (k * P + dp) x.geo.frontal m hR hg hT3p hP3p g4 hm).2 s3lim
  -- nozzle
  have hpr : 0 < (P + -20) / (k * P + dp) := div_pos (by linarith) hP3p
  obtain ⟨MN, hMN, m0⟩ : ∃ M, exitMach gam ((P + -20) / (k * P + dp)) = some M ∧ 0 < M := by
    by_cases h : (P + -20) / (k * P + dp) ≤ critPR gam
    · exact ⟨1, C56_choked gam _ h, one_pos⟩
    · have h5 : (P + -20) / (k * P + dp) < 1 := (div_lt_one hP3p).2 (by linarith)
      obtain ⟨M, k1, k2, k3, k4⟩ := C56_unchoked gam _ hg (not_le.1 h) h5.le
      refine ⟨M, k1, lt_of_le_of_ne k2 ?_⟩
      rintro rfl
      have := k4 1
      unfold pStatic at this
      norm_num at this
      linarith
  have hf1 := flowParam_pos hg m0
  have hone : 0 < streamFlow R gam T3 (k * P + dp) 1 MN := by
    rw [streamFlow_eq _ _ _ _ _ _ hR hg hT3p]; positivity
  have harea : ∀ a, streamFlow R gam T3 (k * P + dp) a MN = a * streamFlow R gam T3 (k * P + dp) 1 MN := by
    intro a; rw [streamFlow_eq _ _ _ _ _ _ hR hg hT3p, streamFlow_eq _ _ _ _ _ _ hR hg hT3p]; ring
  let d : DuctIn := ⟨P, T, U, cp, x.geo.frontal, 0, 0, 1, 0, x.geo.frontal, 0, 0, 1, x.geo.frontal, 1,
    m / streamFlow R gam T3 (k * P + dp) 1 MN, -20, cfg⟩
  let s : DuctState := ⟨m, r2, M2, r2, M2, density R (pStatic gam (k * P + dp) M3) (tStatic gam T3 M3), M3,
    (P + -20) / (k * P + dp), MN, density R (pStatic gam (k * P + dp) MN) (tStatic gam T3 MN)⟩
  have t1 : ttOut (d.sta1 R gam s) = T0 := by
    show T0 + 0 / cp / m = T0
    simp
  have t2 : ttOut (d.sta2 R gam s) = T0 := by
    show ttOut (d.sta1 R gam s) + 0 / cp / m = T0
    rw [t1]; simp
  have ept : inletPt R gam 1 P T U = k * P := by unfold inletPt pTotal; rw [hk]; ring
  have o1 : ptOut (d.sta1 R gam s) = k * P := by
    show inletPt R gam 1 P T U * 1 - 0.5 * m ^ 2 / r2 / x.geo.frontal ^ 2 * 0 + 0 = k * P
    rw [ept]; ring
  have o2 : ptOut (d.sta2 R gam s) = k * P := by
    show ptOut (d.sta1 R gam s) * 1 - 0.5 * m ^ 2 / r2 / x.geo.frontal ^ 2 * 0 + 0 = k * P
    rw [o1]; ring
  have edp : x.dp s = dp := by
    unfold HxIn.dp deltaP dynP losses HxIn.dpIn
    show 1 / 2 * (m / x.geo.xsCold) ^ 2 / r2 * (-x.Ke - x.Kc - 4 * x.geo.length * F / x.geo.dhCold) = -(C / r2)
    rw [hC]; field_simp; ring
  have eq : x.q R gam d s = q := by
    unfold HxIn.q
    have : x.cold R gam d s = c := by
      unfold HxIn.cold; rw [t2]
    rw [this]
  have t3 : ttOut (d.sta3 R gam dp q s) = T3 := by
    show ttOut (d.sta2 R gam s) + q / cp / m = T3
    rw [t2]
  have o3 : ptOut (d.sta3 R gam dp q s) = k * P + dp := by
    show ptOut (d.sta2 R gam s) * 1 - 0.5 * m ^ 2 / _ / x.geo.frontal ^ 2 * 0 + dp = k * P + dp
    rw [o2]; ring
  have oz : ∀ r, (d.nozzle R gam dp q s).pt r = k * P + dp := fun r => by
    have : (d.nozzle R gam dp q s).pt r = ptOut (d.sta3 R gam dp q s) := by simp [DuctIn.nozzle, Nozzle.pt, nozzlePt]
    rw [this, o3]
  have tz : (d.nozzle R gam dp q s).Tt = T3 := t3
  refine ⟨d, s, ⟨rfl, rfl, rfl, rfl, rfl, rfl, rfl, rfl⟩, rfl, rfl, rfl, rfl, rfl, rfl, div_pos hm hone, rfl, ⟨u2, u2'⟩, rfl,
    rfl, ?_⟩
  rw [edp, eq]
  have mach2 : machRes m M2 (sos R gam T2) x.geo.frontal r2 = 0 := by
    unfold machRes; unfold streamFlow massFlow at e2; linarith
  refine ⟨hm, ⟨?_, ?_⟩, ⟨?_, ?_⟩, ⟨?_, ?_⟩, ?_, ?_, ?_, ?_⟩
  · rw [o1, t1]; rfl
  · rw [t1]; exact mach2
  · rw [o2, t2]; rfl
  · rw [t2]; exact mach2
  · rw [o3, t3]; rfl
  · rw [t3]
    have : machRes m M3 (sos R gam (tStatic gam T3 M3)) x.geo.frontal
        (density R (pStatic gam (k * P + dp) M3) (tStatic gam T3 M3)) = 0 := by
      unfold machRes; unfold streamFlow massFlow at e3; linarith
    exact this
  · rw [oz]
    have : prRes ((P + -20) / (k * P + dp)) (P + -20) (k * P + dp) = 0 := by unfold prRes; ring
    exact this
  · exact ⟨hpr, hMN⟩
  · unfold Nozzle.p Nozzle.T
    rw [oz, tz]; rfl
  · unfold Nozzle.T
    rw [tz]
    have h5 : streamFlow R gam T3 (k * P + dp) (m / streamFlow R gam T3 (k * P + dp) 1 MN) MN = m := by
      rw [harea]; field_simp
    have : matchRes (massFlow MN (sos R gam (tStatic gam T3 MN)) (m / streamFlow R gam T3 (k * P + dp) 1 MN)
        (density R (pStatic gam (k * P + dp) MN) (tStatic gam T3 MN))) m = 0 := by
      unfold matchRes; unfold streamFlow at h5 ⊢; linarith
    exact this

/-- the exchanger of heat_exchanger.py:1397-1432 with its default coolant -/
noncomputable def defaultHx : HxIn :=
  ⟨⟨0.00135, 0.014, 0.006, 0.001, 0.001, 0.006, 0.000102, 0.0002, 0.002, 430, 3, 19, 2700⟩, 190, 1005, 0.02596, 1.789e-5,
    ⟨0.075, 363, 3801, 0.405, 1.68e-3⟩, 0.3, -0.1⟩

example : ∃ (d : DuctIn) (s : DuctState), d.ConvergedHx 287.05 1.4 defaultHx s ∧
    (d.nozzle 287.05 1.4 (defaultHx.dp s) (defaultHx.q 287.05 1.4 d s) s).pt s.rhoN < inletPt 287.05 1.4 1 d.pInf d.TInf d.U := by
  have hTt : inletTt 287.05 1.4 288.15 0 = 288.15 := by simp [inletTt, tTotal, inletM, machFromSpeed]
  have hx : defaultHx.geo.Pos := by unfold defaultHx; constructor <;> norm_num
  obtain ⟨P0, h0⟩ := C96_exchanger_exists 287.05 1.4 288.15 0 1.5 1002.93 0.98 defaultHx (by norm_num) (by norm_num)
    (by norm_num) (by norm_num) (by norm_num) hx (by norm_num [defaultHx]) (by norm_num [defaultHx])
    (by norm_num [defaultHx]) (by norm_num [defaultHx]) (by norm_num [defaultHx]) (by norm_num [defaultHx])
    (by norm_num [defaultHx]) (by norm_num [defaultHx]) (by norm_num [defaultHx]) (by rw [hTt]; norm_num [defaultHx])
  obtain ⟨d, s, k1, k2, k3, k4, k5, k6, k7, k8, k9, k10, k11⟩ := h0 (max P0 100 + 1) (by linarith [le_max_left P0 100])
  refine ⟨d, s, k11, ?_⟩
  refine (C96_exchanger 287.05 1.4 d defaultHx s (by norm_num) (by norm_num) k1 (by rw [k3]; norm_num)
    (by rw [k5]; norm_num) k8 (by rw [k2, k7]; linarith [le_max_right P0 100]) hx (by norm_num [defaultHx])
    (by norm_num [defaultHx]) (by norm_num [defaultHx]) (by norm_num [defaultHx]) (by norm_num [defaultHx])
    (by norm_num [defaultHx]) (by norm_num [defaultHx]) (by norm_num [defaultHx]) (by norm_num [defaultHx]) k10.1.le ?_
    k11).2.2.1
  rw [k3, k4, hTt]
  unfold tStatic
  have h1 : 1 ≤ 1 + (1.4 - 1) / 2 * s.M2 ^ 2 := by nlinarith [sq_nonneg s.M2]
  have h2 := inv_le_one_of_one_le₀ h1
  have : defaultHx.hot.T = 363 := rfl
  rw [this]
  linarith

end Verif.Ducts
