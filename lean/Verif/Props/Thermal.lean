import Verif.Model.Thermal
import Verif.Proof.HDeriv
import Verif.Props.Integrals
import Verif.Props.IntegralsPartials
import Mathlib.Tactic.NormNum

/-! Properties C48, C49, C50 and C59: coolant loop components. -/

namespace Verif.Thermal

open Real Verif.Integrals

/-! ### C48: energy conservation -/

/-- C48.  Perfect heat transfer: the coolant enthalpy rise equals the heat added, and the average temperature is halfway. -/
theorem C48_perfect (cp Tin q mdot : ℝ) (hc : cp ≠ 0) (hm : mdot ≠ 0) :
    mdot * cp * (phtOut cp Tin q mdot - Tin) = q ∧
    phtAvg cp Tin q mdot - Tin = phtOut cp Tin q mdot - phtAvg cp Tin q mdot := by
  constructor
  · unfold phtOut; field_simp; ring
  · unfold phtAvg; ring

/-- C48.  Declared partials of the perfect heat transfer component. -/
theorem C48_perfect_partials (cp Tin q mdot : ℝ) (hm : mdot ≠ 0) :
    HasDerivAt (fun x => phtOut cp x q mdot) phtOutDT Tin ∧
    HasDerivAt (fun x => phtOut cp Tin x mdot) (phtOutDq cp mdot) q ∧
    HasDerivAt (fun x => phtOut cp Tin q x) (phtOutDmdot cp q mdot) mdot ∧
    HasDerivAt (fun x => phtAvg cp x q mdot) phtAvgDT Tin ∧
    HasDerivAt (fun x => phtAvg cp Tin x mdot) (phtAvgDq cp mdot) q ∧
    HasDerivAt (fun x => phtAvg cp Tin q x) (phtAvgDmdot cp q mdot) mdot := by
  simp only [phtAvg, phtOut, phtOutDT, phtOutDq, phtOutDmdot, phtAvgDT, phtAvgDq, phtAvgDmdot]
  refine ⟨?_, ?_, ?_, ?_, ?_, ?_⟩ <;> hderiv!

/-- C48.  Lumped mass: stored heat rate is heat in minus heat out. -/
theorem C48_mass (cp qIn qOut mass : ℝ) (hc : cp ≠ 0) (hm : mass ≠ 0) :
    mass * cp * massDTdt cp qIn qOut mass = qIn - qOut := by
  unfold massDTdt; field_simp

/-- C48.  Declared partials of the lumped mass. -/
theorem C48_mass_partials (cp qIn qOut mass : ℝ) (hm : mass ≠ 0) :
    HasDerivAt (fun x => massDTdt cp x qOut mass) (massDTdtDqIn cp mass) qIn ∧
    HasDerivAt (fun x => massDTdt cp qIn x mass) (massDTdtDqOut cp mass) qOut ∧
    HasDerivAt (fun x => massDTdt cp qIn qOut x) (massDTdtDmass cp qIn qOut mass) mass := by
  simp only [massDTdt, massDTdtDqIn, massDTdtDqOut, massDTdtDmass]
  refine ⟨?_, ?_, ?_⟩ <;> hderiv!

/-- C48.  Cold plate: the heat taken from the surface is the enthalpy rise of the coolant. -/
theorem C48_plate (p : Plate) (Tin Ts mdot : ℝ) (hm : mdot ≠ 0) (hc : p.cp ≠ 0) :
    mdot * p.cp * (plateTout p Tin Ts mdot - Tin) = plateQ p Tin Ts mdot := by
  unfold plateTout; field_simp; ring

/-- C48.  The conductance of rectangular channels: area times film coefficient is `Nu k (w + h)² l n / (w h)`. -/
theorem C48_plate_conductance (p : Plate) (hw : 0 < p.width) (hh : 0 < p.height) :
    p.UA = p.nusselt * p.k * (p.width + p.height) ^ 2 * p.length * p.nParallel / (p.width * p.height) := by
  unfold Plate.UA Plate.area Plate.dh
  have : p.width + p.height ≠ 0 := by positivity
  field_simp

/-- C48.  A quasi-steady liquid cooled component (cold plate with the massless balance converged) passes all its heat to
the coolant, and its surface temperature is then determined. -/
theorem C48_quasi_steady (p : Plate) (qIn Tin Ts mdot : ℝ) (hm : 0 < mdot) (hc : 0 < p.cp) (hU : 0 < p.UA)
    (h : masslessResidual qIn (plateQ p Tin Ts mdot) = 0) :
    mdot * p.cp * (plateTout p Tin Ts mdot - Tin) = qIn ∧
    Ts = Tin + qIn / ((1 - exp (-(p.UA / (mdot * p.cp)))) * (mdot * p.cp)) := by
  have e : plateQ p Tin Ts mdot = qIn := by unfold masslessResidual at h; linarith
  refine ⟨by rw [C48_plate p Tin Ts mdot hm.ne' hc.ne', e], ?_⟩
  have h1 : 0 < 1 - exp (-(p.UA / (mdot * p.cp))) := by
    rw [sub_pos, exp_lt_one_iff]; simp; positivity
  rw [← e]; unfold plateQ
  have := h1.ne'
  field_simp
  ring

/-- C48.  Motor jacket: heat removed equals coolant enthalpy rise, and heat stored in the motor is heat generated minus
heat removed. -/
theorem C48_jacket (o : JacketOpts) (i : JacketIn) (hm : i.mdot ≠ 0) (hc : o.cp ≠ 0) (hw : i.weight ≠ 0)
    (hk : o.motorCp ≠ 0) :
    i.mdot * o.cp * (jacketTout o i - i.Tin) = jacketQ o i ∧
    i.weight * o.motorCp * jacketDTdt o i = i.qIn - jacketQ o i := by
  constructor
  · unfold jacketTout; field_simp; ring
  · unfold jacketDTdt; field_simp

theorem jacketQ_T (o : JacketOpts) (i : JacketIn) :
    HasDerivAt (fun x => jacketQ o {i with T := x}) (jacketQJac o i).T i.T := by
  simp only [jacketQ, jacketEff, jacketNTU, jacketQJac]
  hderiv!

theorem jacketQ_Tin (o : JacketOpts) (i : JacketIn) :
    HasDerivAt (fun x => jacketQ o {i with Tin := x}) (jacketQJac o i).Tin i.Tin := by
  simp only [jacketQ, jacketEff, jacketNTU, jacketQJac]
  hderiv!

theorem jacketQ_rating (o : JacketOpts) (i : JacketIn) :
    HasDerivAt (fun x => jacketQ o {i with rating := x}) (jacketQJac o i).rating i.rating := by
  simp only [jacketQ, jacketEff, jacketNTU, jacketQJac]
  hderiv
  ring

theorem jacketQ_mdot (o : JacketOpts) (i : JacketIn) (hm : i.mdot ≠ 0) :
    HasDerivAt (fun x => jacketQ o {i with mdot := x}) (jacketQJac o i).mdot i.mdot := by
  simp only [jacketQ, jacketEff, jacketNTU, jacketQJac]
  hderiv
  ring

/-- C48.  All declared partials of the motor cooling jacket are the derivatives of its outputs. -/
theorem C48_jacket_partials (o : JacketOpts) (i : JacketIn) (hm : i.mdot ≠ 0) (hc : o.cp ≠ 0) (hw : i.weight ≠ 0) :
    (HasDerivAt (fun x => jacketQ o {i with T := x}) (jacketQJac o i).T i.T ∧
     HasDerivAt (fun x => jacketQ o {i with Tin := x}) (jacketQJac o i).Tin i.Tin ∧
     HasDerivAt (fun x => jacketQ o {i with rating := x}) (jacketQJac o i).rating i.rating ∧
     HasDerivAt (fun x => jacketQ o {i with mdot := x}) (jacketQJac o i).mdot i.mdot ∧
     HasDerivAt (fun x => jacketQ o {i with qIn := x}) (jacketQJac o i).qIn i.qIn ∧
     HasDerivAt (fun x => jacketQ o {i with weight := x}) (jacketQJac o i).weight i.weight) ∧
    (HasDerivAt (fun x => jacketTout o {i with T := x}) (jacketToutJac o i).T i.T ∧
     HasDerivAt (fun x => jacketTout o {i with Tin := x}) (jacketToutJac o i).Tin i.Tin ∧
     HasDerivAt (fun x => jacketTout o {i with rating := x}) (jacketToutJac o i).rating i.rating ∧
     HasDerivAt (fun x => jacketTout o {i with mdot := x}) (jacketToutJac o i).mdot i.mdot ∧
     HasDerivAt (fun x => jacketTout o {i with qIn := x}) (jacketToutJac o i).qIn i.qIn ∧
     HasDerivAt (fun x => jacketTout o {i with weight := x}) (jacketToutJac o i).weight i.weight) ∧
    (HasDerivAt (fun x => jacketDTdt o {i with T := x}) (jacketDTdtJac o i).T i.T ∧
     HasDerivAt (fun x => jacketDTdt o {i with Tin := x}) (jacketDTdtJac o i).Tin i.Tin ∧
     HasDerivAt (fun x => jacketDTdt o {i with rating := x}) (jacketDTdtJac o i).rating i.rating ∧
     HasDerivAt (fun x => jacketDTdt o {i with mdot := x}) (jacketDTdtJac o i).mdot i.mdot ∧
     HasDerivAt (fun x => jacketDTdt o {i with qIn := x}) (jacketDTdtJac o i).qIn i.qIn ∧
     HasDerivAt (fun x => jacketDTdt o {i with weight := x}) (jacketDTdtJac o i).weight i.weight) := by
  have hT := jacketQ_T o i
  have hTin := jacketQ_Tin o i
  have hP := jacketQ_rating o i
  have hM := jacketQ_mdot o i hm
  have hQ : HasDerivAt (fun x => jacketQ o {i with qIn := x}) (jacketQJac o i).qIn i.qIn := by
    simp only [jacketQ, jacketEff, jacketNTU, jacketQJac]; exact hasDerivAt_const _ _
  have hW : HasDerivAt (fun x => jacketQ o {i with weight := x}) (jacketQJac o i).weight i.weight := by
    simp only [jacketQ, jacketEff, jacketNTU, jacketQJac]; exact hasDerivAt_const _ _
  refine ⟨⟨hT, hTin, hP, hM, hQ, hW⟩, ⟨?_, ?_, ?_, ?_, ?_, ?_⟩, ⟨?_, ?_, ?_, ?_, ?_, ?_⟩⟩
  · exact ((hT.div_const _).div_const _).const_add _
  · exact (hasDerivAt_id _).add ((hTin.div_const _).div_const _)
  · exact ((hP.div_const _).div_const _).const_add _
  · refine hd_congr (((hd_div hM (hasDerivAt_id i.mdot) hm).div_const o.cp).const_add i.Tin) ?_
    simp only [jacketToutJac, id]
    field_simp
  · exact ((hQ.div_const _).div_const _).const_add _ |>.congr_deriv (by simp [jacketToutJac, jacketQJac])
  · exact ((hW.div_const _).div_const _).const_add _ |>.congr_deriv (by simp [jacketToutJac, jacketQJac])
  · exact ((hT.const_sub _).div_const _).div_const _
  · exact ((hTin.const_sub _).div_const _).div_const _
  · exact ((hP.const_sub _).div_const _).div_const _
  · exact ((hM.const_sub _).div_const _).div_const _
  · exact (((hasDerivAt_id _).sub hQ).div_const _).div_const _ |>.congr_deriv (by simp [jacketDTdtJac, jacketQJac])
  · refine hd_congr ((hd_const_div (i.qIn - jacketQ o i) (hasDerivAt_id i.weight) hw).div_const o.motorCp) ?_
    simp only [jacketDTdtJac, id]
    ring

/-- C48.  Battery bandolier: heat removed equals coolant enthalpy rise; heat stored in all cells (their mass is the
cell fraction of the battery weight) is heat generated minus heat removed; the conducted heat through the cell equals the
convected heat at the surface; the mean cell temperature is halfway between surface and core. -/
theorem C48_bandolier (o : BandOpts) (i : BandIn) (hm : i.mdot ≠ 0) (hc : o.cpf ≠ 0) (hmc : o.cellMass ≠ 0)
    (hcc : o.cellCp ≠ 0) (hW : i.weight * o.frac ≠ 0) (hK : bandKcyl o + bandK o i ≠ 0) :
    i.mdot * o.cpf * (bandTout o i - i.Tin) = bandQ o i ∧
    i.weight * o.frac * o.cellCp * bandDTdt o i = i.qIn - bandQ o i ∧
    (i.T - bandTs o i) * bandKcyl o = (bandTs o i - i.Tin) * bandK o i ∧
    (bandTcore o i + bandTs o i) / 2 = i.T := by
  have hn : bandCells o i ≠ 0 := div_ne_zero hW hmc
  refine ⟨?_, ?_, ?_, ?_⟩
  · unfold bandTout; field_simp; ring
  · have e : i.weight * o.frac = bandCells o i * o.cellMass := by unfold bandCells; field_simp
    rw [e]; unfold bandDTdt bandQ
    field_simp
  · unfold bandTs; field_simp; ring
  · unfold bandTcore; ring

/-- C48.  The core temperature follows from uniform heat generation in a cylinder: with the temperature falling
quadratically from core to surface, the mean over the disc is the battery temperature. -/
theorem C48_core_profile (o : BandOpts) (i : BandIn) (R : ℝ) (hR : R ≠ 0) :
    (∫ r in (0 : ℝ)..R, (bandTcore o i - (bandTcore o i - bandTs o i) * (r / R) ^ 2) * (2 * π * r)) / (π * R ^ 2)
      = i.T := by
  have h : ∫ r in (0 : ℝ)..R, (bandTcore o i - (bandTcore o i - bandTs o i) * (r / R) ^ 2) * (2 * π * r)
      = π * (bandTcore o i * R ^ 2 - (bandTcore o i - bandTs o i) * R ^ 4 / (2 * R ^ 2))
        - π * (bandTcore o i * 0 ^ 2 - (bandTcore o i - bandTs o i) * 0 ^ 4 / (2 * R ^ 2)) := by
    apply intervalIntegral.integral_eq_sub_of_hasDerivAt
      (f := fun x => π * (bandTcore o i * x ^ 2 - (bandTcore o i - bandTs o i) * x ^ 4 / (2 * R ^ 2)))
    · intro x _
      hderiv
      field_simp
      ring
    · apply Continuous.intervalIntegrable
      simp only [div_eq_mul_inv]
      fun_prop
  rw [h, bandTcore]
  have := pi_ne_zero
  field_simp
  ring

/-- C48.  Reservoir: stored enthalpy changes by the net enthalpy flow, and the declared partials are correct. -/
theorem C48_reservoir (Tin Tout mdot mass : ℝ) (hm : mass ≠ 0) :
    mass * reservoirRate Tin Tout mdot mass = mdot * Tin - mdot * Tout ∧
    HasDerivAt (fun x => reservoirRate x Tout mdot mass) (reservoirRateDTin mdot mass) Tin ∧
    HasDerivAt (fun x => reservoirRate Tin x mdot mass) (reservoirRateDTout mdot mass) Tout ∧
    HasDerivAt (fun x => reservoirRate Tin Tout x mass) (reservoirRateDmdot Tin Tout mass) mdot ∧
    HasDerivAt (fun x => reservoirRate Tin Tout mdot x) (reservoirRateDmass Tin Tout mdot mass) mass := by
  simp only [reservoirRate, reservoirRateDTin, reservoirRateDTout, reservoirRateDmdot, reservoirRateDmass]
  refine ⟨by field_simp, ?_, ?_, ?_, ?_⟩ <;> hderiv!

/-- C48.  A reservoir fed at its own initial temperature stays at that temperature. -/
theorem C48_reservoir_equilibrium {m : ℕ} (M : Matrix (Fin (m + 1)) (Fin (m + 1)) ℝ) (T0 d mass : ℝ)
    (mdot : Fin (m + 1) → ℝ) : reservoirSolution M T0 d mass (fun _ => T0) mdot (fun _ => T0) := by
  intro a
  rw [integratorCompute_eq]
  simp [reservoirRate, Matrix.mulVec, dotProduct]

/-! ### C49: second law -/

theorem eff_mem {x : ℝ} (hx : 0 ≤ x) : 0 ≤ 1 - exp (-x) ∧ 1 - exp (-x) < 1 := by
  have h1 := exp_pos (-x)
  have h2 : exp (-x) ≤ 1 := by rw [exp_le_one_iff]; linarith
  constructor <;> linarith

theorem seg_between {e a b : ℝ} (h0 : 0 ≤ e) (h1 : e < 1) : a + e * (b - a) ∈ Set.uIcc a b := by
  rw [Set.mem_uIcc]
  rcases le_total a b with h | h
  · left; constructor <;> nlinarith
  · right; constructor <;> nlinarith

/-- C49.  Cold plate: outlet temperature between inlet and surface temperature, strictly short of the surface
temperature; heat flows from hot to cold. -/
theorem C49_plate (p : Plate) (Tin Ts mdot : ℝ) (hm : 0 < mdot) (hc : 0 < p.cp) (hU : 0 ≤ p.UA) :
    plateTout p Tin Ts mdot ∈ Set.uIcc Tin Ts ∧ (Tin ≠ Ts → plateTout p Tin Ts mdot ≠ Ts) ∧
    0 ≤ plateQ p Tin Ts mdot * (Ts - Tin) := by
  have hx : 0 ≤ p.UA / (mdot * p.cp) := by positivity
  obtain ⟨h0, h1⟩ := eff_mem hx
  have e : plateTout p Tin Ts mdot = Tin + (1 - exp (-(p.UA / (mdot * p.cp)))) * (Ts - Tin) := by
    unfold plateTout plateQ; field_simp
  refine ⟨by rw [e]; exact seg_between h0 h1, ?_, ?_⟩
  · intro hne hcontra
    rw [e] at hcontra
    have : (exp (-(p.UA / (mdot * p.cp)))) * (Ts - Tin) = 0 := by linarith
    rcases mul_eq_zero.1 this with h | h
    · exact (exp_pos _).ne' h
    · exact hne (by linarith)
  · unfold plateQ
    have : 0 ≤ (Ts - Tin) ^ 2 := sq_nonneg _
    have h2 : 0 ≤ (1 - exp (-(p.UA / (mdot * p.cp)))) * (mdot * p.cp) := by positivity
    nlinarith [mul_nonneg h2 this]

/-- C49.  A larger conductance never lowers the heat removed from a hot plate. -/
theorem C49_plate_monotone (p p' : Plate) (Tin Ts mdot : ℝ) (hm : 0 < mdot) (hc : 0 < p.cp) (hcp : p'.cp = p.cp)
    (hU : p.UA ≤ p'.UA) (hT : Tin ≤ Ts) : plateQ p Tin Ts mdot ≤ plateQ p' Tin Ts mdot := by
  unfold plateQ
  rw [hcp]
  have h1 : exp (-(p'.UA / (mdot * p.cp))) ≤ exp (-(p.UA / (mdot * p.cp))) := by
    rw [exp_le_exp, neg_le_neg_iff]; gcongr
  have h2 : 0 ≤ Ts - Tin := by linarith
  gcongr

/-- C49.  Motor jacket: outlet between coolant inlet and motor temperature. -/
theorem C49_jacket (o : JacketOpts) (i : JacketIn) (hm : 0 < i.mdot) (hc : 0 < o.cp) (hP : 0 ≤ i.rating)
    (hh : 0 ≤ o.caseCooling) (ha : 0 < o.caseArea) :
    jacketTout o i ∈ Set.uIcc i.Tin i.T ∧ (i.Tin ≠ i.T → jacketTout o i ≠ i.T) ∧ 0 ≤ jacketQ o i * (i.T - i.Tin) := by
  have hx : 0 ≤ jacketNTU o i := by unfold jacketNTU; positivity
  obtain ⟨h0, h1⟩ := eff_mem hx
  have e : jacketTout o i = i.Tin + (1 - exp (-jacketNTU o i)) * (i.T - i.Tin) := by
    unfold jacketTout jacketQ jacketEff; field_simp
  refine ⟨by rw [e]; exact seg_between h0 h1, ?_, ?_⟩
  · intro hne hcontra
    rw [e] at hcontra
    have : exp (-jacketNTU o i) * (i.T - i.Tin) = 0 := by linarith
    rcases mul_eq_zero.1 this with h | h
    · exact (exp_pos _).ne' h
    · exact hne (by linarith)
  · unfold jacketQ jacketEff
    have : 0 ≤ (i.T - i.Tin) ^ 2 := sq_nonneg _
    have h2 : 0 ≤ (1 - exp (-jacketNTU o i)) * (i.mdot * o.cp) := by positivity
    nlinarith [mul_nonneg h2 this]

/-- C49.  Battery bandolier: surface temperature between coolant inlet and mean cell temperature, coolant outlet between
coolant inlet and surface temperature, core at least as far from the coolant as the mean. -/
theorem C49_bandolier (o : BandOpts) (i : BandIn) (hm : 0 < i.mdot) (hc : 0 < o.cpf) (hW : 0 < i.weight)
    (hf : 0 < o.frac) (hmc : 0 < o.cellMass) (hn : 0 < i.nCpb) (ht : 0 < i.tChannel) (hNu : 0 ≤ o.nusselt)
    (hk : 0 ≤ o.k) (hH : 0 < o.cellH) (hD : 0 < o.cellD) (hkr : 0 < o.cellK) :
    bandTs o i ∈ Set.uIcc i.Tin i.T ∧ bandTout o i ∈ Set.uIcc i.Tin (bandTs o i) ∧
    i.T ∈ Set.uIcc (bandTs o i) (bandTcore o i) := by
  have hcells : 0 < bandCells o i := by unfold bandCells; positivity
  have hmb : 0 < bandMdot o i := by unfold bandMdot; positivity
  have hx : 0 ≤ bandNTU o i := by unfold bandNTU; positivity
  obtain ⟨h0, h1⟩ := eff_mem hx
  have hK : 0 ≤ bandK o i := by unfold bandK; positivity
  have hKc : 0 < bandKcyl o := by unfold bandKcyl; positivity
  have hS : 0 < bandKcyl o + bandK o i := by positivity
  have eT : bandTs o i = i.T + bandK o i / (bandKcyl o + bandK o i) * (i.Tin - i.T) := by
    unfold bandTs; field_simp; ring
  refine ⟨?_, ?_, ?_⟩
  · rw [eT, Set.uIcc_comm]
    exact seg_between (by positivity) ((div_lt_one hS).2 (by linarith))
  · have e : bandTout o i = i.Tin + (1 - exp (-bandNTU o i)) * (bandTs o i - i.Tin) := by
      have : bandQ o i = (1 - exp (-bandNTU o i)) * (bandTs o i - i.Tin) * (i.mdot * o.cpf) := by
        have e1 : bandMdot o i * bandCells o i = i.mdot * (2 * i.nCpb) := by
          unfold bandMdot; field_simp
        unfold bandQ bandK
        field_simp
        linear_combination ((bandTs o i - i.Tin) * (1 - exp (-bandNTU o i))) * e1
      unfold bandTout; rw [this]; field_simp
    rw [e]; exact seg_between h0 h1
  · rw [Set.mem_uIcc]; unfold bandTcore
    rcases le_total (bandTs o i) i.T with h | h
    · left; constructor <;> linarith
    · right; constructor <;> linarith

example : ∃ (o : BandOpts) (i : BandIn), i.Tin < i.T ∧ bandTs o i ∈ Set.uIcc i.Tin i.T :=
  ⟨⟨3801, 0.405, 7.54, 0.3, 0.021, 0.07, 0.07, 875, 0.65⟩, ⟨1000, 300, 310, 1, 500, 82, 0.0005⟩, by norm_num,
    (C49_bandolier _ _ (by norm_num) (by norm_num) (by norm_num) (by norm_num) (by norm_num) (by norm_num) (by norm_num)
      (by norm_num) (by norm_num) (by norm_num) (by norm_num) (by norm_num)).1⟩

example : plateTout ⟨0.405, 7.54, 3801, 0.001, 0.02, 0.2, 50⟩ 300 350 1 ∈ Set.uIcc (300 : ℝ) 350 :=
  (C49_plate _ 300 350 1 (by norm_num) (by norm_num) (by unfold Plate.UA Plate.area Plate.dh; norm_num)).1

/-! ### C50: manifolds -/

/-- C50.  The split succeeds exactly when every fraction is in [0, 1]. -/
theorem C50_split_domain {n : ℕ} (mdot f : Fin n → ℝ) :
    (∃ r, flowSplit mdot f = .ok r) ↔ ∀ k, 0 ≤ f k ∧ f k ≤ 1 := by
  unfold flowSplit
  split_ifs with h
  · constructor
    · rintro ⟨r, hr⟩; cases hr
    · intro hf
      rcases h with ⟨k, hk⟩ | ⟨k, hk⟩
      · linarith [(hf k).1]
      · linarith [(hf k).2]
  · push Not at h
    exact ⟨fun _ k => ⟨h.1 k, h.2 k⟩, fun _ => ⟨_, rfl⟩⟩

/-- C50.  A successful split conserves mass, keeps each share between zero and the total, and the first share is the
requested fraction. -/
theorem C50_split_mass {n : ℕ} {mdot f : Fin n → ℝ} {r} (h : flowSplit mdot f = .ok r) (k : Fin n) :
    r.1 k + r.2 k = mdot k ∧ r.1 k = f k * mdot k ∧
    (0 ≤ mdot k → 0 ≤ r.1 k ∧ 0 ≤ r.2 k ∧ r.1 k ≤ mdot k ∧ r.2 k ≤ mdot k) := by
  have hf := (C50_split_domain mdot f).1 ⟨r, h⟩ k
  unfold flowSplit at h
  split_ifs at h
  cases h
  refine ⟨by ring, by ring, fun hm => ⟨mul_nonneg hm hf.1, mul_nonneg hm (by linarith), ?_, ?_⟩⟩ <;> dsimp only <;>
    nlinarith

/-- C50.  Declared partials of the split. -/
theorem C50_split_partials (mdot f : ℝ) :
    HasDerivAt (fun x => x * f) (flowSplitDmdot f).1 mdot ∧ HasDerivAt (fun x => mdot * x) (flowSplitDf mdot).1 f ∧
    HasDerivAt (fun x => x * (1 - f)) (flowSplitDmdot f).2 mdot ∧
    HasDerivAt (fun x => mdot * (1 - x)) (flowSplitDf mdot).2 f := by
  simp only [flowSplitDmdot, flowSplitDf]
  refine ⟨?_, ?_, ?_, ?_⟩ <;> hderiv!

/-- C50.  Combining conserves mass and enthalpy. -/
theorem C50_combine (mA mB TA TB : ℝ) (h : mA + mB ≠ 0) :
    combineMdot mA mB * combineT mA mB TA TB = mA * TA + mB * TB := by
  unfold combineMdot combineT; field_simp

/-- C50.  The mixing temperature lies between the two inlet temperatures. -/
theorem C50_combine_between (mA mB TA TB : ℝ) (hA : 0 ≤ mA) (hB : 0 ≤ mB) (h : 0 < mA + mB) :
    combineT mA mB TA TB ∈ Set.uIcc TA TB := by
  unfold combineT
  rw [Set.mem_uIcc, le_div_iff₀ h, div_le_iff₀ h, le_div_iff₀ h, div_le_iff₀ h]
  rcases le_total TA TB with h | h
  · left; constructor <;> nlinarith
  · right; constructor <;> nlinarith

/-- C50.  Combining is symmetric, and equal streams do not change temperature. -/
theorem C50_combine_symm (mA mB TA TB : ℝ) :
    combineT mA mB TA TB = combineT mB mA TB TA ∧ combineMdot mA mB = combineMdot mB mA := by
  unfold combineT combineMdot
  constructor
  · rw [add_comm (mA * TA), add_comm mA]
  · ring

/-- C50.  Declared partials of the combine. -/
theorem C50_combine_partials (mA mB TA TB : ℝ) (h : mA + mB ≠ 0) :
    HasDerivAt (fun x => combineT x mB TA TB) (combineTDmA mA mB TA TB) mA ∧
    HasDerivAt (fun x => combineT mA x TA TB) (combineTDmB mA mB TA TB) mB ∧
    HasDerivAt (fun x => combineT mA mB x TB) (combineTDTA mA mB) TA ∧
    HasDerivAt (fun x => combineT mA mB TA x) (combineTDTB mA mB) TB := by
  simp only [combineT, combineTDmA, combineTDmB, combineTDTA, combineTDTB]
  refine ⟨?_, ?_, ?_, ?_⟩ <;> hderiv <;> ring

/-- C50.  Splitting a stream and recombining both parts returns the stream. -/
theorem C50_split_combine {n : ℕ} {mdot f : Fin n → ℝ} {r} (h : flowSplit mdot f = .ok r) (T : ℝ) (k : Fin n)
    (hm : mdot k ≠ 0) : combineMdot (r.1 k) (r.2 k) = mdot k ∧ combineT (r.1 k) (r.2 k) T T = T := by
  have e := (C50_split_mass h k).1
  refine ⟨e, ?_⟩
  unfold combineT
  rw [← add_mul, e]; field_simp

example : ∃ r, flowSplit (fun _ : Fin 2 => 4) (fun _ => 1 / 4) = .ok r ∧ r.1 0 = 1 ∧ r.2 0 = 3 := by
  obtain ⟨r, hr⟩ := (C50_split_domain (fun _ : Fin 2 => 4) (fun _ => 1 / 4)).2 (fun _ => by norm_num)
  have h := C50_split_mass hr 0
  refine ⟨r, hr, by rw [h.2.1]; norm_num, ?_⟩
  have := h.1; rw [h.2.1] at this; norm_num at this; linarith

example : ¬ ∃ r, flowSplit (fun _ : Fin 2 => 4) (fun k => if k = 0 then 1 / 2 else 3 / 2) = .ok r := by
  rw [C50_split_domain]
  intro h
  have := (h 1).2
  norm_num at this

/-! ### C59: pump and hose -/

/-- C59.  Electric load times efficiency is volumetric flow times pressure rise; a margin of at most one means the rating
suffices; the weight is affine in the rating. -/
theorem C59_pump (eta mdot dp rho rating base inc : ℝ) (he : eta ≠ 0) (hr : 0 < rating) :
    pumpLoad eta mdot dp rho * eta = mdot / rho * dp ∧
    (pumpMargin eta mdot dp rho rating ≤ 1 ↔ pumpLoad eta mdot dp rho ≤ rating) ∧
    (∀ r, pumpMass base inc r - pumpMass base inc rating = inc * (r - rating)) := by
  refine ⟨by unfold pumpLoad; field_simp, ?_, fun r => by unfold pumpMass; ring⟩
  unfold pumpMargin; rw [div_le_one hr]

/-- C59.  An efficiency below one makes the load exceed the hydraulic power. -/
theorem C59_pump_loss (eta mdot dp rho : ℝ) (he : 0 < eta) (he1 : eta ≤ 1) (hm : 0 ≤ mdot) (hdp : 0 ≤ dp)
    (hrho : 0 < rho) : mdot / rho * dp ≤ pumpLoad eta mdot dp rho := by
  unfold pumpLoad
  rw [le_div_iff₀ he]
  have : 0 ≤ mdot / rho * dp := by positivity
  nlinarith

/-- C59.  Declared partials of the pump. -/
theorem C59_pump_partials (eta mdot dp rho rating base inc : ℝ) (hrho : rho ≠ 0) (hr : rating ≠ 0) :
    HasDerivAt (fun x => pumpLoad eta x dp rho) (pumpLoadDmdot eta dp rho) mdot ∧
    HasDerivAt (fun x => pumpLoad eta mdot x rho) (pumpLoadDdp eta mdot rho) dp ∧
    HasDerivAt (fun x => pumpLoad eta mdot dp x) (pumpLoadDrho eta mdot dp rho) rho ∧
    HasDerivAt (fun x => pumpMargin eta x dp rho rating) (pumpLoadDmdot eta dp rho / rating) mdot ∧
    HasDerivAt (fun x => pumpMargin eta mdot x rho rating) (pumpLoadDdp eta mdot rho / rating) dp ∧
    HasDerivAt (fun x => pumpMargin eta mdot dp x rating) (pumpLoadDrho eta mdot dp rho / rating) rho ∧
    HasDerivAt (fun x => pumpMargin eta mdot dp rho x) (pumpMarginDrating eta mdot dp rho rating) rating ∧
    HasDerivAt (fun x => pumpMass base inc x) inc rating := by
  simp only [pumpMargin, pumpLoad, pumpLoadDmdot, pumpLoadDdp, pumpLoadDrho, pumpMarginDrating, pumpMass]
  refine ⟨?_, ?_, ?_, ?_, ?_, ?_, ?_, ?_⟩ <;> hderiv
  all_goals first | assumption | ring

theorem hoseRe_eq (D mdot rho mu : ℝ) (hD : 0 < D) (hrho : 0 < rho) :
    hoseRe D mdot rho mu = 4 * mdot / (π * D * mu) := by
  unfold hoseRe hoseU
  have := pi_pos
  by_cases hmu : mu = 0
  · subst hmu; simp
  · field_simp
    norm_num

/-- C59.  The hose pressure drop is defined exactly for positive flow. -/
theorem C59_hose_defined (D L mdot rho mu : ℝ) (hD : 0 < D) (hrho : 0 < rho) (hmu : 0 < mu) :
    (∃ p, hoseDp D L mdot rho mu = some p) ↔ 0 < mdot := by
  unfold hoseDp
  rw [hoseRe_eq D mdot rho mu hD hrho]
  have hp : 0 < π * D * mu := by have := pi_pos; positivity
  split_ifs with h
  · simp only [exists_false, false_iff, not_lt]
    by_contra hc
    push Not at hc
    have : 0 < 4 * mdot / (π * D * mu) := by positivity
    linarith
  · simp only [Option.some.injEq, exists_eq', true_iff]
    by_contra hc
    exact h (div_nonpos_of_nonpos_of_nonneg (by linarith) hp.le)

/-- C59.  Closed form of the pressure drop: proportional to flow to the power 7/4. -/
theorem C59_hose_scaling (D L mdot rho mu k p : ℝ) (hD : 0 < D) (hrho : 0 < rho) (hmu : 0 < mu)
    (hm : 0 < mdot) (hk : 0 < k) (h : hoseDp D L mdot rho mu = some p) :
    hoseDp D L (k * mdot) rho mu = some (k ^ (7 / 4 : ℝ) * p) := by
  have hpi := pi_pos
  unfold hoseDp at h ⊢
  have hRe : 0 < hoseRe D mdot rho mu := by rw [hoseRe_eq D mdot rho mu hD hrho]; positivity
  have eRe : hoseRe D (k * mdot) rho mu = k * hoseRe D mdot rho mu := by unfold hoseRe hoseU; ring
  have eU : hoseU D (k * mdot) rho = k * hoseU D mdot rho := by unfold hoseU; ring
  rw [if_neg (not_le.2 hRe)] at h
  rw [eRe, if_neg (not_le.2 (by positivity)), eU, mul_rpow hk.le hRe.le]
  have ek : k ^ (-1 / 4 : ℝ) * k ^ 2 = k ^ (7 / 4 : ℝ) := by
    rw [← rpow_natCast, ← rpow_add hk]; norm_num
  cases h
  rw [← ek]
  congr 1
  ring

/-- C59.  For positive flow the pressure drop is positive and strictly increasing in the flow. -/
theorem C59_hose_positive_increasing (D L m m' rho mu : ℝ) (hD : 0 < D) (hL : 0 < L) (hrho : 0 < rho) (hmu : 0 < mu)
    (hm : 0 < m) (hmm : m < m') :
    ∃ p p', hoseDp D L m rho mu = some p ∧ hoseDp D L m' rho mu = some p' ∧ 0 < p ∧ p < p' := by
  obtain ⟨p, hp⟩ := (C59_hose_defined D L m rho mu hD hrho hmu).2 hm
  have hk : 1 < m' / m := (one_lt_div hm).2 hmm
  have h2 := C59_hose_scaling D L m rho mu (m' / m) p hD hrho hmu hm (by linarith) hp
  rw [div_mul_cancel₀ _ hm.ne'] at h2
  have hpos : 0 < p := by
    unfold hoseDp at hp
    have hRe : 0 < hoseRe D m rho mu := by
      rw [hoseRe_eq D m rho mu hD hrho]; have := pi_pos; positivity
    rw [if_neg (not_le.2 hRe)] at hp
    cases hp
    have : 0 < hoseU D m rho := by unfold hoseU; have := pi_pos; positivity
    positivity
  refine ⟨p, _, hp, h2, hpos, ?_⟩
  have : 1 < (m' / m) ^ (7 / 4 : ℝ) := one_lt_rpow hk (by norm_num)
  nlinarith

/-- C59.  The drop tends to zero with the flow, yet at exactly zero flow the component returns no number. -/
theorem C59_hose_zero_flow (D L rho mu : ℝ) (hD : 0 < D) (hrho : 0 < rho) (hmu : 0 < mu) :
    hoseDp D L 0 rho mu = none ∧
    Filter.Tendsto (fun k => (hoseDp D L k rho mu).getD 0) (nhdsWithin 0 (Set.Ioi 0)) (nhds 0) := by
  constructor
  · unfold hoseDp hoseRe hoseU; simp
  · obtain ⟨p, hp⟩ := (C59_hose_defined D L 1 rho mu hD hrho hmu).2 one_pos
    have e : ∀ k ∈ Set.Ioi (0 : ℝ), (hoseDp D L k rho mu).getD 0 = k ^ (7 / 4 : ℝ) * p := by
      intro k hk
      have := C59_hose_scaling D L 1 rho mu k p hD hrho hmu one_pos hk hp
      rw [mul_one] at this
      rw [this]; rfl
    have h : Filter.Tendsto (fun k : ℝ => k ^ (7 / 4 : ℝ) * p) (nhdsWithin 0 (Set.Ioi 0)) (nhds 0) := by
      have hc : ContinuousAt (fun k : ℝ => k ^ (7 / 4 : ℝ) * p) 0 :=
        (continuousAt_rpow_const 0 _ (Or.inr (by norm_num))).mul continuousAt_const
      have h2 := hc.tendsto
      simp only [zero_rpow (by norm_num : (7 / 4 : ℝ) ≠ 0), zero_mul] at h2
      exact h2.mono_left nhdsWithin_le_nhds
    exact h.congr' (by filter_upwards [self_mem_nhdsWithin] with k hk using (e k hk).symm)

/-- C59.  The hose wall carries the hoop stress of the design pressure, and the weight is that of the annulus plus the
coolant inside. -/
theorem C59_hose_weight (sigma rhoHose D L p rho : ℝ) (hs : sigma ≠ 0) :
    sigma * hoseThickness sigma D p = p * D / 2 ∧
    hoseWeight sigma rhoHose D L p rho
      = π * (((D + 2 * hoseThickness sigma D p) / 2) ^ 2 - (D / 2) ^ 2) * L * rhoHose + π * (D / 2) ^ 2 * L * rho := by
  constructor
  · unfold hoseThickness; field_simp
  · unfold hoseWeight; ring

/-- C59.  Declared partials of the hose weight. -/
theorem C59_hose_partials (sigma rhoHose D L p rho : ℝ) :
    HasDerivAt (fun x => hoseWeight sigma rhoHose D L p x) (hoseWeightDrho D L) rho ∧
    HasDerivAt (fun x => hoseWeight sigma rhoHose D L x rho) (hoseWeightDp sigma rhoHose D L p) p ∧
    HasDerivAt (fun x => hoseWeight sigma rhoHose D x p rho) (hoseWeightDL sigma rhoHose D p rho) L ∧
    HasDerivAt (fun x => hoseWeight sigma rhoHose x L p rho) (hoseWeightDD sigma rhoHose D L p rho) D := by
  simp only [hoseWeight, hoseThickness, hoseWeightDrho, hoseWeightDp, hoseWeightDL, hoseWeightDD]
  refine ⟨?_, ?_, ?_, ?_⟩ <;> hderiv <;> ring

example : ∃ p p', hoseDp 0.02 1 1 1000 1e-3 = some p ∧ hoseDp 0.02 1 2 1000 1e-3 = some p' ∧ 0 < p ∧ p < p' :=
  C59_hose_positive_increasing _ _ _ _ _ _ (by norm_num) (by norm_num) (by norm_num) (by norm_num) (by norm_num)
    (by norm_num)

end Verif.Thermal
