import Verif.Model.ThermalMass
import Verif.Proof.Relax

/-!
C100, C101: components with thermal mass.
-/

namespace Verif.Thermal

open Real Verif.Integrals

variable {m : ℕ} {M : Matrix (Fin (m + 1)) (Fin (m + 1)) ℝ}

/-! ### Relaxation form of the four rates -/

/-- conductance between cold plate surface and coolant over heat capacity of the object, 1/s -/
noncomputable def compRelax (cpObj : ℝ) (p : Plate) (mass mdot : ℝ) : ℝ :=
  (1 - exp (-(p.UA / (mdot * p.cp)))) * (mdot * p.cp) / (mass * cpObj)
/-- conductance between motor and coolant over heat capacity of the motor, 1/s -/
noncomputable def motorRelax (o : JacketOpts) (i : JacketIn) : ℝ :=
  (1 - exp (-(o.caseCooling / o.caseArea * i.rating / i.mdot / o.cp))) * (i.mdot * o.cp) / (i.weight * o.motorCp)
/-- series conductance of cell and convection over heat capacity of a cell, 1/s -/
noncomputable def batteryRelax (o : BandOpts) (i : BandIn) : ℝ :=
  (1 / (1 / bandKcyl o + 1 / bandK o i)) / (o.cellMass * o.cellCp)

theorem eff_nonneg {x : ℝ} (hx : 0 ≤ x) : 0 ≤ 1 - exp (-x) := by
  have : exp (-x) ≤ 1 := by rw [exp_le_one_iff]; linarith
  linarith
theorem eff_pos {x : ℝ} (hx : 0 < x) : 0 < 1 - exp (-x) := by
  have : exp (-x) < 1 := by rw [exp_lt_one_iff]; linarith
  linarith

theorem comp_rate {cpObj : ℝ} (p : Plate) {mass : ℝ} (q Tin mdot T : ℝ) :
    massDTdt cpObj q (plateQ p Tin T mdot) mass
      = (q / (mass * cpObj) + compRelax cpObj p mass mdot * Tin) - compRelax cpObj p mass mdot * T := by
  simp only [massDTdt, plateQ, compRelax]
  rw [div_div]; ring

theorem motor_rate (o : JacketOpts) (i : JacketIn) (T : ℝ) :
    jacketDTdt o { i with T := T } = (i.qIn / (i.weight * o.motorCp) + motorRelax o i * i.Tin) - motorRelax o i * T := by
  simp only [jacketDTdt, jacketQ, jacketEff, jacketNTU, motorRelax]
  rw [div_div]; ring

/-- positive options and geometry of the bandolier -/
structure BandOpts.Pos (o : BandOpts) : Prop where
  cpf : 0 < o.cpf
  k : 0 < o.k
  nusselt : 0 < o.nusselt
  cellK : 0 < o.cellK
  cellD : 0 < o.cellD
  cellH : 0 < o.cellH
  cellMass : 0 < o.cellMass
  cellCp : 0 < o.cellCp
  frac : 0 < o.frac
/-- positive flow and sizes -/
structure BandIn.Pos (i : BandIn) : Prop where
  mdot : 0 < i.mdot
  weight : 0 < i.weight
  nCpb : 0 < i.nCpb
  tChannel : 0 < i.tChannel

theorem bandK_pos {o : BandOpts} {i : BandIn} (ho : o.Pos) (hi : i.Pos) :
    0 < bandK o i ∧ 0 < bandKcyl o ∧ 0 < bandCells o i := by
  obtain ⟨o1, o2, o3, o4, o5, o6, o7, o8, o9⟩ := ho
  obtain ⟨i1, i2, i3, i4⟩ := hi
  have hc : 0 < bandCells o i := by unfold bandCells; positivity
  have hm : 0 < bandMdot o i := by unfold bandMdot; positivity
  have hn : 0 < bandNTU o i := by unfold bandNTU; positivity
  have := eff_pos hn
  refine ⟨by unfold bandK; positivity, by unfold bandKcyl; positivity, hc⟩

theorem battery_rate {o : BandOpts} {i : BandIn} (ho : o.Pos) (hi : i.Pos) (T : ℝ) :
    bandDTdt o { i with T := T }
      = (i.qIn / bandCells o i / (o.cellMass * o.cellCp) + batteryRelax o i * i.Tin) - batteryRelax o i * T := by
  obtain ⟨h1, h2, h3⟩ := bandK_pos ho hi
  have e1 : bandCells o { i with T := T } = bandCells o i := rfl
  have e2 : bandK o { i with T := T } = bandK o i := rfl
  have := ho.cellMass; have := ho.cellCp
  simp only [bandDTdt, bandTs, batteryRelax, e1, e2]
  field_simp
  ring

theorem reservoir_rate (Tin T mdot mass : ℝ) : reservoirRate Tin T mdot mass = mdot / mass * Tin - mdot / mass * T := by
  simp only [reservoirRate]; ring

theorem UA_pos {p : Plate} (hk : 0 < p.k) (hn : 0 < p.nusselt) (hw : 0 < p.width) (hh : 0 < p.height) (hl : 0 < p.length)
    (hp : 0 < p.nParallel) : 0 < p.UA := by
  unfold Plate.UA Plate.area Plate.dh; positivity

theorem compRelax_pos {cpObj : ℝ} {p : Plate} {mass mdot : ℝ} (hU : 0 < p.UA) (hc : 0 < p.cp) (ho : 0 < cpObj)
    (hM : 0 < mass) (hm : 0 < mdot) : 0 < compRelax cpObj p mass mdot := by
  have := eff_pos (div_pos hU (mul_pos hm hc))
  unfold compRelax; positivity

/-- positive options of the cooling jacket -/
structure JacketOpts.Pos (o : JacketOpts) : Prop where
  cp : 0 < o.cp
  caseCooling : 0 < o.caseCooling
  caseArea : 0 < o.caseArea
  motorCp : 0 < o.motorCp
structure JacketIn.Pos (i : JacketIn) : Prop where
  mdot : 0 < i.mdot
  rating : 0 < i.rating
  weight : 0 < i.weight

theorem motorRelax_pos {o : JacketOpts} {i : JacketIn} (ho : o.Pos) (hi : i.Pos) : 0 < motorRelax o i := by
  obtain ⟨o1, o2, o3, o4⟩ := ho
  obtain ⟨i1, i2, i3⟩ := hi
  have := eff_pos (by positivity : 0 < o.caseCooling / o.caseArea * i.rating / i.mdot / o.cp)
  unfold motorRelax; positivity

theorem batteryRelax_pos {o : BandOpts} {i : BandIn} (ho : o.Pos) (hi : i.Pos) : 0 < batteryRelax o i := by
  obtain ⟨h1, h2, h3⟩ := bandK_pos ho hi
  have := ho.cellMass; have := ho.cellCp
  unfold batteryRelax; positivity

/-! ### The implicit integration has one solution -/

/-- C100.  A `LiquidCooledComp` with thermal mass has exactly one temperature history, for every node count accepted by the
integrator, all heat loads, inlet temperatures and flows. -/
theorem C100_comp_wellposed (hM : methodMatrix .simpson m = some M) {cpObj : ℝ} {p : Plate} {d mass : ℝ} (T0 : ℝ)
    (q Tin mdot : Fin (m + 1) → ℝ) (hd : 0 ≤ d) (hU : 0 < p.UA) (hc : 0 < p.cp) (ho : 0 < cpObj) (hm : 0 < mass)
    (hf : ∀ a, 0 < mdot a) : ∃! T, compSolution M cpObj p T0 d mass q Tin mdot T := by
  obtain ⟨he, rfl⟩ := methodMatrix_simpson.1 hM
  simp only [compSolution, comp_rate, relaxes_iff]
  exact relax_existsUnique he (by positivity) T0 (fun b => (compRelax_pos hU hc ho hm (hf b)).le) _

/-- C100.  The same for the motor. -/
theorem C100_motor_wellposed (hM : methodMatrix .simpson m = some M) {o : JacketOpts} (ho : o.Pos) {d : ℝ} (T0 : ℝ)
    (i : Fin (m + 1) → JacketIn) (hi : ∀ a, (i a).Pos) (hd : 0 ≤ d) : ∃! T, motorSolution M o T0 d i T := by
  obtain ⟨he, rfl⟩ := methodMatrix_simpson.1 hM
  simp only [motorSolution, motor_rate, relaxes_iff]
  exact relax_existsUnique he (by positivity) T0 (fun b => (motorRelax_pos ho (hi b)).le) _

/-- C100.  The same for the battery. -/
theorem C100_battery_wellposed (hM : methodMatrix .simpson m = some M) {o : BandOpts} (ho : o.Pos) {d : ℝ} (T0 : ℝ)
    (i : Fin (m + 1) → BandIn) (hi : ∀ a, (i a).Pos) (hd : 0 ≤ d) : ∃! T, batterySolution M o T0 d i T := by
  obtain ⟨he, rfl⟩ := methodMatrix_simpson.1 hM
  have e : ∀ T : Fin (m + 1) → ℝ, (fun b => bandDTdt o { i b with T := T b }) = fun b =>
      ((i b).qIn / bandCells o (i b) / (o.cellMass * o.cellCp) + batteryRelax o (i b) * (i b).Tin)
        - batteryRelax o (i b) * T b := fun T => funext fun b => battery_rate ho (hi b) _
  simp only [batterySolution, e, relaxes_iff]
  exact relax_existsUnique he (by positivity) T0 (fun b => (batteryRelax_pos ho (hi b)).le) _

/-- C100.  The same for the reservoir, also without flow. -/
theorem C100_reservoir_wellposed (hM : methodMatrix .simpson m = some M) {d mass : ℝ} (T0 : ℝ)
    (Tin mdot : Fin (m + 1) → ℝ) (hd : 0 ≤ d) (hm : 0 < mass) (hf : ∀ a, 0 ≤ mdot a) :
    ∃! T, reservoirSolution M T0 d mass Tin mdot T := by
  obtain ⟨he, rfl⟩ := methodMatrix_simpson.1 hM
  simp only [reservoirSolution, reservoir_rate, relaxes_iff]
  exact relax_existsUnique he (by positivity) T0 (fun b => div_nonneg (hf b) hm.le) _

/-! ### Quasi-steady mode -/

/-- C100.  The quasi-steady temperature exists, is unique, and lies above the coolant inlet by heat over conductance. -/
theorem C100_comp_quasi (p : Plate) (q Tin mdot T : ℝ) (hU : 0 < p.UA) (hc : 0 < p.cp) (hm : 0 < mdot) :
    compQuasiSteady p q Tin mdot T ↔ T = Tin + q / ((1 - exp (-(p.UA / (mdot * p.cp)))) * (mdot * p.cp)) := by
  have := eff_pos (div_pos hU (mul_pos hm hc))
  simp only [compQuasiSteady, masslessResidual, plateQ]
  generalize exp (-(p.UA / (mdot * p.cp))) = e at *
  rw [← sub_eq_iff_eq_add', eq_div_iff (by positivity), sub_eq_zero]
  constructor <;> intro h <;> linarith

theorem C100_motor_quasi {o : JacketOpts} (ho : o.Pos) {i : JacketIn} (hi : i.Pos) (T : ℝ) :
    motorQuasiSteady o i T ↔ T = i.Tin + i.qIn / ((1 - exp (-(o.caseCooling / o.caseArea * i.rating / i.mdot / o.cp)))
      * (i.mdot * o.cp)) := by
  obtain ⟨o1, o2, o3, o4⟩ := ho
  obtain ⟨i1, i2, i3⟩ := hi
  have := eff_pos (by positivity : 0 < o.caseCooling / o.caseArea * i.rating / i.mdot / o.cp)
  simp only [motorQuasiSteady, jacketDTdt, jacketQ, jacketEff, jacketNTU]
  generalize exp (-(o.caseCooling / o.caseArea * i.rating / i.mdot / o.cp)) = e at *
  rw [div_eq_zero_iff, or_iff_left o4.ne', div_eq_zero_iff, or_iff_left i3.ne', ← sub_eq_iff_eq_add',
    eq_div_iff (by positivity), sub_eq_zero]
  constructor <;> intro h <;> linarith

/-- C100.  The battery's quasi-steady temperature: heat per cell through cell and convection resistance in series. -/
theorem C100_battery_quasi {o : BandOpts} (ho : o.Pos) {i : BandIn} (hi : i.Pos) (T : ℝ) :
    batteryQuasiSteady o i T ↔ T = i.Tin + i.qIn / bandCells o i * (1 / bandKcyl o + 1 / bandK o i) := by
  obtain ⟨h1, h2, h3⟩ := bandK_pos ho hi
  have hcm := ho.cellMass; have hcc := ho.cellCp
  have e1 : bandCells o { i with T := T } = bandCells o i := rfl
  have e2 : bandK o { i with T := T } = bandK o i := rfl
  simp only [batteryQuasiSteady, bandDTdt, bandTs, e1, e2]
  rw [div_eq_zero_iff, or_iff_left hcc.ne', div_eq_zero_iff, or_iff_left hcm.ne']
  constructor
  · intro h; field_simp at h ⊢; linarith
  · rintro rfl; field_simp; ring

/-! ### Constant inputs: approach to the quasi-steady temperature -/

/-- C100.  Constant inputs: at the ends of the Simpson intervals the temperature never leaves the range between initial and
quasi-steady temperature `Te`, comes strictly closer to `Te` in every interval, and differs from the exact solution of the
heat balance by at most `|T0 - Te| (λ h)⁴ (λ t) / 45`. -/
theorem C100_comp_settles (hM : methodMatrix .simpson m = some M) (hm0 : m ≠ 0) {cpObj : ℝ} {p : Plate}
    {d mass T0 q Tin mdot Te : ℝ} (hd : 0 < d) (hU : 0 < p.UA) (hc : 0 < p.cp) (ho : 0 < cpObj) (hm : 0 < mass)
    (hf : 0 < mdot) (hTe : compQuasiSteady p q Tin mdot Te) {T : Fin (m + 1) → ℝ}
    (H : compSolution M cpObj p T0 d mass (fun _ => q) (fun _ => Tin) (fun _ => mdot) T) :
    (∀ k (hk : 2 * k < m + 1), T ⟨2 * k, hk⟩ ∈ Set.uIcc T0 Te) ∧
    (T0 ≠ Te → ∀ k (hk : 2 * k + 2 < m + 1), |T ⟨2 * k + 2, hk⟩ - Te| < |T ⟨2 * k, by omega⟩ - Te|) ∧
    (∀ θ : ℝ → ℝ, θ 0 = T0 → (∀ t, HasDerivAt θ (massDTdt cpObj q (plateQ p Tin (θ t) mdot) mass) t) →
      ∀ k (hk : 2 * k < m + 1), |T ⟨2 * k, hk⟩ - θ ((2 * k : ℕ) * (d / m))|
        ≤ |T0 - Te| * (compRelax cpObj p mass mdot * (d / m)) ^ 4
          * (compRelax cpObj p mass mdot * ((2 * k : ℕ) * (d / m))) / 45) := by
  obtain ⟨he, rfl⟩ := methodMatrix_simpson.1 hM
  have hl := compRelax_pos hU hc ho hm hf
  have hg : q / (mass * cpObj) + compRelax cpObj p mass mdot * Tin = compRelax cpObj p mass mdot * Te := by
    have h0 : massDTdt cpObj q (plateQ p Tin Te mdot) mass = 0 := by
      simp only [compQuasiSteady, masslessResidual] at hTe
      simp only [massDTdt, hTe, zero_div]
    rw [comp_rate] at h0; linarith
  simp only [compSolution, comp_rate, hg, relaxes_iff] at H
  simp only [comp_rate, hg]
  exact relax_settles he (div_pos hd (by positivity)) hl H

/-- C100.  The same for the motor. -/
theorem C100_motor_settles (hM : methodMatrix .simpson m = some M) (hm0 : m ≠ 0) {o : JacketOpts} (ho : o.Pos)
    {i : JacketIn} (hi : i.Pos) {d T0 Te : ℝ} (hd : 0 < d) (hTe : motorQuasiSteady o i Te) {T : Fin (m + 1) → ℝ}
    (H : motorSolution M o T0 d (fun _ => i) T) :
    (∀ k (hk : 2 * k < m + 1), T ⟨2 * k, hk⟩ ∈ Set.uIcc T0 Te) ∧
    (T0 ≠ Te → ∀ k (hk : 2 * k + 2 < m + 1), |T ⟨2 * k + 2, hk⟩ - Te| < |T ⟨2 * k, by omega⟩ - Te|) ∧
    (∀ θ : ℝ → ℝ, θ 0 = T0 → (∀ t, HasDerivAt θ (jacketDTdt o { i with T := θ t }) t) →
      ∀ k (hk : 2 * k < m + 1), |T ⟨2 * k, hk⟩ - θ ((2 * k : ℕ) * (d / m))|
        ≤ |T0 - Te| * (motorRelax o i * (d / m)) ^ 4 * (motorRelax o i * ((2 * k : ℕ) * (d / m))) / 45) := by
  obtain ⟨he, rfl⟩ := methodMatrix_simpson.1 hM
  have hl := motorRelax_pos ho hi
  have hg : i.qIn / (i.weight * o.motorCp) + motorRelax o i * i.Tin = motorRelax o i * Te := by
    rw [motorQuasiSteady, motor_rate] at hTe; linarith
  simp only [motorSolution, motor_rate, hg, relaxes_iff] at H
  simp only [motor_rate, hg]
  exact relax_settles he (div_pos hd (by positivity)) hl H

/-- C100.  The same for the battery. -/
theorem C100_battery_settles (hM : methodMatrix .simpson m = some M) (hm0 : m ≠ 0) {o : BandOpts} (ho : o.Pos)
    {i : BandIn} (hi : i.Pos) {d T0 Te : ℝ} (hd : 0 < d) (hTe : batteryQuasiSteady o i Te) {T : Fin (m + 1) → ℝ}
    (H : batterySolution M o T0 d (fun _ => i) T) :
    (∀ k (hk : 2 * k < m + 1), T ⟨2 * k, hk⟩ ∈ Set.uIcc T0 Te) ∧
    (T0 ≠ Te → ∀ k (hk : 2 * k + 2 < m + 1), |T ⟨2 * k + 2, hk⟩ - Te| < |T ⟨2 * k, by omega⟩ - Te|) ∧
    (∀ θ : ℝ → ℝ, θ 0 = T0 → (∀ t, HasDerivAt θ (bandDTdt o { i with T := θ t }) t) →
      ∀ k (hk : 2 * k < m + 1), |T ⟨2 * k, hk⟩ - θ ((2 * k : ℕ) * (d / m))|
        ≤ |T0 - Te| * (batteryRelax o i * (d / m)) ^ 4 * (batteryRelax o i * ((2 * k : ℕ) * (d / m))) / 45) := by
  obtain ⟨he, rfl⟩ := methodMatrix_simpson.1 hM
  have hl := batteryRelax_pos ho hi
  have hg : i.qIn / bandCells o i / (o.cellMass * o.cellCp) + batteryRelax o i * i.Tin = batteryRelax o i * Te := by
    rw [batteryQuasiSteady, battery_rate ho hi] at hTe; linarith
  simp only [batterySolution, battery_rate ho hi, hg, relaxes_iff] at H
  simp only [battery_rate ho hi, hg]
  exact relax_settles he (div_pos hd (by positivity)) hl H

/-- C100.  The reservoir approaches the temperature of its inflow. -/
theorem C100_reservoir_settles (hM : methodMatrix .simpson m = some M) (hm0 : m ≠ 0) {d mass T0 Tin mdot : ℝ} (hd : 0 < d)
    (hm : 0 < mass) (hf : 0 < mdot) {T : Fin (m + 1) → ℝ}
    (H : reservoirSolution M T0 d mass (fun _ => Tin) (fun _ => mdot) T) :
    (∀ k (hk : 2 * k < m + 1), T ⟨2 * k, hk⟩ ∈ Set.uIcc T0 Tin) ∧
    (T0 ≠ Tin → ∀ k (hk : 2 * k + 2 < m + 1), |T ⟨2 * k + 2, hk⟩ - Tin| < |T ⟨2 * k, by omega⟩ - Tin|) ∧
    (∀ θ : ℝ → ℝ, θ 0 = T0 → (∀ t, HasDerivAt θ (reservoirRate Tin (θ t) mdot mass) t) →
      ∀ k (hk : 2 * k < m + 1), |T ⟨2 * k, hk⟩ - θ ((2 * k : ℕ) * (d / m))|
        ≤ |T0 - Tin| * (mdot / mass * (d / m)) ^ 4 * (mdot / mass * ((2 * k : ℕ) * (d / m))) / 45) := by
  obtain ⟨he, rfl⟩ := methodMatrix_simpson.1 hM
  simp only [reservoirSolution, reservoir_rate, relaxes_iff] at H
  simp only [reservoir_rate]
  exact relax_settles he (div_pos hd (by positivity)) (div_pos hf hm) H

/-- a zero rate keeps the initial value -/
theorem integrate_zero (T0 d : ℝ) {r : Fin (m + 1) → ℝ} (hr : ∀ b, r b = 0) (a : Fin (m + 1)) :
    T0 = integratorCompute M T0 (.duration d) r a := by
  have : r = 0 := funext hr
  rw [integratorCompute_eq, this, Matrix.mulVec_zero]; simp

/-- C100.  A component that starts at the quasi-steady temperature of all nodes keeps it, also with inputs that vary. -/
theorem C100_comp_steady (hM : methodMatrix .simpson m = some M) {cpObj : ℝ} {p : Plate} {d mass T0 : ℝ}
    {q Tin mdot T : Fin (m + 1) → ℝ} (hd : 0 ≤ d) (hU : 0 < p.UA) (hc : 0 < p.cp) (ho : 0 < cpObj) (hm : 0 < mass)
    (hf : ∀ a, 0 < mdot a) (h0 : ∀ a, compQuasiSteady p (q a) (Tin a) (mdot a) T0)
    (H : compSolution M cpObj p T0 d mass q Tin mdot T) (a : Fin (m + 1)) : T a = T0 := by
  have e := (C100_comp_wellposed hM T0 q Tin mdot hd hU hc ho hm hf).unique H (y₂ := fun _ => T0)
    (integrate_zero T0 d fun b => by
      have := h0 b
      simp only [compQuasiSteady, masslessResidual] at this
      simp only [massDTdt, this, zero_div])
  rw [e]

theorem C100_motor_steady (hM : methodMatrix .simpson m = some M) {o : JacketOpts} (ho : o.Pos) {d T0 : ℝ}
    {i : Fin (m + 1) → JacketIn} {T : Fin (m + 1) → ℝ} (hi : ∀ a, (i a).Pos) (hd : 0 ≤ d)
    (h0 : ∀ a, motorQuasiSteady o (i a) T0) (H : motorSolution M o T0 d i T) (a : Fin (m + 1)) : T a = T0 := by
  have e := (C100_motor_wellposed hM ho T0 i hi hd).unique H (y₂ := fun _ => T0) (integrate_zero T0 d h0)
  rw [e]

theorem C100_battery_steady (hM : methodMatrix .simpson m = some M) {o : BandOpts} (ho : o.Pos) {d T0 : ℝ}
    {i : Fin (m + 1) → BandIn} {T : Fin (m + 1) → ℝ} (hi : ∀ a, (i a).Pos) (hd : 0 ≤ d)
    (h0 : ∀ a, batteryQuasiSteady o (i a) T0) (H : batterySolution M o T0 d i T) (a : Fin (m + 1)) : T a = T0 := by
  have e := (C100_battery_wellposed hM ho T0 i hi hd).unique H (y₂ := fun _ => T0) (integrate_zero T0 d h0)
  rw [e]

/-! ### C101: temperatures inside an interval -/

/-- C101, full statement: with constant inputs the temperature at every node lies between the initial and the quasi-steady
temperature.  Proved here for steps with `λ h ≤ √6`; `C101_motor_undershoot` shows that it fails for all longer steps. -/
theorem C101_comp_partial (hM : methodMatrix .simpson m = some M) (hm0 : m ≠ 0) {cpObj : ℝ} {p : Plate}
    {d mass T0 q Tin mdot Te : ℝ} (hd : 0 < d) (hU : 0 < p.UA) (hc : 0 < p.cp) (ho : 0 < cpObj) (hm : 0 < mass)
    (hf : 0 < mdot) (hTe : compQuasiSteady p q Tin mdot Te) {T : Fin (m + 1) → ℝ}
    (H : compSolution M cpObj p T0 d mass (fun _ => q) (fun _ => Tin) (fun _ => mdot) T)
    (hz : compRelax cpObj p mass mdot * (d / m) ≤ √6) (a : Fin (m + 1)) : T a ∈ Set.uIcc T0 Te := by
  obtain ⟨he, rfl⟩ := methodMatrix_simpson.1 hM
  have hl := compRelax_pos hU hc ho hm hf
  have hg : q / (mass * cpObj) + compRelax cpObj p mass mdot * Tin = compRelax cpObj p mass mdot * Te := by
    have h0 : massDTdt cpObj q (plateQ p Tin Te mdot) mass = 0 := by
      simp only [compQuasiSteady, masslessResidual] at hTe
      simp only [massDTdt, hTe, zero_div]
    rw [comp_rate] at h0; linarith
  simp only [compSolution, comp_rate, hg, relaxes_iff] at H
  have hh : 0 < d / m := div_pos hd (by positivity)
  exact relax_between he hh hl H ((le_sqrt (by positivity) (by norm_num)).1 hz) a

theorem C101_motor_partial (hM : methodMatrix .simpson m = some M) (hm0 : m ≠ 0) {o : JacketOpts} (ho : o.Pos)
    {i : JacketIn} (hi : i.Pos) {d T0 Te : ℝ} (hd : 0 < d) (hTe : motorQuasiSteady o i Te) {T : Fin (m + 1) → ℝ}
    (H : motorSolution M o T0 d (fun _ => i) T) (hz : motorRelax o i * (d / m) ≤ √6) (a : Fin (m + 1)) :
    T a ∈ Set.uIcc T0 Te := by
  obtain ⟨he, rfl⟩ := methodMatrix_simpson.1 hM
  have hl := motorRelax_pos ho hi
  have hg : i.qIn / (i.weight * o.motorCp) + motorRelax o i * i.Tin = motorRelax o i * Te := by
    rw [motorQuasiSteady, motor_rate] at hTe; linarith
  simp only [motorSolution, motor_rate, hg, relaxes_iff] at H
  have hh : 0 < d / m := div_pos hd (by positivity)
  exact relax_between he hh hl H ((le_sqrt (by positivity) (by norm_num)).1 hz) a

theorem C101_battery_partial (hM : methodMatrix .simpson m = some M) (hm0 : m ≠ 0) {o : BandOpts} (ho : o.Pos)
    {i : BandIn} (hi : i.Pos) {d T0 Te : ℝ} (hd : 0 < d) (hTe : batteryQuasiSteady o i Te) {T : Fin (m + 1) → ℝ}
    (H : batterySolution M o T0 d (fun _ => i) T) (hz : batteryRelax o i * (d / m) ≤ √6) (a : Fin (m + 1)) :
    T a ∈ Set.uIcc T0 Te := by
  obtain ⟨he, rfl⟩ := methodMatrix_simpson.1 hM
  have hl := batteryRelax_pos ho hi
  have hg : i.qIn / bandCells o i / (o.cellMass * o.cellCp) + batteryRelax o i * i.Tin = batteryRelax o i * Te := by
    rw [batteryQuasiSteady, battery_rate ho hi] at hTe; linarith
  simp only [batterySolution, battery_rate ho hi, hg, relaxes_iff] at H
  have hh : 0 < d / m := div_pos hd (by positivity)
  exact relax_between he hh hl H ((le_sqrt (by positivity) (by norm_num)).1 hz) a

theorem C101_reservoir_partial (hM : methodMatrix .simpson m = some M) (hm0 : m ≠ 0) {d mass T0 Tin mdot : ℝ} (hd : 0 < d)
    (hm : 0 < mass) (hf : 0 < mdot) {T : Fin (m + 1) → ℝ}
    (H : reservoirSolution M T0 d mass (fun _ => Tin) (fun _ => mdot) T) (hz : mdot / mass * (d / m) ≤ √6)
    (a : Fin (m + 1)) : T a ∈ Set.uIcc T0 Tin := by
  obtain ⟨he, rfl⟩ := methodMatrix_simpson.1 hM
  simp only [reservoirSolution, reservoir_rate, relaxes_iff] at H
  have hh : 0 < d / m := div_pos hd (by positivity)
  exact relax_between he hh (div_pos hf hm) H ((le_sqrt (by positivity) (by norm_num)).1 hz) a

/-- C101, negation: a motor that produces no heat and starts hotter than the coolant is colder than the coolant's inlet in the
middle of every Simpson interval as soon as the step exceeds `√6` time constants. -/
theorem C101_motor_undershoot (hM : methodMatrix .simpson m = some M) {o : JacketOpts} (ho : o.Pos)
    {i : JacketIn} (hi : i.Pos) (hq : i.qIn = 0) {d T0 : ℝ} (hT : i.Tin < T0) (hz : √6 < motorRelax o i * (d / m))
    {T : Fin (m + 1) → ℝ} (H : motorSolution M o T0 d (fun _ => i) T) (k : ℕ) (hk : 2 * k + 1 < m + 1) :
    T ⟨2 * k + 1, hk⟩ < i.Tin := by
  obtain ⟨he, rfl⟩ := methodMatrix_simpson.1 hM
  have hl := motorRelax_pos ho hi
  have hg : i.qIn / (i.weight * o.motorCp) + motorRelax o i * i.Tin = motorRelax o i * i.Tin := by rw [hq]; simp
  simp only [motorSolution, motor_rate, hg, relaxes_iff] at H
  have hz0 : 0 < motorRelax o i * (d / m) := lt_of_le_of_lt (sqrt_nonneg 6) hz
  have hh : 0 < d / m := (mul_pos_iff_of_pos_left hl).1 hz0
  exact (relax_overshoot he hh hl H ((sqrt_lt' hz0).1 hz) k hk).1 hT

/-- C101, negation for the reservoir: fed with colder coolant it gets colder than its inflow. -/
theorem C101_reservoir_undershoot (hM : methodMatrix .simpson m = some M) {d mass T0 Tin mdot : ℝ}
    (hm : 0 < mass) (hf : 0 < mdot) (hT : Tin < T0) (hz : √6 < mdot / mass * (d / m)) {T : Fin (m + 1) → ℝ}
    (H : reservoirSolution M T0 d mass (fun _ => Tin) (fun _ => mdot) T) (k : ℕ) (hk : 2 * k + 1 < m + 1) :
    T ⟨2 * k + 1, hk⟩ < Tin := by
  obtain ⟨he, rfl⟩ := methodMatrix_simpson.1 hM
  simp only [reservoirSolution, reservoir_rate, relaxes_iff] at H
  have hz0 : 0 < mdot / mass * (d / m) := lt_of_le_of_lt (sqrt_nonneg 6) hz
  have hl := div_pos hf hm
  have hh : 0 < d / m := (mul_pos_iff_of_pos_left hl).1 hz0
  exact (relax_overshoot he hh hl H ((sqrt_lt' hz0).1 hz) k hk).1 hT

/-- C101, negation with numbers: 10 kg of coolant at 350 K, 2 kg/s inflow at 300 K, a 150 s phase with 11 nodes.  There is a
history, and it is below 300 K at node 1. -/
theorem C101_reservoir_witness : ∃ M : Matrix (Fin 11) (Fin 11) ℝ, methodMatrix .simpson 10 = some M ∧
    ∃ T : Fin 11 → ℝ, reservoirSolution M 350 150 10 (fun _ => 300) (fun _ => 2) T ∧ T 1 < 300 := by
  have hM : methodMatrix (K := ℝ) .simpson 10 = some (simpsonTri 10) := methodMatrix_simpson.2 ⟨rfl, rfl⟩
  refine ⟨simpsonTri 10, hM, ?_⟩
  obtain ⟨T, hT, -⟩ := C100_reservoir_wellposed hM (d := 150) (mass := 10) 350 (fun _ => 300) (fun _ => 2)
    (by norm_num) (by norm_num) (fun _ => by norm_num)
  refine ⟨T, hT, C101_reservoir_undershoot hM (by norm_num) (by norm_num) (by norm_num) ?_ hT 0 (by norm_num)⟩
  rw [sqrt_lt' (by norm_num)]; norm_num

/-- C101, negation for every motor: whatever the node count there are phases in which a motor without losses, hotter than its
coolant at the start, is reported colder than the coolant inlet.  The hypotheses are met by the default options, see
`exJacket` below. -/
theorem C101_motor_witness (hm : 0 < m) (hM : methodMatrix .simpson m = some M) {o : JacketOpts} (ho : o.Pos)
    {i : JacketIn} (hi : i.Pos) (hq : i.qIn = 0) {T0 : ℝ} (hT : i.Tin < T0) :
    ∃ d, 0 < d ∧ ∃ T, motorSolution M o T0 d (fun _ => i) T ∧ ∃ a, T a < i.Tin := by
  have hl := motorRelax_pos ho hi
  have hm' : (0 : ℝ) < m := by exact_mod_cast hm
  refine ⟨3 * m / motorRelax o i, by positivity, ?_⟩
  obtain ⟨T, hT', -⟩ := C100_motor_wellposed hM ho (d := 3 * m / motorRelax o i) T0 (fun _ => i) (fun _ => hi) (by positivity)
  refine ⟨T, hT', ⟨1, by omega⟩, C101_motor_undershoot hM ho hi hq hT ?_ hT' 0 (by omega)⟩
  have : motorRelax o i * (3 * m / motorRelax o i / m) = 3 := by field_simp
  rw [this, sqrt_lt' (by norm_num)]; norm_num

/-! ### Examples -/

/-- default options of `LiquidCooledMotor`, 100 kW, 20 kg, 0.5 kg/s -/
noncomputable def exJacket : JacketOpts := ⟨3801, 1100, 650000, 921⟩
noncomputable def exJacketIn : JacketIn := ⟨0, 300, 0, 1 / 2, 100000, 20⟩

example : exJacket.Pos ∧ exJacketIn.Pos ∧ exJacketIn.qIn = 0 :=
  ⟨⟨by norm_num [exJacket], by norm_num [exJacket], by norm_num [exJacket], by norm_num [exJacket]⟩,
    ⟨by norm_num [exJacketIn], by norm_num [exJacketIn], by norm_num [exJacketIn]⟩, rfl⟩

/-- a battery pack: default options, 200 kg, 1 kg/s -/
noncomputable def exBand : BandOpts := ⟨3801, 0.405, 7.54, 0.3, 0.021, 0.070, 0.070, 875, 0.65⟩
noncomputable def exBandIn : BandIn := ⟨5000, 300, 300, 1, 200, 82, 0.0005⟩

example : exBand.Pos ∧ exBandIn.Pos := by
  refine ⟨⟨?_, ?_, ?_, ?_, ?_, ?_, ?_, ?_, ?_⟩, ⟨?_, ?_, ?_, ?_⟩⟩ <;> norm_num [exBand, exBandIn]

/-- the pack's temperature history over ten minutes with 11 nodes: one solution, which settles -/
example : ∃! T, batterySolution (simpsonTri 10) exBand 290 600 (fun _ => exBandIn) T := by
  refine C100_battery_wellposed (methodMatrix_simpson.2 ⟨rfl, rfl⟩) ?_ 290 _ (fun _ => ?_) (by norm_num)
  · refine ⟨?_, ?_, ?_, ?_, ?_, ?_, ?_, ?_, ?_⟩ <;> norm_num [exBand]
  · refine ⟨?_, ?_, ?_, ?_⟩ <;> norm_num [exBandIn]

/-- a cold plate with positive conductance -/
example : 0 < (⟨0.405, 7.54, 3801, 1e-3, 2e-3, 0.2, 50⟩ : Plate).UA := by
  apply UA_pos <;> norm_num

/-- a reservoir of 100 kg with 1 kg/s and 30 s steps obeys the bound of C101 -/
example : (1 : ℝ) / 100 * (300 / (10 : ℕ)) ≤ √6 := by
  have : (1 : ℝ) ≤ √6 := by rw [le_sqrt (by norm_num) (by norm_num)]; norm_num
  norm_num; linarith

end Verif.Thermal
