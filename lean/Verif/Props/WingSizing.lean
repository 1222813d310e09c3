import Verif.Model.WingSizing
import Verif.Props.DragPolar
import Verif.Props.Aircraft
import Verif.Props.HybridTwin

/-! Property C108: weight bookkeeping and the sizing manoeuvre of the aerostructural 737 example. -/

namespace Verif.WingSizing

open Verif.Aircraft Verif.VectorComps Verif.Integrals
open Verif.HybridTwin (segFinal_mul)

variable {m : ℕ} {M : Matrix (Fin (m + 1)) (Fin (m + 1)) ℝ}

/-- C108.  In every phase the weight is the take-off weight minus the fuel used, with the original wing exchanged for the new
one. -/
theorem C108_weight (mtow orig wing : ℝ) (fuel : Fin (m + 1) → ℝ) (a : Fin (m + 1)) :
    weight mtow orig wing fuel a = mtow - fuel a + (wing - orig * lbKg) := by
  have ha : (a : ℕ) ≤ m := by omega
  by_cases h : m = 0
  · subst h
    obtain rfl : a = 0 := by ext; simp
    simp [weight, weightSys, AddSys.compute, AddSys.factors, weightEnv, VecSize.get, List.zipIdx]
    ring
  · simp [weight, weightSys, AddSys.compute, AddSys.factors, weightEnv, VecSize.get, List.zipIdx, h, ha]
    ring

/-- a wing 500 kg heavier than the original one of 20000 lb -/
example : weight (m := 2) 79000 20000 (20000 * lbKg + 500) ![0, 300, 700] 1 = 79200 := by
  rw [C108_weight]; norm_num

/-- C108.  If the new wing weighs what the original one did, the weight is that of the plain example; and a heavier wing makes
the airplane heavier by the same amount at every node. -/
theorem C108_exchange (mtow orig wing wing' : ℝ) (fuel : Fin (m + 1) → ℝ) (a : Fin (m + 1)) :
    weight mtow orig (orig * lbKg) fuel a = Aircraft.weight mtow fuel a ∧
    weight mtow orig wing' fuel a - weight mtow orig wing fuel a = wing' - wing := by
  simp only [C108_weight, C92_weight]
  constructor <;> ring

/-- C108.  The airplane burns the fuel of two engines: at the end of the mission its weight has fallen by twice the integrated
fuel flow of one. -/
theorem C108_fuel (mtow orig wing : ℝ) (l : List ((Fin (m + 1) → ℝ) × ℝ)) :
    ∀ f ∈ (missionFuel M 0 (l.map fun p => fuelSeg p.1 p.2)).getLast?,
      weight mtow orig wing f (Fin.last m)
        = mtow + (wing - orig * lbKg) - 2 * (l.map fun p => integratorFinal M 0 (.duration p.2) p.1).sum := by
  intro f hf
  have key : ∀ (l : List (Seg m)) (q0 : ℝ), ∀ f ∈ (missionFuel M q0 l).getLast?, f (Fin.last m) = missionFinal M q0 l := by
    intro l
    induction l with
    | nil => intro q0 f hf; simp [missionFuel] at hf
    | cons s l ih =>
      intro q0 f hf
      cases l with
      | nil =>
        simp only [missionFuel, List.getLast?_singleton, Option.mem_def, Option.some.injEq] at hf
        subst hf
        rw [segFuel_last]; rfl
      | cons s' l =>
        simp only [missionFuel, List.getLast?_cons_cons] at hf
        have := ih (segFinal M q0 s) f (by simpa [missionFuel] using hf)
        rw [this]; rfl
  rw [C108_weight, key _ _ f hf, (C92_total 0 _).1, List.map_map, zero_add, ← List.sum_map_mul_left]
  have : (List.map (segFinal M 0 ∘ fun p : (Fin (m + 1) → ℝ) × ℝ => fuelSeg p.1 p.2) l)
      = l.map fun p => 2 * integratorFinal M 0 (.duration p.2) p.1 := by
    apply List.map_congr_left
    intro p _
    simp only [Function.comp, fuelSeg, doubled]
    rw [segFinal_mul]
  rw [this]; ring

/-- the estimate is Raymer's formula as in `WingWeight_JetTransport` with the example's numbers -/
theorem C108_raymer :
    raymer = Weights.WingJ.compute ⟨1.5 * 3, 196.8 / 1368, 174.2e3, 1368, 9.44, 25 * (Real.pi / 180), 0.159, 0.12⟩ ∧
    0 < raymer := by
  have hc : 0 < Real.cos (25 * (Real.pi / 180)) := by
    apply Real.cos_pos_of_mem_Ioo
    constructor <;> nlinarith [Real.pi_pos]
  constructor
  · unfold raymer Weights.WingJ.compute
    rw [show (196.8 / 1368 * 1368 : ℝ) = 196.8 by norm_num, div_eq_mul_inv]
  · unfold raymer
    positivity

/-- C108 (full statement: the manoeuvre is flown with the lift `n` times the weight of the mission at zero fuel used, for every
original wing weight).  Proved for the default original wing weight: the lift carries `n` times the mission's initial weight
with the constant 9.807, up to 1e-6 of the original wing weight, the rounding of 2.20462 lb/kg. -/
theorem C108_maneuver_partial (cl : ℝ → ℝ) (h Ma inc S n mtow wing alpha : ℝ)
    (hc : Maneuver cl h Ma inc S n mtow wing alpha) (hn : 0 ≤ n) (fuel : Fin (m + 1) → ℝ) (hf : fuel 0 = 0) :
    ∃ p, DragPolar.point h Ma inc = some p ∧
      |0.5 * p.rho * p.v ^ 2 * S * cl alpha - n * 9.807 * weight mtow origDefault wing fuel 0| ≤ n * 9.807 * (1e-6 * raymer) := by
  obtain ⟨p, hp, hb⟩ := hc
  rw [DragPolar.balance_zero] at hb
  refine ⟨p, hp, ?_⟩
  have e : 0.5 * p.rho * p.v ^ 2 * S * cl alpha = requiredLift n mtow wing := by
    rw [hb]; simp only [liftAt, Aero.lift, Atmos.dynPressure]
  rw [e, C108_weight, hf]
  have hr := C108_raymer.2
  have : requiredLift n mtow wing - n * 9.807 * (mtow - 0 + (wing - origDefault * lbKg))
      = n * 9.807 * (raymer * (lbKg - 1 / 2.20462)) := by
    unfold requiredLift origDefault; ring
  rw [this, abs_mul, abs_of_nonneg (by positivity), abs_mul, abs_of_pos hr]
  apply mul_le_mul_of_nonneg_left _ (by positivity)
  rw [mul_comm]
  apply mul_le_mul_of_nonneg_right _ hr.le
  rw [lbKg, abs_le]
  norm_num

/-- C108.  **The full statement is false**: `kg_to_N.orig_W_wing` is not connected, so a changed original wing weight changes
the weight in the mission but not the lift of the manoeuvre. -/
theorem C108_maneuver_ignores_original (n mtow wing orig orig' : ℝ) (h : orig ≠ orig') (hn : n ≠ 0) (fuel : Fin (m + 1) → ℝ) :
    ¬ (requiredLift n mtow wing = n * 9.807 * weight mtow orig wing fuel 0 ∧
       requiredLift n mtow wing = n * 9.807 * weight mtow orig' wing fuel 0) := by
  rintro ⟨h1, h2⟩
  rw [h1, C108_weight, C108_weight] at h2
  have h3 : n * 9.807 ≠ 0 := mul_ne_zero hn (by norm_num)
  have := mul_left_cancel₀ h3 h2
  apply h
  have hl : lbKg ≠ 0 := by unfold lbKg; norm_num
  have : orig * lbKg = orig' * lbKg := by linarith
  exact mul_right_cancel₀ hl this

/-- C108.  With a lift coefficient that grows strictly with the angle of attack the manoeuvre has at most one solution, and a
heavier wing, a larger load factor or a heavier airplane needs a larger angle. -/
theorem C108_maneuver_monotone (cl : ℝ → ℝ) (hcl : StrictMono cl) (h Ma inc S n n' mtow mtow' wing wing' alpha alpha' : ℝ)
    (hc : Maneuver cl h Ma inc S n mtow wing alpha) (hc' : Maneuver cl h Ma inc S n' mtow' wing' alpha')
    (hh : h ≤ 288.16 / 0.0065) (hM : 0 < Ma) (hi : -216.65 < inc) (hS : 0 < S) (hn : 0 < n) (hW : raymer / 2.20462 < mtow + wing)
    (h1 : n ≤ n') (h2 : mtow ≤ mtow') (h3 : wing ≤ wing') :
    alpha ≤ alpha' ∧ (n < n' ∨ mtow < mtow' ∨ wing < wing' → alpha < alpha') ∧
    (n = n' → mtow = mtow' → wing = wing' → alpha = alpha') := by
  obtain ⟨p, hp, hb⟩ := hc
  obtain ⟨p', hp', hb'⟩ := hc'
  obtain ⟨p'', hp'', hr, ha, hv, -⟩ := DragPolar.C91_point h Ma inc hh hM hi
  rw [hp] at hp' hp''
  obtain rfl := Option.some.inj hp'
  obtain rfl := Option.some.inj hp''
  rw [DragPolar.balance_zero] at hb hb'
  have hv0 : 0 < p.v := by
    have : p.v = Ma * p.a := by rw [← hv]; field_simp
    rw [this]; positivity
  have hq : 0 < 0.5 * p.rho * p.v ^ 2 * S := by positivity
  simp only [liftAt, Aero.lift, Atmos.dynPressure] at hb hb'
  have lt_iff : requiredLift n mtow wing < requiredLift n' mtow' wing' → alpha < alpha' := by
    intro hl
    rw [hb, hb'] at hl
    exact hcl.lt_iff_lt.1 (lt_of_mul_lt_mul_left hl hq.le)
  have le_iff : requiredLift n mtow wing ≤ requiredLift n' mtow' wing' → alpha ≤ alpha' := by
    intro hl
    rw [hb, hb'] at hl
    exact hcl.le_iff_le.1 (le_of_mul_le_mul_left hl hq)
  have hw : 0 < mtow - raymer / 2.20462 + wing := by linarith
  refine ⟨le_iff ?_, fun hs => lt_iff ?_, fun e1 e2 e3 => ?_⟩
  · unfold requiredLift
    have hn' : 0 ≤ n' := by linarith
    gcongr
  · unfold requiredLift
    rcases hs with hs | hs
    · have : n * (mtow - raymer / 2.20462 + wing) < n' * (mtow' - raymer / 2.20462 + wing') := by
        apply mul_lt_mul hs (by linarith) hw (by linarith)
      linarith
    · have hw' : mtow - raymer / 2.20462 + wing < mtow' - raymer / 2.20462 + wing' := by
        rcases hs with hs | hs <;> linarith
      have : n * (mtow - raymer / 2.20462 + wing) < n' * (mtow' - raymer / 2.20462 + wing') :=
        mul_lt_mul' h1 hw' hw.le (by linarith)
      linarith
  · subst e1 e2 e3
    rw [hb] at hb'
    exact hcl.injective (mul_left_cancel₀ hq.ne' hb')

/-- a linear lift curve: the manoeuvre point at sea level exists -/
example : ∃ alpha, Maneuver (fun a => 0.1 * a) 0 0.5 0 124 2.5 79000 9000 alpha := by
  obtain ⟨p, hp, hr, ha, hv, -⟩ := DragPolar.C91_point 0 0.5 0 (by norm_num) (by norm_num) (by norm_num)
  have hv0 : p.v ≠ 0 := by
    intro h0
    rw [h0, zero_div] at hv; norm_num at hv
  refine ⟨requiredLift 2.5 79000 9000 / (0.5 * p.rho * p.v ^ 2 * 124 * 0.1), p, hp, ?_⟩
  rw [DragPolar.balance_zero]
  simp only [liftAt, Aero.lift, Atmos.dynPressure]
  field_simp

end Verif.WingSizing
