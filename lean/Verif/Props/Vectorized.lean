import Mathlib.Analysis.Calculus.Deriv.Inv
import Mathlib.Data.Fin.VecNotation
import Mathlib.LinearAlgebra.Matrix.Notation
import Mathlib.Tactic.FinCases
import Verif.Model.Vectorized
import Verif.Proof.HDeriv

/-! C106: vectorised components evaluate their nodes independently, and the declared sparse Jacobian is the whole
derivative of the vector valued output. -/

namespace Verif.Vectorized

variable {I : Type}

/-- the pattern declared for an input fits its shape -/
def Fits (o : Output I) : Prop := ∀ i, (o.kind i = .vec → o.cols i = .arange) ∧ (o.kind i = .scal → o.cols i = .zeros)

/-- the stored partials are the directional derivatives of the node formula at the node values `v` -/
def ExactAt [Fintype I] (o : Output I) (v : I → ℝ) : Prop :=
  ∀ d : I → ℝ, HasDerivAt (fun s : ℝ => o.f fun i => v i + s * d i) (∑ i, o.df i v * d i) 0

/-- an entry of the declared Jacobian -/
theorem jac_apply (o : Output I) (nn : ℕ) (x : I → ℕ → ℝ) (i : I) (a : Fin nn) (c : Fin ((o.kind i).size nn)) :
    o.jac nn x i a c = if (o.cols i).get a = c then o.df i (o.at x a) else 0 := by
  simp only [Output.jac, assemble, Matrix.of_apply]
  rw [Finset.sum_eq_single a]
  · simp
  · intro b _ hb
    rw [if_neg]
    intro h
    exact hb (Fin.ext h.1)
  · simp

/-- C106.  Nodes are independent: the output at node `a` only reads entry `a` of the vector inputs and the scalars. -/
theorem C106_nodes (o : Output I) (x y : I → ℕ → ℝ) (a : ℕ)
    (h : ∀ i, (o.kind i = .vec → x i a = y i a) ∧ (o.kind i = .scal → x i 0 = y i 0)) :
    o.compute x a = o.compute y a := by
  unfold Output.compute
  congr 1
  funext i
  unfold Output.at
  cases hk : o.kind i
  · simpa [hk] using (h i).1 hk
  · simpa [hk] using (h i).2 hk

/-- the product of the declared Jacobian with a direction, at node `a` -/
theorem jac_mulVec (o : Output I) (hf : Fits o) (nn : ℕ) (x d : I → ℕ → ℝ) (i : I) (a : Fin nn) :
    ∑ c, o.jac nn x i a c * d i c = o.df i (o.at x a) * o.at d a i := by
  simp only [jac_apply]
  cases hk : o.kind i with
  | vec =>
    have hc := (hf i).1 hk
    have e : o.at d a i = d i a := by simp [Output.at, hk]
    rw [hc, e]
    rw [Finset.sum_eq_single (show Fin (Kind.vec.size nn) from a)]
    · simp [Cols.get]
    · intro b _ hb
      rw [if_neg, zero_mul]
      intro h
      exact hb (Fin.ext h.symm)
    · exact fun h => absurd (Finset.mem_univ _) h
  | scal =>
    have hc := (hf i).2 hk
    have e : o.at d a i = d i 0 := by simp [Output.at, hk]
    rw [hc, e]
    rw [Finset.sum_eq_single (show Fin (Kind.scal.size nn) from (0 : Fin 1))]
    · simp [Cols.get]
    · intro b _ hb
      exact absurd (Subsingleton.elim (α := Fin 1) b 0) hb
    · exact fun h => absurd (Finset.mem_univ _) h

/-- C106.  For every number of nodes, every input and every direction in the space of all inputs, the declared sparse
Jacobians applied to the direction give the derivative of the output vector: no dependence is missing from the sparsity
pattern, none is misplaced. -/
theorem C106_jacobian [Fintype I] (o : Output I) (hf : Fits o) (nn : ℕ) (x d : I → ℕ → ℝ) (a : Fin nn)
    (he : ExactAt o (o.at x a)) :
    HasDerivAt (fun s : ℝ => o.compute (fun i k => x i k + s * d i k) a)
      (∑ i, ∑ c, o.jac nn x i a c * d i c) 0 := by
  have h := he (o.at d a)
  simp only [jac_mulVec o hf]
  refine h.congr_of_eventuallyEq (Filter.Eventually.of_forall fun s => ?_)
  unfold Output.compute
  simp only
  congr 1
  funext i
  unfold Output.at
  cases o.kind i <;> rfl

/-- C106.  Entry by entry: entry `(a, c)` of the declared Jacobian is the derivative of the output at node `a` with
respect to entry `c` of the input, in particular zero if the input is a vector and `c ≠ a`. -/
theorem C106_entry [Fintype I] [DecidableEq I] (o : Output I) (hf : Fits o) (nn : ℕ) (x : I → ℕ → ℝ) (a : Fin nn)
    (he : ExactAt o (o.at x a)) (i : I) (c : Fin ((o.kind i).size nn)) :
    HasDerivAt (fun y : ℝ => o.compute (Function.update x i (Function.update (x i) c y)) a) (o.jac nn x i a c) (x i c) ∧
    (o.kind i = .vec → (c : ℕ) ≠ a → o.jac nn x i a c = 0) := by
  constructor
  · have h := C106_jacobian o hf nn x (Function.update 0 i (Function.update 0 (c : ℕ) 1)) a he
    have e : (∑ j, ∑ k, o.jac nn x j a k *
        (Function.update (0 : I → ℕ → ℝ) i (Function.update 0 (c : ℕ) 1)) j k) = o.jac nn x i a c := by
      rw [Finset.sum_eq_single i]
      · rw [Finset.sum_eq_single c]
        · simp
        · intro b _ hb
          have : (b : ℕ) ≠ c := fun h => hb (Fin.ext h)
          simp [this]
        · simp
      · intro b _ hb
        simp [Function.update_of_ne hb]
      · simp
    rw [e] at h
    have h0 : HasDerivAt (fun y : ℝ => y - x i c) 1 (x i c) := (hasDerivAt_id' _).sub_const _
    have h1 : HasDerivAt (fun s : ℝ => o.compute (fun j k => x j k + s *
        (Function.update (0 : I → ℕ → ℝ) i (Function.update 0 (c : ℕ) 1)) j k) a) (o.jac nn x i a c)
        ((fun y : ℝ => y - x i c) (x i c)) := by simpa using h
    have h2 := HasDerivAt.comp (h := fun y : ℝ => y - x i c) (x i c) h1 h0
    rw [mul_one] at h2
    refine h2.congr_of_eventuallyEq (Filter.Eventually.of_forall fun y => ?_)
    simp only [Function.comp]
    congr 1
    funext j k
    by_cases hj : j = i
    · subst hj
      by_cases hk : k = c
      · subst hk; simp
      · simp [hk]
    · simp [Function.update_of_ne hj]
  · intro hk hc
    rw [jac_apply, if_neg]
    rw [(hf i).1 hk]
    exact fun h => hc h.symm

/-- C106.  The pattern matters: with at least two nodes, declaring `zeros` for a vector input or `arange` for a scalar one
gives a wrong Jacobian wherever the partial is not zero. -/
theorem C106_misfit [Fintype I] [DecidableEq I] (o : Output I) (nn : ℕ) (x : I → ℕ → ℝ) (hn : 1 < nn) (i : I)
    (he : ExactAt o (o.at x 1)) (hne : o.df i (o.at x 1) ≠ 0)
    (hbad : (o.kind i = .vec ∧ o.cols i = .zeros) ∨ (o.kind i = .scal ∧ o.cols i = .arange)) :
    ∃ (c : Fin ((o.kind i).size nn)) (D : ℝ),
      HasDerivAt (fun y : ℝ => o.compute (Function.update x i (Function.update (x i) c y)) 1) D (x i c) ∧
      o.jac nn x i ⟨1, hn⟩ c ≠ D := by
  -- the same output with the fitting patterns
  let p : Output I := { o with cols := fun j => match o.kind j with | .vec => .arange | .scal => .zeros }
  have hp : Fits p := by
    intro j
    refine ⟨fun h => ?_, fun h => ?_⟩ <;>
    · have h' : o.kind j = _ := h
      simp [p, h']
  have hpe : ExactAt p (p.at x ((⟨1, hn⟩ : Fin nn) : ℕ)) := he
  rcases hbad with ⟨hk, hc⟩ | ⟨hk, hc⟩
  · have hs : (o.kind i).size nn = nn := by rw [hk]; rfl
    let c : Fin ((o.kind i).size nn) := Fin.cast hs.symm ⟨0, by omega⟩
    have hE := C106_entry p hp nn x ⟨1, hn⟩ hpe i c
    refine ⟨c, _, hE.1, ?_⟩
    rw [hE.2 hk (by simp [c]), jac_apply, if_pos (by rw [hc]; simp [c, Cols.get])]
    exact hne
  · have hs : (o.kind i).size nn = 1 := by rw [hk]; rfl
    let c : Fin ((o.kind i).size nn) := Fin.cast hs.symm 0
    have hE := (C106_entry p hp nn x ⟨1, hn⟩ hpe i c).1
    refine ⟨c, _, hE, ?_⟩
    have e1 : o.jac nn x i ⟨1, hn⟩ c = 0 := by
      rw [jac_apply, if_neg]
      rw [hc]; simp [c, Cols.get]
    have e2 : p.jac nn x i ⟨1, hn⟩ c = o.df i (o.at x 1) := by
      rw [jac_apply, if_pos]
      · rfl
      · have hk' : p.kind i = .scal := hk
        rw [(hp i).2 hk']; simp [c, Cols.get]
    rw [e1, e2]
    exact hne.symm

/-! ### the modelled components -/

instance : Fintype LiftVar := ⟨{.CL, .q, .S}, fun x => by cases x <;> decide⟩

theorem sum_LiftVar (g : LiftVar → ℝ) : ∑ i, g i = g .CL + g .q + g .S := by
  rw [show (Finset.univ : Finset LiftVar) = {.CL, .q, .S} from rfl]
  repeat rw [Finset.sum_insert (by decide)]
  rw [Finset.sum_singleton]
  try ring

instance : Fintype PolarVar := ⟨{.CL, .q, .S, .CD0, .e, .AR}, fun x => by cases x <;> decide⟩

theorem sum_PolarVar (g : PolarVar → ℝ) : ∑ i, g i = g .CL + g .q + g .S + g .CD0 + g .e + g .AR := by
  rw [show (Finset.univ : Finset PolarVar) = {.CL, .q, .S, .CD0, .e, .AR} from rfl]
  repeat rw [Finset.sum_insert (by decide)]
  rw [Finset.sum_singleton]
  try ring

instance : Fintype SelVar := ⟨{.TinCold, .TinHot, .refCold, .refHot, .rating, .bypass}, fun x => by cases x <;> decide⟩

theorem sum_SelVar (g : SelVar → ℝ) : ∑ i, g i = g .TinCold + g .TinHot + g .refCold + g .refHot + g .rating + g .bypass := by
  rw [show (Finset.univ : Finset SelVar) = {.TinCold, .TinHot, .refCold, .refHot, .rating, .bypass} from rfl]
  repeat rw [Finset.sum_insert (by decide)]
  rw [Finset.sum_singleton]
  try ring

instance : Fintype PumpVar := ⟨{.COP, .rating}, fun x => by cases x <;> decide⟩

theorem sum_PumpVar (g : PumpVar → ℝ) : ∑ i, g i = g .COP + g .rating := by
  rw [show (Finset.univ : Finset PumpVar) = {.COP, .rating} from rfl]
  repeat rw [Finset.sum_insert (by decide)]
  rw [Finset.sum_singleton]
  try ring

instance : Fintype HeatVar := ⟨{.eff, .max}, fun x => by cases x <;> decide⟩

theorem sum_HeatVar (g : HeatVar → ℝ) : ∑ i, g i = g .eff + g .max := by
  rw [show (Finset.univ : Finset HeatVar) = {.eff, .max} from rfl]
  repeat rw [Finset.sum_insert (by decide)]
  rw [Finset.sum_singleton]
  try ring

instance : Fintype OutVar := ⟨{.heat, .mdotC, .TinC, .cpC, .mdotH, .TinH, .cpH}, fun x => by cases x <;> decide⟩

theorem sum_OutVar (g : OutVar → ℝ) : ∑ i, g i = g .heat + g .mdotC + g .TinC + g .cpC + g .mdotH + g .TinH + g .cpH := by
  rw [show (Finset.univ : Finset OutVar) = {.heat, .mdotC, .TinC, .cpC, .mdotH, .TinH, .cpH} from rfl]
  repeat rw [Finset.sum_insert (by decide)]
  rw [Finset.sum_singleton]
  try ring

instance : Fintype CombVar := ⟨{.mA, .mB, .TA, .TB}, fun x => by cases x <;> decide⟩

theorem sum_CombVar (g : CombVar → ℝ) : ∑ i, g i = g .mA + g .mB + g .TA + g .TB := by
  rw [show (Finset.univ : Finset CombVar) = {.mA, .mB, .TA, .TB} from rfl]
  repeat rw [Finset.sum_insert (by decide)]
  rw [Finset.sum_singleton]
  try ring

/-- C106 for `Lift`. -/
theorem C106_lift : Fits liftOut ∧ ∀ v, ExactAt liftOut v := by
  refine ⟨fun i => by cases i <;> simp [liftOut], fun v d => ?_⟩
  rw [sum_LiftVar]
  simp only [liftOut, Aero.lift]
  hderiv; simp; ring

/-- C106 for `PolarDrag`, with a scalar or a vector `CD0`. -/
theorem C106_polar (b : Bool) : Fits (polarOut b) ∧ ∀ v, v .e ≠ 0 → v .AR ≠ 0 → ExactAt (polarOut b) v := by
  refine ⟨fun i => by cases i <;> cases b <;> simp [polarOut], fun v he hA d => ?_⟩
  have hpi := Real.pi_ne_zero
  rw [sum_PolarVar]
  simp only [polarOut, polarIn, Aero.drag, Aero.dragDq, Aero.dragDCL, Aero.dragDCD0, Aero.dragDe, Aero.dragDS, Aero.dragDAR]
  hderiv
  all_goals simp [he, hA]
  all_goals field_simp
  all_goals ring

/-- C106 for the three outputs of `LinearSelector`. -/
theorem C106_selector :
    (Fits selColdOut ∧ ∀ v, ExactAt selColdOut v) ∧ (Fits selHotOut ∧ ∀ v, ExactAt selHotOut v) ∧
    (Fits selLoadOut ∧ ∀ v, ExactAt selLoadOut v) := by
  refine ⟨⟨fun i => by cases i <;> simp [selColdOut, selKind, selCols], fun v d => ?_⟩,
    ⟨fun i => by cases i <;> simp [selHotOut, selKind, selCols], fun v d => ?_⟩,
    ⟨fun i => by cases i <;> simp [selLoadOut, selKind, selCols], fun v d => ?_⟩⟩
  all_goals rw [sum_SelVar]
  all_goals simp only [selColdOut, selHotOut, selLoadOut, selIn, Thermal.selCold, Thermal.selHot, Thermal.selLoad]
  all_goals hderiv
  all_goals simp
  all_goals ring

/-- C106 for the two outputs of `COPHeatPump`. -/
theorem C106_pump :
    (Fits pumpQ1Out ∧ ∀ v, ExactAt pumpQ1Out v) ∧ (Fits pumpQ2Out ∧ ∀ v, ExactAt pumpQ2Out v) := by
  refine ⟨⟨fun i => by cases i <;> simp [pumpQ1Out], fun v d => ?_⟩,
    ⟨fun i => by cases i <;> simp [pumpQ2Out], fun v d => ?_⟩⟩
  all_goals rw [sum_PumpVar]
  all_goals simp only [pumpQ1Out, pumpQ2Out, Thermal.pumpQ1, Thermal.pumpQ2]
  all_goals hderiv
  all_goals simp
  all_goals ring

/-- C106 for `NTUEffectivenessActualHeatTransfer`. -/
theorem C106_heat : Fits heatOut ∧ ∀ v, ExactAt heatOut v := by
  refine ⟨fun i => by cases i <;> simp [heatOut], fun v d => ?_⟩
  rw [sum_HeatVar]
  simp only [heatOut, HX.heatTransfer]
  hderiv; simp; ring

/-- C106 for the two outputs of `OutletTemperatures`. -/
theorem C106_outlet :
    (Fits outColdOut ∧ ∀ v, v .mdotC ≠ 0 → v .cpC ≠ 0 → ExactAt outColdOut v) ∧
    (Fits outHotOut ∧ ∀ v, v .mdotH ≠ 0 → v .cpH ≠ 0 → ExactAt outHotOut v) := by
  refine ⟨⟨fun i => by cases i <;> simp [outColdOut, outKind, outCols], fun v h1 h2 d => ?_⟩,
    ⟨fun i => by cases i <;> simp [outHotOut, outKind, outCols], fun v h1 h2 d => ?_⟩⟩
  all_goals rw [sum_OutVar]
  all_goals simp only [outColdOut, outHotOut, HX.toutCold, HX.toutHot, HX.toutColdD, HX.toutHotD]
  all_goals hderiv
  all_goals simp [h1, h2]
  all_goals field_simp
  all_goals ring

/-- C106 for the two outputs of `FlowCombine`. -/
theorem C106_combine :
    (Fits combOut ∧ ∀ v, v .mA + v .mB ≠ 0 → ExactAt combOut v) ∧ (Fits combMdotOut ∧ ∀ v, ExactAt combMdotOut v) := by
  refine ⟨⟨fun i => by cases i <;> simp [combOut], fun v h d => ?_⟩,
    ⟨fun i => by cases i <;> simp [combMdotOut], fun v d => ?_⟩⟩
  all_goals rw [sum_CombVar]
  all_goals simp only [combOut, combMdotOut, Thermal.combineT, Thermal.combineTDmA, Thermal.combineTDmB,
    Thermal.combineTDTA, Thermal.combineTDTB, Thermal.combineMdot]
  · hderiv
    all_goals simp [h]
    all_goals field_simp
    all_goals ring
  · hderiv; simp

/-- Two nodes: with `q = (100, 200)`, `CL = (0.5, 0.4)` and `S = 10` the declared Jacobian of the lift with respect to `q`
is `diag(5, 4)`, with respect to `S` the column `(50, 80)`. -/
example : let x : LiftVar → ℕ → ℝ := fun
      | .CL, k => if k = 0 then 0.5 else 0.4
      | .q, k => if k = 0 then 100 else 200
      | .S, _ => 10
    liftOut.jac 2 x .q = !![5, 0; 0, 4] ∧ liftOut.jac 2 x .S = !![50; 80] := by
  intro x
  constructor
  · ext a c
    have h := jac_apply liftOut 2 x .q a c
    refine h.trans ?_
    fin_cases a <;> fin_cases c <;> simp [liftOut, Cols.get, Output.at, x] <;> norm_num <;> rfl
  · ext a c
    have h := jac_apply liftOut 2 x .S a c
    refine h.trans ?_
    fin_cases a <;> fin_cases c <;> simp [liftOut, Cols.get, Output.at, x] <;> norm_num <;> rfl

/-- The whole chain for a chiller selector at three nodes: a change of all inputs at once. -/
example (x d : SelVar → ℕ → ℝ) (a : Fin 3) :
    HasDerivAt (fun s : ℝ => selColdOut.compute (fun i k => x i k + s * d i k) a)
      (∑ i, ∑ c, selColdOut.jac 3 x i a c * d i c) 0 :=
  C106_jacobian selColdOut C106_selector.1.1 3 x d a (C106_selector.1.2 _)

end Verif.Vectorized
