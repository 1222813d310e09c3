import Verif.Model.Phases
import Verif.Proof.HDeriv
import Verif.Proof.Integrals
import Verif.Props.IntegralsPartials
import Mathlib.Analysis.SpecialFunctions.Trigonometric.InverseDeriv
import Mathlib.Topology.Algebra.GroupWithZero
import Mathlib.Tactic.FunProp

/-! Properties C25-C30, C76 (components of the flight phases). -/

namespace Verif.Phases

open Filter Topology

theorem grav_pos : 0 < grav := by norm_num [grav]
theorem grav_ne : grav ≠ 0 := grav_pos.ne'

/-! ### C76: climb angle -/

/-- C76.  The climb angle lies in [-π/2, π/2] and balances the forces: excess thrust = weight · sin γ. -/
theorem C76_balance (i : ClimbIn) (γ : ℝ) (hw : i.weight ≠ 0) (h : climbAngle i = some γ) :
    i.thrust - i.drag = i.weight * grav * Real.sin γ ∧ γ ∈ Set.Icc (-(Real.pi / 2)) (Real.pi / 2) := by
  unfold climbAngle at h
  split_ifs at h with hc
  simp only [Option.some.injEq] at h
  subst h
  refine ⟨?_, Real.arcsin_mem_Icc _⟩
  rw [Real.sin_arcsin hc.1 hc.2, ClimbIn.inner]
  field_simp [grav_ne]

/-- C76.  No steady climb angle is produced (NaN) exactly when the excess thrust exceeds the weight. -/
theorem C76_nan_iff (i : ClimbIn) (hw : 0 < i.weight) :
    climbAngle i = none ↔ i.weight * grav < |i.thrust - i.drag| := by
  have hg := grav_pos
  have hwg : 0 < i.weight * grav := mul_pos hw hg
  have e : i.inner = (i.thrust - i.drag) / (i.weight * grav) := by rw [ClimbIn.inner, div_div]
  have h : (-1 ≤ i.inner ∧ i.inner ≤ 1) ↔ |i.thrust - i.drag| ≤ i.weight * grav := by
    rw [e, le_div_iff₀ hwg, div_le_iff₀ hwg, abs_le]
    constructor <;> rintro ⟨h1, h2⟩ <;> constructor <;> linarith
  unfold climbAngle
  rw [← not_le, ← h]
  split_ifs with hc <;> simp [hc]

theorem climb_aux (f : ℝ → ClimbIn) (x d : ℝ) (h1 : -1 < (f x).inner) (h2 : (f x).inner < 1)
    (hf : HasDerivAt (fun t => (f t).inner) d x) :
    HasDerivAt (fun t => (climbAngle (f t)).getD 0) ((f x).dArcsin * d) x := by
  have hc := hf.continuousAt
  have ev : ∀ᶠ t in 𝓝 x, (climbAngle (f t)).getD 0 = Real.arcsin (f t).inner := by
    filter_upwards [ev_le continuousAt_const hc h1, ev_le hc continuousAt_const h2] with t ht1 ht2
    rw [climbAngle, if_pos ⟨ht1, ht2⟩, Option.getD_some]
  have := (Real.hasDerivAt_arcsin h1.ne' h2.ne).comp x hf
  exact this.congr_of_eventuallyEq ev

/-- C76.  The declared partials are the derivatives wherever the excess thrust is below the weight. -/
theorem C76_partials (i : ClimbIn) (hw : i.weight ≠ 0) (h1 : -1 < i.inner) (h2 : i.inner < 1) :
    HasDerivAt (fun x => (climbAngle { i with thrust := x }).getD 0) (climbDThrust i) i.thrust ∧
    HasDerivAt (fun x => (climbAngle { i with drag := x }).getD 0) (climbDDrag i) i.drag ∧
    HasDerivAt (fun x => (climbAngle { i with weight := x }).getD 0) (climbDWeight i) i.weight := by
  have hg := grav_ne
  refine ⟨?_, ?_, ?_⟩
  · refine hd_congr (climb_aux (fun x => { i with thrust := x }) i.thrust (1 / i.weight / grav) h1 h2 ?_) ?_
    · unfold ClimbIn.inner; hderiv
    · simp only [climbDThrust]; ring
  · refine hd_congr (climb_aux (fun x => { i with drag := x }) i.drag (-1 / i.weight / grav) h1 h2 ?_) ?_
    · unfold ClimbIn.inner; hderiv
    · simp only [climbDDrag]; ring
  · refine hd_congr (climb_aux (fun x => { i with weight := x }) i.weight
      (-(i.thrust - i.drag) / i.weight ^ 2 / grav) h1 h2 ?_) ?_
    · unfold ClimbIn.inner; hderiv
      simp
    · simp only [climbDWeight]; ring

example : climbAngle ⟨3, 1, 3⟩ = some 0 := by simp [climbAngle, ClimbIn.inner]
example : climbAngle ⟨0, 1, 10⟩ = none := by
  rw [C76_nan_iff _ (by norm_num)]; norm_num [grav]

/-! ### C30: FlipVectorComp -/

/-- C30.  Node `i` of the output is node `n - 1 - i` of the input (negated on request). -/
theorem C30_value {n : ℕ} (negative : Bool) (v : Fin n → ℝ) (i j : Fin n) (h : (i : ℕ) + j = n - 1) :
    flip negative v i = (if negative then -1 else 1) * v j := by
  have : i.rev = j := by ext; rw [Fin.val_rev]; omega
  rw [flip, this, flipScaler]

/-- C30.  Flipping twice with the same sign option is the identity. -/
theorem C30_involution {n : ℕ} (negative : Bool) (v : Fin n → ℝ) : flip negative (flip negative v) = v := by
  funext i
  cases negative <;> simp [flip, flipScaler]

/-- C30.  The declared Jacobian applied to the input is the output. -/
theorem C30_jacobian {n : ℕ} (negative : Bool) (v : Fin n → ℝ) (i : Fin n) :
    flip negative v i = ∑ j : Fin n, cooEntry (flipCoo negative n) i j * v j := by
  have key : ∀ j : Fin n, cooEntry (flipCoo negative n) i j = if j = i.rev then flipScaler negative else 0 := by
    intro j
    have aux : ∀ m, m ≤ n → ((List.range m).map fun k =>
        if n - 1 - k = (i : ℕ) ∧ k = (j : ℕ) then flipScaler negative else 0).sum =
        if j = i.rev ∧ (j : ℕ) < m then flipScaler negative else 0 := by
      intro m hm
      induction m with
      | zero => simp
      | succ m ih =>
        rw [List.range_succ, List.map_append, List.sum_append, ih (by omega)]
        simp only [List.map_cons, List.map_nil, List.sum_cons, List.sum_nil, add_zero]
        have hj : j = i.rev ↔ (j : ℕ) = n - (i + 1) := by rw [Fin.ext_iff, Fin.val_rev]
        have hi := i.2
        have hjj := j.2
        by_cases h1 : j = i.rev <;> by_cases h2 : (j : ℕ) = m
        · rw [if_neg (by omega), if_pos (by rw [hj] at h1; omega), if_pos ⟨h1, by omega⟩, zero_add]
        · rw [if_neg (show ¬(n - 1 - m = (i : ℕ) ∧ m = (j : ℕ)) by omega), add_zero]
          congr 1
          simp only [h1, true_and, eq_iff_iff]; omega
        · rw [if_neg (fun h => h1 h.1), if_neg (show ¬(n - 1 - m = (i : ℕ) ∧ m = (j : ℕ)) by rw [hj] at h1; omega),
            if_neg (fun h => h1 h.1), add_zero]
        · rw [if_neg (fun h => h1 h.1), if_neg (show ¬(n - 1 - m = (i : ℕ) ∧ m = (j : ℕ)) by omega),
            if_neg (fun h => h1 h.1), add_zero]
    have := aux n le_rfl
    unfold cooEntry flipCoo
    rw [List.map_map]
    have e : (fun e : ℕ × ℕ × ℝ => if e.1 = (i : ℕ) ∧ e.2.1 = (j : ℕ) then e.2.2 else 0) ∘
        (fun k => (n - 1 - k, k, flipScaler negative)) =
        fun k => if n - 1 - k = (i : ℕ) ∧ k = (j : ℕ) then flipScaler negative else 0 := rfl
    rw [e, this]
    simp
  simp only [key, ite_mul, zero_mul, Finset.sum_ite_eq', Finset.mem_univ, if_true, flip]

example : flip true ![1, 2, 3] = ![-3, -2, -1] := by
  funext i; fin_cases i <;> simp [flip, flipScaler, Fin.rev]

/-! ### C25: balanced field length -/

/-- C25.  The residual vanishes exactly when V1 = Vr and stopping takes no more runway than continuing,
or V1 is at least 0.1 m/s below Vr and both distances agree. -/
theorem C25_zero_iff (i : BflIn) :
    bflResidual i = 0 ↔
      (i.v1 = i.vr ∧ i.distAbort ≤ i.distContinue) ∨ (i.v1 + 0.1 ≤ i.vr ∧ i.distAbort = i.distContinue) := by
  unfold bflResidual BflIn.regular speedTol
  split_ifs with h1 h2
  · obtain ⟨a, b, c⟩ := h1
    constructor
    · intro h; exact absurd h (by intro h; linarith)
    · rintro (⟨h, h'⟩ | ⟨h, h'⟩) <;> linarith
  · constructor
    · intro h
      refine Or.inl ⟨by linarith, ?_⟩
      by_contra hc
      exact h1 ⟨by linarith, by norm_num; linarith, by linarith [not_le.1 hc]⟩
    · rintro (⟨h, h'⟩ | ⟨h, h'⟩)
      · linarith
      · norm_num at h h2; linarith
  · constructor
    · intro h; exact Or.inr ⟨by norm_num at h2 ⊢; linarith, by linarith⟩
    · rintro (⟨h, h'⟩ | ⟨h, h'⟩)
      · norm_num at h2; linarith
      · linarith

/-- C25.  The documentation's first alternative is not sufficient: equal distances with V1 in between are
not accepted. -/
theorem C25_equal_not_enough : ∃ i : BflIn, i.distAbort = i.distContinue ∧ i.v1 < i.vr ∧ bflResidual i ≠ 0 := by
  refine ⟨⟨1000, 1000, 50, 49.95⟩, rfl, by norm_num, ?_⟩
  rw [Ne, C25_zero_iff]
  norm_num

/-- the sets on which the residual is given by one formula, without their boundaries -/
def BflIn.interior (i : BflIn) : Prop :=
  i.vr ≠ i.v1 ∧ i.vr ≠ i.v1 + speedTol ∧ i.distAbort ≠ i.distContinue

theorem bfl_local (f : ℝ → BflIn) (x : ℝ) (h : (f x).interior)
    (c1 : ContinuousAt (fun t => (f t).vr) x) (c2 : ContinuousAt (fun t => (f t).v1) x)
    (c3 : ContinuousAt (fun t => (f t).distAbort) x) (c4 : ContinuousAt (fun t => (f t).distContinue) x) :
    (bflLinearize (f x) = ⟨1, -1, 0, 0⟩ ∧ ∀ᶠ t in 𝓝 x, bflResidual (f t) = (f t).distContinue - (f t).distAbort) ∨
    (bflLinearize (f x) = ⟨0, 0, 1, -1⟩ ∧ ∀ᶠ t in 𝓝 x, bflResidual (f t) = (f t).vr - (f t).v1) := by
  obtain ⟨n1, n2, n3⟩ := h
  have c2' : ContinuousAt (fun t => (f t).v1 + speedTol) x := c2.add continuousAt_const
  rcases lt_or_gt_of_ne n2 with h2 | h2
  · by_cases hr : (f x).regular
    · left
      obtain ⟨a, b, c⟩ := hr
      refine ⟨by rw [bflLinearize, if_pos ⟨a, b, c⟩], ?_⟩
      have a' := lt_of_le_of_ne a (Ne.symm n1)
      filter_upwards [ev_lt c2 c1 a', ev_lt c1 c2' h2, ev_lt c4 c3 (by linarith)] with t t1 t2 t3
      rw [bflResidual, if_pos ⟨t1.le, by linarith, by linarith⟩]
    · right
      refine ⟨by rw [bflLinearize, if_neg hr, if_pos h2], ?_⟩
      have alt : (f x).vr < (f x).v1 ∨ (f x).distAbort < (f x).distContinue := by
        by_contra hc
        push Not at hc
        exact hr ⟨hc.1, by linarith, by
          have := lt_of_le_of_ne hc.2 (Ne.symm n3); linarith⟩
      rcases alt with ha | ha
      · filter_upwards [ev_lt c1 c2 ha, ev_lt c1 c2' h2] with t t1 t2
        rw [bflResidual, if_neg (fun h => by have := h.1; linarith), if_pos t2]
      · filter_upwards [ev_lt c3 c4 ha, ev_lt c1 c2' h2] with t t1 t2
        rw [bflResidual, if_neg (fun h => by have := h.2.2; linarith), if_pos t2]
  · left
    have hr : ¬(f x).regular := fun h => by have := h.2.1; linarith
    refine ⟨by rw [bflLinearize, if_neg hr, if_neg (by linarith)], ?_⟩
    filter_upwards [ev_lt c2' c1 h2] with t t1
    rw [bflResidual, if_neg (fun h => by have := h.2.1; linarith), if_neg (by linarith)]

/-- C25.  Off the switching surfaces `linearize` returns the derivatives of the residual. -/
theorem C25_partials (i : BflIn) (h : i.interior) :
    HasDerivAt (fun x => bflResidual { i with distContinue := x }) (bflLinearize i).dContinue i.distContinue ∧
    HasDerivAt (fun x => bflResidual { i with distAbort := x }) (bflLinearize i).dAbort i.distAbort ∧
    HasDerivAt (fun x => bflResidual { i with vr := x }) (bflLinearize i).dVr i.vr ∧
    HasDerivAt (fun x => bflResidual { i with v1 := x }) (bflLinearize i).dV1 i.v1 := by
  refine ⟨?_, ?_, ?_, ?_⟩
  · rcases bfl_local (fun x => { i with distContinue := x }) i.distContinue h (by fun_prop) (by fun_prop)
      (by fun_prop) (by fun_prop) with ⟨e, ev⟩ | ⟨e, ev⟩
    · rw [show bflLinearize i = _ from e]; refine HasDerivAt.congr_of_eventuallyEq ?_ ev; hderiv!
    · rw [show bflLinearize i = _ from e]; refine HasDerivAt.congr_of_eventuallyEq ?_ ev; hderiv!
  · rcases bfl_local (fun x => { i with distAbort := x }) i.distAbort h (by fun_prop) (by fun_prop)
      (by fun_prop) (by fun_prop) with ⟨e, ev⟩ | ⟨e, ev⟩
    · rw [show bflLinearize i = _ from e]; refine HasDerivAt.congr_of_eventuallyEq ?_ ev; hderiv!
    · rw [show bflLinearize i = _ from e]; refine HasDerivAt.congr_of_eventuallyEq ?_ ev; hderiv!
  · rcases bfl_local (fun x => { i with vr := x }) i.vr h (by fun_prop) (by fun_prop)
      (by fun_prop) (by fun_prop) with ⟨e, ev⟩ | ⟨e, ev⟩
    · rw [show bflLinearize i = _ from e]; refine HasDerivAt.congr_of_eventuallyEq ?_ ev; hderiv!
    · rw [show bflLinearize i = _ from e]; refine HasDerivAt.congr_of_eventuallyEq ?_ ev; hderiv!
  · rcases bfl_local (fun x => { i with v1 := x }) i.v1 h (by fun_prop) (by fun_prop)
      (by fun_prop) (by fun_prop) with ⟨e, ev⟩ | ⟨e, ev⟩
    · rw [show bflLinearize i = _ from e]; refine HasDerivAt.congr_of_eventuallyEq ?_ ev; hderiv!
    · rw [show bflLinearize i = _ from e]; refine HasDerivAt.congr_of_eventuallyEq ?_ ev; hderiv!

example : bflResidual ⟨1200, 1100, 50, 50⟩ = 0 := by rw [C25_zero_iff]; norm_num
example : bflResidual ⟨1200, 1300, 50, 50⟩ ≠ 0 := by rw [Ne, C25_zero_iff]; norm_num
example : bflResidual ⟨1200, 1200, 50, 45⟩ = 0 := by rw [C25_zero_iff]; norm_num

/-! ### C26: ground speed -/

/-- C26.  When the vertical speed does not exceed the airspeed in magnitude, ground speed, vertical speed and
airspeed form a right triangle whose angle is the flight path angle. -/
theorem C26_triangle (i : GsIn) (hu : 0 < i.utrue) (h : |i.vs| ≤ i.utrue) :
    groundspeed i ^ 2 + i.vs ^ 2 = i.utrue ^ 2 ∧ 0 ≤ groundspeed i ∧
    singamma i * i.utrue = i.vs ∧ cosgamma i * i.utrue = groundspeed i ∧
    singamma i ^ 2 + cosgamma i ^ 2 = 1 := by
  have hin : ¬ i.inside < 0 := by
    rw [not_lt, GsIn.inside, sub_nonneg]; exact sq_le_sq' (by linarith [(abs_le.1 h).1]) (abs_le.1 h).2
  have hgs : groundspeed i ^ 2 = i.inside := by
    rw [groundspeed, if_neg hin, Real.sq_sqrt (not_lt.1 hin)]
  have h1 : groundspeed i ^ 2 + i.vs ^ 2 = i.utrue ^ 2 := by rw [hgs, GsIn.inside]; ring
  refine ⟨h1, Real.sqrt_nonneg _, ?_, ?_, ?_⟩
  · rw [singamma, if_neg hin]; field_simp
  · rw [cosgamma]; field_simp
  · rw [singamma, if_neg hin, cosgamma]
    field_simp
    linarith

/-- C26.  Otherwise the fallback values are used: 0.1 m/s ground speed, vertical path. -/
theorem C26_fallback (i : GsIn) (hu : 0 < i.utrue) (h : i.utrue < |i.vs|) :
    groundspeed i = 0.1 ∧ singamma i = 1 ∧ cosgamma i = 0.1 / i.utrue ∧
    groundspeed i ^ 2 + i.vs ^ 2 ≠ i.utrue ^ 2 ∧ 1 < singamma i ^ 2 + cosgamma i ^ 2 := by
  have hin : i.inside < 0 := by
    rw [GsIn.inside, sub_neg, ← sq_abs i.vs]; exact pow_lt_pow_left₀ h hu.le two_ne_zero
  have hgs : groundspeed i = 0.1 := by
    rw [groundspeed, if_pos hin, show (0.01 : ℝ) = 0.1 ^ 2 by norm_num, Real.sqrt_sq (by norm_num)]
  have hs : singamma i = 1 := by rw [singamma, if_pos hin]
  refine ⟨hgs, hs, by rw [cosgamma, hgs], ?_, ?_⟩
  · unfold GsIn.inside at hin
    rw [hgs]; norm_num; nlinarith
  · rw [hs, cosgamma, hgs]
    have : 0 < (0.1 / i.utrue) ^ 2 := by positivity
    linarith

/-- C26.  In the fallback the sign of the vertical speed is lost: a steep descent is reported as a climb. -/
theorem C26_fallback_sign : ∃ i : GsIn, 0 < i.utrue ∧ i.vs < 0 ∧ singamma i = 1 :=
  ⟨⟨-20, 10⟩, by norm_num, by norm_num, (C26_fallback ⟨-20, 10⟩ (by norm_num) (by norm_num)).2.1⟩

/-- C26.  The declared partials are the derivatives except where `|vs| = Utrue`. -/
theorem C26_partials (i : GsIn) (hu : i.utrue ≠ 0) (h : i.inside ≠ 0) :
    HasDerivAt (fun x => groundspeed { i with vs := x }) (gsDVs i) i.vs ∧
    HasDerivAt (fun x => groundspeed { i with utrue := x }) (gsDU i) i.utrue ∧
    HasDerivAt (fun x => singamma { i with vs := x }) (sgDVs i) i.vs ∧
    HasDerivAt (fun x => singamma { i with utrue := x }) (sgDU i) i.utrue ∧
    HasDerivAt (fun x => cosgamma { i with vs := x }) (cgDVs i) i.vs ∧
    HasDerivAt (fun x => cosgamma { i with utrue := x }) (cgDU i) i.utrue := by
  have cv : ContinuousAt (fun x => GsIn.inside { i with vs := x }) i.vs := by unfold GsIn.inside; fun_prop
  have cu : ContinuousAt (fun x => GsIn.inside { i with utrue := x }) i.utrue := by unfold GsIn.inside; fun_prop
  have key1 : HasDerivAt (fun x => groundspeed { i with vs := x }) (gsDVs i) i.vs := by
    rcases lt_or_gt_of_ne h with hn | hp
    · have : HasDerivAt (fun _ : ℝ => Real.sqrt 0.01) 0 i.vs := hasDerivAt_const _ _
      rw [gsDVs, if_pos hn]
      refine this.congr_of_eventuallyEq ?_
      filter_upwards [ev_lt cv continuousAt_const hn] with t ht
      rw [groundspeed, if_pos ht]
    · have : HasDerivAt (fun x => Real.sqrt (i.utrue ^ 2 - x ^ 2)) (gsDVs i) i.vs := by
        rw [gsDVs, if_neg (by linarith), groundspeed, if_neg (by linarith), GsIn.inside]
        hderiv
        simp; ring
      refine this.congr_of_eventuallyEq ?_
      filter_upwards [ev_lt continuousAt_const cv hp] with t ht
      rw [groundspeed, if_neg (by linarith)]; rfl
  have key2 : HasDerivAt (fun x => groundspeed { i with utrue := x }) (gsDU i) i.utrue := by
    rcases lt_or_gt_of_ne h with hn | hp
    · have : HasDerivAt (fun _ : ℝ => Real.sqrt 0.01) 0 i.utrue := hasDerivAt_const _ _
      rw [gsDU, if_pos hn]
      refine this.congr_of_eventuallyEq ?_
      filter_upwards [ev_lt cu continuousAt_const hn] with t ht
      rw [groundspeed, if_pos ht]
    · have : HasDerivAt (fun x => Real.sqrt (x ^ 2 - i.vs ^ 2)) (gsDU i) i.utrue := by
        rw [gsDU, if_neg (by linarith), groundspeed, if_neg (by linarith), GsIn.inside]
        hderiv
        simp; ring
      refine this.congr_of_eventuallyEq ?_
      filter_upwards [ev_lt continuousAt_const cu hp] with t ht
      rw [groundspeed, if_neg (by linarith)]; rfl
  refine ⟨key1, key2, ?_, ?_, ?_, ?_⟩
  · rcases lt_or_gt_of_ne h with hn | hp
    · rw [sgDVs, if_pos hn]
      exact hd_ite_pos (ev_lt cv continuousAt_const hn) (hasDerivAt_const _ _)
    · rw [sgDVs, if_neg (by linarith)]
      exact hd_ite_neg (ev_not_lt cv continuousAt_const hp) (by hderiv!)
  · rcases lt_or_gt_of_ne h with hn | hp
    · rw [sgDU, if_pos hn]
      exact hd_ite_pos (ev_lt cu continuousAt_const hn) (hasDerivAt_const _ _)
    · rw [sgDU, if_neg (by linarith)]
      exact hd_ite_neg (ev_not_lt cu continuousAt_const hp) (by hderiv!)
  · exact key1.div_const _
  · refine hd_congr (key2.div (hasDerivAt_id' _) hu) ?_
    simp only [cgDU]; ring

example : groundspeed ⟨3, 5⟩ = 4 ∧ cosgamma ⟨3, 5⟩ = 4 / 5 := by
  have h : groundspeed ⟨3, 5⟩ = 4 := by
    unfold groundspeed GsIn.inside
    norm_num
    rw [show (16 : ℝ) = 4 ^ 2 by norm_num, Real.sqrt_sq (by norm_num)]
  exact ⟨h, by rw [cosgamma, h]⟩

/-! ### C27: accelerations -/

/-- C27.  Newton's law along the path with rolling friction on the wheel load `max 0 (m g - L)`. -/
theorem C27_horizontal (i : AccelIn) (hw : 0 < i.weight) :
    i.weight * accelHoriz i =
      i.thrust - i.drag - i.braking * max 0 (i.weight * grav - i.lift) - i.weight * grav * i.singamma := by
  have hfl : i.weight * (i.floor * (grav - i.lift / i.weight)) = max 0 (i.weight * grav - i.lift) := by
    unfold AccelIn.floor
    have e : i.weight * (grav - i.lift / i.weight) = i.weight * grav - i.lift := by field_simp
    split_ifs with h
    · rw [max_eq_left]
      · ring
      · rw [← e]; exact (mul_neg_of_pos_of_neg hw h).le
    · rw [max_eq_right]
      · rw [one_mul, e]
      · rw [← e]; exact mul_nonneg hw.le (not_lt.1 h)
  rw [accelHoriz, ← hfl]
  field_simp

/-- C27.  More lift never decreases the horizontal acceleration (with nonnegative friction coefficient). -/
theorem C27_horizontal_mono (i : AccelIn) (hw : 0 < i.weight) (hb : 0 ≤ i.braking) (l : ℝ) (hl : i.lift ≤ l) :
    accelHoriz i ≤ accelHoriz { i with lift := l } := by
  have h1 := C27_horizontal i hw
  have h2 := C27_horizontal { i with lift := l } hw
  simp only at h2
  have : max 0 (i.weight * grav - l) ≤ max 0 (i.weight * grav - i.lift) := max_le_max le_rfl (by linarith)
  have := mul_le_mul_of_nonneg_left this hb
  by_contra hc
  rw [not_le] at hc
  have := mul_lt_mul_of_pos_left hc hw
  linarith

/-- C27.  Partials of the horizontal acceleration: exact in thrust, drag, friction and path angle always, in
lift and weight unless the wheel load is exactly zero. -/
theorem C27_horizontal_partials (i : AccelIn) (hw : i.weight ≠ 0) :
    HasDerivAt (fun x => accelHoriz { i with thrust := x }) (ahDThrust i) i.thrust ∧
    HasDerivAt (fun x => accelHoriz { i with drag := x }) (ahDDrag i) i.drag ∧
    HasDerivAt (fun x => accelHoriz { i with braking := x }) (ahDBraking i) i.braking ∧
    HasDerivAt (fun x => accelHoriz { i with singamma := x }) (ahDSin i) i.singamma ∧
    (grav - i.lift / i.weight ≠ 0 →
      HasDerivAt (fun x => accelHoriz { i with lift := x }) (ahDLift i) i.lift ∧
      HasDerivAt (fun x => accelHoriz { i with weight := x }) (ahDWeight i) i.weight) := by
  refine ⟨?_, ?_, ?_, ?_, fun h => ⟨?_, ?_⟩⟩
  · show HasDerivAt (fun x => x / i.weight - i.drag / i.weight - i.floor * i.braking * (grav - i.lift / i.weight)
      - grav * i.singamma) _ _
    unfold ahDThrust; hderiv!
  · show HasDerivAt (fun x => i.thrust / i.weight - x / i.weight - i.floor * i.braking * (grav - i.lift / i.weight)
      - grav * i.singamma) _ _
    unfold ahDDrag; hderiv!
  · show HasDerivAt (fun x => i.thrust / i.weight - i.drag / i.weight - i.floor * x * (grav - i.lift / i.weight)
      - grav * i.singamma) _ _
    unfold ahDBraking; hderiv!
  · show HasDerivAt (fun x => i.thrust / i.weight - i.drag / i.weight - i.floor * i.braking * (grav - i.lift / i.weight)
      - grav * x) _ _
    unfold ahDSin; hderiv!
  · have ev : ∀ᶠ x in 𝓝 i.lift, AccelIn.floor { i with lift := x } = i.floor := by
      have c : ContinuousAt (fun x => grav - x / i.weight) i.lift := by fun_prop
      rcases lt_or_gt_of_ne h with hn | hp
      · filter_upwards [ev_lt c continuousAt_const hn] with t ht
        rw [AccelIn.floor, AccelIn.floor, if_pos ht, if_pos hn]
      · filter_upwards [ev_lt continuousAt_const c hp] with t ht
        rw [AccelIn.floor, AccelIn.floor, if_neg (by simp only; linarith), if_neg (by linarith)]
    have : HasDerivAt (fun x => i.thrust / i.weight - i.drag / i.weight - i.floor * i.braking * (grav - x / i.weight)
      - grav * i.singamma) (ahDLift i) i.lift := by
      unfold ahDLift; hderiv!
    refine this.congr_of_eventuallyEq ?_
    filter_upwards [ev] with t ht
    rw [accelHoriz, ht]
  · have ev : ∀ᶠ x in 𝓝 i.weight, AccelIn.floor { i with weight := x } = i.floor := by
      have c : ContinuousAt (fun x => grav - i.lift / x) i.weight := by
        exact continuousAt_const.sub (continuousAt_const.div continuousAt_id hw)
      rcases lt_or_gt_of_ne h with hn | hp
      · filter_upwards [ev_lt c continuousAt_const hn] with t ht
        rw [AccelIn.floor, AccelIn.floor, if_pos ht, if_pos hn]
      · filter_upwards [ev_lt continuousAt_const c hp] with t ht
        rw [AccelIn.floor, AccelIn.floor, if_neg (by simp only; linarith), if_neg (by linarith)]
    have : HasDerivAt (fun x => i.thrust / x - i.drag / x - i.floor * i.braking * (grav - i.lift / x)
      - grav * i.singamma) (ahDWeight i) i.weight := by
      unfold ahDWeight; hderiv!
    refine this.congr_of_eventuallyEq ?_
    filter_upwards [ev] with t ht
    rw [accelHoriz, ht]

/-- C27.  The vertical acceleration always lies in [-g, 2.5 g]. -/
theorem C27_vertical_bounds (i : AccelIn) : -grav ≤ accelVert i ∧ accelVert i ≤ 2.5 * grav := by
  have := grav_pos
  refine ⟨le_min (le_max_right _ _) (by norm_num; linarith), min_le_right _ _⟩

/-- C27.  Vertical Newton equation whenever the resulting acceleration is within the bounds. -/
theorem C27_vertical_newton (i : AccelIn) (hw : 0 < i.weight)
    (h1 : 0 ≤ i.lift * i.cosgamma + (i.thrust - i.drag) * i.singamma)
    (h2 : i.lift * i.cosgamma + (i.thrust - i.drag) * i.singamma ≤ 3.5 * grav * i.weight) :
    i.weight * accelVert i = i.lift * i.cosgamma + (i.thrust - i.drag) * i.singamma - i.weight * grav := by
  have e : i.weight * accelVertRaw i =
      i.lift * i.cosgamma + (i.thrust - i.drag) * i.singamma - i.weight * grav := by
    rw [accelVertRaw]; field_simp
  have a : -grav ≤ accelVertRaw i := by
    rw [accelVertRaw, le_div_iff₀ hw]; linarith
  have b : accelVertRaw i ≤ 2.5 * grav := by
    rw [accelVertRaw, div_le_iff₀ hw]; norm_num at h2 ⊢; linarith
  rw [accelVert, max_eq_left a, min_eq_left b, e]

theorem accelVert_local (f : ℝ → AccelIn) (x d : ℝ) (h1 : -grav < accelVertRaw (f x))
    (h2 : accelVertRaw (f x) < 2.5 * grav) (hf : HasDerivAt (fun t => accelVertRaw (f t)) d x) :
    HasDerivAt (fun t => accelVert (f t)) d x := by
  refine hf.congr_of_eventuallyEq ?_
  filter_upwards [ev_le continuousAt_const hf.continuousAt h1, ev_le hf.continuousAt continuousAt_const h2]
    with t t1 t2
  rw [accelVert, max_eq_left t1, min_eq_left t2]

/-- C27 (partial: acceleration strictly inside the clipping bounds).  The partials of the vertical
acceleration are its derivatives. -/
theorem C27_vertical_partials_partial (i : AccelIn) (hw : i.weight ≠ 0) (h1 : -grav < accelVertRaw i)
    (h2 : accelVertRaw i < 2.5 * grav) :
    HasDerivAt (fun x => accelVert { i with thrust := x }) (avDThrust i) i.thrust ∧
    HasDerivAt (fun x => accelVert { i with drag := x }) (avDDrag i) i.drag ∧
    HasDerivAt (fun x => accelVert { i with lift := x }) (avDLift i) i.lift ∧
    HasDerivAt (fun x => accelVert { i with singamma := x }) (avDSin i) i.singamma ∧
    HasDerivAt (fun x => accelVert { i with cosgamma := x }) (avDCos i) i.cosgamma ∧
    HasDerivAt (fun x => accelVert { i with weight := x }) (avDWeight i) i.weight := by
  refine ⟨accelVert_local _ _ _ h1 h2 ?_, accelVert_local _ _ _ h1 h2 ?_, accelVert_local _ _ _ h1 h2 ?_,
    accelVert_local _ _ _ h1 h2 ?_, accelVert_local _ _ _ h1 h2 ?_, accelVert_local _ _ _ h1 h2 ?_⟩
  · unfold accelVertRaw avDThrust; hderiv!
  · unfold accelVertRaw avDDrag; hderiv!
  · unfold accelVertRaw avDLift; hderiv!
  · unfold accelVertRaw avDSin; hderiv!
  · unfold accelVertRaw avDCos; hderiv!
  · unfold accelVertRaw avDWeight; hderiv!

/-- C27 is false in full: when the acceleration is clipped the true derivative with respect to lift is zero,
the declared one is `cos γ / weight`. -/
theorem C27_clipped_wrong (i : AccelIn) (hw : 0 < i.weight) (hc : i.cosgamma ≠ 0)
    (h : 2.5 * grav < accelVertRaw i ∨ accelVertRaw i < -grav) :
    HasDerivAt (fun x => accelVert { i with lift := x }) 0 i.lift ∧ avDLift i ≠ 0 := by
  have cont : ContinuousAt (fun x => accelVertRaw { i with lift := x }) i.lift := by
    unfold accelVertRaw; simp only [div_eq_mul_inv]; fun_prop
  have hg := grav_pos
  refine ⟨?_, div_ne_zero hc hw.ne'⟩
  rcases h with h | h
  · have : HasDerivAt (fun _ : ℝ => 2.5 * grav) 0 i.lift := hasDerivAt_const _ _
    refine this.congr_of_eventuallyEq ?_
    filter_upwards [ev_lt continuousAt_const cont h] with t ht
    rw [accelVert, min_eq_right (le_max_of_le_left ht.le)]
  · have : HasDerivAt (fun _ : ℝ => -grav) 0 i.lift := hasDerivAt_const _ _
    refine this.congr_of_eventuallyEq ?_
    filter_upwards [ev_lt cont continuousAt_const h] with t ht
    rw [accelVert, max_eq_right ht.le, min_eq_left (by norm_num; linarith)]

/-- an aircraft of 1 kg with 100 N of lift: the clipped case occurs -/
example : 2.5 * grav < accelVertRaw ⟨1, 0, 100, 0, 0, 1, 0⟩ := by norm_num [accelVertRaw, grav]
/-- brakes on, 10 kg, half the weight carried by the wing -/
example : accelHoriz ⟨10, 0, 5 * grav, 0, 0, 1, 0.4⟩ = -0.2 * grav := by
  have h := C27_horizontal ⟨10, 0, 5 * grav, 0, 0, 1, 0.4⟩ (by norm_num)
  have hg := grav_pos
  simp only at h
  rw [max_eq_right (by linarith)] at h
  norm_num at h ⊢
  linarith

/-! ### C28: steady flight lift coefficient -/

/-- C28.  With the returned CL the lift equals the weight component normal to the flight path. -/
theorem C28_balance (i : ClIn) (hq : i.q ≠ 0) (hs : i.sref ≠ 0) :
    lift (steadyCL i) i.q i.sref = i.weight * grav * i.cosgamma := by
  unfold lift steadyCL; field_simp

/-- C28.  It is the only CL that does. -/
theorem C28_unique (i : ClIn) (hq : i.q ≠ 0) (hs : i.sref ≠ 0) (cl : ℝ)
    (h : lift cl i.q i.sref = i.weight * grav * i.cosgamma) : cl = steadyCL i := by
  unfold lift at h; unfold steadyCL
  field_simp
  linarith

/-- C28.  All four declared partials are the derivatives. -/
theorem C28_partials (i : ClIn) (hq : i.q ≠ 0) (hs : i.sref ≠ 0) :
    HasDerivAt (fun x => steadyCL { i with weight := x }) (clDWeight i) i.weight ∧
    HasDerivAt (fun x => steadyCL { i with q := x }) (clDQ i) i.q ∧
    HasDerivAt (fun x => steadyCL { i with sref := x }) (clDS i) i.sref ∧
    HasDerivAt (fun x => steadyCL { i with cosgamma := x }) (clDCos i) i.cosgamma := by
  refine ⟨?_, ?_, ?_, ?_⟩
  · unfold steadyCL clDWeight; hderiv!
  · unfold steadyCL clDQ; hderiv!
  · unfold steadyCL clDS; hderiv!
  · unfold steadyCL clDCos; hderiv!

example : steadyCL ⟨1000, 500 * grav, 4, 1⟩ = 0.5 := by norm_num [steadyCL, grav]

/-! ### C29: transition and climb-out -/

/-- C29.  The transition never ends above the obstacle. -/
theorem C29_height_le (i : TransIn) : hTrans i ≤ i.hObstacle := by
  unfold hTrans; split_ifs with h
  · exact le_rfl
  · exact not_lt.1 h

/-- C29.  The end point of the transition lies on the circle of the arc (centre at height `R`). -/
theorem C29_on_circle (i : TransIn) (hn : 1 < i.loadFactor) (ho : 0 ≤ i.hObstacle) :
    sTrans i ^ 2 + (i.radius - hTrans i) ^ 2 = i.radius ^ 2 := by
  have hR : 0 ≤ i.radius := by
    unfold TransIn.radius
    have := grav_pos
    have : 0 < i.loadFactor - 1 := by linarith
    positivity
  unfold sTrans hTrans
  split_ifs with h
  · have h2 : i.arcHeight ≤ 2 * i.radius := by
      unfold TransIn.arcHeight
      nlinarith [Real.neg_one_le_cos i.gamma]
    rw [Real.sq_sqrt]
    · ring
    · nlinarith
  · unfold TransIn.arcHeight
    have := Real.sin_sq_add_cos_sq i.gamma
    linear_combination i.radius ^ 2 * this

/-- C29.  The ground distance does not jump where the arc height equals the obstacle height. -/
theorem C29_continuous_switch (i : TransIn) (hn : 1 < i.loadFactor) (h0 : 0 ≤ i.gamma) (h1 : i.gamma ≤ Real.pi)
    (h : i.arcHeight = i.hObstacle) :
    Real.sqrt (i.radius ^ 2 - (i.radius - i.hObstacle) ^ 2) = i.radius * Real.sin i.gamma := by
  have hR : 0 ≤ i.radius := by
    unfold TransIn.radius
    have := grav_pos
    have : 0 < i.loadFactor - 1 := by linarith
    positivity
  have e : i.radius ^ 2 - (i.radius - i.hObstacle) ^ 2 = (i.radius * Real.sin i.gamma) ^ 2 := by
    rw [← h, TransIn.arcHeight]
    have := Real.sin_sq_add_cos_sq i.gamma
    linear_combination -(i.radius ^ 2) * this
  rw [e, Real.sqrt_sq (mul_nonneg hR (Real.sin_nonneg_of_nonneg_of_le_pi h0 h1))]

/-- C29.  Arc and straight climb at the same angle end exactly at the obstacle height: the climb rises by
`tan γ` times its ground distance; if the arc already reaches the obstacle the climb has length zero. -/
theorem C29_total (i : TransIn) (u : ℝ) (h0 : 0 < i.gamma) (h1 : i.gamma < Real.pi / 2) :
    hTrans i + Real.tan i.gamma * sClimb ⟨i.hObstacle, hTrans i, i.gamma, u⟩ = i.hObstacle ∧
    0 ≤ sClimb ⟨i.hObstacle, hTrans i, i.gamma, u⟩ ∧
    (i.hObstacle ≤ i.arcHeight → sClimb ⟨i.hObstacle, hTrans i, i.gamma, u⟩ = 0) := by
  have ht := Real.tan_pos_of_pos_of_lt_pi_div_two h0 h1
  refine ⟨?_, ?_, ?_⟩
  · unfold sClimb; field_simp; ring
  · exact div_nonneg (sub_nonneg.2 (C29_height_le i)) ht.le
  · intro h
    have : hTrans i = i.hObstacle := by
      unfold hTrans; split_ifs with hc
      · rfl
      · linarith [not_lt.1 hc]
    unfold sClimb; simp [this]

theorem trans_cont_u (i : TransIn) :
    ContinuousAt (fun x => TransIn.arcHeight { i with utrue := x }) i.utrue := by
  unfold TransIn.arcHeight TransIn.radius; simp only [div_eq_mul_inv]; fun_prop
theorem trans_cont_g (i : TransIn) :
    ContinuousAt (fun x => TransIn.arcHeight { i with gamma := x }) i.gamma := by
  unfold TransIn.arcHeight TransIn.radius; simp only [div_eq_mul_inv]; fun_prop

/-- C29.  The partials of the transition are the derivatives off the switching surface. -/
theorem C29_transition_partials (i : TransIn) (hn : 1 < i.loadFactor) (ho : 0 < i.hObstacle) (hu : i.utrue ≠ 0)
    (h : i.arcHeight ≠ i.hObstacle) :
    HasDerivAt (fun x => sTrans { i with utrue := x }) (sTransDU i) i.utrue ∧
    HasDerivAt (fun x => sTrans { i with gamma := x }) (sTransDGamma i) i.gamma ∧
    HasDerivAt (fun x => hTrans { i with utrue := x }) (hTransDU i) i.utrue ∧
    HasDerivAt (fun x => hTrans { i with gamma := x }) (hTransDGamma i) i.gamma ∧
    HasDerivAt (fun x => tTrans { i with utrue := x }) (tTransDU i) i.utrue ∧
    HasDerivAt (fun x => tTrans { i with gamma := x }) (tTransDGamma i) i.gamma := by
  have hg := grav_ne
  have hl : i.loadFactor - 1 ≠ 0 := by linarith
  have cu := trans_cont_u i
  have cg := trans_cont_g i
  have hR : 0 < i.radius := by
    unfold TransIn.radius
    have := grav_pos
    have : 0 < i.loadFactor - 1 := by linarith
    positivity
  have dR : HasDerivAt (fun x => TransIn.radius { i with utrue := x }) i.dRadius i.utrue := by
    unfold TransIn.radius TransIn.dRadius; hderiv!
  have key1 : HasDerivAt (fun x => sTrans { i with utrue := x }) (sTransDU i) i.utrue := by
    rcases lt_or_gt_of_ne h with hn' | hp
    · rw [sTransDU, if_neg (by simp only [gt_iff_lt, not_lt]; linarith)]
      exact hd_ite_neg (ev_not_lt continuousAt_const cu hn') (dR.mul_const (Real.sin i.gamma))
    · rw [sTransDU, if_pos hp]
      refine hd_ite_pos (ev_lt continuousAt_const cu hp) ?_
      have hh : i.arcHeight ≤ 2 * i.radius := by
        unfold TransIn.arcHeight
        nlinarith [Real.neg_one_le_cos i.gamma]
      have hpos : 0 < i.radius ^ 2 - (i.radius - i.hObstacle) ^ 2 := by nlinarith
      refine hd_congr ((((dR.fun_pow 2).fun_sub ((dR.fun_sub (hasDerivAt_const _ i.hObstacle)).fun_pow 2))).sqrt hpos.ne') ?_
      simp; ring
  have key2 : HasDerivAt (fun x => sTrans { i with gamma := x }) (sTransDGamma i) i.gamma := by
    rcases lt_or_gt_of_ne h with hn' | hp
    · rw [sTransDGamma, if_neg (by simp only [gt_iff_lt, not_lt]; linarith)]
      exact hd_ite_neg (ev_not_lt continuousAt_const cg hn') ((Real.hasDerivAt_sin i.gamma).const_mul i.radius)
    · rw [sTransDGamma, if_pos hp]
      exact hd_ite_pos (ev_lt continuousAt_const cg hp)
        (hasDerivAt_const _ (Real.sqrt (i.radius ^ 2 - (i.radius - i.hObstacle) ^ 2)))
  refine ⟨key1, key2, ?_, ?_, ?_, ?_⟩
  · rcases lt_or_gt_of_ne h with hn' | hp
    · rw [hTransDU, if_neg (by simp only [gt_iff_lt, not_lt]; linarith)]
      exact hd_ite_neg (ev_not_lt continuousAt_const cu hn') (dR.mul_const (1 - Real.cos i.gamma))
    · rw [hTransDU, if_pos hp]
      exact hd_ite_pos (ev_lt continuousAt_const cu hp) (hasDerivAt_const _ _)
  · rcases lt_or_gt_of_ne h with hn' | hp
    · rw [hTransDGamma, if_neg (by simp only [gt_iff_lt, not_lt]; linarith)]
      refine hd_ite_neg (ev_not_lt continuousAt_const cg hn') ?_
      refine hd_congr (((Real.hasDerivAt_cos i.gamma).const_sub 1).const_mul i.radius) ?_
      ring
    · rw [hTransDGamma, if_pos hp]
      exact hd_ite_pos (ev_lt continuousAt_const cg hp) (hasDerivAt_const _ _)
  · refine hd_congr (key1.div (hasDerivAt_id' _) hu) ?_
    simp only [tTransDU]; ring
  · exact key2.div_const _

/-- C29.  The partials of the climb are the derivatives for angles strictly between 0 and π/2. -/
theorem C29_climb_partials (i : TClimbIn) (h0 : 0 < i.gamma) (h1 : i.gamma < Real.pi / 2) (hu : i.utrue ≠ 0) :
    HasDerivAt (fun x => sClimb { i with gamma := x }) (sClimbDGamma i) i.gamma ∧
    HasDerivAt (fun x => sClimb { i with hTrans := x }) (sClimbDH i) i.hTrans ∧
    HasDerivAt (fun x => tClimb { i with gamma := x }) (tClimbDGamma i) i.gamma ∧
    HasDerivAt (fun x => tClimb { i with hTrans := x }) (tClimbDH i) i.hTrans ∧
    HasDerivAt (fun x => tClimb { i with utrue := x }) (tClimbDU i) i.utrue := by
  have ht : Real.tan i.gamma ≠ 0 := (Real.tan_pos_of_pos_of_lt_pi_div_two h0 h1).ne'
  have hc : Real.cos i.gamma ≠ 0 := (Real.cos_pos_of_mem_Ioo ⟨by linarith, h1⟩).ne'
  have k1 : HasDerivAt (fun x => sClimb { i with gamma := x }) (sClimbDGamma i) i.gamma := by
    unfold sClimb sClimbDGamma; hderiv!
  have k2 : HasDerivAt (fun x => sClimb { i with hTrans := x }) (sClimbDH i) i.hTrans := by
    unfold sClimb sClimbDH; hderiv!
  refine ⟨k1, k2, k1.div_const _, k2.div_const _, ?_⟩
  unfold tClimb tClimbDU sClimb
  hderiv!

/-- C29.  The `h_obstacle` option of the simplified rotation phase has no effect on any of its results. -/
theorem C29_option_ignored (i : RotationIn) (h : ℝ) :
    rotationRangeFinal { i with optionHObstacle := h } = rotationRangeFinal i ∧
    rotationDuration { i with optionHObstacle := h } = rotationDuration i ∧
    rotationHFinal { i with optionHObstacle := h } = rotationHFinal i := ⟨rfl, rfl, rfl⟩

/-- C29.  With equal angles at both ends the distances of the rotation phase lead to 10.66 m, but the phase
reports the final height 10.668 m. -/
theorem C29_height_mismatch (i : RotationIn) (h0 : 0 < i.gamma0) (h1 : i.gamma0 < Real.pi / 2)
    (he : i.gammaN = i.gamma0) :
    hTrans i.trans + Real.tan i.gammaN * sClimb i.climb = 10.66 ∧ rotationHFinal i = 10.668 := by
  refine ⟨?_, by norm_num [rotationHFinal]⟩
  have := (C29_total i.trans i.utrueN h0 h1).1
  have e : i.climb = ⟨i.trans.hObstacle, hTrans i.trans, i.trans.gamma, i.utrueN⟩ := by
    unfold RotationIn.climb
    rw [he]; rfl
  rw [e, he]
  exact this

/-- a 60 degree arc of radius 1000 m ends at 500 m when the obstacle is higher -/
example : hTrans ⟨600, 2, Real.sqrt (1000 * grav), Real.pi / 3⟩ = 500 := by
  have hg := grav_pos
  have hr : TransIn.radius ⟨600, 2, Real.sqrt (1000 * grav), Real.pi / 3⟩ = 1000 := by
    simp only [TransIn.radius]
    rw [Real.sq_sqrt (by positivity)]
    field_simp; norm_num
  have ha : TransIn.arcHeight ⟨600, 2, Real.sqrt (1000 * grav), Real.pi / 3⟩ = 500 := by
    rw [TransIn.arcHeight, hr]; simp only [Real.cos_pi_div_three]; norm_num
  rw [hTrans, ha, if_neg (by norm_num)]

end Verif.Phases
