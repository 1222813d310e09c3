import Verif.Model.Utils
import Verif.Proof.HDeriv
import Mathlib.Analysis.Calculus.Deriv.Slope
import Mathlib.Analysis.Calculus.LocalExtr.Basic
import Mathlib.Algebra.BigOperators.Fin
import Mathlib.Tactic.FinCases

/-! Properties C18 (maximum and minimum), C19 (selector), C20 (linear interpolation). -/

namespace Verif.Utils

open Function Filter Topology

/-! ### helper lemmas -/

theorem foldl_max_spec (l : List ℝ) (a : ℝ) :
    (l.foldl max a = a ∨ l.foldl max a ∈ l) ∧ a ≤ l.foldl max a ∧ ∀ x ∈ l, x ≤ l.foldl max a := by
  induction l generalizing a with
  | nil => simp
  | cons b l ih =>
    obtain ⟨h1, h2, h3⟩ := ih (max a b)
    simp only [List.foldl_cons, List.mem_cons]
    refine ⟨?_, le_trans (le_max_left _ _) h2, ?_⟩
    · rcases h1 with h1 | h1
      · rw [h1]
        rcases max_choice a b with h | h
        · left; exact h
        · right; left; exact h
      · right; right; exact h1
    · rintro x (rfl | hx)
      · exact le_trans (le_max_right _ _) h2
      · exact h3 x hx

theorem amin_eq {n : ℕ} (x : Fin (n + 1) → ℝ) : amin x = -amax (fun i => -x i) := by
  unfold amin amax
  have : ∀ (l : List ℝ) (a : ℝ), l.foldl min a = -((l.map fun y => -y).foldl max (-a)) := by
    intro l
    induction l with
    | nil => simp
    | cons b l ih => intro a; rw [List.foldl_cons, ih, List.map_cons, List.foldl_cons, max_neg_neg]
  rw [this, List.map_ofFn]
  rfl

theorem amax_spec {n : ℕ} (x : Fin (n + 1) → ℝ) : (∃ k, amax x = x k) ∧ ∀ k, x k ≤ amax x := by
  obtain ⟨h1, h2, h3⟩ := foldl_max_spec (List.ofFn fun i : Fin n => x i.succ) (x 0)
  constructor
  · rcases h1 with h1 | h1
    · exact ⟨0, h1⟩
    · rw [List.mem_ofFn] at h1
      obtain ⟨i, hi⟩ := h1
      exact ⟨i.succ, hi.symm⟩
  · intro k
    refine Fin.cases h2 (fun i => h3 _ ?_) k
    rw [List.mem_ofFn]; exact ⟨i, rfl⟩

theorem amax_unique {n : ℕ} (x : Fin (n + 1) → ℝ) {m : ℝ} (h1 : ∃ k, m = x k) (h2 : ∀ k, x k ≤ m) :
    amax x = m := by
  obtain ⟨⟨k, hk⟩, h⟩ := amax_spec x
  obtain ⟨j, rfl⟩ := h1
  exact le_antisymm (hk ▸ h2 k) (h j)

/-! ### C18 -/

/-- C18.  The output of `MaxComp` is the greatest element. -/
theorem C18_max {n : ℕ} (x : Fin (n + 1) → ℝ) : IsGreatest (Set.range x) (amax x) := by
  obtain ⟨⟨k, hk⟩, h⟩ := amax_spec x
  exact ⟨⟨k, hk.symm⟩, by rintro _ ⟨j, rfl⟩; exact h j⟩

/-- C18.  The output of `MinComp` is the least element. -/
theorem C18_min {n : ℕ} (x : Fin (n + 1) → ℝ) : IsLeast (Set.range x) (amin x) := by
  obtain ⟨⟨k, hk⟩, h⟩ := amax_spec (fun i => -x i)
  rw [amin_eq]
  refine ⟨⟨k, by rw [hk]; simp⟩, ?_⟩
  rintro _ ⟨j, rfl⟩
  have := h j
  linarith

theorem max_deriv {n : ℕ} (x : Fin (n + 1) → ℝ) (m : Fin (n + 1)) (hm : ∀ j, j ≠ m → x j < x m)
    (k : Fin (n + 1)) : HasDerivAt (fun t => amax (update x k t)) (maxPartial x k) (x k) := by
  have hmax : amax x = x m := amax_unique x ⟨m, rfl⟩ (fun j => by
    by_cases h : j = m
    · rw [h]
    · exact (hm j h).le)
  unfold maxPartial
  by_cases hk : k = m
  · subst hk
    rw [if_pos hmax.symm]
    have ev : ∀ᶠ t in 𝓝 (x k), ∀ j, j ≠ k → x j < t := by
      rw [eventually_all]
      intro j
      by_cases hj : j = k
      · simp [hj]
      · filter_upwards [lt_mem_nhds (hm j hj)] with t ht _ using ht
    refine (hasDerivAt_id' (x k)).congr_of_eventuallyEq ?_
    filter_upwards [ev] with t ht
    apply amax_unique
    · exact ⟨k, by simp⟩
    · intro j
      by_cases hj : j = k
      · simp [hj]
      · rw [update_of_ne hj]; exact (ht j hj).le
  · have hkm := hm k hk
    rw [if_neg (by rw [hmax]; exact hkm.ne)]
    refine (hasDerivAt_const (x k) (x m)).congr_of_eventuallyEq ?_
    filter_upwards [gt_mem_nhds hkm] with t ht
    apply amax_unique
    · exact ⟨m, by rw [update_of_ne (Ne.symm hk)]⟩
    · intro j
      by_cases hj : j = k
      · subst hj; simpa using ht.le
      · rw [update_of_ne hj]
        by_cases h : j = m
        · rw [h]
        · exact (hm j h).le

theorem max_tie {n : ℕ} (x : Fin (n + 1) → ℝ) (k m : Fin (n + 1)) (hkm : k ≠ m) (hk : x k = amax x)
    (hm : x m = amax x) : ¬ DifferentiableAt ℝ (fun t => amax (update x k t)) (x k) := by
  intro hd
  obtain ⟨-, hle⟩ := amax_spec x
  have e : ∀ t, amax (update x k t) = max t (x k) := by
    intro t
    apply amax_unique
    · rcases le_total t (x k) with h | h
      · exact ⟨m, by rw [max_eq_right h, update_of_ne (Ne.symm hkm), hm, hk]⟩
      · exact ⟨k, by rw [max_eq_left h, update_self]⟩
    · intro j
      by_cases hj : j = k
      · subst hj; simp
      · rw [update_of_ne hj]
        exact le_trans (hle j) (hk ▸ le_max_right _ _)
  simp only [e] at hd
  -- `x k` is a local minimum, hence derivative 0; but to the right the slope is 1
  have hmin : IsLocalMin (fun t => max t (x k)) (x k) := by
    apply Filter.Eventually.of_forall
    intro t
    show max (x k) (x k) ≤ max t (x k)
    rw [max_self]; exact le_max_right _ _
  have h0 : HasDerivAt (fun t => max t (x k)) 0 (x k) := by
    have := hd.hasDerivAt
    rwa [hmin.deriv_eq_zero] at this
  have h1 : HasDerivWithinAt (fun t => max t (x k)) 1 (Set.Ici (x k)) (x k) := by
    refine (hasDerivAt_id' (x k)).hasDerivWithinAt.congr ?_ ?_
    · intro t ht; exact max_eq_left ht
    · simp
  have := (uniqueDiffOn_Ici (x k) (x k) (Set.self_mem_Ici)).eq_deriv _ h0.hasDerivWithinAt h1
  norm_num at this

/-- C18 (partial: unique extremum).  The partials of `MaxComp` are the derivatives.
Full statement: for every array; false at ties, where no derivative exists, see `C18_tie`. -/
theorem C18_max_partials_partial {n : ℕ} (x : Fin (n + 1) → ℝ) (m : Fin (n + 1)) (hm : ∀ j, j ≠ m → x j < x m)
    (k : Fin (n + 1)) : HasDerivAt (fun t => amax (update x k t)) (maxPartial x k) (x k) :=
  max_deriv x m hm k

theorem update_neg {n : ℕ} (x : Fin (n + 1) → ℝ) (k : Fin (n + 1)) (t : ℝ) :
    (fun i => -(update x k t) i) = update (fun i => -x i) k (-t) := by
  funext j
  by_cases h : j = k
  · subst h; simp
  · simp [update_of_ne h]

/-- C18 (partial: unique extremum).  The partials of `MinComp` are the derivatives. -/
theorem C18_min_partials_partial {n : ℕ} (x : Fin (n + 1) → ℝ) (m : Fin (n + 1)) (hm : ∀ j, j ≠ m → x m < x j)
    (k : Fin (n + 1)) : HasDerivAt (fun t => amin (update x k t)) (minPartial x k) (x k) := by
  have h := max_deriv (fun i => -x i) m (fun j hj => by simpa using hm j hj) k
  have h2 := (h.comp (x k) (hasDerivAt_neg (x k))).fun_neg
  simp only [amin_eq, update_neg]
  refine h2.congr_deriv ?_
  unfold maxPartial minPartial
  rw [amin_eq]
  by_cases hk : -x k = amax fun i => -x i
  · rw [if_pos hk, if_pos (by linarith)]; norm_num
  · rw [if_neg hk, if_neg (fun h => hk (by linarith))]; norm_num

/-- C18.  At a tie the components declare a partial equal to one for each of the tied elements, but the
output has no derivative with respect to any of them. -/
theorem C18_tie {n : ℕ} (x : Fin (n + 1) → ℝ) (k m : Fin (n + 1)) (hkm : k ≠ m) :
    (x k = amax x → x m = amax x →
      maxPartial x k = 1 ∧ ¬ DifferentiableAt ℝ (fun t => amax (update x k t)) (x k)) ∧
    (x k = amin x → x m = amin x →
      minPartial x k = 1 ∧ ¬ DifferentiableAt ℝ (fun t => amin (update x k t)) (x k)) := by
  refine ⟨fun hk hm => ⟨by simp [maxPartial, hk], max_tie x k m hkm hk hm⟩,
    fun hk hm => ⟨by simp [minPartial, hk], ?_⟩⟩
  intro hd
  rw [amin_eq] at hk hm
  apply max_tie (fun i => -x i) k m hkm (by linarith) (by linarith)
  have hd' : DifferentiableAt ℝ (fun t => amin (update x k t)) (- -x k) := by rwa [neg_neg]
  have := (hd'.comp (-x k) (differentiable_neg (-x k))).neg
  refine this.congr_of_eventuallyEq (Filter.Eventually.of_forall fun t => ?_)
  simp only [Pi.neg_apply, comp, amin_eq, update_neg, neg_neg]

/-- a unique maximum, and a tie -/
example : ∀ j : Fin 3, j ≠ 1 → (![1, 5, 2] : Fin 3 → ℝ) j < (![1, 5, 2] : Fin 3 → ℝ) 1 := by
  intro j hj; fin_cases j <;> simp_all <;> norm_num
example : (![5, 5, 2] : Fin 3 → ℝ) 0 = amax ![5, 5, 2] ∧ (![5, 5, 2] : Fin 3 → ℝ) 1 = amax ![5, 5, 2] := by
  have : amax (![5, 5, 2] : Fin 3 → ℝ) = 5 := by norm_num [amax]
  rw [this]; simp

/-! ### C19 -/

/-- Independent specification of rounding to the nearest integer with halves going to the even one. -/
def IsRounded (x : ℝ) (k : ℤ) : Prop := |x - k| < 1 / 2 ∨ (|x - k| = 1 / 2 ∧ Even k)

theorem around_spec (x : ℝ) : IsRounded x (around x) := by
  have h0 := Int.floor_le x
  have h1 := Int.lt_floor_add_one x
  unfold around IsRounded
  split_ifs with h2 h3 h4
  · left; rw [abs_lt]; constructor <;> linarith
  · left; push_cast; rw [abs_lt]; constructor <;> linarith
  · right
    refine ⟨?_, h4⟩
    have : x - ⌊x⌋ = 1 / 2 := le_antisymm (not_lt.1 h3) (not_lt.1 h2)
    rw [this]; norm_num
  · right
    refine ⟨?_, ?_⟩
    · have : x - ⌊x⌋ = 1 / 2 := le_antisymm (not_lt.1 h3) (not_lt.1 h2)
      push_cast
      have e : x - (⌊x⌋ + 1) = -(1 / 2) := by linarith
      rw [e]; norm_num
    · rw [Int.not_even_iff_odd] at h4
      exact h4.add_one

theorem rounded_unique {x : ℝ} {k l : ℤ} (hk : IsRounded x k) (hl : IsRounded x l) : k = l := by
  have hk' : |x - k| ≤ 1 / 2 := by rcases hk with h | h; exacts [h.le, h.1.le]
  have hl' : |x - l| ≤ 1 / 2 := by rcases hl with h | h; exacts [h.le, h.1.le]
  rw [abs_le] at hk' hl'
  have d1 : ((k - l : ℤ) : ℝ) ≤ 1 := by push_cast; linarith
  have d2 : (-1 : ℝ) ≤ ((k - l : ℤ) : ℝ) := by push_cast; linarith
  have e1 : k - l ≤ 1 := by exact_mod_cast d1
  have e2 : -1 ≤ k - l := by exact_mod_cast d2
  by_contra hne
  have hcase : k = l + 1 ∨ l = k + 1 := by omega
  have key : ∀ {k l : ℤ}, IsRounded x k → IsRounded x l → k = l + 1 → False := by
    intro k l hk hl h
    subst h
    have hk' : |x - (l + 1 : ℤ)| ≤ 1 / 2 := by rcases hk with h | h; exacts [h.le, h.1.le]
    have hl' : |x - l| ≤ 1 / 2 := by rcases hl with h | h; exacts [h.le, h.1.le]
    rw [abs_le] at hk' hl'
    push_cast at hk'
    have hx : x - l = 1 / 2 := by linarith
    rcases hk with h | h
    · push_cast at h
      rw [abs_lt] at h; linarith
    · rcases hl with h' | h'
      · rw [hx] at h'; norm_num at h'
      · have := h.2
        rw [Int.even_add_one] at this
        exact this h'.2
  rcases hcase with h | h
  · exact key hk hl h
  · exact key hl hk h

theorem around_eq_iff (x : ℝ) (k : ℤ) : around x = k ↔ IsRounded x k :=
  ⟨fun h => h ▸ around_spec x, fun h => rounded_unique (around_spec x) h⟩

theorem sel_fold {m nn : ℕ} (inputs : Fin m → Fin nn → ℝ) (w : Fin m → Fin nn → ℝ) (r0 : Fin nn → ℝ)
    (j : Fin nn) (l : List (Fin m)) :
    (l.foldl (fun result i => fun j => result j + inputs i j * w i j) r0) j
      = r0 j + (l.map fun i => inputs i j * w i j).sum := by
  induction l generalizing r0 with
  | nil => simp
  | cons a l ih => rw [List.foldl_cons, ih, List.map_cons, List.sum_cons, add_assoc]

/-- C19.  When every selector rounds to the index of an input, the computation succeeds and at each
node the output is the value of that input. -/
theorem C19_select {m nn : ℕ} (inputs : Fin m → Fin nn → ℝ) (selector : Fin nn → ℝ) (idx : Fin nn → Fin m)
    (h : ∀ j, IsRounded (selector j) (idx j)) :
    (selCompute inputs selector).2 = .ok () ∧
    ∀ j, (selCompute inputs selector).1 j = inputs (idx j) j := by
  have ha : ∀ j, around (selector j) = (idx j : ℤ) := fun j => (around_eq_iff _ _).2 (h j)
  have hno : ¬ ((∃ j, around (selector j) < 0) ∨ (∃ j, (m : ℤ) ≤ around (selector j))) := by
    rintro (⟨j, hj⟩ | ⟨j, hj⟩)
    · rw [ha] at hj; omega
    · rw [ha] at hj; have := (idx j).2; omega
  unfold selCompute
  rw [if_neg hno]
  refine ⟨rfl, fun j => ?_⟩
  dsimp only
  rw [sel_fold inputs (fun i j => if around (selector j) = (i : ℤ) then 1 else 0), zero_add,
    ← List.ofFn_eq_map, List.sum_ofFn, Finset.sum_eq_single (idx j)]
  · rw [ha, if_pos rfl, mul_one]
  · intro i _ hi
    rw [ha, if_neg, mul_zero]
    intro e; apply hi; apply Fin.ext; exact_mod_cast e.symm
  · intro h; exact absurd (Finset.mem_univ _) h

/-- C19.  The component raises exactly when some selector rounds to something that is not an index; the
output is then zero at every node, including those with a valid selector.  (The documentation,
selector.py:18-19, promises zeros at the invalid nodes only, and a warning.) -/
theorem C19_out_of_range {m nn : ℕ} (inputs : Fin m → Fin nn → ℝ) (selector : Fin nn → ℝ) :
    ((selCompute inputs selector).2 = .error .outOfRange ↔
      ∃ j, ∀ i : Fin m, ¬ IsRounded (selector j) (i : ℕ)) ∧
    ((selCompute inputs selector).2 = .error .outOfRange → ∀ j, (selCompute inputs selector).1 j = 0) := by
  unfold selCompute
  split_ifs with h
  · refine ⟨⟨fun _ => ?_, fun _ => rfl⟩, fun _ _ => rfl⟩
    rcases h with ⟨j, hj⟩ | ⟨j, hj⟩
    · refine ⟨j, fun i hi => ?_⟩
      rw [← around_eq_iff] at hi
      omega
    · refine ⟨j, fun i hi => ?_⟩
      rw [← around_eq_iff] at hi
      have := i.2; omega
  · refine ⟨⟨fun h => by simp at h, ?_⟩, fun h => by simp at h⟩
    rintro ⟨j, hj⟩
    exfalso
    apply h
    by_cases h0 : around (selector j) < 0
    · left; exact ⟨j, h0⟩
    · right
      refine ⟨j, ?_⟩
      by_contra hlt
      apply hj ⟨(around (selector j)).toNat, by omega⟩
      rw [← around_eq_iff]
      simp only
      omega

/-- C19.  At least one input name is required. -/
theorem C19_needs_input (m : ℕ) : selSetup m = .error .noInputs ↔ m = 0 := by
  unfold selSetup; split_ifs with h <;> simp <;> omega

/-- C19.  For valid selectors exactly one input has partial one and the others zero, and these are the
derivatives of the output; the undeclared partial with respect to the selector is the true derivative
zero away from half integers. -/
theorem C19_partials {m nn : ℕ} (inputs : Fin m → Fin nn → ℝ) (selector : Fin nn → ℝ) (idx : Fin nn → Fin m)
    (h : ∀ j, IsRounded (selector j) (idx j)) (j : Fin nn) :
    (∀ i : Fin m, selPartial selector i j = if i = idx j then 1 else 0) ∧
    (∀ i : Fin m, ∀ c : Fin nn,
      HasDerivAt (fun t => (selCompute (update inputs i (update (inputs i) c t)) selector).1 j)
        (if c = j then selPartial selector i j else 0) (inputs i c)) ∧
    (∀ c : Fin nn, |selector c - (idx c : ℕ)| < 1 / 2 →
      HasDerivAt (fun t => (selCompute inputs (update selector c t)).1 j) 0 (selector c)) := by
  have hp : ∀ i : Fin m, selPartial selector i j = if i = idx j then 1 else 0 := by
    intro i
    unfold selPartial
    rw [(around_eq_iff _ _).2 (h j)]
    by_cases hi : i = idx j
    · simp [hi]
    · rw [if_neg, if_neg hi]
      intro e; apply hi; apply Fin.ext; exact_mod_cast e.symm
  refine ⟨hp, ?_, ?_⟩
  · intro i c
    rw [hp]
    have e : ∀ t, (selCompute (update inputs i (update (inputs i) c t)) selector).1 j
        = if i = idx j ∧ c = j then t else inputs (idx j) j := by
      intro t
      rw [(C19_select _ selector idx h).2 j]
      by_cases hi : i = idx j
      · subst hi
        rw [update_self]
        by_cases hc : c = j
        · subst hc; simp
        · rw [update_of_ne (Ne.symm hc), if_neg (fun h => hc h.2)]
      · rw [update_of_ne (Ne.symm hi), if_neg (fun h => hi h.1)]
    simp only [e]
    by_cases hi : i = idx j <;> by_cases hc : c = j <;> simp only [hi, hc, and_true, and_false, true_and,
      false_and, if_true, if_false]
    · exact hasDerivAt_id' _
    all_goals exact hasDerivAt_const _ _
  · intro c hc
    have ev : ∀ᶠ t : ℝ in 𝓝 (selector c), |t - ((idx c : ℕ) : ℝ)| < 1 / 2 :=
      (continuous_abs.comp (continuous_id.sub continuous_const)).continuousAt.eventually_lt
        continuousAt_const hc
    refine (hasDerivAt_const _ (inputs (idx j) j)).congr_of_eventuallyEq ?_
    filter_upwards [ev] with t ht
    apply (C19_select inputs (update selector c t) idx ?_).2 j
    intro k
    by_cases hk : k = c
    · subst hk; rw [update_self]; left; exact_mod_cast ht
    · rw [update_of_ne hk]; exact h k

/-- three inputs, selector values `0.2, 2.5, 1` pick inputs `0, 2, 1` -/
example : ∀ j : Fin 3, IsRounded ((![0.2, 2.5, 1] : Fin 3 → ℝ) j) (((![0, 2, 1] : Fin 3 → Fin 3) j : ℕ)) := by
  intro j
  fin_cases j
  · left; norm_num [abs_lt]
  · right; constructor
    · norm_num
    · exact ⟨1, rfl⟩
  · left; norm_num [abs_lt]

/-- with two inputs the selector `1.5` is out of range -/
example : ∀ i : Fin 2, ¬ IsRounded 1.5 (i : ℕ) := by
  intro i
  fin_cases i
  · rintro (h | h)
    · norm_num [abs_lt] at h
    · norm_num at h
  · rintro (h | h)
    · norm_num [abs_lt] at h
    · have := h.2; revert this; decide

/-! ### C20 -/

theorem linspace_formula (a b : ℝ) {nn i : ℕ} (hn : 2 ≤ nn) (hi : i < nn) :
    linspace a b nn i = a + (b - a) * (i / ((nn : ℝ) - 1)) := by
  have hn' : (nn : ℝ) - 1 ≠ 0 := by
    have : (2 : ℝ) ≤ nn := by exact_mod_cast hn
    intro h; linarith
  unfold linspace
  split_ifs with h
  · have : (i : ℝ) = (nn : ℝ) - 1 := by rw [h.2]; push_cast [show 1 ≤ nn by omega]; ring
    rw [this, div_self hn']; ring
  · ring

/-- C20.  First and last entries are the two inputs, neighbours are equally spaced. -/
theorem C20_values (a b : ℝ) {nn : ℕ} (hn : 2 ≤ nn) :
    interp a b nn 0 = a ∧ interp a b nn (nn - 1) = b ∧
    ∀ i, i + 1 < nn → interp a b nn (i + 1) - interp a b nn i = (b - a) / ((nn : ℝ) - 1) := by
  unfold interp
  refine ⟨?_, ?_, ?_⟩
  · rw [linspace_formula a b hn (by omega)]; simp
  · unfold linspace; rw [if_pos ⟨by omega, rfl⟩]
  · intro i hi
    rw [linspace_formula a b hn hi, linspace_formula a b hn (by omega)]
    push_cast; ring

/-- C20.  Monotone between the end values, which bound it. -/
theorem C20_monotone {a b : ℝ} (hab : a ≤ b) {nn i j : ℕ} (hn : 2 ≤ nn) (hij : i ≤ j) (hj : j < nn) :
    interp a b nn i ≤ interp a b nn j ∧ interp b a nn j ≤ interp b a nn i ∧
    a ≤ interp a b nn i ∧ interp a b nn i ≤ b := by
  have hn' : (0 : ℝ) < (nn : ℝ) - 1 := by
    have : (2 : ℝ) ≤ nn := by exact_mod_cast hn
    linarith
  have hd : (i : ℝ) / ((nn : ℝ) - 1) ≤ (j : ℝ) / ((nn : ℝ) - 1) :=
    div_le_div_of_nonneg_right (by exact_mod_cast hij) hn'.le
  have h0 : (0 : ℝ) ≤ (i : ℝ) / ((nn : ℝ) - 1) := by positivity
  have h1 : (i : ℝ) / ((nn : ℝ) - 1) ≤ 1 := by
    rw [div_le_one hn']
    have : (i : ℝ) + 1 ≤ nn := by exact_mod_cast (by omega : i + 1 ≤ nn)
    linarith
  unfold interp
  rw [linspace_formula a b hn (by omega), linspace_formula a b hn hj, linspace_formula b a hn hj,
    linspace_formula b a hn (show i < nn by omega)]
  refine ⟨?_, ?_, ?_, ?_⟩ <;> nlinarith

/-- C20.  The declared partials are the derivatives, for every number of nodes (one node included). -/
theorem C20_partials (a b : ℝ) {nn i : ℕ} (hi : i < nn) :
    HasDerivAt (fun x => interp x b nn i) (interpDStart nn i) a ∧
    HasDerivAt (fun x => interp a x nn i) (interpDEnd nn i) b := by
  unfold interp interpDStart interpDEnd
  by_cases hn : 2 ≤ nn
  · simp only [linspace_formula _ _ hn hi]
    constructor
    · hderiv
      ring
    · hderiv
      ring
  · have : nn = 1 := by omega
    have : i = 0 := by omega
    subst_vars
    simp only [linspace]
    norm_num
    exact ⟨hasDerivAt_id' _, hasDerivAt_const _ _⟩

/-- C20.  With a single node the output is the start value. -/
theorem C20_single (a b : ℝ) : interp a b 1 0 = a := by simp [interp, linspace]

example : interp 3 7 5 2 = 5 := by norm_num [interp, linspace]

/-! ### C78: DVLabel -/

/-- C78.  With distinct output names every output receives the value of its own input and nothing else changes. -/
theorem C78_copies {V : Type*} (pairs : List (String × String)) (inputs outputs : String → V)
    (hn : (pairs.map Prod.snd).Nodup) :
    (∀ p ∈ pairs, dvLabel pairs inputs outputs p.2 = inputs p.1) ∧
    (∀ n, n ∉ pairs.map Prod.snd → dvLabel pairs inputs outputs n = outputs n) := by
  have untouched : ∀ (l : List (String × String)) (o : String → V) (n : String), n ∉ l.map Prod.snd →
      dvLabel l inputs o n = o n := by
    intro l
    induction l with
    | nil => intro o n _; rfl
    | cons q l ih =>
      intro o n h
      rw [List.map_cons, List.mem_cons, not_or] at h
      show dvLabel l inputs (fun n => if n = q.2 then inputs q.1 else o n) n = _
      rw [ih _ n h.2, if_neg h.1]
  refine ⟨?_, fun n h => untouched pairs outputs n h⟩
  induction pairs generalizing outputs with
  | nil => intro p hp; cases hp
  | cons q l ih =>
    intro p hp
    rw [List.map_cons, List.nodup_cons] at hn
    show dvLabel l inputs (fun n => if n = q.2 then inputs q.1 else outputs n) p.2 = _
    rcases List.mem_cons.1 hp with rfl | hp
    · rw [untouched l _ _ hn.1, if_pos rfl]
    · exact ih _ hn.2 p hp

/-- C78.  When an output name is listed twice the last entry wins. -/
theorem C78_last_wins {V : Type*} (l : List (String × String)) (p : String × String) (inputs outputs : String → V) :
    dvLabel (l ++ [p]) inputs outputs p.2 = inputs p.1 := by
  simp [dvLabel, List.foldl_append]

example : dvLabel [("a", "x"), ("b", "y")] (fun n => n.length + 5) (fun _ => 0) "y" = 6 := by decide

end Verif.Utils
