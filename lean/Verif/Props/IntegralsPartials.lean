import Verif.Props.Integrals
import Verif.Proof.HDeriv

/-! Properties C05 - C07: derivatives of the integrators, storage of the partials, signs. -/

namespace Verif.Integrals

open Matrix Finset

variable {S m : ℕ} {method : Method} {M : Matrix (Fin (m + 1)) (Fin (m + 1)) ℝ}

/-! ### C05 -/

/-- C05.  The entries of `dQdqdt` are the derivatives of every node with respect to every rate. -/
theorem C05_partial_rate (M : Matrix (Fin (m + 1)) (Fin (m + 1)) ℝ) (count : Fin S → Bool) (q0 : ℝ)
    (dts : Fin S → ℝ) (dqdt : Fin S → Fin (m + 1) → ℝ) (i j : Fin S) (a b : Fin (m + 1)) :
    HasDerivAt (fun x => integrate M count q0 dts
        (Function.update dqdt j (Function.update (dqdt j) b x)) i a)
      (blockRate M count dts i j a b) (dqdt j b) := by
  unfold integrate
  have : (fun x : ℝ => (∑ j', ∑ b', blockRate M count dts i j' a b' *
        (Function.update dqdt j (Function.update (dqdt j) b x)) j' b') + q0)
      = fun x => blockRate M count dts i j a b * x + ((∑ j', ∑ b', blockRate M count dts i j' a b' *
        (if j' = j ∧ b' = b then 0 else dqdt j' b')) + q0) := by
    funext x
    rw [← add_assoc]
    congr 1
    have h1 : ∀ j' b', blockRate M count dts i j' a b' *
        (Function.update dqdt j (Function.update (dqdt j) b x)) j' b'
        = (if j' = j then (if b' = b then blockRate M count dts i j a b * x else 0) else 0) +
          blockRate M count dts i j' a b' * (if j' = j ∧ b' = b then 0 else dqdt j' b') := by
      intro j' b'
      by_cases hj : j' = j
      · subst hj
        by_cases hb : b' = b
        · subst hb; simp
        · simp [hb]
      · simp [hj]
    simp only [h1, Finset.sum_add_distrib, Finset.sum_ite_eq', Finset.mem_univ, if_true]
    simp
  rw [this]
  hderiv
  ring

/-- C05.  The columns `dQ/d dt_j` are the derivatives with respect to the time steps. -/
theorem C05_partial_dt (M : Matrix (Fin (m + 1)) (Fin (m + 1)) ℝ) (count : Fin S → Bool) (q0 : ℝ)
    (dts : Fin S → ℝ) (dqdt : Fin S → Fin (m + 1) → ℝ) (i j : Fin S) (a : Fin (m + 1)) :
    HasDerivAt (fun x => integrate M count q0 (Function.update dts j x) dqdt i a)
      (dtPartial M count dqdt j i a) (dts j) := by
  have : (fun x => integrate M count q0 (Function.update dts j x) dqdt i a)
      = fun x => dtPartial M count dqdt j i a * x +
        ((∑ j', dtPartial M count dqdt j' i a * (if j' = j then 0 else dts j')) + q0) := by
    funext x
    rw [integrate_eq, ← add_assoc]
    congr 1
    have h1 : ∀ j', contrib M count (Function.update dts j x) dqdt i a j'
        = (if j' = j then dtPartial M count dqdt j i a * x else 0) +
          dtPartial M count dqdt j' i a * (if j' = j then 0 else dts j') := by
      intro j'
      rw [dtPartial_mul]
      by_cases hj : j' = j
      · subst hj; simp
      · simp [hj]
    simp only [h1, Finset.sum_add_distrib, Finset.sum_ite_eq', Finset.mem_univ, if_true]
  rw [this]
  hderiv
  ring

/-- C05.  The declared unit partials with respect to the initial value. -/
theorem C05_partial_initial (M : Matrix (Fin (m + 1)) (Fin (m + 1)) ℝ) (count : Fin S → Bool)
    (q0 : ℝ) (dts : Fin S → ℝ) (dqdt : Fin S → Fin (m + 1) → ℝ) (i : Fin S) (a : Fin (m + 1)) :
    HasDerivAt (fun x => integrate M count x dts dqdt i a) 1 q0 := by
  unfold integrate
  hderiv

/-- C05.  The `Integrator`'s partials with respect to `dt`, `duration`, `t_initial` and `t_final`
(the values of integrals.py:828-845 before they are packed, see C06). -/
theorem C05_integrator_time (M : Matrix (Fin (m + 1)) (Fin (m + 1)) ℝ) (q0 : ℝ)
    (rate : Fin (m + 1) → ℝ) (a : Fin (m + 1)) (h d ti tf : ℝ) :
    HasDerivAt (fun x => integratorCompute M q0 (.dt x) rate a) (timeColumn M rate a) h ∧
    HasDerivAt (fun x => integratorCompute M q0 (.duration x) rate a) (timeColumn M rate a / m) d ∧
    HasDerivAt (fun x => integratorCompute M q0 (.bounds x tf) rate a) (-timeColumn M rate a / m) ti ∧
    HasDerivAt (fun x => integratorCompute M q0 (.bounds ti x) rate a) (timeColumn M rate a / m) tf := by
  have hc : timeColumn M rate a = (M *ᵥ rate) a := by
    simp [timeColumn, dtPartial, Matrix.mulVec, dotProduct]
  simp only [integratorCompute_eq, TimeInput.step, hc]
  refine ⟨?_, ?_, ?_, ?_⟩ <;> · hderiv; ring

example : ∃ M : Matrix (Fin 3) (Fin 3) ℝ, methodMatrix .simpson 2 = some M :=
  ⟨_, methodMatrix_simpson.2 ⟨rfl, rfl⟩⟩

/-! ### C06 -/

theorem mulVec_ones (hM : methodMatrix method m = some M) (a : Fin (m + 1)) :
    (M *ᵥ fun _ => 1) a = ((a : ℕ) : ℝ) := by
  cases method with
  | bdf3 =>
    obtain ⟨_, hm, rfl⟩ := methodMatrix_bdf3.1 hM
    exact bdf3Tri_eq hm (fun k => (k : ℝ)) (fun _ => 1) (by simp) (by norm_num) (by norm_num)
      (by norm_num) (by intro k _; push_cast; ring) a
  | simpson =>
    obtain ⟨hm, rfl⟩ := methodMatrix_simpson.1 hM
    exact simpsonTri_eq hm (fun k => (k : ℝ)) (fun _ => 1) (by simp)
      (by intro k _; push_cast; ring) (by intro k _; push_cast; ring) a

theorem timeColumn_eq (M : Matrix (Fin (m + 1)) (Fin (m + 1)) ℝ) (rate : Fin (m + 1) → ℝ)
    (a : Fin (m + 1)) : timeColumn M rate a = (M *ᵥ rate) a := by
  simp [timeColumn, dtPartial, Matrix.mulVec, dotProduct]

/-- C06.  The declared rows are exactly the nodes 1 .. n-1, in order. -/
theorem C06_declared_rows (hM : methodMatrix method m = some M) :
    declaredTimeRows M = (List.finRange m).map Fin.succ := by
  unfold declaredTimeRows
  have h : ∀ a : Fin (m + 1), (timeColumn M (fun _ => 1) a ≠ 0) ↔ a ≠ 0 := by
    intro a
    rw [timeColumn_eq, mulVec_ones hM]
    rw [Ne, Nat.cast_eq_zero, Fin.val_eq_zero_iff]
  rw [List.finRange_succ, List.filter_cons_of_neg (by simp [h])]
  rw [List.filter_eq_self.2]
  intro a ha
  obtain ⟨i, _, rfl⟩ := List.mem_map.1 ha
  simp [h]

/-- C06.  With `time_setup` `dt` and `duration` the assigned list always has one value per declared
row, and the value for each declared row is that row's derivative. -/
theorem C06_dt_duration_fit (hM : methodMatrix method m = some M) (rate : Fin (m + 1) → ℝ) :
    assignedTime M rate .dt = (declaredTimeRows M).map (fun a => timeColumn M rate a) ∧
    assignedTime M rate .duration = (declaredTimeRows M).map (fun a => timeColumn M rate a / m) := by
  rw [C06_declared_rows hM]
  constructor
  · simp [assignedTime, List.finRange_succ, Function.comp_def]
  · simp [assignedTime, List.finRange_succ, Function.comp_def]

theorem storedData_tail (hM : methodMatrix method m = some M) (rate : Fin (m + 1) → ℝ) :
    storedData ((List.finRange (m + 1)).map (timeColumn M rate)) =
      storedData ((List.finRange m).map fun i => timeColumn M rate i.succ) := by
  have h0 : timeColumn M rate 0 = 0 := by rw [timeColumn_eq, mulVec_first hM]
  unfold storedData
  rw [List.finRange_succ, List.map_cons, List.filter_cons_of_neg (by simp [h0]), List.map_map]
  rfl

/-- C06.  With `time_setup = 'bounds'` the assigned list has the declared length exactly when the
running integral of the rate vanishes at all of the nodes 1 .. n-1 or at none of them. -/
theorem C06_bounds_fits_iff (hM : methodMatrix method m = some M) (rate : Fin (m + 1) → ℝ) :
    (assignedTime M rate .bounds).length = (declaredTimeRows M).length ↔
      (∀ a : Fin (m + 1), a ≠ 0 → timeColumn M rate a = 0) ∨
      (∀ a : Fin (m + 1), a ≠ 0 → timeColumn M rate a ≠ 0) := by
  have hlen : (declaredTimeRows M).length = m := by rw [C06_declared_rows hM]; simp
  unfold assignedTime
  rw [storedData_tail hM]
  simp only
  set d := storedData ((List.finRange m).map fun i => timeColumn M rate i.succ) with hd
  have hall0 : d.length = 0 ↔ ∀ a : Fin (m + 1), a ≠ 0 → timeColumn M rate a = 0 := by
    rw [List.length_eq_zero_iff, hd, storedData, List.filter_eq_nil_iff]
    constructor
    · intro h a ha
      obtain ⟨i, rfl⟩ := Fin.exists_succ_eq.2 ha
      simpa using h _ (List.mem_map.2 ⟨i, List.mem_finRange i, rfl⟩)
    · intro h x hx
      obtain ⟨i, _, rfl⟩ := List.mem_map.1 hx
      simpa using h _ (Fin.succ_ne_zero i)
  have hall1 : d.length = m ↔ ∀ a : Fin (m + 1), a ≠ 0 → timeColumn M rate a ≠ 0 := by
    have hm : m = ((List.finRange m).map fun i => timeColumn M rate i.succ).length := by simp
    have key : d.length = m ↔ d = (List.finRange m).map fun i => timeColumn M rate i.succ := by
      constructor
      · intro h
        rw [hd, storedData]
        apply List.filter_eq_self.2
        rw [hd, storedData] at h
        have := List.length_filter_eq_length_iff.1 (h.trans hm)
        exact this
      · intro h; rw [h]; simp
    rw [key, hd, storedData, List.filter_eq_self]
    constructor
    · intro h a ha
      obtain ⟨i, rfl⟩ := Fin.exists_succ_eq.2 ha
      simpa using h _ (List.mem_map.2 ⟨i, List.mem_finRange i, rfl⟩)
    · intro h x hx
      obtain ⟨i, _, rfl⟩ := List.mem_map.1 hx
      simpa using h _ (Fin.succ_ne_zero i)
  split_ifs with h0
  · simp only [List.length_replicate, true_iff]
    exact Or.inl (hall0.1 h0)
  · rw [List.length_map, hlen, hall1]
    constructor
    · intro h; exact Or.inr h
    · rintro (h | h)
      · exact absurd (hall0.2 h) h0
      · exact h

/-- C06 fails for 'bounds': the rates (1, 0, 5) on three Simpson nodes give an integral that vanishes
at node 1 only, and one value is assigned to a partial with two declared entries. -/
theorem C06_bounds_mismatch :
    ∃ (M : Matrix (Fin 3) (Fin 3) ℝ) (rate : Fin 3 → ℝ), methodMatrix .simpson 2 = some M ∧
      (assignedTime M rate .bounds).length ≠ (declaredTimeRows M).length := by
  have hM : methodMatrix .simpson 2 = some (simpsonTri 2 : Matrix (Fin 3) (Fin 3) ℝ) :=
    methodMatrix_simpson.2 ⟨rfl, rfl⟩
  refine ⟨_, ![1, 0, 5], hM, ?_⟩
  rw [Ne, C06_bounds_fits_iff hM]
  have hv : ∀ a : Fin 3, timeColumn (simpsonTri 2) ![(1 : ℝ), 0, 5] a = if (a : ℕ) = 2 then 2 else 0 := by
    intro a
    rw [timeColumn_eq]
    have e : (![(1 : ℝ), 0, 5] : Fin 3 → ℝ) = fun b : Fin 3 =>
        (fun k : ℕ => if k = 0 then (1 : ℝ) else if k = 1 then 0 else 5) b := by
      funext b; fin_cases b <;> simp
    rw [e]
    exact simpsonTri_eq (m := 2) (by norm_num) (fun k => if k = 2 then (2 : ℝ) else 0)
      (fun k : ℕ => if k = 0 then (1 : ℝ) else if k = 1 then 0 else 5) (by simp)
      (by intro k hk; obtain rfl : k = 0 := by omega
          norm_num)
      (by intro k hk; obtain rfl : k = 0 := by omega
          norm_num) a
  rintro (h | h)
  · have := h 2 (by decide)
    rw [hv] at this
    norm_num at this
  · have := h 1 (by decide)
    rw [hv] at this
    norm_num at this

/-- C06.  The single entry for the `*_final` output always fits, in every mode (an empty stored row is
replaced by 0 for 'bounds', integrals.py:846-851): the declared pattern has the last row. -/
theorem C06_final_declared (hM : methodMatrix method m = some M) (hm : m ≠ 0) :
    Fin.last m ∈ declaredTimeRows M := by
  rw [C06_declared_rows hM]
  obtain ⟨k, rfl⟩ := Nat.exists_eq_succ_of_ne_zero hm
  exact List.mem_map.2 ⟨Fin.last k, List.mem_finRange _, rfl⟩

/-- C06 for the multi-segment `OldIntegrator`: with all rates zero (the default value of the input) the
assigned time partial of a counted segment is empty although rows are declared, so setting it fails. -/
theorem C06_old_integrator_mismatch (hM : methodMatrix method m = some M) (hm : m ≠ 0)
    (count : Fin S → Bool) (j : Fin S) (hc : count j = true) :
    oldAssignedCount M count (fun _ _ => 0) j = 0 ∧ 0 < oldDeclaredCount M count j := by
  constructor
  · simp [oldAssignedCount, dtPartial]
  · unfold oldDeclaredCount
    rw [Finset.card_pos]
    refine ⟨(j, Fin.last m), ?_⟩
    have h := mulVec_ones hM (Fin.last m)
    simp only [Matrix.mulVec, dotProduct] at h
    simp only [Finset.mem_filter, Finset.mem_univ, true_and, dtPartial, lt_irrefl, false_and, if_false, hc,
      and_self, if_true]
    rw [h]
    simpa using hm

/-! ### C07 -/

/-- The increment of the Simpson result over two steps is Simpson's rule. -/
theorem simpson_two_steps {m : ℕ} (hm : m % 2 = 0) (r : Fin (m + 1) → ℝ) (k : ℕ) (hk : 2 * k + 2 ≤ m) :
    (simpsonTri m *ᵥ r) ⟨2 * k + 2, by omega⟩ - (simpsonTri m *ᵥ r) ⟨2 * k, by omega⟩
      = (r ⟨2 * k, by omega⟩ + 4 * r ⟨2 * k + 1, by omega⟩ + r ⟨2 * k + 2, by omega⟩) / 3 := by
  -- solution of the increments recursion
  let x : ℕ → ℝ := fun n => ∑ i ∈ Finset.range n,
    if i % 2 = 0 then 5 / 12 * ext0 r i + 8 / 12 * ext0 r (i + 1) - 1 / 12 * ext0 r (i + 2)
    else -1 / 12 * ext0 r (i - 1) + 8 / 12 * ext0 r i + 5 / 12 * ext0 r (i + 1)
  have hx : ∀ n, x (n + 1) = x n + (if n % 2 = 0 then 5 / 12 * ext0 r n + 8 / 12 * ext0 r (n + 1) - 1 / 12 * ext0 r (n + 2)
    else -1 / 12 * ext0 r (n - 1) + 8 / 12 * ext0 r n + 5 / 12 * ext0 r (n + 1)) := by
    intro n; simp only [x, Finset.sum_range_succ]
  have he : ∀ k, x (2 * k + 1) = x (2 * k) +
      (5 / 12 * ext0 r (2 * k) + 8 / 12 * ext0 r (2 * k + 1) - 1 / 12 * ext0 r (2 * k + 2)) := by
    intro k
    rw [hx, if_pos (by omega)]
  have ho : ∀ k, x (2 * k + 2) = x (2 * k + 1) +
      (-1 / 12 * ext0 r (2 * k) + 8 / 12 * ext0 r (2 * k + 1) + 5 / 12 * ext0 r (2 * k + 2)) := by
    intro k
    rw [hx, if_neg (by omega)]
    simp
  have key := simpsonTri_eq (m := m) hm x (ext0 r) (by simp [x])
    (by intro k _; rw [he]; ring) (by intro k _; rw [ho]; ring)
  rw [ext0_eq] at key
  rw [key, key]
  simp only
  rw [ho, he]
  have e0 : ext0 r (2 * k) = r ⟨2 * k, by omega⟩ := by simp [ext0, show 2 * k < m + 1 by omega]
  have e1 : ext0 r (2 * k + 1) = r ⟨2 * k + 1, by omega⟩ := by
    unfold ext0; rw [dif_pos (by omega)]
  have e2 : ext0 r (2 * k + 2) = r ⟨2 * k + 2, by omega⟩ := by
    unfold ext0; rw [dif_pos (by omega)]
  rw [e0, e1, e2]
  ring

/-- C07 (partial: Simpson, even nodes).  With nonnegative rates and step the integrated quantity does
not decrease from one even node to the next. -/
theorem C07_simpson_even_monotone_partial (hM : methodMatrix .simpson m = some M) (q0 : ℝ) (t : TimeInput ℝ)
    (ht : 0 ≤ t.step m) (r : Fin (m + 1) → ℝ) (hr : ∀ b, 0 ≤ r b) (k l : ℕ) (hkl : k ≤ l)
    (hl : 2 * l ≤ m) :
    integratorCompute M q0 t r ⟨2 * k, by omega⟩ ≤ integratorCompute M q0 t r ⟨2 * l, by omega⟩ := by
  obtain ⟨hm, rfl⟩ := methodMatrix_simpson.1 hM
  obtain ⟨d, rfl⟩ := Nat.exists_eq_add_of_le hkl
  clear hM
  induction d with
  | zero => exact le_rfl
  | succ d ih =>
    refine (ih (by omega) (by omega)).trans ?_
    rw [integratorCompute_eq, integratorCompute_eq]
    have h := simpson_two_steps hm r (k + d) (by omega)
    have hp : 0 ≤ (r ⟨2 * (k + d), by omega⟩ + 4 * r ⟨2 * (k + d) + 1, by omega⟩ + r ⟨2 * (k + d) + 2, by omega⟩) / 3 := by
      have h1 := hr ⟨2 * (k + d), by omega⟩
      have h2 := hr ⟨2 * (k + d) + 1, by omega⟩
      have h3 := hr ⟨2 * (k + d) + 2, by omega⟩
      linarith
    have e : (⟨2 * (k + (d + 1)), by omega⟩ : Fin (m + 1)) = ⟨2 * (k + d) + 2, by omega⟩ := by
      ext; simp only; omega
    rw [e]
    have : (simpsonTri m *ᵥ r) ⟨2 * (k + d), by omega⟩ ≤ (simpsonTri m *ᵥ r) ⟨2 * (k + d) + 2, by omega⟩ := by
      linarith
    nlinarith

/-- C07.  The `*_final` output of the Simpson integrator is not below the initial value. -/
theorem C07_simpson_final_ge (hM : methodMatrix .simpson m = some M) (q0 : ℝ) (t : TimeInput ℝ)
    (ht : 0 ≤ t.step m) (r : Fin (m + 1) → ℝ) (hr : ∀ b, 0 ≤ r b) :
    q0 ≤ integratorFinal M q0 t r := by
  have hm := (methodMatrix_simpson.1 hM).1
  have h := C07_simpson_even_monotone_partial hM q0 t ht r hr 0 (m / 2) (by omega) (by omega)
  have e : (⟨2 * (m / 2), by omega⟩ : Fin (m + 1)) = Fin.last m := by ext; simp; omega
  have e0 : (⟨2 * 0, by omega⟩ : Fin (m + 1)) = 0 := rfl
  rw [e, e0, C03_first_node hM] at h
  exact h

/-- C07 fails in full: with the nonnegative rates (0, 0, 1) the value at node 1 is below the initial
value (Simpson, three nodes, unit step). -/
theorem C07_simpson_decrease :
    integratorCompute (simpsonTri 2) (0 : ℝ) (.dt 1) ![0, 0, 1] 1 < 0 := by
  rw [integratorCompute_eq]
  have e : (![(0 : ℝ), 0, 1] : Fin 3 → ℝ) = fun b : Fin 3 =>
      (fun k : ℕ => if k = 2 then (1 : ℝ) else 0) b := by
    funext b; fin_cases b <;> simp
  rw [e, simpsonTri_eq (m := 2) (by norm_num) (fun k => if k = 1 then (-1 / 12 : ℝ) else if k = 2 then 4 / 12 else 0)
    (fun k : ℕ => if k = 2 then (1 : ℝ) else 0) (by simp)
    (by intro k hk; obtain rfl : k = 0 := by omega
        norm_num)
    (by intro k hk; obtain rfl : k = 0 := by omega
        norm_num)]
  norm_num [TimeInput.step]

end Verif.Integrals
