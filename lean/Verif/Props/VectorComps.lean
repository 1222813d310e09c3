import Verif.Proof.VectorComps
import Mathlib.Algebra.BigOperators.Ring.List
import Mathlib.Tactic.IntervalCases

/-! Properties C12 - C14: `AddSubtractComp`. -/

namespace Verif.VectorComps

open Finset

/-! ### C12 -/

/-- C12.  The output is the sum of scaling factor times input, element by element; inputs of size 1 are
broadcast (row 0 is used for every row). -/
theorem C12_compute (s : AddSys ℝ) (env : String → ℕ → ℕ → ℝ) (i j : ℕ) :
    s.compute env i j = ∑ k : Fin s.inputs.length,
      s.factors.getD k 0 * env (s.inputs[k]) (if s.vecSize.get k = 1 then 0 else i) j := by
  unfold AddSys.compute
  rw [foldl_add s.inputs.zipIdx
    (fun p => env p.1 (if s.vecSize.get p.2 = 1 then 0 else i) j * s.factors.getD p.2 0), zero_add]
  rw [← List.sum_ofFn]
  congr 1
  apply List.ext_getElem
  · simp
  · intro n h1 h2
    simp [mul_comm]

/-- C12.  With default factors and no broadcasting this is the plain sum. -/
theorem C12_default_sum (s : AddSys ℝ) (hs : s.scaling = none) (n : ℕ) (hv : s.vecSize = .all n)
    (hn : n ≠ 1) (env : String → ℕ → ℕ → ℝ) (i j : ℕ) :
    s.compute env i j = ∑ k : Fin s.inputs.length, env (s.inputs[k]) i j := by
  rw [C12_compute]
  refine Finset.sum_congr rfl fun k _ => ?_
  have : s.factors.getD (k : ℕ) 0 = 1 := by
    simp only [AddSys.factors, hs, Option.getD_none]
    rw [List.getD_eq_getElem _ _ (by simp)]
    simp
  rw [this, hv]
  simp [VecSize.get, hn]

theorem badLength_iff (v : VecSize) (n : ℕ) : v.badLength n = false ↔ ∀ l, v = .each l → l.length = n := by
  cases v with
  | all k => simp [VecSize.badLength]
  | each l =>
    simp only [VecSize.badLength, VecSize.each.injEq]
    constructor
    · rintro h _ rfl; simpa using h
    · intro h; simpa using h l rfl

theorem noSizes_iff (v : VecSize) : v.noSizes = false ↔ v ≠ .each [] := by
  cases v with
  | all k => simp [VecSize.noSizes]
  | each l => cases l <;> simp [VecSize.noSizes]

/-- C12.  `setup` accepts an equation exactly when the numbers of factors and sizes match the number of
inputs, all names are distinct, and each input has the size of the output or size 1. -/
theorem C12_accepts_iff (s : AddSys ℝ) (hl : 0 < s.length) :
    (∃ r, s.setup = .ok r) ↔
      s.factors.length = s.inputs.length ∧ (∀ l, s.vecSize = .each l → l.length = s.inputs.length) ∧
      s.vecSize ≠ .each [] ∧ (s.output :: s.inputs).Nodup ∧
      ∀ i < s.inputs.length, s.vecSize.get i = 1 ∨ s.vecSize.get i = s.vecSize.out := by
  have hsetup : (∃ r, s.setup = .ok r) ↔ s.check = .ok () := by
    unfold AddSys.setup
    cases h : s.check with
    | error e => simp
    | ok u => simp
  rw [hsetup]
  unfold AddSys.check
  have hc := fun i => colsOk_iff s.vecSize i s.length hl
  simp only [hc]
  constructor
  · intro h
    split_ifs at h with h1 h2 h3 h4 h5
    exact ⟨not_not.1 h1, (badLength_iff _ _).1 (by simpa using h2), (noSizes_iff _).1 (by simpa using h3), h4, h5⟩
  · rintro ⟨h1, h2, h3, h4, h5⟩
    have h2 := (badLength_iff _ _).2 h2
    have h3 := (noSizes_iff _).2 h3
    rw [if_neg (not_not.2 h1), if_neg (by simp [h2]), if_neg (by simp [h3]), if_neg (not_not.2 h4),
      if_neg (not_not.2 h5)]

/-- C12.  In particular an input whose size is neither 1 nor that of the longest input is rejected. -/
theorem C12_incompatible_rejected (s : AddSys ℝ) (hl : 0 < s.length) (i : ℕ) (hi : i < s.inputs.length)
    (h1 : s.vecSize.get i ≠ 1) (h2 : s.vecSize.get i ≠ s.vecSize.out) : ∃ e, s.setup = .error e := by
  cases h : s.setup with
  | error e => exact ⟨e, rfl⟩
  | ok r =>
    rcases ((C12_accepts_iff s hl).1 ⟨r, h⟩).2.2.2.2 i hi with h' | h'
    · exact absurd h' h1
    · exact absurd h' h2

/-- an accepted equation: `c = a - 2 b`, `a` scalar, `b` of size 5 -/
def demo : AddSys ℝ :=
  { output := "c", inputs := ["a", "b"], vecSize := .each [1, 5], length := 1, scaling := some [1, -2],
    kwargs := { units := some (some "m"), desc := none } }

theorem demo_accepted : ∃ r, demo.setup = .ok r := by
  rw [C12_accepts_iff demo (by decide)]
  refine ⟨rfl, (by rintro l h; cases h; rfl), (by intro h; cases h), by decide, ?_⟩
  intro i hi
  have : i < 2 := hi
  interval_cases i
  · left; rfl
  · right; rfl

/-! ### C13 -/

theorem setup_ok_check {s : AddSys ℝ} {r} (h : s.setup = .ok r) : s.check = .ok () ∧ r.1 = s.register := by
  unfold AddSys.setup at h
  cases hc : s.check with
  | error e => rw [hc] at h; cases h
  | ok u => rw [hc] at h; cases h; exact ⟨rfl, rfl⟩

theorem setup_ok_nodup {s : AddSys ℝ} {r} (h : s.setup = .ok r) : (s.output :: s.inputs).Nodup := by
  have := (setup_ok_check h).1
  unfold AddSys.check at this
  split_ifs at this with h1 h2 h3 h4 h5
  exact h4

/-- derivative of the sum with respect to one entry of input `k` -/
theorem addSys_deriv (s : AddSys ℝ) (hn : s.inputs.Nodup) (env : String → ℕ → ℕ → ℝ)
    (k : Fin s.inputs.length) (i j r c : ℕ) :
    HasDerivAt (fun x => s.compute (setEntry env s.inputs[k] r c x) i j)
      (if (if s.vecSize.get k = 1 then 0 else i) = r ∧ j = c then s.factors.getD k 0 else 0)
      (env s.inputs[k] r c) := by
  simp only [C12_compute]
  have : ∀ x, (∑ l : Fin s.inputs.length, s.factors.getD l 0 *
      setEntry env s.inputs[k] r c x (s.inputs[l]) (if s.vecSize.get l = 1 then 0 else i) j)
      = s.factors.getD k 0 * setEntry env s.inputs[k] r c x (s.inputs[k])
          (if s.vecSize.get k = 1 then 0 else i) j
        + ∑ l ∈ univ.erase k, s.factors.getD l 0 *
          env (s.inputs[l]) (if s.vecSize.get l = 1 then 0 else i) j := by
    intro x
    rw [← Finset.add_sum_erase _ _ (Finset.mem_univ k)]
    congr 1
    refine Finset.sum_congr rfl fun l hl => ?_
    have hne : s.inputs[l] ≠ s.inputs[k] := by
      intro he
      have := (List.Nodup.getElem_inj_iff hn).1 he
      exact Finset.ne_of_mem_erase hl (Fin.ext this)
    simp only [setEntry]
    rw [if_neg (fun h => hne h.1)]
  simp only [this]
  apply HasDerivAt.add_const
  by_cases h : (if s.vecSize.get k = 1 then 0 else i) = r ∧ j = c
  · rw [if_pos h]
    have : ∀ x, setEntry env s.inputs[k] r c x (s.inputs[k]) (if s.vecSize.get k = 1 then 0 else i) j = x := by
      intro x; unfold setEntry; rw [if_pos ⟨rfl, h⟩]
    simp only [this]
    hderiv
    ring
  · rw [if_neg h]
    have : ∀ x, setEntry env s.inputs[k] r c x (s.inputs[k]) (if s.vecSize.get k = 1 then 0 else i) j
        = env (s.inputs[k]) (if s.vecSize.get k = 1 then 0 else i) j := by
      intro x; unfold setEntry; rw [if_neg (fun h' => h h'.2)]
    simp only [this]
    exact hasDerivAt_const _ _

/-- C13 (partial: inputs with more than one row, or `length = 1`).  The declared constant partial is the
derivative of the output entry `(i, j)` with respect to the input entry `(r, c)`.
Full statement: without `hsz`.  It is false, see `C13_broadcast_wrong`. -/
theorem C13_jacobian_partial (s : AddSys ℝ) (reg : Reg ℝ × AddSys ℝ) (hs : s.setup = .ok reg)
    (k : Fin s.inputs.length) (hsz : s.vecSize.get k ≠ 1 ∨ s.length = 1)
    (env : String → ℕ → ℕ → ℝ) (i j r c : ℕ) (hi : i < s.vecSize.out) (hj : j < s.length)
    (hr : r < s.vecSize.get k) (hc : c < s.length) :
    ∃ p, reg.1.partials[(k : ℕ)]? = some p ∧ p.wrt = s.inputs[k] ∧
      HasDerivAt (fun x => s.compute (setEntry env s.inputs[k] r c x) i j)
        (p.dense (i * s.length + j) (r * s.length + c)) (env s.inputs[k] r c) := by
  obtain ⟨-, hreg⟩ := setup_ok_check hs
  have hn := (List.nodup_cons.1 (setup_ok_nodup hs)).2
  refine ⟨⟨s.inputs[k], s.vecSize.out * s.length, colVals (s.vecSize.get k),
    fun _ => s.factors.getD k 0⟩, ?_, rfl, ?_⟩
  · rw [hreg]; simp [AddSys.register]
  · refine (addSys_deriv s hn env k i j r c).congr_deriv ?_
    have hlt : i * s.length + j < s.vecSize.out * s.length := by
      calc i * s.length + j < i * s.length + s.length := by omega
        _ = (i + 1) * s.length := by ring
        _ ≤ _ := Nat.mul_le_mul_right _ hi
    unfold RegPartial.dense
    simp only [hlt, true_and, colVals]
    by_cases h1 : s.vecSize.get k = 1
    · have hl : s.length = 1 := hsz.resolve_left (fun h => h h1)
      have : r = 0 := by omega
      have : c = 0 := by omega
      have : j = 0 := by omega
      subst_vars
      simp [h1]
    · simp only [if_neg h1]
      by_cases h2 : i = r ∧ j = c
      · rw [if_pos h2, if_pos ((flat_inj hj hc).2 h2)]
      · rw [if_neg h2, if_neg (fun h => h2 ((flat_inj hj hc).1 h))]

/-- C13 is false for inputs with one row and more than one column: every accepted equation with such an
input and a nonzero factor declares 0 for the entry (row 0, column 1) of the output with respect to the
same entry of the input, while the derivative is the scaling factor. -/
theorem C13_broadcast_wrong (s : AddSys ℝ) (reg : Reg ℝ × AddSys ℝ) (hs : s.setup = .ok reg)
    (k : Fin s.inputs.length) (h1 : s.vecSize.get k = 1) (_hlen : 1 < s.length) (_ho : 0 < s.vecSize.out)
    (hf : s.factors.getD k 0 ≠ 0) (env : String → ℕ → ℕ → ℝ) :
    ∃ p, reg.1.partials[(k : ℕ)]? = some p ∧
      ¬ HasDerivAt (fun x => s.compute (setEntry env s.inputs[k] 0 1 x) 0 1)
        (p.dense (0 * s.length + 1) (0 * s.length + 1)) (env s.inputs[k] 0 1) := by
  obtain ⟨-, hreg⟩ := setup_ok_check hs
  have hn := (List.nodup_cons.1 (setup_ok_nodup hs)).2
  refine ⟨⟨s.inputs[k], s.vecSize.out * s.length, colVals (s.vecSize.get k),
    fun _ => s.factors.getD k 0⟩, ?_, ?_⟩
  · rw [hreg]; simp [AddSys.register]
  · intro h
    have h' := addSys_deriv s hn env k 0 1 0 1
    have := h.unique h'
    simp [RegPartial.dense, colVals, h1] at this
    exact hf this.symm

/-- `c = a + b`, both of shape (1, 3) -/
def demoRow : AddSys ℝ :=
  { output := "c", inputs := ["a", "b"], vecSize := .all 1, length := 3, scaling := none,
    kwargs := { units := none, desc := none } }

/-- the hypotheses of `C13_broadcast_wrong` are met by `demoRow` -/
example : ∃ reg, demoRow.setup = .ok reg ∧ demoRow.vecSize.get 0 = 1 ∧
    1 < demoRow.length ∧ 0 < demoRow.vecSize.out ∧ demoRow.factors.getD 0 0 ≠ 0 := by
  obtain ⟨reg, h⟩ := (C12_accepts_iff demoRow (by decide)).2
    ⟨rfl, (by rintro l h; cases h), (by intro h; cases h), by decide, fun i _ => Or.inl rfl⟩
  exact ⟨reg, h, rfl, by decide, by decide, by simp [AddSys.factors, demoRow]⟩

/-- the hypotheses of `C13_jacobian_partial` are met by `demo` -/
example : ∃ reg, demo.setup = .ok reg := demo_accepted

/-! ### C14 -/

/-- the `n`-th repetition of `setup` (`n = 0`: the first call) -/
noncomputable def setupNth (n : ℕ) (s : AddSys ℝ) : Except Err (Reg ℝ × AddSys ℝ) :=
  match n with
  | 0 => s.setup
  | n + 1 => match s.setup with
    | .error e => .error e
    | .ok (_, s') => setupNth n s'

/-- C14 is false: if units were given, the first `setup` registers them and every later one registers
none, for the output and for all inputs. -/
theorem C14_units_lost (s : AddSys ℝ) (u : String) (hu : s.kwargs.units = some (some u)) (r : Reg ℝ × AddSys ℝ)
    (h : s.setup = .ok r) (n : ℕ) :
    r.1.output.units = some u ∧ (∀ v ∈ r.1.inputs, v.units = some u) ∧
    ∃ r', setupNth (n + 1) s = .ok r' ∧ r'.1.output.units = none ∧ ∀ v ∈ r'.1.inputs, v.units = none := by
  have key : ∀ (n : ℕ) (s : AddSys ℝ), s.check = .ok () → s.kwargs = ⟨none, none⟩ →
      ∃ r', setupNth n s = .ok r' ∧ r'.1.output.units = none ∧ ∀ v ∈ r'.1.inputs, v.units = none := by
    intro n
    induction n with
    | zero =>
      intro s hc hk
      refine ⟨_, by simp only [setupNth, AddSys.setup, hc]; rfl, ?_, ?_⟩
      · simp [AddSys.register, hk]
      · intro v hv
        simp only [AddSys.register, hk, List.mem_map] at hv
        obtain ⟨p, -, rfl⟩ := hv
        rfl
    | succ n ih =>
      intro s hc hk
      obtain ⟨r', h1, h2⟩ := ih { s with kwargs := ⟨none, none⟩ } hc rfl
      refine ⟨r', ?_, h2⟩
      simp only [setupNth, AddSys.setup, hc]
      exact h1
  obtain ⟨hc, hreg⟩ := setup_ok_check h
  refine ⟨by rw [hreg]; simp [AddSys.register, hu], ?_, ?_⟩
  · rw [hreg]
    intro v hv
    simp only [AddSys.register, hu, List.mem_map] at hv
    obtain ⟨p, -, rfl⟩ := hv
    rfl
  · obtain ⟨r', h1, h2⟩ := key n { s with kwargs := ⟨none, none⟩ } hc rfl
    refine ⟨r', ?_, h2⟩
    simp only [setupNth, AddSys.setup, hc]
    exact h1

/-- C14 (partial).  Every repetition of `setup` succeeds and registers the same names, shapes and
partials; and everything is the same if neither units nor a description were given.
Full statement: the registrations are equal; false by `C14_units_lost`. -/
theorem C14_repeat_partial (s : AddSys ℝ) (r : Reg ℝ × AddSys ℝ) (h : s.setup = .ok r) (n : ℕ) :
    ∃ r', setupNth n s = .ok r' ∧ r'.1.partials = r.1.partials ∧
      r'.1.inputs.map (fun v => (v.name, v.rows, v.length)) = r.1.inputs.map (fun v => (v.name, v.rows, v.length)) ∧
      (r'.1.output.name, r'.1.output.rows, r'.1.output.length)
        = (r.1.output.name, r.1.output.rows, r.1.output.length) ∧
      (s.kwargs.units.getD none = none → s.kwargs.desc.getD "" = "" → r'.1 = r.1) := by
  obtain ⟨hc, hreg⟩ := setup_ok_check h
  rw [hreg]
  clear h hreg
  induction n generalizing s with
  | zero =>
    exact ⟨_, by simp only [setupNth, AddSys.setup, hc]; rfl, rfl, rfl, rfl, fun _ _ => rfl⟩
  | succ n ih =>
    obtain ⟨r', h1, h2, h3, h4, h5⟩ := ih { s with kwargs := ⟨none, none⟩ } hc
    refine ⟨r', ?_, h2, ?_, ?_, ?_⟩
    · simp only [setupNth, AddSys.setup, hc]
      exact h1
    · rw [h3]; simp [AddSys.register, Function.comp_def]
    · rw [h4]; rfl
    · intro hu hd
      rw [h5 rfl rfl]
      unfold AddSys.register
      rw [hu, hd]
      rfl

example : ∃ r, demo.setup = .ok r ∧ demo.kwargs.units = some (some "m") :=
  ⟨_, demo_accepted.choose_spec, rfl⟩

end Verif.VectorComps
