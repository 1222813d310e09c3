import Verif.Model.PointAnalysis
import Verif.Props.Integrals

/-!
C105: `Integrator` and `OldIntegrator` for every number of nodes, including the point analysis with one node.
-/

namespace Verif.PointAnalysis

open Integrals Matrix

/-- the initial value in effect -/
def start (o : Opts) (qInit : ℝ) : ℝ := if o.zeroStart then 0 else qInit

/-- C105.  The number of nodes decides whether `Integrator` can be used: it has to be odd, and `bdf3` refuses three nodes. -/
theorem C105_accepted (o : Opts) (n : ℕ) (q : ℝ) (t : TimeInput ℝ) (r : ℕ → ℝ) :
    (∃ x, newCompute o n q t r = .ok x) ↔ n % 2 = 1 ∧ ¬ (o.method = .bdf3 ∧ n = 3) := by
  rcases n with _ | m
  · simp [newCompute]
  · unfold newCompute
    by_cases hp : m % 2 > 0
    · simp only [hp, if_true, reduceCtorEq, exists_false, false_iff]; omega
    · simp only [hp, if_false]
      have hodd : (m + 1) % 2 = 1 := by omega
      by_cases h0 : m = 0
      · subst h0; simp
      · simp only [h0, if_false]
        rcases o with ⟨method, z, f⟩
        cases method with
        | simpson => simp [methodMatrix, hp, hodd]
        | bdf3 =>
          by_cases h3 : m < 3
          · have : m = 2 := by omega
            subst this
            simp [methodMatrix]
          · have : m + 1 ≠ 3 := by omega
            simp only [methodMatrix, hp, h3, if_false, hodd, this, and_false, not_false_eq_true, and_self, iff_true]
            exact ⟨_, rfl⟩

/-- C105.  With one node the state does not move: history and final value are the initial value, whatever the rate, the
duration (even zero or negative) and the method. -/
theorem C105_point (o : Opts) (q : ℝ) (t : TimeInput ℝ) (r : ℕ → ℝ) :
    ∃ x, newCompute o 1 q t r = .ok x ∧ x.final = start o q ∧
      (o.finalOnly = false → x.hist = some [start o q]) ∧ (o.finalOnly = true → x.hist = none) := by
  refine ⟨_, rfl, rfl, fun h => ?_, fun h => ?_⟩ <;> simp [Opts.out, h, start]

/-- C105.  Whenever a history is returned it has one entry per node, begins with the initial value and ends with the final
value. -/
theorem C105_history {o : Opts} {n : ℕ} {q : ℝ} {t : TimeInput ℝ} {r : ℕ → ℝ} {x : Out ℝ} {l : List ℝ}
    (h : newCompute o n q t r = .ok x) (hl : x.hist = some l) :
    l.length = n ∧ l.head? = some (start o q) ∧ l.getLast? = some x.final := by
  rcases n with _ | m
  · simp [newCompute] at h
  · unfold newCompute at h
    by_cases hp : m % 2 > 0
    · simp [hp] at h
    · have hs : (if o.zeroStart = true then (0 : ℝ) else q) = start o q := rfl
      simp only [hp, if_false, hs] at h
      by_cases h0 : m = 0
      · subst h0
        simp only [if_true, Except.ok.injEq] at h
        subst h
        simp only [Opts.out] at hl ⊢
        split_ifs at hl
        simp only [Option.some.injEq] at hl
        subst hl
        simp [start]
      · simp only [h0, if_false] at h
        cases hM : (methodMatrix o.method m : Option (Matrix (Fin (m + 1)) (Fin (m + 1)) ℝ)) with
        | none => simp [hM] at h
        | some M =>
          simp only [hM, Except.ok.injEq] at h
          subst h
          simp only [Opts.out] at hl ⊢
          split_ifs at hl
          simp only [Option.some.injEq] at hl
          subst hl
          refine ⟨by simp, ?_, ?_⟩
          · rw [List.ofFn_succ, List.head?_cons, C03_first_node hM]
          · rw [List.ofFn_succ', List.concat_eq_append, List.getLast?_append]; simp

/-- C105.  `final_only` drops the history and nothing else. -/
theorem C105_final_only (o : Opts) (n : ℕ) (q : ℝ) (t : TimeInput ℝ) (r : ℕ → ℝ) :
    (newCompute { o with finalOnly := true } n q t r).map Out.final
      = (newCompute { o with finalOnly := false } n q t r).map Out.final ∧
    ∀ x, newCompute { o with finalOnly := true } n q t r = .ok x → x.hist = none := by
  rcases n with _ | m
  · simp [newCompute]
  · unfold newCompute
    by_cases hp : m % 2 > 0
    · simp [hp]
    · simp only [hp, if_false]
      by_cases h0 : m = 0
      · subst h0; simp [Opts.out, Except.map]
      · simp only [h0, if_false]
        cases hM : (methodMatrix o.method m : Option (Matrix (Fin (m + 1)) (Fin (m + 1)) ℝ)) with
        | none => simp
        | some M => simp [Opts.out, Except.map]

/-- C105.  `zero_start` is the same as an initial value of zero, for every number of nodes. -/
theorem C105_zero_start (o : Opts) (n : ℕ) (q : ℝ) (t : TimeInput ℝ) (r : ℕ → ℝ) :
    newCompute { o with zeroStart := true } n q t r = newCompute { o with zeroStart := false } n 0 t r := by
  rcases n with _ | m
  · rfl
  · simp [newCompute, Opts.out]

/-- C105.  A mission of one-node phases returns the state it was given, however long the phases are. -/
theorem C105_point_mission (o : Opts) (hz : o.zeroStart = false) (q : ℝ) (ps : List (TimeInput ℝ × (ℕ → ℝ))) :
    chain o 1 q ps = .ok q := by
  induction ps generalizing q with
  | nil => rfl
  | cons p ps ih =>
    obtain ⟨x, hx, hf, -⟩ := C105_point o q p.1 p.2
    simp only [start, hz, Bool.false_eq_true, if_false] at hf
    simp only [chain, hx, hf]
    exact ih q

/-- C105.  Shifting the initial state of a mission with any number of nodes shifts its final state by the same amount. -/
theorem C105_mission_shift (o : Opts) (hz : o.zeroStart = false) (n : ℕ) (q d : ℝ) (ps : List (TimeInput ℝ × (ℕ → ℝ))) :
    chain o n (q + d) ps = (chain o n q ps).map (· + d) := by
  have key : ∀ (q : ℝ) (t : TimeInput ℝ) (r : ℕ → ℝ), (newCompute o n (q + d) t r).map Out.final
      = ((newCompute o n q t r).map Out.final).map (· + d) := by
    intro q t r
    rcases n with _ | m
    · simp [newCompute, Except.map]
    · unfold newCompute
      by_cases hp : m % 2 > 0
      · simp [hp, Except.map]
      · simp only [hp, if_false, hz, Bool.false_eq_true]
        by_cases h0 : m = 0
        · subst h0; simp [Opts.out, Except.map]
        · simp only [h0, if_false]
          cases hM : (methodMatrix o.method m : Option (Matrix (Fin (m + 1)) (Fin (m + 1)) ℝ)) with
          | none => simp [Except.map]
          | some M =>
            simp only [Opts.out, Except.map, Except.ok.injEq, integratorCompute_eq]
            ring
  induction ps generalizing q with
  | nil => rfl
  | cons p ps ih =>
    have hk := key q p.1 p.2
    simp only [chain]
    cases h1 : newCompute o n q p.1 p.2 with
    | error e =>
      cases h2 : newCompute o n (q + d) p.1 p.2 with
      | error e' => simp only [h1, h2, Except.map, Except.error.injEq] at hk ⊢; exact hk
      | ok y => simp [h1, h2, Except.map] at hk
    | ok x =>
      cases h2 : newCompute o n (q + d) p.1 p.2 with
      | error e' => simp [h1, h2, Except.map] at hk
      | ok y =>
        simp only [h1, h2, Except.map, Except.ok.injEq] at hk
        simp only [hk]
        exact ih x.final

/-- C105.  On one segment `OldIntegrator` gives what `Integrator` gives, except in the case of `C105_old_zero_start_fails`. -/
theorem C105_old_agrees_partial (o : Opts) (n : ℕ) (h : n ≠ 1 ∨ o.zeroStart = false) (q : ℝ) (t : TimeInput ℝ)
    (r : ℕ → ℕ → ℝ) : oldCompute o n q (.single t) r = newCompute o n q t (r 0) := by
  rcases n with _ | m
  · rfl
  · unfold oldCompute newCompute
    by_cases hp : m % 2 > 0
    · simp [hp]
    · simp only [hp, if_false]
      by_cases h0 : m = 0
      · subst h0
        have hz : o.zeroStart = false := by simpa using h
        simp [hz]
      · simp only [h0, if_false]
        cases hM : (methodMatrix o.method m : Option (Matrix (Fin (m + 1)) (Fin (m + 1)) ℝ)) with
        | none => simp
        | some M =>
          have hr : (fun (i : Fin 1) (b : Fin (m + 1)) => r i b) = fun (_ : Fin 1) (b : Fin (m + 1)) => r 0 b := by
            funext i b; rw [Subsingleton.elim i 0]; rfl
          have hc : (countCol none none : Fin 1 → Bool) = fun _ => true := rfl
          simp only [hr, hc]
          rfl

/-- C105, negation.  The point analysis with `zero_start` works in `Integrator`; `OldIntegrator` raises a `TypeError`. -/
theorem C105_old_zero_start_fails (o : Opts) (hz : o.zeroStart = true) (q : ℝ) (t : TimeInput ℝ) (r : ℕ → ℕ → ℝ) :
    oldCompute o 1 q (.single t) r = .error .typeError ∧ ∃ x, newCompute o 1 q t (r 0) = .ok x ∧ x.final = 0 := by
  refine ⟨by simp [oldCompute, hz], _, rfl, by simp [Opts.out, hz]⟩

/-- C105, negation.  The point analysis with named segments never runs in `OldIntegrator`. -/
theorem C105_old_segments_fail (o : Opts) (q : ℝ) (S : ℕ) (d : Bool) (names : Fin (S + 1) → String)
    (counted : Option (List String)) (dts : Fin (S + 1) → ℝ) (r : ℕ → ℕ → ℝ) :
    oldCompute o 1 q (.segments S d names counted dts) r = .error .keyError := by
  simp [oldCompute]

/-- C105.  Several segments: the history has the nodes of all segments, begins with the initial value and ends with the
final value. -/
theorem C105_old_history {o : Opts} {n : ℕ} {q : ℝ} {S : ℕ} {d : Bool} {names : Fin (S + 1) → String}
    {counted : Option (List String)} {dts : Fin (S + 1) → ℝ} {r : ℕ → ℕ → ℝ} {x : Out ℝ} {l : List ℝ}
    (h : oldCompute o n q (.segments S d names counted dts) r = .ok x) (hl : x.hist = some l) :
    l.length = (S + 1) * n ∧ l.head? = some (start o q) ∧ l.getLast? = some x.final := by
  rcases n with _ | m
  · simp [oldCompute] at h
  · unfold oldCompute at h
    by_cases hp : m % 2 > 0
    · simp [hp] at h
    · have hs : (if o.zeroStart = true then (0 : ℝ) else q) = start o q := rfl
      simp only [hp, if_false, hs] at h
      by_cases h0 : m = 0
      · subst h0
        simp at h
      · simp only [h0, if_false] at h
        cases hM : (methodMatrix o.method m : Option (Matrix (Fin (m + 1)) (Fin (m + 1)) ℝ)) with
        | none => simp [hM] at h
        | some M =>
          simp only [hM] at h
          cases d with
          | false => simp at h
          | true =>
          simp only [Bool.true_eq_false, if_false, Except.ok.injEq] at h
          subst h
          simp only [Opts.out] at hl ⊢
          split_ifs at hl
          simp only [Option.some.injEq] at hl
          subst hl
          refine ⟨by simp [List.length_flatMap], ?_, ?_⟩
          · rw [List.finRange_succ, List.flatMap_cons, List.ofFn_succ, List.cons_append, List.head?_cons,
              C04_initial hM]
          · rw [List.finRange_succ_last, List.flatMap_append, List.flatMap_singleton, List.ofFn_succ',
              List.concat_eq_append, ← List.append_assoc, List.getLast?_append]; simp

/-- Fuel used in a point analysis of a phase flown for 100 s at 2 kg/s, beginning with 5 kg used. -/
example : ∃ x, newCompute ⟨.simpson, false, false⟩ 1 (5 : ℝ) (.duration 100) (fun _ => 2) = .ok x ∧ x.final = 5 ∧
    x.hist = some [5] := by
  obtain ⟨x, h, hf, hh, -⟩ := C105_point ⟨.simpson, false, false⟩ 5 (.duration 100) (fun _ => 2)
  exact ⟨x, h, by simpa [start] using hf, by simpa [start] using hh rfl⟩

/-- Two one-node phases in a row. -/
example : chain ⟨.bdf3, false, true⟩ 1 (5 : ℝ) [(.dt 60, fun _ => 1), (.bounds 0 30, fun _ => 7)] = .ok 5 :=
  C105_point_mission _ rfl _ _

example : ¬ ∃ x, newCompute ⟨.bdf3, false, true⟩ 3 (5 : ℝ) (.dt 60) (fun _ => 1) = .ok x :=
  fun h => ((C105_accepted _ _ _ _ _).1 h).2 ⟨rfl, rfl⟩

/-- The old class with the segments climb and cruise, one node each. -/
example : oldCompute ⟨.simpson, false, false⟩ 1 (5 : ℝ) (.segments 1 true ![ "climb", "cruise" ] none ![10, 20])
    (fun _ _ => 1) = .error .keyError := C105_old_segments_fail _ _ _ _ _ _ _ _

end Verif.PointAnalysis
