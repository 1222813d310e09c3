import Verif.Model.Label
import Mathlib.Analysis.Calculus.Deriv.Basic

namespace Verif.Label

/-! ### C128: DVLabel -/

theorem compute_at (l : List Row) (hn : (l.map Row.out).Nodup) (x y : String → ℕ → ℝ) : ∀ r ∈ l, compute l x y r.out = x r.inp := by
  have keep : ∀ (l : List Row) (y : String → ℕ → ℝ) (n : String), n ∉ l.map Row.out → compute l x y n = y n := by
    intro l
    induction l with
    | nil => intro y n _; rfl
    | cons a l ih =>
      intro y n h
      simp only [List.map_cons, List.mem_cons, not_or] at h
      have := ih (fun n => if n = a.out then x a.inp else y n) n h.2
      simp only [h.1, if_false] at this
      exact this
  induction l generalizing y with
  | nil => simp
  | cons a l ih =>
    rw [List.map_cons, List.nodup_cons] at hn
    intro r hr
    rcases List.mem_cons.1 hr with rfl | hr
    · have := keep l (fun n => if n = r.out then x r.inp else y n) r.out hn.1
      rw [if_pos rfl] at this
      exact this
    · exact ih hn.2 (fun n => if n = a.out then x a.inp else y n) r hr

/-- how an entry of an output changes with an entry of an input -/
theorem compute_deriv (l : List Row) (hn : (l.map Row.out).Nodup) (x y : String → ℕ → ℝ) (r : Row) (hr : r ∈ l) (i : String) (k j : ℕ) :
    HasDerivAt (fun t => compute l (Function.update x i (Function.update (x i) j t)) y r.out k)
      (if r.inp = i ∧ k = j then 1 else 0) (x i j) := by
  have e : (fun t => compute l (Function.update x i (Function.update (x i) j t)) y r.out k) =
      fun t => if r.inp = i ∧ k = j then t else x r.inp k := by
    funext t
    rw [compute_at l hn _ _ r hr]
    by_cases h : r.inp = i
    · subst h
      by_cases hk : k = j
      · subst hk; simp
      · simp [hk]
    · simp [h]
  rw [e]
  split
  · exact hasDerivAt_id _
  · exact hasDerivAt_const _ _

theorem init_out (l : List Row) : (init l).map Row.out = l.map Row.out := by simp [init, Function.comp_def]

/-- **C128** (fresh lists).  A `DVLabel` built from lists of four entries is accepted by OpenMDAO, copies every input to its output, and
its declared partial derivatives are the true ones: of each entry in each entry of its own input, and zero (nothing declared) in all
other inputs. -/
theorem C128_identity (l : List Row) (hf : ∀ r ∈ l, r.tail = []) (hn : (l.map Row.out).Nodup) (x y : String → ℕ → ℝ) :
    setup (init l) = true ∧ ∀ r ∈ init l, compute (init l) x y r.out = x r.inp ∧ ∀ k j, k < r.size → j < r.size →
      HasDerivAt (fun t => compute (init l) (Function.update x r.inp (Function.update (x r.inp) j t)) y r.out k) (r.jac k j) (x r.inp j) ∧
      ∀ i, i ≠ r.inp → HasDerivAt (fun t => compute (init l) (Function.update x i (Function.update (x i) j t)) y r.out k) 0 (x i j) := by
  have hd : ∀ r ∈ init l, r.declared = r.size := by
    intro r hr
    obtain ⟨q, hq, rfl⟩ := List.mem_map.1 hr
    simp [Row.declared, hf q hq, Row.size]
  have hn' : ((init l).map Row.out).Nodup := by rwa [init_out]
  refine ⟨List.all_eq_true.2 fun r hr => by simp [hd r hr], fun r hr => ⟨compute_at _ hn' _ _ r hr, fun k j hk _ => ⟨?_, fun i hi => ?_⟩⟩⟩
  · have := compute_deriv _ hn' x y r hr r.inp k j
    simpa [Row.jac, hd r hr, hk] using this
  · have := compute_deriv _ hn' x y r hr i k j
    simpa [Ne.symm hi] using this

/-- **C128** (used twice).  The constructor changes the lists it is given (each gets one entry longer), but a second `DVLabel` from the
same, otherwise unchanged, lists declares the same sizes. -/
theorem C128_reuse (l : List Row) (hf : ∀ r ∈ l, r.tail = []) :
    ((init l).map fun r => r.tail.length) = l.map (fun _ => 1) ∧
    ((init (init l)).map fun r => r.tail.length) = l.map (fun _ => 2) ∧
    (init (init l)).map Row.declared = (init l).map Row.declared ∧ setup (init (init l)) = true := by
  refine ⟨?_, ?_, ?_, ?_⟩
  · simp only [init, List.map_map]
    exact List.map_congr_left fun r hr => by simp [hf r hr]
  · simp only [init, List.map_map]
    exact List.map_congr_left fun r hr => by simp [hf r hr]
  · simp only [init, List.map_map]
    exact List.map_congr_left fun r hr => by simp [hf r hr, Row.declared]
  · simp only [setup, init, List.map_map, List.all_map, List.all_eq_true]
    intro r hr
    simp [Row.declared, hf r hr, Row.size]

/-- **C128**, negation.  If the caller uses its lists again with a value of another size `s'`, the second `DVLabel` still declares the
size of the first: with a smaller value OpenMDAO refuses the component, with a larger one the partial derivatives of the entries beyond
the old size are declared zero although they are one. -/
theorem C128_stale (l : List Row) (hf : ∀ r ∈ l, r.tail = []) (hn : (l.map Row.out).Nodup) (x y : String → ℕ → ℝ) (r : Row) (hr : r ∈ l)
    (s : List ℕ) :
    (s.prod < r.size → setup (init (reshape r.out s (init l))) = false) ∧
    (∀ k, r.size ≤ k → ∃ q ∈ init (reshape r.out s (init l)), q.out = r.out ∧ q.inp = r.inp ∧ q.size = s.prod ∧ q.jac k k = 0 ∧
      HasDerivAt (fun t => compute (init (reshape r.out s (init l))) (Function.update x r.inp (Function.update (x r.inp) k t)) y r.out k)
        1 (x r.inp k)) := by
  have hq : (⟨r.inp, r.out, s, r.units, [r.size, s.prod]⟩ : Row) ∈ init (reshape r.out s (init l)) := by
    refine List.mem_map.2 ⟨⟨r.inp, r.out, s, r.units, [r.size]⟩, List.mem_map.2 ⟨⟨r.inp, r.out, r.shape, r.units, [r.size]⟩,
      List.mem_map.2 ⟨r, hr, ?_⟩, ?_⟩, ?_⟩
    · simp [hf r hr]
    · simp
    · simp [Row.size]
  have hn' : ((init (reshape r.out s (init l))).map Row.out).Nodup := by
    have : (init (reshape r.out s (init l))).map Row.out = l.map Row.out := by
      rw [init_out, reshape, List.map_map, ← init_out l]
      refine List.map_congr_left fun q _ => ?_
      simp only [Function.comp]
      split <;> rfl
    rwa [this]
  refine ⟨fun h => ?_, fun k hk => ⟨_, hq, rfl, rfl, rfl, ?_, ?_⟩⟩
  · rw [setup, List.all_eq_false]
    exact ⟨_, hq, by simpa [Row.declared, Row.size] using h⟩
  · simp only [Row.jac, Row.declared, List.headD_cons]
    rw [if_neg (by omega)]
  · have := compute_deriv _ hn' x y _ hq r.inp k k
    simpa using this

/-- a scalar and a 2 × 3 array: sizes 1 and 6 -/
example : (init [⟨"a_in", "a", [], some "m", []⟩, ⟨"b_in", "b", [2, 3], none, []⟩]).map Row.declared = [1, 6] := by decide

/-- the second label of an array of 3 that was built with 2 has no derivative of the third entry -/
example : ∃ q ∈ init (reshape "a" [3] (init [⟨"a_in", "a", [2], none, []⟩])), q.size = 3 ∧ q.jac 2 2 = 0 := by
  refine ⟨⟨"a_in", "a", [3], none, [2, 3]⟩, by decide +kernel, by decide, ?_⟩
  simp [Row.jac, Row.declared]

end Verif.Label
