import Verif.Proof.Bdf3Sign

/-! Property C07 for the BDF3 method. -/

namespace Verif.Integrals

open Matrix Finset

/-- C07 (partial: all nodes but the first two after the start).  With nonnegative rates and step the
BDF3 result at node 3 and later, in particular the final value, is not below the initial value. -/
theorem C07_bdf3_late_nodes_partial {m : ℕ} {M : Matrix (Fin (m + 1)) (Fin (m + 1)) ℝ}
    (hM : methodMatrix .bdf3 m = some M) (q0 : ℝ) (t : TimeInput ℝ) (ht : 0 ≤ t.step m)
    (r : Fin (m + 1) → ℝ) (hr : ∀ b, 0 ≤ r b) (a : Fin (m + 1)) (ha : 3 ≤ (a : ℕ)) :
    q0 ≤ integratorCompute M q0 t r a := by
  obtain ⟨_, hm, rfl⟩ := methodMatrix_bdf3.1 hM
  rw [integratorCompute_eq]
  have : 0 ≤ (bdf3Tri false m *ᵥ r) a := by
    simp only [Matrix.mulVec, dotProduct]
    exact Finset.sum_nonneg fun b _ => mul_nonneg (bdf3Tri_nonneg hm a ha b) (hr b)
  have := mul_nonneg this ht
  linarith

theorem C07_bdf3_final_ge {m : ℕ} {M : Matrix (Fin (m + 1)) (Fin (m + 1)) ℝ}
    (hM : methodMatrix .bdf3 m = some M) (q0 : ℝ) (t : TimeInput ℝ) (ht : 0 ≤ t.step m)
    (r : Fin (m + 1) → ℝ) (hr : ∀ b, 0 ≤ r b) : q0 ≤ integratorFinal M q0 t r :=
  C07_bdf3_late_nodes_partial hM q0 t ht r hr (Fin.last m)
    (by simpa using (methodMatrix_bdf3.1 hM).2.1)

/-- C07 fails for the first nodes of BDF3: a unit rate at node 2 only makes the value at node 1
`-4/3` for every node count. -/
theorem C07_bdf3_decrease {m : ℕ} (hm : 3 ≤ m) :
    integratorCompute (bdf3Tri false m) (0 : ℝ) (.dt 1)
      (fun j => if (j : ℕ) = 2 then 1 else 0) ⟨1, by omega⟩ = -4 / 3 := by
  rw [integratorCompute_eq, bdf_column_early hm 2 (by omega) (-4 / 3) (-2 / 3) 0 (by norm_num) (by norm_num)
      (by norm_num)]
  norm_num [bdfSeq, TimeInput.step]

/-- hypotheses of `C07_bdf3_late_nodes_partial` are met by a five node component -/
example : ∃ (M : Matrix (Fin 5) (Fin 5) ℝ), methodMatrix .bdf3 4 = some M ∧
    0 ≤ (TimeInput.duration (8 : ℝ)).step 4 :=
  ⟨_, methodMatrix_bdf3.2 ⟨rfl, by norm_num, rfl⟩, by norm_num [TimeInput.step]⟩

end Verif.Integrals
