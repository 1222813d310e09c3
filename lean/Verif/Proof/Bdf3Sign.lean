import Verif.Props.IntegralsPartials

/-! Signs of the entries of the BDF3 matrix (for C07). -/

namespace Verif.Integrals

open Matrix Finset

/-- The homogeneous BDF3 recursion started from three values. -/
noncomputable def bdfSeq (a b c : ℝ) : ℕ → ℝ
  | 0 => a
  | 1 => b
  | 2 => c
  | k + 3 => 18 / 11 * bdfSeq a b c (k + 2) - 9 / 11 * bdfSeq a b c (k + 1) + 2 / 11 * bdfSeq a b c k

theorem rec_nonneg (x : ℕ → ℝ) (n0 : ℕ)
    (hrec : ∀ k, n0 ≤ k → x (k + 3) = 18 / 11 * x (k + 2) - 9 / 11 * x (k + 1) + 2 / 11 * x k)
    (y : ℝ) (hy : x (n0 + 2) - 7 / 11 * x (n0 + 1) + 2 / 11 * x n0 = 6 / 11 * y)
    (h0 : |x n0 - y| ≤ y) (h1 : |x (n0 + 1) - y| ≤ y) : ∀ k, n0 ≤ k → 0 ≤ x k := by
  have key : ∀ d, x (n0 + d + 2) - 7 / 11 * x (n0 + d + 1) + 2 / 11 * x (n0 + d) = 6 / 11 * y ∧
      |x (n0 + d) - y| ≤ y ∧ |x (n0 + d + 1) - y| ≤ y := by
    intro d
    induction d with
    | zero => exact ⟨hy, h0, h1⟩
    | succ d ih =>
      obtain ⟨c, a0, a1⟩ := ih
      have r := hrec (n0 + d) (by omega)
      refine ⟨?_, a1, ?_⟩
      · have e1 : n0 + (d + 1) + 2 = n0 + d + 3 := by omega
        have e2 : n0 + (d + 1) + 1 = n0 + d + 2 := by omega
        have e3 : n0 + (d + 1) = n0 + d + 1 := by omega
        rw [e1, e2, e3]
        linarith
      · have e2 : n0 + (d + 1) + 1 = n0 + d + 2 := by omega
        rw [e2]
        rw [abs_le] at *
        constructor <;> linarith
  intro k hk
  obtain ⟨d, rfl⟩ := Nat.exists_eq_add_of_le hk
  have := (key d).2.1
  rw [abs_le] at this
  linarith

theorem bdfSeq_rec (a b c : ℝ) (k : ℕ) :
    bdfSeq a b c (k + 3) = 18 / 11 * bdfSeq a b c (k + 2) - 9 / 11 * bdfSeq a b c (k + 1)
      + 2 / 11 * bdfSeq a b c k := rfl

/-- Response of the scheme to a unit rate at one of the first three steps. -/
theorem bdf_column_early {m : ℕ} (hm : 3 ≤ m) (b : ℕ) (hb : 1 ≤ b ∧ b ≤ 3) (v1 v2 v3 : ℝ)
    (h0 : -1 / 2 * v1 + v2 - 1 / 6 * v3 = if b = 1 then 1 else 0)
    (h1 : - v1 + 1 / 2 * v2 + 1 / 3 * v3 = if b = 2 then 1 else 0)
    (h2 : 9 / 11 * v1 - 18 / 11 * v2 + v3 = if b = 3 then 6 / 11 else 0) (a : Fin (m + 1)) :
    (bdf3Tri false m *ᵥ fun j : Fin (m + 1) => if (j : ℕ) = b then (1 : ℝ) else 0) a
      = if (a : ℕ) = 0 then 0 else bdfSeq v1 v2 v3 (a - 1) := by
  refine bdf3Tri_eq hm (fun k => if k = 0 then (0 : ℝ) else bdfSeq v1 v2 v3 (k - 1))
    (fun k => if k = b then (1 : ℝ) else 0) (by simp) ?_ ?_ ?_ ?_ a
  · simpa [bdfSeq, eq_comm] using h0
  · simpa [bdfSeq, eq_comm] using h1
  · have : (6 / 11 : ℝ) * (if (3 : ℕ) = b then 1 else 0) = if b = 3 then 6 / 11 else 0 := by
      by_cases h : b = 3 <;> simp [h, eq_comm]
    rw [this, ← h2]
    simp [bdfSeq]
  · intro k _
    have e : ¬ (k + 4 = b) := by omega
    have r := bdfSeq_rec v1 v2 v3 k
    simp only [e, if_false, Nat.add_eq_zero_iff, OfNat.ofNat_ne_zero, one_ne_zero, and_false]
    have e1 : k + 4 - 1 = k + 3 := by omega
    have e2 : k + 3 - 1 = k + 2 := by omega
    have e3 : k + 2 - 1 = k + 1 := by omega
    have e4 : k + 1 - 1 = k := by omega
    rw [e1, e2, e3, e4, r]
    ring

theorem bdf_column_late {m : ℕ} (hm : 3 ≤ m) (b : ℕ) (hb : 4 ≤ b) (a : Fin (m + 1)) :
    (bdf3Tri false m *ᵥ fun j : Fin (m + 1) => if (j : ℕ) = b then (1 : ℝ) else 0) a
      = bdfSeq 0 0 (6 / 11) (a + 2 - b) := by
  have z : ∀ k, k + 2 - b ≤ 1 → bdfSeq 0 0 (6 / 11) (k + 2 - b) = 0 := by
    intro k hk
    rcases Nat.le_one_iff_eq_zero_or_eq_one.1 hk with h | h <;> simp [h, bdfSeq]
  refine bdf3Tri_eq hm (fun k => bdfSeq 0 0 (6 / 11) (k + 2 - b))
    (fun k => if k = b then (1 : ℝ) else 0) (z 0 (by omega)) ?_ ?_ ?_ ?_ a
  · have e : ¬ (1 = b) := by omega
    simp only [e, if_false]
    rw [z 1 (by omega), z 2 (by omega), z 3 (by omega)]; norm_num
  · have e : ¬ (2 = b) := by omega
    simp only [e, if_false]
    rw [z 1 (by omega), z 2 (by omega), z 3 (by omega)]; norm_num
  · have e : ¬ (3 = b) := by omega
    simp only [e, if_false]
    rw [z 1 (by omega), z 2 (by omega), z 3 (by omega)]; norm_num
  · intro k _
    rcases lt_trichotomy (k + 4) b with h | h | h
    · simp only [h.ne, if_false]
      rw [z (k + 1) (by omega), z (k + 2) (by omega), z (k + 3) (by omega), z (k + 4) (by omega)]; norm_num
    · have e : k + 4 + 2 - b = 2 := by omega
      rw [if_pos h, z (k + 1) (by omega), z (k + 2) (by omega), z (k + 3) (by omega), e]
      norm_num [bdfSeq]
    · simp only [h.ne', if_false]
      obtain ⟨j, hj⟩ : ∃ j, k + 4 + 2 - b = j + 3 := ⟨k + 3 - b, by omega⟩
      have e1 : k + 3 + 2 - b = j + 2 := by omega
      have e2 : k + 2 + 2 - b = j + 1 := by omega
      have e3 : k + 1 + 2 - b = j := by omega
      rw [hj, e1, e2, e3, bdfSeq_rec]
      ring

theorem bdfSeq_late_nonneg (k : ℕ) : 0 ≤ bdfSeq 0 0 (6 / 11) k :=
  rec_nonneg (bdfSeq 0 0 (6 / 11)) 0 (fun _ _ => rfl) 1 (by norm_num [bdfSeq]) (by norm_num [bdfSeq])
    (by norm_num [bdfSeq]) k (Nat.zero_le _)

theorem bdfSeq_c1_nonneg (k : ℕ) : 0 ≤ bdfSeq (23 / 12) (7 / 3) (9 / 4) k :=
  rec_nonneg (bdfSeq (23 / 12) (7 / 3) (9 / 4)) 0 (fun _ _ => rfl) (49 / 24) (by norm_num [bdfSeq])
    (by norm_num [bdfSeq, abs_le]) (by norm_num [bdfSeq, abs_le]) k (Nat.zero_le _)

theorem bdfSeq_c2_nonneg (k : ℕ) (hk : 2 ≤ k) : 0 ≤ bdfSeq (-4 / 3) (-2 / 3) 0 k :=
  rec_nonneg (bdfSeq (-4 / 3) (-2 / 3) 0) 2 (fun _ _ => rfl) (1 / 3) (by norm_num [bdfSeq])
    (by norm_num [bdfSeq, abs_le]) (by norm_num [bdfSeq, abs_le]) k hk

theorem bdfSeq_c3_nonneg (k : ℕ) : 0 ≤ bdfSeq (5 / 12) (1 / 3) (3 / 4) k :=
  rec_nonneg (bdfSeq (5 / 12) (1 / 3) (3 / 4)) 0 (fun _ _ => rfl) (9 / 8) (by norm_num [bdfSeq])
    (by norm_num [bdfSeq, abs_le]) (by norm_num [bdfSeq, abs_le]) k (Nat.zero_le _)

/-- All entries in the rows 3, 4, ... are nonnegative. -/
theorem bdf3Tri_nonneg {m : ℕ} (hm : 3 ≤ m) (a : Fin (m + 1)) (ha : 3 ≤ (a : ℕ)) (b : Fin (m + 1)) :
    (0 : ℝ) ≤ bdf3Tri false m a b := by
  have e : (bdf3Tri false m : Matrix _ _ ℝ) a b =
      (bdf3Tri false m *ᵥ fun j : Fin (m + 1) => if (j : ℕ) = (b : ℕ) then (1 : ℝ) else 0) a := by
    simp [Matrix.mulVec, dotProduct, Fin.val_inj]
  rw [e]
  by_cases h4 : 4 ≤ (b : ℕ)
  · rw [bdf_column_late hm b h4]; exact bdfSeq_late_nonneg _
  have ha0 : ¬ ((a : ℕ) = 0) := by omega
  obtain h | h | h | h : (b : ℕ) = 0 ∨ (b : ℕ) = 1 ∨ (b : ℕ) = 2 ∨ (b : ℕ) = 3 := by omega
  · rw [h]
    have : (bdf3Tri false m *ᵥ fun j : Fin (m + 1) => if (j : ℕ) = 0 then (1 : ℝ) else 0) a = 0 :=
      bdf3Tri_eq hm (fun _ => (0 : ℝ)) (fun k => if k = 0 then (1 : ℝ) else 0) (by simp) (by norm_num)
        (by norm_num) (by norm_num) (by intro k _; simp) a
    rw [this]
  · rw [h, bdf_column_early hm 1 (by omega) (23 / 12) (7 / 3) (9 / 4) (by norm_num) (by norm_num)
      (by norm_num), if_neg ha0]
    exact bdfSeq_c1_nonneg _
  · rw [h, bdf_column_early hm 2 (by omega) (-4 / 3) (-2 / 3) 0 (by norm_num) (by norm_num)
      (by norm_num), if_neg ha0]
    exact bdfSeq_c2_nonneg _ (by omega)
  · rw [h, bdf_column_early hm 3 (by omega) (5 / 12) (1 / 3) (3 / 4) (by norm_num) (by norm_num)
      (by norm_num), if_neg ha0]
    exact bdfSeq_c3_nonneg _

end Verif.Integrals
