import Verif.Model.Derivatives
import Mathlib.Tactic.Ring
import Mathlib.Tactic.Linarith
import Mathlib.Tactic.NormNum
import Mathlib.Algebra.BigOperators.Ring.Finset
import Mathlib.Algebra.BigOperators.Field
import Mathlib.Algebra.Order.BigOperators.Group.Finset

/-! Lemmas on the finite difference stencils. -/

namespace Verif.Derivatives

open Finset

variable {K : Type*} [Field K]

theorem dense_append (l l' : List (Coo K)) (i j : ℕ) :
    dense (l ++ l') i j = dense l i j + dense l' i j := by
  simp [dense]

theorem dense_other {l : List (Coo K)} {i j : ℕ} (h : ∀ e ∈ l, e.row ≠ i) : dense l i j = 0 := by
  unfold dense
  apply List.sum_eq_zero
  intro x hx
  simp only [List.mem_map] at hx
  obtain ⟨e, he, rfl⟩ := hx
  simp [h e he]

theorem dense_flatMap (f : ℕ → List (Coo K)) (hf : ∀ i, ∀ e ∈ f i, e.row = i) (n i j : ℕ) (hi : i < n) :
    dense ((List.range n).flatMap f) i j = dense (f i) i j := by
  induction n with
  | zero => omega
  | succ n ih =>
    rw [List.range_succ, List.flatMap_append, dense_append]
    simp only [List.flatMap_cons, List.flatMap_nil, List.append_nil]
    by_cases h : i = n
    · subst h
      rw [dense_other, zero_add]
      intro e he
      simp only [List.mem_flatMap, List.mem_range] at he
      obtain ⟨a, ha, hea⟩ := he
      have := hf a e hea
      omega
    · rw [ih (by omega), dense_other (l := f n) (i := i), add_zero]
      intro e he
      have := hf n e he
      omega

theorem rowOf_row (o : Order) (nn i : ℕ) : ∀ e ∈ (rowOf o nn i : List (Coo K)), e.row = i := by
  cases o
  · intro e he
    simp only [rowOf, row2] at he
    split_ifs at he with h1 h2
    · subst h1; simp at he; rcases he with rfl | rfl | rfl <;> rfl
    · simp at he; rcases he with rfl | rfl | rfl <;> rfl
    · simp at he; rcases he with rfl | rfl <;> rfl
  · intro e he
    simp only [rowOf, row4, List.mem_map] at he
    obtain ⟨p, -, rfl⟩ := he
    rfl

theorem dense_stencil (o : Order) (nn i j : ℕ) (hi : i < nn) :
    dense (stencilCoo o nn : List (Coo K)) i j = dense (rowOf o nn i) i j := by
  unfold stencilCoo
  exact dense_flatMap (K := K) (rowOf o nn) (rowOf_row o nn) nn i j hi

/-- a row of coordinate entries applied to a vector -/
theorem sum_dense_row (l : List (Coo K)) (i n : ℕ) (hrow : ∀ e ∈ l, e.row = i) (hcol : ∀ e ∈ l, e.col < n)
    (y : ℕ → K) : ∑ b : Fin n, dense l i b * y b = (l.map fun e => e.val * y e.col).sum := by
  rw [Fin.sum_univ_eq_sum_range (fun b => dense l i b * y b)]
  induction l with
  | nil => simp [dense]
  | cons e l ih =>
    have h1 := hrow e (by simp)
    have h2 := hcol e (by simp)
    have : ∀ b, dense (e :: l) i b = (if e.col = b then e.val else 0) + dense l i b := by
      intro b; simp [dense, h1]
    simp only [this, add_mul, Finset.sum_add_distrib, List.map_cons, List.sum_cons]
    rw [ih (fun e' h => hrow e' (by simp [h])) (fun e' h => hcol e' (by simp [h]))]
    congr 1
    simp [ite_mul, h2]

theorem rowOf_col4 {n : ℕ} (hn : 2 ≤ n) (i : ℕ) (hi : i < 2 * n + 1) :
    ∀ e ∈ (rowOf .four (2 * n + 1) i : List (Coo K)), e.col < 2 * n + 1 := by
  intro e he
  simp only [rowOf, row4, List.mem_map] at he
  obtain ⟨p, hp, rfl⟩ := he
  have h5 : (coef4 (2 * n + 1) i : List K).length = 5 := by unfold coef4; split_ifs <;> rfl
  have hp2 : p.2 < 5 := by
    have := List.snd_lt_of_mem_zipIdx hp
    omega
  show base4 (2 * n + 1) i + p.2 < 2 * n + 1
  unfold base4
  split_ifs <;> omega

theorem rowOf_col2 {n : ℕ} (hn : 1 ≤ n) (i : ℕ) (hi : i < 2 * n + 1) :
    ∀ e ∈ (rowOf .two (2 * n + 1) i : List (Coo K)), e.col < 2 * n + 1 := by
  intro e he
  simp only [rowOf, row2] at he
  split_ifs at he with h1 h2
  · simp at he; rcases he with rfl | rfl | rfl <;> simp <;> omega
  · simp at he; rcases he with rfl | rfl | rfl <;> simp <;> omega
  · simp at he; rcases he with rfl | rfl <;> simp <;> omega

/-- the admissible sizes: order 4 needs 2 intervals, order 2 needs 1 -/
def Admissible (o : Order) (n : ℕ) : Prop :=
  match o with
  | .two => 1 ≤ n
  | .four => 2 ≤ n

theorem stencil_apply {o : Order} {n : ℕ} (hn : Admissible o n) (y : ℕ → K) (a : Fin (2 * n + 1)) :
    ∑ b : Fin (2 * n + 1), dense (stencilCoo o (2 * n + 1)) a b * y b
      = ((rowOf o (2 * n + 1) a).map fun e => e.val * y e.col).sum := by
  simp only [dense_stencil o _ _ _ a.isLt]
  refine sum_dense_row _ _ _ (rowOf_row _ _ _) ?_ y
  cases o
  · exact rowOf_col2 hn _ a.isLt
  · exact rowOf_col4 hn _ a.isLt

theorem firstDeriv_eq (o : Order) {S n : ℕ} (dts : Fin S → K) (q : Fin S → Fin (2 * n + 1) → K)
    (i : Fin S) (a : Fin (2 * n + 1)) :
    firstDeriv o dts q i a
      = (∑ b : Fin (2 * n + 1), dense (stencilCoo o (2 * n + 1)) a b * q i b) / dts i := by
  unfold firstDeriv
  rw [Finset.sum_eq_single i]
  · simp only [if_true, Finset.sum_div]
    exact Finset.sum_congr rfl fun b _ => by ring
  · intro j _ hj
    simp [hj.symm]
  · simp

/-- values of the rows (order 4) on a sequence -/
theorem row4_apply {n : ℕ} (hn : 2 ≤ n) (y : ℕ → K) (a : Fin (2 * n + 1)) :
    ((rowOf .four (2 * n + 1) a).map fun e => e.val * y e.col).sum
      = if (a : ℕ) = 0 then -25 / 12 * y 0 + 4 * y 1 - 3 * y 2 + 4 / 3 * y 3 - 1 / 4 * y 4
        else if (a : ℕ) = 1 then -1 / 4 * y 0 - 5 / 6 * y 1 + 3 / 2 * y 2 - 1 / 2 * y 3 + 1 / 12 * y 4
        else if (a : ℕ) = 2 * n - 1 then -1 / 12 * y (2 * n - 4) + 1 / 2 * y (2 * n - 3) - 3 / 2 * y (2 * n - 2)
          + 5 / 6 * y (2 * n - 1) + 1 / 4 * y (2 * n)
        else if (a : ℕ) = 2 * n then 1 / 4 * y (2 * n - 4) - 4 / 3 * y (2 * n - 3) + 3 * y (2 * n - 2)
          - 4 * y (2 * n - 1) + 25 / 12 * y (2 * n)
        else 1 / 12 * y (a - 2) - 2 / 3 * y (a - 1) + 2 / 3 * y (a + 1) - 1 / 12 * y (a + 2) := by
  have ha := a.isLt
  by_cases h0 : (a : ℕ) = 0
  · have e1 : ¬ (0 = 2 * n + 1 - 1) := by omega
    have e2 : ¬ (0 = 2 * n + 1 - 2) := by omega
    simp only [rowOf, row4, coef4, base4, h0, if_true, e1, e2, if_false]
    norm_num
    ring
  by_cases h1 : (a : ℕ) = 1
  · have e1 : ¬ (1 = 2 * n + 1 - 1) := by omega
    have e2 : ¬ (1 = 2 * n + 1 - 2) := by omega
    simp only [rowOf, row4, coef4, base4, h1, if_true, e1, e2, if_false, one_ne_zero]
    norm_num
    ring
  by_cases h2 : (a : ℕ) = 2 * n - 1
  · have e1 : ¬ ((a : ℕ) = 2 * n + 1 - 1) := by omega
    have e2 : ((a : ℕ) = 2 * n + 1 - 2) := by omega
    have e3 : ¬ ((a : ℕ) < 2) := by omega
    have e4 : 2 * n + 1 - 2 ≤ (a : ℕ) := by omega
    simp only [rowOf, row4, coef4, base4, if_pos h2, if_neg h0, if_neg h1, if_neg e1, if_pos e2, if_neg e3, if_pos e4]
    obtain ⟨k, rfl⟩ : ∃ k, n = k + 2 := ⟨n - 2, by omega⟩
    have c0 : 2 * (k + 2) + 1 - 5 + 0 = 2 * (k + 2) - 4 := by omega
    have c1 : 2 * (k + 2) + 1 - 5 + 1 = 2 * (k + 2) - 3 := by omega
    have c2 : 2 * (k + 2) + 1 - 5 + 2 = 2 * (k + 2) - 2 := by omega
    have c3 : 2 * (k + 2) + 1 - 5 + 3 = 2 * (k + 2) - 1 := by omega
    have c4 : 2 * (k + 2) + 1 - 5 + 4 = 2 * (k + 2) := by omega
    simp only [List.zipIdx_cons, List.zipIdx_nil, List.map_cons, List.map_nil, List.sum_cons, List.sum_nil,
      zero_add, Nat.reduceAdd, c0, c1, c2, c3, c4, add_zero]
    ring_nf
  by_cases h3 : (a : ℕ) = 2 * n
  · have e1 : ((a : ℕ) = 2 * n + 1 - 1) := by omega
    have e3 : ¬ ((a : ℕ) < 2) := by omega
    have e4 : 2 * n + 1 - 2 ≤ (a : ℕ) := by omega
    simp only [rowOf, row4, coef4, base4, if_neg h2, if_pos h3, if_neg h0, if_neg h1, if_pos e1, if_neg e3, if_pos e4]
    obtain ⟨k, rfl⟩ : ∃ k, n = k + 2 := ⟨n - 2, by omega⟩
    have c0 : 2 * (k + 2) + 1 - 5 + 0 = 2 * (k + 2) - 4 := by omega
    have c1 : 2 * (k + 2) + 1 - 5 + 1 = 2 * (k + 2) - 3 := by omega
    have c2 : 2 * (k + 2) + 1 - 5 + 2 = 2 * (k + 2) - 2 := by omega
    have c3 : 2 * (k + 2) + 1 - 5 + 3 = 2 * (k + 2) - 1 := by omega
    have c4 : 2 * (k + 2) + 1 - 5 + 4 = 2 * (k + 2) := by omega
    simp only [List.zipIdx_cons, List.zipIdx_nil, List.map_cons, List.map_nil, List.sum_cons, List.sum_nil,
      zero_add, Nat.reduceAdd, c0, c1, c2, c3, c4, add_zero]
    ring_nf
  · have e1 : ¬ ((a : ℕ) = 2 * n + 1 - 1) := by omega
    have e2 : ¬ ((a : ℕ) = 2 * n + 1 - 2) := by omega
    have e3 : ¬ ((a : ℕ) < 2) := by omega
    have e4 : ¬ (2 * n + 1 - 2 ≤ (a : ℕ)) := by omega
    simp only [rowOf, row4, coef4, base4, if_neg h2, if_neg h3, if_neg h0, if_neg h1, if_neg e1, if_neg e2,
      if_neg e3, if_neg e4]
    have c1 : (a : ℕ) - 2 + 1 = a - 1 := by omega
    have c2 : (a : ℕ) - 2 + 2 = a := by omega
    have c3 : (a : ℕ) - 2 + 3 = a + 1 := by omega
    have c4 : (a : ℕ) - 2 + 4 = a + 2 := by omega
    simp only [List.zipIdx_cons, List.zipIdx_nil, List.map_cons, List.map_nil, List.sum_cons, List.sum_nil,
      zero_add, Nat.reduceAdd, c1, c2, c3, c4, add_zero]
    ring_nf

theorem row2_apply {n : ℕ} (hn : 1 ≤ n) (y : ℕ → K) (a : Fin (2 * n + 1)) :
    ((rowOf .two (2 * n + 1) a).map fun e => e.val * y e.col).sum
      = if (a : ℕ) = 0 then -3 / 2 * y 0 + 2 * y 1 - 1 / 2 * y 2
        else if (a : ℕ) = 2 * n then 1 / 2 * y (2 * n - 2) - 2 * y (2 * n - 1) + 3 / 2 * y (2 * n)
        else -1 / 2 * y (a - 1) + 1 / 2 * y (a + 1) := by
  by_cases h0 : (a : ℕ) = 0
  · simp only [rowOf, row2, if_pos h0, List.map_cons, List.map_nil, List.sum_cons, List.sum_nil]; ring
  by_cases h1 : (a : ℕ) = 2 * n
  · have e1 : (a : ℕ) = 2 * n + 1 - 1 := by omega
    have c0 : 2 * n + 1 - 3 = 2 * n - 2 := by omega
    have c1 : 2 * n + 1 - 2 = 2 * n - 1 := by omega
    have c2 : 2 * n + 1 - 1 = 2 * n := by omega
    simp only [rowOf, row2, if_neg h0, if_pos h1, if_pos e1, List.map_cons, List.map_nil, List.sum_cons,
      List.sum_nil, c0, c1, c2]
    ring
  · have e1 : ¬ ((a : ℕ) = 2 * n + 1 - 1) := by omega
    simp only [rowOf, row2, if_neg h0, if_neg h1, if_neg e1, List.map_cons, List.map_nil, List.sum_cons,
      List.sum_nil]
    ring

theorem coo_row_lt {o : Order} {nn : ℕ} {e : Coo K} (he : e ∈ stencilCoo o nn) : e.row < nn := by
  simp only [stencilCoo, List.mem_flatMap, List.mem_range] at he
  obtain ⟨i, hi, he⟩ := he
  have := rowOf_row (K := K) o nn i e he
  omega

theorem coo_col_lt {o : Order} {n : ℕ} (hn : Admissible o n) {e : Coo K}
    (he : e ∈ stencilCoo o (2 * n + 1)) : e.col < 2 * n + 1 := by
  simp only [stencilCoo, List.mem_flatMap, List.mem_range] at he
  obtain ⟨i, hi, he⟩ := he
  cases o
  · exact rowOf_col2 hn i hi e he
  · exact rowOf_col4 hn i hi e he

theorem block_inj {nn k k' a a' : ℕ} (ha : a < nn) (ha' : a' < nn) :
    a + k * nn = a' + k' * nn ↔ a = a' ∧ k = k' := by
  constructor
  · intro h
    have h1 : (a + k * nn) % nn = (a' + k' * nn) % nn := by rw [h]
    rw [Nat.add_mul_mod_self_right, Nat.add_mul_mod_self_right, Nat.mod_eq_of_lt ha, Nat.mod_eq_of_lt ha'] at h1
    subst h1
    refine ⟨rfl, ?_⟩
    have : k * nn = k' * nn := by omega
    exact Nat.eq_of_mul_eq_mul_right (by omega) this
  · rintro ⟨rfl, rfl⟩; rfl

theorem dense_flatMap_fin {S : ℕ} (f : Fin S → List (Coo K)) (r c : ℕ) :
    dense ((List.finRange S).flatMap f) r c = ∑ i, dense (f i) r c := by
  have : ∀ l : List (Fin S), dense (l.flatMap f) r c = (l.map fun i => dense (f i) r c).sum := by
    intro l
    induction l with
    | nil => simp [dense]
    | cons x l ih => simp [dense_append, ih]
  rw [this, ← List.ofFn_eq_map, List.sum_ofFn]

theorem dense_block {o : Order} {n : ℕ} (hn : Admissible o n) (k i j : ℕ) (a b : ℕ) (d : K)
    (ha : a < 2 * n + 1) (hb : b < 2 * n + 1) :
    dense ((stencilCoo o (2 * n + 1)).map fun e : Coo K =>
      (⟨e.row + k * (2 * n + 1), e.col + k * (2 * n + 1), e.val / d⟩ : Coo K))
      (a + i * (2 * n + 1)) (b + j * (2 * n + 1))
      = if k = i ∧ k = j then dense (stencilCoo o (2 * n + 1)) a b / d else 0 := by
  have key : ∀ l : List (Coo K), (∀ e ∈ l, e.row < 2 * n + 1 ∧ e.col < 2 * n + 1) →
      dense (l.map fun e : Coo K =>
      (⟨e.row + k * (2 * n + 1), e.col + k * (2 * n + 1), e.val / d⟩ : Coo K))
      (a + i * (2 * n + 1)) (b + j * (2 * n + 1))
      = if k = i ∧ k = j then dense l a b / d else 0 := by
    intro l
    induction l with
    | nil => simp [dense]
    | cons e l ih =>
      intro h
      have h1 := h e (by simp)
      have ih' := ih fun e' he' => h e' (by simp [he'])
      simp only [dense, List.map_cons, List.sum_cons, List.map_map] at ih' ⊢
      rw [ih']
      simp only [block_inj h1.1 ha, block_inj h1.2 hb]
      by_cases hk : k = i ∧ k = j
      · obtain ⟨rfl, rfl⟩ := hk
        simp only [and_self, and_true, if_true, add_div, ite_div, zero_div]
      · have : ¬ ((e.row = a ∧ k = i) ∧ e.col = b ∧ k = j) := fun h' => hk ⟨h'.1.2, h'.2.2⟩
        simp [hk, this]
  exact key _ fun e he => ⟨coo_row_lt he, coo_col_lt hn he⟩

theorem dense_partialsQ {o : Order} {S n : ℕ} (hn : Admissible o n) (dts : Fin S → K) (i j : Fin S)
    (a b : Fin (2 * n + 1)) :
    dense (partialsQ o n dts) (a + (i : ℕ) * (2 * n + 1)) (b + (j : ℕ) * (2 * n + 1))
      = if i = j then dense (stencilCoo o (2 * n + 1)) a b / dts i else 0 := by
  unfold partialsQ
  rw [dense_flatMap_fin]
  simp only [dense_block hn _ _ _ _ _ _ a.isLt b.isLt]
  rw [Finset.sum_eq_single i]
  · simp [Fin.val_inj]
  · intro k _ hk
    rw [if_neg]
    rintro ⟨h, -⟩
    exact hk (Fin.ext h)
  · simp

end Verif.Derivatives
