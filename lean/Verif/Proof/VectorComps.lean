import Verif.Model.VectorComps
import Verif.Proof.HDeriv
import Mathlib.Algebra.BigOperators.Fin
import Mathlib.Data.List.GetD
import Mathlib.Algebra.BigOperators.Group.List.Basic

/-! Lemmas for the vector utility components. -/

namespace Verif.VectorComps

/-- change one entry of one input -/
def setEntry {K : Type*} (env : String → ℕ → ℕ → K) (name : String) (r c : ℕ) (x : K) :
    String → ℕ → ℕ → K :=
  fun n i j => if n = name ∧ i = r ∧ j = c then x else env n i j

theorem foldl_add {α K : Type*} [Field K] (l : List α) (f : α → K) (a : K) :
    l.foldl (fun t p => t + f p) a = a + (l.map f).sum := by
  induction l generalizing a with
  | nil => simp
  | cons x l ih => simp [ih, add_assoc]

theorem foldr_max_le (l : List ℕ) (n : ℕ) (h : n ∈ l) : n ≤ l.foldr max 0 := by
  induction l with
  | nil => simp at h
  | cons a l ih =>
    simp only [List.foldr_cons]
    rcases List.mem_cons.1 h with rfl | h
    · exact le_max_left _ _
    · exact (ih h).trans (le_max_right _ _)

theorem get_le_out (v : VecSize) (i : ℕ) : v.get i ≤ v.out := by
  cases v with
  | all n => exact le_rfl
  | each l =>
    simp only [VecSize.get, VecSize.out]
    by_cases h : i < l.length
    · rw [List.getD_eq_getElem _ _ h]
      exact foldr_max_le _ _ (List.getElem_mem h)
    · rw [List.getD_eq_default _ _ (by omega)]; exact Nat.zero_le _

/-- OpenMDAO's column check accepts exactly the sizes 1 and `out` -/
theorem colsOk_iff (v : VecSize) (i length : ℕ) (hl : 0 < length) :
    colsOk (v.get i) length (v.out * length) = true ↔ v.get i = 1 ∨ v.get i = v.out := by
  have hle := get_le_out v i
  simp only [colsOk, List.all_eq_true, List.mem_range, decide_eq_true_eq]
  unfold colVals
  constructor
  · intro h
    by_contra hc
    obtain ⟨h1, h2⟩ := not_or.1 hc
    have hlt : v.get i < v.out := lt_of_le_of_ne hle h2
    have := h (v.get i * length) (Nat.mul_lt_mul_of_pos_right hlt hl)
    rw [if_neg h1] at this
    exact lt_irrefl _ this
  · rintro (h | h) R hR
    · rw [h]; simpa using hl
    · by_cases h1 : v.get i = 1
      · rw [h1]; simpa using hl
      · rw [if_neg h1, h]; exact hR

theorem mem_zipIdx_get {α : Type*} {l : List α} {p : α × ℕ} (h : p ∈ l.zipIdx) :
    ∃ hk : p.2 < l.length, l[p.2] = p.1 := by
  have := List.mk_mem_zipIdx_iff_getElem?.1 (show (p.1, p.2) ∈ l.zipIdx from h)
  obtain ⟨hk, he⟩ := List.getElem?_eq_some_iff.1 this
  exact ⟨hk, he⟩

theorem zipIdx_fst {α : Type*} (l : List α) : l.zipIdx.map Prod.fst = l := by
  simp

theorem zipIdx_nodup_fst {l : List String} (h : l.Nodup) : (l.zipIdx.map Prod.fst).Nodup := by
  rwa [zipIdx_fst]

/-- flat indices -/
theorem flat_inj {len i j r c : ℕ} (hj : j < len) (hc : c < len) :
    i * len + j = r * len + c ↔ i = r ∧ j = c := by
  constructor
  · intro h
    have h1 : (i * len + j) % len = (r * len + c) % len := by rw [h]
    rw [Nat.mul_add_mod', Nat.mul_add_mod', Nat.mod_eq_of_lt hj, Nat.mod_eq_of_lt hc] at h1
    subst h1
    have : i * len = r * len := by omega
    exact ⟨Nat.eq_of_mul_eq_mul_right (by omega) this, rfl⟩
  · rintro ⟨rfl, rfl⟩; rfl

end Verif.VectorComps
