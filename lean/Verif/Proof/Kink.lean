import Verif.Proof.HDeriv
import Mathlib.Analysis.Calculus.Deriv.Basic

/-! A function with different one-sided derivatives has no derivative. -/

namespace Verif

theorem not_diff_of_kink {f g h : ℝ → ℝ} {l r x : ℝ} (hg : HasDerivAt g l x) (hh : HasDerivAt h r x)
    (el : ∀ y ≤ x, f y = g y) (er : ∀ y, x ≤ y → f y = h y) (hne : l ≠ r) : ¬ DifferentiableAt ℝ f x := by
  intro hd
  have h1 : HasDerivWithinAt f l (Set.Iic x) x :=
    hg.hasDerivWithinAt.congr (fun y hy => el y hy) (el x le_rfl)
  have h2 : HasDerivWithinAt f r (Set.Ici x) x :=
    hh.hasDerivWithinAt.congr (fun y hy => er y hy) (er x le_rfl)
  have e1 := (uniqueDiffOn_Iic x x Set.self_mem_Iic).eq_deriv _ h1 hd.hasDerivAt.hasDerivWithinAt
  have e2 := (uniqueDiffOn_Ici x x Set.self_mem_Ici).eq_deriv _ h2 hd.hasDerivAt.hasDerivWithinAt
  exact hne (e1.trans e2.symm)

end Verif
