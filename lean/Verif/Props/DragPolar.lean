import Mathlib.Analysis.Real.Pi.Bounds
import Mathlib.Analysis.SpecialFunctions.Trigonometric.Bounds
import Verif.Model.DragPolar
import Verif.Props.SectionMesh
import Verif.Props.Atmosphere
import Verif.Props.Training
import Verif.Props.ConcatSplit

/-! Properties C88–C91: the OpenAeroStruct drag polar groups. -/

namespace Verif.DragPolar

open Verif.Mesh Real

/-! ### C88: spanwise thickness distribution -/

/-- Panel values `tc` are linear in the spanwise coordinate: the value of the strip between nodes `j` and `j + 1`, inside
the region between sections `i` and `i + 1` (at the nodes `node i` and `node (i + 1)`), is the linear interpolation of the
section values at the spanwise middle of the strip. -/
def LinearInSpan (n : ℕ) (node : ℕ → ℕ) (y : ℕ → ℝ) (p : ℕ → ℝ) (tc : ℕ → ℝ) : Prop :=
  ∀ i j, i < n → node i ≤ j → j < node (i + 1) →
    tc j = p i + (p (i + 1) - p i) * (((y j + y (j + 1)) / 2 - y (node i)) / (y (node (i + 1)) - y (node i)))

/-- section geometry: the thickness ratio of every strip of the scaled mesh is linear in span between the sections -/
theorem C88_section (nx : ℕ) (l : List ℕ) (hl : ∀ m ∈ l, 0 < m) (q : SecIn) (p : ℕ → ℝ)
    (hy : ∀ i, i < l.length → q.y l.length i < q.y l.length (i + 1)) (hc : ∀ k, 0 < q.c k) (hS : 0 < q.S) :
    LinearInSpan l.length (off (reg l)) (secMeshY nx l q) p (panelTc l p) := by
  have hny : ∀ m, 0 < reg l m := by
    intro m
    unfold reg
    rcases Nat.lt_or_ge m l.length with h | h
    · rw [List.getD_eq_getElem _ _ h]; exact hl _ (List.getElem_mem h)
    · rw [List.getD_eq_default _ _ h]; exact Nat.one_pos
  intro i j hi h1 h2
  rw [off_succ] at h2
  obtain ⟨k, rfl⟩ := Nat.exists_eq_add_of_le h1
  have hk : k < reg l i := by omega
  have hA : 0 < secA l.length q := by
    unfold secA
    have : 0 < ∑ k ∈ Finset.range l.length, (q.y l.length (k + 1) - q.y l.length k) * (q.c k + q.c (k + 1)) * 0.5 := by
      apply Finset.sum_pos
      · intro m hm
        have := hy m (Finset.mem_range.1 hm)
        have := hc m
        have := hc (m + 1)
        have h0 : 0 < q.y l.length (m + 1) - q.y l.length m := by linarith
        positivity
      · exact ⟨i, Finset.mem_range.2 hi⟩
    linarith
  have hs : 0 < (q.S / secA l.length q) ^ (0.5 : ℝ) := by positivity
  have hm : ∀ j, j ≤ reg l i → secMeshY nx l q (off (reg l) i + j)
      = cosSpace (q.y l.length i) (q.y l.length (i + 1)) (reg l i + 1) j * (q.S / secA l.length q) ^ (0.5 : ℝ) := by
    intro j hj
    unfold secMeshY secMesh secRaw
    rw [if_neg one_ne_zero, secY_value (reg l) q l.length l.length hny i j hi hj]
  have m0 := hm 0 (Nat.zero_le _)
  have m1 := hm (reg l i) le_rfl
  have mk := hm k hk.le
  have mk1 := hm (k + 1) hk
  rw [Nat.add_zero] at m0
  rw [off_succ, add_assoc, m0, m1, mk, mk1]
  unfold panelTc
  rw [tc_value true (reg l) p l.length i k hi hk, nodal_w, nodal_w]
  simp only [cosSpace_w (q.y l.length i)]
  rw [cosDEnd_zero, cosDEnd_last _ (hny i)]
  have hd : q.y l.length (i + 1) - q.y l.length i ≠ 0 := by have := hy i hi; linarith
  unfold nodalDEnd
  rw [if_pos rfl, if_pos rfl]
  generalize (q.S / secA l.length q) ^ (0.5 : ℝ) = s at hs ⊢
  generalize cosDEnd (reg l i + 1) k = a
  generalize cosDEnd (reg l i + 1) (k + 1) = b
  generalize q.y l.length (i + 1) = y1 at hd ⊢
  generalize q.y l.length i = y0 at hd ⊢
  have hs' := hs.ne'
  have e : (((y0 + (y1 - y0) * a) * s + (y0 + (y1 - y0) * b) * s) / 2 - (y0 + (y1 - y0) * 0) * s)
      / ((y0 + (y1 - y0) * 1) * s - (y0 + (y1 - y0) * 0) * s) = (a + b) / 2 := by
    rw [div_eq_iff (by have : (y0 + (y1 - y0) * 1) * s - (y0 + (y1 - y0) * 0) * s = (y1 - y0) * s := by ring
                       rw [this]; exact mul_ne_zero hd hs')]
    ring
  rw [e]; ring

example : panelTc [4, 2] (fun k => if k = 0 then 0.1 else 0.14) 5 = 0.14 := by
  unfold panelTc
  have := tc_value true (reg [4, 2]) (fun k => if k = 0 then (0.1 : ℝ) else 0.14) 2 1 1 (by norm_num) (by decide)
  have e : off (reg [4, 2]) 1 + 1 = 5 := by decide
  rw [e] at this
  refine this.trans ?_
  rw [nodal_w, nodal_w]; norm_num

/-- share of the root value in the thickness of strip `j` of a uniform mesh with `n` strips, as computed -/
theorem panel_one (n j : ℕ) (hj : j < n) (p : ℕ → ℝ) :
    panelTc [n] p j = p 0 + (p 1 - p 0) * ((cosDEnd (n + 1) j + cosDEnd (n + 1) (j + 1)) / 2) := by
  have := tc_value true (reg [n]) p 1 0 j one_pos hj
  have e : off (reg [n]) 0 + j = j := by simp [off]
  rw [e] at this
  unfold panelTc
  refine this.trans ?_
  rw [nodal_w, nodal_w]
  have : reg [n] 0 = n := rfl
  simp only [this, nodalDEnd, if_true]
  ring

theorem trap_mid (n j : ℕ) (hn : 0 < n) (S AR : ℝ) (hS : 0 < S) (hA : 0 < AR) :
    ((trapMeshY n S AR j + trapMeshY n S AR (j + 1)) / 2 - trapMeshY n S AR 0) / (trapMeshY n S AR n - trapMeshY n S AR 0)
      = (2 * j + 1) / (2 * n) := by
  have hb := halfSpan_pos hS hA
  have hn' : (n : ℝ) ≠ 0 := by positivity
  unfold trapMeshY trapY linspace
  push_cast
  field_simp
  ring

/-- **The property fails for the (default) trapezoidal geometry**: with uniform thickness, or with one or two strips, the
strip values are linear in span, in every other case they are not -/
theorem C88_trapezoidal_iff (n : ℕ) (hn : 0 < n) (S AR : ℝ) (hS : 0 < S) (hA : 0 < AR) (p : ℕ → ℝ) :
    LinearInSpan 1 (off (reg [n])) (trapMeshY n S AR) p (panelTc [n] p) ↔ p 0 = p 1 ∨ n ≤ 2 := by
  have o0 : off (reg [n]) 0 = 0 := rfl
  have o1 : off (reg [n]) 1 = n := by simp [off, reg]
  have key : LinearInSpan 1 (off (reg [n])) (trapMeshY n S AR) p (panelTc [n] p) ↔
      ∀ j, j < n → (p 1 - p 0) * ((cosDEnd (n + 1) j + cosDEnd (n + 1) (j + 1)) / 2) = (p 1 - p 0) * ((2 * j + 1) / (2 * n)) := by
    constructor
    · intro h j hj
      have := h 0 j one_pos (Nat.zero_le _) (by rw [zero_add, o1]; exact hj)
      rw [zero_add, o0, o1, trap_mid n j hn S AR hS hA, panel_one n j hj] at this
      linarith
    · intro h i j hi h1 h2
      obtain rfl : i = 0 := by omega
      rw [zero_add, o1] at h2
      rw [zero_add, o0, o1, trap_mid n j hn S AR hS hA, panel_one n j h2]
      linarith [h j h2]
  rw [key]
  constructor
  · intro h
    by_contra hne
    push Not at hne
    obtain ⟨h1, h2⟩ := hne
    have h0 := mul_left_cancel₀ (sub_ne_zero.2 (Ne.symm h1)) (h 0 hn)
    rw [cosDEnd_zero] at h0
    have hn3 : (3 : ℝ) ≤ n := by exact_mod_cast h2
    have e : cosDEnd (n + 1) (0 + 1) = 1 / n := by
      have : (0 + cosDEnd (n + 1) (0 + 1)) / 2 = (2 * ((0 : ℕ) : ℝ) + 1) / (2 * n) := h0
      field_simp at this
      push_cast at this
      field_simp
      linarith
    unfold cosDEnd linspace at e
    push_cast at e
    have e' : 1 - cos (π / n) = 2 / n := by
      have : 0 + 1 * ((π - 0) / ((n : ℝ) + 1 - 1)) = π / n := by ring
      rw [this] at e
      have h2 : (2 : ℝ) / n = 2 * (1 / n) := by ring
      rw [h2, ← e]; ring
    have hc := Real.one_sub_sq_div_two_le_cos (x := π / n)
    have hpi : π < 3.15 := Real.pi_lt_d2
    have hpp := Real.pi_pos
    have h4 : (2 : ℝ) / n ≤ (π / n) ^ 2 / 2 := by linarith
    have h5 : 4 * (n : ℝ) ≤ π ^ 2 := by
      rw [div_pow, div_div, div_le_div_iff₀ (by positivity) (by positivity)] at h4
      have : (n : ℝ) * (4 * n) ≤ n * π ^ 2 := by nlinarith
      exact le_of_mul_le_mul_left this (by positivity)
    nlinarith
  · rintro (h | h) j hj
    · rw [h]; ring
    · congr 1
      have : n = 1 ∨ n = 2 := by omega
      rcases this with rfl | rfl
      · obtain rfl : j = 0 := by omega
        rw [cosDEnd_zero, cosDEnd_last 1 one_pos]; norm_num
      · have h1 : cosDEnd (2 + 1) 1 = 1 / 2 := by
          unfold cosDEnd linspace
          have : (0 : ℝ) + ((1 : ℕ) : ℝ) * ((π - 0) / (((2 + 1 : ℕ) : ℝ) - 1)) = π / 2 := by push_cast; ring
          rw [this, cos_pi_div_two]; norm_num
        have : j = 0 ∨ j = 1 := by omega
        rcases this with rfl | rfl
        · rw [cosDEnd_zero, zero_add, h1]; norm_num
        · rw [h1, cosDEnd_last 2 two_pos]; norm_num

/-- the outermost strip gets too much of the tip value: its share of the root value is below the share of its midpoint -/
theorem C88_tip_strip (n : ℕ) (hn : 3 ≤ n) (p : ℕ → ℝ) (hp : p 0 < p 1) :
    panelTc [n] p 0 < p 0 + (p 1 - p 0) * (1 / (2 * n)) := by
  rw [panel_one n 0 (by omega) p, cosDEnd_zero, zero_add, zero_add]
  have hn3 : (3 : ℝ) ≤ n := by exact_mod_cast hn
  have hlt : cosDEnd (n + 1) 1 / 2 < 1 / (2 * n) := by
    unfold cosDEnd linspace
    have : (0 : ℝ) + ((1 : ℕ) : ℝ) * ((π - 0) / (((n + 1 : ℕ) : ℝ) - 1)) = π / n := by push_cast; ring
    rw [this]
    have hc := Real.one_sub_sq_div_two_le_cos (x := π / n)
    have hpi : π < 3.15 := Real.pi_lt_d2
    have hpp := Real.pi_pos
    have h1 : (π / n) ^ 2 / 2 < 2 / n := by
      rw [div_pow, div_div, div_lt_div_iff₀ (by positivity) (by positivity)]
      have h10 : π ^ 2 < 10 := by nlinarith
      have : 0 < (n : ℝ) * (4 * n - π ^ 2) := by
        apply mul_pos <;> linarith
      linarith
    have h2 : (2 : ℝ) / n = 4 * (1 / (2 * n)) := by ring
    linarith
  have := mul_lt_mul_of_pos_left hlt (sub_pos.2 hp)
  linarith

/-- with the spacing of the mesh (`cos_spacing = False`) the property would hold for every number of strips -/
theorem C88_uniform_would_be_linear (n : ℕ) (hn : 0 < n) (S AR : ℝ) (hS : 0 < S) (hA : 0 < AR) (p : ℕ → ℝ) :
    LinearInSpan 1 (off (reg [n])) (trapMeshY n S AR) p (tcArr false (reg [n]) p 1) := by
  have o0 : off (reg [n]) 0 = 0 := rfl
  have o1 : off (reg [n]) 1 = n := by simp [off, reg]
  intro i j hi h1 h2
  obtain rfl : i = 0 := by omega
  rw [zero_add, o1] at h2
  rw [zero_add, o0, o1, trap_mid n j hn S AR hS hA]
  have := tc_value false (reg [n]) p 1 0 j one_pos h2
  rw [o0, zero_add] at this
  rw [this, nodal_w, nodal_w]
  have hr : reg [n] 0 = n := rfl
  have hn' : (n : ℝ) ≠ 0 := by positivity
  simp only [hr, nodalDEnd, linspace, zero_add]
  push_cast
  rw [add_sub_cancel_right]
  field_simp
  ring

/-- negation with the default number of strips: tip 10 %, root 14 % -/
theorem C88_not_linear : ¬ ∀ (n : ℕ) (S AR : ℝ) (p : ℕ → ℝ), 0 < n → 0 < S → 0 < AR →
    LinearInSpan 1 (off (reg [n])) (trapMeshY n S AR) p (panelTc [n] p) := by
  intro h
  have := (C88_trapezoidal_iff 6 (by norm_num) 100 10 (by norm_num) (by norm_num)
    (fun k => if k = 0 then 0.1 else 0.14)).1 (h 6 100 10 _ (by norm_num) (by norm_num) (by norm_num))
  norm_num at this

/-! ### C89: converged drag polars -/

theorem balance_zero (l r : ℝ) : balanceRes l r = 0 ↔ l = r := by
  unfold balanceRes
  have : (if |r| < 2 then 1 / (0.25 * r ^ 2 + 1) else 1 / |r|) ≠ 0 := by
    split_ifs with h
    · positivity
    · have : (2 : ℝ) ≤ |r| := not_lt.1 h
      have : 0 < |r| := by linarith
      positivity
  rw [mul_eq_zero, or_iff_left this, sub_eq_zero]

/-- sizes: for every accepted option set the number of spanwise coordinates equals the number of coordinates of the
generated mesh, and the training component gets one strip less -/
theorem C89_sizes (o : Opts) (w : Wiring) (h : setup o = .ok w) :
    w.dataNy + 1 = w.nyTot ∧ (∀ r, w.regions = some r → w.nyTot = r.sum + 1 ∧ w.dataNy = r.sum ∧
      (o.geo = .section → r.length + 1 = o.numSections) ∧ (o.geo = .trapezoidal → r.length = 1)) ∧
    (w.regions = none ↔ o.geo = .mesh) := by
  obtain ⟨geo, ny, ns, ga, gm, gh⟩ := o
  cases ga <;> cases gm <;> cases gh <;> simp [setup, GridArg.size, bind, Except.bind] at h
  cases geo <;> cases ny <;> simp [nyTot] at h
  · subst h; simp
  · unfold processNumY at h
    by_cases h2 : ns < 2
    · simp [h2] at h
    · simp only [if_neg h2] at h
      cases h
      simp
      omega
  · unfold processNumY at h
    by_cases h2 : ns < 2
    · simp [h2] at h
    · simp only [if_neg h2] at h
      rename_i l
      by_cases h3 : l.length ≠ ns - 1
      · simp [h3] at h
      · simp only [if_neg h3] at h
        cases h
        simp
        omega
  · subst h; simp
  · subst h; simp

/-- VLMDragPolar: the surrogate's lift at the found angle of attack is the requested lift, and the drag is that of the same
angle of attack plus the other components' share of the node -/
theorem C89_vlm {n : ℕ} (sur : Sur) (clT cdT : ℕ × ℕ × ℕ → ℝ) (S : ℝ) (vec : Bool) (nw : ℕ → ℝ) (c : Fin n → Cond)
    (alpha drag : Fin n → ℝ) (h : VlmConverged sur clT cdT S vec nw c alpha drag) (k : Fin n) :
    (c k).q * S * sur clT (c k).M (alpha k) (c k).h = (c k).q * S * (c k).CL ∧
    drag k = (c k).q * S * sur cdT (c k).M (alpha k) (c k).h + (c k).q * S * (if vec then nw k else nw 0) := by
  obtain ⟨h1, h2⟩ := h k
  rw [balance_zero] at h1
  refine ⟨by rw [h1], ?_⟩
  rw [h2]; unfold vlmDrag vlmNonwing; ring

/-- a surrogate that reproduces its training data -/
def Reproduces (g : Training.Grid) (sur : Sur) : Prop :=
  ∀ d i j k (hi : i < g.mach.length) (hj : j < g.alpha.length) (hk : k < g.alt.length),
    sur d g.mach[i] g.alpha[j] g.alt[k] = d (i, j, k)

/-- at a training point the polar returns the numbers of the vortex lattice analysis itself, in whatever order the parallel
workers finished -/
theorem C89_vlm_at_training_point {R : Type} (f : Training.Point → R) (cl cd : R → ℝ) (g : Training.Grid) (sched : List ℕ)
    (hs : sched.Perm (List.range (Training.testPoints g).length)) (sur : Sur) (hr : Reproduces g sur) (S : ℝ) (nw : ℕ → ℝ)
    (c : Fin 1 → Cond) (alpha drag : Fin 1 → ℝ)
    (h : VlmConverged sur (Training.trainArray f g sched cl) (Training.trainArray f g sched cd) S false nw c alpha drag)
    (i j k : ℕ) (hi : i < g.mach.length) (hj : j < g.alpha.length) (hk : k < g.alt.length)
    (hM : (c 0).M = g.mach[i]) (ha : alpha 0 = g.alpha[j]) (hh : (c 0).h = g.alt[k]) :
    ∃ p : Training.Point, p.mach = (c 0).M ∧ p.alpha = alpha 0 ∧ p.alt = (c 0).h ∧
      cl (f p) = (c 0).CL ∧ drag 0 = (c 0).q * S * (cd (f p) + nw 0) := by
  obtain ⟨h1, h2⟩ := h 0
  rw [balance_zero, hM, ha, hh, hr _ i j k hi hj hk] at h1
  rw [hM, ha, hh, hr _ i j k hi hj hk] at h2
  have e1 := (Training.C68_grid_order f g sched hs cl (0 : ℝ) (fun _ => 0) i j k hi hj hk).1
  have e2 := (Training.C68_grid_order f g sched hs cd (0 : ℝ) (fun _ => 0) i j k hi hj hk).1
  rw [e1] at h1
  rw [e2] at h2
  exact ⟨_, hM.symm, ha.symm, hh.symm, h1, h2⟩

/-- exact polar: every node uses its own analysis; lift, drag and failure come back in node order -/
theorem combine_get (val : AsOut → ℝ) (outs : List AsOut) (k : ℕ) (hk : k < outs.length) :
    Utils.flat 1 (combine val outs) k = val outs[k] := by
  unfold combine
  rw [Utils.concat_eq]
  have : (outs.map fun o => [fun _ => val o]).flatten = outs.map fun (o : AsOut) (_ : ℕ) => val o := by
    clear hk
    induction outs with
    | nil => rfl
    | cons a t ih => simp [ih]
  rw [this]
  unfold Utils.flat
  simp [Nat.mod_one, hk]

theorem C89_exact (n : ℕ) (f : ℝ → ℝ → ℝ → AsOut) (S nonwing : ℝ) (CL M h q alpha drag failure : ℕ → ℝ)
    (hc : ExactConverged n f S nonwing CL M h q alpha drag failure) (k : ℕ) (hk : k < n) :
    (f (M k) (alpha k) (h k)).CL = CL k ∧ drag k = q k * S * ((f (M k) (alpha k) (h k)).CD + nonwing) ∧
    failure k = (f (M k) (alpha k) (h k)).failure ∧
    exactWeight (exactOuts n f M alpha h) = some (f (M 0) (alpha 0) (h 0)).W := by
  obtain ⟨h1, h2, h3⟩ := hc
  have hl : k < (exactOuts n f M alpha h).length := by simpa [exactOuts] using hk
  have hg : (exactOuts n f M alpha h)[k] = f (M k) (alpha k) (h k) := by simp [exactOuts]
  have h1 := h1 k hk
  have h2 := h2 k hk
  have h3 := h3 k hk
  rw [balance_zero, combine_get _ _ k hl, hg] at h1
  rw [combine_get _ _ k hl, hg] at h2 h3
  refine ⟨h1, h2, h3, ?_⟩
  obtain ⟨m, rfl⟩ : ∃ m, n = m + 1 := ⟨n - 1, by omega⟩
  simp [exactWeight, exactOuts, List.range_succ_eq_map]

/-- if the wing weight does not depend on the flight condition, taking it from node 0 is the same as from any other node -/
theorem C89_exact_weight (n : ℕ) (f : ℝ → ℝ → ℝ → AsOut) (W : ℝ) (hW : ∀ M a h, (f M a h).W = W) (M alpha h : ℕ → ℝ)
    (k : ℕ) (hk : k < n) : exactWeight (exactOuts n f M alpha h) = some (f (M k) (alpha k) (h k)).W := by
  obtain ⟨m, rfl⟩ : ∃ m, n = m + 1 := ⟨n - 1, by omega⟩
  simp [exactWeight, exactOuts, List.range_succ_eq_map, hW]

/-- a surrogate that is affine in the training data (true of spline interpolation): constants added to the data are added
to the value -/
def ShiftsWithData (sur : Sur) : Prop := ∀ d x M a h, sur (fun p => d p + x) M a h = sur d M a h + x

/-- AerostructDragPolar adds the drag of the other components to the training data; the drag is the same as adding it to
the wing drag coefficient afterwards -/
theorem C89_aerostruct {n : ℕ} (sur : Sur) (hsur : ShiftsWithData sur) (clT cdT : ℕ × ℕ × ℕ → ℝ) (S nonwing : ℝ)
    (c : Fin n → Cond) (alpha drag : Fin n → ℝ) (h : AsConverged sur clT cdT S nonwing c alpha drag) (k : Fin n) :
    sur clT (c k).M (alpha k) (c k).h = (c k).CL ∧
    drag k = (c k).q * S * (sur cdT (c k).M (alpha k) (c k).h + nonwing) := by
  obtain ⟨h1, h2⟩ := h k
  rw [balance_zero] at h1
  refine ⟨h1, ?_⟩
  rw [h2]; unfold asDrag asCdTrain
  rw [hsur]

/-- so VLMDragPolar and AerostructDragPolar with the same training data return the same drag at the same angle of attack -/
theorem C89_same_nonwing {n : ℕ} (sur : Sur) (hsur : ShiftsWithData sur) (clT cdT : ℕ × ℕ × ℕ → ℝ) (S nonwing : ℝ)
    (c : Fin n → Cond) (alpha drag drag' : Fin n → ℝ) (h : AsConverged sur clT cdT S nonwing c alpha drag)
    (h' : VlmConverged sur clT cdT S false (fun _ => nonwing) c alpha drag') : drag = drag' := by
  funext k
  rw [(C89_aerostruct sur hsur clT cdT S nonwing c alpha drag h k).2, (h' k).2]
  rfl

/-- Surrogate and exact polar: if the analysis has strictly increasing lift and the surrogate polar found a training angle
of attack at a training Mach number and altitude, then the exact polar finds the same angle and the same drag. -/
theorem C89_surrogate_agrees_with_exact (f : ℝ → ℝ → ℝ → AsOut) (hmono : ∀ M h, StrictMono fun a => (f M a h).CL)
    (g : Training.Grid) (sched : List ℕ) (hs : sched.Perm (List.range (Training.testPoints g).length))
    (sur : Sur) (hr : Reproduces g sur) (S nonwing : ℝ) (c : Fin 1 → Cond) (alpha drag : Fin 1 → ℝ)
    (h : AsConverged sur (Training.trainArray (fun p => f p.mach p.alpha p.alt) g sched AsOut.CL)
      (Training.trainArray (fun p => f p.mach p.alpha p.alt) g sched AsOut.CD) S nonwing c alpha drag)
    (i j k : ℕ) (hi : i < g.mach.length) (hj : j < g.alpha.length) (hk : k < g.alt.length)
    (hM : (c 0).M = g.mach[i]) (ha : alpha 0 = g.alpha[j]) (hh : (c 0).h = g.alt[k])
    (alpha' drag' failure' : ℕ → ℝ)
    (h' : ExactConverged 1 f S nonwing (fun _ => (c 0).CL) (fun _ => (c 0).M) (fun _ => (c 0).h) (fun _ => (c 0).q)
      alpha' drag' failure') :
    alpha' 0 = alpha 0 ∧ drag' 0 = drag 0 := by
  obtain ⟨h1, h2⟩ := h 0
  rw [balance_zero, hM, ha, hh, hr _ i j k hi hj hk,
    (Training.C68_grid_order _ g sched hs AsOut.CL (0 : ℝ) (fun _ => 0) i j k hi hj hk).1] at h1
  rw [hM, ha, hh, hr _ i j k hi hj hk] at h2
  unfold asCdTrain asDrag at h2
  rw [(Training.C68_grid_order _ g sched hs AsOut.CD (0 : ℝ) (fun _ => 0) i j k hi hj hk).1] at h2
  obtain ⟨e1, e2, -, -⟩ := C89_exact 1 f S nonwing _ _ _ _ _ _ _ h' 0 one_pos
  have ea : alpha' 0 = alpha 0 := by
    apply (hmono (c 0).M (c 0).h).injective
    show (f (c 0).M (alpha' 0) (c 0).h).CL = (f (c 0).M (alpha 0) (c 0).h).CL
    rw [e1, hM, ha, hh]; exact h1.symm
  refine ⟨ea, ?_⟩
  rw [e2, ea, h2, hM, ha, hh]

example : ExactConverged 2 (fun M a h => ⟨0.1 * a, 0.02 + M, a - h, 7⟩) 10 0.5 (fun k => k) (fun k => k) (fun _ => 0)
    (fun _ => 2) (fun k => 10 * k) (fun k => 20 * (0.52 + k)) (fun k => 10 * k) := by
  refine ⟨?_, ?_, ?_⟩ <;> intro k hk <;>
    rw [combine_get _ _ k (by simpa [exactOuts] using hk)] <;> simp only [exactOuts, List.getElem_map, List.getElem_range]
  · rw [balance_zero]; ring
  · unfold exactDrag; ring
  · ring

/-! ### C90: optional inputs and option types -/

/-- the surrogate polars: nothing is added when `ac|aero|CD_nonwing` is not given -/
theorem C90_unset_nonwing_partial (q S cd : ℝ) :
    dragDefault .vlm q S cd = q * S * cd ∧ dragDefault .aerostruct q S cd = q * S * cd := by
  simp [dragDefault, vlmDrag, asDrag, asCdTrain, nonwingDefault]

/-- **the exact polar adds a drag coefficient of 1**: fifty times the drag of a clean wing -/
theorem C90_exact_default_adds_one (q S cd : ℝ) : dragDefault .exact q S cd = q * S * cd + q * S := by
  simp [dragDefault, exactDrag, nonwingDefault]; ring

theorem C90_defaults_differ : ¬ ∀ (k : Kind) (q S cd : ℝ), dragDefault k q S cd = q * S * cd := by
  intro h
  have := h .exact 1 1 0
  rw [C90_exact_default_adds_one] at this
  norm_num at this

/-- options given as arrays: setup fails exactly for the documented reasons -/
theorem C90_setup_arrays_partial (geo : Geo) (ny : NumY) (ns : ℕ) (a m h : List ℝ) :
    (∃ e, setup ⟨geo, ny, ns, .array a, .array m, .array h⟩ = .error e) ↔
      (geo = .trapezoidal ∧ ∃ l, ny = .list l) ∨
      (geo = .section ∧ (ns < 2 ∨ ∃ l, ny = .list l ∧ l.length ≠ ns - 1)) := by
  cases geo <;> cases ny <;> simp only [setup, GridArg.size, bind, Except.bind, processNumY]
  · simp
  · simp
  · by_cases h2 : ns < 2
    · simp only [if_pos h2, h2]; simp
    · simp only [if_neg h2, h2]; simp
  · rename_i l
    by_cases h2 : ns < 2
    · simp only [if_pos h2, h2]; simp
    · by_cases h3 : l.length ≠ ns - 1
      · simp only [if_neg h2, if_pos h3, h2]; simp [h3]
      · simp only [if_neg h2, if_neg h3, h2]; simp [not_not.1 h3]
  · simp
  · simp

/-- **lists are declared and documented as valid but never work** -/
theorem C90_list_grid_fails (o : Opts)
    (h : (∃ l, o.alphaTrain = .list l) ∨ (∃ l, o.machTrain = .list l) ∨ ∃ l, o.altTrain = .list l) :
    setup o = .error "AttributeError: 'list' object has no attribute 'size'" := by
  obtain ⟨geo, ny, ns, ga, gm, gh⟩ := o
  cases ga <;> cases gm <;> cases gh <;> simp [setup, GridArg.size, bind, Except.bind] at h ⊢

example : setup ⟨.trapezoidal, .int 6, 2, .list [0, 5], .array [0.3], .array [0]⟩
    = .error "AttributeError: 'list' object has no attribute 'size'" := C90_list_grid_fails _ (.inl ⟨_, rfl⟩)

/-! ### C91: operating point of the analysis -/

/-- below the singular altitude of the pressure model the analysis gets a positive density, the speed of sound of the
temperature, the airspeed of the Mach number and a positive Reynolds number -/
theorem C91_point (h M inc : ℝ) (hh : h ≤ 288.16 / 0.0065) (hM : 0 < M) (hi : -216.65 < inc) :
    ∃ p, point h M inc = some p ∧ 0 < p.rho ∧ 0 < p.a ∧ p.v / p.a = M ∧ 0 < p.re ∧ p.re * viscLin h = p.rho * p.v ∧
      p.rho * 287.058 * Atmos.temperature h inc = (Atmos.pressure h).getD 0 := by
  obtain ⟨q, e, hq, -⟩ := Atmos.C35_pressure_positive_decreasing h hh
  have hT : 0 < Atmos.temperature h inc := by
    have := (Atmos.C35_temperature h h inc le_rfl).2
    linarith
  have hrho : 0 < Atmos.density q (Atmos.temperature h inc) := by unfold Atmos.density Atmos.R; positivity
  have ha : 0 < Atmos.soundSpeed (Atmos.temperature h inc) := by
    unfold Atmos.soundSpeed Atmos.gamma Atmos.R
    exact Real.sqrt_pos.2 (by positivity)
  have hv : 0 < viscLin h := by
    unfold viscLin
    have : h < 44333 := lt_of_le_of_lt hh (by norm_num)
    norm_num
    linarith
  unfold point
  rw [e]
  refine ⟨_, rfl, hrho, ha, ?_, ?_, ?_, ?_⟩
  · simp only [airspeed]; field_simp
  · simp only [reynolds, airspeed]; positivity
  · simp only [reynolds]; field_simp
  · simp only [Option.getD_some]
    exact Atmos.C36_gas_law q _ hT.ne'

/-- the linear viscosity is positive exactly below 53 839.8 m -/
theorem C91_viscosity_positive (h : ℝ) : 0 < viscLin h ↔ h < 1.792398e5 / 3.329134 := by
  unfold viscLin
  rw [lt_div_iff₀ (by norm_num)]
  norm_num
  constructor <;> intro h <;> linarith

/-- Sutherland's law with the constants of the U.S. Standard Atmosphere (1.458e-6, 110.4 K) -/
noncomputable def sutherland (T : ℝ) : ℝ := 1.458e-6 * T ^ (3 / 2 : ℝ) / (T + 110.4)

/-- up to 10 500 m the linear viscosity is within 0.3 % of Sutherland's law for the model's own temperature -/
theorem C91_viscosity_accurate (h : ℝ) (h0 : 0 ≤ h) (h1 : h ≤ 10500) :
    |viscLin h - sutherland (Atmos.temperature h 0)| ≤ 0.003 * sutherland (Atmos.temperature h 0) := by
  rw [Atmos.C33_value, if_pos h1]
  set T : ℝ := 288.16 - 0.0065 * h with hT
  have hTl : 219.91 ≤ T := by rw [hT]; linarith
  have hTu : T ≤ 288.16 := by rw [hT]; linarith
  have hs : T ^ (3 / 2 : ℝ) = √T ^ 3 := by
    rw [Real.sqrt_eq_rpow, ← Real.rpow_natCast, ← Real.rpow_mul (by linarith)]; norm_num
  have hsq : √T ^ 2 = T := Real.sq_sqrt (by linarith)
  have hsl : 14.8 ≤ √T := Real.le_sqrt_of_sq_le (by norm_num; linarith)
  have hsu : √T ≤ 17 := Real.sqrt_le_iff.2 ⟨by norm_num, by linarith⟩
  have hh : h = (288.16 - √T ^ 2) / 0.0065 := by rw [hsq, hT]; ring
  unfold sutherland viscLin
  rw [hs, hh]
  have hsl' : 219.91 ≤ √T ^ 2 := by rw [hsq]; exact hTl
  have hsu' : √T ^ 2 ≤ 288.16 := by rw [hsq]; exact hTu
  have hTs : T + 110.4 = √T ^ 2 + 110.4 := by rw [hsq]
  rw [hTs]
  generalize √T = s at *
  have hd : 0 < s ^ 2 + 110.4 := by positivity
  have key1 : 1.458e-6 * s ^ 3 * 0.997 ≤ (-(3.329134 * 10 ^ (-10 : ℤ)) * ((288.16 - s ^ 2) / 0.0065) + 1.792398 * 10 ^ (-5 : ℤ))
      * (s ^ 2 + 110.4) := by
    norm_num
    nlinarith [sq_nonneg (s * (s - 15.9)), sq_nonneg (s - 15.9), mul_nonneg (sub_nonneg.2 hsl) (sub_nonneg.2 hsu)]
  have key2 : (-(3.329134 * 10 ^ (-10 : ℤ)) * ((288.16 - s ^ 2) / 0.0065) + 1.792398 * 10 ^ (-5 : ℤ)) * (s ^ 2 + 110.4)
      ≤ 1.458e-6 * s ^ 3 * 1.003 := by
    norm_num
    nlinarith [mul_nonneg (sub_nonneg.2 hsl') (sub_nonneg.2 hsu')]
  generalize -(3.329134 * 10 ^ (-10 : ℤ)) * ((288.16 - s ^ 2) / 0.0065) + 1.792398 * 10 ^ (-5 : ℤ) = v at *
  have e : v - 1.458e-6 * s ^ 3 / (s ^ 2 + 110.4) = (v * (s ^ 2 + 110.4) - 1.458e-6 * s ^ 3) / (s ^ 2 + 110.4) := by
    field_simp
  rw [e, abs_div, abs_of_pos hd, ← mul_div_assoc]
  apply div_le_div_of_nonneg_right _ hd.le
  rw [abs_le]
  constructor <;> linarith

/-- **Skin friction in drag_jet_transport.py uses 100.4 K instead of 110.4 K**: its viscosity is too large by the factor
(T + 110.4) / (T + 100.4) -/
theorem C91_skin_friction_viscosity (T : ℝ) (hT : 0 < T) :
    Aero.viscDyn T = sutherland T * ((T + 110.4) / (T + 100.4)) ∧ sutherland T < Aero.viscDyn T := by
  have e : Aero.viscDyn T = sutherland T * ((T + 110.4) / (T + 100.4)) := by
    unfold Aero.viscDyn sutherland
    have : T + 110.4 ≠ 0 := by positivity
    have : T + 100.4 ≠ 0 := by positivity
    field_simp
  refine ⟨e, ?_⟩
  rw [e]
  have hs : 0 < sutherland T := by unfold sutherland; positivity
  have : 1 < (T + 110.4) / (T + 100.4) := by rw [one_lt_div (by positivity)]; linarith
  nlinarith

/-- the two viscosities used by the library differ by more than 2 % everywhere below 10 500 m -/
theorem C91_viscosities_disagree (h : ℝ) (h0 : 0 ≤ h) (h1 : h ≤ 10500) :
    1.02 * viscLin h < Aero.viscDyn (Atmos.temperature h 0) := by
  have ha := C91_viscosity_accurate h h0 h1
  have hT : Atmos.temperature h 0 = 288.16 - 0.0065 * h := by rw [Atmos.C33_value, if_pos h1]
  rw [hT] at ha ⊢
  have hTp : 0 < 288.16 - 0.0065 * h := by linarith
  rw [(C91_skin_friction_viscosity _ hTp).1]
  have hs : 0 < sutherland (288.16 - 0.0065 * h) := by unfold sutherland; positivity
  have hf : 1.0257 < ((288.16 - 0.0065 * h) + 110.4) / ((288.16 - 0.0065 * h) + 100.4) := by
    rw [lt_div_iff₀ (by linarith)]; linarith
  rw [abs_le] at ha
  generalize sutherland (288.16 - 0.0065 * h) = s at *
  generalize ((288.16 - 0.0065 * h) + 110.4) / ((288.16 - 0.0065 * h) + 100.4) = r at *
  nlinarith

/-- negation of "both drag models use the same viscosity, to 1 %", at sea level -/
theorem C91_not_consistent : ¬ ∀ h, 0 ≤ h → h ≤ 10500 →
    |Aero.viscDyn (Atmos.temperature h 0) - viscLin h| ≤ 0.01 * viscLin h := by
  intro hall
  have h1 := hall 0 le_rfl (by norm_num)
  have h2 := C91_viscosities_disagree 0 le_rfl (by norm_num)
  have h3 := (C91_viscosity_positive 0).2 (by norm_num)
  rw [abs_le] at h1
  linarith [h1.2]

/-- the wingbox airfoil table: same number of points, same abscissae on both sides, increasing, upper surface above lower
surface, and the largest thickness is the declared thickness-to-chord ratio of the original airfoil -/
theorem C91_airfoil :
    upperX.length = 51 ∧ lowerX = upperX ∧ upperY.length = 51 ∧ lowerY.length = 51 ∧ upperX.Pairwise (· < ·) ∧
    (∀ t ∈ upperY.zip lowerY, t.2 < t.1 ∧ t.1 - t.2 ≤ originalToverc) ∧ (∃ t ∈ upperY.zip lowerY, t.1 - t.2 = originalToverc) := by
  refine ⟨rfl, rfl, rfl, rfl, by decide, by decide, by decide⟩

end Verif.DragPolar
