import Verif.Model.SectionIdx
import Mathlib.Algebra.BigOperators.Intervals
import Mathlib.Algebra.BigOperators.Field
import Mathlib.Algebra.BigOperators.Ring.Finset
import Mathlib.Data.List.GetD
import Mathlib.Tactic.Ring
import Mathlib.Tactic.Linarith
import Mathlib.Tactic.FieldSimp
import Mathlib.Tactic.NormNum

/-!
# C129: section indices select exactly the panels between them
-/

namespace Verif.SectionIdx

open Finset

/-- chord of section `m` -/
noncomputable def chord (cs : List ℝ) (m : ℕ) : ℝ := cs.getD m 0
/-- spanwise location of section `m`: the given one, or 0 for the root -/
noncomputable def loc (ys : List ℝ) (m : ℕ) : ℝ := ys.getD m 0

theorem sum_of_entries (L : List ℝ) (g : ℕ → ℝ) (i j : ℕ) (hl : L.length = j - i)
    (h : ∀ k (hk : k < L.length), L[k] = g (i + k)) : L.sum = ∑ m ∈ Ico i j, g m := by
  have e : L = (List.range (j - i)).map fun k => g (i + k) := by
    apply List.ext_getElem
    · simp [hl]
    · intro k h1 h2; simp [h k h1]
  have r : ∀ (n : ℕ) (f : ℕ → ℝ), ((List.range n).map f).sum = ∑ k ∈ range n, f k := by
    intro n f
    induction n with
    | zero => simp
    | succ n ih => rw [List.range_succ, List.map_append, List.sum_append, ih, sum_range_succ]; simp
  rw [e, r, sum_Ico_eq_sum_range]

theorem clip_nat (n i : ℕ) (h : i ≤ n) : clip n (i : ℤ) = i := by
  unfold clip
  rw [if_neg (by omega)]
  simp [h]

/-- the selected arrays for indices `i ≤ j < num_sections` -/
theorem slice_nat (v : List ℝ) (i j : ℕ) (hij : i ≤ j) (hj : j < v.length) :
    (slice (i : ℤ) ((j : ℤ) + 1) v).length = j + 1 - i ∧
    ∀ k (hk : k < (slice (i : ℤ) ((j : ℤ) + 1) v).length), (slice (i : ℤ) ((j : ℤ) + 1) v)[k] = v.getD (i + k) 0 := by
  have e : slice (i : ℤ) ((j : ℤ) + 1) v = (v.take (j + 1)).drop i := by
    unfold slice
    rw [clip_nat _ _ (by omega)]
    have := clip_nat v.length (j + 1) (by omega)
    push_cast at this
    rw [this]
  have hl : ((v.take (j + 1)).drop i).length = j + 1 - i := by simp; omega
  refine ⟨by rw [e, hl], ?_⟩
  intro k hk
  have hk' : i + k < v.length := by rw [e, hl] at hk; omega
  simp only [e, List.getElem_drop, List.getElem_take]
  rw [List.getD_eq_getElem _ _ hk']

theorem loc_append (ys : List ℝ) (m : ℕ) : (ys ++ [0]).getD m 0 = loc ys m := by
  unfold loc
  rcases lt_trichotomy m ys.length with h | h | h
  · rw [List.getD_append _ _ _ _ h]
  · subst h; simp [List.getD]
  · rw [List.getD_eq_default _ _ (by simp; omega), List.getD_eq_default _ _ (by omega)]

/-- sums over the panels of the selection -/
theorem panels (cs ys : List ℝ) (i j : ℕ) (hn : cs.length = ys.length + 1) (hij : i ≤ j) (hj : j < cs.length)
    (f : ℝ → ℝ → ℝ) (g : ℝ → ℝ → ℝ) :
    (zip2 g (zip2 (· - ·) (slice (i : ℤ) ((j : ℤ) + 1) (ys ++ [0])).tail (slice (i : ℤ) ((j : ℤ) + 1) (ys ++ [0])).dropLast)
      (zip2 f (slice (i : ℤ) ((j : ℤ) + 1) cs).dropLast (slice (i : ℤ) ((j : ℤ) + 1) cs).tail)).sum
      = ∑ m ∈ Ico i j, g (loc ys (m + 1) - loc ys m) (f (chord cs m) (chord cs (m + 1))) := by
  obtain ⟨l1, e1⟩ := slice_nat cs i j hij hj
  obtain ⟨l2, e2⟩ := slice_nat (ys ++ [0]) i j hij (by simp; omega)
  apply sum_of_entries
  · simp only [zip2, List.length_zipWith, List.length_tail, List.length_dropLast, l1, l2]; omega
  · intro k hk
    simp only [zip2, List.length_zipWith, List.length_tail, List.length_dropLast, l1, l2] at hk
    simp only [zip2, List.getElem_zipWith, List.getElem_tail, List.getElem_dropLast, e1, e2, loc_append]
    rfl

/-- C129.  With section indices `i ≤ j` inside the wing, the area is the sum over exactly the panels from section `i` to
section `j`, both sides of the wing, between the two chord fractions; without an end index the selection runs to the root. -/
theorem C129_area (cs ys : List ℝ) (i j : ℕ) (fs fe : ℝ) (hn : cs.length = ys.length + 1) (hij : i ≤ j) (hj : j < cs.length) :
    area ⟨i, some j, fs, fe⟩ cs ys
      = ∑ m ∈ Ico i j, (chord cs m + chord cs (m + 1)) * (fe - fs) * (loc ys (m + 1) - loc ys m) ∧
    area ⟨i, none, fs, fe⟩ cs ys = area ⟨i, some (cs.length - 1 : ℕ), fs, fe⟩ cs ys := by
  refine ⟨?_, ?_⟩
  · have := panels cs ys i j hn hij hj (· + ·) (fun w s => 0.5 * s * (fe - fs) * w)
    simp only [area, iEnd]
    have e : ∀ u v : List ℝ, zip2 (· * ·) (u.map fun s => 0.5 * s * (fe - fs)) v = zip2 (fun w s => 0.5 * s * (fe - fs) * w) v u := by
      intro u v
      unfold zip2
      rw [List.zipWith_map_left, List.zipWith_comm]
    rw [e, this, mul_sum]
    apply sum_congr rfl
    intro m _
    norm_num; ring
  · simp only [area, iEnd]
    have : ((cs.length - 1 : ℕ) : ℤ) + 1 = cs.length := by omega
    rw [this]

theorem half_eq (cs ys : List ℝ) (i j : ℕ) (hn : cs.length = ys.length + 1) (hij : i ≤ j) (hj : j < cs.length) :
    half (slice (i : ℤ) ((j : ℤ) + 1) cs) (slice (i : ℤ) ((j : ℤ) + 1) (ys ++ [0])) = area ⟨i, some j, 0, 1⟩ cs ys / 2 := by
  rw [(C129_area cs ys i j 0 1 hn hij hj).1]
  have := panels cs ys i j hn hij hj (· + ·) (fun w s => 0.5 * s * w)
  unfold half
  have e : ∀ u v : List ℝ, zip2 (· * ·) (u.map fun s => 0.5 * s) v = zip2 (fun w s => 0.5 * s * w) v u := by
    intro u v
    unfold zip2
    rw [List.zipWith_map_left, List.zipWith_comm]
  rw [e, this, sum_div]
  apply sum_congr rfl
  intro m _
  norm_num; ring

/-- C129.  Splitting the wing at a section adds up, and so does splitting the chord. -/
theorem C129_split (cs ys : List ℝ) (i j k : ℕ) (fs fm fe : ℝ) (hn : cs.length = ys.length + 1) (hij : i ≤ j) (hjk : j ≤ k)
    (hk : k < cs.length) :
    area ⟨i, some j, fs, fe⟩ cs ys + area ⟨j, some k, fs, fe⟩ cs ys = area ⟨i, some k, fs, fe⟩ cs ys ∧
    area ⟨i, some k, fs, fm⟩ cs ys + area ⟨i, some k, fm, fe⟩ cs ys = area ⟨i, some k, fs, fe⟩ cs ys := by
  refine ⟨?_, ?_⟩
  · rw [(C129_area cs ys i j fs fe hn hij (by omega)).1, (C129_area cs ys j k fs fe hn hjk hk).1,
      (C129_area cs ys i k fs fe hn (by omega) hk).1]
    exact sum_Ico_consecutive _ hij hjk
  · rw [(C129_area cs ys i k fs fm hn (by omega) hk).1, (C129_area cs ys i k fm fe hn (by omega) hk).1,
      (C129_area cs ys i k fs fe hn (by omega) hk).1, ← sum_add_distrib]
    apply sum_congr rfl
    intro m _
    ring

/-- C129.  Area times mean aerodynamic chord of a region is the integral of the squared chord over exactly its panels. -/
theorem C129_area_mac (cs ys : List ℝ) (i j : ℕ) (hn : cs.length = ys.length + 1) (hij : i ≤ j) (hj : j < cs.length)
    (hS : area ⟨i, some j, 0, 1⟩ cs ys ≠ 0) (fs fe : ℝ) :
    area ⟨i, some j, 0, 1⟩ cs ys * mac ⟨i, some j, fs, fe⟩ cs ys
      = ∑ m ∈ Ico i j, 2 / 3 * ((loc ys (m + 1) - loc ys m)
          * (chord cs m ^ 2 + chord cs m * chord cs (m + 1) + chord cs (m + 1) ^ 2)) := by
  simp only [mac, iEnd]
  rw [panels cs ys i j hn hij hj (fun c1 c2 => c1 ^ 2 + c1 * c2 + c2 ^ 2), half_eq cs ys i j hn hij hj, mul_sum]
  apply sum_congr rfl
  intro m _
  field_simp

/-- C129.  The mean aerodynamic chord of a region is the area weighted mean of those of its two parts. -/
theorem C129_mac (cs ys : List ℝ) (i j k : ℕ) (hn : cs.length = ys.length + 1) (hij : i ≤ j) (hjk : j ≤ k) (hk : k < cs.length)
    (h1 : 0 < area ⟨i, some j, 0, 1⟩ cs ys) (h2 : 0 < area ⟨j, some k, 0, 1⟩ cs ys) (fs fe : ℝ) :
    mac ⟨i, some k, fs, fe⟩ cs ys
      = (area ⟨i, some j, 0, 1⟩ cs ys * mac ⟨i, some j, fs, fe⟩ cs ys + area ⟨j, some k, 0, 1⟩ cs ys * mac ⟨j, some k, fs, fe⟩ cs ys)
        / (area ⟨i, some j, 0, 1⟩ cs ys + area ⟨j, some k, 0, 1⟩ cs ys) := by
  have hs := (C129_split cs ys i j k 0 0 1 hn hij hjk hk).1
  have h3 : area ⟨i, some k, 0, 1⟩ cs ys ≠ 0 := by rw [← hs]; linarith
  rw [C129_area_mac cs ys i j hn hij (by omega) h1.ne', C129_area_mac cs ys j k hn hjk hk h2.ne', sum_Ico_consecutive _ hij hjk,
    ← C129_area_mac cs ys i k hn (by omega) hk h3 fs fe, hs]
  field_simp

/-- C129, refuted in part.  The docstring says that negative indices are not accepted, but nothing rejects them:
`idx_sec_end=-1`, Python's way to name the root section, selects nothing and gives area and mean chord zero for every wing,
other negative ones count from the root as in Python, and an end index beyond the root is taken as the root. -/
theorem C129_unchecked (cs ys : List ℝ) (fs fe : ℝ) :
    area ⟨0, some (-1), fs, fe⟩ cs ys = 0 ∧ mac ⟨0, some (-1), fs, fe⟩ cs ys = 0 ∧
    (∀ m : ℕ, cs.length = ys.length + 1 → 2 ≤ m → m ≤ cs.length →
      area ⟨0, some (-(m : ℤ)), fs, fe⟩ cs ys = area ⟨0, some (cs.length - m : ℕ), fs, fe⟩ cs ys) ∧
    ∀ j : ℕ, cs.length = ys.length + 1 → cs.length ≤ j → area ⟨0, some j, fs, fe⟩ cs ys = area ⟨0, none, fs, fe⟩ cs ys := by
  refine ⟨?_, ?_, ?_, ?_⟩
  · simp [area, iEnd, slice, clip, zip2]
  · simp [mac, iEnd, slice, clip, zip2]
  · intro m hn h2 hm
    have e : ∀ v : List ℝ, v.length = cs.length → slice 0 (-(m : ℤ) + 1) v = slice 0 (((cs.length - m : ℕ) : ℤ) + 1) v := by
      intro v hv
      unfold slice
      have : clip v.length (-(m : ℤ) + 1) = clip v.length (((cs.length - m : ℕ) : ℤ) + 1) := by
        unfold clip; rw [if_pos (by omega), if_neg (by omega)]; omega
      rw [this]
    simp only [area, iEnd]
    rw [e cs rfl, e (ys ++ [0]) (by simp [hn])]
  · intro j hn hj
    have e : ∀ v : List ℝ, v.length = cs.length → slice 0 ((j : ℤ) + 1) v = slice 0 (cs.length : ℤ) v := by
      intro v hv
      unfold slice
      have a : clip v.length ((j : ℤ) + 1) = v.length := by
        unfold clip; rw [if_neg (by omega)]; omega
      have b : clip v.length (cs.length : ℤ) = v.length := by
        rw [clip_nat _ _ (by omega), hv]
      rw [a, b]
    simp only [area, iEnd]
    rw [e cs rfl, e (ys ++ [0]) (by simp [hn])]

theorem nat1 : Int.toNat 1 = 1 := rfl
theorem nat2 : Int.toNat 2 = 2 := rfl
theorem nat3 : Int.toNat 3 = 3 := rfl

/-- a wing with a kink: tip chord 1 at y = -4, chord 2 at y = -2, root chord 4 -/
example : area ⟨0, some 1, 0, 1⟩ [1, 2, 4] [-4, -2] = 6 ∧ area ⟨1, some 2, 0, 1⟩ [1, 2, 4] [-4, -2] = 12 ∧
    area ⟨0, none, 0, 1⟩ [1, 2, 4] [-4, -2] = 18 ∧ area ⟨0, some (-1), 0, 1⟩ [1, 2, 4] [-4, -2] = 0 ∧
    area ⟨0, some (-2), 0, 1⟩ [1, 2, 4] [-4, -2] = 6 := by
  refine ⟨?_, ?_, ?_, ?_, ?_⟩ <;> norm_num [area, iEnd, slice, clip, zip2, nat1, nat2, nat3]

/-- the hypotheses of `C129_mac` are met by that wing -/
example : mac ⟨0, some 2, 0, 1⟩ [1, 2, 4] [-4, -2] = (6 * (14 / 9) + 12 * (28 / 9)) / 18 := by
  have a1 : area ⟨0, some 1, 0, 1⟩ [1, 2, 4] [-4, -2] = 6 := by norm_num [area, iEnd, slice, clip, zip2, nat1, nat2, nat3]
  have a2 : area ⟨1, some 2, 0, 1⟩ [1, 2, 4] [-4, -2] = 12 := by norm_num [area, iEnd, slice, clip, zip2, nat1, nat2, nat3]
  have m1 : mac ⟨0, some 1, 0, 1⟩ [1, 2, 4] [-4, -2] = 14 / 9 := by norm_num [mac, half, iEnd, slice, clip, zip2, nat1, nat2, nat3]
  have m2 : mac ⟨1, some 2, 0, 1⟩ [1, 2, 4] [-4, -2] = 28 / 9 := by norm_num [mac, half, iEnd, slice, clip, zip2, nat1, nat2, nat3]
  have := C129_mac [1, 2, 4] [-4, -2] 0 1 2 rfl (by norm_num) (by norm_num) (by norm_num)
    (by push_cast; rw [a1]; norm_num) (by push_cast; rw [a2]; norm_num) 0 1
  push_cast at this
  rw [this, a1, a2, m1, m2]
  norm_num

end Verif.SectionIdx
