import Verif.Model.Utils
import Mathlib.Algebra.BigOperators.Group.List.Lemmas
import Mathlib.Algebra.BigOperators.Fin
import Mathlib.Algebra.BigOperators.Ring.Finset
import Mathlib.Data.List.GetD
import Mathlib.Tactic.Ring
import Mathlib.Tactic.Linarith

/-! Property C17: `VectorConcatenateComp` and `VectorSplitComp`. -/

namespace Verif.Utils

variable {K : Type*}

/-! ### helper lemmas -/

theorem startIdx_eq (sizes : List ℕ) (i : ℕ) : startIdx sizes i = (sizes.take i).sum := by
  unfold startIdx; split_ifs with h
  · simp [h]
  · rfl

theorem endIdx_eq (sizes : List ℕ) (i : ℕ) (hi : i < sizes.length) :
    endIdx sizes i = startIdx sizes i + sizes[i] := by
  rw [startIdx_eq]; unfold endIdx
  rw [List.take_add_one, List.getElem?_eq_getElem hi, List.sum_append]
  simp only [Option.toList_some, List.sum_cons, List.sum_nil, Nat.add_zero]

theorem endIdx_eq_start (sizes : List ℕ) (i : ℕ) : endIdx sizes i = startIdx sizes (i + 1) := by
  rw [startIdx_eq]; rfl

theorem startIdx_mono (sizes : List ℕ) {i j : ℕ} (h : i ≤ j) : startIdx sizes i ≤ startIdx sizes j := by
  rw [startIdx_eq, startIdx_eq]
  obtain ⟨k, rfl⟩ := Nat.exists_eq_add_of_le h
  rw [List.take_add, List.sum_append]
  exact Nat.le_add_right _ _

theorem concat_eq (inputs : List (Arr K)) : concat inputs = inputs.flatten := by
  unfold concat
  have : ∀ (a : Arr K), inputs.foldl (fun temp b => temp ++ b) a = a ++ inputs.flatten := by
    induction inputs with
    | nil => simp
    | cons x l ih => intro a; rw [List.foldl_cons, ih, List.flatten_cons, List.append_assoc]
  simpa using this []

/-- the position of every row in the concatenation -/
theorem flatten_getElem? (l : List (Arr K)) (i : ℕ) (hi : i < l.length) (r : ℕ) (hr : r < l[i].length) :
    l.flatten[startIdx (l.map List.length) i + r]? = l[i][r]? := by
  induction l generalizing i with
  | nil => simp at hi
  | cons a l ih =>
    rw [startIdx_eq]
    cases i with
    | zero =>
      simp only [List.getElem_cons_zero] at hr
      simp [List.getElem?_append_left hr]
    | succ i =>
      simp only [List.map_cons, List.take_succ_cons, List.sum_cons, List.flatten_cons, List.getElem_cons_succ]
      rw [List.getElem?_append_right (by omega)]
      have := ih i (by simpa using hi) (by simpa using hr)
      rw [startIdx_eq] at this
      rw [← this]
      congr 1
      omega

/-- every position lies in exactly one part -/
theorem exists_part (sizes : List ℕ) (p : ℕ) (hp : p < sizes.sum) :
    ∃ i, ∃ hi : i < sizes.length, ∃ r < sizes[i], p = startIdx sizes i + r := by
  induction sizes generalizing p with
  | nil => simp at hp
  | cons n l ih =>
    by_cases h : p < n
    · exact ⟨0, by simp, p, by simpa using h, by simp [startIdx]⟩
    · rw [List.sum_cons] at hp
      obtain ⟨i, hi, r, hr, he⟩ := ih (p - n) (by omega)
      refine ⟨i + 1, by simpa using hi, r, by simpa using hr, ?_⟩
      rw [startIdx_eq] at he ⊢
      simp only [List.take_succ_cons, List.sum_cons]
      omega

theorem part_unique (sizes : List ℕ) {i j : ℕ} (hi : i < sizes.length) (hj : j < sizes.length) {r s : ℕ}
    (hr : r < sizes[i]) (hs : s < sizes[j]) (h : startIdx sizes i + r = startIdx sizes j + s) :
    i = j ∧ r = s := by
  have key : ∀ {i j : ℕ} (hi : i < sizes.length) (hj : j < sizes.length) {r s : ℕ}
      (hr : r < sizes[i]) (hs : s < sizes[j]) (h : startIdx sizes i + r = startIdx sizes j + s), ¬ i < j := by
    intro i j hi hj r s hr hs h hlt
    have := startIdx_mono sizes (show i + 1 ≤ j from hlt)
    rw [← endIdx_eq_start, endIdx_eq _ _ hi] at this
    omega
  have e : i = j := le_antisymm (not_lt.1 (key hj hi hs hr h.symm)) (not_lt.1 (key hi hj hr hs h))
  subst e
  exact ⟨rfl, by omega⟩

/-- matrix of a block of ones on a shifted diagonal -/
theorem dense_shift (a b n : ℕ) (r s : ℕ) :
    (Coo.mk (arange a (a + n)) (arange b (b + n)) (List.replicate n (1 : ℝ))).dense r s
      = if a ≤ r ∧ r < a + n ∧ r + b = s + a then 1 else 0 := by
  unfold Coo.dense arange
  simp only [Nat.add_sub_cancel_left]
  induction n generalizing a b with
  | zero => simp; omega
  | succ n ih =>
    simp only [List.range'_succ, List.replicate_succ, List.zip_cons_cons, List.map_cons, List.sum_cons]
    rw [ih]
    by_cases h : a = r ∧ b = s
    · rw [if_pos h, if_neg (by omega), if_pos (by omega)]; simp
    · rw [if_neg h, zero_add]
      congr 1
      apply propext
      constructor
      · intro h'; omega
      · intro h'
        have : a ≠ r := by
          intro e; apply h; exact ⟨e, by omega⟩
        omega

theorem divmod {length p : ℕ} (i r c : ℕ) (hc : c < length) (h : p = (i + r) * length + c) :
    p / length = i + r ∧ p % length = c := by
  subst h
  constructor
  · rw [Nat.mul_comm, Nat.mul_add_div (by omega), Nat.div_eq_of_lt hc, Nat.add_zero]
  · rw [Nat.mul_add_mod', Nat.mod_eq_of_lt hc]

/-! ### C17 -/

/-- C17.  A list of sizes of the wrong length is rejected by both components; otherwise both set up. -/
theorem C17_size_mismatch (names : List String) (sizes : List ℕ) (length : ℕ) :
    (concatSetup names sizes length = .error .sizesLength ↔ sizes.length ≠ names.length) ∧
    (splitSetup names sizes length = .error .sizesLength ↔ sizes.length ≠ names.length) := by
  unfold concatSetup splitSetup
  constructor <;> split_ifs with h <;> simp [h]

/-- C17.  Splitting the concatenation returns the original arrays. -/
theorem C17_split_concat (inputs : List (Arr K)) :
    split (inputs.map List.length) (concat inputs) = inputs := by
  rw [concat_eq]
  unfold split
  apply List.ext_getElem
  · simp
  · intro i h1 h2
    rw [List.getElem_map, List.getElem_range, startIdx_eq]
    unfold endIdx
    exact List.drop_take_succ_flatten_eq_getElem inputs i h2

theorem flatten_slices (sizes : List ℕ) (a : Arr K) (h : a.length = sizes.sum) :
    ((List.range sizes.length).map fun i => (a.take (endIdx sizes i)).drop (startIdx sizes i)).flatten = a := by
  have : ∀ n ≤ sizes.length,
      ((List.range n).map fun i => (a.take (endIdx sizes i)).drop (startIdx sizes i)).flatten
        = a.take (startIdx sizes n) := by
    intro n hn
    induction n with
    | zero => simp [startIdx]
    | succ n ih =>
      rw [List.range_succ, List.map_append, List.flatten_append, ih (by omega)]
      simp only [List.map_cons, List.map_nil, List.flatten_cons, List.flatten_nil, List.append_nil]
      have h1 : startIdx sizes n ≤ endIdx sizes n := by
        rw [endIdx_eq_start]; exact startIdx_mono _ (by omega)
      have : a.take (startIdx sizes n) = (a.take (endIdx sizes n)).take (startIdx sizes n) := by
        rw [List.take_take, min_eq_left h1]
      rw [this, List.take_append_drop, endIdx_eq_start]
  rw [this _ le_rfl, startIdx_eq, List.take_length, ← h, List.take_length]

/-- C17.  Concatenating the parts of a split vector returns the vector (its number of rows is the sum of
the sizes, as declared by `setup`), and each part has the declared size. -/
theorem C17_concat_split (sizes : List ℕ) (a : Arr K) (h : a.length = sizes.sum) :
    concat (split sizes a) = a ∧ (split sizes a).map List.length = sizes := by
  constructor
  · rw [concat_eq]
    exact flatten_slices sizes a h
  · unfold split
    apply List.ext_getElem
    · simp
    · intro i h1 h2
      simp only [List.map_map, List.getElem_map, List.getElem_range, Function.comp,
        List.length_drop, List.length_take]
      have hle : endIdx sizes i ≤ a.length := by
        rw [h, endIdx_eq_start]
        have := startIdx_mono sizes (show i + 1 ≤ sizes.length from h2)
        rwa [startIdx_eq sizes sizes.length, List.take_length] at this
      have := endIdx_eq sizes i h2
      omega

/-- C17.  Each row of the concatenation is one row of exactly one input: row `p` is row `r` of input
`i` for exactly one pair `(i, r)`. -/
theorem C17_entry (inputs : List (Arr K)) (p : ℕ) (hp : p < (concat inputs).length) :
    ∃! ir : ℕ × ℕ, ∃ hi : ir.1 < inputs.length, ∃ hr : ir.2 < inputs[ir.1].length,
      p = ((inputs.take ir.1).map List.length).sum + ir.2 ∧ (concat inputs)[p] = inputs[ir.1][ir.2] := by
  have hsum : (concat inputs).length = (inputs.map List.length).sum := by
    rw [concat_eq, List.length_flatten]
  obtain ⟨i, hi, r, hr, he⟩ := exists_part (inputs.map List.length) p (hsum ▸ hp)
  have hi' : i < inputs.length := by simpa using hi
  have hr' : r < inputs[i].length := by simpa using hr
  refine ⟨(i, r), ⟨hi', hr', ?_, ?_⟩, ?_⟩
  · rw [he, startIdx_eq, List.map_take]
  · have := flatten_getElem? inputs i hi' r hr'
    rw [← he, ← concat_eq, List.getElem?_eq_getElem hp, List.getElem?_eq_getElem hr'] at this
    simpa using this
  · rintro ⟨j, s⟩ ⟨hj, hs, e, -⟩
    have e' : startIdx (inputs.map List.length) i + r = startIdx (inputs.map List.length) j + s := by
      rw [← he, startIdx_eq, ← List.map_take]; exact e
    obtain ⟨h1, h2⟩ := part_unique (inputs.map List.length) hi (by simpa using hj) hr (by simpa using hs) e'
    simp [h1, h2]

theorem flat_concat (inputs : List (Arr ℝ)) (length i r c : ℕ) (hi : i < inputs.length)
    (hr : r < inputs[i].length) (hc : c < length) :
    flat length (concat inputs) ((startIdx (inputs.map List.length) i + r) * length + c)
      = flat length inputs[i] (r * length + c) := by
  unfold flat
  obtain ⟨h1, h2⟩ := divmod (startIdx (inputs.map List.length) i) r c hc rfl
  obtain ⟨h3, h4⟩ := divmod 0 r c hc (by rw [Nat.zero_add])
  rw [h1, h2, h3, h4, concat_eq, List.getD_eq_getElem?_getD, flatten_getElem? inputs i hi r hr,
    List.getD_eq_getElem?_getD, Nat.zero_add]

/-- C17.  The declared partials are the matrices of the concatenation: at every flat position the output
is the sum over the inputs of (declared matrix) times (flattened input). -/
theorem C17_concat_jacobian (names : List String) (length : ℕ) (inputs : List (Arr ℝ))
    {rows : ℕ} {shapes : List ℕ} {cs : List (Coo ℝ)}
    (hs : concatSetup names (inputs.map List.length) length = .ok (rows, shapes, cs)) :
    rows = (concat inputs).length ∧ shapes = inputs.map List.length ∧ cs.length = inputs.length ∧
    ∀ p < rows * length,
      flat length (concat inputs) p = ∑ i : Fin inputs.length,
        ∑ q ∈ Finset.range (inputs[i].length * length),
          (cs.getD i ⟨[], [], []⟩).dense p q * flat length inputs[i] q := by
  unfold concatSetup at hs
  split_ifs at hs with hl
  simp only [Except.ok.injEq, Prod.mk.injEq] at hs
  obtain ⟨rfl, rfl, rfl⟩ := hs
  have hl' : names.length = inputs.length := by simpa using (not_not.1 hl).symm
  refine ⟨by rw [concat_eq, List.length_flatten], ?_, by simp [hl'], ?_⟩
  · apply List.ext_getElem
    · simp [hl']
    · intro i h1 h2
      have : i < inputs.length := by simpa using h2
      simp [List.getD_eq_getElem?_getD, this]
  intro p hp
  set sz := inputs.map List.length with hsz
  have hlen0 : 0 < length := by
    rcases Nat.eq_zero_or_pos length with h | h
    · simp [h] at hp
    · exact h
  have hpl : p / length < sz.sum := by
    rw [Nat.div_lt_iff_lt_mul hlen0]; exact hp
  obtain ⟨i, hi, r, hr, he⟩ := exists_part sz (p / length) hpl
  have hi' : i < inputs.length := by simpa [hsz] using hi
  have hr' : r < inputs[i].length := by simpa [hsz] using hr
  have hpe : p = (startIdx sz i + r) * length + p % length := by
    rw [← he, Nat.mul_comm]; exact (Nat.div_add_mod p length).symm
  have hcl := Nat.mod_lt p hlen0
  -- the declared matrices
  have hd : ∀ (j : Fin inputs.length) (q : ℕ), q < inputs[j].length * length →
      (((List.range names.length).map fun i => Coo.mk (arange (startIdx sz i * length) (endIdx sz i * length))
        (arange 0 (sz.getD i 0 * length)) (List.replicate (sz.getD i 0 * length) (1 : ℝ))).getD j
          ⟨[], [], []⟩).dense p q = if p = startIdx sz j * length + q then 1 else 0 := by
    intro j q hq
    have hj : (j : ℕ) < sz.length := by rw [hsz, List.length_map]; exact j.2
    have hszj : sz[(j : ℕ)] = inputs[j].length := by simp [hsz]
    rw [List.getD_eq_getElem?_getD, List.getElem?_map, List.getElem?_range (by rw [hl']; exact j.2)]
    simp only [Option.map_some, Option.getD_some]
    have e1 : endIdx sz j * length = startIdx sz j * length + sz.getD j 0 * length := by
      rw [endIdx_eq _ _ hj, Nat.add_mul, List.getD_eq_getElem _ _ hj]
    have := dense_shift (startIdx sz j * length) 0 (sz.getD j 0 * length) p q
    rw [← e1, Nat.zero_add] at this
    rw [this, e1]
    congr 1
    rw [List.getD_eq_getElem _ _ hj, hszj]
    apply propext
    constructor
    · intro h; omega
    · intro h; omega
  have hd' : ∀ j : Fin inputs.length, (∑ q ∈ Finset.range (inputs[j].length * length),
      (((List.range names.length).map fun i => Coo.mk (arange (startIdx sz i * length) (endIdx sz i * length))
        (arange 0 (sz.getD i 0 * length)) (List.replicate (sz.getD i 0 * length) (1 : ℝ))).getD j
          ⟨[], [], []⟩).dense p q * flat length inputs[j] q)
      = ∑ q ∈ Finset.range (inputs[j].length * length),
        (if p = startIdx sz j * length + q then 1 else 0) * flat length inputs[j] q := by
    intro j
    apply Finset.sum_congr rfl
    intro q hq
    rw [hd j q (Finset.mem_range.1 hq)]
  rw [Finset.sum_congr rfl fun j _ => hd' j]
  rw [Finset.sum_eq_single (⟨i, hi'⟩ : Fin inputs.length)]
  · rw [Finset.sum_eq_single (r * length + p % length)]
    · rw [if_pos, one_mul]
      · conv_lhs => rw [hpe]
        exact flat_concat inputs length i r _ hi' hr' hcl
      · conv_lhs => rw [hpe]
        ring
    · intro q _ hq
      rw [if_neg, zero_mul]
      intro h
      apply hq
      rw [h, Nat.add_mul] at hpe
      simp only at hpe h
      have h2 := congrArg (· % length) h
      omega
    · intro h
      exfalso; apply h
      rw [Finset.mem_range]
      show r * length + p % length < inputs[i].length * length
      calc r * length + p % length < r * length + length := by omega
        _ = (r + 1) * length := by ring
        _ ≤ _ := Nat.mul_le_mul_right _ hr'
  · intro j _ hj
    apply Finset.sum_eq_zero
    intro q hq
    rw [if_neg, zero_mul]
    intro h
    apply hj
    rw [Finset.mem_range] at hq
    have hj' : (j : ℕ) < sz.length := by rw [hsz, List.length_map]; exact j.2
    have hqd : q / length < inputs[j].length := by
      rw [Nat.div_lt_iff_lt_mul hlen0]; exact hq
    have e : p / length = startIdx sz j + q / length := by
      rw [h, Nat.mul_comm, Nat.mul_add_div hlen0]
    have := (part_unique sz hi hj' hr (s := q / length) (by simpa [hsz] using hqd) (by rw [← he, e])).1
    exact Fin.ext this.symm
  · intro h; exact absurd (Finset.mem_univ _) h

/-- C17.  The declared partials are the matrices of the split: every flat entry of part `i` is (row of the
declared matrix) times (flattened input). -/
theorem C17_split_jacobian (names : List String) (sizes : List ℕ) (length : ℕ) (a : Arr ℝ)
    (ha : a.length = sizes.sum) {rows : ℕ} {shapes : List ℕ} {cs : List (Coo ℝ)}
    (hs : splitSetup names sizes length = .ok (rows, shapes, cs)) (i : ℕ) (hi : i < sizes.length) :
    rows = a.length ∧ shapes = sizes ∧ cs.length = sizes.length ∧
    ∀ q < sizes[i] * length,
      flat length ((split sizes a).getD i []) q
        = ∑ p ∈ Finset.range (rows * length), (cs.getD i ⟨[], [], []⟩).dense q p * flat length a p := by
  unfold splitSetup at hs
  split_ifs at hs with hl
  simp only [Except.ok.injEq, Prod.mk.injEq] at hs
  obtain ⟨rfl, rfl, rfl⟩ := hs
  have hl' : names.length = sizes.length := (not_not.1 hl).symm
  refine ⟨ha.symm, ?_, by simp [hl'], ?_⟩
  · apply List.ext_getElem
    · simp [hl']
    · intro i h1 h2
      simp [List.getD_eq_getElem?_getD, h2]
  intro q hq
  have hlen0 : 0 < length := by
    rcases Nat.eq_zero_or_pos length with h | h
    · simp [h] at hq
    · exact h
  have hqd : q / length < sizes[i] := by rw [Nat.div_lt_iff_lt_mul hlen0]; exact hq
  have hlt : startIdx sizes i + sizes[i] ≤ sizes.sum := by
    rw [← endIdx_eq sizes i hi, endIdx_eq_start]
    have := startIdx_mono sizes (show i + 1 ≤ sizes.length from hi)
    rwa [startIdx_eq sizes sizes.length, List.take_length] at this
  have e1 : endIdx sizes i * length = startIdx sizes i * length + sizes[i] * length := by
    rw [endIdx_eq _ _ hi, Nat.add_mul]
  rw [List.getD_eq_getElem?_getD (l := List.map _ _), List.getElem?_map,
    List.getElem?_range (by rw [hl']; exact hi)]
  simp only [Option.map_some, Option.getD_some]
  rw [Finset.sum_eq_single (startIdx sizes i * length + q)]
  · have := dense_shift 0 (startIdx sizes i * length) (sizes[i] * length) q (startIdx sizes i * length + q)
    rw [← e1, Nat.zero_add] at this
    rw [List.getD_eq_getElem _ _ hi, this, if_pos (by omega), one_mul]
    unfold flat split
    have hqm : startIdx sizes i * length + q = (startIdx sizes i + q / length) * length + q % length := by
      have := Nat.div_add_mod q length
      rw [Nat.add_mul]
      have h3 : q / length * length = length * (q / length) := Nat.mul_comm _ _
      omega
    obtain ⟨h1, h2⟩ := divmod (startIdx sizes i) (q / length) (q % length) (Nat.mod_lt _ hlen0) hqm
    rw [h1, h2, List.getD_eq_getElem?_getD (l := List.map _ _), List.getElem?_map, List.getElem?_range hi]
    simp only [Option.map_some, Option.getD_some]
    rw [List.getD_eq_getElem?_getD, List.getD_eq_getElem?_getD, List.getElem?_drop, List.getElem?_take,
      if_pos]
    rw [endIdx_eq _ _ hi]
    omega
  · intro p _ hp
    have := dense_shift 0 (startIdx sizes i * length) (sizes[i] * length) q p
    rw [← e1, Nat.zero_add] at this
    rw [List.getD_eq_getElem _ _ hi, this, if_neg (by omega), zero_mul]
  · intro h
    exfalso; apply h
    rw [Finset.mem_range]
    calc startIdx sizes i * length + q < startIdx sizes i * length + sizes[i] * length := by omega
      _ = (startIdx sizes i + sizes[i]) * length := by ring
      _ ≤ _ := Nat.mul_le_mul_right _ hlt

/-- three arrays with 2, 0 and 1 rows: the setup succeeds -/
example : ∃ out, concatSetup ["a", "b", "c"] [2, 0, 1] 3 = .ok out := ⟨_, rfl⟩
example : ∃ out, splitSetup ["a", "b", "c"] [2, 0, 1] 3 = .ok out := ⟨_, rfl⟩
example (x y z : ℕ → ℝ) : concat [[x, y], [], [z]] = [x, y, z] := rfl
example (x y z : ℕ → ℝ) : split [2, 0, 1] [x, y, z] = [[x, y], [], [z]] := rfl

end Verif.Utils
