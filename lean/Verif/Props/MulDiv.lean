import Verif.Proof.VectorComps
import Verif.Proof.HDeriv
import Mathlib.Algebra.BigOperators.Fin
import Mathlib.Algebra.Group.TypeTags.Basic
import Mathlib.Algebra.Group.Int.Defs
import Mathlib.Tactic.IntervalCases

/-! Properties C15 and C16: `ElementMultiplyDivideComp`. -/

namespace Verif.VectorComps

open Finset

/-! ### C15 -/

theorem foldl_muldiv {α : Type*} (l : List α) (d : α → Bool) (f : α → ℝ) (a : ℝ) :
    l.foldl (fun t p => if d p then t / f p else t * f p) a
      = a * (l.map fun p => if d p then (f p)⁻¹ else f p).prod := by
  induction l generalizing a with
  | nil => simp
  | cons x l ih =>
    simp only [List.foldl_cons, ih, List.map_cons, List.prod_cons]
    split_ifs
    · rw [div_eq_mul_inv]; ring
    · ring

/-- C15.  The output is the scaling factor times the product of the multiplied inputs divided by the
product of the divided inputs, element by element, inputs of size 1 being broadcast. -/
theorem C15_compute (s : MulSys ℝ) (env : String → ℕ → ℕ → ℝ) (i j : ℕ) :
    s.compute env i j = s.scaling *
      (∏ k ∈ (univ : Finset (Fin s.inputs.length)).filter (fun k => s.div.getD k.1 false = false),
        env s.inputs[k] (if s.vecSize.get k = 1 then 0 else i) j) /
      (∏ k ∈ (univ : Finset (Fin s.inputs.length)).filter (fun k => s.div.getD k.1 false = true),
        env s.inputs[k] (if s.vecSize.get k = 1 then 0 else i) j) := by
  unfold MulSys.compute
  rw [foldl_muldiv s.inputs.zipIdx (fun p => s.div.getD p.2 false) (fun p => s.read env i j p), one_mul]
  have : (s.inputs.zipIdx.map fun p => if s.div.getD p.2 false then (s.read env i j p)⁻¹
        else s.read env i j p)
      = List.ofFn fun k : Fin s.inputs.length => if s.div.getD k false then
        (env s.inputs[k] (if s.vecSize.get k = 1 then 0 else i) j)⁻¹ else
        env s.inputs[k] (if s.vecSize.get k = 1 then 0 else i) j := by
    apply List.ext_getElem
    · simp
    · intro n h1 h2
      simp [MulSys.read]
  rw [this, List.prod_ofFn]
  rw [Finset.prod_ite, Finset.prod_inv_distrib]
  have e : (Finset.univ.filter fun k : Fin s.inputs.length => ¬ s.div.getD k false = true)
      = Finset.univ.filter fun k : Fin s.inputs.length => s.div.getD k false = false := by
    ext k; simp
  rw [e]
  rw [div_eq_mul_inv]
  ring

/-- the loop of `compute_partials` computes the derivative of the loop of `compute` -/
theorem foldl_deriv_after (l : List (String × ℕ)) (name : String) (hl : ∀ p ∈ l, p.1 ≠ name)
    (d : ℕ → Bool) (f : String × ℕ → ℝ) (g : ℝ → String × ℕ → ℝ) (hg : ∀ x, ∀ p ∈ l, g x p = f p)
    (acc : ℝ → ℝ) (temp x0 : ℝ) (h : HasDerivAt acc temp x0) :
    HasDerivAt (fun x => l.foldl (fun t p => if d p.2 then t / g x p else t * g x p) (acc x))
      (l.foldl (fun t p => if p.1 ≠ name then (if d p.2 then t / f p else t * f p)
        else (if d p.2 then -t / f p ^ 2 else t)) temp) x0 := by
  induction l generalizing acc temp with
  | nil => exact h
  | cons p l ih =>
    have hp : p.1 ≠ name := hl p (by simp)
    simp only [List.foldl_cons, if_pos hp]
    have hgp : ∀ x, g x p = f p := fun x => hg x p (by simp)
    simp only [hgp]
    apply ih (fun q hq => hl q (by simp [hq])) (fun x q hq => hg x q (by simp [hq]))
      (acc := fun x => if d p.2 = true then acc x / f p else acc x * f p)
    by_cases hd : d p.2 = true
    · simp only [hd, if_true]; exact h.div_const _
    · simp only [hd]
      exact h.mul_const _

theorem foldl_deriv (l : List (String × ℕ)) (name : String) (hnd : (l.map Prod.fst).Nodup)
    (k : String × ℕ) (hk : k ∈ l) (hkn : k.1 = name)
    (d : ℕ → Bool) (f : String × ℕ → ℝ) (g : ℝ → String × ℕ → ℝ)
    (hg : ∀ x, ∀ p ∈ l, p.1 ≠ name → g x p = f p) (g' x0 : ℝ)
    (hgk : HasDerivAt (fun x => g x k) g' x0) (hgk0 : g x0 k = f k)
    (hdiv : d k.2 = true → f k ≠ 0) (a : ℝ) :
    HasDerivAt (fun x => l.foldl (fun t p => if d p.2 then t / g x p else t * g x p) a)
      (l.foldl (fun t p => if p.1 ≠ name then (if d p.2 then t / f p else t * f p)
        else (if d p.2 then -t / f p ^ 2 else t)) a * g') x0 := by
  induction l generalizing a with
  | nil => simp at hk
  | cons p l ih =>
    simp only [List.map_cons, List.nodup_cons] at hnd
    by_cases hp : p.1 = name
    · -- `p` is the differentiated input
      have hkp : k = p := by
        rcases List.mem_cons.1 hk with h | h
        · exact h
        · exfalso; apply hnd.1
          rw [hp, ← hkn]
          exact List.mem_map_of_mem h
      subst hkp
      have hl : ∀ q ∈ l, q.1 ≠ name := by
        intro q hq hqn
        apply hnd.1
        rw [hp, ← hqn]
        exact List.mem_map_of_mem hq
      simp only [List.foldl_cons, hp, ne_eq, not_true_eq_false, if_false]
      have hlin : ∀ t c : ℝ, l.foldl (fun t p => if p.1 ≠ name then (if d p.2 then t / f p else t * f p)
        else (if d p.2 then -t / f p ^ 2 else t)) t * c
          = l.foldl (fun t p => if p.1 ≠ name then (if d p.2 then t / f p else t * f p)
        else (if d p.2 then -t / f p ^ 2 else t)) (t * c) := by
        clear ih hk hg hnd
        induction l with
        | nil => intro t c; rfl
        | cons q l ih =>
          intro t c
          have hq := hl q (by simp)
          simp only [List.foldl_cons, if_pos hq]
          rw [ih (fun q hq => hl q (by simp [hq]))]
          congr 1
          split_ifs <;> ring
      have hlin' := hlin
      simp only [ne_eq] at hlin'
      rw [hlin']
      by_cases hd : d k.2 = true
      · simp only [hd, if_true]
        have h0 := hdiv hd
        apply foldl_deriv_after l name hl d f g (fun x q hq => hg x q (by simp [hq]) (hl q hq))
        refine (Verif.hd_const_div a hgk (by rw [hgk0]; exact h0)).congr_deriv ?_
        rw [hgk0]; ring
      · simp only [hd]
        apply foldl_deriv_after l name hl d f g (fun x q hq => hg x q (by simp [hq]) (hl q hq))
        exact hgk.const_mul a
    · have hkl : k ∈ l := by
        rcases List.mem_cons.1 hk with h | h
        · exact absurd (h ▸ hkn) hp
        · exact h
      have hgp : ∀ x, g x p = f p := fun x => hg x p (by simp) hp
      simp only [List.foldl_cons, hgp, ne_eq, hp, not_false_eq_true, if_true]
      exact ih hnd.2 hkl (fun x q hq => hg x q (by simp [hq])) _

/-- the derivative of output entry `(i, j)` with respect to entry `(r, c)` of input `k` -/
theorem mulSys_deriv (s : MulSys ℝ) (hn : s.inputs.Nodup) (env : String → ℕ → ℕ → ℝ)
    (k : Fin s.inputs.length) (i j r c : ℕ)
    (h0 : s.div.getD k false = true →
      env s.inputs[k] (if s.vecSize.get k = 1 then 0 else i) j ≠ 0) :
    HasDerivAt (fun x => s.compute (setEntry env s.inputs[k] r c x) i j)
      (if (if s.vecSize.get k = 1 then 0 else i) = r ∧ j = c then s.partialVal env s.inputs[k] i j else 0)
      (env s.inputs[k] r c) := by
  unfold MulSys.compute MulSys.partialVal
  by_cases h : (if s.vecSize.get k = 1 then 0 else i) = r ∧ j = c
  · rw [if_pos h]
    apply HasDerivAt.mul_const
    have hmem : (s.inputs[k], (k : ℕ)) ∈ s.inputs.zipIdx := by
      rw [List.mk_mem_zipIdx_iff_getElem?]
      simp
    have := foldl_deriv s.inputs.zipIdx s.inputs[k] (zipIdx_nodup_fst hn) (s.inputs[k], (k : ℕ)) hmem rfl
      (fun n => s.div.getD n false) (s.read env i j)
      (fun x => s.read (setEntry env s.inputs[k] r c x) i j)
      (by
        intro x p hp hne
        simp only [MulSys.read, setEntry]
        rw [if_neg (fun h' => hne h'.1)]) 1 (env s.inputs[k] r c)
      (by
        have : ∀ x, s.read (setEntry env s.inputs[k] r c x) i j (s.inputs[k], (k : ℕ)) = x := by
          intro x
          show setEntry env s.inputs[k] r c x s.inputs[k] _ j = x
          unfold setEntry
          rw [if_pos ⟨rfl, h⟩]
        simp only [this]
        exact hasDerivAt_id' _)
      (by
        show setEntry env s.inputs[k] r c _ s.inputs[k] _ j = env s.inputs[k] _ j
        unfold setEntry
        rw [if_pos ⟨rfl, h⟩, h.1, h.2])
      (fun hd => h0 hd) 1
    simpa using this
  · rw [if_neg h]
    have : ∀ x, s.inputs.zipIdx.foldl (fun temp p =>
        if s.div.getD p.2 false = true then temp / s.read (setEntry env s.inputs[k] r c x) i j p
        else temp * s.read (setEntry env s.inputs[k] r c x) i j p) 1
        = s.inputs.zipIdx.foldl (fun temp p =>
        if s.div.getD p.2 false = true then temp / s.read env i j p
        else temp * s.read env i j p) 1 := by
      intro x
      apply List.foldl_ext
      intro a p hp
      have : s.read (setEntry env s.inputs[k] r c x) i j p = s.read env i j p := by
        obtain ⟨hlt, he⟩ := mem_zipIdx_get hp
        unfold MulSys.read setEntry
        rw [if_neg]
        rintro ⟨e1, e2, e3⟩
        have hk : p.2 = k := by
          rw [← he] at e1
          exact (List.Nodup.getElem_inj_iff hn).1 e1
        apply h
        rw [hk] at e2
        exact ⟨e2, e3⟩
      rw [this]
    simp only [this]
    exact hasDerivAt_const _ _

/-- C15 (partial: inputs with more than one row, or `length = 1`).  The partials assembled by OpenMDAO
from the declared pattern and the computed values are the derivatives, for distinct names and nonzero
divisors.  Full statement: without `hsz`; false, see `C15_broadcast_wrong`. -/
theorem C15_partials_partial (s : MulSys ℝ) (hs : s.check = .ok ()) (env : String → ℕ → ℕ → ℝ)
    (k : Fin s.inputs.length) (hsz : s.vecSize.get k ≠ 1 ∨ s.length = 1)
    (i j r c : ℕ) (hi : i < s.vecSize.out) (hj : j < s.length) (hr : r < s.vecSize.get k) (hc : c < s.length)
    (h0 : s.div.getD k false = true → env s.inputs[k] (if s.vecSize.get k = 1 then 0 else i) j ≠ 0) :
    HasDerivAt (fun x => s.compute (setEntry env s.inputs[k] r c x) i j)
      ((s.assembled env (s.inputs[k], k)).dense (i * s.length + j) (r * s.length + c))
      (env s.inputs[k] r c) := by
  have hn : s.inputs.Nodup := by
    unfold MulSys.check at hs
    split_ifs at hs with h1 h2 h3 h4 h5
    exact (List.nodup_cons.1 h5).2
  refine (mulSys_deriv s hn env k i j r c h0).congr_deriv ?_
  have hlt : i * s.length + j < s.vecSize.out * s.length := by
    calc i * s.length + j < i * s.length + s.length := by omega
      _ = (i + 1) * s.length := by ring
      _ ≤ _ := Nat.mul_le_mul_right _ hi
  have hdiv : (i * s.length + j) / s.length = i := by
    rw [Nat.mul_comm, Nat.mul_add_div (by omega), Nat.div_eq_of_lt hj, Nat.add_zero]
  have hmod : (i * s.length + j) % s.length = j := by
    rw [Nat.mul_add_mod', Nat.mod_eq_of_lt hj]
  unfold RegPartial.dense MulSys.assembled
  simp only [hlt, true_and, colVals, hdiv, hmod]
  by_cases h1 : s.vecSize.get k = 1
  · have hl : s.length = 1 := hsz.resolve_left (fun h => h h1)
    have : r = 0 := by omega
    have : c = 0 := by omega
    have : j = 0 := by omega
    subst_vars
    simp [h1]
  · simp only [if_neg h1]
    by_cases h2 : i = r ∧ j = c
    · rw [if_pos h2, if_pos ((flat_inj hj hc).2 h2)]
    · rw [if_neg h2, if_neg (fun h => h2 ((flat_inj hj hc).1 h))]

/-- C15 is false for inputs with one row and several columns, whenever the derivative is not zero. -/
theorem C15_broadcast_wrong (s : MulSys ℝ) (hs : s.check = .ok ()) (env : String → ℕ → ℕ → ℝ)
    (k : Fin s.inputs.length) (h1 : s.vecSize.get k = 1) (_hlen : 1 < s.length) (_ho : 0 < s.vecSize.out)
    (h0 : s.div.getD k false = true → env s.inputs[k] 0 1 ≠ 0)
    (hv : s.partialVal env s.inputs[k] 0 1 ≠ 0) :
    ¬ HasDerivAt (fun x => s.compute (setEntry env s.inputs[k] 0 1 x) 0 1)
      ((s.assembled env (s.inputs[k], k)).dense (0 * s.length + 1) (0 * s.length + 1))
      (env s.inputs[k] 0 1) := by
  have hn : s.inputs.Nodup := by
    unfold MulSys.check at hs
    split_ifs at hs with h1 h2 h3 h4 h5
    exact (List.nodup_cons.1 h5).2
  intro h
  have h' := mulSys_deriv s hn env k 0 1 0 1 (by simpa [h1] using h0)
  have := h.unique h'
  simp [RegPartial.dense, MulSys.assembled, colVals, h1] at this
  exact hv this.symm

/-- `c = 3 a / b` with `a`, `b` of size 4 -/
def demoMul : MulSys ℝ :=
  { output := "c", inputs := ["a", "b"], vecSize := .all 4, length := 1, scaling := 3,
    divide := some [false, true], inputUnits := some [some "m", some "s"] }

/-- hypotheses of `C15_partials_partial` -/
example : demoMul.check = .ok () := by
  have hc : ∀ i, colsOk (demoMul.vecSize.get i) demoMul.length (demoMul.vecSize.out * demoMul.length) = true :=
    fun i => (colsOk_iff demoMul.vecSize i 1 (by decide)).2 (Or.inr rfl)
  unfold MulSys.check
  rw [if_neg (by simp [demoMul, MulSys.div]), if_neg (by simp [demoMul, MulSys.units]), if_neg (by decide),
    if_neg (by decide), if_neg (by decide), if_neg (not_not.2 fun i _ => hc i)]

/-- `c = a * b` with both of shape (1, 2) -/
def demoMulRow : MulSys ℝ :=
  { output := "c", inputs := ["a", "b"], vecSize := .all 1, length := 2, scaling := 1,
    divide := none, inputUnits := none }

/-- hypotheses of `C15_broadcast_wrong` -/
example : demoMulRow.check = .ok () ∧ demoMulRow.vecSize.get 0 = 1 ∧ 1 < demoMulRow.length ∧
    demoMulRow.partialVal (fun _ _ _ => 1) "a" 0 1 ≠ 0 := by
  refine ⟨?_, rfl, by decide, ?_⟩
  · have hc : ∀ i, colsOk (demoMulRow.vecSize.get i) demoMulRow.length
        (demoMulRow.vecSize.out * demoMulRow.length) = true :=
      fun i => (colsOk_iff demoMulRow.vecSize i 2 (by decide)).2 (Or.inr rfl)
    unfold MulSys.check
    rw [if_neg (by simp [demoMulRow, MulSys.div]), if_neg (by simp [demoMulRow, MulSys.units]),
      if_neg (by decide), if_neg (by decide), if_neg (by decide), if_neg (not_not.2 fun i _ => hc i)]
  · simp [MulSys.partialVal, demoMulRow, MulSys.read, MulSys.div]

/-! ### C16 -/

/-- Independent meaning of unit strings: known units and the composite forms that occur here, read left
to right as Python does. -/
inductive UnitDenotes {G : Type} [CommGroup G] (base : String → Option G) : String → G → Prop
  | base {s g} : base s = some g → UnitDenotes base s g
  | space {a g} : UnitDenotes base a g → UnitDenotes base (a ++ " ") g
  | mul {a b g h} : UnitDenotes base a g → UnitDenotes base b h →
      UnitDenotes base (a ++ "* (" ++ b ++ ") ") (g * h)
  | div {a b g h} : UnitDenotes base a g → UnitDenotes base b h →
      UnitDenotes base (a ++ "/ (" ++ b ++ ") ") (g / h)
  | inv {a g} : UnitDenotes base a g → UnitDenotes base ("(" ++ a ++ ")**-1 ") g⁻¹

/-- the unit the output should have: product over the inputs, divided inputs inverted, inputs without
unit contribute nothing -/
def expectedUnit {G : Type} [CommGroup G] (l : List (Bool × Option G)) : G :=
  (l.map fun p => match p.2 with
    | none => 1
    | some g => if p.1 then g⁻¹ else g).prod

/-- the inputs with the meaning of their unit strings -/
structure UnitInput (G : Type) where
  divide : Bool
  unit : Option (String × G)

def UnitInput.str {G : Type} (u : UnitInput G) : Bool × Option String := (u.divide, u.unit.map Prod.fst)
def UnitInput.sem {G : Type} (u : UnitInput G) : Bool × Option G := (u.divide, u.unit.map Prod.snd)

variable {G : Type} [CommGroup G]

/-- the concatenated pieces of the inputs numbered from `n` on -/
def joinPieces (n : ℕ) (l : List (Bool × Option String)) : String :=
  ((l.zipIdx n).flatMap fun p => unitPiece p.2 p.1.1 p.1.2).foldr (· ++ ·) ""

theorem foldr_append_str (a b : List String) :
    (a ++ b).foldr (· ++ ·) "" = a.foldr (· ++ ·) "" ++ b.foldr (· ++ ·) "" := by
  induction a with
  | nil => simp
  | cons x a ih => simp only [List.cons_append, List.foldr_cons, ih, String.append_assoc]

theorem joinPieces_cons (n : ℕ) (p : Bool × Option String) (l : List (Bool × Option String)) :
    joinPieces n (p :: l) = (unitPiece n p.1 p.2).foldr (· ++ ·) "" ++ joinPieces (n + 1) l := by
  unfold joinPieces
  rw [List.zipIdx_cons, List.flatMap_cons, foldr_append_str]

/-- adding the pieces of the inputs after the first to a well formed string -/
theorem pieces_tail (base : String → Option G) (l : List (UnitInput G))
    (hl : ∀ u ∈ l, ∀ s g, u.unit = some (s, g) → UnitDenotes base s g) (n : ℕ) (hn : n ≠ 0) (a : String) (g : G)
    (ha : UnitDenotes base a g) :
    UnitDenotes base (a ++ joinPieces n (l.map UnitInput.str)) (g * expectedUnit (l.map UnitInput.sem)) := by
  induction l generalizing a g n with
  | nil => simpa [expectedUnit, joinPieces] using ha
  | cons u l ih =>
    have ih' := ih (fun v hv => hl v (by simp [hv])) (n + 1) (by omega)
    obtain ⟨d, un⟩ := u
    rw [List.map_cons, List.map_cons, joinPieces_cons]
    cases un with
    | none =>
      have := ih' a g ha
      simpa [UnitInput.str, UnitInput.sem, unitPiece, expectedUnit] using this
    | some sg =>
      obtain ⟨s, h⟩ := sg
      have hs := hl _ List.mem_cons_self s h rfl
      cases d with
      | false =>
        have := ih' _ _ (UnitDenotes.mul ha hs)
        have e : a ++ "* (" ++ s ++ ") " ++ joinPieces (n + 1) (l.map UnitInput.str)
            = a ++ ((unitPiece n false (some s)).foldr (· ++ ·) "" ++ joinPieces (n + 1) (l.map UnitInput.str)) := by
          simp [unitPiece, hn, String.append_assoc]
        rw [e] at this
        simpa [UnitInput.str, UnitInput.sem, expectedUnit, mul_assoc] using this
      | true =>
        have := ih' _ _ (UnitDenotes.div ha hs)
        have e : a ++ "/ (" ++ s ++ ") " ++ joinPieces (n + 1) (l.map UnitInput.str)
            = a ++ ((unitPiece n true (some s)).foldr (· ++ ·) "" ++ joinPieces (n + 1) (l.map UnitInput.str)) := by
          simp [unitPiece, hn, String.append_assoc]
        rw [e] at this
        simpa [UnitInput.str, UnitInput.sem, expectedUnit, mul_assoc, div_eq_mul_inv] using this

theorem outputUnits_eq (l : List (Bool × Option String))
    (h : ((l.zipIdx 0).flatMap fun p => unitPiece p.2 p.1.1 p.1.2) ≠ []) :
    outputUnits l = some (joinPieces 0 l) := by
  unfold outputUnits joinPieces
  rw [if_neg]
  rwa [List.length_eq_zero_iff]

/-- C16 (partial: the first input has a unit).  The unit string given to the output is well formed and
denotes the product of the units with divided inputs inverted.
Full statement: for every list of inputs; false, see `C16_malformed`. -/
theorem C16_units_partial (base : String → Option G) (d : Bool) (s : String) (g : G) (l : List (UnitInput G))
    (hs : UnitDenotes base s g)
    (hl : ∀ u ∈ l, ∀ s g, u.unit = some (s, g) → UnitDenotes base s g) :
    ∃ str, outputUnits (((⟨d, some (s, g)⟩ : UnitInput G) :: l).map UnitInput.str) = some str ∧
      UnitDenotes base str (expectedUnit (((⟨d, some (s, g)⟩ : UnitInput G) :: l).map UnitInput.sem)) := by
  rw [List.map_cons, List.map_cons]
  refine ⟨_, outputUnits_eq _ ?_, ?_⟩
  · rw [List.zipIdx_cons, List.flatMap_cons]
    cases d <;> simp [unitPiece, UnitInput.str]
  · rw [joinPieces_cons]
    cases d with
    | false =>
      have := pieces_tail base l hl 1 (by omega) _ _ (UnitDenotes.space hs)
      have e : (unitPiece 0 false (some s)).foldr (· ++ ·) "" = s ++ " " := by simp [unitPiece]
      rw [← e] at this
      simpa [expectedUnit, UnitInput.sem, UnitInput.str] using this
    | true =>
      have := pieces_tail base l hl 1 (by omega) _ _ (UnitDenotes.inv hs)
      have e : (unitPiece 0 true (some s)).foldr (· ++ ·) "" = "(" ++ s ++ ")**-1 " := by
        simp [unitPiece, String.append_assoc]
      rw [← e] at this
      simpa [expectedUnit, UnitInput.sem, UnitInput.str] using this

/-- C16.  If no input has a unit the output has none. -/
theorem C16_no_units (l : List (Bool × Option String)) (h : ∀ p ∈ l, p.2 = none) : outputUnits l = none := by
  have : ∀ n, ((l.zipIdx n).flatMap fun p => unitPiece p.2 p.1.1 p.1.2) = [] := by
    induction l with
    | nil => intro n; rfl
    | cons a l ih =>
      intro n
      have ha := h a (by simp)
      rw [List.zipIdx_cons, List.flatMap_cons, ih (fun p hp => h p (by simp [hp]))]
      simp [unitPiece, ha]
  unfold outputUnits
  rw [this 0]
  rfl

/-- strings that begin with an operator -/
def BadStart (s : String) : Prop := ∃ t, s = "* (" ++ t ∨ s = "/ (" ++ t

theorem badStart_append {a b : String} (ha : a ≠ "") (h : BadStart (a ++ b)) :
    ∃ c, a.toList.head? = some c ∧ (c = '*' ∨ c = '/') := by
  obtain ⟨t, h⟩ := h
  have hne : a.toList ≠ [] := by
    intro he; apply ha; rw [← String.toList_inj, he]; rfl
  obtain ⟨c, cs, hc⟩ := List.exists_cons_of_ne_nil hne
  refine ⟨c, by rw [hc]; rfl, ?_⟩
  rcases h with h | h
  · left
    have := congrArg String.toList h
    rw [String.toList_append, String.toList_append, hc] at this
    simp at this
    exact this.1
  · right
    have := congrArg String.toList h
    rw [String.toList_append, String.toList_append, hc] at this
    simp at this
    exact this.1

/-- in a vocabulary without empty names or names beginning with an operator, no well formed unit string
begins with an operator -/
theorem denotes_start (base : String → Option G)
    (hb : ∀ s g, base s = some g → ∃ c, s.toList.head? = some c ∧ c ≠ '*' ∧ c ≠ '/') (s : String) (g : G)
    (h : UnitDenotes base s g) : ∃ c, s.toList.head? = some c ∧ c ≠ '*' ∧ c ≠ '/' := by
  have app : ∀ (a b : String), (∃ c, a.toList.head? = some c ∧ c ≠ '*' ∧ c ≠ '/') →
      ∃ c, (a ++ b).toList.head? = some c ∧ c ≠ '*' ∧ c ≠ '/' := by
    rintro a b ⟨c, hc, h⟩
    refine ⟨c, ?_, h⟩
    rw [String.toList_append]
    cases hl : a.toList with
    | nil => rw [hl] at hc; simp at hc
    | cons x xs => rw [hl] at hc; simpa using hc
  induction h with
  | base h => exact hb _ _ h
  | space _ ih => exact app _ _ ih
  | mul _ _ ih _ => exact app _ _ (app _ _ (app _ _ ih))
  | div _ _ ih _ => exact app _ _ (app _ _ (app _ _ ih))
  | inv _ _ =>
    refine ⟨'(', ?_, by decide, by decide⟩
    simp [String.toList_append]

/-- C16 is false: if the first input has no unit and some later input has one, the string registered
for the output is not a unit string at all (it begins with an operator). -/
theorem C16_malformed (base : String → Option G)
    (hb : ∀ s g, base s = some g → ∃ c, s.toList.head? = some c ∧ c ≠ '*' ∧ c ≠ '/')
    (d : Bool) (l : List (Bool × Option String)) (hl : ∃ p ∈ l, p.2 ≠ none) :
    ∃ str, outputUnits ((d, none) :: l) = some str ∧ ∀ g, ¬ UnitDenotes base str g := by
  have key : ∀ n, n ≠ 0 → ∃ str, ((l.zipIdx n).flatMap fun p => unitPiece p.2 p.1.1 p.1.2) ≠ [] ∧
      (((l.zipIdx n).flatMap fun p => unitPiece p.2 p.1.1 p.1.2).foldr (· ++ ·) "") = str ∧
      ∃ c, str.toList.head? = some c ∧ (c = '*' ∨ c = '/') := by
    induction l with
    | nil => obtain ⟨p, hp, -⟩ := hl; simp at hp
    | cons a l ih =>
      intro n hn
      obtain ⟨d', un⟩ := a
      cases un with
      | none =>
        have hl' : ∃ p ∈ l, p.2 ≠ none := by
          obtain ⟨p, hp, hne⟩ := hl
          rcases List.mem_cons.1 hp with h | h
          · subst h; simp at hne
          · exact ⟨p, h, hne⟩
        simpa [unitPiece] using ih hl' (n + 1) (by omega)
      | some u =>
        cases d' with
        | false =>
          refine ⟨_, by simp [unitPiece, hn], rfl, '*', ?_, Or.inl rfl⟩
          simp [unitPiece, hn, String.toList_append]
        | true =>
          refine ⟨_, by simp [unitPiece, hn], rfl, '/', ?_, Or.inr rfl⟩
          simp [unitPiece, hn, String.toList_append]
  obtain ⟨str, h1, h2, c, h3, h4⟩ := key 1 (by omega)
  refine ⟨str, ?_, ?_⟩
  · rw [outputUnits_eq, joinPieces_cons]
    · simp only [unitPiece, List.foldr_nil, String.empty_append]
      rw [← h2]
      rfl
    · rw [List.zipIdx_cons, List.flatMap_cons]
      exact h1
  · intro g hg
    obtain ⟨c', h5, h6, h7⟩ := denotes_start base hb str g hg
    rw [h3] at h5
    cases h5
    rcases h4 with h | h
    · exact h6 h
    · exact h7 h

/-- concrete instance: `factor (no unit) * length (m)` gets the unit string `"* (m) "` -/
example : outputUnits [(false, none), (false, some "m")] = some "* (m) " := rfl

/-- a vocabulary meeting the hypotheses, with a meaning for "m" -/
example : ∃ base : String → Option (Multiplicative ℤ),
    (∀ s g, base s = some g → ∃ c, s.toList.head? = some c ∧ c ≠ '*' ∧ c ≠ '/') ∧
    UnitDenotes base "m" (.ofAdd 1) := by
  refine ⟨fun s => if s = "m" then some (.ofAdd 1) else none, ?_, .base rfl⟩
  intro s g h
  by_cases hs : s = "m"
  · subst hs; exact ⟨'m', rfl, by decide, by decide⟩
  · simp [hs] at h

end Verif.VectorComps
