import Verif.Model.Plots
import Verif.Model.Mesh
import Mathlib.Tactic.Linarith
import Mathlib.Tactic.Ring
import Mathlib.Tactic.FieldSimp
import Mathlib.Tactic.NormNum
import Mathlib.Tactic.Positivity

namespace Verif.Plots

/-! ### C133: the contours of the force per area -/

/-- the panel `(a, b)` touches the point `(i, j)` -/
def Touches (a b i j : ℕ) : Prop := (a = i ∨ a + 1 = i) ∧ (b = j ∨ b + 1 = j)

/-- **C133**.  The value at a point of the mesh lies between the pressures of the panels around it, at the edges and corners too. -/
theorem C133_between (nx ny : ℕ) (hx : 1 ≤ nx) (hy : 1 ≤ ny) (P : Arr) (lo hi : ℝ) (i j : ℕ) (hi' : i ≤ nx) (hj : j ≤ ny)
    (h : ∀ a b, a < nx → b < ny → Touches a b i j → lo ≤ P a b ∧ P a b ≤ hi) :
    lo ≤ nodalPressure nx ny P i j ∧ nodalPressure nx ny P i j ≤ hi := by
  unfold Touches at h
  rcases Nat.eq_zero_or_pos i with rfl | i0
  · rcases Nat.eq_zero_or_pos j with rfl | j0
    · have := h 0 0 (by omega) (by omega) (by omega)
      have e1 : ¬ nx = 0 := by omega
      have e2 : ¬ ny = 0 := by omega
      simp [nodalPressure, edges, spread, addAt, scaleAt, leWt, teWt, show 0 < nx by omega, show 0 < ny by omega, Ne.symm e1]
      constructor <;> linarith
    · obtain ⟨b, rfl⟩ : ∃ b, j = b + 1 := ⟨j - 1, by omega⟩
      have h1 := h 0 b (by omega) (by omega) (by omega)
      rcases Nat.lt_or_ge (b + 1) ny with hb | hb
      · have h2 := h 0 (b + 1) (by omega) (by omega) (by omega)
        simp [nodalPressure, edges, spread, addAt, scaleAt, leWt, teWt, show 0 < nx by omega, hb, show ¬ 0 = nx by omega,
          show ¬ b + 1 = ny by omega]
        constructor <;> linarith
      · obtain rfl : ny = b + 1 := by omega
        simp [nodalPressure, edges, spread, addAt, scaleAt, leWt, teWt, show 0 < nx by omega, show ¬ 0 = nx by omega]
        constructor <;> linarith
  · obtain ⟨a, rfl⟩ : ∃ a, i = a + 1 := ⟨i - 1, by omega⟩
    rcases Nat.lt_or_ge (a + 1) nx with ha | ha
    · rcases Nat.eq_zero_or_pos j with rfl | j0
      · have h1 := h a 0 (by omega) (by omega) (by omega)
        have h2 := h (a + 1) 0 (by omega) (by omega) (by omega)
        simp [nodalPressure, edges, spread, addAt, scaleAt, leWt, teWt, ha, show 0 < ny by omega, show ¬ a + 1 = nx by omega]
        constructor <;> linarith
      · obtain ⟨b, rfl⟩ : ∃ b, j = b + 1 := ⟨j - 1, by omega⟩
        have h1 := h a b (by omega) (by omega) (by omega)
        have h2 := h (a + 1) b (by omega) (by omega) (by omega)
        rcases Nat.lt_or_ge (b + 1) ny with hb | hb
        · have h3 := h a (b + 1) (by omega) (by omega) (by omega)
          have h4 := h (a + 1) (b + 1) (by omega) (by omega) (by omega)
          simp [nodalPressure, edges, spread, addAt, scaleAt, leWt, teWt, ha, hb, show ¬ a + 1 = nx by omega, show ¬ b + 1 = ny by omega]
          constructor <;> linarith
        · obtain rfl : ny = b + 1 := by omega
          simp [nodalPressure, edges, spread, addAt, scaleAt, leWt, teWt, ha, show ¬ a + 1 = nx by omega]
          constructor <;> linarith
    · obtain rfl : nx = a + 1 := by omega
      rcases Nat.eq_zero_or_pos j with rfl | j0
      · have h1 := h a 0 (by omega) (by omega) (by omega)
        simp [nodalPressure, edges, spread, addAt, scaleAt, leWt, teWt, show 0 < ny by omega]
        constructor <;> linarith
      · obtain ⟨b, rfl⟩ : ∃ b, j = b + 1 := ⟨j - 1, by omega⟩
        have h1 := h a b (by omega) (by omega) (by omega)
        rcases Nat.lt_or_ge (b + 1) ny with hb | hb
        · have h3 := h a (b + 1) (by omega) (by omega) (by omega)
          simp [nodalPressure, edges, spread, addAt, scaleAt, leWt, teWt, hb, show ¬ b + 1 = ny by omega]
          constructor <;> linarith
        · obtain rfl : ny = b + 1 := by omega
          simp [nodalPressure, edges, spread, addAt, scaleAt, leWt, teWt]
          constructor <;> linarith

/-- so a pressure that is the same on all panels around a point is drawn there -/
theorem C133_uniform (nx ny : ℕ) (hx : 1 ≤ nx) (hy : 1 ≤ ny) (P : Arr) (p : ℝ) (i j : ℕ) (hi : i ≤ nx) (hj : j ≤ ny)
    (h : ∀ a b, a < nx → b < ny → Touches a b i j → P a b = p) : nodalPressure nx ny P i j = p := by
  have := C133_between nx ny hx hy P p p i j hi hj fun a b ha hb ht => by rw [h a b ha hb ht]; exact ⟨le_rfl, le_rfl⟩
  linarith [this.1, this.2]

/-- twice the area a quadrilateral has by the shoelace formula, corners in order -/
def shoelace (p q r s : ℝ × ℝ) : ℝ :=
  (p.1 * q.2 - q.1 * p.2) + (q.1 * r.2 - r.1 * q.2) + (r.1 * s.2 - s.1 * r.2) + (s.1 * p.2 - p.1 * s.2)

/-- area of the panel `(i, j)` as seen from above -/
noncomputable def trueArea (x y : Arr) (i j : ℕ) : ℝ :=
  |shoelace (x i j, y i j) (x i (j + 1), y i (j + 1)) (x (i + 1) (j + 1), y (i + 1) (j + 1)) (x (i + 1) j, y (i + 1) j)| / 2

/-- a wing from the left tip to the root with panels whose sides are streamwise -/
structure Streamwise (nx ny : ℕ) (x y : Arr) : Prop where
  side : ∀ i j, i ≤ nx → j ≤ ny → y i j = y 0 j
  inward : ∀ j, j < ny → y 0 j < y 0 (j + 1)
  aft : ∀ i j, i < nx → j ≤ ny → x i j < x (i + 1) j

theorem area_of {nx ny : ℕ} {x y : Arr} (h : Streamwise nx ny x y) {i j : ℕ} (hi : i < nx) (hj : j < ny) :
    0 < trueArea x y i j ∧ panelArea x y i j = trueArea x y i j / 2 := by
  have a1 := h.side i j (by omega) (by omega)
  have a2 := h.side i (j + 1) (by omega) (by omega)
  have a3 := h.side (i + 1) j (by omega) (by omega)
  have a4 := h.side (i + 1) (j + 1) (by omega) (by omega)
  have b := h.inward j hj
  have c1 := h.aft i j hi (by omega)
  have c2 := h.aft i (j + 1) hi (by omega)
  have hp : 0 < (y 0 (j + 1) - y 0 j) * ((x (i + 1) j - x i j) + (x (i + 1) (j + 1) - x i (j + 1))) :=
    mul_pos (by linarith) (by linarith)
  have hs : trueArea x y i j = (y 0 (j + 1) - y 0 j) * ((x (i + 1) j - x i j) + (x (i + 1) (j + 1) - x i (j + 1))) / 2 := by
    unfold trueArea shoelace
    simp only [a1, a2, a3, a4]
    rw [← abs_of_pos hp, ← abs_neg]
    congr 2
    ring
  refine ⟨by rw [hs]; linarith, ?_⟩
  rw [hs]
  unfold panelArea avgWidth frontWidth backWidth avgLength leftLength rightLength
  rw [a1, a2]
  ring

/-- **C133** (negation).  The contours are not those of the force per area: a force of `p` per area on every panel is drawn as `2 p`, for
every wing with streamwise panels. -/
theorem C133_twice (nx ny : ℕ) (hx : 1 ≤ nx) (hy : 1 ≤ ny) (x y : Arr) (h : Streamwise nx ny x y) (F : Arr) (p : ℝ)
    (hF : ∀ i j, i < nx → j < ny → F i j = p * trueArea x y i j) (i j : ℕ) (hi : i ≤ nx) (hj : j ≤ ny) :
    nodalPressure nx ny (panelPressure x y F) i j = 2 * p := by
  refine C133_uniform nx ny hx hy _ _ i j hi hj fun a b ha hb _ => ?_
  obtain ⟨h1, h2⟩ := area_of h ha hb
  unfold panelPressure
  rw [hF a b ha hb, h2]
  field_simp

/-- more generally everything is drawn twice as large as it is: with the areas of the panels in the place of those of the code the values
are half of those of the code -/
theorem C133_everywhere (nx ny : ℕ) (x y : Arr) (h : Streamwise nx ny x y) (F : Arr) (i j : ℕ) (hi : i ≤ nx) (hj : j ≤ ny) :
    nodalPressure nx ny (panelPressure x y F) i j = 2 * nodalPressure nx ny (fun a b => F a b / trueArea x y a b) i j := by
  have hp : ∀ a b, a < nx → b < ny → panelPressure x y F a b = 2 * (F a b / trueArea x y a b) := fun a b ha hb => by
    obtain ⟨h1, h2⟩ := area_of h ha hb
    unfold panelPressure
    rw [h2]
    field_simp
  have hs : spread nx ny (panelPressure x y F) i j = 2 * spread nx ny (fun a b => F a b / trueArea x y a b) i j := by
    simp only [spread, addAt, Bool.and_eq_true, decide_eq_true_eq]
    split_ifs with c1 c2 c3 c4 <;>
      (try rw [hp i j (by omega) (by omega)]) <;> (try rw [hp (i - 1) j (by omega) (by omega)]) <;>
      (try rw [hp (i - 1) (j - 1) (by omega) (by omega)]) <;> (try rw [hp i (j - 1) (by omega) (by omega)]) <;> ring
  unfold nodalPressure
  simp only [edges, scaleAt, hs]
  split_ifs <;> ring

/-- **C133**.  What is drawn: the left wing as it lies, the right wing mirrored, both as the one next to the other. -/
theorem C133_wings (nx ny : ℕ) (x y : Arr) (F : ℕ → Arr) (d : ℕ) (hd : d ≤ 2) :
    ∃ Z, Z = nodalPressure nx ny (panelPressure x y (F d)) ∧
    (∃ L R B, forceContours nx ny x y F "left" d = .ok L ∧ forceContours nx ny x y F "right" d = .ok R ∧
      forceContours nx ny x y F "both" d = .ok B ∧ L.cols = ny + 1 ∧ R.cols = ny + 1 ∧ B.cols = L.cols + R.cols ∧
      (∀ i j, (L.X i j, L.Y i j, L.Z i j) = (y i j, -x i j, Z i j)) ∧
      (∀ i j, (R.X i j, R.Y i j, R.Z i j) = (-y i j, -x i j, Z i j)) ∧
      (∀ i k, k < L.cols → (B.X i k, B.Y i k, B.Z i k) = (L.X i k, L.Y i k, L.Z i k)) ∧
      ∀ i k, k < R.cols → (B.X i (L.cols + k), B.Y i (L.cols + k), B.Z i (L.cols + k)) = (R.X i (ny - k), R.Y i (ny - k), R.Z i (ny - k))) := by
  refine ⟨_, rfl, ?_⟩
  have hd' : ¬ (d : ℤ) ∉ ([0, 1, 2] : List ℤ) := by simp; omega
  unfold forceContours
  simp only [if_neg hd']
  refine ⟨_, _, _, rfl, rfl, rfl, rfl, rfl, by simp; omega, fun i j => by simp, fun i j => by simp, ?_, ?_⟩
  · intro i k hk
    simp at hk
    simp [mirror, hk]
  · intro i k hk
    simp at hk
    have e : 2 * (ny + 1) - 1 - (ny + 1 + k) = ny - k := by omega
    simp [mirror, e, show ¬ ny + 1 + k ≤ ny by omega]

/-- and what is refused -/
theorem C133_refused (nx ny : ℕ) (x y : Arr) (F : ℕ → Arr) (w : String) (d : ℤ) :
    (∃ c, forceContours nx ny x y F w d = .ok c) ↔ (w = "left" ∨ w = "right" ∨ w = "both") ∧ 0 ≤ d ∧ d ≤ 2 := by
  unfold forceContours
  have hw : w ∉ ["left", "right", "both"] ↔ ¬(w = "left" ∨ w = "right" ∨ w = "both") := by simp
  have hd : d ∉ ([0, 1, 2] : List ℤ) ↔ ¬(0 ≤ d ∧ d ≤ 2) := by simp; omega
  rw [if_congr hw rfl rfl, if_congr hd rfl rfl]
  split_ifs with h1 h2 <;> simp_all

example (x y : Arr) (F : ℕ → Arr) : ¬ ∃ c, forceContours 2 3 x y F "both" 3 = .ok c := by
  rw [C133_refused]
  norm_num

/-- the trapezoidal wings of OpenConcept have streamwise panels -/
theorem C133_trapezoidal (nx ny : ℕ) (hx : 1 ≤ nx) (hy : 1 ≤ ny) (S AR taper sweep : ℝ) (hS : 0 < S) (hA : 0 < AR) (ht : 0 < taper) :
    Streamwise nx ny (Mesh.trapX (nx + 1) (ny + 1) S AR taper sweep) (fun _ j => Mesh.trapY (ny + 1) S AR j) := by
  have hb : 0 < Mesh.halfSpan S AR := by unfold Mesh.halfSpan; positivity
  have hc : 0 < Mesh.cRoot S AR taper := by unfold Mesh.cRoot; positivity
  have hx' : (0 : ℝ) < nx := by exact_mod_cast hx
  have hy' : (0 : ℝ) < ny := by exact_mod_cast hy
  refine ⟨fun _ _ _ _ => rfl, fun j _ => ?_, fun i j _ hj => ?_⟩
  · unfold Mesh.trapY Mesh.linspace
    refine mul_lt_mul_of_pos_right ?_ hb
    have : (0 : ℝ) < 1 / ny := by positivity
    push_cast
    ring_nf at this ⊢
    linarith
  · have hj' : (j : ℝ) ≤ ny := by exact_mod_cast hj
    have h1 : 0 < Mesh.linspace taper 1 (ny + 1) j := by
      have e : Mesh.linspace taper 1 (ny + 1) j = (taper * (ny - j) + j) / ny := by
        unfold Mesh.linspace
        push_cast
        rw [show (ny : ℝ) + 1 - 1 = ny by ring]
        field_simp
        ring
      rw [e]
      refine div_pos ?_ hy'
      rcases hj'.eq_or_lt with h | h
      · rw [h]; linarith
      · have := mul_pos ht (sub_pos.2 h)
        positivity
    have h2 : Mesh.linspace 0 1 (nx + 1) i < Mesh.linspace 0 1 (nx + 1) (i + 1) := by
      unfold Mesh.linspace
      have : (0 : ℝ) < 1 / nx := by positivity
      push_cast
      ring_nf at this ⊢
      linarith
    unfold Mesh.trapX
    have := mul_lt_mul_of_pos_right (mul_lt_mul_of_pos_right h2 hc) h1
    linarith

/-- a rectangular wing of two by three panels under 1000 N/m², drawn with 2000 N/m² at its corner -/
example (S AR : ℝ) (hS : 0 < S) (hA : 0 < AR) : ∃ F, (∀ i j, i < 2 → j < 3 →
      F i j = 1000 * trueArea (Mesh.trapX 3 4 S AR 1 0) (fun _ j => Mesh.trapY 4 S AR j) i j) ∧
    nodalPressure 2 3 (panelPressure (Mesh.trapX 3 4 S AR 1 0) (fun _ j => Mesh.trapY 4 S AR j) F) 0 0 = 2000 :=
  ⟨_, fun _ _ _ _ => rfl, by
    rw [C133_twice 2 3 (by norm_num) (by norm_num) _ _ (C133_trapezoidal 2 3 (by norm_num) (by norm_num) S AR 1 0 hS hA one_pos) _ 1000
      (fun _ _ _ _ => rfl) 0 0 (by norm_num) (by norm_num)]
    norm_num⟩

/-- a pressure that falls from the leading panel to the trailing one, at the point between them -/
example : nodalPressure 2 1 (fun i _ => if i = 0 then 4 else 0) 1 0 = 1 := by
  norm_num [nodalPressure, edges, spread, addAt, scaleAt, leWt, teWt]

/-! ### C134: the whole wing -/

/-- **C134**.  The mesh of half a wing, from the tip to a root in the plane of symmetry, is completed to the whole wing: the given points come
first, the wing is symmetric, and nothing is drawn twice: with points that run inwards on the half the points run from tip to tip. -/
theorem C134_whole (n : ℕ) (hn : 1 ≤ n) (M : ℕ → ℕ → Fin 3 → ℝ) (hroot : ∀ i, M i (n - 1) 1 = 0) :
    wholeCols n = 2 * n - 1 ∧ (∀ i k d, k < n → wholeMesh n M i k d = M i k d) ∧
    (∀ i k, k < wholeCols n → wholeMesh n M i (wholeCols n - 1 - k) 0 = wholeMesh n M i k 0 ∧
      wholeMesh n M i (wholeCols n - 1 - k) 1 = -wholeMesh n M i k 1 ∧ wholeMesh n M i (wholeCols n - 1 - k) 2 = wholeMesh n M i k 2) ∧
    ∀ i, (∀ k, k + 1 < n → M i k 1 < M i (k + 1) 1) → ∀ k, k + 1 < wholeCols n → wholeMesh n M i k 1 < wholeMesh n M i (k + 1) 1 := by
  have hc : wholeCols n = 2 * n - 1 := by unfold wholeCols; omega
  refine ⟨hc, fun i k d hk => by simp [wholeMesh, hk], fun i k hk => ?_, fun i hM k hk => ?_⟩
  · rw [hc] at hk ⊢
    have e : 2 * n - 1 - 1 - k = 2 * n - 2 - k := by omega
    rw [e]
    unfold wholeMesh
    rcases Nat.lt_trichotomy k (n - 1) with h | h | h
    · have a : ¬ 2 * n - 2 - k < n := by omega
      have b : n - 2 - (2 * n - 2 - k - n) = k := by omega
      simp [a, b, show k < n by omega]
    · subst h
      have a : 2 * n - 2 - (n - 1) = n - 1 := by omega
      simp [a, show n - 1 < n by omega, hroot]
    · have a : 2 * n - 2 - k < n := by omega
      have b : n - 2 - (k - n) = 2 * n - 2 - k := by omega
      simp [a, b, show ¬ k < n by omega]
  · rw [hc] at hk
    unfold wholeMesh
    rcases Nat.lt_or_ge (k + 1) n with h | h
    · simpa [h, show k < n by omega] using hM k h
    · have b : n - 2 - (k + 1 - n) = 2 * n - 3 - k := by omega
      have := hM (2 * n - 3 - k) (by omega)
      rcases Nat.lt_or_ge k n with h' | h'
      · have hk' : k = n - 1 := by omega
        have e : 2 * n - 3 - k + 1 = n - 1 := by omega
        rw [e, hroot] at this
        simp only [h', show ¬ k + 1 < n by omega, ↓reduceIte, b]
        rw [hk', hroot]
        subst hk'
        linarith
      · have e : 2 * n - 3 - k + 1 = n - 2 - (k - n) := by omega
        rw [e] at this
        simp only [show ¬ k < n by omega, show ¬ k + 1 < n by omega, ↓reduceIte, b]
        linarith

example : (List.range 5).map (fun k => wholeMesh 3 (fun _ j d => if d = 1 then [-10, -4, 0].getD j 0 else 0) 0 k 1) = [-10, -4, 0, 4, 10] := by
  simp [List.range, List.range.loop, wholeMesh]

/-! ### C135: the pages of the grid -/

/-- the place of the variable `i` in a book with `r` rows and `c` columns on a page -/
def placeOf (r c i : ℕ) : Place := ⟨(i / (r * c) : ℕ), i % (r * c) / c, i % c, i % (r * c) / c + 1 == r⟩

theorem loop_ok (r c : ℕ) (hr : 2 ≤ r) (hc : 2 ≤ c) (savefig : Bool) (k : ℕ) :
    Grid.loop r c savefig true (k + 1) = .ok ⟨(k / (r * c) : ℕ), k % (r * c) + 1, (List.range (k + 1)).map (placeOf r c),
      if savefig then (List.range (k / (r * c))).map Int.ofNat else []⟩ := by
  have hm : 1 < r * c := by nlinarith
  have hrc : ¬(r ≤ 1 ∨ c ≤ 1) := by omega
  induction k with
  | zero =>
    simp [Grid.loop, Grid.step, Except.bind, hrc, placeOf]
  | succ k ih =>
    rw [Grid.loop, ih]
    have hlt : k % (r * c) < r * c := Nat.mod_lt _ (by omega)
    have hdm := Nat.div_add_mod k (r * c)
    have hcol : (k + 1) % (r * c) % c = (k + 1) % c := Nat.mod_mod_of_dvd _ (Dvd.intro_left r rfl)
    simp only [Except.bind, Grid.step, hrc, ↓reduceIte]
    by_cases hk : k % (r * c) + 1 = r * c
    · have e1 : k + 1 = r * c * (k / (r * c) + 1) := by rw [Nat.mul_add, Nat.mul_one]; omega
      have e2 : (k + 1) / (r * c) = k / (r * c) + 1 := by
        rw [e1, Nat.mul_div_cancel_left _ (by omega)]
      have e3 : (k + 1) % (r * c) = 0 := by rw [e1]; exact Nat.mul_mod_right _ _
      have e4 : (k + 1) % c = 0 := by rw [← hcol, e3]; rfl
      rw [if_pos (by rw [hk]; exact Nat.mod_self _)]
      rw [List.range_succ (n := k + 1), List.map_append, e2, e3]
      simp only [List.map_cons, List.map_nil, placeOf, e2, e3, e4]
      have e5 : (0 : ℤ) ≤ ((k / (r * c) : ℕ) : ℤ) := Int.natCast_nonneg _
      cases savefig <;> simp only [e5, List.range_succ, and_true, and_false, ↓reduceIte, Bool.false_eq_true] <;> simp
    · have e1 : k + 1 = r * c * (k / (r * c)) + (k % (r * c) + 1) := by omega
      have e3 : (k + 1) % (r * c) = k % (r * c) + 1 := by
        rw [Nat.add_mod, Nat.mod_eq_of_lt hm]
        exact Nat.mod_eq_of_lt (by omega)
      have e2 : (k + 1) / (r * c) = k / (r * c) := by
        have := Nat.div_add_mod (k + 1) (r * c)
        rw [e3] at this
        have h : r * c * ((k + 1) / (r * c)) = r * c * (k / (r * c)) := by omega
        exact Nat.eq_of_mul_eq_mul_left (by omega) h
      have hmod : (k % (r * c) + 1) % (r * c) = k % (r * c) + 1 := Nat.mod_eq_of_lt (by omega)
      rw [if_neg (by rw [hmod]; omega)]
      rw [List.range_succ (n := k + 1), List.map_append, e2, e3]
      simp only [List.map_cons, List.map_nil, placeOf, e2, e3, ← hcol]

/-- **C135**.  With labels, several rows and several columns, the variable `i` is drawn on the page `i / (rows * columns)`, row by row; the
pages are saved once each and in order. -/
theorem C135_pages (r c : ℕ) (hr : 2 ≤ r) (hc : 2 ≤ c) (savefig : Bool) (n : ℕ) (hn : 0 < n) :
    ∃ g, trajectoryGrid r c savefig true n = .ok g ∧ g.drawn = (List.range n).map (placeOf r c) ∧
      g.saved = if savefig then (List.range ((n - 1) / (r * c) + 1)).map Int.ofNat else [] := by
  obtain ⟨k, rfl⟩ : ∃ k, n = k + 1 := ⟨n - 1, by omega⟩
  unfold trajectoryGrid
  rw [loop_ok r c hr hc]
  cases savefig
  · exact ⟨_, rfl, rfl, rfl⟩
  · simp only [Except.bind, ↓reduceIte]
    rw [if_neg (not_lt.2 (Int.natCast_nonneg _))]
    exact ⟨_, rfl, rfl, by simp [List.range_succ]⟩

/-- no two variables share a place, and every place is on its page -/
theorem C135_places (r c : ℕ) (hr : 2 ≤ r) (hc : 2 ≤ c) :
    (∀ i j, placeOf r c i = placeOf r c j → i = j) ∧ ∀ i, (placeOf r c i).row < r ∧ (placeOf r c i).col < c := by
  have hm : 0 < r * c := by positivity
  refine ⟨fun i j h => ?_, fun i => ⟨?_, Nat.mod_lt _ (by omega)⟩⟩
  · simp only [placeOf, Place.mk.injEq, Nat.cast_inj] at h
    obtain ⟨h1, h2, h3, -⟩ := h
    have hi : i % (r * c) % c = i % c := Nat.mod_mod_of_dvd _ (Dvd.intro_left r rfl)
    have hj : j % (r * c) % c = j % c := Nat.mod_mod_of_dvd _ (Dvd.intro_left r rfl)
    have a := Nat.div_add_mod (i % (r * c)) c
    have b := Nat.div_add_mod (j % (r * c)) c
    rw [h2, hi, h3, ← hj] at a
    have e : i % (r * c) = j % (r * c) := by omega
    rw [← Nat.div_add_mod i (r * c), ← Nat.div_add_mod j (r * c), h1, e]
  · exact (Nat.div_lt_iff_lt_mul (by omega)).2 (Nat.mod_lt _ hm)

/-- **C135** (negation).  Without labels, which are optional, nothing can be drawn; nor can a single row or column of plots; nor can an
empty list of variables be saved. -/
theorem C135_fails (r c : ℕ) (savefig label : Bool) (n : ℕ) :
    (∃ g, trajectoryGrid r c savefig label n = .ok g) ↔ if n = 0 then savefig = false else 2 ≤ r ∧ 2 ≤ c ∧ label = true := by
  rcases n with _ | n
  · cases savefig <;> simp [trajectoryGrid, Grid.loop, Except.bind]
  · simp only [Nat.add_eq_zero_iff, one_ne_zero, and_false, ↓reduceIte]
    constructor
    · rintro ⟨g, h⟩
      by_contra hno
      have hl : ∀ n, ∃ e, Grid.loop r c savefig label (n + 1) = .error e := by
        intro n
        rw [Grid.loop]
        rcases Grid.loop r c savefig label n with e | g
        · exact ⟨e, rfl⟩
        · simp only [Except.bind, Grid.step]
          split_ifs <;> first | exact ⟨_, rfl⟩ | (exfalso; exact hno ⟨by omega, by omega, by assumption⟩)
      obtain ⟨e, he⟩ := hl n
      rw [trajectoryGrid, he] at h
      cases h
    · rintro ⟨h1, h2, rfl⟩
      obtain ⟨g, hg, -⟩ := C135_pages r c h1 h2 savefig (n + 1) (by omega)
      exact ⟨g, hg⟩

/-- twelve variables on pages of five rows and two columns: two pages, and the second one without a label of the abscissa -/
example : ∃ g, trajectoryGrid 5 2 true true 12 = .ok g ∧ g.saved = [0, 1] ∧
    g.drawn.drop 8 = [⟨0, 4, 0, true⟩, ⟨0, 4, 1, true⟩, ⟨1, 0, 0, false⟩, ⟨1, 0, 1, false⟩] := by
  obtain ⟨g, h1, h2, h3⟩ := C135_pages 5 2 (by norm_num) (by norm_num) true 12 (by norm_num)
  refine ⟨g, h1, by rw [h3]; rfl, by rw [h2]; decide⟩

/-- the defaults of `plot_trajectory_grid` for the labels -/
example : ¬ ∃ g, trajectoryGrid 5 2 true false 7 = .ok g := by
  rw [C135_fails]
  simp

end Verif.Plots
