import Verif.Props.Mesh

/-! Property C65: mesh from wing sections. -/

namespace Verif.Mesh

open Real

theorem nodal_true (a b : ℝ) (n j : ℕ) : nodal true a b n j = cosSpace a b n j := rfl

theorem cos_zero' (a b : ℝ) (n : ℕ) : cosSpace a b n 0 = a := by rw [cosSpace_w, cosDEnd_zero]; ring

theorem cos_last' (a b : ℝ) (n : ℕ) (hn : 0 < n) : cosSpace a b (n + 1) n = b := by rw [cosSpace_w, cosDEnd_last n hn]; ring

theorem secX_value (nx : ℕ) (ny : ℕ → ℕ) (q : SecIn) (n a : ℕ) (hny : ∀ m, 0 < ny m) (i j : ℕ) (hi : i < n) (hj : j ≤ ny i) :
    secX nx ny q n a (off ny i + j) = cosSpace 0 1 nx a * cosSpace (q.c i) (q.c (i + 1)) (ny i + 1) j
      + cosSpace (q.x i) (q.x (i + 1)) (ny i + 1) j := by
  refine loop_value ny (fun m j => cosSpace 0 1 nx a * cosSpace (q.c m) (q.c (m + 1)) (ny m + 1) j
    + cosSpace (q.x m) (q.x (m + 1)) (ny m + 1) j) (fun m => secX nx ny q m a) (fun m => rfl) ?_ hny n i j hi hj
  intro m
  show _ = _
  rw [cos_last' _ _ _ (hny m), cos_last' _ _ _ (hny m), cos_zero', cos_zero']

theorem secY_value (ny : ℕ → ℕ) (q : SecIn) (N n : ℕ) (hny : ∀ m, 0 < ny m) (i j : ℕ) (hi : i < n) (hj : j ≤ ny i) :
    secY ny N q n (off ny i + j) = cosSpace (q.y N i) (q.y N (i + 1)) (ny i + 1) j := by
  refine loop_value ny (fun m => cosSpace (q.y N m) (q.y N (m + 1)) (ny m + 1)) (fun m => secY ny N q m) (fun m => rfl) ?_
    hny n i j hi hj
  intro m
  show _ = _
  rw [cos_last' _ _ _ (hny m), cos_zero']

/-! ### area -/

theorem sum_regions (ny : ℕ → ℕ) (f : ℕ → ℝ) (n : ℕ) :
    ∑ j ∈ Finset.range (off ny n), f j = ∑ i ∈ Finset.range n, ∑ j ∈ Finset.range (ny i), f (off ny i + j) := by
  induction n with
  | zero => simp [off]
  | succ n ih => rw [off_succ, Finset.sum_range_add, ih, Finset.sum_range_succ]

theorem sec_area_raw (N : ℕ) (hN : 0 < N) (ny : ℕ → ℕ) (hny : ∀ m, 0 < ny m) (n : ℕ) (q : SecIn) :
    meshArea (fun a j => secRaw (N + 1) ny n q a j 0) (fun a j => secRaw (N + 1) ny n q a j 1) N (off ny n) = secA n q / 2 := by
  have hX : ∀ a j, secRaw (N + 1) ny n q a j 0 = secX (N + 1) ny q n a j := fun a j => by simp [secRaw]
  have hY : ∀ a j, secRaw (N + 1) ny n q a j 1 = secY ny n q n j := fun a j => by simp [secRaw]
  simp only [hX, hY]
  unfold meshArea secA
  rw [Finset.sum_comm, sum_regions, mul_div_assoc, Finset.sum_mul]
  refine Finset.sum_congr rfl fun i hi => ?_
  have hi' := Finset.mem_range.1 hi
  have key := meshArea_lift (cosSpace 0 1 (N + 1)) (cosSpace (q.c i) (q.c (i + 1)) (ny i + 1))
    (cosSpace (q.x i) (q.x (i + 1)) (ny i + 1)) (cosSpace (q.y n i) (q.y n (i + 1)) (ny i + 1)) N (ny i)
    (cos_zero' _ _ _) (cos_last' _ _ _ hN)
  unfold meshArea at key
  rw [Finset.sum_comm] at key
  have e : ∑ j ∈ Finset.range (ny i), ∑ a ∈ Finset.range N, panel (fun a j => secX (N + 1) ny q n a j)
      (fun _ j => secY ny n q n j) a (off ny i + j) = ∑ j ∈ Finset.range (ny i), ∑ a ∈ Finset.range N,
      panel (fun a j => cosSpace 0 1 (N + 1) a * cosSpace (q.c i) (q.c (i + 1)) (ny i + 1) j
        + cosSpace (q.x i) (q.x (i + 1)) (ny i + 1) j) (fun _ j => cosSpace (q.y n i) (q.y n (i + 1)) (ny i + 1) j) a j := by
    refine Finset.sum_congr rfl fun j hj => Finset.sum_congr rfl fun a _ => ?_
    have hj' := Finset.mem_range.1 hj
    unfold panel
    simp only [add_assoc]
    rw [secX_value _ ny q n (a + 1) hny i (j + 1) hi' hj', secX_value _ ny q n a hny i j hi' hj'.le,
      secX_value _ ny q n a hny i (j + 1) hi' hj', secX_value _ ny q n (a + 1) hny i j hi' hj'.le,
      secY_value ny q n n hny i (j + 1) hi' hj', secY_value ny q n n hny i j hi' hj'.le]
  rw [e, key]
  simp only [cosSpace_w]
  rw [strip_sum (cosDEnd (ny i + 1)) (ny i) _ _ _ _ (cosDEnd_zero _) (cosDEnd_last _ (hny i))]
  ring

/-- C65.  For any number of sections and panels the half mesh built from the sections has half the area of the trapezoids,
the root station lies on `y = 0`, and after scaling the area is half of the requested `S`. -/
theorem C65_area (N : ℕ) (hN : 0 < N) (ny : ℕ → ℕ) (hny : ∀ m, 0 < ny m) (n : ℕ) (hn : 0 < n) (q : SecIn)
    (hA : 0 < secA n q) (hS : 0 ≤ q.S) :
    meshArea (fun a j => secMesh (N + 1) ny n q a j 0) (fun a j => secMesh (N + 1) ny n q a j 1) N (off ny n) = q.S / 2 ∧
    meshArea (fun a j => secRaw (N + 1) ny n q a j 0) (fun a j => secRaw (N + 1) ny n q a j 1) N (off ny n) = secA n q / 2 ∧
    ∀ a, secMesh (N + 1) ny n q a (off ny n) 1 = 0 := by
  refine ⟨?_, sec_area_raw N hN ny hny n q, ?_⟩
  · have h := sec_area_raw N hN ny hny n q
    have e : meshArea (fun a j => secMesh (N + 1) ny n q a j 0) (fun a j => secMesh (N + 1) ny n q a j 1) N (off ny n)
        = meshArea (fun a j => secRaw (N + 1) ny n q a j 0) (fun a j => secRaw (N + 1) ny n q a j 1) N (off ny n)
          * (q.S / secA n q) := by
      unfold meshArea
      rw [Finset.sum_mul]
      refine Finset.sum_congr rfl fun a _ => ?_
      rw [Finset.sum_mul]
      refine Finset.sum_congr rfl fun j _ => ?_
      have hs : (q.S / secA n q) ^ (0.5 : ℝ) * (q.S / secA n q) ^ (0.5 : ℝ) = q.S / secA n q := by
        rw [← rpow_add_of_nonneg (by positivity) (by norm_num) (by norm_num)]; norm_num
      unfold panel secMesh
      linear_combination (((secRaw (N + 1) ny n q (a + 1) (j + 1) 0 - secRaw (N + 1) ny n q a j 0)
        * (secRaw (N + 1) ny n q a (j + 1) 1 - secRaw (N + 1) ny n q (a + 1) j 1)
        - (secRaw (N + 1) ny n q (a + 1) (j + 1) 1 - secRaw (N + 1) ny n q a j 1)
        * (secRaw (N + 1) ny n q a (j + 1) 0 - secRaw (N + 1) ny n q (a + 1) j 0)) / 2) * hs
    rw [e, h]
    field_simp
  · intro a
    obtain ⟨m, rfl⟩ : ∃ m, n = m + 1 := ⟨n - 1, by omega⟩
    unfold secMesh secRaw
    rw [if_neg one_ne_zero, off_succ, secY_value ny q (m + 1) (m + 1) hny m (ny m) (by omega) le_rfl,
      cos_last' _ _ _ (hny m)]
    simp [SecIn.y]

/-! ### partials -/

theorem y_update (q : SecIn) (n k : ℕ) (hk : k < n) (v : ℝ) :
    SecIn.y { q with ysec := Function.update q.ysec k v } n = Function.update (q.y n) k v := by
  funext m
  unfold SecIn.y
  by_cases h : m = k
  · subst h; simp [hk]
  · simp [Function.update_of_ne h]

theorem secW_region (ny : ℕ → ℕ) (n j i : ℕ) (hi : i < n) (h1 : off ny i + (if i = 0 then 0 else 1) ≤ j)
    (h2 : j ≤ off ny i + ny i) (f : ℕ → ℝ) :
    (∑ i ∈ Finset.range n, if off ny i + (if i = 0 then 0 else 1) ≤ j ∧ j < off ny i + (ny i + 1) then f i else 0) = f i := by
  rw [Finset.sum_eq_single i]
  · rw [if_pos ⟨h1, by omega⟩]
  · intro b _ hb
    rw [if_neg]
    rintro ⟨a1, a2⟩
    exact hb (region_unique ny a1 (by omega) h1 h2)
  · intro h; exact absurd (Finset.mem_range.2 hi) h

theorem cos_region_hd (p : ℕ → ℝ) (i k m j : ℕ) :
    HasDerivAt (fun x => cosSpace (Function.update p k x i) (Function.update p k x (i + 1)) m j)
      ((if k = i + 1 then cosDEnd m j else 0) + (if k = i then cosDStart m j else 0)) (p k) := by
  refine hd_congr (region_hd true p i k m j) ?_
  simp only [nodalDStart, nodalDEnd, if_true]; ring

/-- the unscaled mesh responds to the section data with the weights collected at setup -/
theorem raw_hd (nx : ℕ) (ny : ℕ → ℕ) (hny : ∀ m, 0 < ny m) (n : ℕ) (hn : 0 < n) (q : SecIn) (a j d k : ℕ) (hj : j ≤ off ny n) :
    (k < n → HasDerivAt (fun v => secRaw nx ny n { q with ysec := Function.update q.ysec k v } a j d)
      (secDyRaw ny n j k d) (q.ysec k)) ∧
    HasDerivAt (fun v => secRaw nx ny n { q with c := Function.update q.c k v } a j d) (secDcRaw nx ny n a j k d) (q.c k) ∧
    HasDerivAt (fun v => secRaw nx ny n { q with x := Function.update q.x k v } a j d) (secDxRaw ny n j k d) (q.x k) := by
  obtain ⟨i, hi, h1, h2⟩ := region_exists ny n j hn hj
  have h0 : off ny i ≤ j := by split_ifs at h1 <;> omega
  obtain ⟨t, rfl⟩ : ∃ t, j = off ny i + t := ⟨j - off ny i, by omega⟩
  have ht : t ≤ ny i := by omega
  refine ⟨?_, ?_, ?_⟩
  · intro hk
    unfold secRaw secDyRaw
    by_cases hd : d = 0
    · simp only [hd, if_true]
      have e : ∀ v, secX nx ny { q with ysec := Function.update q.ysec k v } n a (off ny i + t)
          = secX nx ny q n a (off ny i + t) := by
        intro v; rw [secX_value _ _ _ _ _ hny i t hi ht, secX_value _ _ _ _ _ hny i t hi ht]
      simp only [e]
      exact hasDerivAt_const _ _
    · simp only [hd, if_false]
      rw [secW_region ny n _ i hi h1 h2 (fun i => (if i + 1 < n ∧ k = i + 1 then cosDEnd (ny i + 1) (off ny _ + t - off ny i) else 0)
        + (if k = i then cosDStart (ny i + 1) (off ny _ + t - off ny i) else 0))]
      simp only [secY_value _ _ _ _ hny i t hi ht, y_update q n k hk, Nat.add_sub_cancel_left]
      have := cos_region_hd (q.y n) i k (ny i + 1) t
      have e : q.y n k = q.ysec k := by simp [SecIn.y, hk]
      rw [e] at this
      refine hd_congr this ?_
      congr 1
      by_cases hki : k = i + 1
      · rw [if_pos hki, if_pos ⟨by omega, hki⟩]
      · rw [if_neg hki, if_neg (fun h => hki h.2)]
  · unfold secRaw secDcRaw
    by_cases hd : d = 0
    · simp only [hd, if_true]
      unfold secW
      rw [secW_region ny n _ i hi h1 h2 (fun i => (if k = i + 1 then cosDEnd (ny i + 1) (off ny _ + t - off ny i) else 0)
        + (if k = i then cosDStart (ny i + 1) (off ny _ + t - off ny i) else 0))]
      simp only [secX_value _ _ _ _ _ hny i t hi ht, Nat.add_sub_cancel_left]
      exact ((cos_region_hd q.c i k (ny i + 1) t).const_mul (cosSpace 0 1 nx a)).add_const
        (cosSpace (q.x i) (q.x (i + 1)) (ny i + 1) t)
    · simp only [hd, if_false]
      have e : ∀ v, secY ny n { q with c := Function.update q.c k v } n (off ny i + t) = secY ny n q n (off ny i + t) := by
        intro v; rw [secY_value _ _ _ _ hny i t hi ht, secY_value _ _ _ _ hny i t hi ht]; rfl
      simp only [e]
      exact hasDerivAt_const _ _
  · unfold secRaw secDxRaw
    by_cases hd : d = 0
    · simp only [hd, if_true]
      unfold secW
      rw [secW_region ny n _ i hi h1 h2 (fun i => (if k = i + 1 then cosDEnd (ny i + 1) (off ny _ + t - off ny i) else 0)
        + (if k = i then cosDStart (ny i + 1) (off ny _ + t - off ny i) else 0))]
      simp only [secX_value _ _ _ _ _ hny i t hi ht, Nat.add_sub_cancel_left]
      exact (cos_region_hd q.x i k (ny i + 1) t).const_add (cosSpace 0 1 nx a * cosSpace (q.c i) (q.c (i + 1)) (ny i + 1) t)
    · simp only [hd, if_false]
      have e : ∀ v, secY ny n { q with x := Function.update q.x k v } n (off ny i + t) = secY ny n q n (off ny i + t) := by
        intro v; rw [secY_value _ _ _ _ hny i t hi ht, secY_value _ _ _ _ hny i t hi ht]; rfl
      simp only [e]
      exact hasDerivAt_const _ _

theorem upd_hd (p : ℕ → ℝ) (k i : ℕ) : HasDerivAt (fun v => Function.update p k v i) (if k = i then 1 else 0) (p k) := by
  by_cases h : k = i
  · subst h; simp only [Function.update_self, if_true]; exact hasDerivAt_id' _
  · simp only [Function.update_of_ne (Ne.symm h), h, if_false]; exact hasDerivAt_const _ _

theorem secA_hd (n : ℕ) (q : SecIn) (k : ℕ) :
    (k < n → HasDerivAt (fun v => secA n { q with ysec := Function.update q.ysec k v }) (dAy n q k) (q.ysec k)) ∧
    HasDerivAt (fun v => secA n { q with c := Function.update q.c k v }) (dAc n q k) (q.c k) := by
  constructor
  · intro hk
    unfold secA dAy
    simp only [y_update q n k hk]
    refine HasDerivAt.mul_const (HasDerivAt.fun_sum fun i hi => ?_) 2
    have hi' := Finset.mem_range.1 hi
    have e : q.y n k = q.ysec k := by simp [SecIn.y, hk]
    have u1 := upd_hd (q.y n) k (i + 1)
    have u2 := upd_hd (q.y n) k i
    rw [e] at u1 u2
    refine hd_congr (((u1.sub u2).mul_const (q.c i + q.c (i + 1))).mul_const 0.5) ?_
    by_cases h1 : k = i
    · have h2 : ¬ k = i + 1 := by omega
      simp only [h1, if_true, show ¬ i = i + 1 by omega, if_false, and_false]; ring
    · by_cases h2 : k = i + 1
      · have h3 : i + 1 < n := by omega
        simp only [h2, if_true, show ¬ i + 1 = i by omega, if_false, h3, and_true]; ring
      · simp only [h1, h2, if_false, and_false]; ring
  · unfold secA dAc
    refine HasDerivAt.mul_const (HasDerivAt.fun_sum fun i _ => ?_) 2
    refine hd_congr ((((upd_hd q.c k i).add (upd_hd q.c k (i + 1))).const_mul (q.y n (i + 1) - q.y n i)).mul_const 0.5) ?_
    by_cases h1 : k = i
    · rw [if_pos h1, if_neg (by omega), if_pos (by omega)]; ring
    · by_cases h2 : k = i + 1
      · rw [if_neg h1, if_pos h2, if_pos (by omega)]; ring
      · rw [if_neg h1, if_neg h2, if_neg (by omega)]; ring

theorem scale_hd {R A : ℝ → ℝ} {R' A' v S : ℝ} (hR : HasDerivAt R R' v) (hA : HasDerivAt A A' v) (h0 : 0 < A v) (hS : 0 < S) :
    HasDerivAt (fun z => R z * (S / A z) ^ (0.5 : ℝ))
      (R' * (S / A v) ^ (0.5 : ℝ) + -0.5 * R v * S ^ (0.5 : ℝ) * A v ^ (-1.5 : ℝ) * A') v := by
  have hq : 0 < S / A v := by positivity
  have h1 : HasDerivAt (fun z => S / A z) (-(S * A') / A v ^ 2) v := by
    refine hd_congr (hd_const_div S hA h0.ne') ?_
    ring
  have h2 := h1.rpow_const (p := (0.5 : ℝ)) (Or.inl hq.ne')
  refine hd_congr (hR.fun_mul h2) ?_
  have e1 : (S / A v) ^ ((0.5 : ℝ) - 1) = S ^ (0.5 : ℝ) / S * (A v ^ (-1.5 : ℝ) * A v ^ 2) := by
    rw [div_rpow hS.le h0.le, rpow_sub_one hS.ne', ← rpow_natCast (A v) 2, ← rpow_add h0, div_eq_mul_inv, ← rpow_neg h0.le]
    norm_num
  rw [e1]
  field_simp

/-- C65.  Reported partials of the scaled mesh with respect to every section coordinate, chord, leading edge and the area,
computed from the current unscaled mesh. -/
theorem C65_partials (nx : ℕ) (ny : ℕ → ℕ) (hny : ∀ m, 0 < ny m) (n : ℕ) (hn : 0 < n) (q : SecIn) (a j d k : ℕ)
    (hj : j ≤ off ny n) (hA : 0 < secA n q) (hS : 0 < q.S) :
    (k < n → HasDerivAt (fun v => secMesh nx ny n { q with ysec := Function.update q.ysec k v } a j d)
      (secMeshDy ny n q (secRaw nx ny n q) a j d k) (q.ysec k)) ∧
    HasDerivAt (fun v => secMesh nx ny n { q with c := Function.update q.c k v } a j d)
      (secMeshDc nx ny n q (secRaw nx ny n q) a j d k) (q.c k) ∧
    HasDerivAt (fun v => secMesh nx ny n { q with x := Function.update q.x k v } a j d)
      (secMeshDx ny n q j d k) (q.x k) ∧
    HasDerivAt (fun v => secMesh nx ny n { q with S := v } a j d)
      (secMeshDS n q (secRaw nx ny n q) a j d) q.S := by
  obtain ⟨r1, r2, r3⟩ := raw_hd nx ny hny n hn q a j d k hj
  obtain ⟨a1, a2⟩ := secA_hd n q k
  refine ⟨?_, ?_, ?_, ?_⟩
  · intro hk
    have e : ({ q with ysec := Function.update q.ysec k (q.ysec k) } : SecIn) = q := by rw [Function.update_eq_self]
    have := scale_hd (S := q.S) (r1 hk) (a1 hk) (by rw [e]; exact hA) hS
    simp only [e] at this
    exact this
  · have e : ({ q with c := Function.update q.c k (q.c k) } : SecIn) = q := by rw [Function.update_eq_self]
    have := scale_hd (S := q.S) r2 a2 (by rw [e]; exact hA) hS
    simp only [e] at this
    exact this
  · have e : ∀ v, secA n { q with x := Function.update q.x k v } = secA n q := fun v => rfl
    unfold secMesh secMeshDx
    simp only [e]
    exact r3.mul_const _
  · have e : ∀ v, secA n { q with S := v } = secA n q := fun v => rfl
    have hr : ∀ m a j, secX nx ny { q with S := q.S } m a j = secX nx ny q m a j := fun _ _ _ => rfl
    have hx : ∀ v m, secX nx ny { q with S := v } m = secX nx ny q m := by
      intro v m
      induction m with
      | zero => rfl
      | succ m ih => simp only [secX, ih]
    have hy : ∀ v m, secY ny n { q with S := v } m = secY ny n q m := by
      intro v m
      induction m with
      | zero => rfl
      | succ m ih => simp only [secY, ih]; rfl
    have hraw : ∀ v, secRaw nx ny n { q with S := v } a j d = secRaw nx ny n q a j d := by
      intro v; unfold secRaw; rw [hx, hy]
    unfold secMesh secMeshDS
    simp only [e, hraw]
    have h1 : HasDerivAt (fun v : ℝ => v / secA n q) (1 / secA n q) q.S := (hasDerivAt_id' q.S).div_const _
    have h2 := h1.rpow_const (p := (0.5 : ℝ)) (Or.inl (by positivity))
    refine hd_congr (h2.const_mul (secRaw nx ny n q a j d)) ?_
    have e1 : (q.S / secA n q) ^ ((0.5 : ℝ) - 1) = q.S ^ (-0.5 : ℝ) * (secA n q / secA n q ^ (0.5 : ℝ)) := by
      have h3 : secA n q / secA n q ^ (0.5 : ℝ) = (secA n q ^ ((0.5 : ℝ) - 1))⁻¹ := by
        rw [rpow_sub_one hA.ne', inv_div]
      rw [h3, div_rpow hS.le hA.le, div_eq_mul_inv]
      norm_num
    rw [e1]
    have : secA n q ^ (0.5 : ℝ) ≠ 0 := (rpow_pos_of_pos hA _).ne'
    field_simp

/-- C65.  Without scaling, the component reports the area and its partials instead. -/
theorem C65_unscaled_partials (nx : ℕ) (ny : ℕ → ℕ) (hny : ∀ m, 0 < ny m) (n : ℕ) (hn : 0 < n) (q : SecIn) (a j d k : ℕ)
    (hj : j ≤ off ny n) :
    (k < n → HasDerivAt (fun v => secA n { q with ysec := Function.update q.ysec k v }) (dAy n q k) (q.ysec k)) ∧
    HasDerivAt (fun v => secA n { q with c := Function.update q.c k v }) (dAc n q k) (q.c k) ∧
    (k < n → HasDerivAt (fun v => secRaw nx ny n { q with ysec := Function.update q.ysec k v } a j d)
      (secDyRaw ny n j k d) (q.ysec k)) ∧
    HasDerivAt (fun v => secRaw nx ny n { q with c := Function.update q.c k v } a j d) (secDcRaw nx ny n a j k d) (q.c k) ∧
    HasDerivAt (fun v => secRaw nx ny n { q with x := Function.update q.x k v } a j d) (secDxRaw ny n j k d) (q.x k) :=
  ⟨(secA_hd n q k).1, (secA_hd n q k).2, raw_hd nx ny hny n hn q a j d k hj⟩

/-! ### cache -/

theorem raw_congr (nx : ℕ) (ny : ℕ → ℕ) (n : ℕ) (p q : SecIn) (h : q.Agree n p) : secRaw nx ny n p = secRaw nx ny n q := by
  obtain ⟨hx, hy, hc, _⟩ := h
  have e1 : ∀ m, m ≤ n → secX nx ny p m = secX nx ny q m := by
    intro m
    induction m with
    | zero => intro _; rfl
    | succ m ih =>
      intro hm
      simp only [secX, ih (by omega), hx m (by omega), hx (m + 1) hm, hc m (by omega), hc (m + 1) hm]
  have hY : p.y n = q.y n := by
    funext k
    unfold SecIn.y
    by_cases h : k < n
    · simp only [h, if_true, hy k h]
    · simp only [h, if_false]
  have e2 : ∀ m, secY ny n p m = secY ny n q m := by
    intro m
    induction m with
    | zero => rfl
    | succ m ih => simp only [secY, ih, hY]
  funext a j d
  unfold secRaw
  rw [e1 n le_rfl, e2]

/-- C65.  For every history of `compute` and `compute_partials` calls with any inputs, the unscaled mesh that a following
`compute_partials` call uses is that of the inputs it is given, so the partials do not depend on the history. -/
theorem C65_cache (nx : ℕ) (ny : ℕ → ℕ) (n : ℕ) (u : ℕ → ℕ → ℕ → ℝ) (evs : List SecEv) (q : SecIn) :
    ((evs.foldl (SecState.step nx ny n) (SecState.init u)).refresh nx ny n q).unscaled = secRaw nx ny n q := by
  have inv : ∀ (evs : List SecEv) (s : SecState), (∀ p, s.cache = some p → s.unscaled = secRaw nx ny n p) →
      ∀ p, (evs.foldl (SecState.step nx ny n) s).cache = some p →
        (evs.foldl (SecState.step nx ny n) s).unscaled = secRaw nx ny n p := by
    intro evs
    induction evs with
    | nil => intro s h; exact h
    | cons e es ih =>
      intro s h
      refine ih _ ?_
      have hc : ∀ r p, (s.compute nx ny n r).cache = some p → (s.compute nx ny n r).unscaled = secRaw nx ny n p := by
        intro r p hp
        simp only [SecState.compute, Option.some.injEq] at hp ⊢
        rw [hp]
      cases e with
      | compute r => exact hc r
      | partials r =>
        simp only [SecState.step, SecState.refresh]
        split_ifs
        · exact h
        · exact hc r
  have key := inv evs (SecState.init u) (by intro p hp; simp [SecState.init] at hp)
  unfold SecState.refresh
  split_ifs with h
  · obtain ⟨p, hp, hag⟩ := h
    rw [key p hp, raw_congr nx ny n p q hag]
  · rfl

/-- C65.  Setup raises exactly for fewer than two sections or a list of panel counts of the wrong length, and otherwise
every region gets its count. -/
theorem C65_setup (nSec : ℕ) (numY : NumY) :
    (processNumY nSec numY).isOk = false ↔ nSec < 2 ∨ ∃ l, numY = .list l ∧ l.length ≠ nSec - 1 := by
  unfold processNumY
  by_cases h : nSec < 2
  · simp [h, Except.isOk, Except.toBool]
  · cases numY with
    | int n => simp [h, Except.isOk, Except.toBool]
    | list l =>
      by_cases hl : l.length = nSec - 1
      · simp [h, hl, Except.isOk, Except.toBool]
      · simp [h, hl, Except.isOk, Except.toBool]

theorem C65_setup_value (nSec : ℕ) (numY : NumY) (ys : List ℕ) (h : processNumY nSec numY = .ok ys) :
    ys.length = nSec - 1 ∧ (∀ n, numY = .int n → ∀ y ∈ ys, y = n) ∧ ∀ l, numY = .list l → ys = l := by
  unfold processNumY at h
  split_ifs at h with h2
  cases numY with
  | int n =>
    simp only [Except.ok.injEq] at h
    subst h
    exact ⟨by simp, fun m hm y hy => by rw [List.mem_replicate] at hy; cases hm; exact hy.2, by intro l hl; cases hl⟩
  | list l =>
    simp only at h
    split_ifs at h with hl
    simp only [Except.ok.injEq] at h
    subst h
    exact ⟨not_not.1 hl, (by intro n hn; cases hn), by intro m hm; cases hm; rfl⟩

/-- A two-section wing of span 10, chords 1 and 3: unscaled area 20, scaled to 30. -/
example : secA 1 ⟨fun _ => 0, fun _ => -5, fun k => if k = 0 then 1 else 3, 30⟩ = 20 ∧
    meshArea (fun a j => secMesh 3 (fun _ => 4) 1 ⟨fun _ => 0, fun _ => -5, fun k => if k = 0 then 1 else 3, 30⟩ a j 0)
      (fun a j => secMesh 3 (fun _ => 4) 1 ⟨fun _ => 0, fun _ => -5, fun k => if k = 0 then 1 else 3, 30⟩ a j 1) 2
      (off (fun _ => 4) 1) = 15 := by
  have hA : secA 1 ⟨fun _ => 0, fun _ => -5, fun k => if k = 0 then 1 else 3, 30⟩ = 20 := by
    simp [secA, SecIn.y]; norm_num
  refine ⟨hA, ?_⟩
  have := (C65_area 2 (by norm_num) (fun _ => 4) (fun _ => by norm_num) 1 (by norm_num)
    ⟨fun _ => 0, fun _ => -5, fun k => if k = 0 then 1 else 3, 30⟩ (by rw [hA]; norm_num) (by norm_num)).1
  rw [this]; norm_num

end Verif.Mesh
