import Verif.Model.Decks
import Verif.Proof.HDeriv
import Mathlib.Data.List.Nodup
import Mathlib.Tactic.IntervalCases

/-!
C85: training data of the engine decks.
C86: propeller map tables.
C87: design point of the scaled propeller map.
-/

namespace Verif.Decks

open Verif.Aero (linspace)

/-! ### C85 -/

theorem mem_loop3 {α : Type} (a b c : ℕ) (f : ℕ → ℕ → ℕ → List α) (x : α) :
    (x ∈ (List.range a).flatMap fun i => (List.range b).flatMap fun j => (List.range c).flatMap fun k => f i j k) ↔
      ∃ i < a, ∃ j < b, ∃ k < c, x ∈ f i j k := by
  simp [List.mem_flatMap, List.mem_range]

/-- keys that determine the cell keep a triple loop free of duplicates -/
theorem nodup_loop3 {α β : Type} (a b c : ℕ) (f : ℕ → ℕ → ℕ → List α) (key : α → β)
    (h1 : ∀ i j k, ((f i j k).map key).Nodup)
    (h2 : ∀ i < a, ∀ j < b, ∀ k < c, ∀ i' < a, ∀ j' < b, ∀ k' < c, ∀ x ∈ f i j k, ∀ y ∈ f i' j' k', key x = key y →
      i = i' ∧ j = j' ∧ k = k') :
    (((List.range a).flatMap fun i => (List.range b).flatMap fun j => (List.range c).flatMap fun k => f i j k).map key).Nodup := by
  have inner : ∀ i < a, ∀ j < b, (((List.range c).flatMap fun k => f i j k).map key).Nodup := by
    intro i hi j hj
    rw [List.map_flatMap, List.nodup_flatMap]
    refine ⟨fun k _ => h1 i j k, ?_⟩
    refine List.Pairwise.imp_of_mem ?_ (List.nodup_range (n := c))
    intro k k' hk hk' hne z hz hz'
    obtain ⟨x, hx, rfl⟩ := List.mem_map.1 hz
    obtain ⟨y, hy, e⟩ := List.mem_map.1 hz'
    exact hne (h2 i hi j hj k (List.mem_range.1 hk) i hi j hj k' (List.mem_range.1 hk') x hx y hy e.symm).2.2
  have mid : ∀ i < a, (((List.range b).flatMap fun j => (List.range c).flatMap fun k => f i j k).map key).Nodup := by
    intro i hi
    rw [List.map_flatMap, List.nodup_flatMap]
    refine ⟨fun j hj => inner i hi j (List.mem_range.1 hj), ?_⟩
    refine List.Pairwise.imp_of_mem ?_ (List.nodup_range (n := b))
    intro j j' hj hj' hne z hz hz'
    simp only [List.mem_map, List.mem_flatMap, List.mem_range] at hz hz'
    obtain ⟨x, ⟨k, hk, hx⟩, rfl⟩ := hz
    obtain ⟨y, ⟨k', hk', hy⟩, e⟩ := hz'
    exact hne (h2 i hi j (List.mem_range.1 hj) k hk i hi j' (List.mem_range.1 hj') k' hk' x hx y hy e.symm).2.1
  rw [List.map_flatMap, List.nodup_flatMap]
  refine ⟨fun i hi => mid i (List.mem_range.1 hi), ?_⟩
  refine List.Pairwise.imp_of_mem ?_ (List.nodup_range (n := a))
  intro i i' hi hi' hne z hz hz'
  simp only [List.mem_map, List.mem_flatMap, List.mem_range] at hz hz'
  obtain ⟨x, ⟨j, hj, k, hk, hx⟩, rfl⟩ := hz
  obtain ⟨y, ⟨j', hj', k', hk', hy⟩, e⟩ := hz'
  exact hne (h2 i (List.mem_range.1 hi) j hj k hk i' (List.mem_range.1 hi') j' hj' k' hk' x hx y hy e.symm).1

theorem cfmAlt_eq {i : ℕ} (h : i < 8) : cfmAlt i = (7 - i) * 5000 := by
  interval_cases i <;> simp [cfmAlt] <;> norm_num

theorem cfmMach_eq {j : ℕ} (h : j < 9) : cfmMach j = (8 - j) / 10 := by
  interval_cases j <;> simp [cfmMach] <;> norm_num

theorem cfmThrottle_eq {k : ℕ} (h : k < 9) : cfmThrottle k = (10 - k) / 10 := by
  interval_cases k <;> simp [cfmThrottle] <;> norm_num

/-- C85.  The CFM56 training set consists of exactly the cells of the 8 by 9 by 9 tables with positive thrust, apart from
Mach 0.6 and above at sea level; each row carries the throttle, altitude and Mach number of its own cell (throttle from 1
down to 0.2, altitude from 35000 ft down to 0 in steps of 5000 ft, Mach number from 0.8 down to 0). -/
theorem C85_cfm_rows (thrust fuel t4 : Table) (r : Row) :
    r ∈ cfmRows thrust fuel t4 ↔ ∃ i < 8, ∃ j < 9, ∃ k < 9, 0 < thrust i j k ∧ ¬ (i = 7 ∧ j ≤ 2) ∧
      r = ⟨(10 - k) / 10, (7 - i) * 5000, (8 - j) / 10, thrust i j k, fuel i j k, t4 i j k⟩ := by
  unfold cfmRows
  rw [mem_loop3]
  constructor
  · rintro ⟨i, hi, j, hj, k, hk, h⟩
    refine ⟨i, hi, j, hj, k, hk, ?_⟩
    unfold cfmCell at h
    rw [cfmAlt_eq hi, cfmMach_eq hj, cfmThrottle_eq hk] at h
    by_cases h1 : thrust i j k > 0
    · rw [if_pos h1] at h
      by_cases h2 : ((8 - (j : ℝ)) / 10 > 0.5 ∧ (7 - (i : ℝ)) * 5000 = 0)
      · rw [if_neg (not_not.2 h2)] at h; simp at h
      · rw [if_pos h2] at h
        refine ⟨h1, ?_, by simpa using h⟩
        rintro ⟨rfl, hj2⟩
        refine h2 ⟨?_, by norm_num⟩
        have : (j : ℝ) ≤ 2 := by exact_mod_cast hj2
        norm_num
        linarith
    · rw [if_neg h1] at h; simp at h
  · rintro ⟨i, hi, j, hj, k, hk, h1, h2, rfl⟩
    refine ⟨i, hi, j, hj, k, hk, ?_⟩
    unfold cfmCell
    rw [cfmAlt_eq hi, cfmMach_eq hj, cfmThrottle_eq hk, if_pos h1, if_pos]
    · simp
    · rintro ⟨h3, h4⟩
      apply h2
      have h5 : (i : ℝ) = 7 := by
        have : (7 - (i : ℝ)) = 0 := by simpa using h4
        linarith
      refine ⟨by exact_mod_cast h5, ?_⟩
      have : (j : ℝ) < 3 := by norm_num at h3; linarith
      have : j < 3 := by exact_mod_cast this
      omega

/-- C85.  No two CFM56 training rows share their input point, so the deck is a function of throttle, altitude and Mach
number. -/
theorem C85_cfm_distinct (thrust fuel t4 : Table) :
    ((cfmRows thrust fuel t4).map fun r => (r.throttle, r.alt, r.mach)).Nodup := by
  unfold cfmRows
  apply nodup_loop3
  · intro i j k
    unfold cfmCell
    split_ifs <;> simp
  · intro i hi j hj k hk i' hi' j' hj' k' hk' x hx y hy e
    have hx' : x.throttle = cfmThrottle k ∧ x.alt = cfmAlt i ∧ x.mach = cfmMach j := by
      unfold cfmCell at hx; split_ifs at hx <;> simp at hx <;> subst hx <;> exact ⟨rfl, rfl, rfl⟩
    have hy' : y.throttle = cfmThrottle k' ∧ y.alt = cfmAlt i' ∧ y.mach = cfmMach j' := by
      unfold cfmCell at hy; split_ifs at hy <;> simp at hy <;> subst hy <;> exact ⟨rfl, rfl, rfl⟩
    simp only [Prod.mk.injEq] at e
    rw [hx'.1, hx'.2.1, hx'.2.2, hy'.1, hy'.2.1, hy'.2.2, cfmAlt_eq hi, cfmAlt_eq hi', cfmMach_eq hj, cfmMach_eq hj',
      cfmThrottle_eq hk, cfmThrottle_eq hk'] at e
    obtain ⟨e1, e2, e3⟩ := e
    have a1 : (i : ℝ) = i' := by linarith
    have a2 : (j : ℝ) = j' := by linarith
    have a3 : (k : ℝ) = k' := by linarith
    exact ⟨by exact_mod_cast a1, by exact_mod_cast a2, by exact_mod_cast a3⟩

/-- C85.  The N+3 training set: exactly the cells with positive fuel flow, each row taken from one cell of all tables. -/
theorem C85_n3_rows (throttle alt mach thrust fuel smw : Table) (r : Row) :
    r ∈ n3Rows throttle alt mach thrust fuel smw ↔ ∃ i < 8, ∃ j < 7, ∃ k < 11, 0 < fuel i j k ∧
      r = ⟨throttle i j k, alt i j k, mach i j k, thrust i j k, fuel i j k, smw i j k⟩ := by
  unfold n3Rows
  rw [mem_loop3]
  refine ⟨?_, ?_⟩
  · rintro ⟨i, hi, j, hj, k, hk, h⟩
    refine ⟨i, hi, j, hj, k, hk, ?_⟩
    unfold n3Cell at h
    split_ifs at h with h1
    · exact ⟨h1, by simpa using h⟩
    · simp at h
  · rintro ⟨i, hi, j, hj, k, hk, h1, rfl⟩
    refine ⟨i, hi, j, hj, k, hk, ?_⟩
    unfold n3Cell
    rw [if_pos h1]; simp

theorem mem_hybBlock (p : ℝ) (throttle alt mach thrust fuel smw : Table) (r : HRow) :
    r ∈ hybBlock p throttle alt mach thrust fuel smw ↔ ∃ i < 8, ∃ j < 7, ∃ k < 11, 0 < fuel i j k ∧
      r = ⟨throttle i j k, alt i j k, mach i j k, p, thrust i j k, fuel i j k, smw i j k⟩ := by
  unfold hybBlock
  rw [mem_loop3]
  refine ⟨?_, ?_⟩
  · rintro ⟨i, hi, j, hj, k, hk, h⟩
    refine ⟨i, hi, j, hj, k, hk, ?_⟩
    unfold hybCell at h
    split_ifs at h with h1
    · exact ⟨h1, by simpa using h⟩
    · simp at h
  · rintro ⟨i, hi, j, hj, k, hk, h1, rfl⟩
    refine ⟨i, hi, j, hj, k, hk, ?_⟩
    unfold hybCell
    rw [if_pos h1]; simp

/-- C85.  The hybrid training set: fuel flow and surge margin come from the tables of the row's own power level (0, 500 or
1000 kW), everything else from the power-off tables; cells without positive fuel flow at that level are left out. -/
theorem C85_hybrid_rows (t : HybTables) (r : HRow) :
    r ∈ hybRows t ↔ ∃ i < 8, ∃ j < 7, ∃ k < 11,
      (0 < t.fuel0 i j k ∧
        r = ⟨t.throttle i j k, t.alt i j k, t.mach i j k, 0, t.thrust i j k, t.fuel0 i j k, t.smw0 i j k⟩) ∨
      (0 < t.fuel500 i j k ∧
        r = ⟨t.throttle i j k, t.alt i j k, t.mach i j k, 500, t.thrust i j k, t.fuel500 i j k, t.smw500 i j k⟩) ∨
      (0 < t.fuel1000 i j k ∧
        r = ⟨t.throttle i j k, t.alt i j k, t.mach i j k, 1000, t.thrust i j k, t.fuel1000 i j k, t.smw1000 i j k⟩) := by
  unfold hybRows
  rw [List.mem_append, List.mem_append, mem_hybBlock, mem_hybBlock, mem_hybBlock,
    show (0.0 : ℝ) = 0 by norm_num, show (500.0 : ℝ) = 500 by norm_num, show (1000.0 : ℝ) = 1000 by norm_num]
  constructor
  · rintro ((⟨i, hi, j, hj, k, hk, h⟩ | ⟨i, hi, j, hj, k, hk, h⟩) | ⟨i, hi, j, hj, k, hk, h⟩)
    · exact ⟨i, hi, j, hj, k, hk, .inl h⟩
    · exact ⟨i, hi, j, hj, k, hk, .inr (.inl h)⟩
    · exact ⟨i, hi, j, hj, k, hk, .inr (.inr h)⟩
  · rintro ⟨i, hi, j, hj, k, hk, h | h | h⟩
    · exact .inl (.inl ⟨i, hi, j, hj, k, hk, h⟩)
    · exact .inl (.inr ⟨i, hi, j, hj, k, hk, h⟩)
    · exact .inr ⟨i, hi, j, hj, k, hk, h⟩

theorem nodup_hybBlock (p : ℝ) (throttle alt mach thrust fuel smw : Table)
    (hd : ∀ i < 8, ∀ j < 7, ∀ k < 11, ∀ i' < 8, ∀ j' < 7, ∀ k' < 11, throttle i j k = throttle i' j' k' →
      alt i j k = alt i' j' k' → mach i j k = mach i' j' k' → i = i' ∧ j = j' ∧ k = k') :
    ((hybBlock p throttle alt mach thrust fuel smw).map fun r => (r.throttle, r.alt, r.mach, r.power)).Nodup := by
  unfold hybBlock
  apply nodup_loop3
  · intro i j k
    unfold hybCell
    split_ifs <;> simp
  · intro i hi j hj k hk i' hi' j' hj' k' hk' x hx y hy e
    unfold hybCell at hx hy
    split_ifs at hx hy <;> simp at hx hy
    subst hx; subst hy
    simp only [Prod.mk.injEq] at e
    exact hd i hi j hj k hk i' hi' j' hj' k' hk' e.1 e.2.1 e.2.2.1

/-- C85.  If the cells of the power-off tables are distinct operating points, no two hybrid training rows share their input
point (throttle, altitude, Mach number, hybrid power). -/
theorem C85_hybrid_distinct (t : HybTables)
    (hd : ∀ i < 8, ∀ j < 7, ∀ k < 11, ∀ i' < 8, ∀ j' < 7, ∀ k' < 11, t.throttle i j k = t.throttle i' j' k' →
      t.alt i j k = t.alt i' j' k' → t.mach i j k = t.mach i' j' k' → i = i' ∧ j = j' ∧ k = k') :
    ((hybRows t).map fun r => (r.throttle, r.alt, r.mach, r.power)).Nodup := by
  have hp : ∀ p th f s z, z ∈ (hybBlock p t.throttle t.alt t.mach th f s).map
      (fun r => (r.throttle, r.alt, r.mach, r.power)) → z.2.2.2 = p := by
    intro p th f s z hz
    obtain ⟨r, hr, rfl⟩ := List.mem_map.1 hz
    obtain ⟨i, -, j, -, k, -, -, rfl⟩ := (mem_hybBlock _ _ _ _ _ _ _ _).1 hr
    rfl
  unfold hybRows
  rw [List.map_append, List.map_append, List.nodup_append, List.nodup_append]
  refine ⟨⟨nodup_hybBlock _ _ _ _ _ _ _ hd, nodup_hybBlock _ _ _ _ _ _ _ hd, ?_⟩, nodup_hybBlock _ _ _ _ _ _ _ hd, ?_⟩
  · rintro a ha b hb rfl
    have e1 := hp _ _ _ _ _ ha
    have e2 := hp _ _ _ _ _ hb
    rw [e1] at e2; norm_num at e2
  · rintro a ha b hb rfl
    have e2 := hp _ _ _ _ _ hb
    rcases List.mem_append.1 ha with ha | ha
    · have e1 := hp _ _ _ _ _ ha
      rw [e1] at e2; norm_num at e2
    · have e1 := hp _ _ _ _ _ ha
      rw [e1] at e2; norm_num at e2

/-- C85.  In the hybrid training data added shaft power does not change thrust: rows at the same operating point have the
same thrust at every power level. -/
theorem C85_hybrid_thrust (t : HybTables)
    (hd : ∀ i < 8, ∀ j < 7, ∀ k < 11, ∀ i' < 8, ∀ j' < 7, ∀ k' < 11, t.throttle i j k = t.throttle i' j' k' →
      t.alt i j k = t.alt i' j' k' → t.mach i j k = t.mach i' j' k' → i = i' ∧ j = j' ∧ k = k')
    (r s : HRow) (hr : r ∈ hybRows t) (hs : s ∈ hybRows t) (h1 : r.throttle = s.throttle) (h2 : r.alt = s.alt)
    (h3 : r.mach = s.mach) : r.thrust = s.thrust := by
  obtain ⟨i, hi, j, hj, k, hk, h⟩ := (C85_hybrid_rows t r).1 hr
  obtain ⟨i', hi', j', hj', k', hk', h'⟩ := (C85_hybrid_rows t s).1 hs
  have er : r.throttle = t.throttle i j k ∧ r.alt = t.alt i j k ∧ r.mach = t.mach i j k ∧ r.thrust = t.thrust i j k := by
    rcases h with ⟨-, rfl⟩ | ⟨-, rfl⟩ | ⟨-, rfl⟩ <;> exact ⟨rfl, rfl, rfl, rfl⟩
  have es : s.throttle = t.throttle i' j' k' ∧ s.alt = t.alt i' j' k' ∧ s.mach = t.mach i' j' k' ∧
      s.thrust = t.thrust i' j' k' := by
    rcases h' with ⟨-, rfl⟩ | ⟨-, rfl⟩ | ⟨-, rfl⟩ <;> exact ⟨rfl, rfl, rfl, rfl⟩
  rw [er.1, es.1] at h1
  rw [er.2.1, es.2.1] at h2
  rw [er.2.2.1, es.2.2.1] at h3
  obtain ⟨rfl, rfl, rfl⟩ := hd i hi j hj k hk i' hi' j' hj' k' hk' h1 h2 h3
  rw [er.2.2.2, es.2.2.2]

/-- C85.  Every variable of the three decks is trained on the matching column of the rows, in the same row order. -/
theorem C85_columns (rows : List Row) (hrows : List HRow) :
    training cfmColumns rows "throttle" = some (rows.map Row.throttle) ∧
    training cfmColumns rows "fltcond|h" = some (rows.map Row.alt) ∧
    training cfmColumns rows "fltcond|M" = some (rows.map Row.mach) ∧
    training cfmColumns rows "thrust" = some (rows.map Row.thrust) ∧
    training cfmColumns rows "fuel_flow" = some (rows.map Row.fuel) ∧
    training cfmColumns rows "T4" = some (rows.map Row.extra) ∧
    training n3Columns rows "throttle" = some (rows.map Row.throttle) ∧
    training n3Columns rows "fltcond|h" = some (rows.map Row.alt) ∧
    training n3Columns rows "fltcond|M" = some (rows.map Row.mach) ∧
    training n3Columns rows "thrust" = some (rows.map Row.thrust) ∧
    training n3Columns rows "fuel_flow" = some (rows.map Row.fuel) ∧
    training n3Columns rows "surge_margin" = some (rows.map Row.extra) ∧
    trainingH hybColumns hrows "throttle" = some (hrows.map HRow.throttle) ∧
    trainingH hybColumns hrows "fltcond|h" = some (hrows.map HRow.alt) ∧
    trainingH hybColumns hrows "fltcond|M" = some (hrows.map HRow.mach) ∧
    trainingH hybColumns hrows "hybrid_power" = some (hrows.map HRow.power) ∧
    trainingH hybColumns hrows "thrust" = some (hrows.map HRow.thrust) ∧
    trainingH hybColumns hrows "fuel_flow" = some (hrows.map HRow.fuel) ∧
    trainingH hybColumns hrows "surge_margin" = some (hrows.map HRow.extra) := by
  refine ⟨?_, ?_, ?_, ?_, ?_, ?_, ?_, ?_, ?_, ?_, ?_, ?_, ?_, ?_, ?_, ?_, ?_, ?_, ?_⟩ <;>
    simp [training, trainingH, cfmColumns, n3Columns, hybColumns, Row.col, HRow.col, List.lookup] <;> rfl

example : (⟨1, 35000, 0.8, 5000, 0.9, 3000⟩ : Row) ∈ cfmRows (fun _ _ _ => 5000) (fun _ _ _ => 0.9) (fun _ _ _ => 3000) := by
  rw [C85_cfm_rows]
  exact ⟨0, by norm_num, 0, by norm_num, 0, by norm_num, by norm_num, by simp, by norm_num⟩

/-! ### C86 -/

/-- what structured interpolation needs: strictly increasing grids with enough points for cubics, data of matching shape -/
def Map2.Valid (m : Map2) : Prop :=
  m.cp.Pairwise (· < ·) ∧ m.J.Pairwise (· < ·) ∧ 4 ≤ m.cp.length ∧ 4 ≤ m.J.length ∧ m.data.length = m.cp.length ∧
    ∀ r ∈ m.data, r.length = m.J.length

/-- the same for one grid -/
def Map1.Valid (m : Map1) : Prop := m.cp.Pairwise (· < ·) ∧ 4 ≤ m.cp.length ∧ m.data.length = m.cp.length

theorem linspaceList_length (a b : ℝ) (n : ℕ) : (linspaceList a b n).length = n := by simp [linspaceList]

theorem linspaceList_pairwise (a b : ℝ) (n : ℕ) (h : a < b) (hn : 1 < n) : (linspaceList a b n).Pairwise (· < ·) := by
  unfold linspaceList
  rw [List.pairwise_map]
  refine List.Pairwise.imp ?_ (List.pairwise_lt_range (n := n))
  intro i j hij
  unfold linspace
  have hn' : (0 : ℝ) < n - 1 := by
    have : (1 : ℝ) < n := by exact_mod_cast hn
    linarith
  have : (i : ℝ) < j := by exact_mod_cast hij
  have hs : 0 < (b - a) / ((n : ℝ) - 1) := div_pos (by linarith) hn'
  nlinarith

theorem linspaceList_not_pairwise (a b : ℝ) (n : ℕ) (h : b ≤ a) (hn : 1 < n) : ¬ (linspaceList a b n).Pairwise (· < ·) := by
  intro hp
  rw [List.pairwise_iff_getElem] at hp
  have := hp 0 1 (by rw [linspaceList_length]; omega) (by rw [linspaceList_length]; omega) (by norm_num)
  simp only [linspaceList, List.getElem_map, List.getElem_range, linspace] at this
  have hn' : (0 : ℝ) < n - 1 := by
    have : (1 : ℝ) < n := by exact_mod_cast hn
    linarith
  have hs : (b - a) / ((n : ℝ) - 1) ≤ 0 := div_nonpos_of_nonpos_of_nonneg (by linarith) hn'.le
  norm_num at this
  linarith

/-- C86.  The maps of the two documented propellers are well formed. -/
theorem C86_valid : mapRaymer.Valid ∧ mapHighpower.Valid ∧ mapStaticRaymer.Valid ∧ mapStaticHighpower.Valid := by
  refine ⟨⟨?_, ?_, ?_, ?_, ?_, ?_⟩, ⟨?_, ?_, ?_, ?_, ?_, ?_⟩, ⟨?_, ?_, ?_⟩, ⟨?_, ?_, ?_⟩⟩
  · simp [mapRaymer]; norm_num
  · exact linspaceList_pairwise _ _ _ (by norm_num) (by norm_num)
  · simp [mapRaymer]
  · simp [mapRaymer, linspaceList]
  · simp [mapRaymer, raymerData]
  · simp [mapRaymer, raymerData, linspaceList]
  · exact linspaceList_pairwise _ _ _ (by norm_num) (by norm_num)
  · exact linspaceList_pairwise _ _ _ (by norm_num) (by norm_num)
  · simp [mapHighpower, linspaceList]
  · simp [mapHighpower, linspaceList]
  · simp [mapHighpower, highData, linspaceList]
  · simp [mapHighpower, highData, linspaceList]
  · exact linspaceList_pairwise _ _ _ (by norm_num) (by norm_num)
  · simp [mapStaticRaymer, linspaceList]
  · simp [mapStaticRaymer, linspaceList]
  · exact linspaceList_pairwise _ _ _ (by norm_num) (by norm_num)
  · simp [mapStaticHighpower, linspaceList]
  · simp [mapStaticHighpower, staticHighData, linspaceList]

/-- C86.  The scaled map is well formed exactly for a positive design power coefficient and a design advance ratio above
11/70 (about 0.157): below that the advance ratio grid decreases. -/
theorem C86_scaled_valid (dJ dcp : ℝ) : (mapScaled dJ dcp).Valid ↔ 0 < dcp ∧ 11 / 70 < dJ := by
  constructor
  · rintro ⟨h1, h2, -⟩
    constructor
    · simp [mapScaled] at h1
      obtain ⟨⟨h, -⟩, -⟩ := h1
      by_contra hc
      have := not_lt.1 hc
      norm_num at h
      linarith
    · by_contra hc
      refine linspaceList_not_pairwise 0.2 (2.8 * dJ / 2.2) 14 ?_ (by norm_num) h2
      rw [div_le_iff₀ (by norm_num)]
      linarith
  · rintro ⟨h1, h2⟩
    refine ⟨?_, ?_, ?_, ?_, ?_, ?_⟩
    · simp only [mapScaled, List.map_cons, List.map_nil, List.pairwise_cons, List.mem_cons, List.not_mem_nil, or_false,
        forall_eq_or_imp, forall_eq, List.Pairwise.nil, IsEmpty.forall_iff, implies_true, and_true]
      refine ⟨⟨?_, ?_, ?_, ?_, ?_⟩, ⟨?_, ?_, ?_, ?_⟩, ⟨?_, ?_, ?_⟩, ⟨?_, ?_⟩, ?_⟩ <;>
        (rw [div_lt_div_iff_of_pos_right (by norm_num)]; nlinarith)
    · refine linspaceList_pairwise _ _ _ ?_ (by norm_num)
      rw [lt_div_iff₀ (by norm_num)]
      linarith
    · simp [mapScaled]
    · simp [mapScaled, linspaceList]
    · simp [mapScaled, scaledData]
    · simp [mapScaled, scaledData, linspaceList]

/-- C86.  Every tabulated propulsive efficiency is a physical one: at least 0 and below 1; and the static thrust ratios are
positive. -/
theorem C86_range :
    (∀ r ∈ mapRaymer.data, ∀ x ∈ r, 0 < x ∧ x < 1) ∧ (∀ dJ dcp, ∀ r ∈ (mapScaled dJ dcp).data, ∀ x ∈ r, 0 < x ∧ x < 1) ∧
    (∀ r ∈ mapHighpower.data, ∀ x ∈ r, 0 ≤ x ∧ x < 1) ∧ (∀ x ∈ mapStaticRaymer.data, 0 < x) ∧
    (∀ x ∈ mapStaticHighpower.data, 0 < x) ∧ ∀ cp J, 0 < constEta cp J ∧ constEta cp J < 1 := by
  refine ⟨?_, ?_, ?_, ?_, ?_, ?_⟩
  · simp only [mapRaymer, raymerData, List.mem_cons, List.not_mem_nil, or_false, forall_eq_or_imp, forall_eq]
    norm_num
  · intro _ _
    simp only [mapScaled, scaledData, List.mem_cons, List.not_mem_nil, or_false, forall_eq_or_imp, forall_eq]
    norm_num
  · simp only [mapHighpower, highData, List.map_cons, List.map_nil, List.drop_succ_cons, List.drop_zero, List.mem_cons,
      List.not_mem_nil, or_false, forall_eq_or_imp, forall_eq]
    norm_num
  · simp only [mapStaticRaymer, List.mem_cons, List.not_mem_nil, or_false, forall_eq_or_imp, forall_eq]
    norm_num
  · simp only [mapStaticHighpower, staticHighData, List.take_succ_cons, List.take_zero, List.drop_succ_cons, List.drop_zero,
      List.map_cons, List.map_nil, List.cons_append, List.nil_append, List.mem_cons, List.not_mem_nil, or_false,
      forall_eq_or_imp, forall_eq]
    norm_num
  · intro _ _; unfold constEta; norm_num

/-- C86.  The high power map gives zero efficiency at zero advance ratio for every power coefficient; the remaining entries
are those of the table. -/
theorem C86_highpower_static (k : ℕ) (hk : k < 13) : (mapHighpower.data.getD k []).getD 0 1 = 0 ∧
    mapHighpower.J.getD 0 1 = 0 ∧
    ∀ m, 0 < m → (mapHighpower.data.getD k []).getD m 0 = (highData.getD k []).getD m 0 := by
  refine ⟨?_, ?_, ?_⟩
  · interval_cases k <;> simp [mapHighpower, highData]
  · simp [mapHighpower, linspaceList, linspace, List.range_succ_eq_map]
  · intro m hm
    obtain ⟨m, rfl⟩ : ∃ n, m = n + 1 := ⟨m - 1, by omega⟩
    interval_cases k <;> simp [mapHighpower, highData]

/-- C86.  Both static maps use the same spacing in power coefficient (0.025); on the common grid the high power one is the
Raymer map, raised by 20 percent from the seventh point (cp = 0.15) on. -/
theorem C86_static_maps (k : ℕ) (hk : k < 25) :
    mapStaticRaymer.cp.getD k 0 = 0.025 * k ∧ mapStaticHighpower.cp.getD k 0 = 0.025 * k ∧
    mapStaticHighpower.data.getD k 0 = (if k < 6 then 1 else 1.2) * mapStaticRaymer.data.getD k 0 := by
  refine ⟨?_, ?_, ?_⟩
  · simp only [mapStaticRaymer, linspaceList, List.getD_eq_getElem?_getD, List.getElem?_map, List.getElem?_range hk,
      Option.map_some, Option.getD_some, linspace]
    norm_num; ring
  · simp only [mapStaticHighpower, linspaceList, List.getD_eq_getElem?_getD, List.getElem?_map,
      List.getElem?_range (show k < 41 by omega), Option.map_some, Option.getD_some, linspace]
    norm_num; ring
  · interval_cases k <;> simp [mapStaticHighpower, mapStaticRaymer, staticHighData] <;> norm_num

/-- C86.  The declared partials of the constant efficiency map are its derivatives. -/
theorem C86_const_partials (cp J : ℝ) :
    HasDerivAt (fun x => constEta x J) constEtaPartials.1 cp ∧ HasDerivAt (fun x => constEta cp x) constEtaPartials.2 J := by
  exact ⟨hasDerivAt_const _ _, hasDerivAt_const _ _⟩

/-! ### C87 -/

/-- C87.  With the reference design point (advance ratio 2.2, power coefficient 0.2) the scaled map is the Raymer map cut off
at a power coefficient of 0.5. -/
theorem C87_reference : mapScaled 2.2 0.2 = ⟨mapRaymer.cp.take 6, mapRaymer.J, mapRaymer.data.take 6⟩ := by
  unfold mapScaled mapRaymer
  congr 1
  · simp; norm_num
  · norm_num

/-- C87.  Scaling in power coefficient is exact: the grid point of the reference design value 0.2 moves to `design_cp`. -/
theorem C87_cp_scaled_partial (dJ dcp : ℝ) (k : ℕ) (hk : k < 6) :
    (mapScaled dJ dcp).cp.getD k 0 = mapRaymer.cp.getD k 0 * (dcp / 0.2) := by
  interval_cases k <;> simp [mapScaled, mapRaymer] <;> ring

/-- C87.  Scaling in advance ratio is not: only the upper end of the grid is scaled, so the point of the reference design
advance ratio 2.2 moves to `design_J` for no other value of `design_J`. -/
theorem C87_J_not_scaled (dJ dcp : ℝ) : mapRaymer.J.getD 10 0 = 2.2 ∧
    ((mapScaled dJ dcp).J.getD 10 0 = dJ ↔ dJ = 2.2) ∧ (mapScaled dJ dcp).J.getD 0 0 = 0.2 := by
  have e : ∀ a b : ℝ, (linspaceList a b 14).getD 10 0 = a + 10 * ((b - a) / 13) := by
    intro a b
    simp only [linspaceList, List.getD_eq_getElem?_getD, List.getElem?_map, List.getElem?_range (show 10 < 14 by omega),
      Option.map_some, Option.getD_some, linspace]
    norm_num
  refine ⟨?_, ?_, ?_⟩
  · simp only [mapRaymer]; rw [e]; norm_num
  · simp only [mapScaled]; rw [e]
    constructor
    · intro h
      norm_num at h ⊢
      linarith
    · rintro rfl; norm_num
  · simp only [mapScaled, linspaceList, List.getD_eq_getElem?_getD, List.getElem?_map,
      List.getElem?_range (show 0 < 14 by omega), Option.map_some, Option.getD_some, linspace]
    norm_num

/-- C87.  The design point options of the propeller have no effect: no choice of them changes the maps that are installed. -/
theorem C87_design_options_ignored (n : ℕ) (dcp dJ dcp' dJ' : ℝ) : propMaps ⟨n, dcp, dJ⟩ = propMaps ⟨n, dcp', dJ'⟩ := rfl

/-- C87.  The built-in maps serve four-bladed propellers and no others; the map for three blades is never installed. -/
theorem C87_maps (o : PropOptions) :
    (o.blades = 4 → propMaps o = .ok (mapHighpower, mapStaticHighpower)) ∧ (o.blades ≠ 4 → propMaps o = .error ()) := by
  unfold propMaps
  exact ⟨fun h => if_pos h, fun h => if_neg h⟩

example : propMaps ⟨3, 0.2, 2.2⟩ = .error () := (C87_maps _).2 (by norm_num)

example : (mapScaled 3 0.3).J.getD 10 0 ≠ 3 := fun h => by
  have := ((C87_J_not_scaled 3 0.3).2.1).1 h
  norm_num at this

end Verif.Decks
