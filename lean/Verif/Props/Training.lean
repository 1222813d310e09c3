import Verif.Model.Training
import Mathlib.Data.List.Perm.Basic
import Mathlib.Tactic.Linarith
import Mathlib.Tactic.NormNum
import Mathlib.Tactic.Ring

/-! Properties C67, C68: training data. -/

namespace Verif.Training

variable {Sf D P : Type}

/-! ### C67 -/

/-- the runs of the OpenAeroStruct analysis in a history all succeed -/
def NoFail (evs : List (Ev Sf)) : Prop := ∀ e ∈ evs, match e with
  | .setup _ => True
  | .compute _ _ f => f = false
  | .partials _ _ f => f = false

/-- what the class state looks like without failures: either nothing was computed since the last setup, or data and partials
are those of the cached key on the class grid -/
structure Fresh (zero : Grid → D) (train : Sf → Grid → Key → D × P) (s : St Sf D P) : Prop where
  surf : ∀ i ∈ s.insts, s.surf = some i.surf
  some_lens : s.insts ≠ [] → ∃ i ∈ s.insts, s.grid = i.grid
  data : (s.insts ≠ [] → ((∃ i ∈ s.insts, s.key = sentinel i.lens) ∧ s.data = zero s.grid ∧ s.parts = none) ∨
    ∃ sf, s.surf = some sf ∧ s.data = (train sf s.grid s.key).1 ∧ s.parts = some (train sf s.grid s.key).2)

theorem fresh_compute (zero : Grid → D) (train : Sf → Grid → Key → D × P) (s : St Sf D P) (h : Fresh zero train s)
    (i : Inst Sf) (k : Key) : Fresh zero train (compute train s i k false).1 := by
  unfold compute
  by_cases h1 : i ∉ s.insts
  · rw [if_pos h1]; exact h
  · rw [if_neg h1]
    by_cases h2 : k.map List.length ≠ s.key.map List.length
    · rw [if_pos h2]; exact h
    · rw [if_neg h2]
      by_cases h3 : near i.tol k s.key
      · rw [if_pos h3]; exact h
      · rw [if_neg h3, if_neg Bool.false_ne_true]
        have hi : i ∈ s.insts := not_not.1 h1
        exact ⟨h.surf, h.some_lens, fun _ => Or.inr ⟨i.surf, h.surf i hi, rfl, rfl⟩⟩

theorem fresh_step (zero : Grid → D) (train : Sf → Grid → Key → D × P) (s : St Sf D P) (h : Fresh zero train s) (e : Ev Sf)
    (he : match e with | .setup _ => True | .compute _ _ f => f = false | .partials _ _ f => f = false) :
    Fresh zero train (step zero train s e) := by
  cases e with
  | setup i =>
    simp only [step, setup]
    split_ifs with hs
    · exact h
    · refine ⟨?_, fun _ => ⟨i, List.mem_cons_self, rfl⟩, fun _ => Or.inl ⟨⟨i, List.mem_cons_self, rfl⟩, rfl, rfl⟩⟩
      intro j hj
      rcases List.mem_cons.1 hj with rfl | hj
      · rfl
      · have hj' := h.surf j hj
        have : s.surf = some i.surf := by
          by_contra hne
          exact hs ⟨by rw [hj']; rfl, hne⟩
        simp only []
        rw [← this, hj']
  | compute i k f =>
    simp only at he
    subst he
    exact fresh_compute zero train s h i k
  | partials i k f =>
    simp only at he
    subst he
    exact fresh_compute zero train s h i k

theorem fresh_run (zero : Grid → D) (train : Sf → Grid → Key → D × P) (evs : List (Ev Sf)) (hn : NoFail evs) (s : St Sf D P)
    (h : Fresh zero train s) : Fresh zero train (run zero train s evs) := by
  induction evs generalizing s with
  | nil => exact h
  | cons e es ih =>
    refine ih (fun e' he' => hn e' (List.mem_cons_of_mem _ he')) _ ?_
    exact fresh_step zero train s h e (hn e List.mem_cons_self)

theorem fresh_init (zero : Grid → D) (train : Sf → Grid → Key → D × P) (k : Key) (g : Grid) (d : D) :
    Fresh zero train (init k g d : St Sf D P) :=
  ⟨by intro i hi; simp [init] at hi, by intro h; exact absurd rfl h, by intro h; exact absurd rfl h⟩

theorem near_self {tol : ℝ} (ht : 0 < tol) (k : Key) : near tol k k := by
  unfold near
  refine List.forall₂_same.2 fun x _ => List.forall₂_same.2 fun y _ => ?_
  rw [sub_self, abs_zero]; exact ht

theorem near_lens {tol : ℝ} {a b : Key} (h : near tol a b) : a.map List.length = b.map List.length := by
  unfold near at h
  induction h with
  | nil => rfl
  | cons h _ ih => rw [List.map_cons, List.map_cons, ih, h.length_eq]

/-- every instance that occurs in a history -/
def Uses (evs : List (Ev Sf)) (i : Inst Sf) : Prop := ∃ e ∈ evs, match e with
  | .setup j => j = i
  | .compute j _ _ => j = i
  | .partials j _ _ => j = i

theorem insts_used (zero : Grid → D) (train : Sf → Grid → Key → D × P) (evs : List (Ev Sf)) (s : St Sf D P) (j : Inst Sf)
    (hj : j ∈ (run zero train s evs).insts) : j ∈ s.insts ∨ Uses evs j := by
  induction evs generalizing s with
  | nil => exact Or.inl hj
  | cons e es ih =>
    rcases ih (step zero train s e) hj with h | ⟨e', he', hu⟩
    · cases e with
      | setup i =>
        simp only [step, setup] at h
        split_ifs at h
        · exact Or.inl h
        · rcases List.mem_cons.1 h with rfl | h
          · exact Or.inr ⟨_, List.mem_cons_self, rfl⟩
          · exact Or.inl h
      | compute i k f =>
        left
        simp only [step, compute] at h
        split_ifs at h <;> exact h
      | partials i k f =>
        left
        simp only [step, partials, compute] at h
        split_ifs at h <;> exact h
    · exact Or.inr ⟨e', List.mem_cons_of_mem _ he', hu⟩

/-- the returned data of one call in a fresh state -/
theorem compute_fresh (zero : Grid → D) (train : Sf → Grid → Key → D × P) (s : St Sf D P) (h : Fresh zero train s)
    (i : Inst Sf) (k : Key) (d : D) (ht : 0 < i.tol) (hd : (compute train s i k false).2 = .ok d)
    (hk : ∀ j ∈ s.insts, ¬ near i.tol k (sentinel j.lens)) :
    ∃ k0, near i.tol k k0 ∧ d = (train i.surf s.grid k0).1 := by
  unfold compute at hd
  by_cases h1 : i ∉ s.insts
  · rw [if_pos h1] at hd; cases hd
  · rw [if_neg h1] at hd
    have hi : i ∈ s.insts := not_not.1 h1
    by_cases h2 : k.map List.length ≠ s.key.map List.length
    · rw [if_pos h2] at hd; cases hd
    · rw [if_neg h2] at hd
      by_cases h3 : near i.tol k s.key
      · rw [if_pos h3] at hd
        simp only [] at hd
        split_ifs at hd
        rcases h.data (List.ne_nil_of_mem hi) with ⟨⟨j, hj, hkey⟩, _, _⟩ | ⟨sf, hsf, hdat, _⟩
        · rw [hkey] at h3; exact absurd h3 (hk j hj)
        · refine ⟨s.key, h3, ?_⟩
          have : sf = i.surf := by
            have := h.surf i hi; rw [hsf] at this; exact Option.some.inj this
          rw [← this, ← hdat]
          exact (Except.ok.inj hd).symm
      · rw [if_neg h3, if_neg (by simp)] at hd
        simp only [] at hd
        split_ifs at hd
        exact ⟨k, near_self ht k, (Except.ok.inj hd).symm⟩

/-- C67 (the part that holds).  After any history in which no training run failed, over any number of instances that share one
training grid (set up in any order and repeatedly, with any options otherwise), a successful `compute` returns training data of
the instance's own options and grid for inputs that differ from the given ones by less than the tolerance in every entry; the
tolerance does not accumulate. Missing: histories with failed runs (`C67_failure_stale`) and instances with different grids
(`C67_grid_shared`), for which the property is false. -/
theorem C67_fresh_partial (zero : Grid → D) (train : Sf → Grid → Key → D × P) (evs : List (Ev Sf)) (hn : NoFail evs)
    (k' : Key) (g' : Grid) (d' : D) (i : Inst Sf) (k : Key) (d : D) (ht : 0 < i.tol)
    (hg : ∀ j, Uses evs j → j.grid = i.grid) (hk : ∀ j, Uses evs j → ¬ near i.tol k (sentinel j.lens))
    (hd : (compute train (run zero train (init k' g' d') evs) i k false).2 = .ok d) :
    ∃ k0, near i.tol k k0 ∧ d = (train i.surf i.grid k0).1 := by
  have hf := fresh_run zero train evs hn (init k' g' d') (fresh_init zero train k' g' d')
  have hu : ∀ j ∈ (run zero train (init k' g' d') evs).insts, Uses evs j := by
    intro j hj
    rcases insts_used zero train evs _ j hj with h | h
    · simp [init] at h
    · exact h
  obtain ⟨k0, h1, h2⟩ := compute_fresh zero train _ hf i k d ht hd (fun j hj => hk j (hu j hj))
  refine ⟨k0, h1, ?_⟩
  have hi : i ∈ (run zero train (init k' g' d') evs).insts := by
    by_contra hni
    unfold compute at hd
    rw [if_pos hni] at hd; cases hd
  obtain ⟨j, hj, hgj⟩ := hf.some_lens (List.ne_nil_of_mem hi)
  rw [hgj, hg j (hu j hj)] at h2
  exact h2

/-- C67 (the part that holds), partial derivatives: they belong to the same inputs as the data. -/
theorem C67_partials_fresh_partial (zero : Grid → D) (train : Sf → Grid → Key → D × P) (evs : List (Ev Sf)) (hn : NoFail evs)
    (k' : Key) (g' : Grid) (d' : D) (i : Inst Sf) (k : Key) (p : P) (ht : 0 < i.tol)
    (hg : ∀ j, Uses evs j → j.grid = i.grid) (hk : ∀ j, Uses evs j → ¬ near i.tol k (sentinel j.lens))
    (hp : (partials train (run zero train (init k' g' d') evs) i k false).2 = .ok p) :
    ∃ k0, near i.tol k k0 ∧ p = (train i.surf i.grid k0).2 ∧
      (compute train (run zero train (init k' g' d') evs) i k false).2 = .ok (train i.surf i.grid k0).1 := by
  have hf := fresh_run zero train evs hn (init k' g' d') (fresh_init zero train k' g' d')
  have hu : ∀ j ∈ (run zero train (init k' g' d') evs).insts, Uses evs j := by
    intro j hj
    rcases insts_used zero train evs _ j hj with h | h
    · simp [init] at h
    · exact h
  generalize hs : run zero train (init k' g' d') evs = s at *
  have hi : i ∈ s.insts := by
    by_contra hni
    unfold partials compute at hp
    simp only [if_pos hni] at hp; cases hp
  obtain ⟨j, hj, hgj⟩ := hf.some_lens (List.ne_nil_of_mem hi)
  have hgi : s.grid = i.grid := by rw [hgj, hg j (hu j hj)]
  unfold partials at hp
  unfold compute at hp ⊢
  rw [if_neg (not_not.2 hi)] at hp ⊢
  by_cases h2 : k.map List.length ≠ s.key.map List.length
  · simp only [if_pos h2] at hp; cases hp
  · rw [if_neg h2] at hp ⊢
    by_cases h3 : near i.tol k s.key
    · simp only [if_pos h3, hgi, if_true] at hp ⊢
      rcases hf.data (List.ne_nil_of_mem hi) with ⟨⟨j, hj, hkey⟩, _, _⟩ | ⟨sf, hsf, hdat, hpar⟩
      · rw [hkey] at h3; exact absurd h3 (hk j (hu j hj))
      · have : sf = i.surf := by
          have := hf.surf i hi; rw [hsf] at this; exact Option.some.inj this
        subst this
        rw [hpar] at hp
        rw [hgi] at hp hdat
        exact ⟨s.key, h3, (Except.ok.inj hp).symm, by rw [hdat]⟩
    · simp only [if_neg h3, Bool.false_eq_true, if_false, hgi, if_true] at hp ⊢
      exact ⟨k, near_self ht k, (Except.ok.inj hp).symm, rfl⟩

/-- C67.  No needless work: directly repeating a successful `compute` leaves the class state unchanged and returns the same. -/
theorem C67_repeat (train : Sf → Grid → Key → D × P) (s : St Sf D P) (i : Inst Sf) (k : Key) (d : D) (ht : 0 < i.tol)
    (h : (compute train s i k false).2 = .ok d) :
    compute train (compute train s i k false).1 i k false = ((compute train s i k false).1, .ok d) := by
  by_cases h1 : i ∉ s.insts
  · unfold compute at h; rw [if_pos h1] at h; cases h
  · by_cases h2 : k.map List.length ≠ s.key.map List.length
    · unfold compute at h; rw [if_neg h1, if_pos h2] at h; cases h
    · by_cases h3 : near i.tol k s.key
      · have e : compute train s i k false = (s, if i.grid.shape = s.grid.shape then .ok s.data else .error .shape) := by
          unfold compute; rw [if_neg h1, if_neg h2, if_pos h3]
        rw [e] at h ⊢
        simp only [] at h ⊢
        rw [e, h]
      · have e : compute train s i k false = ((⟨s.surf, s.insts, k, s.grid, (train i.surf s.grid k).1,
            some (train i.surf s.grid k).2⟩ : St Sf D P),
            if i.grid.shape = s.grid.shape then .ok (train i.surf s.grid k).1 else .error .shape) := by
          unfold compute; rw [if_neg h1, if_neg h2, if_neg h3, if_neg Bool.false_ne_true]
        rw [e] at h ⊢
        simp only [] at h ⊢
        unfold compute
        rw [if_neg h1, if_neg (not_not.2 rfl), if_pos (near_self ht k)]
        simp only [h]

/-- C67.  Instances with different surface options are refused, without side effects; surface options never change once set. -/
theorem C67_surf_options (zero : Grid → D) (train : Sf → Grid → Key → D × P) (s : St Sf D P) (sf : Sf) (hs : s.surf = some sf) :
    (∀ i : Inst Sf, i.surf ≠ sf → setup zero s i = (s, .error .surfOptions)) ∧
    (∀ i : Inst Sf, i.surf = sf → (setup zero s i).2 = .ok ()) ∧
    ∀ evs, (run zero train s evs).surf = some sf := by
  refine ⟨?_, ?_, ?_⟩
  · intro i hi
    unfold setup
    rw [if_pos ⟨by rw [hs]; rfl, by rw [hs]; intro h; exact hi (Option.some.inj h).symm⟩]
  · intro i hi
    unfold setup
    rw [if_neg (by rintro ⟨_, h⟩; exact h (by rw [hs, hi]))]
  · intro evs
    induction evs generalizing s with
    | nil => exact hs
    | cons e es ih =>
      refine ih _ ?_
      cases e with
      | setup i =>
        simp only [step, setup]
        split_ifs with h
        · exact hs
        · by_contra hne
          exact h ⟨by rw [hs]; rfl, by rw [hs]; exact fun h' => hne h'.symm⟩
      | compute i k f =>
        simp only [step, compute]
        split_ifs <;> exact hs
      | partials i k f =>
        simp only [step, partials, compute]
        split_ifs <;> exact hs

/-- C67 is false with a failed run.  The cached key is overwritten before the training run: set up, a run that raises, and the
same inputs again returns the zeros of `setup` (not the training data), for every training function, and asking for
partials raises. -/
theorem C67_failure_stale (zero : Grid → D) (train : Sf → Grid → Key → D × P) (i : Inst Sf) (k : Key) (ht : 0 < i.tol)
    (hl : k.map List.length = (sentinel i.lens).map List.length) (hk : ¬ near i.tol k (sentinel i.lens))
    (k' : Key) (g' : Grid) (d' : D) :
    let s := run zero train (init k' g' d' : St Sf D P) [.setup i, .compute i k true]
    (compute train s i k false).2 = .ok (zero i.grid) ∧ (partials train s i k false).2 = .error .noPartials := by
  have hs : run zero train (init k' g' d' : St Sf D P) [.setup i, .compute i k true]
      = ⟨some i.surf, [i], k, i.grid, zero i.grid, none⟩ := by
    simp [run, step, setup, init, compute, hl, hk]
  simp only []
  rw [hs]
  have hc : compute train (⟨some i.surf, [i], k, i.grid, zero i.grid, none⟩ : St Sf D P) i k false
      = (⟨some i.surf, [i], k, i.grid, zero i.grid, none⟩, .ok (zero i.grid)) := by
    simp [compute, near_self ht k]
  refine ⟨by rw [hc], ?_⟩
  unfold partials
  rw [hc]

/-- C67 is false with a failed run in the middle: the data of the previous inputs `k₁` is returned for `k₂`. -/
theorem C67_failure_previous (zero : Grid → D) (train : Sf → Grid → Key → D × P) (i : Inst Sf) (k₁ k₂ : Key) (ht : 0 < i.tol)
    (hl : k₁.map List.length = (sentinel i.lens).map List.length) (hl' : k₂.map List.length = k₁.map List.length)
    (hk : ¬ near i.tol k₁ (sentinel i.lens)) (hk' : ¬ near i.tol k₂ k₁) (k' : Key) (g' : Grid) (d' : D) :
    let s := run zero train (init k' g' d' : St Sf D P) [.setup i, .compute i k₁ false, .compute i k₂ true]
    (compute train s i k₂ false).2 = .ok (train i.surf i.grid k₁).1 ∧
    (partials train s i k₂ false).2 = .ok (train i.surf i.grid k₁).2 := by
  have hs : run zero train (init k' g' d' : St Sf D P) [.setup i, .compute i k₁ false, .compute i k₂ true]
      = ⟨some i.surf, [i], k₂, i.grid, (train i.surf i.grid k₁).1, some (train i.surf i.grid k₁).2⟩ := by
    simp [run, step, setup, init, compute, hl, hk, hl', hk']
  simp only []
  rw [hs]
  have hc : compute train (⟨some i.surf, [i], k₂, i.grid, (train i.surf i.grid k₁).1, some (train i.surf i.grid k₁).2⟩ : St Sf D P)
      i k₂ false = (⟨some i.surf, [i], k₂, i.grid, (train i.surf i.grid k₁).1, some (train i.surf i.grid k₁).2⟩,
        .ok (train i.surf i.grid k₁).1) := by
    simp [compute, near_self ht k₂]
  refine ⟨by rw [hc], ?_⟩
  unfold partials
  rw [hc]

/-- C67 is false for two instances whose training grids have equal sizes but different points: the first one is trained on the
second one's grid. -/
theorem C67_grid_shared (zero : Grid → D) (train : Sf → Grid → Key → D × P) (a b : Inst Sf) (hab : a.surf = b.surf)
    (hlen : a.lens = b.lens) (hsh : a.grid.shape = b.grid.shape) (k : Key)
    (hl : k.map List.length = (sentinel a.lens).map List.length) (hk : ¬ near a.tol k (sentinel a.lens))
    (k' : Key) (g' : Grid) (d' : D) :
    (compute train (run zero train (init k' g' d' : St Sf D P) [.setup a, .setup b]) a k false).2
      = .ok (train a.surf b.grid k).1 := by
  have hs : run zero train (init k' g' d' : St Sf D P) [.setup a, .setup b]
      = ⟨some b.surf, [b, a], sentinel b.lens, b.grid, zero b.grid, none⟩ := by
    simp [run, step, setup, init, hab]
  rw [hs]
  simp [compute, hl, hlen, hsh]
  rw [hlen] at hk
  simp [hk]

/-- concrete witness: data of a made-up analysis that returns the sum of the Mach grid; grids [0.1, 0.2] and [0.3, 0.4] -/
example : ∃ (a b : Inst Unit) (k : Key) (train : Unit → Grid → Key → ℝ × ℝ),
    (compute train (run (fun _ => 0) train (init [] ⟨[], [], []⟩ 0) [.setup a, .setup b]) a k false).2
      ≠ .ok (train a.surf a.grid k).1 := by
  refine ⟨⟨(), [1, 1], [0.1, 0.2], [0], [0], 1e-13⟩, ⟨(), [1, 1], [0.3, 0.4], [0], [0], 1e-13⟩, [[2], [0]],
    fun _ g _ => (g.mach.sum, 0), ?_⟩
  have := C67_grid_shared (fun _ => (0 : ℝ)) (fun (_ : Unit) g _ => (g.mach.sum, (0 : ℝ)))
    ⟨(), [1, 1], [0.1, 0.2], [0], [0], 1e-13⟩ ⟨(), [1, 1], [0.3, 0.4], [0], [0], 1e-13⟩ rfl rfl rfl [[2], [0]]
    (by simp [sentinel]) (by
      simp only [sentinel, near, List.replicate, List.forall₂_cons, List.forall₂_nil_right_iff]
      norm_num) [] ⟨[], [], []⟩ 0
  rw [this]
  intro h
  have := Except.ok.inj h
  norm_num [Inst.grid] at this

/-! ### C68 -/

theorem flatMap_get {α : Type} (f : ℕ → List α) (L n : ℕ) (hf : ∀ i, (f i).length = L) (i j : ℕ) (hi : i < n) (hj : j < L) :
    ((List.range n).flatMap f)[i * L + j]? = (f i)[j]? := by
  have len : ∀ n, ((List.range n).flatMap f).length = n * L := by
    intro n
    induction n with
    | zero => simp
    | succ n ih => rw [List.range_succ, List.flatMap_append, List.length_append, ih]; simp [hf]; ring
  induction n with
  | zero => omega
  | succ n ih =>
    rw [List.range_succ, List.flatMap_append]
    by_cases h : i < n
    · rw [List.getElem?_append_left]
      · exact ih h
      · rw [len]
        have : (i + 1) * L ≤ n * L := Nat.mul_le_mul_right L h
        rw [Nat.succ_mul] at this; omega
    · have hin : i = n := by omega
      subst hin
      rw [List.getElem?_append_right (by rw [len]; omega), len, Nat.add_sub_cancel_left]
      simp

theorem flatMap_len {α : Type} (f : ℕ → List α) (L n : ℕ) (hf : ∀ i, (f i).length = L) :
    ((List.range n).flatMap f).length = n * L := by
  induction n with
  | zero => simp
  | succ n ih => rw [List.range_succ, List.flatMap_append, List.length_append, ih]; simp [hf]; ring

theorem flatten_len {α : Type} (n m l : ℕ) (f : ℕ → ℕ → ℕ → α) : (flatten n m l f).length = n * (m * l) := by
  unfold flatten
  exact flatMap_len _ (m * l) n fun i => flatMap_len _ l m fun j => by simp

theorem flatten_get {α : Type} (n m l : ℕ) (f : ℕ → ℕ → ℕ → α) (i j k : ℕ) (hi : i < n) (hj : j < m) (hk : k < l) :
    (flatten n m l f)[i * (m * l) + (j * l + k)]? = some (f i j k) := by
  unfold flatten
  rw [flatMap_get _ (m * l) n (fun i => flatMap_len _ l m fun j => by simp) i (j * l + k) hi
    (by have : (j + 1) * l ≤ m * l := Nat.mul_le_mul_right l hj
        rw [Nat.succ_mul] at this; omega)]
  rw [flatMap_get _ l m (fun j => by simp) j k hj hk]
  simp [hk]

theorem unravel_ravel (m l i j k : ℕ) (hj : j < m) (hk : k < l) : unravel m l (i * (m * l) + (j * l + k)) = (i, j, k) := by
  have h1 : j * l + k < m * l := by
    have : (j + 1) * l ≤ m * l := Nat.mul_le_mul_right l hj
    rw [Nat.succ_mul] at this; omega
  unfold unravel
  have hl : 0 < l := by omega
  have hml : 0 < m * l := by omega
  refine Prod.ext ?_ (Prod.ext ?_ ?_)
  · simp only []
    rw [Nat.add_comm, Nat.add_mul_div_right _ _ hml, Nat.div_eq_of_lt h1, Nat.zero_add]
  · simp only []
    have e : i * (m * l) + (j * l + k) = k + (i * m + j) * l := by ring
    rw [e, Nat.add_mul_div_right _ _ hl, Nat.div_eq_of_lt hk, Nat.zero_add, Nat.add_comm, Nat.add_mul_mod_self_right,
      Nat.mod_eq_of_lt hj]
  · simp only []
    have e : i * (m * l) + (j * l + k) = k + (i * m + j) * l := by ring
    rw [e, Nat.add_mul_mod_self_right, Nat.mod_eq_of_lt hk]

theorem unravel_spec (n m l r : ℕ) (hr : r < n * (m * l)) :
    (unravel m l r).1 < n ∧ (unravel m l r).2.1 < m ∧ (unravel m l r).2.2 < l ∧
      (unravel m l r).1 * (m * l) + ((unravel m l r).2.1 * l + (unravel m l r).2.2) = r := by
  have hl : 0 < l := by
    rcases Nat.eq_zero_or_pos l with h | h
    · subst h; simp at hr
    · exact h
  have hm : 0 < m := by
    rcases Nat.eq_zero_or_pos m with h | h
    · subst h; simp at hr
    · exact h
  unfold unravel
  simp only []
  refine ⟨?_, Nat.mod_lt _ hm, Nat.mod_lt _ hl, ?_⟩
  · rw [Nat.div_lt_iff_lt_mul (by positivity)]; exact hr
  · have h1 := Nat.div_add_mod r l
    have h2 := Nat.div_add_mod (r / l) m
    have h3 : r / (m * l) = r / l / m := by rw [Nat.mul_comm, Nat.div_div_eq_div_mul]
    rw [h3]
    calc r / l / m * (m * l) + (r / l % m * l + r % l) = l * (m * (r / l / m) + r / l % m) + r % l := by ring
      _ = r := by rw [h2, h1]

/-- results of the pool are in task order, whatever order the workers finish in -/
theorem pool_eq {R : Type} (f : Point → R) (tasks : List Point) (sched : List ℕ) (hs : sched.Perm (List.range tasks.length)) :
    pool f tasks sched = tasks.map fun p => some (f p) := by
  have key : ∀ (sched : List ℕ) (slots : List (Option R)), slots.length = tasks.length → (∀ t ∈ sched, t < tasks.length) →
      (sched.foldl (fun slots t => (tasks[t]?).elim slots fun p => slots.set t (some (f p))) slots).length = tasks.length ∧
      ∀ t, t < tasks.length → (sched.foldl (fun slots t => (tasks[t]?).elim slots fun p => slots.set t (some (f p))) slots)[t]? = if t ∈ sched then (tasks[t]?).map fun p => some (f p) else slots[t]? := by
    intro sched
    induction sched with
    | nil => intro slots hl _; exact ⟨hl, fun t _ => by simp⟩
    | cons a as ih =>
      intro slots hl hb
      have ha : a < tasks.length := hb a List.mem_cons_self
      simp only [List.foldl_cons, List.getElem?_eq_getElem ha, Option.elim_some]
      obtain ⟨i1, i2⟩ := ih (slots.set a (some (f tasks[a]))) (by rw [List.length_set]; exact hl)
        (fun t ht => hb t (List.mem_cons_of_mem _ ht))
      refine ⟨i1, fun t ht => ?_⟩
      rw [i2 t ht]
      by_cases h1 : t ∈ as
      · rw [if_pos h1, if_pos (List.mem_cons_of_mem _ h1)]
      · rw [if_neg h1]
        by_cases h2 : t = a
        · subst h2
          rw [if_pos List.mem_cons_self, List.getElem?_set_self (by rw [hl]; exact ht), List.getElem?_eq_getElem ht]; rfl
        · rw [if_neg (by simp [h1, h2]), List.getElem?_set_ne (Ne.symm h2)]
  obtain ⟨k1, k2⟩ := key sched (List.replicate tasks.length none) (by simp)
    (fun t ht => by have := hs.mem_iff.1 ht; simpa using this)
  refine List.ext_getElem? fun t => ?_
  by_cases ht : t < tasks.length
  · unfold pool
    rw [k2 t ht, if_pos (hs.mem_iff.2 (by simpa using ht)), List.getElem?_map]
  · have e1 : (pool f tasks sched)[t]? = none := by
      rw [List.getElem?_eq_none]; unfold pool; rw [k1]; omega
    rw [e1, List.getElem?_map, List.getElem?_eq_none (by omega)]; rfl

theorem pool_results {R : Type} (f : Point → R) (tasks : List Point) (sched : List ℕ) (hs : sched.Perm (List.range tasks.length)) :
    (pool f tasks sched).filterMap id = tasks.map f := by
  rw [pool_eq f tasks sched hs, List.filterMap_map]
  show tasks.filterMap (fun p => some (f p)) = tasks.map f
  exact congrFun List.filterMap_eq_map tasks

theorem foldl_update {ι V : Type} [DecidableEq ι] (n : ℕ) (idx : ℕ → ι) (v : ℕ → V) (a : ι → V)
    (hinj : ∀ r, r < n → ∀ r', r' < n → idx r = idx r' → r = r') (r : ℕ) (hr : r < n) :
    (List.range n).foldl (fun a r => Function.update a (idx r) (v r)) a (idx r) = v r := by
  induction n with
  | zero => omega
  | succ n ih =>
    rw [List.range_succ, List.foldl_append]
    simp only [List.foldl_cons, List.foldl_nil]
    by_cases h : r = n
    · subst h; rw [Function.update_self]
    · rw [Function.update_of_ne (fun he => h (hinj r (by omega) n (by omega) he))]
      exact ih (fun r hr r' hr' => hinj r (by omega) r' (by omega)) (by omega)

theorem foldl_out {ι V R : Type} [DecidableEq ι] (out : List R) (idx : ℕ → ι) (val : R → V) (a : ι → V)
    (hinj : ∀ r, r < out.length → ∀ r', r' < out.length → idx r = idx r' → r = r') (r : ℕ) (x : R) (hr : out[r]? = some x) :
    (List.range out.length).foldl (fun a r => (out[r]?).elim a fun v => Function.update a (idx r) (val v)) a (idx r) = val x := by
  have hlt : r < out.length := by
    by_contra h; rw [List.getElem?_eq_none (by omega)] at hr; cases hr
  have hne : Nonempty R := ⟨x⟩
  have key : ∀ (n : ℕ), n ≤ out.length → ∀ a : ι → V, (List.range n).foldl (fun a r => (out[r]?).elim a fun v => Function.update a (idx r) (val v)) a = (List.range n).foldl (fun a r => Function.update a (idx r) (val (out.getD r hne.some))) a := by
    intro n
    induction n with
    | zero => intro _ a; rfl
    | succ n ih =>
      intro hn a
      rw [List.range_succ, List.foldl_append, List.foldl_append, ih (by omega)]
      simp only [List.foldl_cons, List.foldl_nil]
      simp only [Option.elim_some, List.getD_eq_getElem?_getD, List.getElem?_eq_getElem (show n < out.length by omega), Option.getD_some]
  rw [key out.length le_rfl a, foldl_update out.length idx (fun r => val (out.getD r hne.some)) a hinj r hlt]
  simp only [List.getD_eq_getElem?_getD, hr, Option.getD_some]

theorem testPoints_len (g : Grid) : (testPoints g).length = g.mach.length * (g.alpha.length * g.alt.length) := by
  unfold testPoints
  simp only [List.length_map, List.length_range]
  exact flatten_len _ _ _ _

theorem testPoints_get (g : Grid) (i j k : ℕ) (hi : i < g.mach.length) (hj : j < g.alpha.length) (hk : k < g.alt.length) :
    (testPoints g)[i * (g.alpha.length * g.alt.length) + (j * g.alt.length + k)]?
      = some ⟨g.mach[i], g.alpha[j], g.alt[k], i = 0 ∧ j = 0 ∧ k = 0⟩ := by
  have h1 : j * g.alt.length + k < g.alpha.length * g.alt.length := by
    have : (j + 1) * g.alt.length ≤ g.alpha.length * g.alt.length := Nat.mul_le_mul_right _ hj
    rw [Nat.succ_mul] at this; omega
  have h2 : i * (g.alpha.length * g.alt.length) + (j * g.alt.length + k) < g.mach.length * (g.alpha.length * g.alt.length) := by
    have : (i + 1) * (g.alpha.length * g.alt.length) ≤ g.mach.length * (g.alpha.length * g.alt.length) :=
      Nat.mul_le_mul_right _ hi
    rw [Nat.succ_mul] at this; omega
  unfold testPoints
  simp only []
  rw [List.getElem?_map, List.getElem?_range (by rw [flatten_len]; exact h2)]
  simp only [Option.map_some, List.getD_eq_getElem?_getD]
  rw [flatten_get _ _ _ _ i j k hi hj hk, flatten_get _ _ _ _ i j k hi hj hk, flatten_get _ _ _ _ i j k hi hj hk]
  simp only [Option.getD_some, meshMach, meshAlpha, meshAlt, List.getD_eq_getElem?_getD, List.getElem?_eq_getElem hi,
    List.getElem?_eq_getElem hj, List.getElem?_eq_getElem hk]
  congr 2
  have hpos : 0 < g.alpha.length * g.alt.length := by omega
  have hl : 0 < g.alt.length := by omega
  refine decide_eq_decide.2 ⟨fun h => ?_, fun h => by simp [h]⟩
  have ha : i * (g.alpha.length * g.alt.length) = 0 := by omega
  have hb : j * g.alt.length = 0 := by omega
  refine ⟨?_, ?_, by omega⟩
  · rcases Nat.mul_eq_zero.1 ha with h | h <;> omega
  · rcases Nat.mul_eq_zero.1 hb with h | h <;> omega

/-- C68.  For every training grid and every order in which the workers finish, entry `(i, j, k)` of a training array is the
analysis result at Mach `i`, alpha `j`, altitude `k`; and the row of the partials at the flattened position holds the
derivatives at the same point. -/
theorem C68_grid_order {R V : Type} (f : Point → R) (g : Grid) (sched : List ℕ)
    (hs : sched.Perm (List.range (testPoints g).length)) (val : R → ℝ) (zero : V) (dval : R → V) (i j k : ℕ)
    (hi : i < g.mach.length) (hj : j < g.alpha.length) (hk : k < g.alt.length) :
    let p : Point := ⟨g.mach[i], g.alpha[j], g.alt[k], i = 0 ∧ j = 0 ∧ k = 0⟩
    trainArray f g sched val (i, j, k) = val (f p) ∧
    trainRows f g sched zero dval (i * (g.alpha.length * g.alt.length) + (j * g.alt.length + k)) = dval (f p) := by
  intro p
  have hget : ((testPoints g).map f)[i * (g.alpha.length * g.alt.length) + (j * g.alt.length + k)]? = some (f p) := by
    rw [List.getElem?_map, testPoints_get g i j k hi hj hk]; rfl
  have hlen : ((testPoints g).map f).length = g.mach.length * (g.alpha.length * g.alt.length) := by
    rw [List.length_map, testPoints_len]
  constructor
  · unfold trainArray store
    rw [pool_results f _ sched hs]
    have := foldl_out ((testPoints g).map f) (unravel g.alpha.length g.alt.length) val (fun _ => 0) ?_ _ (f p) hget
    · rw [unravel_ravel _ _ i j k hj hk] at this; exact this
    · intro r hr r' hr' he
      rw [hlen] at hr hr'
      have e1 := (unravel_spec _ _ _ r hr).2.2.2
      have e2 := (unravel_spec _ _ _ r' hr').2.2.2
      rw [he] at e1
      exact e1.symm.trans e2
  · unfold trainRows storeRow
    rw [pool_results f _ sched hs]
    exact foldl_out ((testPoints g).map f) id dval (fun _ => zero) (fun r _ r' _ h => h) _ (f p) hget

/-- C68.  Every grid point is analysed exactly once: the task list has one entry per grid point, and every task is the point of
one triple of indices. -/
theorem C68_exactly_once (g : Grid) :
    (testPoints g).length = g.mach.length * (g.alpha.length * g.alt.length) ∧
    ∀ r, r < (testPoints g).length → ∃! t : ℕ × ℕ × ℕ, t.1 < g.mach.length ∧ t.2.1 < g.alpha.length ∧ t.2.2 < g.alt.length ∧
      t.1 * (g.alpha.length * g.alt.length) + (t.2.1 * g.alt.length + t.2.2) = r := by
  refine ⟨testPoints_len g, fun r hr => ?_⟩
  rw [testPoints_len] at hr
  obtain ⟨h1, h2, h3, h4⟩ := unravel_spec _ _ _ r hr
  refine ⟨unravel g.alpha.length g.alt.length r, ⟨h1, h2, h3, h4⟩, ?_⟩
  rintro ⟨a, b, c⟩ ⟨_, hb, hc, he⟩
  rw [← he]
  exact (unravel_ravel _ _ a b c hb hc).symm

/-- C68.  The wing weight is asked for at exactly one point, the first one, and the weight returned is that of this point. -/
theorem C68_weight {R : Type} (f : Point → R) (g : Grid) (sched : List ℕ) (hs : sched.Perm (List.range (testPoints g).length))
    (val : R → ℝ) (h1 : 0 < g.mach.length) (h2 : 0 < g.alpha.length) (h3 : 0 < g.alt.length) :
    trainWeight f g sched val = some (val (f ⟨g.mach[0], g.alpha[0], g.alt[0], true⟩)) ∧
    ((testPoints g).filter (·.weight)).length = 1 := by
  have h0 := testPoints_get g 0 0 0 h1 h2 h3
  simp only [Nat.zero_mul, Nat.add_zero, and_self, decide_true] at h0
  constructor
  · unfold trainWeight
    rw [pool_results f _ sched hs, List.getElem?_map, h0]; rfl
  · unfold testPoints
    simp only [List.filter_map, List.length_map]
    have e : ((fun p : Point => p.weight) ∘ fun r => (⟨(flatten g.mach.length g.alpha.length g.alt.length (meshMach g)).getD r 0,
        (flatten g.mach.length g.alpha.length g.alt.length (meshAlpha g)).getD r 0,
        (flatten g.mach.length g.alpha.length g.alt.length (meshAlt g)).getD r 0, decide (r = 0)⟩ : Point))
        = fun r => decide (r = 0) := by funext r; rfl
    rw [e, flatten_len]
    have hp : 0 < g.mach.length * (g.alpha.length * g.alt.length) := by positivity
    obtain ⟨n, hn⟩ : ∃ n, g.mach.length * (g.alpha.length * g.alt.length) = n + 1 := ⟨_, (Nat.succ_pred_eq_of_pos hp).symm⟩
    rw [hn, List.range_succ_eq_map]
    simp [List.filter_map, Function.comp_def]

example : (trainArray (fun p => p.mach + 10 * p.alpha + 100 * p.alt) ⟨[1, 2], [3, 4, 5], [6]⟩ [5, 0, 3, 1, 4, 2] id) (1, 2, 0)
    = 652 := by
  have := (C68_grid_order (fun p => p.mach + 10 * p.alpha + 100 * p.alt) ⟨[1, 2], [3, 4, 5], [6]⟩ [5, 0, 3, 1, 4, 2]
    (by rw [testPoints_len]; decide) id (0 : ℝ) id 1 2 0 (by decide) (by decide) (by decide)).1
  rw [this]; norm_num

/-- C67 and C68.  The first run of a component that is alone: entry `(a, b, c)` of the table is the analysis at the component's own Mach
number `a`, angle `b` and altitude `c`. -/
theorem C67_first_run {R : Type} (zero : Grid → ℕ × ℕ × ℕ → ℝ) (f : Sf → Key → Point → R) (val : R → ℝ) (rows : Sf → Grid → Key → P)
    (sched : Grid → List ℕ) (hs : ∀ g, (sched g).Perm (List.range (testPoints g).length)) (i : Inst Sf) (k : Key)
    (hl : k.map List.length = (sentinel i.lens).map List.length) (hk : ¬ near i.tol k (sentinel i.lens)) (k' : Key) (g' : Grid)
    (d' : ℕ × ℕ × ℕ → ℝ) :
    let train : Sf → Grid → Key → (ℕ × ℕ × ℕ → ℝ) × P := fun sf g key => (trainArray (f sf key) g (sched g) val, rows sf g key)
    ∃ d, (compute train (run zero train (init k' g' d') [.setup i]) i k false).2 = .ok d ∧
      ∀ a b c (ha : a < i.mach.length) (hb : b < i.alpha.length) (hc : c < i.alt.length),
        d (a, b, c) = val (f i.surf k ⟨i.mach[a], i.alpha[b], i.alt[c], a = 0 ∧ b = 0 ∧ c = 0⟩) := by
  intro train
  have hst : run zero train (init k' g' d') [.setup i] = ⟨some i.surf, [i], sentinel i.lens, i.grid, zero i.grid, none⟩ := by
    simp [run, step, setup, init]
  refine ⟨(train i.surf i.grid k).1, ?_, fun a b c ha hb hc => ?_⟩
  · rw [hst]
    simp [compute, hl, hk]
  · exact (C68_grid_order (f i.surf k) i.grid (sched i.grid) (hs _) val () (fun _ => ()) a b c ha hb hc).1

/-- C67.  A component set up before another one with a grid of another size cannot be run any more: numpy refuses the arrays. -/
theorem C67_grid_sizes (zero : Grid → D) (train : Sf → Grid → Key → D × P) (a b : Inst Sf) (hab : a.surf = b.surf)
    (hsh : a.mach.length ≠ b.mach.length ∨ a.alpha.length ≠ b.alpha.length ∨ a.alt.length ≠ b.alt.length) (k : Key)
    (k' : Key) (g' : Grid) (d' : D) :
    (compute train (run zero train (init k' g' d' : St Sf D P) [.setup a, .setup b]) a k false).2 = .error .shape := by
  have hs : run zero train (init k' g' d' : St Sf D P) [.setup a, .setup b]
      = ⟨some b.surf, [b, a], sentinel b.lens, b.grid, zero b.grid, none⟩ := by
    simp [run, step, setup, init, hab]
  have hne : a.grid.shape ≠ b.grid.shape := by
    unfold Grid.shape Inst.grid
    rintro h
    simp only [Prod.mk.injEq] at h
    tauto
  rw [hs]
  simp only [compute, hne, if_false]
  split_ifs <;> simp_all

/-- C67 is false for inputs that equal the marks of `setup`: arrays of -1 and a temperature increment of -42 give the zeros of `setup`,
without any analysis. -/
theorem C67_marks (zero : Grid → D) (train : Sf → Grid → Key → D × P) (i : Inst Sf) (n m : ℕ) (ht : 0 < i.tol) (hl : i.lens = [n, m])
    (k' : Key) (g' : Grid) (d' : D) :
    (compute train (run zero train (init k' g' d' : St Sf D P) [.setup i]) i [List.replicate n (-1), List.replicate m (-42)] false).2 =
      .ok (zero i.grid) := by
  have hst : run zero train (init k' g' d') [.setup i] =
      (⟨some i.surf, [i], [List.replicate n (-1), List.replicate m (-42)], i.grid, zero i.grid, none⟩ : St Sf D P) := by
    simp [run, step, setup, init, hl, sentinel]
  rw [hst]
  simp [compute, near_self ht]

/-- two Mach numbers, two angles and one altitude -/
example : ∃ d, (compute (fun (_ : Unit) g _ => (trainArray (fun p => p.mach + 10 * p.alpha + 100 * p.alt) g
      (List.range (testPoints g).length) id, ())) (run (fun _ _ => 0) (fun (_ : Unit) g _ => (trainArray (fun p => p.mach + 10 * p.alpha
      + 100 * p.alt) g (List.range (testPoints g).length) id, ())) (init [] ⟨[], [], []⟩ fun _ => 0)
      [.setup ⟨(), [1, 1], [1, 2], [3, 4], [5], 1e-13⟩]) ⟨(), [1, 1], [1, 2], [3, 4], [5], 1e-13⟩ [[2], [0]] false).2 = .ok d ∧
    d (1, 0, 0) = 532 := by
  obtain ⟨d, h, hd⟩ := C67_first_run (P := Unit) (fun _ _ => 0) (fun (_ : Unit) _ p => p.mach + 10 * p.alpha + 100 * p.alt) id
    (fun _ _ _ => ()) (fun g => List.range (testPoints g).length) (fun _ => .refl _) ⟨(), [1, 1], [1, 2], [3, 4], [5], 1e-13⟩ [[2], [0]]
    (by simp [sentinel]) (by
      simp only [sentinel, near, List.replicate, List.forall₂_cons, List.forall₂_nil_right_iff]
      norm_num) [] ⟨[], [], []⟩ fun _ => 0
  refine ⟨d, h, ?_⟩
  rw [hd 1 0 0 (by decide) (by decide) (by decide)]
  norm_num

end Verif.Training
