import Verif.Model.SurfOptions

/-!
# C130: which surface options are refused
-/

namespace Verif.SurfOptions

/-- equal up to numpy's broadcasting: what the components accept in place of the stored value -/
def Same : Val → Val → Prop
  | .num x, .num y => x = y
  | .arr l, .arr m => l = m ∨ l.length ≠ m.length ∧ (l.length = 1 ∨ m.length = 1) ∧ ∀ x ∈ l, ∀ y ∈ m, x = y
  | .arr l, .num y => ∀ x ∈ l, x = y
  | .num x, .arr m => m = [] ∨ m = [x]

theorem zip_any (l m : List ℚ) (h : l.length = m.length) :
    (List.zipWith (fun x y => decide (x ≠ y)) l m).any id = false ↔ l = m := by
  induction l generalizing m with
  | nil => cases m <;> simp_all
  | cons x l ih =>
    cases m with
    | nil => simp at h
    | cons y m =>
      have := ih m (by simpa using h)
      simp only [List.zipWith_cons_cons, List.any_cons, id, Bool.or_eq_false_iff, this]
      simp

/-- the comparison of one pair is harmless exactly if the values are the same up to broadcasting -/
theorem ne_same (v w : Val) : (∃ e, ne v w = .ok e ∧ truth e = .ok false) ↔ Same v w := by
  cases v with
  | num x =>
    cases w with
    | num y => simp [ne, truth, Same]
    | arr m =>
      match m with
      | [] => simp [ne, truth, Same]
      | [y] =>
        have : [y] = [x] ↔ x = y := by simp only [List.cons.injEq, and_true]; exact eq_comm
        simp [ne, truth, Same, this]
      | y :: z :: m => simp [ne, truth, Same]
  | arr l =>
    cases w with
    | num y => simp [ne, truth, Same]
    | arr m =>
      by_cases h : l.length = m.length
      · simp only [ne, neArr, h, if_true, Except.map, Except.ok.injEq, exists_eq_left', truth, zip_any l m h, Same, ne_eq,
          not_true_eq_false, false_and, or_false]
      · have hne : l ≠ m := fun e => h (by rw [e])
        simp only [ne, neArr, h, if_false, Same, hne, false_or, ne_eq, not_false_eq_true, true_and]
        match l, m with
        | [], [] => simp at h
        | [], [y] => simp [Except.map, truth]
        | [], y :: z :: m => simp [Except.map]
        | [x], m => simp [Except.map, truth]
        | x :: z :: l, [] => simp [Except.map]
        | x :: z :: l, [y] => simp [Except.map, truth]
        | x :: z :: l, y :: u :: m => simp [Except.map]

theorem loop_true (new l : Dict) (e : PV) (h : truth e = .ok true) : loop new l e = .ok e := by
  induction l with
  | nil => rfl
  | cons a l ih => obtain ⟨k, v⟩ := a; simp [loop, h, ih, bind, Except.bind]

theorem loop_stuck (new : Dict) (a : String × Val) (l : Dict) (e : PV) (x : Err) (h : truth e = .error x) : loop new (a :: l) e = .error x := by
  obtain ⟨k, v⟩ := a; simp [loop, h, bind, Except.bind]

theorem loop_ok (new l : Dict) (e : PV) :
    (∃ e', loop new l e = .ok e' ∧ truth e' = .ok false) ↔
      truth e = .ok false ∧ ∀ a ∈ l, ∃ w, new.lookup a.1 = some w ∧ Same a.2 w := by
  induction l generalizing e with
  | nil => simp [loop]
  | cons a l ih =>
    obtain ⟨k, v⟩ := a
    rcases ht : truth e with x | b
    · simp [loop, ht, bind, Except.bind]
    · cases b with
      | true => rw [loop_true new _ e ht]; simp [ht]
      | false =>
        simp only [List.mem_cons, forall_eq_or_imp, true_and]
        rcases hw : new.lookup k with _ | w
        · simp [loop, ht, bind, Except.bind, get, hw]
        · rcases hn : ne v w with x | e1
          · have : ¬ Same v w := by rw [← ne_same]; simp [hn]
            simp [loop, ht, bind, Except.bind, get, hw, hn, this]
          · have e0 : loop new ((k, v) :: l) e = loop new l e1 := by simp [loop, ht, bind, Except.bind, get, hw, hn]
            have : Same v w ↔ truth e1 = .ok false := by rw [← ne_same]; simp [hn]
            rw [e0, ih e1]
            simp [this]

theorem differ_iff (old new : Dict) : keysDiffer old new = false ↔ ∀ k, k ∈ old.keys ↔ k ∈ new.keys := by
  simp only [keysDiffer, Bool.not_eq_false', Bool.and_eq_true, List.all_eq_true, decide_eq_true_eq]
  exact ⟨fun h k => ⟨h.1 k, h.2 k⟩, fun h => ⟨fun k => (h k).1, fun k => (h k).2⟩⟩

/-- C130.  A setup is accepted exactly if the new dictionary has the keys of the stored one and every value is the stored value, up to
numpy's broadcasting; dictionaries with other keys always get the documented error, and no key error occurs. -/
theorem C130_check (old new : Dict) :
    (check old new = .ok () ↔ (∀ k, k ∈ old.keys ↔ k ∈ new.keys) ∧ ∀ a ∈ old, ∃ w, new.lookup a.1 = some w ∧ Same a.2 w) ∧
    ((¬ ∀ k, k ∈ old.keys ↔ k ∈ new.keys) → check old new = .error .differ) ∧ check old new ≠ .error .key := by
  have hk := loop_ok new old (.b (keysDiffer old new))
  have key_free : ∀ (l : Dict) (e : PV), (∀ k ∈ l.keys, k ∈ new.keys) → loop new l e ≠ .error .key := by
    intro l
    induction l with
    | nil => intro e _; simp [loop]
    | cons a l ih =>
      obtain ⟨k, v⟩ := a
      intro e h
      have hl : ∀ k ∈ Dict.keys l, k ∈ new.keys := fun q hq => h q (List.mem_cons_of_mem _ hq)
      rcases ht : truth e with x | b
      · rw [loop_stuck new _ l e x ht]
        have : x = .numpy := by
          revert ht; unfold truth; split <;> simp [eq_comm]
        simp [this]
      · cases b with
        | true => rw [loop_true new _ e ht]; simp
        | false =>
          have hin : k ∈ new.keys := h k List.mem_cons_self
          obtain ⟨w, hw⟩ : ∃ w, new.lookup k = some w := by
            rcases hw : new.lookup k with _ | w
            · obtain ⟨p, hp, e⟩ := List.mem_map.1 hin
              have := List.lookup_eq_none_iff.1 hw p hp
              simp [e] at this
            · exact ⟨w, rfl⟩
          rcases hn : ne v w with x | e1
          · have : x = .numpy := by
              revert hn
              cases v <;> cases w <;> simp only [ne, neArr, Except.map, reduceCtorEq, false_implies]
              intro hn
              split at hn
              · rename_i h; split at h
                · simp at h
                · split at h <;> simp_all
              · simp at hn
            simp [loop, ht, bind, Except.bind, get, hw, hn, this]
          · have e0 : loop new ((k, v) :: l) e = loop new l e1 := by simp [loop, ht, bind, Except.bind, get, hw, hn]
            rw [e0]; exact ih e1 hl
  refine ⟨?_, ?_, ?_⟩
  · rw [← differ_iff]
    have : (check old new = .ok ()) ↔ ∃ e', loop new old (.b (keysDiffer old new)) = .ok e' ∧ truth e' = .ok false := by
      unfold check
      rcases loop new old (.b (keysDiffer old new)) with x | e
      · simp [bind, Except.bind]
      · rcases ht : truth e with x | b
        · simp [bind, Except.bind, ht]
        · cases b <;> simp [bind, Except.bind, ht]
    rw [this, hk]
    simp [truth]
  · intro h
    rw [← differ_iff, Bool.not_eq_false] at h
    unfold check
    rw [h, loop_true _ _ _ rfl]
    rfl
  · by_cases h : ∀ k, k ∈ old.keys ↔ k ∈ new.keys
    · have := key_free old (.b (keysDiffer old new)) fun k => (h k).1
      unfold check
      rcases hl : loop new old (.b (keysDiffer old new)) with x | e
      · rw [hl] at this; simpa [bind, Except.bind] using this
      · rcases ht : truth e with x | b
        · have : x = .numpy := by
            revert ht; unfold truth; split <;> simp [eq_comm]
          simp [bind, Except.bind, ht, this]
        · cases b <;> simp [bind, Except.bind, ht]
    · rw [← differ_iff, Bool.not_eq_false] at h
      unfold check
      rw [h, loop_true _ _ _ rfl]
      simp [truth, bind, Except.bind]

/-- C130.  Components with the same dictionary can be set up together. -/
theorem C130_equal (d : Dict) (hn : d.keys.Nodup) : check d d = .ok () := by
  rw [(C130_check d d).1]
  refine ⟨fun _ => Iff.rfl, fun a ha => ⟨a.2, ?_, ?_⟩⟩
  · induction d with
    | nil => simp at ha
    | cons b d ih =>
      simp only [Dict.keys, List.map_cons, List.nodup_cons] at hn
      rcases List.mem_cons.1 ha with rfl | h
      · simp [List.lookup]
      · have : a.1 ≠ b.1 := fun e => hn.1 (List.mem_map.2 ⟨a, h, e⟩)
        have e : (a.1 == b.1) = false := by simpa using this
        obtain ⟨bk, bv⟩ := b
        simp only [List.lookup, e]
        exact ih hn.2 h
  · rcases a.2 with x | l <;> simp [Same]

/-- C130.  The first dictionary of the process stays: however many problems, components and failed setups follow, later setups are
compared with it alone, and those that were accepted have its keys and its values up to broadcasting. -/
theorem C130_history (d : Dict) (l : List Dict) :
    (run none (d :: l)).1 = some d ∧ (run none (d :: l)).2 = .ok () :: l.map (check d) := by
  have : ∀ l : List Dict, run (some d) l = (some d, l.map (check d)) := by
    intro l
    induction l with
    | nil => rfl
    | cons a l ih => simp [run, setup, ih]
  simp [run, setup, this]

/-- C130, refuted in part.  Differently valued dictionaries are not always refused: an array of equal entries and a single number pass for
each other, in this order only. -/
theorem C130_broadcast (k : String) (x : ℚ) (n : ℕ) :
    check [(k, .arr (List.replicate (n + 2) x))] [(k, .num x)] = .ok () ∧
    check [(k, .num x)] [(k, .arr (List.replicate (n + 2) x))] = .error .numpy ∧
    check [(k, .arr (List.replicate (n + 2) x))] [(k, .arr [x])] = .ok () := by
  refine ⟨(C130_check _ _).1.2 ⟨fun _ => Iff.rfl, ?_⟩, ?_, (C130_check _ _).1.2 ⟨fun _ => Iff.rfl, ?_⟩⟩
  · simp [List.lookup, Same]
  · have e : List.replicate (n + 2) x = x :: x :: List.replicate n x := rfl
    have hk : keysDiffer [(k, .num x)] [(k, .arr (List.replicate (n + 2) x))] = false := (differ_iff _ _).2 fun _ => Iff.rfl
    unfold check
    rw [hk]
    simp [loop, truth, get, ne, e, bind, Except.bind, List.lookup]
  · simp [List.lookup, Same]

/-- another order of the keys is accepted, another value and a missing key are refused -/
example : check [("k_lam", .num 1), ("span_cols", .arr [1, 2])] [("span_cols", .arr [1, 2]), ("k_lam", .num 1)] = .ok () ∧
    check [("k_lam", .num 1), ("span_cols", .arr [1, 2])] [("span_cols", .arr [1, 3]), ("k_lam", .num 1)] = .error .differ ∧
    check [("k_lam", .num 1), ("span_cols", .arr [1, 2])] [("k_lam", .num 1)] = .error .differ ∧
    check [("span_cols", .arr [1, 2])] [("span_cols", .arr [1, 2, 3])] = .error .numpy := by decide +kernel

/-- a second problem of the process with other options is refused, a third one with the first options is not -/
example : (run none [[("k", .num 1)], [("k", .num 2)], [("k", .num 1)]]).2 = [.ok (), .error .differ, .ok ()] := by decide +kernel

end Verif.SurfOptions
