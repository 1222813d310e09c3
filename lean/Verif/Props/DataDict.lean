import Verif.Model.DataDict

/-!
C83: variables read from an aircraft data dictionary.
-/

namespace Verif.DataDict

/-- `At d p v`: following the keys `p` from `d` through dictionaries leads to `v` -/
inductive At : Py → List Name → Py → Prop
  | here (d : Py) : At d [] d
  | step {e : List (Name × Py)} {k : Name} {v w : Py} {ks : List Name} :
      e.lookup k = some v → At v ks w → At (.dict e) (k :: ks) w

theorem descend_ok (name : Name) (p : List Name) : ∀ d v, descend name d p = .ok v ↔ At d p v := by
  induction p with
  | nil =>
    intro d v
    constructor
    · intro h; simp only [descend, Except.ok.injEq] at h; subst h; exact .here _
    · intro h; cases h; rfl
  | cons k ks ih =>
    intro d v
    constructor
    · intro h
      cases d with
      | dict e =>
        cases hl : e.lookup k with
        | none => simp [descend, subscript, hl] at h
        | some w => simp only [descend, subscript, hl] at h
                    exact .step hl ((ih _ _).1 h)
      | _ => simp [descend, subscript] at h
    · intro h
      cases h with
      | step hl h => simp only [descend, subscript, hl]; exact (ih _ _).2 h

theorem descend_missing (name : Name) (p : List Name) : ∀ d, descend name d p = .error (.missing name) ↔
    ∃ q k r e, p = q ++ k :: r ∧ At d q (.dict e) ∧ e.lookup k = none := by
  induction p with
  | nil => intro d; simp [descend]
  | cons k ks ih =>
    intro d
    constructor
    · intro h
      cases d with
      | dict e =>
        cases hl : e.lookup k with
        | none => exact ⟨[], k, ks, e, rfl, .here _, hl⟩
        | some w =>
          simp only [descend, subscript, hl] at h
          obtain ⟨q, k', r, e', rfl, ha, hn⟩ := (ih _).1 h
          exact ⟨k :: q, k', r, e', rfl, .step hl ha, hn⟩
      | _ => simp [descend, subscript] at h
    · rintro ⟨q, k', r, e, hp, ha, hn⟩
      cases q with
      | nil =>
        cases ha
        simp only [List.nil_append, List.cons.injEq] at hp
        obtain ⟨rfl, rfl⟩ := hp
        simp [descend, subscript, hn]
      | cons k'' q =>
        simp only [List.cons_append, List.cons.injEq] at hp
        obtain ⟨rfl, rfl⟩ := hp
        cases ha with
        | step hl ha =>
          simp only [descend, subscript, hl]
          exact (ih _).2 ⟨q, k', r, e, rfl, ha, hn⟩

theorem descend_kind (name : Name) (p : List Name) : ∀ d, (∃ v, descend name d p = .ok v) ∨
    descend name d p = .error (.missing name) ∨ descend name d p = .error .notSubscriptable := by
  induction p with
  | nil => intro d; exact .inl ⟨d, rfl⟩
  | cons k ks ih =>
    intro d
    cases d with
    | dict e =>
      cases hl : e.lookup k with
      | none => right; left; simp [descend, subscript, hl]
      | some w => simp only [descend, subscript, hl]; exact ih w
    | _ => right; right; simp [descend, subscript]

/-! ### splitting names -/

/-- `sep.join(names)` -/
def joinWith (sep : Name) : List Name → Name
  | [] => []
  | [a] => a
  | a :: b :: l => a ++ sep ++ joinWith sep (b :: l)

theorem splitFuel_ne_nil (sep : Name) (k : ℕ) (s : Name) : splitFuel sep k s ≠ [] := by
  cases k with
  | zero => simp [splitFuel]
  | succ k =>
    cases s with
    | nil => simp [splitFuel]
    | cons c cs =>
      simp only [splitFuel]
      split_ifs
      · simp
      · split <;> simp

theorem joinWith_cons_cons (sep : Name) (c : Char) (h : Name) (t : List Name) :
    joinWith sep ((c :: h) :: t) = c :: joinWith sep (h :: t) := by
  cases t <;> simp [joinWith]

theorem joinWith_nil_cons (sep : Name) {l : List Name} (h : l ≠ []) : joinWith sep ([] :: l) = sep ++ joinWith sep l := by
  cases l with
  | nil => exact absurd rfl h
  | cons a l => simp [joinWith]

theorem join_splitFuel (sep : Name) (k : ℕ) : ∀ s, joinWith sep (splitFuel sep k s) = s := by
  induction k with
  | zero => intro s; simp [splitFuel, joinWith]
  | succ k ih =>
    intro s
    cases s with
    | nil => simp [splitFuel, joinWith]
    | cons c cs =>
      simp only [splitFuel]
      split_ifs with hp
      · rw [joinWith_nil_cons sep (splitFuel_ne_nil _ _ _), ih]
        obtain ⟨t, ht⟩ := List.isPrefixOf_iff_prefix.1 hp
        rw [← ht, List.drop_left]
      · have := ih cs
        cases hs : splitFuel sep k cs with
        | nil => exact absurd hs (splitFuel_ne_nil _ _ _)
        | cons h t =>
          rw [hs] at this
          simp only
          rw [joinWith_cons_cons, this]

/-- C83.  Splitting loses nothing: joining the pieces gives the name back, for every separator.  So distinct structured
names address distinct key sequences. -/
theorem C83_split_injective (sep : Name) : (∀ s, joinWith sep (pySplit sep s) = s) ∧ Function.Injective (pySplit sep) := by
  have h : ∀ s, joinWith sep (pySplit sep s) = s := fun s => join_splitFuel sep _ s
  exact ⟨h, fun a b e => by rw [← h a, ← h b, e]⟩

theorem splitFuel_word (c : Char) (k : ℕ) : ∀ s : Name, s.length < k → c ∉ s → splitFuel [c] k s = [s] := by
  induction k with
  | zero => intro s h; omega
  | succ k ih =>
    intro s hk hs
    cases s with
    | nil => rfl
    | cons a s =>
      have ha : c ≠ a := fun h => hs (by simp [h])
      simp only [splitFuel, List.isPrefixOf_cons₂, beq_iff_eq, ha, Bool.and_eq_true, false_and, if_false]
      rw [ih s (by simpa using hk) (fun h => hs (List.mem_cons_of_mem _ h))]

theorem splitFuel_sep (c : Char) (rest : Name) (w : Name) : ∀ k, w.length + rest.length + 1 < k → c ∉ w →
    splitFuel [c] k (w ++ c :: rest) = w :: splitFuel [c] (k - w.length - 1) rest := by
  induction w with
  | nil =>
    intro k hk _
    obtain ⟨k, rfl⟩ : ∃ j, k = j + 1 := ⟨k - 1, by omega⟩
    simp [splitFuel]
  | cons a w ih =>
    intro k hk hw
    obtain ⟨k, rfl⟩ : ∃ j, k = j + 1 := ⟨k - 1, by omega⟩
    have ha : c ≠ a := fun h => hw (by simp [h])
    simp only [List.cons_append, splitFuel, List.isPrefixOf_cons₂, beq_iff_eq, ha, Bool.and_eq_true, false_and, if_false]
    rw [ih k (by simp at hk; omega) (fun h => hw (List.mem_cons_of_mem _ h))]
    simp

theorem splitFuel_join (c : Char) (p : List Name) (hp : p ≠ []) (h : ∀ n ∈ p, c ∉ n) :
    ∀ k, (joinWith [c] p).length < k → splitFuel [c] k (joinWith [c] p) = p := by
  induction p with
  | nil => exact absurd rfl hp
  | cons a l ih =>
    intro k hk
    cases l with
    | nil => exact splitFuel_word c k a (by simpa [joinWith] using hk) (h a (by simp))
    | cons b l =>
      simp only [joinWith, List.append_assoc, List.singleton_append] at hk ⊢
      rw [splitFuel_sep c _ a k (by simp at hk; omega) (h a (by simp))]
      rw [ih (by simp) (fun n hn => h n (List.mem_cons_of_mem _ hn)) _ (by simp at hk; omega)]

/-- C83.  The structured name of a key sequence addresses that sequence, if no key contains the separator. -/
theorem C83_split_join (c : Char) (p : List Name) (hp : p ≠ []) (h : ∀ n ∈ p, c ∉ n) :
    pySplit [c] (joinWith [c] p) = p := splitFuel_join c p hp h _ (Nat.lt_succ_self _)

/-! ### outputs -/

/-- C83.  An output is declared exactly when the name leads through dictionaries to a dictionary with a `value` that is a
number or an array.  The output has the full structured name, the value (a number becomes an array of length one, shape
(1,)), and the `units` entry, absent units being none. -/
theorem C83_success_iff (d : Py) (name sep : Name) (hs : sep ≠ []) (o : Out) :
    outputFromDict d name sep = .ok o ↔
      ∃ e, At d (pySplit sep name) (.dict e) ∧ o.name = name ∧ o.units = e.lookup "units".toList ∧
        ((∃ x, e.lookup "value".toList = some (.num x) ∧ o.shape = [1] ∧ o.data = [x]) ∨
          e.lookup "value".toList = some (.arr o.shape o.data)) := by
  unfold outputFromDict
  rw [if_neg hs]
  constructor
  · intro h
    cases hd : descend name d (pySplit sep name) with
    | error x => rw [hd] at h; cases h
    | ok leaf =>
      rw [hd] at h
      have ha := (descend_ok name _ _ _).1 hd
      cases leaf with
      | dict e =>
        refine ⟨e, ha, ?_⟩
        cases hv : e.lookup kValue with
        | none => simp [Bind.bind, Except.bind, readLeaf, hv] at h
        | some v =>
          cases v <;> simp [Bind.bind, Except.bind, readLeaf, hv, toArray] at h
          case num x => subst h; exact ⟨rfl, rfl, .inl ⟨x, hv, rfl, rfl⟩⟩
          case arr s x => subst h; exact ⟨rfl, rfl, .inr hv⟩
      | _ => simp [Bind.bind, Except.bind, readLeaf] at h
  · rintro ⟨e, ha, hn, hu, hv⟩
    have hd := (descend_ok name _ _ _).2 ha
    obtain ⟨n, s, x, u⟩ := o
    simp only at hn hu hv
    subst hn; subst hu
    rcases hv with ⟨y, hv, rfl, rfl⟩ | hv
    · rw [show "value".toList = kValue from rfl] at hv
      simp [Bind.bind, Except.bind, hd, readLeaf, hv, toArray, kUnits]
    · rw [show "value".toList = kValue from rfl] at hv
      simp [Bind.bind, Except.bind, hd, readLeaf, hv, toArray, kUnits]

/-- C83.  The failures, completely: the KeyError naming the structured name exactly when a key is missing from a dictionary
on the way; the KeyError about `value` exactly when the addressed dictionary has no such key; an attribute error exactly when
the value is neither number nor array; and otherwise an uncaught type error because something on the way is no dictionary. -/
theorem C83_failure_iff (d : Py) (name sep : Name) (hs : sep ≠ []) :
    (outputFromDict d name sep = .error (.missing name) ↔
      ∃ q k r e, pySplit sep name = q ++ k :: r ∧ At d q (.dict e) ∧ e.lookup k = none) ∧
    (outputFromDict d name sep = .error (.noValue name) ↔
      ∃ e, At d (pySplit sep name) (.dict e) ∧ e.lookup "value".toList = none) ∧
    (outputFromDict d name sep = .error .noShape ↔
      ∃ e v, At d (pySplit sep name) (.dict e) ∧ e.lookup "value".toList = some v ∧
        (∀ x, v ≠ .num x) ∧ ∀ s x, v ≠ .arr s x) ∧
    (outputFromDict d name sep = .error .notSubscriptable ↔
      ∃ q r v, pySplit sep name = q ++ r ∧ At d q v ∧ ∀ e, v ≠ .dict e) ∧
    ∀ x, outputFromDict d name sep = .error x →
      x = .missing name ∨ x = .noValue name ∨ x = .noShape ∨ x = .notSubscriptable := by
  have hdet : ∀ p (d v w : Py), At d p v → At d p w → v = w := by
    intro p d v w h1 h2
    have e1 := (descend_ok name p d v).2 h1
    have e2 := (descend_ok name p d w).2 h2
    rw [e1] at e2; simpa using e2
  have hnd : ∀ p (d : Py), descend name d p = .error .notSubscriptable ↔
      ∃ q k r v, p = q ++ k :: r ∧ At d q v ∧ ∀ e, v ≠ .dict e := by
    intro p
    induction p with
    | nil => intro d; simp [descend]
    | cons k ks ih =>
      intro d
      constructor
      · intro h
        cases d with
        | dict e =>
          cases hl : e.lookup k with
          | none => simp [descend, subscript, hl] at h
          | some w =>
            simp only [descend, subscript, hl] at h
            obtain ⟨q, k', r, v, rfl, ha, hn⟩ := (ih _).1 h
            exact ⟨k :: q, k', r, v, rfl, .step hl ha, hn⟩
        | num x => exact ⟨[], k, ks, _, rfl, .here _, fun e h => by cases h⟩
        | arr s x => exact ⟨[], k, ks, _, rfl, .here _, fun e h => by cases h⟩
        | other x => exact ⟨[], k, ks, _, rfl, .here _, fun e h => by cases h⟩
      · rintro ⟨q, k', r, v, hp, ha, hn⟩
        cases q with
        | nil =>
          cases ha
          cases d with
          | dict e => exact absurd rfl (hn e)
          | _ => simp [descend, subscript]
        | cons k'' q =>
          simp only [List.cons_append, List.cons.injEq] at hp
          obtain ⟨rfl, rfl⟩ := hp
          cases ha with
          | step hl ha =>
            simp only [descend, subscript, hl]
            exact (ih _).2 ⟨q, k', r, v, rfl, ha, hn⟩
  unfold outputFromDict
  rw [if_neg hs]
  generalize hP : pySplit sep name = p
  rw [show ("value".toList : Name) = kValue from rfl]
  rcases descend_kind name p d with ⟨leaf, hd⟩ | hd | hd
  · have ha := (descend_ok name _ _ _).1 hd
    have hm : ¬ ∃ q k r e, p = q ++ k :: r ∧ At d q (.dict e) ∧ e.lookup k = none := by
      intro h; rw [(descend_missing name p d).2 h] at hd; cases hd
    have hns : ¬ ∃ q k r v, p = q ++ k :: r ∧ At d q v ∧ ∀ e, v ≠ .dict e := by
      intro h; rw [(hnd p d).2 h] at hd; cases hd
    cases leaf with
    | dict e =>
      have hns' : ¬ ∃ q r v, p = q ++ r ∧ At d q v ∧ ∀ e, v ≠ .dict e := by
        rintro ⟨q, r, v, e1, h1, h2⟩
        cases r with
        | nil => rw [List.append_nil] at e1; subst e1; exact h2 e (hdet _ _ _ _ h1 ha)
        | cons k r => exact hns ⟨q, k, r, v, e1, h1, h2⟩
      have hu : ∀ e', At d p (.dict e') → e' = e := fun e' h => by
        have := hdet _ _ _ _ h ha; simpa using this
      cases hv : e.lookup kValue with
      | none =>
        simp only [Bind.bind, Except.bind, hd, readLeaf, hv, Except.error.injEq, reduceCtorEq, false_iff, true_iff]
        refine ⟨hm, ⟨e, ha, hv⟩, ?_, hns', ?_⟩
        · rintro ⟨e', v, h1, h2, -⟩
          rw [hu e' h1, hv] at h2; cases h2
        · rintro x rfl; simp
      | some v =>
        have hnv : ¬ ∃ e', At d p (.dict e') ∧ e'.lookup kValue = none := by
          rintro ⟨e', h1, h2⟩; rw [hu e' h1, hv] at h2; cases h2
        cases v with
        | num x =>
          simp only [Bind.bind, Except.bind, hd, readLeaf, hv, toArray, reduceCtorEq, false_iff]
          refine ⟨hm, hnv, ?_, hns', ?_⟩
          · rintro ⟨e', v, h1, h2, h3, -⟩
            rw [hu e' h1, hv] at h2; cases h2; exact h3 x rfl
          · rintro x h; cases h
        | arr s x =>
          simp only [Bind.bind, Except.bind, hd, readLeaf, hv, toArray, reduceCtorEq, false_iff]
          refine ⟨hm, hnv, ?_, hns', ?_⟩
          · rintro ⟨e', v, h1, h2, -, h3⟩
            rw [hu e' h1, hv] at h2; cases h2; exact h3 s x rfl
          · rintro x h; cases h
        | other t =>
          simp only [Bind.bind, Except.bind, hd, readLeaf, hv, toArray, Except.error.injEq, reduceCtorEq, false_iff, true_iff]
          refine ⟨hm, hnv, ⟨e, _, ha, hv, (fun x h => by cases h), (fun s x h => by cases h)⟩, hns', ?_⟩
          rintro x rfl; simp
        | dict e' =>
          simp only [Bind.bind, Except.bind, hd, readLeaf, hv, toArray, Except.error.injEq, reduceCtorEq, false_iff, true_iff]
          refine ⟨hm, hnv, ⟨e, _, ha, hv, (fun x h => by cases h), (fun s x h => by cases h)⟩, hns', ?_⟩
          rintro x rfl; simp
    | num x =>
      simp only [Bind.bind, Except.bind, hd, readLeaf, Except.error.injEq, reduceCtorEq, false_iff, true_iff]
      refine ⟨hm, ?_, ?_, ⟨p, [], _, by simp, ha, fun e h => by cases h⟩, ?_⟩
      · rintro ⟨e, h, -⟩; cases hdet _ _ _ _ h ha
      · rintro ⟨e, v, h, -⟩; cases hdet _ _ _ _ h ha
      · rintro x rfl; simp
    | arr s x =>
      simp only [Bind.bind, Except.bind, hd, readLeaf, Except.error.injEq, reduceCtorEq, false_iff, true_iff]
      refine ⟨hm, ?_, ?_, ⟨p, [], _, by simp, ha, fun e h => by cases h⟩, ?_⟩
      · rintro ⟨e, h, -⟩; cases hdet _ _ _ _ h ha
      · rintro ⟨e, v, h, -⟩; cases hdet _ _ _ _ h ha
      · rintro x rfl; simp
    | other t =>
      simp only [Bind.bind, Except.bind, hd, readLeaf, Except.error.injEq, reduceCtorEq, false_iff, true_iff]
      refine ⟨hm, ?_, ?_, ⟨p, [], _, by simp, ha, fun e h => by cases h⟩, ?_⟩
      · rintro ⟨e, h, -⟩; cases hdet _ _ _ _ h ha
      · rintro ⟨e, v, h, -⟩; cases hdet _ _ _ _ h ha
      · rintro x rfl; simp
  · have hna : ∀ v, ¬ At d p v := fun v h => by rw [(descend_ok name _ _ _).2 h] at hd; cases hd
    have hns' : ¬ ∃ q r v, p = q ++ r ∧ At d q v ∧ ∀ e, v ≠ .dict e := by
      rintro ⟨q, r, v, e1, h1, h2⟩
      cases r with
      | nil => rw [List.append_nil] at e1; subst e1; exact hna _ h1
      | cons k r => rw [(hnd p d).2 ⟨q, k, r, v, e1, h1, h2⟩] at hd; cases hd
    simp only [Bind.bind, Except.bind, hd, Except.error.injEq, reduceCtorEq, false_iff, true_iff]
    refine ⟨(descend_missing name p d).1 hd, ?_, ?_, hns', ?_⟩
    · rintro ⟨e, h, -⟩; exact hna _ h
    · rintro ⟨e, v, h, -⟩; exact hna _ h
    · rintro x rfl; simp
  · have hna : ∀ v, ¬ At d p v := fun v h => by rw [(descend_ok name _ _ _).2 h] at hd; cases hd
    have hm : ¬ ∃ q k r e, p = q ++ k :: r ∧ At d q (.dict e) ∧ e.lookup k = none := by
      intro h; rw [(descend_missing name p d).2 h] at hd; cases hd
    simp only [Bind.bind, Except.bind, hd, Except.error.injEq, reduceCtorEq, false_iff, true_iff]
    refine ⟨hm, ?_, ?_, ?_, ?_⟩
    · rintro ⟨e, h, -⟩; exact hna _ h
    · rintro ⟨e, v, h, -⟩; exact hna _ h
    · obtain ⟨q, k, r, v, e1, h1, h2⟩ := (hnd p d).1 hd
      exact ⟨q, k :: r, v, e1, h1, h2⟩
    · rintro x rfl; simp

/-- the calls, in order -/
def run (c : Comp) (names : List Name) (sep : Name) : Comp := names.foldl (fun c n => (c.add n sep).2) c

/-- C83.  After any sequence of calls the data dictionary is unchanged, the earlier outputs are still there, and there is
exactly one new output for each call that succeeded, in call order: failed calls leave no trace and calls do not influence
each other. -/
theorem C83_calls (c : Comp) (names : List Name) (sep : Name) :
    (run c names sep).data = c.data ∧
    (run c names sep).outs = c.outs ++ names.filterMap fun n => (outputFromDict c.data n sep).toOption := by
  induction names generalizing c with
  | nil => simp [run]
  | cons n names ih =>
    have hd : (c.add n sep).2.data = c.data := by
      unfold Comp.add; cases outputFromDict c.data n sep <;> rfl
    have := ih (c.add n sep).2
    rw [hd] at this
    refine ⟨this.1, ?_⟩
    show (run (c.add n sep).2 names sep).outs = _
    rw [this.2, List.filterMap_cons]
    unfold Comp.add
    cases outputFromDict c.data n sep <;> simp [Except.toOption]

/-- C83.  The Dymos variant looks the data up in the same way and targets the same name in every phase; it accepts values of
any kind. -/
theorem C83_dymos (d : Py) (phases : List Name) (name sep : Name) (opt dyn : Bool) (hs : sep ≠ []) :
    (∀ o, outputFromDict d name sep = .ok o → paramFromDict d phases name sep opt dyn
      = .ok ⟨name, .arr o.shape o.data, o.units, opt, dyn, phases.map fun p => (p, [name])⟩) ∧
    (∀ x, x ≠ .noShape → outputFromDict d name sep = .error x → paramFromDict d phases name sep opt dyn = .error x) ∧
    (outputFromDict d name sep = .error .noShape → ∃ q, paramFromDict d phases name sep opt dyn = .ok q) := by
  unfold outputFromDict paramFromDict
  rw [if_neg hs, if_neg hs]
  cases hd : descend name d (pySplit sep name) with
  | error x =>
    refine ⟨fun o h => ?_, fun y _ h => ?_, fun h => ?_⟩
    · cases h
    · simpa [Bind.bind, Except.bind] using h
    rcases descend_kind name (pySplit sep name) d with ⟨v, h'⟩ | h' | h' <;> rw [hd] at h' <;> cases h' <;> cases h
  | ok leaf =>
    cases hr : readLeaf name leaf with
    | error x =>
      refine ⟨fun o h => ?_, fun y _ h => ?_, fun h => ?_⟩
      · simp [Bind.bind, Except.bind, hr] at h
      · simpa [Bind.bind, Except.bind, hr] using h
      · simp [Bind.bind, Except.bind, hr] at h
        subst h
        cases leaf <;> simp [readLeaf] at hr
        split at hr <;> cases hr
    | ok vu =>
      obtain ⟨v, u⟩ := vu
      refine ⟨fun o h => ?_, fun y hy h => ?_, fun _ => ?_⟩
      · cases v <;> simp [Bind.bind, Except.bind, hr, toArray] at h ⊢
        · subst h; simp
        · subst h; simp
      · cases v <;> simp [Bind.bind, Except.bind, hr, toArray] at h
        · exact absurd h.symm hy
        · exact absurd h.symm hy
      · exact ⟨⟨name, toArray v, u, opt, dyn, phases.map fun p => (p, [name])⟩, by simp [Bind.bind, Except.bind, hr]⟩

/-- an aircraft data fragment -/
def exData : Py := .dict [("ac".toList, .dict [("geom".toList, .dict
  [("S_ref".toList, .dict [("value".toList, .num 18), ("units".toList, .other 0)]), ("n".toList, .dict [])])])]

example : outputFromDict exData "ac|geom|S_ref".toList "|".toList
    = .ok ⟨"ac|geom|S_ref".toList, [1], [18], some (.other 0)⟩ := by
  rw [C83_success_iff _ _ _ (by decide)]
  refine ⟨[("value".toList, .num 18), ("units".toList, .other 0)], ?_, rfl, ?_, .inl ⟨18, ?_, rfl, rfl⟩⟩
  · rw [show pySplit "|".toList "ac|geom|S_ref".toList = ["ac".toList, "geom".toList, "S_ref".toList] by decide]
    exact .step (v := _) rfl (.step rfl (.step rfl (.here _)))
  · rfl
  · rfl

example : outputFromDict exData "ac|aero|x".toList "|".toList = .error (.missing "ac|aero|x".toList) ∧
    outputFromDict exData "ac|geom|n".toList "|".toList = .error (.noValue "ac|geom|n".toList) ∧
    outputFromDict exData "ac|geom|S_ref|value|x".toList "|".toList = .error .notSubscriptable := by
  refine ⟨rfl, rfl, rfl⟩

end Verif.DataDict
