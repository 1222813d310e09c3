import Verif.Model.Sparsity
import Mathlib.Data.List.Nodup

/-! Completeness of declared partials from checks of the tables and independence of the formula -/

namespace Verif.Units

/-- the formula of output `o` does not read `v` -/
def Indep (c : Comp) (o v : String) : Prop := ∀ (e : String → ℝ) (x : ℝ), c.run (fun w => if w = v then x else e w) o = c.run e o

/-- the pattern fits the shapes -/
def Pat.fits (vo vv : Bool) : Pat → Bool
  | .diag => vo && vv
  | .col => vo && !vv
  | .one => !vo
  | .dense => true

theorem Pat.nodup (nn r c : ℕ) (p : Pat) : (p.entries nn r c).Nodup := by
  cases p with
  | diag => exact List.nodup_range.map fun a b h => (Prod.mk.inj h).1
  | col => exact List.nodup_range.map fun a b h => (Prod.mk.inj h).1
  | one => exact List.nodup_singleton _
  | dense =>
    refine List.nodup_flatMap.2 ⟨fun i _ => List.nodup_range.map fun a b h => (Prod.mk.inj h).2, ?_⟩
    refine List.nodup_range.imp fun {a b} hab => ?_
    simp only [Function.onFun, List.disjoint_left, List.mem_map, not_exists, not_and]
    rintro _ ⟨x, _, rfl⟩ y _ h
    exact hab (Prod.mk.inj h).1.symm

theorem filter_pair {l : List (String × String × Pat)} (h : (l.map fun p => (p.1, p.2.1)).Nodup) (o v : String) :
    (l.filter fun p => p.1 = o ∧ p.2.1 = v) = [] ∨ ∃ p, (o, v, p) ∈ l ∧ (l.filter fun p => p.1 = o ∧ p.2.1 = v) = [(o, v, p)] := by
  induction l with
  | nil => exact Or.inl rfl
  | cons a l ih =>
    rw [List.map_cons, List.nodup_cons] at h
    by_cases ha : a.1 = o ∧ a.2.1 = v
    · right
      obtain ⟨a1, a2, a3⟩ := a
      obtain ⟨rfl, rfl⟩ : a1 = o ∧ a2 = v := ha
      refine ⟨a3, List.mem_cons_self, ?_⟩
      rw [List.filter_cons_of_pos (by simp)]
      congr 1
      rw [List.filter_eq_nil_iff]
      rintro ⟨b1, b2, b3⟩ hb hc
      simp only [decide_eq_true_eq] at hc
      exact h.1 (List.mem_map.2 ⟨_, hb, by rw [hc.1, hc.2]⟩)
    · rw [List.filter_cons_of_neg (by simpa using ha)]
      rcases ih h.2 with h1 | ⟨p, hp, h1⟩
      · exact Or.inl h1
      · exact Or.inr ⟨p, List.mem_cons_of_mem _ hp, h1⟩

theorem Decl.complete_of {d : Decl} {u : List (String × String)}
    (h1 : (∀ p ∈ d.parts, p.1 ∈ d.comp.outs.map Prod.fst ∧ p.2.1 ∈ d.comp.ins.map Prod.fst ∧
      p.2.2.fits (p.1 ∈ d.vecs) (p.2.1 ∈ d.vecs) = true))
    (h2 : (d.parts.map fun p => (p.1, p.2.1)).Nodup)
    (h3 : ∀ o ∈ d.comp.outs, ∀ v ∈ d.comp.ins, (o.1, v.1) ∈ (d.parts.map fun p => (p.1, p.2.1)) ∨ (o.1, v.1) ∈ u)
    (h4 : ∀ p ∈ u, Indep d.comp p.1 p.2) : d.Complete := by
  have key : ∀ nn o v, d.entries nn o v = [] ∨ ∃ p, (o, v, p) ∈ d.parts ∧ d.entries nn o v = p.entries nn (d.size nn o) (d.size nn v) := by
    intro nn o v
    rcases filter_pair h2 o v with h | ⟨p, hp, h⟩
    · left; unfold Decl.entries; rw [h]; rfl
    · right; refine ⟨p, hp, ?_⟩; unfold Decl.entries; rw [h]; simp
  refine ⟨fun p hp => ⟨(h1 p hp).1, (h1 p hp).2.1⟩, ?_, ?_, ?_⟩
  · intro nn hnn o v e he
    rcases key nn o v with h | ⟨p, hp, h⟩
    · rw [h] at he; simp at he
    · rw [h] at he
      have hf := (h1 _ hp).2.2
      cases p with
      | diag =>
        simp only [Pat.fits, Bool.and_eq_true, decide_eq_true_eq] at hf
        simp only [Pat.entries, List.mem_map, List.mem_range] at he
        obtain ⟨k, hk, rfl⟩ := he
        simp only [Decl.size, if_pos hf.1, if_pos hf.2]
        exact ⟨hk, hk⟩
      | col =>
        simp only [Pat.fits, Bool.and_eq_true, decide_eq_true_eq, Bool.not_eq_true', decide_eq_false_iff_not] at hf
        simp only [Pat.entries, List.mem_map, List.mem_range] at he
        obtain ⟨k, hk, rfl⟩ := he
        simp only [Decl.size, if_pos hf.1, if_neg hf.2]
        exact ⟨hk, Nat.one_pos⟩
      | one =>
        simp only [Pat.entries, List.mem_singleton] at he
        subst he
        unfold Decl.size
        constructor <;> split <;> omega
      | dense =>
        simp only [Pat.entries, List.mem_flatMap, List.mem_map, List.mem_range] at he
        obtain ⟨i, hi, j, hj, rfl⟩ := he
        exact ⟨hi, hj⟩
  · intro nn o v
    rcases key nn o v with h | ⟨p, _, h⟩
    · rw [h]; exact List.nodup_nil
    · rw [h]; exact p.nodup _ _ _
  · intro nn o ho v hv r hr c hc hn X x
    -- the environments agree wherever the changed entry is not read
    have same : (v.1 ∈ d.vecs → c ≠ r) → (v.1 ∉ d.vecs → c ≠ 0) →
        d.compute (change X v.1 c x) o.1 r = d.compute X o.1 r := by
      intro ha hb
      unfold Decl.compute
      congr 1
      funext w
      by_cases hw : w = v.1
      · subst hw
        by_cases hm : v.1 ∈ d.vecs
        · simp [change, hm, (ha hm).symm]
        · simp [change, hm, (hb hm).symm]
      · simp [change, hw]
    rcases h3 o ho v hv with hd | hu
    · obtain ⟨⟨p1, p2, p⟩, hp, he⟩ := List.mem_map.1 hd
      obtain ⟨rfl, rfl⟩ := Prod.mk.inj he
      have hf := (h1 _ hp).2.2
      have hent : d.entries nn o.1 v.1 = p.entries nn (d.size nn o.1) (d.size nn v.1) := by
        rcases filter_pair h2 o.1 v.1 with h | ⟨q, hq, h⟩
        · rw [List.filter_eq_nil_iff] at h
          exact absurd (by simp) (h _ hp)
        · have : (o.1, v.1, p) ∈ d.parts.filter fun p => p.1 = o.1 ∧ p.2.1 = v.1 := List.mem_filter.2 ⟨hp, by simp⟩
          rw [h, List.mem_singleton] at this
          have hpq : p = q := by simpa using this
          unfold Decl.entries; rw [h, hpq]; simp
      rw [hent] at hn
      cases p with
      | diag =>
        simp only [Pat.fits, Bool.and_eq_true, decide_eq_true_eq] at hf
        have hr' : r < nn := by simpa [Decl.size, hf.1] using hr
        refine same (fun _ hcr => hn ?_) (fun h => absurd hf.2 h)
        subst hcr
        exact List.mem_map.2 ⟨c, List.mem_range.2 hr', rfl⟩
      | col =>
        simp only [Pat.fits, Bool.and_eq_true, decide_eq_true_eq, Bool.not_eq_true', decide_eq_false_iff_not] at hf
        have hr' : r < nn := by simpa [Decl.size, hf.1] using hr
        refine same (fun h => absurd h hf.2) (fun _ h0 => hn ?_)
        subst h0
        exact List.mem_map.2 ⟨r, List.mem_range.2 hr', rfl⟩
      | one =>
        simp only [Pat.fits, Bool.not_eq_true', decide_eq_false_iff_not] at hf
        have hr' : r = 0 := by simpa [Decl.size, hf] using hr
        subst hr'
        have hc0 : c ≠ 0 := fun h => hn (by subst h; exact List.mem_singleton_self _)
        exact same (fun _ => hc0) (fun _ => hc0)
      | dense =>
        exact absurd (List.mem_flatMap.2 ⟨r, List.mem_range.2 hr, List.mem_map.2 ⟨c, List.mem_range.2 hc, rfl⟩⟩) hn
    · by_cases hx : (v.1 ∈ d.vecs ∧ c = r) ∨ (v.1 ∉ d.vecs ∧ c = 0)
      · unfold Decl.compute
        rw [← h4 _ hu (fun w => if w ∈ d.vecs then X w r else X w 0) x]
        congr 1
        funext w
        by_cases hw : w = v.1
        · subst hw
          rcases hx with ⟨hm, rfl⟩ | ⟨hm, rfl⟩ <;> simp [change, hm]
        · simp [change, hw]
      · refine same (fun hm hcr => hx (Or.inl ⟨hm, hcr⟩)) (fun hm hc0 => hx (Or.inr ⟨hm, hc0⟩))

/-- one goal per pair, each by evaluating the formula on both environments -/
macro "indep " d:ident c:ident : tactic => `(tactic|
  (repeat' first | refine List.forall_mem_cons.2 ⟨?_, ?_⟩ | exact List.forall_mem_nil _
   all_goals (intro e x; simp only [$d:ident, $c:ident, reduceIte, String.reduceEq]; try rfl)))

end Verif.Units
