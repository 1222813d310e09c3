import Verif.Model.DerivComp
import Verif.Props.Derivatives
import Verif.Props.AddIntegrand

/-! Property C109: variables, units and named time steps of the component `FirstDerivative`. -/

namespace Verif.Derivatives

open Verif.AddIntegrand (Denotes)
open Polynomial

variable {G : Type} [CommGroup G]

/-- meaning of a unit option: `None` is dimensionless -/
def UnitIs (base : String → Option G) (u : Option String) (g : G) : Prop :=
  match u with
  | none => g = 1
  | some s => Denotes base s g

/-- C109.  The unit of `dqdt` is that of `q` over that of the time step, whichever are given. -/
theorem C109_units (base : String → Option G) (o : DOpts) (gq gd : G) (hq : UnitIs base o.quantityUnits gq)
    (hd : UnitIs base o.diffUnits gd) :
    UnitIs base o.output.units (gq / gd) ∧ (∀ v ∈ o.inputs, v.name = "q" → UnitIs base v.units gq) ∧
    ∀ n ∈ o.dtNames, (⟨n, 1, o.diffUnits⟩ : DVar) ∈ o.inputs := by
  refine ⟨?_, ?_, ?_⟩
  · obtain ⟨s, u, d, n, k⟩ := o
    cases u <;> cases d <;> simp only [UnitIs, DOpts.output, DOpts.derivUnits] at *
    · rw [hq, hd, div_one]
    · subst hq; rw [one_div]; exact .inv hd
    · subst hd; rw [div_one]; exact hq
    · exact .quot hq hd
  · intro v hv hn
    simp only [DOpts.inputs, List.mem_cons, List.mem_map] at hv
    rcases hv with rfl | ⟨a, ha, rfl⟩
    · exact hq
    · exfalso
      simp only at hn
      subst hn
      unfold DOpts.dtNames at ha
      cases hs : o.segments with
      | none => rw [hs] at ha; simp at ha
      | some l =>
        rw [hs] at ha
        simp only [List.mem_map] at ha
        obtain ⟨x, -, hx⟩ := ha
        have := congrArg String.length hx
        rw [String.length_append] at this
        have h3 : ("|dt" : String).length = 3 := by decide
        have h1 : ("q" : String).length = 1 := by decide
        omega
  · intro n hn
    simp only [DOpts.inputs, List.mem_cons, List.mem_map]
    exact Or.inr ⟨n, hn, rfl⟩

theorem append_dt_inj {a b : String} (h : a ++ "|dt" = b ++ "|dt") : a = b := by
  have := congrArg String.toList h
  simp only [String.toList_append] at this
  exact String.toList_inj.1 (List.append_cancel_right this)

theorem suffix_ne (x : String) {s : String} (hs : s.toList.getLast? ≠ some 't' ∨ s.length < 3) : x ++ "|dt" ≠ s := by
  intro h
  rcases hs with hs | hs
  · apply hs
    rw [← h, String.toList_append]
    simp
  · have := congrArg String.length h
    rw [String.length_append] at this
    have h3 : ("|dt" : String).length = 3 := by decide
    omega

/-- C109.  The component is set up exactly for an accepted order and number of intervals and segment names without
repetition, unless a segment has a name for which `segment|dt` is the name of the quantity or the output (there is none). -/
theorem C109_setup (o : DOpts) :
    (∃ r, o.setup = .ok r) ↔
      ((o.order = 4 ∧ 2 ≤ o.numIntervals) ∨ (o.order = 2 ∧ 1 ≤ o.numIntervals)) ∧ ∀ l, o.segments = some l → l.Nodup := by
  have names : (o.output.name :: o.inputs.map DVar.name).Nodup ↔ ∀ l, o.segments = some l → l.Nodup := by
    have e : o.output.name :: o.inputs.map DVar.name = "dqdt" :: "q" :: o.dtNames := by
      simp [DOpts.output, DOpts.inputs, Function.comp_def]
    rw [e]
    unfold DOpts.dtNames
    cases o.segments with
    | none => simp
    | some l =>
      have hq : "q" ∉ l.map (· ++ "|dt") := by
        simp only [List.mem_map, not_exists, not_and]
        intro x _ hx
        exact suffix_ne x (Or.inr (by decide)) hx
      have hd : "dqdt" ∉ l.map (· ++ "|dt") := by
        simp only [List.mem_map, not_exists, not_and]
        intro x _ hx
        have := congrArg String.toList hx
        rw [String.toList_append] at this
        have h2 := congrArg (fun l => l.reverse[2]?) this
        simp at h2
      simp only [List.nodup_cons, List.mem_cons, not_or, Option.some.injEq, forall_eq']
      constructor
      · intro h
        exact List.Nodup.of_map _ h.2.2
      · intro h
        exact ⟨⟨by decide, hd⟩, hq, h.map fun a b hab => append_dt_inj hab⟩
  unfold DOpts.setup
  constructor
  · rintro ⟨r, hr⟩
    cases hc : firstDerivCheck o.order o.nSeg o.numIntervals (o.nSeg * (2 * o.numIntervals + 1)) o.nSeg with
    | error e => rw [hc] at hr; cases hr
    | ok ord =>
      rw [hc] at hr
      simp only at hr
      split_ifs at hr with h
      refine ⟨?_, names.1 h⟩
      unfold firstDerivCheck at hc
      split_ifs at hc with h1 h2 h3 h4 h5 h6
      · exact Or.inl ⟨h4, by omega⟩
      · exact Or.inr ⟨h5, by omega⟩
  · rintro ⟨h1, h2⟩
    obtain ⟨ord, hc, -⟩ := (C10_validation o.order o.nSeg o.numIntervals (o.nSeg * (2 * o.numIntervals + 1)) o.nSeg).2
      ⟨rfl, rfl, h1⟩
    exact ⟨(o.inputs, o.output), by rw [hc]; simp only [names.2 h2, if_true]⟩

example : ∃ r, DOpts.setup ⟨some ["climb", "cruise"], some "m/s", some "s", 5, 4⟩ = .ok r :=
  (C109_setup _).2 ⟨Or.inl ⟨rfl, by norm_num⟩, by rintro l ⟨⟩; decide⟩

/-- C109.  For a component that was set up, sizes agree: the number of time steps is that of the segments, and quantity and
derivative have one entry per segment and node. -/
theorem C109_sizes (o : DOpts) :
    o.dtNames.length = o.nSeg ∧ o.output.size = o.nSeg * (2 * o.numIntervals + 1) ∧
    (∀ v ∈ o.inputs, v.name ∈ o.dtNames → v.size = 1) ∧ ∃ v ∈ o.inputs, v.name = "q" ∧ v.size = o.output.size := by
  refine ⟨?_, rfl, ?_, _, List.mem_cons_self, rfl, rfl⟩
  · unfold DOpts.dtNames DOpts.nSeg
    cases o.segments <;> simp
  · intro v hv hn
    simp only [DOpts.inputs, List.mem_cons, List.mem_map] at hv
    rcases hv with rfl | ⟨a, ha, rfl⟩
    · exfalso
      simp only at hn
      unfold DOpts.dtNames at hn
      cases hs : o.segments with
      | none => rw [hs] at hn; simp at hn
      | some l =>
        rw [hs] at hn
        simp only [List.mem_map] at hn
        obtain ⟨x, -, hx⟩ := hn
        exact suffix_ne x (Or.inr (by decide)) hx
    · rfl

theorem dtNames_nodup {o : DOpts} {r : List DVar × DVar} (h : o.setup = .ok r) : o.dtNames.Nodup := by
  have := ((C109_setup o).1 ⟨r, h⟩).2
  unfold DOpts.dtNames
  cases hs : o.segments with
  | none => simp
  | some l => exact (this l hs).map fun a b hab => append_dt_inj hab

/-- C109.  The derivative of each segment is taken with the time step of the input that carries its name: polynomials of degree
four are differentiated exactly on every segment. -/
theorem C109_exact (o : DOpts) (hn : 2 ≤ o.numIntervals) (env : String → ℝ)
    (he : ∀ n ∈ o.dtNames, env n ≠ 0) (p : Fin o.dtNames.length → ℝ[X]) (hp : ∀ i, (p i).natDegree ≤ 4)
    (t0 : Fin o.dtNames.length → ℝ) (i : Fin o.dtNames.length) (a : Fin (2 * o.numIntervals + 1)) :
    o.compute .four env (fun j b => (p j).eval (t0 j + (b : ℕ) * env (o.dtNames.get j))) i a
      = (p i).derivative.eval (t0 i + (a : ℕ) * env (o.dtNames.get i)) :=
  C09_order4_exact hn (o.dts env) (fun _ => he _ (List.get_mem _ _)) p hp t0 i a

/-- C109.  The partial stored under the name of a time step is the derivative with respect to the input of that name: other
segments do not react. -/
theorem C109_jacobian (o : DOpts) {r : List DVar × DVar} (hs : o.setup = .ok r) (ord : Order) (env : String → ℝ)
    (he : ∀ n ∈ o.dtNames, env n ≠ 0) (q : Fin o.dtNames.length → Fin (2 * o.numIntervals + 1) → ℝ)
    (k i : Fin o.dtNames.length) (a : Fin (2 * o.numIntervals + 1)) :
    HasDerivAt (fun x => o.compute ord (Function.update env (o.dtNames.get k) x) q i a) (o.jacDt ord env q k i a)
      (env (o.dtNames.get k)) := by
  have hu : ∀ x, o.dts (Function.update env (o.dtNames.get k) x) = Function.update (o.dts env) k x := by
    intro x
    funext j
    simp only [DOpts.dts, Function.update_apply]
    by_cases h : j = k
    · simp [h]
    · have : o.dtNames.get j ≠ o.dtNames.get k := fun e => h ((List.nodup_iff_injective_get.1 (dtNames_nodup hs)) e)
      simp only [h, if_false]
      rw [if_neg this]
  simp only [DOpts.compute, hu]
  exact C10_partial_dt ord (o.dts env) (fun _ => he _ (List.get_mem _ _)) q i k a

/-- two segments with steps 1 and 2 -/
example : HasDerivAt (fun x => DOpts.compute ⟨some ["a", "b"], none, none, 2, 4⟩ .four
      (Function.update (fun n => if n = "a|dt" then (1 : ℝ) else 2) "b|dt" x) (fun _ b => (b : ℕ)) ⟨1, by decide⟩ 0)
    (DOpts.jacDt ⟨some ["a", "b"], none, none, 2, 4⟩ .four (fun n => if n = "a|dt" then (1 : ℝ) else 2) (fun _ b => (b : ℕ))
      ⟨1, by decide⟩ ⟨1, by decide⟩ 0)
    2 := by
  obtain ⟨r, hr⟩ := (C109_setup ⟨some ["a", "b"], none, none, 2, 4⟩).2
    ⟨Or.inl ⟨rfl, le_refl 2⟩, by rintro l ⟨⟩; decide⟩
  exact C109_jacobian _ hr .four (fun n => if n = "a|dt" then (1 : ℝ) else 2)
    (by intro n _; show (if n = "a|dt" then (1 : ℝ) else 2) ≠ 0; split_ifs <;> norm_num) _ ⟨1, by decide⟩ ⟨1, by decide⟩ 0

end Verif.Derivatives
