import Verif.Model.MissionGroups
import Verif.Props.VectorComps
import Verif.Props.MulDiv

/-! Properties C21 - C24, C75: `mission_groups.py`. -/

namespace Verif.Mission

open Verif.AddIntegrand (Entry Args)
open Verif.VectorComps (AddSys MulSys VecSize)

/-! ### strings -/

theorem toString_inj {a b : ℕ} (h : toString a = toString b) : a = b := by
  have h1 : Nat.repr a = Nat.repr b := h
  have h2 : Nat.toDigits 10 a = Nat.toDigits 10 b := by
    rw [← Nat.toList_repr, ← Nat.toList_repr, h1]
  have := congrArg (fun l => Nat.ofDigitChars 10 l 0) h2
  simpa only [Nat.ofDigitChars_toDigits (by decide : 1 < 10) (le_refl 10)] using this

theorem append_cancel {a b c : String} (h : a ++ b = a ++ c) : b = c := by
  have := congrArg String.toList h
  rw [String.toList_append, String.toList_append] at this
  exact String.toList_inj.1 (List.append_cancel_left this)

theorem temp_inj {a b : ℕ} (h : temp a = temp b) : a = b := toString_inj (append_cancel h)

theorem add_ne_mult (a b : String) : "add" ++ a ≠ "mult" ++ b := by
  intro h
  have := congrArg String.toList h
  rw [String.toList_append, String.toList_append] at this
  simp at this

/-! ### C21 -/

variable {K : Type} [Field K]

/-- names a user must not give to subsystems of their own: those generated automatically -/
def AutoName (s : String) : Prop := ∃ k : ℕ, s = "add" ++ toString k ∨ s = "mult" ++ toString k

/-- names given by the user in a sequence of operations -/
def userNames : List (Op K) → List String
  | [] => []
  | .user n :: os => n :: userNames os
  | .add _ :: os => userNames os
  | .mult _ :: os => userNames os

/-- number of helper calls -/
def autoCalls : List (Op K) → ℕ
  | [] => 0
  | .user _ :: os => autoCalls os
  | .add _ :: os => autoCalls os + 1
  | .mult _ :: os => autoCalls os + 1

theorem run_ok (g : Group K) (ops : List (Op K))
    (hfresh : ∀ k ≥ g.nAuto, "add" ++ toString k ∉ g.subs ∧ "mult" ++ toString k ∉ g.subs)
    (hu : ∀ n ∈ userNames ops, ¬ AutoName n) (hud : (userNames ops).Nodup)
    (hug : ∀ n ∈ userNames ops, n ∉ g.subs) :
    ∃ g', run g ops = .ok g' ∧ g'.nAuto = g.nAuto + autoCalls ops ∧
      g'.autos.length = g.autos.length + autoCalls ops := by
  induction ops generalizing g with
  | nil => exact ⟨g, rfl, rfl, rfl⟩
  | cons o os ih =>
    cases o with
    | add c =>
      have h0 := (hfresh g.nAuto le_rfl).1
      simp only [run, step, if_neg h0]
      have hA : ∀ k ≥ g.nAuto + 1, "add" ++ toString k ∉ g.subs ++ ["add" ++ toString g.nAuto] ∧
          "mult" ++ toString k ∉ g.subs ++ ["add" ++ toString g.nAuto] := by
        intro k hk
        simp only [List.mem_append, List.mem_singleton, not_or]
        obtain ⟨ha, hm⟩ := hfresh k (by omega)
        refine ⟨⟨ha, fun h => ?_⟩, hm, fun h => add_ne_mult _ _ h.symm⟩
        have := toString_inj (append_cancel h)
        omega
      have hB : ∀ n ∈ userNames os, n ∉ g.subs ++ ["add" ++ toString g.nAuto] := by
        intro n hn
        simp only [List.mem_append, List.mem_singleton, not_or]
        exact ⟨hug n hn, fun h => hu n hn ⟨_, Or.inl h⟩⟩
      obtain ⟨g', h1, h2, h3⟩ := ih ⟨g.nAuto + 1, g.subs ++ ["add" ++ toString g.nAuto],
        g.autos ++ [("add" ++ toString g.nAuto, .add c.sys)], g.feeds ++ c.feeds ("add" ++ toString g.nAuto)⟩ hA hu hud hB
      refine ⟨g', h1, ?_, ?_⟩
      · rw [h2]; simp only [autoCalls]; omega
      · rw [h3]; simp only [autoCalls, List.length_append, List.length_singleton]; omega
    | mult c =>
      have h0 := (hfresh g.nAuto le_rfl).2
      simp only [run, step, if_neg h0]
      have hA : ∀ k ≥ g.nAuto + 1, "add" ++ toString k ∉ g.subs ++ ["mult" ++ toString g.nAuto] ∧
          "mult" ++ toString k ∉ g.subs ++ ["mult" ++ toString g.nAuto] := by
        intro k hk
        simp only [List.mem_append, List.mem_singleton, not_or]
        obtain ⟨ha, hm⟩ := hfresh k (by omega)
        refine ⟨⟨ha, fun h => add_ne_mult _ _ h⟩, hm, fun h => ?_⟩
        have := toString_inj (append_cancel h)
        omega
      have hB : ∀ n ∈ userNames os, n ∉ g.subs ++ ["mult" ++ toString g.nAuto] := by
        intro n hn
        simp only [List.mem_append, List.mem_singleton, not_or]
        exact ⟨hug n hn, fun h => hu n hn ⟨_, Or.inr h⟩⟩
      obtain ⟨g', h1, h2, h3⟩ := ih ⟨g.nAuto + 1, g.subs ++ ["mult" ++ toString g.nAuto],
        g.autos ++ [("mult" ++ toString g.nAuto, .mult c.sys)], g.feeds ++ [⟨"mult" ++ toString g.nAuto, "_temp", c.source⟩]⟩ hA hu hud hB
      refine ⟨g', h1, ?_, ?_⟩
      · rw [h2]; simp only [autoCalls]; omega
      · rw [h3]; simp only [autoCalls, List.length_append, List.length_singleton]; omega
    | user n =>
      have h0 := hug n (by simp [userNames])
      simp only [run, step, if_neg h0]
      simp only [userNames, List.nodup_cons] at hud
      have hA : ∀ k ≥ g.nAuto, "add" ++ toString k ∉ g.subs ++ [n] ∧ "mult" ++ toString k ∉ g.subs ++ [n] := by
        intro k hk
        have hn := hu n (by simp [userNames])
        simp only [List.mem_append, List.mem_singleton, not_or]
        exact ⟨⟨(hfresh k hk).1, fun h => hn ⟨k, Or.inl h.symm⟩⟩,
          (hfresh k hk).2, fun h => hn ⟨k, Or.inr h.symm⟩⟩
      have hB : ∀ m ∈ userNames os, m ∉ g.subs ++ [n] := by
        intro m hm
        simp only [List.mem_append, List.mem_singleton, not_or]
        refine ⟨hug m (by simp [userNames, hm]), ?_⟩
        rintro rfl
        exact hud.1 hm
      exact ih { g with subs := g.subs ++ [n] } hA (fun m hm => hu m (by simp [userNames, hm])) hud.2 hB

theorem run_nodup (g g' : Group K) (ops : List (Op K)) (h : run g ops = .ok g')
    (hg : g.subs.Nodup) (ha : (g.autos.map Prod.fst).Sublist g.subs) :
    g'.subs.Nodup ∧ (g'.autos.map Prod.fst).Sublist g'.subs := by
  induction ops generalizing g with
  | nil => simp only [run, Except.ok.injEq] at h; subst h; exact ⟨hg, ha⟩
  | cons o os ih =>
    have nd : ∀ {n : String}, n ∉ g.subs → (g.subs ++ [n]).Nodup := by
      intro n hn
      rw [List.nodup_append]
      refine ⟨hg, by simp, ?_⟩
      intro a ha b hb
      rw [List.mem_singleton] at hb
      rintro rfl
      exact hn (hb ▸ ha)
    cases o with
    | add c =>
      simp only [run, step] at h
      split_ifs at h with h0
      refine ih _ h (nd h0) ?_
      simp only [List.map_append, List.map_cons, List.map_nil]
      exact ha.append (List.Sublist.refl _)
    | mult c =>
      simp only [run, step] at h
      split_ifs at h with h0
      refine ih _ h (nd h0) ?_
      simp only [List.map_append, List.map_cons, List.map_nil]
      exact ha.append (List.Sublist.refl _)
    | user n =>
      simp only [run, step] at h
      split_ifs at h with h0
      exact ih _ h (nd h0) (ha.trans (List.sublist_append_left _ _))

/-- C21.  Whatever the order of helper calls and of the user's own subsystems (whose names are distinct
and are not of the form `add<n>`, `mult<n>`), no name clash occurs; one component is created per call
and all their names are different. -/
theorem C21_no_collision (ops : List (Op K)) (hu : ∀ n ∈ userNames ops, ¬ AutoName n)
    (hud : (userNames ops).Nodup) :
    ∃ g, run Group.init ops = .ok g ∧ g.autos.length = autoCalls ops ∧ (g.autos.map Prod.fst).Nodup ∧
      g.subs.Nodup := by
  obtain ⟨g, h1, -, h3⟩ := run_ok (Group.init : Group K) ops (by simp [Group.init]) hu hud (by simp [Group.init])
  obtain ⟨h4, h5⟩ := run_nodup _ _ ops h1 (by simp [Group.init]) (by simp [Group.init])
  refine ⟨g, h1, ?_, h5.nodup h4, h4⟩
  simpa [Group.init] using h3

/-- names of the created components, numbered by the call from `k` on -/
def createdNames (k : ℕ) : List (Op K) → List String
  | [] => []
  | .user _ :: os => createdNames k os
  | .add _ :: os => ("add" ++ toString k) :: createdNames (k + 1) os
  | .mult _ :: os => ("mult" ++ toString k) :: createdNames (k + 1) os

theorem run_names (g g' : Group K) (ops : List (Op K)) (h : run g ops = .ok g') :
    g'.autos.map Prod.fst = g.autos.map Prod.fst ++ createdNames g.nAuto ops := by
  induction ops generalizing g with
  | nil => simp only [run, Except.ok.injEq] at h; subst h; simp [createdNames]
  | cons o os ih =>
    cases o <;> simp only [run, step] at h <;> split_ifs at h <;> rw [ih _ h] <;> simp [createdNames]

/-- C21.  The component of the `k`-th helper call (counted from 0, sums and products together) is called `add<k>` or `mult<k>`, which is
the path under which the user finds it. -/
theorem C21_names (g : Group K) (ops : List (Op K)) (h : run Group.init ops = .ok g) :
    g.autos.map Prod.fst = createdNames 0 ops := by
  rw [run_names _ _ _ h]
  rfl

omit [Field K] in
theorem feed_source (c : AddCall K) (comp : String) (k : ℕ)
    (hk : k < c.sources.length + c.promotedSources.length) :
    ∃ s, (⟨comp, temp k, s⟩ : Feed) ∈ c.feeds comp ∧ s = (c.sources ++ c.promotedSources).getD k "" := by
  by_cases h : k < c.sources.length
  · refine ⟨c.sources[k], ?_, ?_⟩
    · unfold AddCall.feeds
      rw [List.mem_append, List.mem_map]; right
      rw [List.mem_map]
      exact ⟨(c.sources[k], k), by rw [List.mk_mem_zipIdx_iff_getElem?]; simp [h], rfl⟩
    · rw [List.getD_append _ _ _ _ h, List.getD_eq_getElem _ _ h]
  · have h2 : k - c.sources.length < c.promotedSources.length := by omega
    refine ⟨c.promotedSources[k - c.sources.length], ?_, ?_⟩
    · unfold AddCall.feeds
      rw [List.mem_append]; left
      rw [List.mem_map]
      refine ⟨(c.promotedSources[k - c.sources.length], k - c.sources.length), ?_, ?_⟩
      · rw [List.mk_mem_zipIdx_iff_getElem?]; simp [h2]
      · simp only
        rw [Nat.sub_add_cancel (by omega)]
    · rw [List.getD_append_right _ _ _ _ (by omega), List.getD_eq_getElem _ _ h2]

/-- C21.  The created sum component is fed so that its output is the sum of the (scaled) sources,
connected and promoted ones, whatever values `v` the variables of the group have; each input is fed by
exactly one variable. -/
theorem C21_sum (c : AddCall ℝ) (comp : String) (v : String → ℕ → ℕ → ℝ) (env : String → ℕ → ℕ → ℝ)
    (henv : ∀ f ∈ c.feeds comp, env f.input = v f.source) (i j : ℕ) (n : ℕ) (hn : n ≠ 1)
    (hv : c.vecSize = .all n) :
    ((c.feeds comp).map Feed.input).Nodup ∧
    c.sys.compute env i j = ∑ k : Fin (c.sources.length + c.promotedSources.length),
      (match c.factors with | none => 1 | some f => f.getD k 0) *
        v ((c.sources ++ c.promotedSources).getD k "") i j := by
  constructor
  · unfold AddCall.feeds
    rw [List.map_append, List.map_map, List.map_map, List.nodup_append]
    have e1 : (c.promotedSources.zipIdx.map (Feed.input ∘ fun p => (⟨comp, temp (p.2 + c.sources.length), p.1⟩ : Feed)))
        = (List.range c.promotedSources.length).map fun k => temp (k + c.sources.length) := by
      apply List.ext_getElem <;> simp
    have e2 : (c.sources.zipIdx.map (Feed.input ∘ fun p => (⟨comp, temp p.2, p.1⟩ : Feed)))
        = (List.range c.sources.length).map temp := by
      apply List.ext_getElem <;> simp
    rw [e1, e2]
    refine ⟨?_, ?_, ?_⟩
    · refine List.Nodup.map ?_ List.nodup_range
      intro a b h; have := temp_inj h; omega
    · exact List.Nodup.map (fun a b h => temp_inj h) List.nodup_range
    · intro a ha b hb hab
      simp only [List.mem_map, List.mem_range] at ha hb
      obtain ⟨x, hx, rfl⟩ := ha
      obtain ⟨y, hy, rfl⟩ := hb
      have := temp_inj hab
      omega
  · rw [Verif.VectorComps.C12_compute]
    have hlen : c.sys.inputs.length = c.sources.length + c.promotedSources.length := by
      simp [AddCall.sys]
    refine Fintype.sum_equiv (finCongr hlen) _ _ fun k => ?_
    have hk : (k : ℕ) < c.sources.length + c.promotedSources.length := hlen ▸ k.2
    obtain ⟨s, hs, he⟩ := feed_source c comp k hk
    have hin : c.sys.inputs[k] = temp k := by
      have h0 : c.sys.inputs = (List.range (c.sources.length + c.promotedSources.length)).map temp := rfl
      refine (List.getElem_of_eq h0 k.2).trans ?_
      simp
    have h1 := henv _ hs
    simp only at h1
    have hsz : c.sys.vecSize.get k = n := by simp [AddCall.sys, hv, VecSize.get]
    rw [hsz, if_neg hn, hin, h1, he]
    congr 1
    unfold AddSys.factors AddCall.sys
    cases c.factors with
    | none =>
      simp only [Option.getD_some, Option.getD_none]
      rw [List.getD_eq_getElem _ _ (by simpa using hk)]
      simp
    | some f => rfl

/-- interleaved helper calls and user subsystems -/
example : ∃ g, run (Group.init : Group ℚ)
    [.user "engine", .add ⟨["a.x", "b.x"], "x", ["y"], none, .all 5, none, 1⟩, .user "motor",
     .mult ⟨"motor.p", "p", 2, .all 5, some "kW", 1, none, none⟩] = .ok g ∧
     g.autos.map Prod.fst = ["add0", "mult1"] := ⟨_, rfl, by decide⟩

/-! ### C22 -/

/-- C22 (partial: the requested input unit is the unit of the output).  Then the input is registered
with the requested unit.  Full statement: for every `input_units`; false, see `C22_ignored`. -/
theorem C22_units_partial (c : MultCall ℝ) (u : Option String) (hin : c.inputUnits = some [u]) (h : u = c.units) :
    c.sys.units = [u] := by
  subst h; rfl

/-- C22 is false: the units requested for the input never have an effect, the unit registered is always
that of the argument `units`. -/
theorem C22_ignored (c : MultCall ℝ) (iu : Option (List (Option String))) :
    ({ c with inputUnits := iu } : MultCall ℝ).sys = c.sys ∧ c.sys.units = [c.units] := ⟨rfl, rfl⟩

/-- C22.  A request that is not honoured: input in `ft`, output in `m`. -/
theorem C22_witness : ∃ c : MultCall ℝ, c.inputUnits = some [some "ft"] ∧ c.sys.units ≠ [some "ft"] :=
  ⟨⟨"s", "o", 1, .all 1, some "m", 1, none, some [some "ft"]⟩, rfl, by
    simp [MultCall.sys, MulSys.units]⟩

/-- C22.  The product component multiplies its one input by the factor (or divides by it). -/
theorem C22_value (c : MultCall ℝ) (env : String → ℕ → ℕ → ℝ) (i j n : ℕ) (hn : n ≠ 1)
    (hv : c.vecSize = .all n) (hd : c.divide = none ∨ c.divide = some [false]) :
    c.sys.compute env i j = c.factor * env "_temp" i j := by
  rcases hd with h | h <;>
  simp [MultCall.sys, MulSys.compute, MulSys.read, MulSys.div, h, hv, VecSize.get, hn, mul_comm]

/-! ### C23 -/

/-- The tag set declares the value `v` for `kind`, once. -/
def Declares (tags : List (List Char)) (kind v : List Char) : Prop :=
  (kind ++ ':' :: v) ∈ tags ∧ ∀ t ∈ tags, t = kind ∨ (kind ++ [':']) <+: t → t = kind ++ ':' :: v

/-- The tag set says nothing for `kind`. -/
def Silent (tags : List (List Char)) (kind : List Char) : Prop :=
  ∀ t ∈ tags, ¬ (t = kind ∨ (kind ++ [':']) <+: t)

theorem tagKind_iff {t kind : List Char} (hk : ':' ∉ kind) :
    tagKind t = kind ↔ t = kind ∨ (kind ++ [':']) <+: t := by
  unfold tagKind
  induction kind generalizing t with
  | nil =>
    cases t with
    | nil => simp
    | cons c t =>
      by_cases hc : c = ':'
      · subst hc; simp
      · simp [hc, Ne.symm hc]
  | cons k kind ih =>
    have hk1 : k ≠ ':' := fun h => hk (by simp [h])
    have hk2 : ':' ∉ kind := fun h => hk (by simp [h])
    cases t with
    | nil => simp
    | cons c t =>
      by_cases hc : c = ':'
      · subst hc
        simp [Ne.symm hk1, hk1]
      · simp only [List.takeWhile_cons, ne_eq, hc, not_false_eq_true, decide_true, if_true,
          List.cons.injEq, List.cons_append, List.cons_prefix_cons]
        rw [ih hk2]
        constructor
        · rintro ⟨rfl, h | h⟩
          · left; exact ⟨rfl, h⟩
          · right; exact ⟨rfl, h⟩
        · rintro (⟨rfl, h⟩ | ⟨rfl, h⟩)
          · exact ⟨rfl, Or.inl h⟩
          · exact ⟨rfl, Or.inr h⟩

theorem tagValue_of {kind v : List Char} (hv : ':' ∉ v) : tagValue (kind ++ ':' :: v) = v := by
  unfold tagValue
  rw [List.reverse_append, List.reverse_cons, List.append_assoc]
  rw [List.takeWhile_append_of_pos]
  · simp
  · intro a ha
    simp only [ne_eq, decide_not, Bool.not_eq_eq_eq_not, Bool.not_true, decide_eq_false_iff_not]
    rintro rfl
    exact hv (by simpa using ha)

/-- a projection of the folded state is determined by the tags of its kind -/
theorem fold_proj {S A : Type} (stp : S → List Char → S) (proj : S → A) (kind : List Char)
    (f : List Char → A) (hstep : ∀ s t, proj (stp s t) = if tagKind t = kind then f t else proj s)
    (tags : List (List Char)) (s : S) (a : A)
    (h : ∀ t ∈ tags, tagKind t = kind → f t = a) :
    proj (tags.foldl stp s) = if ∃ t ∈ tags, tagKind t = kind then a else proj s := by
  induction tags generalizing s with
  | nil => simp
  | cons t ts ih =>
    rw [List.foldl_cons, ih _ (fun t' ht' => h t' (by simp [ht'])), hstep]
    by_cases h1 : tagKind t = kind
    · rw [if_pos h1, if_pos (⟨t, List.mem_cons_self, h1⟩ : ∃ t' ∈ t :: ts, tagKind t' = kind),
        h t List.mem_cons_self h1]
      split_ifs <;> rfl
    · rw [if_neg h1]
      congr 1
      apply propext
      constructor
      · rintro ⟨t', ht', e⟩; exact ⟨t', by simp [ht'], e⟩
      · rintro ⟨t', ht', e⟩
        rcases List.mem_cons.1 ht' with rfl | ht'
        · exact absurd e h1
        · exact ⟨t', ht', e⟩

theorem fold_declared {S A : Type} (stp : S → List Char → S) (proj : S → A) (kind : List Char)
    (hk : ':' ∉ kind) (f : List Char → A)
    (hstep : ∀ s t, proj (stp s t) = if tagKind t = kind then f (tagValue t) else proj s)
    (tags : List (List Char)) (s : S) :
    (∀ v, ':' ∉ v → Declares tags kind v → proj (tags.foldl stp s) = f v) ∧
    (Silent tags kind → proj (tags.foldl stp s) = proj s) := by
  constructor
  · rintro v hv ⟨hmem, huniq⟩
    rw [fold_proj stp proj kind (fun t => f (tagValue t)) hstep tags s (f v)]
    · rw [if_pos]
      exact ⟨_, hmem, (tagKind_iff hk).2 (Or.inr ⟨v, by simp⟩)⟩
    · intro t ht he
      rw [huniq t ht ((tagKind_iff hk).1 he), tagValue_of hv]
  · intro hs
    rw [fold_proj stp proj kind (fun t => f (tagValue t)) hstep tags s (proj s)]
    · simp
    · intro t ht he
      exact absurd ((tagKind_iff hk).1 he) (hs t ht)

/-- C23.  With at most one tag of a kind, the state's name, unit, initial value, bounds and promotion
are those declared by the tags, in whatever order the tag set is traversed; otherwise the defaults. -/
theorem C23_tags {V : Type} (ev : Eval V) (tags : List (List Char)) :
    let s := parseTags ev tags
    (∀ v, ':' ∉ v → Declares tags "state_name".toList v → s.name = some v) ∧
    (Silent tags "state_name".toList → s.name = none) ∧
    (∀ v, ':' ∉ v → Declares tags "state_units".toList v → s.units = some v) ∧
    (Silent tags "state_units".toList → s.units = none) ∧
    (∀ v, ':' ∉ v → Declares tags "state_val".toList v → s.val = ev.eval v) ∧
    (Silent tags "state_val".toList → s.val = ev.zero) ∧
    (∀ v, ':' ∉ v → Declares tags "state_lower".toList v → s.lower = ev.float v) ∧
    (Silent tags "state_lower".toList → s.lower = ev.minus) ∧
    (∀ v, ':' ∉ v → Declares tags "state_upper".toList v → s.upper = ev.float v) ∧
    (Silent tags "state_upper".toList → s.upper = ev.plus) ∧
    (∀ v, ':' ∉ v → Declares tags "state_promotes".toList v → s.promotes = ev.evalBool v) ∧
    (Silent tags "state_promotes".toList → s.promotes = false) := by
  intro s
  have n1 := fold_declared (applyTag ev) StateSpec.name "state_name".toList (by decide) some
    (by intro s t; unfold applyTag; split_ifs <;> simp_all) tags
    { name := none, units := none, val := ev.zero, lower := ev.minus, upper := ev.plus, promotes := false }
  have n2 := fold_declared (applyTag ev) StateSpec.units "state_units".toList (by decide) some
    (by intro s t; unfold applyTag; split_ifs <;> simp_all) tags
    { name := none, units := none, val := ev.zero, lower := ev.minus, upper := ev.plus, promotes := false }
  have n3 := fold_declared (applyTag ev) StateSpec.val "state_val".toList (by decide) ev.eval
    (by intro s t; unfold applyTag; split_ifs <;> simp_all) tags
    { name := none, units := none, val := ev.zero, lower := ev.minus, upper := ev.plus, promotes := false }
  have n4 := fold_declared (applyTag ev) StateSpec.lower "state_lower".toList (by decide) ev.float
    (by intro s t; unfold applyTag; split_ifs <;> simp_all) tags
    { name := none, units := none, val := ev.zero, lower := ev.minus, upper := ev.plus, promotes := false }
  have n5 := fold_declared (applyTag ev) StateSpec.upper "state_upper".toList (by decide) ev.float
    (by intro s t; unfold applyTag; split_ifs <;> simp_all) tags
    { name := none, units := none, val := ev.zero, lower := ev.minus, upper := ev.plus, promotes := false }
  have n6 := fold_declared (applyTag ev) StateSpec.promotes "state_promotes".toList (by decide) ev.evalBool
    (by intro s t; unfold applyTag; split_ifs <;> simp_all) tags
    { name := none, units := none, val := ev.zero, lower := ev.minus, upper := ev.plus, promotes := false }
  exact ⟨n1.1, n1.2, n2.1, n2.2, n3.1, n3.2, n4.1, n4.2, n5.1, n5.2, n6.1, n6.2⟩

/-- C23.  With two tags of one kind the outcome depends on the order in which the set is traversed. -/
theorem C23_order_dependent {V : Type} (ev : Eval V) :
    ∃ t₁ t₂ : List (List Char), t₁.Perm t₂ ∧ (parseTags ev t₁).name ≠ (parseTags ev t₂).name :=
  ⟨["state_name:a".toList, "state_name:b".toList], ["state_name:b".toList, "state_name:a".toList],
    List.Perm.swap _ _ _, by
      have h1 : (parseTags ev ["state_name:a".toList, "state_name:b".toList]).name = some "b".toList := rfl
      have h2 : (parseTags ev ["state_name:b".toList, "state_name:a".toList]).name = some "a".toList := rfl
      rw [h1, h2]; decide⟩

theorem mapM_ok {A B E : Type} (f : A → Except E B) (l : List A) (r : List B) :
    l.mapM f = .ok r ↔ List.Forall₂ (fun a b => f a = .ok b) l r := by
  induction l generalizing r with
  | nil =>
    rw [List.mapM_nil]
    constructor
    · intro h; cases h; exact .nil
    · intro h; cases h; rfl
  | cons a l ih =>
    rw [List.mapM_cons]
    constructor
    · intro h
      cases ha : f a with
      | error e => rw [ha] at h; cases h
      | ok b =>
        cases hl : l.mapM f with
        | error e => rw [ha, hl] at h; cases h
        | ok r' =>
          rw [ha, hl] at h
          cases h
          exact .cons ha ((ih _).1 hl)
    · intro h
      cases h with
      | cons ha hl =>
        rw [ha, (ih _).2 hl]
        rfl

/-- the tagged outputs the group has to integrate -/
def IsTagged (subs : List Sub) (sub : Sub) (o : OutVar) : Prop :=
  sub ∈ subs ∧ sub.isGroup = false ∧ o ∈ sub.outputs ∧ "integrate".toList ∈ o.tags

theorem mem_tagged (subs : List Sub) (p : String × OutVar) :
    p ∈ tagged subs ↔ ∃ sub o, IsTagged subs sub o ∧ p = (sub.name, o) := by
  unfold tagged IsTagged
  simp only [List.mem_flatMap, List.mem_filter, List.mem_map, Bool.not_eq_true', decide_eq_true_eq]
  constructor
  · rintro ⟨s, ⟨h1, h2⟩, o, ⟨h3, h4⟩, rfl⟩
    exact ⟨s, o, ⟨h1, h2, h3, h4⟩, rfl⟩
  · rintro ⟨s, o, ⟨h1, h2, h3, h4⟩, rfl⟩
    exact ⟨s, ⟨h1, h2⟩, o, ⟨h3, h4⟩, rfl⟩

/-- C23.  On success the integrands are in one-to-one correspondence, in order, with the tagged outputs:
each tagged output is the rate of exactly one integrand with the data of its tags, connected to it. -/
theorem C23_exactly_once {V : Type} (ev : Eval V) (subs : List Sub) (r : List (Integrand V))
    (h : configure ev subs = .ok r) :
    r.map Integrand.source = (tagged subs).map (fun p => (p.1, p.2.var)) ∧
    (∀ i ∈ r, i.rateName = i.source.2) ∧
    List.Forall₂ (fun p i => some i.stateName = (parseTags ev p.2.tags).name ∧
      i.units = (parseTags ev p.2.tags).units ∧ i.val = (parseTags ev p.2.tags).val ∧
      i.lower = (parseTags ev p.2.tags).lower ∧ i.upper = (parseTags ev p.2.tags).upper ∧
      i.promoted = (parseTags ev p.2.tags).promotes) (tagged subs) r := by
  unfold configure at h
  rw [mapM_ok] at h
  have key : ∀ (p : String × OutVar) (i : Integrand V), integrandOf ev p.1 p.2 = .ok i →
      i.source = (p.1, p.2.var) ∧ i.rateName = p.2.var ∧ some i.stateName = (parseTags ev p.2.tags).name ∧
      i.units = (parseTags ev p.2.tags).units ∧ i.val = (parseTags ev p.2.tags).val ∧
      i.lower = (parseTags ev p.2.tags).lower ∧ i.upper = (parseTags ev p.2.tags).upper ∧
      i.promoted = (parseTags ev p.2.tags).promotes := by
    intro p i hi
    unfold integrandOf at hi
    cases hn : (parseTags ev p.2.tags).name with
    | none => simp only [hn] at hi; cases hi
    | some n =>
      simp only [hn] at hi
      cases hi
      exact ⟨rfl, rfl, rfl, rfl, rfl, rfl, rfl, rfl⟩
  generalize tagged subs = l at h
  induction h with
  | nil => exact ⟨rfl, by simp, .nil⟩
  | cons ha _ ih =>
    obtain ⟨k1, k2, k3⟩ := key _ _ ha
    obtain ⟨i1, i2, i3⟩ := ih
    refine ⟨by rw [List.map_cons, List.map_cons, k1, i1], ?_, .cons k3 i3⟩
    intro i hi
    rcases List.mem_cons.1 hi with rfl | hi
    · rw [k2, k1]
    · exact i2 i hi

theorem mapM_error {A B E : Type} (f : A → Except E B) (l : List A) :
    (∃ e, l.mapM f = .error e) ↔ ∃ a ∈ l, ∃ e, f a = .error e := by
  induction l with
  | nil =>
    rw [List.mapM_nil]
    constructor
    · rintro ⟨e, h⟩; cases h
    · rintro ⟨a, h, -⟩; simp at h
  | cons a l ih =>
    rw [List.mapM_cons]
    cases ha : f a with
    | error e => exact ⟨fun _ => ⟨a, by simp, e, ha⟩, fun _ => ⟨e, rfl⟩⟩
    | ok b =>
      constructor
      · rintro ⟨e, h⟩
        cases hl : l.mapM f with
        | error e' =>
          obtain ⟨a', ha', e'', h'⟩ := ih.1 ⟨e', hl⟩
          exact ⟨a', by simp [ha'], e'', h'⟩
        | ok r' => rw [hl] at h; cases h
      · rintro ⟨a', ha', e', h'⟩
        rcases List.mem_cons.1 ha' with rfl | ha'
        · rw [ha] at h'; cases h'
        · obtain ⟨e, he⟩ := ih.2 ⟨a', ha', e', h'⟩
          rw [he]; exact ⟨e, rfl⟩

/-- C23.  Configuration fails exactly when some tagged output has no `state_name` tag. -/
theorem C23_missing_name {V : Type} (ev : Eval V) (subs : List Sub) :
    (∃ e, configure ev subs = .error e) ↔
      ∃ sub o, IsTagged subs sub o ∧ Silent o.tags "state_name".toList := by
  unfold configure
  rw [mapM_error]
  have key : ∀ (s : String) (o : OutVar), (∃ e, integrandOf ev s o = .error e) ↔ Silent o.tags "state_name".toList := by
    intro s o
    unfold integrandOf
    have hsil : (parseTags ev o.tags).name = none ↔ Silent o.tags "state_name".toList := by
      constructor
      · intro h t ht hk
        -- some tag sets the name, and later tags only overwrite it
        have : ∀ (tags : List (List Char)) (s : StateSpec V),
            (s.name ≠ none ∨ ∃ t ∈ tags, tagKind t = "state_name".toList) → (tags.foldl (applyTag ev) s).name ≠ none := by
          intro tags
          induction tags with
          | nil =>
            rintro s (h | ⟨t, ht, -⟩)
            · exact h
            · simp at ht
          | cons a tags ih =>
            intro s hs
            rw [List.foldl_cons]
            apply ih
            by_cases ha : tagKind a = "state_name".toList
            · left; unfold applyTag; rw [if_pos ha]; simp
            · rcases hs with h | ⟨t, ht, hk⟩
              · left; unfold applyTag; split_ifs <;> simp_all
              · rcases List.mem_cons.1 ht with rfl | ht
                · exact absurd hk ha
                · right; exact ⟨t, ht, hk⟩
        exact this o.tags _ (Or.inr ⟨t, ht, (tagKind_iff (by decide)).2 hk⟩) h
      · exact (C23_tags ev o.tags).2.1
    cases hn : (parseTags ev o.tags).name with
    | none => simpa [hn] using hsil.1 hn
    | some n =>
      have : ¬ Silent o.tags "state_name".toList := fun h => by rw [hsil.2 h] at hn; cases hn
      simp only [hn]
      constructor
      · rintro ⟨e, h⟩; cases h
      · intro h; exact absurd h this
  constructor
  · rintro ⟨p, hp, he⟩
    obtain ⟨sub, o, h1, rfl⟩ := (mem_tagged subs p).1 hp
    exact ⟨sub, o, h1, (key _ _).1 he⟩
  · rintro ⟨sub, o, h1, h2⟩
    exact ⟨(sub.name, o), (mem_tagged subs _).2 ⟨sub, o, h1, rfl⟩, (key _ _).2 h2⟩

/-- a tagged rate as written in the aircraft models -/
example : Declares ["integrate".toList, "state_name:fuel_used".toList, "state_units:kg".toList]
    "state_name".toList "fuel_used".toList ∧
    Silent ["integrate".toList, "state_name:fuel_used".toList, "state_units:kg".toList]
    "state_val".toList := by
  constructor
  · refine ⟨by decide, by decide⟩
  · unfold Silent; decide

/-! ### finding integrators, C75 -/

/-- `HasInteg ns s ns' inputs states`: in the system `s` whose path is `ns` there
is an integrator at path `ns'` -/
inductive HasInteg {β : Type} : String → Sys β → String → List String → List (Entry β) → Prop
  | here (ns name inputs states) : HasInteg ns (.integ name inputs states) ns inputs states
  | sub {ns name subs s ns' inputs states} : s ∈ subs →
      HasInteg (childNs ns s.name) s ns' inputs states → HasInteg ns (.group name subs) ns' inputs states

mutual
theorem findInteg_mem {β : Type} (dur ns : String) : (s : Sys β) → (∀ t, t ∈ (findInteg dur ns s).2 ↔
      ∃ ns' inputs states e, HasInteg ns s ns' inputs states ∧ e ∈ states ∧ t = tupleOf ns' e) ∧
    (∀ v, v ∈ (findInteg dur ns s).1 ↔
      ∃ ns' inputs states, HasInteg ns s ns' inputs states ∧ dur ∈ inputs ∧ v = ns' ++ "." ++ dur)
  | .group name subs => by
    have ih := findIntegs_mem dur ns subs
    rw [findInteg]
    constructor
    · intro t
      rw [ih.1]
      constructor
      · rintro ⟨s, hs, ns', i, st, e, h, h1, h2⟩; exact ⟨ns', i, st, e, .sub hs h, h1, h2⟩
      · rintro ⟨ns', i, st, e, h, h1, h2⟩
        cases h with
        | sub hs h => exact ⟨_, hs, ns', i, st, e, h, h1, h2⟩
    · intro v
      rw [ih.2]
      constructor
      · rintro ⟨s, hs, ns', i, st, h, h1⟩; exact ⟨ns', i, st, .sub hs h, h1⟩
      · rintro ⟨ns', i, st, h, h1⟩
        cases h with
        | sub hs h => exact ⟨_, hs, ns', i, st, h, h1⟩
  | .integ name inputs states => by
    rw [findInteg]
    constructor
    · intro t
      simp only [List.mem_map]
      constructor
      · rintro ⟨e, he, rfl⟩; exact ⟨ns, inputs, states, e, .here .., he, rfl⟩
      · rintro ⟨ns', i, st, e, h, h1, rfl⟩; cases h; exact ⟨e, h1, rfl⟩
    · intro v
      simp only [List.mem_map, List.mem_filter, beq_iff_eq]
      constructor
      · rintro ⟨x, ⟨hx, rfl⟩, rfl⟩; exact ⟨ns, inputs, states, .here .., hx, rfl⟩
      · rintro ⟨ns', i, st, h, h1, rfl⟩; cases h; exact ⟨dur, ⟨h1, rfl⟩, rfl⟩
  | .other name => by
    rw [findInteg]
    constructor
    · intro t
      constructor
      · intro h; simp at h
      · rintro ⟨ns', i, st, e, h, -⟩; cases h
    · intro v
      constructor
      · intro h; simp at h
      · rintro ⟨ns', i, st, h, -⟩; cases h
theorem findIntegs_mem {β : Type} (dur ns : String) : (l : List (Sys β)) → (∀ t, t ∈ (findIntegs dur ns l).2 ↔
      ∃ s ∈ l, ∃ ns' inputs states e, HasInteg (childNs ns s.name) s ns' inputs states ∧ e ∈ states ∧
        t = tupleOf ns' e) ∧
    (∀ v, v ∈ (findIntegs dur ns l).1 ↔
      ∃ s ∈ l, ∃ ns' inputs states, HasInteg (childNs ns s.name) s ns' inputs states ∧ dur ∈ inputs ∧
        v = ns' ++ "." ++ dur)
  | [] => by
    rw [findIntegs]; simp
  | s :: ss => by
    have h1 := findInteg_mem dur (childNs ns s.name) s
    have h2 := findIntegs_mem dur ns ss
    rw [findIntegs]
    constructor
    · intro t
      simp only [List.mem_append, h1.1, h2.1, List.mem_cons, exists_eq_or_imp]
    · intro v
      simp only [List.mem_append, h1.2, h2.2, List.mem_cons, exists_eq_or_imp]
end

/-- independent description: `IntegAt path s inputs states`: following the names `path` from the system `s` leads to an
integrator -/
inductive IntegAt {β : Type} : List String → Sys β → List String → List (Entry β) → Prop
  | here (name inputs states) : IntegAt [] (.integ name inputs states) inputs states
  | sub {name subs s path inputs states} : s ∈ subs → IntegAt path s inputs states →
      IntegAt (s.name :: path) (.group name subs) inputs states

/-- OpenMDAO's rule that subsystem names are not empty -/
inductive Named {β : Type} : Sys β → Prop
  | group (name subs) : (∀ s ∈ subs, s.name ≠ "") → (∀ s ∈ subs, Named s) → Named (.group name subs)
  | integ (name inputs states) : Named (.integ name inputs states)
  | other (name) : Named (.other name)

theorem childNs_ne {ns name : String} (h : name ≠ "") : childNs ns name ≠ "" := by
  unfold childNs
  split_ifs with h1
  · exact h
  · intro h2
    simp [String.append_eq_empty_iff] at h2

theorem hasInteg_path {β : Type} {ns : String} {s : Sys β} {ns' inputs states} (h : HasInteg ns s ns' inputs states)
    (hn : Named s) : ∃ p, IntegAt p s inputs states ∧
      ns' = if ns = "" then String.intercalate "." p else String.intercalate "." (ns :: p) := by
  induction h with
  | here ns name inputs states =>
    refine ⟨[], .here .., ?_⟩
    split_ifs with h
    · rw [h]; rfl
    · rfl
  | @sub ns name subs s ns' inputs states hs h ih =>
    cases hn with
    | group _ _ h1 h2 =>
      obtain ⟨p, hp, e⟩ := ih (h2 s hs)
      refine ⟨s.name :: p, .sub hs hp, ?_⟩
      rw [e, if_neg (childNs_ne (h1 s hs))]
      unfold childNs
      split_ifs with h
      · rfl
      · rfl

theorem path_hasInteg {β : Type} {s : Sys β} {p inputs states} (h : IntegAt p s inputs states) (hn : Named s) (ns : String) :
    HasInteg ns s (if ns = "" then String.intercalate "." p else String.intercalate "." (ns :: p)) inputs states := by
  induction h generalizing ns with
  | here name inputs states =>
    have e : (if ns = "" then String.intercalate "." [] else String.intercalate "." [ns]) = ns := by
      split_ifs with h
      · rw [h]; rfl
      · rfl
    rw [e]
    exact .here ..
  | @sub name subs s p inputs states hs h ih =>
    cases hn with
    | group _ _ h1 h2 =>
      refine .sub hs ?_
      have := ih (h2 s hs) (childNs ns s.name)
      rw [if_neg (childNs_ne (h1 s hs))] at this
      have e : String.intercalate "." (childNs ns s.name :: p)
          = if ns = "" then String.intercalate "." (s.name :: p) else String.intercalate "." (ns :: s.name :: p) := by
        unfold childNs
        split_ifs with h
        · rfl
        · rfl
      rw [← e]
      exact this

/-- C75.  The states known to a phase are exactly those registered with the integrators anywhere below
it, with their full paths: the dotted names from the phase to the integrator, then the variable. -/
theorem C75_states_found {β : Type} (phase : Sys β) (hn : Named phase) (t : StateTuple) :
    t ∈ (findInteg "duration" "" phase).2 ↔
      ∃ path inputs states e, IntegAt path phase inputs states ∧ e ∈ states ∧
        t.state = String.intercalate "." path ++ "." ++ e.name ∧
        t.start = String.intercalate "." path ++ "." ++ e.startName ∧
        t.final = String.intercalate "." path ++ "." ++ e.endName := by
  rw [(findInteg_mem "duration" "" phase).1 t]
  constructor
  · rintro ⟨ns, i, st, e, h, he, rfl⟩
    obtain ⟨p, hp, hq⟩ := hasInteg_path h hn
    rw [if_pos rfl] at hq
    exact ⟨p, i, st, e, hp, he, by rw [← hq]; rfl, by rw [← hq]; rfl, by rw [← hq]; rfl⟩
  · rintro ⟨p, i, st, e, hp, he, h1, h2, h3⟩
    have := path_hasInteg hp hn ""
    rw [if_pos rfl] at this
    refine ⟨_, i, st, e, this, he, ?_⟩
    cases t
    simp only at h1 h2 h3
    rw [h1, h2, h3]
    rfl

example (e : Entry ℕ) (x : Sys ℕ) (h : IntegAt ["a", "b"] x ["duration"] [e]) (hn : Named x) :
    (⟨"a.b." ++ e.name, "a.b." ++ e.startName, "a.b." ++ e.endName⟩ : StateTuple) ∈ (findInteg "duration" "" x).2 :=
  (C75_states_found x hn _).2 ⟨_, _, _, e, h, by simp, rfl, rfl, rfl⟩

theorem durationConns_spec (dur : String) (prom : String → String) (tv : List String) (done : List String)
    (hd : done.Nodup) (hdur : dur ∉ done) :
    let r := tv.foldl (fun done a => if prom a ≠ dur ∧ prom a ∉ done then done ++ [prom a] else done) done
    r.Nodup ∧ dur ∉ r ∧ ∀ p, p ∈ r ↔ p ∈ done ∨ (p ≠ dur ∧ ∃ a ∈ tv, p = prom a) := by
  induction tv generalizing done with
  | nil => simp [hd, hdur]
  | cons a tv ih =>
    intro r
    by_cases h : prom a ≠ dur ∧ prom a ∉ done
    · have hr : r = tv.foldl (fun done a => if prom a ≠ dur ∧ prom a ∉ done then done ++ [prom a] else done)
          (done ++ [prom a]) := by simp only [r, List.foldl_cons, if_pos h]
      have := ih (done ++ [prom a]) (by
        rw [List.nodup_append]
        refine ⟨hd, by simp, ?_⟩
        intro x hx y hy
        rw [List.mem_singleton] at hy
        rintro rfl
        exact h.2 (hy ▸ hx)) (by simp [hdur, Ne.symm h.1])
      rw [← hr] at this
      obtain ⟨h1, h2, h3⟩ := this
      refine ⟨h1, h2, fun p => ?_⟩
      rw [h3]
      simp only [List.mem_append, List.mem_cons, List.not_mem_nil, or_false, exists_eq_or_imp]
      constructor
      · rintro ((h4 | rfl) | ⟨h5, h6⟩)
        · exact Or.inl h4
        · exact Or.inr ⟨h.1, Or.inl rfl⟩
        · exact Or.inr ⟨h5, Or.inr h6⟩
      · rintro (h4 | ⟨h5, h6 | h6⟩)
        · exact Or.inl (Or.inl h4)
        · exact Or.inl (Or.inr h6)
        · exact Or.inr ⟨h5, h6⟩
    · have hr : r = tv.foldl (fun done a => if prom a ≠ dur ∧ prom a ∉ done then done ++ [prom a] else done)
          done := by simp only [r, List.foldl_cons, if_neg h]
      have := ih done hd hdur
      rw [← hr] at this
      obtain ⟨h1, h2, h3⟩ := this
      refine ⟨h1, h2, fun p => ?_⟩
      rw [h3]
      simp only [List.mem_cons, exists_eq_or_imp]
      constructor
      · rintro (h4 | ⟨h5, h6⟩)
        · exact Or.inl h4
        · exact Or.inr ⟨h5, Or.inr h6⟩
      · rintro (h4 | ⟨h5, h6 | h6⟩)
        · exact Or.inl h4
        · left
          by_contra hp
          exact h ⟨h6 ▸ h5, h6 ▸ hp⟩
        · exact Or.inr ⟨h5, h6⟩

/-- C75.  Every integrator below the phase that takes a duration gets the phase's: its input is either
promoted to it or connected to it, and no input is connected twice. -/
theorem C75_duration {β : Type} (phase : Sys β) (hn : Named phase) (prom : String → String) :
    let conns := durationConns "duration" prom (findInteg "duration" "" phase).1
    conns.Nodup ∧ "duration" ∉ conns ∧
    (∀ path inputs states, IntegAt path phase inputs states → "duration" ∈ inputs →
      prom (String.intercalate "." path ++ ".duration") = "duration" ∨
      prom (String.intercalate "." path ++ ".duration") ∈ conns) ∧
    ∀ c ∈ conns, ∃ path inputs states, IntegAt path phase inputs states ∧ "duration" ∈ inputs ∧
      c = prom (String.intercalate "." path ++ ".duration") := by
  intro conns
  obtain ⟨h1, h2, h3⟩ := durationConns_spec "duration" prom (findInteg "duration" "" phase).1 [] (by simp) (by simp)
  refine ⟨h1, h2, ?_, ?_⟩
  · intro path inputs states hat hd
    have h := path_hasInteg hat hn ""
    rw [if_pos rfl] at h
    generalize String.intercalate "." path = ns at *
    by_cases hp : prom (ns ++ ".duration") = "duration"
    · exact Or.inl hp
    · right
      apply (h3 _).2
      right
      refine ⟨hp, ns ++ ".duration", ?_, rfl⟩
      apply ((findInteg_mem "duration" "" phase).2 _).2
      exact ⟨ns, inputs, states, h, hd, by rw [String.append_assoc]; rfl⟩
  · intro c hc
    rcases (h3 c).1 hc with h | ⟨_, a, ha, rfl⟩
    · simp at h
    · obtain ⟨ns, i, st, h, hd, rfl⟩ := ((findInteg_mem "duration" "" phase).2 a).1 ha
      obtain ⟨p, hp, hq⟩ := hasInteg_path h hn
      rw [if_pos rfl] at hq
      exact ⟨p, i, st, hp, hd, by rw [← hq, String.append_assoc]; rfl⟩

/-! ### C24 -/

/-- Values of the variables satisfy a list of connections between promoted names: every input promoted to
a connected target has the value of every output promoted to its source. -/
def Satisfies {R : Type} (out inp : String → Option String) (conns : List (String × String))
    (v : String → R) : Prop :=
  ∀ c ∈ conns, ∀ a b, out a = some c.1 → inp b = some c.2 → v b = v a

section
variable (path : String → String) (out inp : String → Option String)
    (removeFirst : String → String → String)

theorem link_mem (p1 p2 : Phase) (skip : List String) (conns : List (String × String))
    (h : linkPhases path out inp removeFirst p1 p2 skip = .ok conns) (t : StateTuple) (ht : t ∈ p1.states) :
    ∃ c, linkState path out inp removeFirst p1 p2 skip t = .ok c ∧ ∀ x ∈ c, x ∈ conns := by
  unfold linkPhases at h
  cases hm : p1.states.mapM (linkState path out inp removeFirst p1 p2 skip) with
  | error e => rw [hm] at h; cases h
  | ok r =>
    rw [hm] at h
    cases h
    rw [mapM_ok] at hm
    obtain ⟨c, hc, hct⟩ : ∃ c ∈ r, linkState path out inp removeFirst p1 p2 skip t = .ok c := by
      generalize p1.states = l at hm ht
      induction hm with
      | nil => simp at ht
      | cons ha _ ih =>
        rcases List.mem_cons.1 ht with rfl | ht
        · exact ⟨_, by simp, ha⟩
        · obtain ⟨c, h1, h2⟩ := ih ht
          exact ⟨c, by simp [h1], h2⟩
    exact ⟨c, hct, fun x hx => List.mem_flatten.2 ⟨c, hc, hx⟩⟩

/-- C24 (partial: both phases use the same name for the initial value of the state).  After a successful
link, a shared state that is not skipped starts in phase 2 with its final value of phase 1.
Full statement: without `hstart`; false, see `C24_wrong_start`. -/
theorem C24_continuity_partial {R : Type} (p1 p2 : Phase) (skip : List String) (conns : List (String × String))
    (h : linkPhases path out inp removeFirst p1 p2 skip = .ok conns) (v : String → R)
    (hv : Satisfies out inp conns v) (t1 t2 : StateTuple) (h1 : t1 ∈ p1.states) (h2 : t2 ∈ p2.states)
    (hst : t1.state = t2.state) (hstart : t1.start = t2.start)
    (hs1 : t1.state ∉ skip)
    (hs2 : ∀ prom, out (path (p1.name ++ "." ++ t1.state)) = some prom → stripPhase removeFirst p1.name prom ∉ skip) :
    v (path (p2.name ++ "." ++ t2.start)) = v (path (p1.name ++ "." ++ t1.final)) := by
  obtain ⟨c, hc, hsub⟩ := link_mem path out inp removeFirst p1 p2 skip conns h t1 h1
  unfold linkState at hc
  rw [if_pos (by rw [hst]; exact List.mem_map_of_mem h2)] at hc
  cases ho : out (path (p1.name ++ "." ++ t1.state)) with
  | none => simp only [ho] at hc; cases hc
  | some prom =>
    simp only [ho] at hc
    rw [if_pos ⟨hs1, hs2 prom ho⟩] at hc
    cases he : out (path (p1.name ++ "." ++ t1.final)) with
    | none => simp only [he] at hc; cases hc
    | some a =>
      cases hi : inp (path (p2.name ++ "." ++ t1.start)) with
      | none => simp only [he, hi] at hc; cases hc
      | some b =>
        simp only [he, hi] at hc
        cases hc
        rw [← hstart]
        exact hv (a, b) (hsub _ (by simp)) _ _ he hi

/-- C24.  When linking works: every state of phase 1 shared with phase 2 has its history, final value and
(under phase 1's name for it) initial value registered. -/
theorem C24_link_succeeds (p1 p2 : Phase) (skip : List String)
    (h : ∀ t ∈ p1.states, t.state ∈ p2.states.map StateTuple.state →
      (∃ a, out (path (p1.name ++ "." ++ t.state)) = some a) ∧
      (∃ a, out (path (p1.name ++ "." ++ t.final)) = some a) ∧
      ∃ a, inp (path (p2.name ++ "." ++ t.start)) = some a) :
    ∃ conns, linkPhases path out inp removeFirst p1 p2 skip = .ok conns := by
  unfold linkPhases
  cases hm : p1.states.mapM (linkState path out inp removeFirst p1 p2 skip) with
  | ok r => exact ⟨_, rfl⟩
  | error e =>
    exfalso
    obtain ⟨t, ht, e', he⟩ := (mapM_error _ _).1 ⟨e, hm⟩
    unfold linkState at he
    split_ifs at he with h1
    obtain ⟨⟨a, ha⟩, ⟨b, hb⟩, c, hc⟩ := h t ht h1
    simp only [ha, hb, hc] at he
    split_ifs at he

/-- C24.  Linking fails (with an exception that is not meant for the user) when a shared state is stored
only by its final value in phase 1, even if the state is to be skipped. -/
theorem C24_final_only_fails (p1 p2 : Phase) (skip : List String) (t : StateTuple) (ht : t ∈ p1.states)
    (hs : t.state ∈ p2.states.map StateTuple.state)
    (ho : out (path (p1.name ++ "." ++ t.state)) = none) :
    ∃ e, linkPhases path out inp removeFirst p1 p2 skip = .error e := by
  unfold linkPhases
  obtain ⟨e, he⟩ := (mapM_error (linkState path out inp removeFirst p1 p2 skip) p1.states).2
    ⟨t, ht, .noneStartswith, by unfold linkState; rw [if_pos hs]; simp only [ho]⟩
  rw [he]; exact ⟨e, rfl⟩

/-- C24.  Linking fails when the state has no initial value input in phase 2 (`zero_start`). -/
theorem C24_zero_start_fails (p1 p2 : Phase) (skip : List String) (t : StateTuple) (ht : t ∈ p1.states)
    (hs : t.state ∈ p2.states.map StateTuple.state) (hs1 : t.state ∉ skip)
    (hs2 : ∀ prom, out (path (p1.name ++ "." ++ t.state)) = some prom → stripPhase removeFirst p1.name prom ∉ skip)
    (hi : inp (path (p2.name ++ "." ++ t.start)) = none) :
    ∃ e, linkPhases path out inp removeFirst p1 p2 skip = .error e := by
  unfold linkPhases
  have : ∃ e, linkState path out inp removeFirst p1 p2 skip t = .error e := by
    unfold linkState
    rw [if_pos hs]
    cases ho : out (path (p1.name ++ "." ++ t.state)) with
    | none => exact ⟨_, rfl⟩
    | some prom =>
      simp only [hi]
      rw [if_pos ⟨hs1, hs2 prom ho⟩]
      cases out (path (p1.name ++ "." ++ t.final)) <;> exact ⟨_, rfl⟩
  obtain ⟨e, he⟩ := (mapM_error (linkState path out inp removeFirst p1 p2 skip) p1.states).2
    ⟨t, ht, this⟩
  rw [he]; exact ⟨e, rfl⟩

/-- C24.  Arguments that are not phases are rejected, phases are queued. -/
theorem C24_rejects (b1 b2 : Bool) (queue : List (Phase × Phase × List String)) (l) :
    (requestLink b1 b2 queue l = .error .notPhase ↔ ¬ (b1 = true ∧ b2 = true)) ∧
    (b1 = true → b2 = true → requestLink b1 b2 queue l = .ok (queue ++ [l])) := by
  unfold requestLink
  constructor
  · split_ifs with h
    · simpa using h
    · simpa using h
  · intro h1 h2
    rw [if_neg]; simp [h1, h2]

/-- C24.  In a chain of phases, each linked to the next, a state is carried through all of them: if
over phase `k` the state changes by `delta k`, its final value in the last phase is its initial value in
the first plus the sum of the changes. -/
theorem C24_chain (n : ℕ) (p : ℕ → Phase) (t : ℕ → StateTuple) (skip : ℕ → List String)
    (conns : ℕ → List (String × String)) (v : String → ℝ) (delta : ℕ → ℝ)
    (hl : ∀ k < n, linkPhases path out inp removeFirst (p k) (p (k + 1)) (skip k) = .ok (conns k))
    (hv : ∀ k < n, Satisfies out inp (conns k) v)
    (ht : ∀ k ≤ n, t k ∈ (p k).states)
    (hst : ∀ k < n, (t k).state = (t (k + 1)).state ∧ (t k).start = (t (k + 1)).start)
    (hs : ∀ k < n, (t k).state ∉ skip k ∧ ∀ prom, out (path ((p k).name ++ "." ++ (t k).state)) = some prom →
      stripPhase removeFirst (p k).name prom ∉ skip k)
    (hd : ∀ k ≤ n, v (path ((p k).name ++ "." ++ (t k).final))
      = v (path ((p k).name ++ "." ++ (t k).start)) + delta k) :
    v (path ((p n).name ++ "." ++ (t n).final))
      = v (path ((p 0).name ++ "." ++ (t 0).start)) + ∑ k ∈ Finset.range (n + 1), delta k := by
  induction n with
  | zero => simpa using hd 0 le_rfl
  | succ n ih =>
    have ih' := ih (fun k hk => hl k (by omega)) (fun k hk => hv k (by omega)) (fun k hk => ht k (by omega))
      (fun k hk => hst k (by omega)) (fun k hk => hs k (by omega)) (fun k hk => hd k (by omega))
    have hc := C24_continuity_partial path out inp removeFirst (p n) (p (n + 1)) (skip n) (conns n)
      (hl n (by omega)) v (hv n (by omega)) (t n) (t (n + 1)) (ht n (by omega)) (ht (n + 1) le_rfl)
      (hst n (by omega)).1 (hst n (by omega)).2 (hs n (by omega)).1 (hs n (by omega)).2
    rw [hd (n + 1) le_rfl, hc, ih', Finset.sum_range_succ (n := n + 1)]
    ring
end

/-- phases with a fuel state whose initial value is called differently -/
def demoP1 : Phase := ⟨"climb", [⟨"integ.fuel", "integ.fuel_initial", "integ.fuel_final"⟩]⟩
def demoP2 : Phase := ⟨"cruise", [⟨"integ.fuel", "integ.fuel0", "integ.fuel_final"⟩]⟩
def demoP3 : Phase := ⟨"cruise", [⟨"integ.fuel", "integ.fuel_initial", "integ.fuel_final"⟩]⟩

/-- nothing is promoted: every registered variable has its own name -/
def demoOut : String → Option String := some
def demoIn (s : String) : Option String :=
  if s = "climb.integ.fuel_initial" ∨ s = "cruise.integ.fuel0" then some s else none

/-- C24 is false when the second phase names the initial value of the state differently: the first
phase's name is used and linking fails. -/
theorem C24_wrong_start : ∃ t2 ∈ demoP2.states, t2.state = "integ.fuel" ∧
    demoIn ("cruise." ++ t2.start) ≠ none ∧
    ∃ e, linkPhases id demoOut demoIn (fun s _ => s) demoP1 demoP2 [] = .error e :=
  ⟨⟨"integ.fuel", "integ.fuel0", "integ.fuel_final"⟩, by decide, rfl, by decide, .connectNone, rfl⟩

/-- a successful link -/
example : ∃ conns, linkPhases id some some (fun s _ => s) demoP1 demoP3 [] = .ok conns ∧
    conns = [("climb.integ.fuel_final", "cruise.integ.fuel_initial")] := ⟨_, rfl, rfl⟩

end Verif.Mission
