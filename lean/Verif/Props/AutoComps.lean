import Verif.Props.MissionGroups

/-! Properties C21, C22 and C24: what the created components compute in the group, and lists of links. -/

namespace Verif.Mission

open Verif.VectorComps (AddSys MulSys VecSize)

/-! ### C21, C22: from the calls to the values -/

section
variable {K : Type} [Field K]

theorem run_append (g : Group K) (a b : List (Op K)) :
    run g (a ++ b) = match run g a with
      | .error e => .error e
      | .ok g' => run g' b := by
  induction a generalizing g with
  | nil => rfl
  | cons o os ih =>
    simp only [List.cons_append, run]
    cases step g o with
    | error e => rfl
    | ok g' => exact ih g'

/-- nothing that was created or connected is lost -/
theorem run_mono (g g' : Group K) (ops : List (Op K)) (h : run g ops = .ok g') :
    (∀ x ∈ g.autos, x ∈ g'.autos) ∧ (∀ x ∈ g.feeds, x ∈ g'.feeds) ∧ g'.nAuto = g.nAuto + autoCalls ops := by
  induction ops generalizing g with
  | nil => simp only [run, Except.ok.injEq] at h; subst h; exact ⟨fun _ => id, fun _ => id, rfl⟩
  | cons o os ih =>
    cases o <;> simp only [run, step] at h <;> split_ifs at h <;> obtain ⟨h1, h2, h3⟩ := ih _ h <;>
      refine ⟨fun x hx => h1 x (by simp [hx]), fun x hx => h2 x (by simp [hx]), ?_⟩ <;> simp only [autoCalls, h3] <;> omega

end

/-- the values inside the created components agree with the connections and promotions of the group; `env comp x` is the input `x` of
the component `comp`, `v` are the variables of the group -/
def Fed (g : Group ℝ) (env : String → String → ℕ → ℕ → ℝ) (v : String → ℕ → ℕ → ℝ) : Prop :=
  ∀ f ∈ g.feeds, env f.comp f.input = v f.source

/-- C21.  After any successful sequence of calls the group contains, for each call of `promote_add`, a component that publishes, under
the name, units and shape asked for, the scaled sum of the variables named in this very call. -/
theorem C21_value (pre post : List (Op ℝ)) (c : AddCall ℝ) (g : Group ℝ) (h : run Group.init (pre ++ .add c :: post) = .ok g)
    (env : String → String → ℕ → ℕ → ℝ) (v : String → ℕ → ℕ → ℝ) (hf : Fed g env v) (n : ℕ) (hn : n ≠ 1) (hv : c.vecSize = .all n) :
    ∃ s, ("add" ++ toString (autoCalls pre), Auto.add s) ∈ g.autos ∧
      s.register.output = ⟨c.promName, n, c.length, c.units, ""⟩ ∧
      (∀ x ∈ s.register.inputs, x.units = c.units ∧ x.rows = n ∧ x.length = c.length) ∧
      ∀ i j, s.compute (env ("add" ++ toString (autoCalls pre))) i j = ∑ k : Fin (c.sources.length + c.promotedSources.length),
        (match c.factors with | none => 1 | some f => f.getD k 0) * v ((c.sources ++ c.promotedSources).getD k "") i j := by
  rw [run_append] at h
  cases h1 : run Group.init pre with
  | error e => rw [h1] at h; cases h
  | ok g1 =>
    rw [h1] at h
    have hc : g1.nAuto = autoCalls pre := by simpa [Group.init] using (run_mono _ _ _ h1).2.2
    simp only [run, step] at h
    split_ifs at h
    obtain ⟨m1, m2, -⟩ := run_mono _ _ _ h
    rw [hc] at m1 m2
    refine ⟨c.sys, m1 _ (by simp), ?_, ?_, fun i j => ?_⟩
    · simp [AddSys.register, AddCall.sys, hv, VecSize.out]
    · intro x hx
      simp only [AddSys.register, List.mem_map] at hx
      obtain ⟨p, -, rfl⟩ := hx
      simp [AddCall.sys, hv, VecSize.get]
    · refine (C21_sum c ("add" ++ toString (autoCalls pre)) v _ (fun f hm => ?_) i j n hn hv).2
      have := hf f (m2 f (List.mem_append_right _ hm))
      have hcomp : f.comp = "add" ++ toString (autoCalls pre) := by
        simp only [AddCall.feeds, List.mem_append, List.mem_map] at hm
        rcases hm with ⟨p, -, rfl⟩ | ⟨p, -, rfl⟩ <;> rfl
      rwa [hcomp] at this

/-- C22.  After any successful sequence of calls the group contains, for each call of `promote_mult`, a component that publishes under
the name asked for the factor times the variable named in the call; with `divide=[True]`, the factor divided by it. -/
theorem C22_product (pre post : List (Op ℝ)) (c : MultCall ℝ) (g : Group ℝ) (h : run Group.init (pre ++ .mult c :: post) = .ok g)
    (env : String → String → ℕ → ℕ → ℝ) (v : String → ℕ → ℕ → ℝ) (hf : Fed g env v) (n : ℕ) (hn : n ≠ 1) (hv : c.vecSize = .all n) :
    ∃ s, ("mult" ++ toString (autoCalls pre), Auto.mult s) ∈ g.autos ∧ s.output = c.promName ∧ s.vecSize = .all n ∧
      s.length = c.length ∧ s.units = [c.units] ∧
      (c.divide = none ∨ c.divide = some [false] → ∀ i j,
        s.compute (env ("mult" ++ toString (autoCalls pre))) i j = c.factor * v c.source i j) ∧
      (c.divide = some [true] → ∀ i j,
        s.compute (env ("mult" ++ toString (autoCalls pre))) i j = c.factor / v c.source i j) := by
  rw [run_append] at h
  cases h1 : run Group.init pre with
  | error e => rw [h1] at h; cases h
  | ok g1 =>
    rw [h1] at h
    have hc : g1.nAuto = autoCalls pre := by simpa [Group.init] using (run_mono _ _ _ h1).2.2
    simp only [run, step] at h
    split_ifs at h
    obtain ⟨m1, m2, -⟩ := run_mono _ _ _ h
    rw [hc] at m1 m2
    have hs : env ("mult" ++ toString (autoCalls pre)) "_temp" = v c.source := hf ⟨_, "_temp", c.source⟩ (m2 _ (by simp))
    refine ⟨c.sys, m1 _ (by simp), rfl, hv, rfl, rfl, fun hd i j => ?_, fun hd i j => ?_⟩
    · rw [C22_value c _ i j n hn hv hd, hs]
    · rw [← hs]
      simp [MultCall.sys, MulSys.compute, MulSys.read, MulSys.div, hd, hv, VecSize.get, hn, div_eq_inv_mul]

/-- a sum between other operations: two engines, one of them connected by promotion -/
example (g : Group ℝ) (env : String → String → ℕ → ℕ → ℝ) (v : String → ℕ → ℕ → ℝ) (hf : Fed g env v)
    (h : run Group.init [.user "engine", .mult ⟨"motor.p", "p", 2, .all 5, some "kW", 1, some [true], none⟩,
      .add ⟨["engine.ff"], "fuel_flow", ["other"], some [1, 3], .all 5, some "kg/s", 1⟩] = .ok g) :
    (∃ s, ("add1", Auto.add s) ∈ g.autos ∧ s.output = "fuel_flow" ∧
      s.compute (env "add1") 4 0 = v "engine.ff" 4 0 + 3 * v "other" 4 0) ∧
    ∃ s, ("mult0", Auto.mult s) ∈ g.autos ∧ s.output = "p" ∧ s.compute (env "mult0") 4 0 = 2 / v "motor.p" 4 0 := by
  constructor
  · obtain ⟨s, h1, h2, -, h3⟩ := C21_value [.user "engine", .mult ⟨"motor.p", "p", 2, .all 5, some "kW", 1, some [true], none⟩] []
      ⟨["engine.ff"], "fuel_flow", ["other"], some [1, 3], .all 5, some "kg/s", 1⟩ g h env v hf 5 (by norm_num) rfl
    refine ⟨s, h1, congrArg Verif.VectorComps.RegVar.name h2, ?_⟩
    refine (h3 4 0).trans ?_
    show ∑ k : Fin 2, _ = _
    rw [Fin.sum_univ_two]
    simp
  · obtain ⟨s, h1, h2, -, -, -, -, h3⟩ := C22_product [.user "engine"]
      [.add ⟨["engine.ff"], "fuel_flow", ["other"], some [1, 3], .all 5, some "kg/s", 1⟩]
      ⟨"motor.p", "p", 2, .all 5, some "kW", 1, some [true], none⟩ g h env v hf 5 (by norm_num) rfl
    exact ⟨s, h1, h2, h3 rfl 4 0⟩

/-! ### C24: all links of a trajectory, and states to skip -/

section
variable (path : String → String) (out inp : String → Option String) (removeFirst : String → String → String)

/-- C24.  `configure` of a trajectory makes the connections of all queued links and no others. -/
theorem C24_all (links : List (Phase × Phase × List String)) (conns : List (String × String))
    (h : linkAll path out inp removeFirst links = .ok conns) (x : String × String) :
    (∀ l ∈ links, ∃ c, linkPhases path out inp removeFirst l.1 l.2.1 l.2.2 = .ok c) ∧
    (x ∈ conns ↔ ∃ l ∈ links, ∃ c, linkPhases path out inp removeFirst l.1 l.2.1 l.2.2 = .ok c ∧ x ∈ c) := by
  unfold linkAll at h
  cases hm : links.mapM fun l => linkPhases path out inp removeFirst l.1 l.2.1 l.2.2 with
  | error e => rw [hm] at h; cases h
  | ok r =>
    rw [hm] at h
    cases h
    rw [mapM_ok] at hm
    induction hm with
    | nil => simp
    | @cons l c ls cs ha _ ih =>
      obtain ⟨i1, i2⟩ := ih
      constructor
      · intro k hk
        rcases List.mem_cons.1 hk with rfl | hk
        · exact ⟨c, ha⟩
        · exact i1 k hk
      · rw [List.flatten_cons, List.mem_append, i2]
        constructor
        · rintro (hx | ⟨k, hk, d, hd, hx⟩)
          · exact ⟨l, by simp, c, ha, hx⟩
          · exact ⟨k, by simp [hk], d, hd, hx⟩
        · rintro ⟨k, hk, d, hd, hx⟩
          rcases List.mem_cons.1 hk with rfl | hk
          · rw [ha] at hd; cases hd; exact Or.inl hx
          · exact Or.inr ⟨k, hk, d, hd, hx⟩

/-- C24.  The state of a link that was queued anywhere in the list is continuous from the first to the second phase. -/
theorem C24_all_continuous {R : Type} (links : List (Phase × Phase × List String)) (conns : List (String × String))
    (h : linkAll path out inp removeFirst links = .ok conns) (v : String → R) (hv : Satisfies out inp conns v)
    (p1 p2 : Phase) (skip : List String) (hl : (p1, p2, skip) ∈ links) (t1 t2 : StateTuple) (h1 : t1 ∈ p1.states)
    (h2 : t2 ∈ p2.states) (hst : t1.state = t2.state) (hstart : t1.start = t2.start) (hs1 : t1.state ∉ skip)
    (hs2 : ∀ prom, out (path (p1.name ++ "." ++ t1.state)) = some prom → stripPhase removeFirst p1.name prom ∉ skip) :
    v (path (p2.name ++ "." ++ t2.start)) = v (path (p1.name ++ "." ++ t1.final)) := by
  obtain ⟨c, hc⟩ := (C24_all path out inp removeFirst links conns h ("", "")).1 _ hl
  refine C24_continuity_partial path out inp removeFirst p1 p2 skip c hc v (fun x hx => ?_) t1 t2 h1 h2 hst hstart hs1 hs2
  exact hv x (((C24_all path out inp removeFirst links conns h x).2).2 ⟨_, hl, c, hc, hx⟩)

/-- C24.  A state to skip may be given by its path in the phase or by its promoted name, without the name of the phase; then it is not
connected.  `removeFirst` is `str.replace(old, "", 1)`, of which only the case of a prefix is used. -/
theorem C24_skip (hr : ∀ a b, removeFirst (a ++ b) a = b) (p1 p2 : Phase) (skip : List String) (t : StateTuple) (short : String)
    (ho : out (path (p1.name ++ "." ++ t.state)) = some (p1.name ++ "." ++ short)) (hs : t.state ∈ skip ∨ short ∈ skip) :
    linkState path out inp removeFirst p1 p2 skip t = .ok [] := by
  have e : stripPhase removeFirst p1.name (p1.name ++ "." ++ short) = short := by
    rw [stripPhase, if_pos, hr]
    rw [String.startsWith_string_iff, String.append_assoc, String.toList_append]
    exact List.prefix_append _ _
  unfold linkState
  split_ifs
  · simp only [ho, e]
    rw [if_neg]
    rintro ⟨a, b⟩
    exact hs.elim a b
  · rfl

end

/-- `str.replace(old, "", 1)` for a prefix -/
def dropPrefix (s old : String) : String := String.ofList (s.toList.drop old.toList.length)

/-- two links, one of them with a skipped state -/
example : linkAll id some some dropPrefix [(demoP1, demoP3, []), (demoP1, demoP3, ["integ.fuel"])]
    = .ok [("climb.integ.fuel_final", "cruise.integ.fuel_initial")] ∧ ∀ a b, dropPrefix (a ++ b) a = b := by
  refine ⟨rfl, fun a b => ?_⟩
  rw [dropPrefix, String.toList_append, List.drop_left, String.ofList_toList]

end Verif.Mission
