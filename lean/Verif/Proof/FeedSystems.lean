import Verif.Proof.Feedforward

/-!
Systems whose outputs are functions of their inputs, and groups of them.
-/

namespace Verif.Wiring

open Verif.Units Verif.VectorComps

attribute [local instance 10000] fastString

variable {m : ℕ}

/-- For given inputs there is exactly one converged state, and the scalar outputs are determined by the scalar inputs. -/
structure Sys.Det (o : Opts) (s : Sys) : Prop where
  solve : ∀ V : String → ℝ, ∃ V', s.rel o V' ∧ ∀ n, n ∉ s.outs.map Var.name → V' n = V n
  unique : ∀ V V', s.rel o V → s.rel o V' → (∀ v ∈ s.ins, V v.name = V' v.name) → ∀ v ∈ s.outs, V v.name = V' v.name
  scalar : ∀ V V', s.rel o V → s.rel o V' → (∀ v ∈ s.ins, v.vec = false → V v.name = V' v.name) →
    ∀ v ∈ s.outs, v.vec = false → V v.name = V' v.name

/-- outputs given by formulas -/
theorem Sys.Det.of_fun {o : Opts} {s : Sys} (f : (String → ℝ) → String → ℝ) (hd : ∀ v ∈ s.ins, v.name ∉ s.outs.map Var.name)
    (hrel : ∀ V, s.rel o V ↔ ∀ v ∈ s.outs, V v.name = f V v.name)
    (hdep : ∀ V V', (∀ v ∈ s.ins, V v.name = V' v.name) → ∀ v ∈ s.outs, f V v.name = f V' v.name)
    (hsc : ∀ V V', (∀ v ∈ s.ins, v.vec = false → V v.name = V' v.name) → ∀ v ∈ s.outs, v.vec = false → f V v.name = f V' v.name) :
    s.Det o := by
  classical
  refine ⟨fun V => ⟨fun n => if n ∈ s.outs.map Var.name then f V n else V n, ?_, fun n hn => if_neg hn⟩, ?_, ?_⟩
  · rw [hrel]
    intro v hv
    rw [if_pos (List.mem_map.2 ⟨v, hv, rfl⟩)]
    exact hdep _ _ (fun w hw => (if_neg (hd w hw)).symm) v hv
  · intro V V' h h' hi v hv
    rw [(hrel V).1 h v hv, (hrel V').1 h' v hv]
    exact hdep _ _ hi v hv
  · intro V V' h h' hi v hv hvec
    rw [(hrel V).1 h v hv, (hrel V').1 h' v hv]
    exact hsc _ _ hi v hv hvec

/-- the formulas of a component give all outputs, read inputs and options only, and scalar outputs read scalars only -/
structure Proper (d : Decl) : Prop where
  total : ∀ e, ∀ x ∈ d.comp.outs, d.comp.run e x.1 = some ((d.comp.run e x.1).getD 0)
  reads : ∀ e e' : String → ℝ, (∀ p ∈ d.comp.ins, e p.1 = e' p.1) → (∀ p ∈ d.comp.opts, e p.1 = e' p.1) →
    ∀ x ∈ d.comp.outs, d.comp.run e x.1 = d.comp.run e' x.1
  scalar : ∀ e e' : String → ℝ, (∀ p ∈ d.comp.ins, p.1 ∉ d.vecs → e p.1 = e' p.1) →
    (∀ p ∈ d.comp.opts, e p.1 = e' p.1) → ∀ x ∈ d.comp.outs, x.1 ∉ d.vecs → d.comp.run e x.1 = d.comp.run e' x.1

theorem det_explicit {d : Decl} (h : Proper d) (hd : ∀ p ∈ d.comp.ins, p.1 ∉ d.comp.outs.map Prod.fst)
    (ho : ∀ p ∈ d.comp.ins, p.1 ∉ d.comp.opts.map Prod.fst) (set : List (String × OptVal)) (o : Opts) : (explicit d set).Det o := by
  have hin : ∀ V : String → ℝ, ∀ p ∈ d.comp.ins, withOpts d.comp set o V p.1 = V p.1 := fun V p hp => by
    unfold withOpts
    rw [if_neg (ho p hp)]
  have hop : ∀ V V' : String → ℝ, ∀ p ∈ d.comp.opts, withOpts d.comp set o V p.1 = withOpts d.comp set o V' p.1 := fun V V' p hp => by
    unfold withOpts
    rw [if_pos (List.mem_map.2 ⟨p, hp, rfl⟩), if_pos (List.mem_map.2 ⟨p, hp, rfl⟩)]
  apply Sys.Det.of_fun fun V x => (d.comp.run (withOpts d.comp set o V) x).getD 0
  · intro v hv hm
    obtain ⟨p, hp, rfl⟩ := List.mem_map.1 hv
    obtain ⟨w, hw, he⟩ := List.mem_map.1 hm
    obtain ⟨q, hq, rfl⟩ := List.mem_map.1 hw
    exact hd p hp (List.mem_map.2 ⟨q, hq, he⟩)
  · intro V
    constructor
    · intro hr v hv
      obtain ⟨p, hp, rfl⟩ := List.mem_map.1 hv
      have h2 := hr p hp
      simp only
      rw [h2]
      rfl
    · intro hr p hp
      have h1 := h.total (withOpts d.comp set o V) p hp
      rw [h1]
      exact congrArg some (hr ⟨p.1, p.2, _, true⟩ (List.mem_map.2 ⟨p, hp, rfl⟩)).symm
  · intro V V' hi v hv
    obtain ⟨p, hp, rfl⟩ := List.mem_map.1 hv
    simp only
    rw [h.reads _ (withOpts d.comp set o V') ?_ (hop V V') p hp]
    intro q hq
    rw [hin V q hq, hin V' q hq]
    exact hi ⟨q.1, q.2, _, true⟩ (List.mem_map.2 ⟨q, hq, rfl⟩)
  · intro V V' hi v hv hvec
    obtain ⟨p, hp, rfl⟩ := List.mem_map.1 hv
    have hvec2 : p.1 ∉ d.vecs := fun hm => by
      have h1 : d.vecs.contains p.1 = true := List.contains_iff_mem.2 hm
      exact Bool.noConfusion (h1.symm.trans hvec)
    simp only
    rw [h.scalar _ (withOpts d.comp set o V') ?_ (hop V V') p hp hvec2]
    intro q hq hqv
    rw [hin V q hq, hin V' q hq]
    refine hi ⟨q.1, q.2, _, true⟩ (List.mem_map.2 ⟨q, hq, rfl⟩) ?_
    rw [Bool.eq_false_iff]
    exact fun hm => hqv (List.contains_iff_mem.1 hm)

/-- each output is given by one equation -/
theorem det_eqs {o : Opts} {s : Sys} (l : List (String × ((String → ℝ) → ℝ))) (hl : s.outs.map Var.name = l.map Prod.fst)
    (hn : (l.map Prod.fst).Nodup) (hd : ∀ v ∈ s.ins, v.name ∉ l.map Prod.fst) (hrel : ∀ V, s.rel o V ↔ ∀ r ∈ l, V r.1 = r.2 V)
    (hdep : ∀ V V', (∀ v ∈ s.ins, V v.name = V' v.name) → ∀ r ∈ l, r.2 V = r.2 V')
    (hsc : ∀ V V', (∀ v ∈ s.ins, v.vec = false → V v.name = V' v.name) → ∀ v ∈ s.outs, v.vec = false → ∀ r ∈ l, r.1 = v.name → r.2 V = r.2 V') :
    s.Det o := by
  have hf : ∀ (V : String → ℝ), ∀ r ∈ l, ((l.find? fun q => decide (q.1 = r.1)).map fun q => q.2 V).getD 0 = r.2 V := by
    intro V r hr
    cases h : l.find? fun q => decide (q.1 = r.1) with
    | none => simpa using List.find?_eq_none.1 h r hr
    | some q =>
      have h1 : q.1 = r.1 := by simpa using List.find?_some h
      have : q = r := List.inj_on_of_nodup_map hn (List.mem_of_find?_eq_some h) hr h1
      subst this
      rfl
  have hv : ∀ v ∈ s.outs, ∃ r ∈ l, r.1 = v.name := fun v hv => by
    have : v.name ∈ l.map Prod.fst := hl ▸ List.mem_map.2 ⟨v, hv, rfl⟩
    exact List.mem_map.1 this
  apply Sys.Det.of_fun fun V x => ((l.find? fun q => decide (q.1 = x)).map fun q => q.2 V).getD 0
  · rw [hl]
    exact hd
  · intro V
    rw [hrel]
    constructor
    · intro h v hvo
      obtain ⟨r, hr, he⟩ := hv v hvo
      rw [← he, hf V r hr]
      exact h r hr
    · intro h r hr
      have : r.1 ∈ s.outs.map Var.name := hl ▸ List.mem_map.2 ⟨r, hr, rfl⟩
      obtain ⟨v, hvo, he⟩ := List.mem_map.1 this
      have h1 := h v hvo
      rw [he, hf V r hr] at h1
      exact h1
  · intro V V' hi v hvo
    obtain ⟨r, hr, he⟩ := hv v hvo
    rw [← he, hf V r hr, hf V' r hr]
    exact hdep V V' hi r hr
  · intro V V' hi v hvo hvec
    obtain ⟨r, hr, he⟩ := hv v hvo
    rw [← he, hf V r hr, hf V' r hr]
    exact hsc V V' hi v hvo hvec r hr he

theorem zip_fst {l : List String} {p : String × ℕ} (hp : p ∈ l.zipIdx) : p.1 ∈ l := by
  have h : p.1 ∈ l.zipIdx.map Prod.fst := List.mem_map.2 ⟨p, hp, rfl⟩
  rwa [List.zipIdx_map_fst] at h

theorem add_congr (s : AddSys ℝ) {V V' : String → ℝ} (h : ∀ n ∈ s.inputs, V n = V' n) :
    s.compute (fun n _ _ => V n) 0 0 = s.compute (fun n _ _ => V' n) 0 0 := by
  unfold AddSys.compute
  apply List.foldl_ext
  intro t p hp
  simp only [h p.1 (zip_fst hp)]

theorem mul_congr (s : MulSys ℝ) {V V' : String → ℝ} (h : ∀ n ∈ s.inputs, V n = V' n) :
    s.compute (fun n _ _ => V n) 0 0 = s.compute (fun n _ _ => V' n) 0 0 := by
  unfold MulSys.compute
  congr 1
  apply List.foldl_ext
  intro t p hp
  simp only [MulSys.read, h p.1 (zip_fst hp)]

theorem det_consts (l : List (String × String × Bool × ℝ)) (hn : (l.map Prod.fst).Nodup) (o : Opts) : (consts l).Det o := by
  apply det_eqs (l.map fun c => (c.1, fun _ => c.2.2.2))
  · simp [consts, Function.comp_def]
  · simpa [Function.comp_def] using hn
  · simp [consts]
  · intro V
    simp only [consts, List.forall_mem_map]
  · intro V V' _ r hr
    obtain ⟨c, -, rfl⟩ := List.mem_map.1 hr
    rfl
  · intro V V' _ v _ _ r hr _
    obtain ⟨c, -, rfl⟩ := List.mem_map.1 hr
    rfl

theorem det_label (l : List (String × String × Bool × String)) (hn : (l.map fun r => r.2.1).Nodup)
    (hd : ∀ r ∈ l, r.1 ∉ l.map fun r => r.2.1) (o : Opts) : (label l).Det o := by
  apply det_eqs (l.map fun r => (r.2.1, fun V => V r.1))
  · simp [label, Function.comp_def]
  · simpa [Function.comp_def] using hn
  · intro v hv
    obtain ⟨r, hr, rfl⟩ := List.mem_map.1 hv
    rw [List.map_map]
    exact hd r hr
  · intro V
    simp only [label, List.forall_mem_map]
  · intro V V' hi r hr
    obtain ⟨c, hc, rfl⟩ := List.mem_map.1 hr
    exact hi ⟨c.1, c.2.2.2, c.2.2.1, true⟩ (List.mem_map.2 ⟨c, hc, rfl⟩)
  · intro V V' hi v hv hvec r hr he
    obtain ⟨c, hc, rfl⟩ := List.mem_map.1 hr
    obtain ⟨d, hd, rfl⟩ := List.mem_map.1 hv
    have : c = d := List.inj_on_of_nodup_map hn hc hd he
    subst this
    exact hi ⟨c.1, c.2.2.2, c.2.2.1, true⟩ (List.mem_map.2 ⟨c, hc, rfl⟩) hvec

theorem det_sum (s : AddSys ℝ) (vec : String → Bool) (hd : s.output ∉ s.inputs)
    (hv : vec s.output = false → ∀ n ∈ s.inputs, vec n = false) (o : Opts) : (sum s vec).Det o := by
  apply det_eqs [(s.output, fun V => s.compute (fun n _ _ => V n) 0 0)]
  · rfl
  · simp
  · intro v hv hm
    obtain ⟨n, hn, rfl⟩ := List.mem_map.1 hv
    rw [List.map_singleton, List.mem_singleton] at hm
    have hm' : n = s.output := hm
    exact hd (hm' ▸ hn)
  · intro V
    simp [sum]
  · intro V V' hi r hr
    rw [List.mem_singleton] at hr
    subst hr
    exact add_congr s fun n hn => hi ⟨n, _, vec n, true⟩ (List.mem_map.2 ⟨n, hn, rfl⟩)
  · intro V V' hi v hvo hvec r hr _
    rw [List.mem_singleton] at hr
    subst hr
    have hvo' : v = ⟨s.output, _, vec s.output, true⟩ := List.mem_singleton.1 hvo
    subst hvo'
    exact add_congr s fun n hn => hi ⟨n, _, vec n, true⟩ (List.mem_map.2 ⟨n, hn, rfl⟩) (hv hvec n hn)

theorem det_product (s : MulSys ℝ) (vec : String → Bool) (hd : s.output ∉ s.inputs) (hu : s.inputs.length ≤ s.units.length)
    (hv : vec s.output = false → ∀ n ∈ s.inputs, vec n = false) (o : Opts) : (product s vec).Det o := by
  have hz : ∀ n ∈ s.inputs, ∃ p ∈ s.inputs.zip s.units, p.1 = n := fun n hn => by
    have : n ∈ (s.inputs.zip s.units).map Prod.fst := by rwa [List.map_fst_zip hu]
    exact List.mem_map.1 this
  have hi2 : ∀ n ∈ s.inputs, ∃ u, (⟨n, u, vec n, true⟩ : Var) ∈ (product s vec).ins := fun n hn => by
    obtain ⟨p, hp, rfl⟩ := hz n hn
    exact ⟨p.2.getD "", List.mem_map.2 ⟨p, hp, rfl⟩⟩
  apply det_eqs [(s.output, fun V => s.compute (fun n _ _ => V n) 0 0)]
  · rfl
  · simp
  · intro v hv hm
    obtain ⟨p, hp, rfl⟩ := List.mem_map.1 hv
    rw [List.map_singleton, List.mem_singleton] at hm
    have hm' : p.1 = s.output := hm
    exact hd (hm' ▸ (List.of_mem_zip hp).1)
  · intro V
    simp [product]
  · intro V V' hi r hr
    rw [List.mem_singleton] at hr
    subst hr
    refine mul_congr s fun n hn => ?_
    obtain ⟨u, hu⟩ := hi2 n hn
    exact hi _ hu
  · intro V V' hi v hvo hvec r hr _
    rw [List.mem_singleton] at hr
    subst hr
    have hvo' : v = ⟨s.output, _, vec s.output, true⟩ := List.mem_singleton.1 hvo
    subst hvo'
    refine mul_congr s fun n hn => ?_
    obtain ⟨u, hu⟩ := hi2 n hn
    exact hi _ hu (hv hvec n hn)

theorem det_surrogate (name : String) (ins : List Var) (out : Var) (hd : ∀ v ∈ ins, v.name ≠ out.name)
    (hv : out.vec = false → ∀ v ∈ ins, v.vec = false) (o : Opts) : (surrogate name ins out).Det o := by
  apply det_eqs [(out.name, fun V => o.map name (ins.map fun v => V v.name))]
  · rfl
  · simp
  · intro v hv hm
    rw [List.map_singleton, List.mem_singleton] at hm
    exact hd v hv hm
  · intro V
    simp [surrogate]
  · intro V V' hi r hr
    rw [List.mem_singleton] at hr
    subst hr
    exact congrArg (o.map name) (List.map_congr_left hi)
  · intro V V' hi v hvo hvec r hr _
    rw [List.mem_singleton] at hr
    subst hr
    have hvo' : v = out := List.mem_singleton.1 hvo
    subst hvo'
    exact congrArg (o.map name) (List.map_congr_left fun w hw => hi w hw (hv hvec w hw))

theorem once_mem {l : List Var} {n : String} (acc : List Var) (h : n ∈ acc.map Var.name ∨ n ∈ l.map Var.name) :
    n ∈ (l.foldl (fun l v => if (l.map Var.name).contains v.name then l else l ++ [v]) acc).map Var.name := by
  induction l generalizing acc with
  | nil => simpa using h
  | cons v l ih =>
    rw [List.foldl_cons]
    apply ih
    rcases h with h | h
    · left
      split
      · exact h
      · rw [List.map_append]
        exact List.mem_append_left _ h
    · rw [List.map_cons, List.mem_cons] at h
      rcases h with rfl | h
      · left
        split
        · rename_i hc
          exact List.contains_iff_mem.1 hc
        · simp
      · exact .inr h

theorem once_sub {l : List Var} (acc : List Var) {w : Var}
    (h : w ∈ l.foldl (fun l v => if (l.map Var.name).contains v.name then l else l ++ [v]) acc) : w ∈ acc ∨ w ∈ l := by
  induction l generalizing acc with
  | nil => simpa using h
  | cons v l ih =>
    rw [List.foldl_cons] at h
    rcases ih _ h with h | h
    · split at h
      · exact .inl h
      · rcases List.mem_append.1 h with h | h
        · exact .inl h
        · rw [List.mem_singleton] at h
          subst h
          simp
    · exact .inr (List.mem_cons_of_mem _ h)

/-- several sums; an input of two of them is a vector in both or in none -/
theorem det_sums (l : List (AddSys ℝ × Bool)) (hn : (l.map fun s => s.1.output).Nodup)
    (hd : ∀ s ∈ l, ∀ n ∈ s.1.inputs, n ∉ l.map fun s => s.1.output)
    (hv : ∀ s ∈ l, ∀ r ∈ l, ∀ n ∈ s.1.inputs, n ∈ r.1.inputs → s.2 = r.2) (o : Opts) : (sums l).Det o := by
  have hin : ∀ s ∈ l, ∀ n ∈ s.1.inputs, ∃ v ∈ (sums l).ins, v.name = n ∧ v.vec = s.2 := by
    intro s hs n hn
    have h1 : n ∈ (sums l).ins.map Var.name := once_mem [] (.inr (List.mem_map.2 ⟨⟨n, _, s.2, true⟩,
      List.mem_flatMap.2 ⟨s, hs, List.mem_map.2 ⟨n, hn, rfl⟩⟩, rfl⟩))
    obtain ⟨v, hvi, he⟩ := List.mem_map.1 h1
    refine ⟨v, hvi, he, ?_⟩
    rcases once_sub [] hvi with h | h
    · cases h
    · rw [List.mem_flatMap] at h
      obtain ⟨r, hr, h⟩ := h
      obtain ⟨k, hk, rfl⟩ := List.mem_map.1 h
      have he' : k = n := he
      subst he'
      exact (hv s hs r hr k hn hk).symm
  apply det_eqs (l.map fun s => (s.1.output, fun V => s.1.compute (fun n _ _ => V n) 0 0))
  · simp [sums, Function.comp_def]
  · simpa [Function.comp_def] using hn
  · intro v hv hm
    rcases once_sub [] hv with h | h
    · cases h
    · rw [List.mem_flatMap] at h
      obtain ⟨r, hr, h⟩ := h
      obtain ⟨k, hk, rfl⟩ := List.mem_map.1 h
      refine hd r hr k hk ?_
      simpa [Function.comp_def] using hm
  · intro V
    simp only [sums, List.forall_mem_map]
  · intro V V' hi r hr
    obtain ⟨s, hs, rfl⟩ := List.mem_map.1 hr
    refine add_congr s.1 fun n hn => ?_
    obtain ⟨v, hvi, rfl, -⟩ := hin s hs n hn
    exact hi v hvi
  · intro V V' hi v hvo hvec r hr he
    obtain ⟨s, hs, rfl⟩ := List.mem_map.1 hr
    obtain ⟨t, ht, rfl⟩ := List.mem_map.1 hvo
    have : s = t := List.inj_on_of_nodup_map hn hs ht he
    subst this
    refine add_congr s.1 fun n hn => ?_
    obtain ⟨v, hvi, rfl, h2⟩ := hin s hs n hn
    exact hi v hvi (h2.trans hvec)

/-- a group of such systems whose connections go forward -/
theorem det_grp {g : Grp} {l : List Sub} (F : Forward g l) {o : Opts} (h : ∀ s ∈ l, s.sys.Det o) : g.sys.Det o := by
  have hcv : ∀ u x, conv u u x = x := fun u x => by simp [conv]
  have hs : ∀ e : String → ℝ, g.rel o e ↔ ∀ s ∈ l, s.sys.rel o (g.viewW conv e s.name) := fun e => by
    unfold Grp.rel
    constructor
    · intro hr s hs
      rw [← view_eq]
      exact hr s (F.perm.mem_iff.1 hs)
    · intro hr s hs
      rw [view_eq]
      exact hr s (F.perm.mem_iff.2 hs)
  have hout : ∀ v ∈ g.outs, ∃ r ∈ l, ∃ w ∈ r.sys.outs, v = ⟨r.outName w, w.unit, w.vec, r.pout.covers w⟩ := fun v hv => by
    unfold Grp.outs at hv
    rw [List.mem_flatMap] at hv
    obtain ⟨r, hr, hv⟩ := hv
    obtain ⟨w, hw, rfl⟩ := List.mem_map.1 hv
    exact ⟨r, F.perm.mem_iff.2 hr, w, hw, rfl⟩
  refine ⟨?_, ?_, ?_⟩
  · intro V
    obtain ⟨e, h1, h2, -⟩ := exists_state (P := fun _ => True) (R := fun s T => s.sys.rel o T) F hcv (fun _ _ _ h => h) (fun s hs T _ => by
      obtain ⟨T', a, b⟩ := (h s hs).solve T
      exact ⟨T', a, b, fun _ _ _ => trivial⟩) V fun _ _ _ => trivial
    exact ⟨e, (hs e).2 fun s hs => h1 s (F.perm.mem_iff.1 hs), h2⟩
  · intro V V' hV hV' hi v hv
    obtain ⟨r, hr, w, hw, rfl⟩ := hout v hv
    exact unique_from (q := fun _ => True) (R := fun s T => s.sys.rel o T) F hcv (fun _ _ _ _ _ => ⟨fun _ _ _ _ _ => trivial, fun _ _ _ => trivial⟩)
      (fun s hs T T' a b c v hv _ => (h s hs).unique T T' a b (fun v hv => c v hv trivial) v hv) ((hs V).1 hV) ((hs V').1 hV')
      (fun v hv _ => hi v hv) l [] rfl (by simp) r hr w hw trivial
  · intro V V' hV hV' hi v hv hvec
    obtain ⟨r, hr, w, hw, rfl⟩ := hout v hv
    refine unique_from (q := fun v => v.vec = false) (R := fun s T => s.sys.rel o T) F hcv (fun s hs u hu hq => ⟨fun t ht x hx he => ?_, fun x hx he => ?_⟩)
      (fun s hs T T' a b c v hv hq => (h s hs).scalar T T' a b c v hv hq) ((hs V).1 hV) ((hs V').1 hV')
      hi l [] rfl (by simp) r hr w hw hvec
    · exact F.shapes s hs u hu hq ⟨t.outName x, x.unit, x.vec, t.pout.covers x⟩ (List.mem_append_left _ (by
        unfold Grp.outs
        rw [List.mem_flatMap]
        exact ⟨t, F.perm.mem_iff.1 ht, List.mem_map.2 ⟨x, hx, rfl⟩⟩)) he
    · exact F.shapes s hs u hu hq x (List.mem_append_right _ hx) he

/-! ### one pass -/

theorem pass_other {g : Grp} {o : Opts} : ∀ {l : List Sub} {e e' : String → ℝ}, g.Pass o l e e' →
    ∀ n, n ∉ l.flatMap (fun s => s.sys.outs.map s.outName) → e' n = e n
  | [], e, e', h, n, _ => by
    have h' : e' = e := h
    rw [h']
  | s :: l, e, e', ⟨e₁, ⟨_, _, _, h2⟩, h3⟩, n, hn => by
    rw [List.flatMap_cons, List.mem_append, not_or] at hn
    rw [pass_other h3 n hn.2, h2, put_other _ _ hn.1]

/-- where a subsystem is run within a pass -/
theorem pass_at {g : Grp} {o : Opts} : ∀ {pre post : List Sub} {s : Sub} {e e' : String → ℝ}, g.Pass o (pre ++ s :: post) e e' →
    ∃ e₀ e₁, (∀ n, n ∉ pre.flatMap (fun s => s.sys.outs.map s.outName) → e₀ n = e n) ∧ g.Runs o s e₀ e₁ ∧ g.Pass o post e₁ e'
  | [], post, s, e, e', ⟨e₁, h1, h2⟩ => ⟨e, e₁, fun _ _ => rfl, h1, h2⟩
  | r :: pre, post, s, e, e', ⟨e₁, h1, h2⟩ => by
    obtain ⟨T, -, -, h⟩ := h1
    obtain ⟨a, b, ha, hb, hc⟩ := pass_at h2
    refine ⟨a, b, ?_, hb, hc⟩
    intro n hn
    rw [List.flatMap_cons, List.mem_append, not_or] at hn
    rw [ha n hn.2, h, put_other _ _ hn.1]

/-- A subsystem is converged after a pass if what it reads is not written later in the pass, or not changed by it. -/
theorem pass_rel {g : Grp} {l : List Sub} (F : Forward g l) {o : Opts} {pre post : List Sub} {s : Sub} (hl : (pre ++ s :: post).Perm l)
    {e e' : String → ℝ} (hp : g.Pass o (pre ++ s :: post) e e')
    (hf : ∀ v ∈ s.sys.ins, (∀ r ∈ s :: post, ∀ w ∈ r.sys.outs, r.outName w ≠ g.feed s v) ∨ e (g.feed s v) = e' (g.feed s v)) :
    s.sys.rel o (g.view e' s.name) := by
  have hs : s ∈ l := hl.mem_iff.1 (by simp)
  have hcv : ∀ u x, conv u u x = x := fun u x => by simp [conv]
  have houts : ((pre ++ s :: post).flatMap fun s => s.sys.outs.map s.outName).Nodup := (hl.flatMap_right _).nodup_iff.2 F.outs
  rw [List.flatMap_append, List.flatMap_cons] at houts
  have hso : (s.sys.outs.map s.outName).Nodup := nodup_part _ F.outs hs
  obtain ⟨e₀, e₁, h0, ⟨T, hT, hin, h1⟩, h2⟩ := pass_at hp
  suffices h : g.view e' s.name = T by
    rw [h]
    exact hT
  rw [view_eq] at hin ⊢
  funext x
  by_cases ho : x ∈ s.sys.outs.map Var.name
  · obtain ⟨v, hv, rfl⟩ := List.mem_map.1 ho
    rw [view_out F hcv hs hv, pass_other h2, h1, put_out hso _ _ hv]
    exact List.disjoint_of_nodup_append (List.nodup_append.1 houts).2.1 (List.mem_map.2 ⟨v, hv, rfl⟩)
  · rw [hin x ho]
    by_cases hx : x ∈ s.sys.ins.map Var.name
    · obtain ⟨v, hv, rfl⟩ := List.mem_map.1 hx
      rw [view_in F hs hv, view_in F hs hv]
      congr 1
      by_cases hw : g.feed s v ∈ (s :: post).flatMap fun s => s.sys.outs.map s.outName
      · rcases hf v hv with h | h
        · obtain ⟨r, hr, hm⟩ := List.mem_flatMap.1 hw
          obtain ⟨w, hwo, he⟩ := List.mem_map.1 hm
          exact absurd he (h r hr w hwo)
        · rw [← h, h0]
          intro hm
          exact List.disjoint_of_nodup_append houts hm (by rwa [List.flatMap_cons] at hw)
      · rw [List.flatMap_cons, List.mem_append, not_or] at hw
        rw [pass_other h2 _ hw.2, h1, put_other _ _ hw.1]
    · rw [view_zero F hs ho hx, view_zero F hs ho hx]

/-- a pass in forward order ends in a converged state -/
theorem pass_forward {g : Grp} (F : Forward g g.subs) {o : Opts} {e e' : String → ℝ} (h : g.RunOnce o e e') : g.rel o e' := by
  intro s hs
  obtain ⟨pre, post, he⟩ := List.append_of_mem hs
  refine pass_rel F (he ▸ .refl _) (he ▸ h : g.Pass o (pre ++ s :: post) e e') fun v hv => .inl ?_
  have hf := fwd_mem (he ▸ F.fwd : g.fwd (pre ++ s :: post) = true)
  exact fun r hr w hw => hf v hv r hr w hw

/-- a pass is possible from every state -/
theorem pass_exists (g : Grp) (o : Opts) : ∀ (l : List Sub), (∀ s ∈ l, s.sys.Det o) → ∀ e, ∃ e', g.Pass o l e e'
  | [], _, e => ⟨e, rfl⟩
  | s :: l, h, e => by
    obtain ⟨T, h1, h2⟩ := (h s (by simp)).solve (g.view e s.name)
    obtain ⟨e', he⟩ := pass_exists g o l (fun r hr => h r (by simp [hr])) (put s T e)
    exact ⟨e', _, ⟨T, h1, h2, rfl⟩, he⟩

/-- the subsystems are solvable and each reads only what was written before it -/
structure Plan (g : Grp) (o : Opts) : Prop where
  forward : Forward g g.subs
  det : ∀ s ∈ g.subs, s.sys.Det o

theorem Plan.sys {g : Grp} {o : Opts} (h : Plan g o) : g.sys.Det o := det_grp h.forward h.det

/-! ### over the nodes of a phase -/

/-- conversion at every node -/
noncomputable def convs (u v : String) (w : Fin (m + 1) → ℝ) (a : Fin (m + 1)) : ℝ := conv u v (w a)

theorem seen_eq {g : Grp} {l : List Sub} (F : Forward g l) (E : String → Fin (m + 1) → ℝ) {s : Sub} (hs : s ∈ l) :
    g.seen E s.name = g.viewW convs E s.name := by
  funext x a
  have hcv : ∀ u x, conv u u x = x := fun u x => by simp [conv]
  have hcvs : ∀ u (x : Fin (m + 1) → ℝ), convs u u x = x := fun u x => funext fun a => hcv u (x a)
  unfold Grp.seen
  rw [view_eq]
  by_cases ho : x ∈ s.sys.outs.map Var.name
  · obtain ⟨v, hv, rfl⟩ := List.mem_map.1 ho
    rw [view_out F hcv hs hv, view_out F hcvs hs hv]
  · by_cases hx : x ∈ s.sys.ins.map Var.name
    · obtain ⟨v, hv, rfl⟩ := List.mem_map.1 hx
      rw [view_in F hs hv, view_in F hs hv]
      rfl
    · rw [view_zero F hs ho hx, view_zero F hs ho hx]
      rfl

/-- what is asked of a subsystem over all nodes -/
def Phase.sat (p : Phase m) (o : Opts) (s : Sub) (T : String → Fin (m + 1) → ℝ) : Prop :=
  (∀ a, s.sys.rel o fun n => T n a) ∧ ∀ c ∈ p.coupled, c.1 = s.name → c.2 T

/-- one number at all nodes -/
def flat (w : Fin (m + 1) → ℝ) : Prop := ∀ a, w a = w 0

/-- for given inputs, scalars being the same at all nodes, there is exactly one state over all nodes -/
structure Sub.Solves (p : Phase m) (o : Opts) (s : Sub) : Prop where
  solvable : Solvable flat (p.sat o) s
  unique : Unique (fun _ => True) (p.sat o) s

/-- a subsystem that acts node by node -/
theorem solves_of_det {p : Phase m} {o : Opts} {s : Sub} (hd : s.sys.Det o) (hv : ((s.sys.outs ++ s.sys.ins).map Var.name).Nodup)
    (hc : ∀ c ∈ p.coupled, c.1 ≠ s.name) : s.Solves p o := by
  constructor
  · intro T hT
    choose U hU hU' using fun a => hd.solve fun n => T n a
    refine ⟨fun n a => U a n, ⟨hU, fun c hcm he => absurd he (hc c hcm)⟩, fun n hn => funext fun a => hU' a n hn, ?_⟩
    intro v hvo hvec a
    refine hd.scalar _ _ (hU a) (hU 0) ?_ v hvo hvec
    intro w hw hwv
    have hn : w.name ∉ s.sys.outs.map Var.name := by
      intro hm
      rw [List.map_append] at hv
      exact List.disjoint_of_nodup_append hv hm (List.mem_map.2 ⟨w, hw, rfl⟩)
    rw [hU' a _ hn, hU' 0 _ hn]
    exact hT w hw hwv a
  · intro T T' h h' hi v hv _
    funext a
    exact hd.unique _ _ (h.1 a) (h'.1 a) (fun w hw => congrFun (hi w hw trivial) a) v hv

/-- a subsystem whose outputs over the nodes are given by one equation each -/
theorem solves_eqs {p : Phase m} {o : Opts} {s : Sub} (l : List (String × ((String → Fin (m + 1) → ℝ) → Fin (m + 1) → ℝ)))
    (hl : s.sys.outs.map Var.name = l.map Prod.fst) (hn : (l.map Prod.fst).Nodup) (hd : ∀ v ∈ s.sys.ins, v.name ∉ l.map Prod.fst)
    (hsat : ∀ T, p.sat o s T ↔ ∀ r ∈ l, T r.1 = r.2 T)
    (hdep : ∀ T T', (∀ v ∈ s.sys.ins, T v.name = T' v.name) → ∀ r ∈ l, r.2 T = r.2 T')
    (hsc : ∀ T, (∀ v ∈ s.sys.ins, v.vec = false → flat (T v.name)) → ∀ v ∈ s.sys.outs, v.vec = false → ∀ r ∈ l, r.1 = v.name → flat (r.2 T)) :
    s.Solves p o := by
  have hv : ∀ v ∈ s.sys.outs, ∃ r ∈ l, r.1 = v.name := fun v hv => by
    have : v.name ∈ l.map Prod.fst := hl ▸ List.mem_map.2 ⟨v, hv, rfl⟩
    exact List.mem_map.1 this
  constructor
  · intro T hT
    have hf : ∀ r ∈ l, ((l.find? fun q => decide (q.1 = r.1)).map fun q => q.2 T).getD (T r.1) = r.2 T := by
      intro r hr
      cases h : l.find? fun q => decide (q.1 = r.1) with
      | none => simpa using List.find?_eq_none.1 h r hr
      | some q =>
        have h1 : q.1 = r.1 := by simpa using List.find?_some h
        have : q = r := List.inj_on_of_nodup_map hn (List.mem_of_find?_eq_some h) hr h1
        subst this
        rfl
    have hne : ∀ n, n ∉ l.map Prod.fst → ((l.find? fun q => decide (q.1 = n)).map fun q => q.2 T).getD (T n) = T n := by
      intro n hm
      cases h : l.find? fun q => decide (q.1 = n) with
      | none => rfl
      | some q =>
        have h1 : q.1 = n := by simpa using List.find?_some h
        exact absurd (List.mem_map.2 ⟨q, List.mem_of_find?_eq_some h, h1⟩) hm
    refine ⟨fun n => ((l.find? fun q => decide (q.1 = n)).map fun q => q.2 T).getD (T n), ?_, fun n hm => hne n (hl ▸ hm), ?_⟩
    · rw [hsat]
      intro r hr
      rw [hf r hr]
      exact hdep _ _ (fun v hv => (hne _ (hd v hv)).symm) r hr
    · intro v hvo hvec
      obtain ⟨r, hr, he⟩ := hv v hvo
      rw [← he]
      simp only
      rw [hf r hr]
      exact hsc T hT v hvo hvec r hr he
  · intro T T' h h' hi v hvo _
    obtain ⟨r, hr, he⟩ := hv v hvo
    rw [← he, (hsat T).1 h r hr, (hsat T').1 h' r hr]
    exact hdep T T' (fun v hv => hi v hv trivial) r hr

/-- A phase whose connections go forward has a converged state for all values of its inputs … -/
theorem phase_exists {p : Phase m} {o : Opts} {l : List Sub} (F : Forward p.grp l) (h : ∀ s ∈ l, s.Solves p o)
    (hc : ∀ c ∈ p.coupled, c.1 ∈ l.map Sub.name) (E₀ : String → Fin (m + 1) → ℝ)
    (hi : ∀ v ∈ p.grp.ins, v.vec = false → ∀ a, E₀ v.name a = E₀ v.name 0) :
    ∃ E, p.Rel o E ∧ ∀ n, n ∉ p.grp.outs.map Var.name → E n = E₀ n := by
  have hcvs : ∀ u (x : Fin (m + 1) → ℝ), convs u u x = x := fun u x => funext fun a => by simp [convs, conv]
  obtain ⟨E, h1, h2, h3⟩ := exists_state (P := flat) (R := p.sat o) F hcvs (fun u v x hx a => by
    unfold convs
    rw [hx a]) (fun s hs => (h s hs).solvable) E₀ hi
  have hin : ∀ v ∈ p.grp.ins, E v.name = E₀ v.name := fun v hv => h2 _ fun hm => by
    obtain ⟨w, hw, he⟩ := List.mem_map.1 hm
    refine ins_not_outs F hv (List.mem_flatMap.2 ?_)
    obtain ⟨r, hr, x, hx, hx2⟩ := (outs_iff p.grp l F.perm v.name).1 ⟨w, hw, he⟩
    exact ⟨r, hr, List.mem_map.2 ⟨x, hx, hx2⟩⟩
  refine ⟨E, ⟨?_, ?_, ?_⟩, h2⟩
  · intro v hv hvec a
    rcases List.mem_append.1 hv with hv | hv
    · rw [hin v hv]
      exact hi v hv hvec a
    · exact h3 v hv hvec a
  · intro a s hs
    have := (h1 s hs).1 a
    rw [← seen_eq F E (F.perm.mem_iff.2 hs)] at this
    exact this
  · intro c hcm
    obtain ⟨s, hs, he⟩ := List.mem_map.1 (hc c hcm)
    rw [← he, seen_eq F E hs]
    exact (h1 s (F.perm.mem_iff.1 hs)).2 c hcm he.symm

/-- … and only one. -/
theorem phase_unique {p : Phase m} {o : Opts} {l : List Sub} (F : Forward p.grp l) (h : ∀ s ∈ l, s.Solves p o)
    {E E' : String → Fin (m + 1) → ℝ} (hE : p.Rel o E) (hE' : p.Rel o E') (hi : ∀ v ∈ p.grp.ins, E v.name = E' v.name) :
    ∀ v ∈ p.grp.outs, E v.name = E' v.name := by
  have hcvs : ∀ u (x : Fin (m + 1) → ℝ), convs u u x = x := fun u x => funext fun a => by simp [convs, conv]
  have key : ∀ {E}, p.Rel o E → ∀ s ∈ l, p.sat o s (p.grp.viewW convs E s.name) := by
    intro E hE s hs
    rw [← seen_eq F E hs]
    exact ⟨fun a => hE.node a s (F.perm.mem_iff.1 hs), fun c hcm he => he ▸ hE.over c hcm⟩
  intro v hv
  unfold Grp.outs at hv
  rw [List.mem_flatMap] at hv
  obtain ⟨r, hr, hv⟩ := hv
  obtain ⟨w, hw, rfl⟩ := List.mem_map.1 hv
  exact unique_from (q := fun _ => True) (R := p.sat o) F hcvs (fun _ _ _ _ _ => ⟨fun _ _ _ _ _ => trivial, fun _ _ _ => trivial⟩)
    (fun s hs => (h s hs).unique) (key hE) (key hE') (fun v hv _ => hi v hv) l [] rfl (by simp) r (F.perm.mem_iff.2 hr) w hw trivial

end Verif.Wiring
