import Verif.Model.WiringMission
import Verif.Model.RunOnce
import Mathlib.Data.List.Nodup
import Mathlib.Data.List.Perm.Basic

/-!
Groups whose connections go forward: the subsystems can be ordered such that each reads only inputs of the group and outputs of earlier
subsystems.  Such a group has exactly one converged state for given inputs if its subsystems have.

The values of a variable are in `W`: a number, or one number for each node of a phase.
-/

namespace Verif.Wiring

attribute [local instance 10000] fastString

/-- promoted name of the variable that feeds an input -/
def Grp.feed (g : Grp) (s : Sub) (v : Var) : String := g.src (s.pin.name s.name v)

/-- no subsystem reads an output of itself or of a later one -/
def Grp.fwd (g : Grp) : List Sub → Bool
  | [] => true
  | s :: l => (s.sys.ins.all fun v => (s :: l).all fun r => r.sys.outs.all fun w =>
      !decide (r.outName w = g.feed s v)) && g.fwd l

/-- distinct strings -/
def distinct (l : List String) : Bool := decide l.Nodup

/-- The subsystems in the order `l` read forward, names are distinct, connections start at outputs and scalars are fed by scalars. -/
def Grp.forward (g : Grp) (l : List Sub) : Bool :=
  distinct (l.map Sub.name) && distinct (l.flatMap fun s => s.sys.outs.map s.outName) &&
  (l.all fun s => distinct ((s.sys.outs ++ s.sys.ins).map Var.name)) &&
  (g.conns.all fun c => g.outs.any fun v => decide (v.name = c.1)) &&
  (l.all fun s => s.sys.ins.all fun v => v.vec || (g.outs ++ g.ins).all fun w =>
    !decide (w.name = g.feed s v) || !w.vec) &&
  g.fwd l

structure Forward (g : Grp) (l : List Sub) : Prop where
  perm : l.Perm g.subs
  subs : (l.map Sub.name).Nodup
  outs : (l.flatMap fun s => s.sys.outs.map s.outName).Nodup
  vars : ∀ s ∈ l, ((s.sys.outs ++ s.sys.ins).map Var.name).Nodup
  conns : ∀ c ∈ g.conns, ∃ v ∈ g.outs, v.name = c.1
  shapes : ∀ s ∈ l, ∀ v ∈ s.sys.ins, v.vec = false → ∀ w ∈ g.outs ++ g.ins, w.name = g.feed s v → w.vec = false
  fwd : g.fwd l = true

theorem Forward.of {g : Grp} {l : List Sub} (hp : l.Perm g.subs) (h : g.forward l = true) : Forward g l := by
  simp only [Grp.forward, Bool.and_eq_true, List.all_eq_true, List.any_eq_true, decide_eq_true_eq, distinct, Bool.or_eq_true,
    Bool.not_eq_true', decide_eq_false_iff_not] at h
  obtain ⟨⟨⟨⟨⟨h1, h2⟩, h3⟩, h4⟩, h5⟩, h6⟩ := h
  refine ⟨hp, h1, h2, h3, h4, ?_, h6⟩
  intro s hs v hv hvec w hw he
  rcases h5 s hs v hv with h | h
  · rw [hvec] at h; cases h
  · rcases h w hw with h | h
    · exact absurd he h
    · exact h

theorem fwd_mem {g : Grp} : ∀ {pre post : List Sub} {s : Sub}, g.fwd (pre ++ s :: post) = true →
    ∀ v ∈ s.sys.ins, ∀ r ∈ s :: post, ∀ w ∈ r.sys.outs, r.outName w ≠ g.feed s v
  | [], post, s, h => by
    simp only [List.nil_append, Grp.fwd, Bool.and_eq_true, List.all_eq_true, Bool.not_eq_true', decide_eq_false_iff_not] at h
    exact fun v hv r hr w hw => h.1 v hv r hr w hw
  | a :: pre, post, s, h => by
    simp only [List.cons_append, Grp.fwd, Bool.and_eq_true] at h
    exact fwd_mem h.2

/-! ### inputs of a group -/

theorem ins_mem {l : List Var} (f : Var → String) (acc : List Var) (n : String)
    (h : (∃ v ∈ acc, v.name = n) ∨ ∃ v ∈ l, v.name = n) :
    ∃ w ∈ l.foldl (fun l v => if (l.map Var.name).contains v.name then l else l ++ [⟨v.name, f v, v.vec, v.top⟩]) acc, w.name = n := by
  induction l generalizing acc with
  | nil => simpa using h
  | cons a l ih =>
    rw [List.foldl_cons]
    apply ih
    rcases h with ⟨v, hv, hn⟩ | ⟨v, hv, hn⟩
    · left
      split
      · exact ⟨v, hv, hn⟩
      · exact ⟨v, by simp [hv], hn⟩
    · rcases List.mem_cons.1 hv with rfl | hv
      · left
        split
        · rename_i hc
          simp only [List.contains_eq_mem, decide_eq_true_eq, List.mem_map] at hc
          obtain ⟨w, hw, he⟩ := hc
          exact ⟨w, hw, he.trans hn⟩
        · exact ⟨⟨v.name, f v, v.vec, v.top⟩, by simp, hn⟩
      · exact Or.inr ⟨v, hv, hn⟩

theorem ins_src {l : List Var} (f : Var → String) (acc : List Var) {w : Var}
    (h : w ∈ l.foldl (fun l v => if (l.map Var.name).contains v.name then l else l ++ [⟨v.name, f v, v.vec, v.top⟩]) acc) :
    w ∈ acc ∨ ∃ v ∈ l, v.name = w.name := by
  induction l generalizing acc with
  | nil => exact Or.inl h
  | cons a l ih =>
    rw [List.foldl_cons] at h
    rcases ih _ h with h | ⟨v, hv, he⟩
    · split at h
      · exact Or.inl h
      · rcases List.mem_append.1 h with h | h
        · exact Or.inl h
        · rw [List.mem_singleton] at h
          exact Or.inr ⟨a, by simp, by rw [h]⟩
    · exact Or.inr ⟨v, by simp [hv], he⟩

theorem outs_iff (g : Grp) (l : List Sub) (hp : l.Perm g.subs) (n : String) :
    (∃ v ∈ g.outs, v.name = n) ↔ ∃ r ∈ l, ∃ w ∈ r.sys.outs, r.outName w = n := by
  simp only [Grp.outs, List.mem_flatMap, List.mem_map, Sub.outName]
  constructor
  · rintro ⟨v, ⟨s, hs, w, hw, rfl⟩, he⟩
    exact ⟨s, hp.mem_iff.2 hs, w, hw, he⟩
  · rintro ⟨s, hs, w, hw, he⟩
    exact ⟨_, ⟨s, hp.mem_iff.1 hs, w, hw, rfl⟩, he⟩

theorem src_conn (g : Grp) (t : String) : g.src t = t ∨ ∃ c ∈ g.conns, c.1 = g.src t := by
  unfold Grp.src
  cases h : g.conns.find? fun c => c.2 == t with
  | none => exact Or.inl (by simp)
  | some c => exact Or.inr ⟨c, List.mem_of_find?_eq_some h, by simp⟩

/-- an input is fed by an output, or it is an input of the group -/
theorem feed_cases {g : Grp} {l : List Sub} (F : Forward g l) {s : Sub} (hs : s ∈ l) {v : Var} (hv : v ∈ s.sys.ins) :
    (∃ r ∈ l, ∃ w ∈ r.sys.outs, r.outName w = g.feed s v) ∨ ∃ w ∈ g.ins, w.name = g.feed s v := by
  by_cases h : ∃ w ∈ g.outs, w.name = g.feed s v
  · exact Or.inl ((outs_iff g l F.perm _).1 h)
  · right
    have hsrc : g.src (s.pin.name s.name v) = s.pin.name s.name v := by
      rcases src_conn g (s.pin.name s.name v) with h1 | ⟨c, hc, he⟩
      · exact h1
      · obtain ⟨w, hw, hwe⟩ := F.conns c hc
        exact absurd ⟨w, hw, hwe.trans he⟩ h
    unfold Grp.ins
    apply ins_mem (f := fun v => (g.defaults.lookup v.name).getD v.unit)
    right
    refine ⟨⟨s.pin.name s.name v, v.unit, v.vec, s.pin.covers v⟩, ?_, hsrc.symm⟩
    rw [List.mem_filter]
    refine ⟨?_, ?_⟩
    · unfold Grp.targets
      rw [List.mem_flatMap]
      exact ⟨s, F.perm.mem_iff.1 hs, List.mem_map.2 ⟨v, hv, rfl⟩⟩
    · simp only [List.contains_eq_mem, Bool.not_eq_true', decide_eq_false_iff_not, List.mem_map]
      exact h

/-- inputs of the group are not outputs -/
theorem ins_not_outs {g : Grp} {l : List Sub} (F : Forward g l) {w : Var} (hw : w ∈ g.ins) :
    w.name ∉ l.flatMap fun s => s.sys.outs.map s.outName := by
  unfold Grp.ins at hw
  rcases ins_src (f := fun v => (g.defaults.lookup v.name).getD v.unit) _ hw with h | ⟨v, hv, he⟩
  · cases h
  · rw [List.mem_filter] at hv
    have hno : ¬∃ u ∈ g.outs, u.name = g.src v.name := by
      simpa only [List.contains_eq_mem, Bool.not_eq_true', decide_eq_false_iff_not, List.mem_map] using hv.2
    have hsrc : g.src v.name = v.name := by
      rcases src_conn g v.name with h1 | ⟨c, hc, hce⟩
      · exact h1
      · obtain ⟨u, hu, hue⟩ := F.conns c hc
        exact absurd ⟨u, hu, hue.trans hce⟩ hno
    intro hmem
    rw [List.mem_flatMap] at hmem
    obtain ⟨r, hr, hm⟩ := hmem
    obtain ⟨u, hu, hue⟩ := List.mem_map.1 hm
    exact hno ((outs_iff g l F.perm _).2 ⟨r, hr, u, hu, by rw [hue, hsrc, he]⟩)

/-! ### views -/

section

variable {W : Type} [Zero W] (cv : String → String → W → W)

/-- value of variable `x` of subsystem `s` -/
def lookW (e : String → W) (s x : String) : List Link → W
  | [] => 0
  | k :: l => if k.sub = s ∧ k.var = x then cv k.unit k.want (e k.src) else lookW e s x l

theorem lookW_congr {e e' : String → W} {s x : String} {l : List Link} (h : ∀ k ∈ l, k.sub = s → e k.src = e' k.src) :
    lookW cv e s x l = lookW cv e' s x l := by
  induction l with
  | nil => rfl
  | cons a l ih =>
    simp only [lookW]
    split
    · rename_i hc
      rw [h a (by simp) hc.1]
    · exact ih fun k hk => h k (by simp [hk])

theorem lookW_none {e : String → W} {s x : String} {l : List Link} (h : ∀ k ∈ l, ¬(k.sub = s ∧ k.var = x)) : lookW cv e s x l = 0 := by
  induction l with
  | nil => rfl
  | cons a l ih =>
    rw [lookW, if_neg (h a (by simp))]
    exact ih fun k hk => h k (by simp [hk])

theorem lookW_mem {e : String → W} {l : List Link} (hn : (l.map fun k => (k.sub, k.var)).Nodup) {k : Link} (hk : k ∈ l) :
    lookW cv e k.sub k.var l = cv k.unit k.want (e k.src) := by
  induction l with
  | nil => cases hk
  | cons a l ih =>
    rw [List.map_cons, List.nodup_cons] at hn
    rcases List.mem_cons.1 hk with rfl | hk
    · simp [lookW]
    · have : ¬(a.sub = k.sub ∧ a.var = k.var) := by
        rintro ⟨h1, h2⟩
        exact hn.1 (List.mem_map.2 ⟨k, hk, by rw [h1, h2]⟩)
      rw [lookW, if_neg this]
      exact ih hn.2 hk

def Grp.viewW (g : Grp) (e : String → W) (s x : String) : W := lookW cv e s x g.links

end

theorem mem_links {g : Grp} {k : Link} : k ∈ g.links ↔ ∃ s ∈ g.subs, k.sub = s.name ∧
    ((∃ v ∈ s.sys.outs, k = ⟨s.name, v.name, s.outName v, v.unit, v.unit⟩) ∨
      ∃ v ∈ s.sys.ins, k = ⟨s.name, v.name, g.feed s v, g.unitOf (g.feed s v), v.unit⟩) := by
  unfold Grp.links
  rw [List.mem_flatMap]
  constructor
  · rintro ⟨s, hs, hk⟩
    refine ⟨s, hs, ?_⟩
    rw [List.mem_append, List.mem_map, List.mem_map] at hk
    rcases hk with ⟨v, hv, rfl⟩ | ⟨v, hv, rfl⟩
    · exact ⟨rfl, Or.inl ⟨v, hv, rfl⟩⟩
    · exact ⟨rfl, Or.inr ⟨v, hv, rfl⟩⟩
  · rintro ⟨s, hs, -, h⟩
    refine ⟨s, hs, ?_⟩
    rw [List.mem_append, List.mem_map, List.mem_map]
    rcases h with ⟨v, hv, rfl⟩ | ⟨v, hv, rfl⟩
    · exact Or.inl ⟨v, hv, rfl⟩
    · exact Or.inr ⟨v, hv, rfl⟩

theorem links_nodup {g : Grp} {l : List Sub} (F : Forward g l) : (g.links.map fun k => (k.sub, k.var)).Nodup := by
  have h1 : (g.subs.map Sub.name).Nodup := (F.perm.map _).nodup_iff.1 F.subs
  have h2 : ∀ s ∈ g.subs, ((s.sys.outs ++ s.sys.ins).map Var.name).Nodup := fun s hs => F.vars s (F.perm.mem_iff.2 hs)
  have h3 : (g.links.map fun k => (k.sub, k.var)) =
      g.subs.flatMap fun s => ((s.sys.outs ++ s.sys.ins).map Var.name).map fun x => (s.name, x) := by
    unfold Grp.links
    rw [List.map_flatMap]
    congr 1
    funext s
    simp
    rfl
  rw [h3]
  clear h3
  revert h1 h2
  generalize g.subs = L
  intro h1 h2
  induction L with
  | nil => simp
  | cons s L ih =>
    rw [List.map_cons, List.nodup_cons] at h1
    rw [List.flatMap_cons]
    apply List.Nodup.append
    · exact (h2 s (by simp)).map fun a b hab => (Prod.mk.inj hab).2
    · exact ih h1.2 fun t ht => h2 t (by simp [ht])
    · intro p hp hq
      rw [List.mem_map] at hp
      obtain ⟨x, -, rfl⟩ := hp
      rw [List.mem_flatMap] at hq
      obtain ⟨t, ht, hq⟩ := hq
      obtain ⟨y, -, he⟩ := List.mem_map.1 hq
      apply h1.1
      rw [← (Prod.mk.inj he).1]
      exact List.mem_map_of_mem ht

theorem look_eq (e : String → ℝ) (s x : String) (l : List Link) : look e s x l = lookW conv e s x l := by
  induction l with
  | nil => rfl
  | cons a l ih => rw [look, lookW, ih]

theorem view_eq (g : Grp) (e : String → ℝ) (s : String) : g.view e s = g.viewW conv e s := by
  funext x
  exact look_eq e s x _

/-! ### solutions -/

section

variable {W : Type} [Zero W] {cv : String → String → W → W} {P : W → Prop} {R : Sub → (String → W) → Prop}

/-- what a subsystem reads from an input -/
theorem view_in {g : Grp} {l : List Sub} (F : Forward g l) {s : Sub} (hs : s ∈ l) {v : Var} (hv : v ∈ s.sys.ins) (e : String → W) :
    g.viewW cv e s.name v.name = cv (g.unitOf (g.feed s v)) v.unit (e (g.feed s v)) :=
  lookW_mem cv (links_nodup F) (k := ⟨s.name, v.name, g.feed s v, g.unitOf (g.feed s v), v.unit⟩)
    (mem_links.2 ⟨s, F.perm.mem_iff.1 hs, rfl, Or.inr ⟨v, hv, rfl⟩⟩)

/-- and from an output -/
theorem view_out {g : Grp} {l : List Sub} (F : Forward g l) (hcv : ∀ u x, cv u u x = x) {s : Sub} (hs : s ∈ l) {v : Var}
    (hv : v ∈ s.sys.outs) (e : String → W) : g.viewW cv e s.name v.name = e (s.outName v) := by
  have := lookW_mem cv (e := e) (links_nodup F) (k := ⟨s.name, v.name, s.outName v, v.unit, v.unit⟩)
    (mem_links.2 ⟨s, F.perm.mem_iff.1 hs, rfl, Or.inl ⟨v, hv, rfl⟩⟩)
  rwa [hcv] at this

/-- other variables are not there -/
theorem view_zero {g : Grp} {l : List Sub} (F : Forward g l) {s : Sub} (hs : s ∈ l) {x : String}
    (ho : x ∉ s.sys.outs.map Var.name) (hi : x ∉ s.sys.ins.map Var.name) (e : String → W) : g.viewW cv e s.name x = 0 := by
  apply lookW_none
  rintro k hk ⟨h1, h2⟩
  obtain ⟨t, ht, h3, h⟩ := mem_links.1 hk
  have : t = s := List.inj_on_of_nodup_map F.subs (F.perm.mem_iff.2 ht) hs (h3.symm.trans h1)
  subst this
  rcases h with ⟨v, hv, rfl⟩ | ⟨v, hv, rfl⟩
  · exact ho (List.mem_map.2 ⟨v, hv, h2⟩)
  · exact hi (List.mem_map.2 ⟨v, hv, h2⟩)

/-- The outputs of `s` can be found for all values of its inputs.  `P` holds of scalars. -/
def Solvable (P : W → Prop) (R : Sub → (String → W) → Prop) (s : Sub) : Prop :=
  ∀ T : String → W, (∀ v ∈ s.sys.ins, v.vec = false → P (T v.name)) →
    ∃ T', R s T' ∧ (∀ n, n ∉ s.sys.outs.map Var.name → T' n = T n) ∧ ∀ v ∈ s.sys.outs, v.vec = false → P (T' v.name)

omit [Zero W] in
theorem put_out {s : Sub} (hn : (s.sys.outs.map s.outName).Nodup) (T e : String → W) {v : Var} (hv : v ∈ s.sys.outs) :
    put s T e (s.outName v) = T v.name := by
  unfold put
  cases h : s.sys.outs.find? fun w => decide (s.outName w = s.outName v) with
  | none =>
    have := List.find?_eq_none.1 h v hv
    simp at this
  | some w =>
    have h1 : s.outName w = s.outName v := by simpa using List.find?_some h
    have : w = v := List.inj_on_of_nodup_map hn (List.mem_of_find?_eq_some h) hv h1
    subst this
    rfl

omit [Zero W] in
theorem put_other {s : Sub} (T e : String → W) {n : String} (h : n ∉ s.sys.outs.map s.outName) : put s T e n = e n := by
  unfold put
  cases hf : s.sys.outs.find? fun w => decide (s.outName w = n) with
  | none => rfl
  | some w =>
    have h1 : s.outName w = n := by simpa using List.find?_some hf
    exact absurd (List.mem_map.2 ⟨w, List.mem_of_find?_eq_some hf, h1⟩) h

theorem nodup_part {l : List Sub} (f : Sub → List String) (h : (l.flatMap f).Nodup) {s : Sub} (hs : s ∈ l) : (f s).Nodup :=
  (List.nodup_flatMap.1 h).1 s hs

theorem exists_from {g : Grp} {l : List Sub} (F : Forward g l) (hcv : ∀ u x, cv u u x = x) (hP : ∀ u v x, P x → P (cv u v x))
    (hR : ∀ s ∈ l, Solvable P R s) : ∀ (post pre : List Sub), pre ++ post = l → ∀ e : String → W,
    (∀ v ∈ g.ins, v.vec = false → P (e v.name)) → (∀ s ∈ pre, R s (g.viewW cv e s.name)) →
    (∀ s ∈ pre, ∀ v ∈ s.sys.outs, v.vec = false → P (e (s.outName v))) →
    ∃ e', (∀ s ∈ l, R s (g.viewW cv e' s.name)) ∧ (∀ n, n ∉ post.flatMap (fun s => s.sys.outs.map s.outName) → e' n = e n) ∧
      ∀ s ∈ l, ∀ v ∈ s.sys.outs, v.vec = false → P (e' (s.outName v))
  | [], pre, hl, e, _, h1, h2 => by
    rw [List.append_nil] at hl
    subst hl
    exact ⟨e, h1, fun _ _ => rfl, h2⟩
  | s :: post, pre, hl, e, hi, h1, h2 => by
    have hs : s ∈ l := by rw [← hl]; simp
    have hfwd := fwd_mem (hl ▸ F.fwd : g.fwd (pre ++ s :: post) = true)
    have houts := F.outs
    rw [← hl, List.flatMap_append, List.flatMap_cons] at houts
    have hso : (s.sys.outs.map s.outName).Nodup := nodup_part _ F.outs hs
    -- scalars that `s` reads
    have hin : ∀ v ∈ s.sys.ins, v.vec = false → P (g.viewW cv e s.name v.name) := by
      intro v hv hvec
      rw [view_in F hs hv]
      apply hP
      rcases feed_cases F hs hv with ⟨r, hr, w, hw, he⟩ | ⟨w, hw, he⟩
      · have hwv : w.vec = false := by
          have := F.shapes s hs v hv hvec ⟨r.outName w, w.unit, w.vec, r.pout.covers w⟩ (List.mem_append_left _ (by
            unfold Grp.outs
            rw [List.mem_flatMap]
            exact ⟨r, F.perm.mem_iff.1 hr, List.mem_map.2 ⟨w, hw, rfl⟩⟩)) he
          exact this
        rw [← hl] at hr
        rcases List.mem_append.1 hr with hr | hr
        · rw [← he]
          exact h2 r hr w hw hwv
        · exact absurd he (hfwd v hv r hr w hw)
      · rw [← he]
        exact hi w hw (F.shapes s hs v hv hvec w (List.mem_append_right _ hw) he)
    obtain ⟨T, hT, hT1, hT2⟩ := hR s hs _ hin
    -- the outputs of `s` do not feed the inputs of `s` nor earlier subsystems
    have hview : g.viewW cv (put s T e) s.name = T := by
      funext x
      by_cases ho : x ∈ s.sys.outs.map Var.name
      · obtain ⟨v, hv, rfl⟩ := List.mem_map.1 ho
        rw [view_out F hcv hs hv, put_out hso _ _ hv]
      · rw [hT1 x ho]
        by_cases hx : x ∈ s.sys.ins.map Var.name
        · obtain ⟨v, hv, rfl⟩ := List.mem_map.1 hx
          rw [view_in F hs hv, view_in F hs hv, put_other]
          rw [List.mem_map]
          rintro ⟨w, hw, he⟩
          exact hfwd v hv s (by simp) w hw he
        · rw [view_zero F hs ho hx, view_zero F hs ho hx]
    have hpre : ∀ r ∈ pre, g.viewW cv (put s T e) r.name = g.viewW cv e r.name := by
      intro r hr
      have hrl : r ∈ l := by rw [← hl]; simp [hr]
      funext x
      by_cases ho : x ∈ r.sys.outs.map Var.name
      · obtain ⟨v, hv, rfl⟩ := List.mem_map.1 ho
        rw [view_out F hcv hrl hv, view_out F hcv hrl hv, put_other]
        intro hm
        exact List.disjoint_of_nodup_append houts (List.mem_flatMap.2 ⟨r, hr, List.mem_map.2 ⟨v, hv, rfl⟩⟩)
          (List.mem_append_left _ hm)
      · by_cases hx : x ∈ r.sys.ins.map Var.name
        · obtain ⟨v, hv, rfl⟩ := List.mem_map.1 hx
          rw [view_in F hrl hv, view_in F hrl hv, put_other]
          rw [List.mem_map]
          rintro ⟨w, hw, he⟩
          obtain ⟨p, q, rfl⟩ := List.append_of_mem hr
          have := F.fwd
          rw [← hl, List.append_assoc, List.cons_append] at this
          exact fwd_mem this v hv s (by simp) w hw he
        · rw [view_zero F hrl ho hx, view_zero F hrl ho hx]
    have g1 : ∀ v ∈ g.ins, v.vec = false → P (put s T e v.name) := by
      intro v hv hvec
      rw [put_other]
      · exact hi v hv hvec
      · intro hm
        exact ins_not_outs F hv (List.mem_flatMap.2 ⟨s, hs, hm⟩)
    have g2 : ∀ r ∈ pre ++ [s], R r (g.viewW cv (put s T e) r.name) := by
      intro r hr
      rcases List.mem_append.1 hr with hr | hr
      · rw [hpre r hr]
        exact h1 r hr
      · rw [List.mem_singleton] at hr
        subst hr
        rw [hview]
        exact hT
    have g3 : ∀ r ∈ pre ++ [s], ∀ v ∈ r.sys.outs, v.vec = false → P (put s T e (r.outName v)) := by
      intro r hr v hv hvec
      rcases List.mem_append.1 hr with hr | hr
      · rw [put_other]
        · exact h2 r hr v hv hvec
        · intro hm
          exact List.disjoint_of_nodup_append houts (List.mem_flatMap.2 ⟨r, hr, List.mem_map.2 ⟨v, hv, rfl⟩⟩)
            (List.mem_append_left _ hm)
      · rw [List.mem_singleton] at hr
        subst hr
        rw [put_out hso _ _ hv]
        exact hT2 v hv hvec
    obtain ⟨e', he1, he2, he3⟩ := exists_from F hcv hP hR post (pre ++ [s]) (by rw [← hl]; simp) (put s T e) g1 g2 g3
    refine ⟨e', he1, ?_, he3⟩
    intro n hn
    rw [List.flatMap_cons, List.mem_append, not_or] at hn
    rw [he2 n hn.2, put_other _ _ hn.1]

/-- a forward group of solvable subsystems is solvable -/
theorem exists_state {g : Grp} {l : List Sub} (F : Forward g l) (hcv : ∀ u x, cv u u x = x) (hP : ∀ u v x, P x → P (cv u v x))
    (hR : ∀ s ∈ l, Solvable P R s) (e : String → W) (hi : ∀ v ∈ g.ins, v.vec = false → P (e v.name)) :
    ∃ e', (∀ s ∈ g.subs, R s (g.viewW cv e' s.name)) ∧ (∀ n, n ∉ g.outs.map Var.name → e' n = e n) ∧
      ∀ v ∈ g.outs, v.vec = false → P (e' v.name) := by
  obtain ⟨e', h1, h2, h3⟩ := exists_from F hcv hP hR l [] rfl e hi (by simp) (by simp)
  refine ⟨e', fun s hs => h1 s (F.perm.mem_iff.2 hs), fun n hn => h2 n ?_, ?_⟩
  · intro hm
    rw [List.mem_flatMap] at hm
    obtain ⟨r, hr, hm⟩ := hm
    obtain ⟨v, hv, he⟩ := List.mem_map.1 hm
    exact hn (List.mem_map.2 ((outs_iff g l F.perm n).2 ⟨r, hr, v, hv, he⟩))
  · intro v hv hvec
    unfold Grp.outs at hv
    rw [List.mem_flatMap] at hv
    obtain ⟨s, hs, hv⟩ := hv
    obtain ⟨w, hw, rfl⟩ := List.mem_map.1 hv
    exact h3 s (F.perm.mem_iff.2 hs) w hw hvec

/-- the outputs of `s` that satisfy `q` are determined by the inputs that satisfy `q` -/
def Unique (q : Var → Prop) (R : Sub → (String → W) → Prop) (s : Sub) : Prop :=
  ∀ T T' : String → W, R s T → R s T' → (∀ v ∈ s.sys.ins, q v → T v.name = T' v.name) →
    ∀ v ∈ s.sys.outs, q v → T v.name = T' v.name

theorem unique_from {g : Grp} {l : List Sub} (F : Forward g l) (hcv : ∀ u x, cv u u x = x) {q : Var → Prop}
    (hq : ∀ s ∈ l, ∀ v ∈ s.sys.ins, q v → (∀ r ∈ l, ∀ w ∈ r.sys.outs, r.outName w = g.feed s v → q w) ∧
      ∀ w ∈ g.ins, w.name = g.feed s v → q w)
    (hR : ∀ s ∈ l, Unique q R s) {e e' : String → W} (he : ∀ s ∈ l, R s (g.viewW cv e s.name))
    (he' : ∀ s ∈ l, R s (g.viewW cv e' s.name)) (hi : ∀ v ∈ g.ins, q v → e v.name = e' v.name) :
    ∀ (post pre : List Sub), pre ++ post = l → (∀ s ∈ pre, ∀ v ∈ s.sys.outs, q v → e (s.outName v) = e' (s.outName v)) →
      ∀ s ∈ l, ∀ v ∈ s.sys.outs, q v → e (s.outName v) = e' (s.outName v)
  | [], pre, hl, h => by
    rw [List.append_nil] at hl
    subst hl
    exact h
  | s :: post, pre, hl, h => by
    have hs : s ∈ l := by rw [← hl]; simp
    have hfwd := fwd_mem (hl ▸ F.fwd : g.fwd (pre ++ s :: post) = true)
    apply unique_from F hcv hq hR he he' hi post (pre ++ [s]) (by rw [← hl]; simp)
    intro r hr v hv hqv
    rcases List.mem_append.1 hr with hr | hr
    · exact h r hr v hv hqv
    · rw [List.mem_singleton] at hr
      subst hr
      have := hR r hs _ _ (he r hs) (he' r hs) ?_ v hv hqv
      · rwa [view_out F hcv hs hv, view_out F hcv hs hv] at this
      · intro u hu hqu
        rw [view_in F hs hu, view_in F hs hu]
        congr 1
        obtain ⟨q1, q2⟩ := hq r hs u hu hqu
        rcases feed_cases F hs hu with ⟨t, ht, w, hw, hwe⟩ | ⟨w, hw, hwe⟩
        · have hqw := q1 t ht w hw hwe
          rw [← hl] at ht
          rcases List.mem_append.1 ht with ht | ht
          · rw [← hwe]
            exact h t ht w hw hqw
          · exact absurd hwe (hfwd u hu t ht w hw)
        · rw [← hwe]
          exact hi w hw (q2 w hw hwe)

end

end Verif.Wiring
