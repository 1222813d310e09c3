import Verif.Model.ConcatComp
import Verif.Props.ConcatSplit

/-! Property C112: concatenating and splitting components with several relations. -/

namespace Verif.Concat

open Verif.Utils

/-! ### variables -/

/-- the variables of a relation, the whole first; `i` says whether the whole is the input -/
def Rel.vars (r : Rel) (i : Bool) : List Var :=
  ⟨r.whole, i, r.sizes.sum, r.length, r.units⟩ :: (r.parts.zip r.sizes).map fun p => ⟨p.1, !i, p.2, r.length, r.units⟩

/-- all names that a component uses -/
def allNames (rs : List Rel) : List String := rs.flatMap fun r => r.whole :: r.parts

theorem register_all (l : List Var) (vs : List Var) (h : (vs.map Var.name).Nodup) (w : List Var) :
    l.foldlM register vs = .ok w ↔ ((vs ++ l).map Var.name).Nodup ∧ w = vs ++ l := by
  induction l generalizing vs with
  | nil => simp [h, pure, Except.pure, eq_comm]
  | cons v l ih =>
    rw [List.foldlM_cons]
    by_cases hv : v.name ∈ vs.map Var.name
    · have : register vs v = .error .nameExists := by rw [register, if_pos hv]
      rw [this]
      constructor
      · intro h'; simp [bind, Except.bind] at h'
      · rintro ⟨h', -⟩
        rw [List.map_append, List.nodup_append] at h'
        exact absurd rfl (h'.2.2 _ hv _ (by simp))
    · have : register vs v = .ok (vs ++ [v]) := by rw [register, if_neg hv]
      rw [this]
      have h2 : ((vs ++ [v]).map Var.name).Nodup := by
        rw [List.map_append, List.nodup_append]
        refine ⟨h, by simp, ?_⟩
        rintro a ha b hb rfl
        simp at hb; subst hb; exact hv ha
      have := ih (vs ++ [v]) h2
      simpa [bind, Except.bind] using this

theorem rel_eq (vs : List Var) (r : Rel) :
    concatRel vs r = (if r.sizes.length ≠ r.parts.length then .error .sizesLength else (r.vars false).foldlM register vs) ∧
    splitRel vs r = (if r.sizes.length ≠ r.parts.length then .error .sizesLength else (r.vars true).foldlM register vs) := by
  unfold concatRel splitRel Rel.vars
  constructor <;> split_ifs <;> simp [List.foldlM_cons, List.foldlM_map]

theorem vars_all (b : Bool) (f : List Var → Rel → Except Err (List Var))
    (hf : ∀ vs r, f vs r = if r.sizes.length ≠ r.parts.length then .error .sizesLength else (r.vars b).foldlM register vs)
    (rs : List Rel) (vs : List Var) (h : (vs.map Var.name).Nodup) (w : List Var) :
    rs.foldlM f vs = .ok w ↔ (∀ r ∈ rs, r.sizes.length = r.parts.length) ∧
      ((vs ++ rs.flatMap (Rel.vars · b)).map Var.name).Nodup ∧ w = vs ++ rs.flatMap (Rel.vars · b) := by
  induction rs generalizing vs with
  | nil => simp [h, pure, Except.pure, eq_comm]
  | cons r rs ih =>
    rw [List.foldlM_cons, hf]
    by_cases hl : r.sizes.length = r.parts.length
    · rw [if_neg (by simpa using hl)]
      cases he : (r.vars b).foldlM register vs with
      | error e =>
        constructor
        · intro h'; simp [bind, Except.bind] at h'
        · rintro ⟨-, h2, -⟩
          have : ((vs ++ r.vars b).map Var.name).Nodup := by
            rw [List.flatMap_cons, ← List.append_assoc, List.map_append, List.nodup_append] at h2
            exact h2.1
          rw [(register_all (r.vars b) vs h (vs ++ r.vars b)).2 ⟨this, rfl⟩] at he
          simp at he
      | ok u =>
        obtain ⟨h1, rfl⟩ := (register_all (r.vars b) vs h u).1 he
        have := ih (vs ++ r.vars b) h1
        simpa [bind, Except.bind, hl] using this
    · rw [if_pos hl]
      simp [bind, Except.bind, hl]

theorem names_eq (b : Bool) (rs : List Rel) (h : ∀ r ∈ rs, r.sizes.length = r.parts.length) :
    (rs.flatMap (Rel.vars · b)).map Var.name = allNames rs := by
  induction rs with
  | nil => rfl
  | cons r rs ih =>
    have e : (r.vars b).map Var.name = r.whole :: r.parts := by
      simp only [Rel.vars, List.map_cons, List.map_map, List.cons.injEq, true_and]
      have : (Var.name ∘ fun p : String × ℕ => (⟨p.1, !b, p.2, r.length, r.units⟩ : Var)) = Prod.fst := rfl
      rw [this, List.map_fst_zip (by rw [h r (by simp)])]
    unfold allNames at ih ⊢
    rw [List.flatMap_cons, List.flatMap_cons, List.map_append, e, ih fun r hr => h r (by simp [hr])]

/-- the component can be set up -/
def Ok (rs : List Rel) : Prop := (∀ r ∈ rs, r.sizes.length = r.parts.length) ∧ (allNames rs).Nodup

/-- C112.  `setup` of either component succeeds exactly if every relation has as many sizes as parts and no name occurs twice, be it
in one relation or in two.  It declares, relation by relation, the whole with the sum of the sizes and each part with its size,
all with the number of columns and the unit of the relation. -/
theorem C112_setup (rs : List Rel) (w : List Var) :
    (concatVars rs = .ok w ↔ Ok rs ∧ w = rs.flatMap (Rel.vars · false)) ∧
    (splitVars rs = .ok w ↔ Ok rs ∧ w = rs.flatMap (Rel.vars · true)) := by
  unfold concatVars splitVars
  rw [vars_all false concatRel (fun vs r => (rel_eq vs r).1) rs [] (by simp) w,
    vars_all true splitRel (fun vs r => (rel_eq vs r).2) rs [] (by simp) w]
  simp only [List.nil_append, Ok]
  constructor
  · constructor
    · rintro ⟨h1, h2, h3⟩; exact ⟨⟨h1, names_eq false rs h1 ▸ h2⟩, h3⟩
    · rintro ⟨⟨h1, h2⟩, h3⟩; exact ⟨h1, (names_eq false rs h1).symm ▸ h2, h3⟩
  · constructor
    · rintro ⟨h1, h2, h3⟩; exact ⟨⟨h1, names_eq true rs h1 ▸ h2⟩, h3⟩
    · rintro ⟨⟨h1, h2⟩, h3⟩; exact ⟨h1, (names_eq true rs h1).symm ▸ h2, h3⟩

/-- C112.  A variable cannot be a part of two relations, unlike the inputs of `AddSubtractComp`. -/
theorem C112_shared_part (r s : Rel) (rs₁ rs₂ rs₃ : List Rel) (n : String) (h1 : n ∈ r.parts) (h2 : n ∈ s.parts) :
    (∀ w, concatVars (rs₁ ++ r :: rs₂ ++ s :: rs₃) ≠ .ok w) ∧ ∀ w, splitVars (rs₁ ++ r :: rs₂ ++ s :: rs₃) ≠ .ok w := by
  have key : ¬ Ok (rs₁ ++ r :: rs₂ ++ s :: rs₃) := by
    rintro ⟨-, h⟩
    simp only [allNames, List.flatMap_append, List.flatMap_cons] at h
    rw [List.nodup_append] at h
    exact h.2.2 n (by simp [h1]) n (by simp [h2]) rfl
  exact ⟨fun w hw => key ((C112_setup _ w).1.1 hw).1, fun w hw => key ((C112_setup _ w).2.1 hw).1⟩

/-! ### constructor and `add_relation` -/

/-- C112.  A component made with arguments is the same as an empty one with one call of `add_relation`; several wholes at once, an
argument of another type and parts or sizes that cannot be iterated are refused; a single part may be given by its name. -/
theorem C112_init (s : String) (parts : Arg) (sizes : Option (List ℕ)) (length : ℕ) (units : Option String) :
    init (.str s) parts sizes length units = addRelation [] s parts sizes length units ∧
    init .none parts sizes length units = .ok [] ∧
    (∀ l, init (.iter l) parts sizes length units = .error .notImplemented) ∧
    init .other parts sizes length units = .error .badArgument ∧
    (∀ rs p, addRelation rs s (.str p) sizes length units = addRelation rs s (.iter [p]) sizes length units) ∧
    ∀ rs, addRelation rs s .none sizes length units = .error .notLists ∧
      addRelation rs s .other sizes length units = .error .notLists ∧
      addRelation rs s parts none length units = .error .notLists := by
  refine ⟨?_, rfl, fun _ => rfl, rfl, fun rs p => ?_, fun rs => ⟨?_, ?_, rfl⟩⟩
  · cases sizes <;> cases parts <;> rfl
  · cases sizes <;> rfl
  · cases sizes <;> rfl
  · cases sizes <;> rfl

/-- calls of `add_relation` one after the other -/
def addAll (rs : List Rel) (l : List Rel) : Except Err (List Rel) :=
  l.foldlM (fun rs r => addRelation rs r.whole (.iter r.parts) (some r.sizes) r.length r.units) rs

/-- C112.  `add_relation` keeps the earlier relations and their order. -/
theorem C112_add_relation (rs l : List Rel) : addAll rs l = .ok (rs ++ l) := by
  unfold addAll
  induction l generalizing rs with
  | nil => simp [pure, Except.pure]
  | cons r l ih =>
    rw [List.foldlM_cons]
    have : addRelation rs r.whole (.iter r.parts) (some r.sizes) r.length r.units = .ok (rs ++ [r]) := rfl
    rw [this]
    simpa [bind, Except.bind] using ih (rs ++ [r])

/-! ### compute -/

theorem whole_ne {rs : List Rel} (h : Ok rs) {r s : Rel} (hr : r ∈ rs) (hs : s ∈ rs) (hw : r.whole = s.whole) : r = s := by
  replace h := h.2
  unfold allNames at h
  induction rs with
  | nil => simp at hr
  | cons t rs ih =>
    rw [List.flatMap_cons, List.nodup_append] at h
    obtain ⟨-, h2, h3⟩ := h
    simp only [List.mem_cons] at hr hs
    rcases hr with rfl | hr <;> rcases hs with rfl | hs
    · rfl
    · exact absurd hw (h3 _ (by simp) _ (List.mem_flatMap.2 ⟨s, hs, by simp⟩))
    · exact absurd hw.symm (h3 _ (by simp) _ (List.mem_flatMap.2 ⟨r, hr, by simp⟩))
    · exact ih hr hs h2

theorem part_ne {rs : List Rel} (h : Ok rs) {r s : Rel} (hr : r ∈ rs) (hs : s ∈ rs) {n : String} (h1 : n ∈ r.parts)
    (h2 : n ∈ s.parts) : r = s := by
  replace h := h.2
  unfold allNames at h
  induction rs with
  | nil => simp at hr
  | cons t rs ih =>
    rw [List.flatMap_cons, List.nodup_append] at h
    obtain ⟨-, h2', h3⟩ := h
    simp only [List.mem_cons] at hr hs
    rcases hr with rfl | hr <;> rcases hs with rfl | hs
    · rfl
    · exact absurd rfl (h3 n (by simp [h1]) n (List.mem_flatMap.2 ⟨s, hs, by simp [h2]⟩))
    · exact absurd rfl (h3 n (by simp [h2]) n (List.mem_flatMap.2 ⟨r, hr, by simp [h1]⟩))
    · exact ih hr hs h2'

theorem parts_nodup {rs : List Rel} (h : Ok rs) {r : Rel} (hr : r ∈ rs) : r.parts.Nodup := by
  have h := h.2
  unfold allNames at h
  have := (List.nodup_flatMap.1 h).1 r hr
  exact (List.nodup_cons.1 this).2

/-- assignments one after the other: what is assigned once is kept -/
theorem foldl_update {α : Type*} (l : List α) (key : α → String) (val : α → Arr ℝ) (out : Env) (n : String) :
    (∀ a ∈ l, key a ≠ n) → (l.foldl (fun o a => Function.update o (key a) (val a)) out) n = out n := by
  induction l generalizing out with
  | nil => intro _; rfl
  | cons a l ih =>
    intro h
    rw [List.foldl_cons, ih _ fun b hb => h b (by simp [hb]), Function.update_of_ne]
    exact fun e => h a (by simp) e.symm

theorem foldl_update_mem {α : Type*} (l : List α) (key : α → String) (val : α → Arr ℝ) (out : Env) (n : String) (v : Arr ℝ) :
    (∃ d ∈ l, key d = n) → (∀ d ∈ l, key d = n → val d = v) →
    (l.foldl (fun o a => Function.update o (key a) (val a)) out) n = v := by
  induction l generalizing out with
  | nil => rintro ⟨d, hd, -⟩; simp at hd
  | cons x l ih =>
    rintro ⟨d, hd, he⟩ hk
    rw [List.foldl_cons]
    by_cases hx : ∃ d ∈ l, key d = n
    · exact ih _ hx fun d hd => hk d (by simp [hd])
    · rw [foldl_update l key val _ _ fun a ha e => hx ⟨a, ha, e⟩]
      have : d = x := by
        simp only [List.mem_cons] at hd
        rcases hd with rfl | hd
        · rfl
        · exact absurd ⟨d, hd, he⟩ hx
      subst this
      rw [← he, Function.update_self]
      exact hk d (by simp) he

/-- C112.  After `compute` every whole of a concatenating component holds the rows of its own parts in order and nothing else is
changed. -/
theorem C112_concat {rs : List Rel} (h : Ok rs) (inputs outputs : Env) :
    (∀ r ∈ rs, concatCompute rs inputs outputs r.whole = (r.parts.map inputs).flatten) ∧
    ∀ n, (∀ r ∈ rs, r.whole ≠ n) → concatCompute rs inputs outputs n = outputs n := by
  constructor
  · intro r hr
    unfold concatCompute
    refine foldl_update_mem rs Rel.whole (fun r => concat (r.parts.map inputs)) outputs r.whole _ ⟨r, hr, rfl⟩ ?_
    intro s hs e
    rw [whole_ne h hs hr e, concat_eq]
  · intro n hn
    exact foldl_update rs Rel.whole (fun r => concat (r.parts.map inputs)) outputs n hn

/-- the assignments of `splitCompute` -/
def assigns (rs : List Rel) (inputs : Env) : List (String × Arr ℝ) :=
  rs.flatMap fun r => r.parts.zipIdx.map fun p =>
    (p.1, ((inputs r.whole).take (endIdx r.sizes p.2)).drop (startIdx r.sizes p.2))

theorem splitCompute_eq (rs : List Rel) (inputs outputs : Env) :
    splitCompute rs inputs outputs = (assigns rs inputs).foldl (fun o a => Function.update o a.1 a.2) outputs := by
  unfold splitCompute assigns
  rw [List.foldl_flatMap]
  simp only [List.foldl_map]

/-- C112.  After `compute` part `i` of a relation of a splitting component holds the rows of the whole that follow those of the
earlier parts, as many as its size, and nothing else is changed. -/
theorem C112_split {rs : List Rel} (h : Ok rs) (inputs outputs : Env) :
    (∀ r ∈ rs, ∀ i (hi : i < r.parts.length), splitCompute rs inputs outputs r.parts[i]
      = ((inputs r.whole).drop (r.sizes.take i).sum).take (r.sizes.getD i 0)) ∧
    ∀ n, (∀ r ∈ rs, n ∉ r.parts) → splitCompute rs inputs outputs n = outputs n := by
  constructor
  · intro r hr i hi
    rw [splitCompute_eq]
    refine foldl_update_mem _ Prod.fst Prod.snd outputs _ _
      ⟨(r.parts[i], ((inputs r.whole).take (endIdx r.sizes i)).drop (startIdx r.sizes i)), ?_, rfl⟩ ?_
    · refine List.mem_flatMap.2 ⟨r, hr, List.mem_map.2 ⟨(r.parts[i], i), ?_, rfl⟩⟩
      rw [List.mem_zipIdx_iff_getElem?]
      simp [hi]
    · rintro d hd e
      obtain ⟨s, hs, hd⟩ := List.mem_flatMap.1 hd
      obtain ⟨⟨n, j⟩, hj, rfl⟩ := List.mem_map.1 hd
      rw [List.mem_zipIdx_iff_getElem?] at hj
      simp only at hj e
      subst e
      have hm : r.parts[i] ∈ s.parts := List.mem_of_getElem? hj
      have : s = r := part_ne h hs hr hm (List.getElem_mem hi)
      subst this
      obtain ⟨hj', hj⟩ := List.getElem?_eq_some_iff.1 hj
      have : j = i := (List.Nodup.getElem_inj_iff (parts_nodup h hr)).1 hj
      subst this
      have hl := h.1 s hr
      have hi' : j < s.sizes.length := by rw [hl]; exact hi
      show ((inputs s.whole).take (endIdx s.sizes j)).drop (startIdx s.sizes j) = _
      rw [endIdx_eq _ _ hi', startIdx_eq, List.drop_take, List.getD_eq_getElem _ _ hi']
      congr 1
      omega
  · intro n hn
    rw [splitCompute_eq]
    refine foldl_update _ Prod.fst Prod.snd outputs n ?_
    rintro a ha rfl
    obtain ⟨s, hs, hd⟩ := List.mem_flatMap.1 ha
    obtain ⟨⟨n, j⟩, hj, rfl⟩ := List.mem_map.1 hd
    rw [List.mem_zipIdx_iff_getElem?] at hj
    exact hn s hs (List.mem_of_getElem? hj)

/-- every part of the component holds as many rows as declared -/
def Shaped (rs : List Rel) (v : Env) : Prop := ∀ r ∈ rs, (r.parts.map fun n => (v n).length) = r.sizes

/-- C112.  A splitting component with the same relations undoes a concatenating one, and the other way round. -/
theorem C112_round_trip {rs : List Rel} (h : Ok rs) (v o o' : Env) :
    (Shaped rs v → ∀ r ∈ rs, ∀ n ∈ r.parts, splitCompute rs (concatCompute rs v o) o' n = v n) ∧
    ((∀ r ∈ rs, (v r.whole).length = r.sizes.sum) →
      ∀ r ∈ rs, concatCompute rs (splitCompute rs v o) o' r.whole = v r.whole) := by
  constructor
  · intro hs r hr n hn
    obtain ⟨i, hi, rfl⟩ := List.getElem_of_mem hn
    rw [(C112_split h _ o').1 r hr i hi, (C112_concat h v o).1 r hr]
    have hl := h.1 r hr
    have hi' : i < r.sizes.length := by rw [hl]; exact hi
    have := C17_split_concat (r.parts.map v)
    have e : (r.parts.map v).map List.length = r.sizes := by rw [List.map_map]; exact hs r hr
    rw [e, concat_eq] at this
    have := congrArg (fun l => l.getD i []) this
    simp only [split, List.getD_eq_getElem?_getD, List.getElem?_map, List.getElem?_range hi', Option.map_some,
      Option.getD_some, List.getElem?_eq_getElem hi] at this
    rw [← this, endIdx_eq _ _ hi', startIdx_eq, List.drop_take, List.getD_eq_getElem _ _ hi']
    congr 1
    omega
  · intro hs r hr
    rw [(C112_concat h _ o').1 r hr]
    have hl := h.1 r hr
    have := (C17_concat_split r.sizes (v r.whole) (hs r hr)).1
    rw [concat_eq] at this
    refine Eq.trans ?_ this
    congr 1
    unfold split
    apply List.ext_getElem
    · simp [hl]
    · intro i h1 h2
      rw [List.getElem_map, List.getElem_map, List.getElem_range]
      have hi : i < r.parts.length := by simpa using h1
      have hi' : i < r.sizes.length := by rw [hl]; exact hi
      rw [(C112_split h v o).1 r hr i hi, endIdx_eq _ _ hi', startIdx_eq, List.drop_take, List.getD_eq_getElem _ _ hi']
      congr 1
      omega

/-! ### Jacobian -/

/-- the declared block of the Jacobian; blocks that are not declared are zero -/
noncomputable def block (l : List Partial) (of wrt : String) (p q : ℕ) : ℝ :=
  ((l.filter fun x => x.of = of ∧ x.wrt = wrt).map fun x => x.coo.dense p q).sum

theorem sum_one {α : Type*} (l : List α) (f : α → ℝ) (a : α) (ha : a ∈ l) (hn : l.Nodup) (h : ∀ b ∈ l, b ≠ a → f b = 0) :
    (l.map f).sum = f a := by
  induction l with
  | nil => simp at ha
  | cons b l ih =>
    obtain ⟨h1, h2⟩ := List.nodup_cons.1 hn
    rw [List.map_cons, List.sum_cons]
    by_cases hb : b = a
    · subst hb
      have : (l.map f).sum = 0 := List.sum_eq_zero fun x hx => by
        obtain ⟨c, hc, rfl⟩ := List.mem_map.1 hx
        exact h c (by simp [hc]) fun e => h1 (e ▸ hc)
      rw [this, add_zero]
    · rw [h b (by simp) hb, zero_add]
      exact ih (by simpa [Ne.symm hb] using ha) h2 fun c hc => h c (by simp [hc])

theorem rels_nodup {rs : List Rel} (h : Ok rs) : rs.Nodup := by
  replace h := h.2
  unfold allNames at h
  induction rs with
  | nil => simp
  | cons r rs ih =>
    rw [List.flatMap_cons, List.nodup_append] at h
    refine List.nodup_cons.2 ⟨fun hr => ?_, ih h.2.1⟩
    exact h.2.2 r.whole (by simp) r.whole (List.mem_flatMap.2 ⟨r, hr, by simp⟩) rfl

theorem filter_sum {α : Type*} (l : List α) (P : α → Bool) (f : α → ℝ) :
    ((l.filter P).map f).sum = (l.map fun a => if P a then f a else 0).sum := by
  induction l with
  | nil => rfl
  | cons a l ih =>
    rw [List.map_cons, List.sum_cons, ← ih, List.filter_cons]
    split_ifs <;> simp

theorem flatMap_sum {α β : Type*} (l : List α) (g : α → List β) (f : β → ℝ) :
    ((l.flatMap g).map f).sum = (l.map fun a => ((g a).map f).sum).sum := by
  induction l with
  | nil => rfl
  | cons a l ih => rw [List.flatMap_cons, List.map_append, List.sum_append, ih, List.map_cons, List.sum_cons]

/-- C112.  The Jacobian of a concatenating component: the declared blocks of each relation reproduce the output, and the blocks
between different relations are zero. -/
theorem C112_concat_jacobian {rs : List Rel} (h : Ok rs) (v o : Env) (hs : Shaped rs v) (r : Rel) (hr : r ∈ rs) :
    (∀ p < r.sizes.sum * r.length, flat r.length (concatCompute rs v o r.whole) p
      = ∑ i : Fin r.parts.length, ∑ q ∈ Finset.range ((v r.parts[i]).length * r.length),
          block (concatPartials rs) r.whole r.parts[i] p q * flat r.length (v r.parts[i]) q) ∧
    ∀ n, n ∉ r.parts → ∀ p q, block (concatPartials rs) r.whole n p q = 0 := by
  have hl := h.1 r hr
  have hblock : ∀ n p q, block (concatPartials rs) r.whole n p q = (r.parts.zipIdx.map fun x =>
      if x.1 = n then (Coo.mk (arange (startIdx r.sizes x.2 * r.length) (endIdx r.sizes x.2 * r.length))
        (arange 0 (r.sizes.getD x.2 0 * r.length)) (List.replicate (r.sizes.getD x.2 0 * r.length) (1 : ℝ))).dense p q
      else 0).sum := by
    intro n p q
    unfold block concatPartials
    rw [filter_sum, flatMap_sum, sum_one rs _ r hr (rels_nodup h)]
    · rw [List.map_map]
      congr 1
      apply List.map_congr_left
      intro x _
      simp
    · intro s hs' hne
      refine List.sum_eq_zero fun x hx => ?_
      simp only [List.mem_map] at hx
      obtain ⟨a, ⟨b, hb, rfl⟩, rfl⟩ := hx
      have : s.whole ≠ r.whole := fun e => hne (whole_ne h hs' hr e)
      simp [this]
  constructor
  · intro p hp
    have e : (r.parts.map v).map List.length = r.sizes := by rw [List.map_map]; exact hs r hr
    obtain ⟨h1, h2, h3, h4⟩ := C17_concat_jacobian r.parts r.length (r.parts.map v) (if_neg (by simp))
    rw [(C112_concat h v o).1 r hr, ← concat_eq]
    rw [h4 p (by rw [e]; exact hp)]
    refine Fintype.sum_equiv (finCongr (by simp)) _ _ ?_
    intro i
    have hi : (i : ℕ) < r.parts.length := by simpa using i.2
    have hi' : (i : ℕ) < r.sizes.length := by rw [hl]; exact hi
    simp only [finCongr_apply, Fin.getElem_fin, Fin.val_cast, List.getElem_map]
    refine Finset.sum_congr rfl fun q _ => ?_
    congr 1
    rw [hblock, sum_one r.parts.zipIdx _ (r.parts[(i : ℕ)], (i : ℕ))]
    · simp only [if_true, List.getD_eq_getElem?_getD, List.getElem?_map, e]
      rw [List.getElem?_range (by simpa using hi)]
      rfl
    · rw [List.mem_zipIdx_iff_getElem?]; simp [hi]
    · exact List.Nodup.of_map Prod.fst (by rw [List.zipIdx_map_fst]; exact parts_nodup h hr)
    · rintro ⟨n, j⟩ hb hne
      rw [List.mem_zipIdx_iff_getElem?] at hb
      obtain ⟨hj, hb⟩ := List.getElem?_eq_some_iff.1 hb
      rw [if_neg]
      rintro rfl
      apply hne
      have : j = (i : ℕ) := (List.Nodup.getElem_inj_iff (parts_nodup h hr)).1 hb
      subst this
      rfl
  · intro n hn p q
    rw [hblock]
    refine List.sum_eq_zero fun x hx => ?_
    obtain ⟨⟨m, j⟩, hm, rfl⟩ := List.mem_map.1 hx
    rw [List.mem_zipIdx_iff_getElem?] at hm
    rw [if_neg]
    rintro rfl
    exact hn (List.mem_of_getElem? hm)

/-- C112.  The Jacobian of a splitting component. -/
theorem C112_split_jacobian {rs : List Rel} (h : Ok rs) (v o : Env) (r : Rel) (hr : r ∈ rs)
    (hv : (v r.whole).length = r.sizes.sum) (i : ℕ) (hi : i < r.parts.length) :
    (∀ q < r.sizes.getD i 0 * r.length, flat r.length (splitCompute rs v o r.parts[i]) q
      = ∑ p ∈ Finset.range (r.sizes.sum * r.length),
          block (splitPartials rs) r.parts[i] r.whole q p * flat r.length (v r.whole) p) ∧
    ∀ n, n ≠ r.whole → ∀ q p, block (splitPartials rs) r.parts[i] n q p = 0 := by
  have hl := h.1 r hr
  have hi' : i < r.sizes.length := by rw [hl]; exact hi
  have hblock : ∀ n q p, block (splitPartials rs) r.parts[i] n q p =
      if r.whole = n then (Coo.mk (arange 0 (r.sizes.getD i 0 * r.length))
        (arange (startIdx r.sizes i * r.length) (endIdx r.sizes i * r.length))
        (List.replicate (r.sizes.getD i 0 * r.length) (1 : ℝ))).dense q p else 0 := by
    intro n q p
    unfold block splitPartials
    rw [filter_sum, flatMap_sum, sum_one rs _ r hr (rels_nodup h)]
    · rw [List.map_map, sum_one r.parts.zipIdx _ (r.parts[i], i)]
      · simp
      · rw [List.mem_zipIdx_iff_getElem?]; simp [hi]
      · exact List.Nodup.of_map Prod.fst (by rw [List.zipIdx_map_fst]; exact parts_nodup h hr)
      · rintro ⟨n, j⟩ hb hne
        rw [List.mem_zipIdx_iff_getElem?] at hb
        obtain ⟨hj, hb⟩ := List.getElem?_eq_some_iff.1 hb
        have : n ≠ r.parts[i] := by
          rintro rfl
          apply hne
          have : j = i := (List.Nodup.getElem_inj_iff (parts_nodup h hr)).1 hb
          subst this
          rfl
        simp [this]
    · intro s hs' hne
      refine List.sum_eq_zero fun x hx => ?_
      simp only [List.mem_map] at hx
      obtain ⟨a, ⟨⟨b, j⟩, hb, rfl⟩, rfl⟩ := hx
      rw [List.mem_zipIdx_iff_getElem?] at hb
      have : b ≠ r.parts[i] := by
        rintro rfl
        exact hne (part_ne h hs' hr (List.mem_of_getElem? hb) (List.getElem_mem hi))
      simp [this]
  constructor
  · intro q hq
    obtain ⟨h1, h2, h3, h4⟩ := C17_split_jacobian r.parts r.sizes r.length (v r.whole) hv (if_neg (by simpa using hl)) i hi'
    have := h4 q (by rw [List.getD_eq_getElem _ _ hi'] at hq; exact hq)
    have e : splitCompute rs v o r.parts[i] = (split r.sizes (v r.whole)).getD i [] := by
      rw [(C112_split h v o).1 r hr i hi]
      simp only [split, List.getD_eq_getElem?_getD, List.getElem?_map, List.getElem?_range hi', Option.map_some,
        Option.getD_some]
      rw [endIdx_eq _ _ hi', startIdx_eq, List.drop_take, List.getElem?_eq_getElem hi', Option.getD_some]
      congr 1
      omega
    rw [e, this]
    refine Finset.sum_congr rfl fun p _ => ?_
    congr 1
    rw [hblock, if_pos rfl]
    simp only [List.getD_eq_getElem?_getD, List.getElem?_map]
    rw [List.getElem?_range hi]
    rfl
  · intro n hn q p
    rw [hblock, if_neg (Ne.symm hn)]

/-- two relations: three and two rows, one and two columns -/
def two : List Rel := [⟨"x", ["a", "b"], [2, 1], 1, some "m"⟩, ⟨"y", ["c", "d"], [1, 1], 2, none⟩]

example : Ok two := ⟨by decide, by decide⟩

/-- the component made by one call of the constructor and one of `add_relation` concatenates both pairs -/
example (v o : Env) (hv : Shaped two v) :
    (do let rs ← init (.str "x") (.iter ["a", "b"]) (some [2, 1]) 1 (some "m")
        addRelation rs "y" (.iter ["c", "d"]) (some [1, 1]) 2 none) = .ok two ∧
    concatVars two = .ok [⟨"x", false, 3, 1, some "m"⟩, ⟨"a", true, 2, 1, some "m"⟩, ⟨"b", true, 1, 1, some "m"⟩,
      ⟨"y", false, 2, 2, none⟩, ⟨"c", true, 1, 2, none⟩, ⟨"d", true, 1, 2, none⟩] ∧
    concatCompute two v o "y" = v "c" ++ v "d" ∧ splitCompute two (concatCompute two v o) o "b" = v "b" := by
  refine ⟨rfl, rfl, ?_, ?_⟩
  · have := (C112_concat (rs := two) ⟨by decide, by decide⟩ v o).1 two[1] (by simp [two])
    simpa [two] using this
  · exact (C112_round_trip (rs := two) ⟨by decide, by decide⟩ v o o).1 hv two[0] (by simp [two]) "b" (by decide)

end Verif.Concat
