import Verif.Model.AddIntegrand
import Mathlib.Algebra.Group.TypeTags.Basic
import Mathlib.Algebra.Group.Basic
import Mathlib.Algebra.Group.Int.Defs
import Mathlib.Data.List.Basic
import Mathlib.Data.List.Nodup
import Mathlib.Tactic.Common

/-! Property C08: `add_integrand` validation, units and names. -/

namespace Verif.AddIntegrand

/-- Independent meaning of unit strings: a string denotes a physical unit (element of a commutative
group) if it is a known unit or one of the composite forms OpenMDAO's unit parser accepts. -/
inductive Denotes {G : Type} [CommGroup G] (base : String → Option G) : String → G → Prop
  | base {s g} : base s = some g → Denotes base s g
  | quot {a b g h} : Denotes base a g → Denotes base b h →
      Denotes base ("(" ++ a ++ ") / (" ++ b ++ ")") (g / h)
  | prod {a b g h} : Denotes base a g → Denotes base b h →
      Denotes base ("(" ++ a ++ ") * (" ++ b ++ ")") (g * h)
  | inv {a g} : Denotes base a g → Denotes base ("(" ++ a ++ ")** -1") g⁻¹

/-- a missing (or empty) unit is dimensionless -/
def DenotesOpt {G : Type} [CommGroup G] (base : String → Option G) (u : Option String) (g : G) : Prop :=
  if truthy u then ∃ s, u = some s ∧ Denotes base s g else g = 1

variable {β : Type} {G : Type} [CommGroup G]

/-- C08.  Giving both units raises, whatever the rest. -/
theorem C08_both_units_rejected (o : Opts) (c : Comp β) (a : Args β) (h1 : truthy a.units = true)
    (h2 : truthy a.rateUnits = true) : addIntegrand o c a = .error .bothUnits := by
  simp [addIntegrand, h1, h2]

theorem addIntegrand_ok {o : Opts} {c c' : Comp β} {a : Args β} (h : addIntegrand o c a = .ok c') :
    ¬ (truthy a.units = true ∧ truthy a.rateUnits = true) ∧
    c'.states = c.states ++ [entry o a] ∧
    c'.inputs = c.inputs ++ entryInputs o (entry o a) ∧
    c'.outputs = c.outputs ++ entryOutputs o (entry o a) ∧
    ((entryInputs o (entry o a) ++ entryOutputs o (entry o a)).map Var.name).Nodup ∧
    (∀ n ∈ (entryInputs o (entry o a) ++ entryOutputs o (entry o a)).map Var.name,
      n ∉ (c.inputs ++ c.outputs).map Var.name) := by
  unfold addIntegrand at h
  split at h
  · cases h
  · rename_i hb
    simp only at h
    split at h
    · cases h
    · rename_i hd
      split at h
      · cases h
      · have hd := not_not.1 hd
        cases h
        refine ⟨by simpa [Bool.and_eq_true] using hb, rfl, rfl, rfl, hd.1, hd.2⟩

/-- C08.  An accepted call registers a rate whose unit is the unit of the quantity divided by the unit
of the differential (`diff_units`), missing units counting as dimensionless.  Whatever unit the caller
gives (`units` or `rate_units`), it is the one registered. -/
theorem C08_rate_units (base : String → Option G) (o : Opts) (c c' : Comp β) (a : Args β)
    (h : addIntegrand o c a = .ok c') (gd : G) (hd : DenotesOpt base o.diffUnits gd) :
    ∃ e, c'.states = c.states ++ [e] ∧
      (∀ g, truthy a.units = true → DenotesOpt base a.units g →
        e.units = a.units ∧ DenotesOpt base e.rateUnits (g / gd)) ∧
      (∀ g, truthy a.rateUnits = true → DenotesOpt base a.rateUnits g →
        e.rateUnits = a.rateUnits ∧ DenotesOpt base e.units (g * gd)) ∧
      (truthy a.units = false → truthy a.rateUnits = false →
        truthy e.units = false ∧ DenotesOpt base e.rateUnits (1 / gd)) := by
  obtain ⟨hb, hs, -⟩ := addIntegrand_ok h
  refine ⟨_, hs, ?_, ?_, ?_⟩
  · intro g hu hg
    simp only [DenotesOpt, hu, if_true] at hg
    obtain ⟨s, hs', hsg⟩ := hg
    by_cases hdu : truthy o.diffUnits = true
    · simp only [DenotesOpt, hdu, if_true] at hd
      obtain ⟨d, hd', hdg⟩ := hd
      refine ⟨by simp [entry, inferUnits, hu, hdu], ?_⟩
      have : (entry o a).rateUnits = some ("(" ++ s ++ ") / (" ++ d ++ ")") := by
        simp only [entry, inferUnits, hu, hdu, if_true]; simp [hs', hd']
      rw [this]
      have ht : truthy (some ("(" ++ s ++ ") / (" ++ d ++ ")")) = true := by
        simp [truthy, String.ext_iff]
      simp only [DenotesOpt, ht, if_true]
      exact ⟨_, rfl, .quot hsg hdg⟩
    · simp only [DenotesOpt, hdu] at hd
      simp only [Bool.false_eq_true, if_false] at hd
      refine ⟨by simp [entry, inferUnits, hu, hdu], ?_⟩
      have : (entry o a).rateUnits = a.units := by simp [entry, inferUnits, hu, hdu]
      rw [this, hd, div_one]
      simp only [DenotesOpt, hu, if_true]
      exact ⟨s, hs', hsg⟩
  · intro g hr hg
    have hu : truthy a.units = false := by
      cases h' : truthy a.units with
      | false => rfl
      | true => exact absurd ⟨h', hr⟩ hb
    simp only [DenotesOpt, hr, if_true] at hg
    obtain ⟨s, hs', hsg⟩ := hg
    by_cases hdu : truthy o.diffUnits = true
    · simp only [DenotesOpt, hdu, if_true] at hd
      obtain ⟨d, hd', hdg⟩ := hd
      refine ⟨by simp [entry, inferUnits, hu, hr, hdu], ?_⟩
      have : (entry o a).units = some ("(" ++ s ++ ") * (" ++ d ++ ")") := by
        simp only [entry, inferUnits, hu, hr, hdu, if_true, Bool.false_eq_true, if_false]; simp [hs', hd']
      rw [this]
      have ht : truthy (some ("(" ++ s ++ ") * (" ++ d ++ ")")) = true := by
        simp [truthy, String.ext_iff]
      simp only [DenotesOpt, ht, if_true]
      exact ⟨_, rfl, .prod hsg hdg⟩
    · simp only [DenotesOpt, hdu] at hd
      simp only [Bool.false_eq_true, if_false] at hd
      refine ⟨by simp [entry, inferUnits, hu, hr, hdu], ?_⟩
      have : (entry o a).units = a.rateUnits := by simp [entry, inferUnits, hu, hr, hdu]
      rw [this, hd, mul_one]
      simp only [DenotesOpt, hr, if_true]
      exact ⟨s, hs', hsg⟩
  · intro hu hr
    by_cases hdu : truthy o.diffUnits = true
    · simp only [DenotesOpt, hdu, if_true] at hd
      obtain ⟨d, hd', hdg⟩ := hd
      refine ⟨by simp [entry, inferUnits, hu, hr, hdu], ?_⟩
      have : (entry o a).rateUnits = some ("(" ++ d ++ ")** -1") := by
        simp only [entry, inferUnits, hu, hr, hdu, if_true, Bool.false_eq_true, if_false]; simp [hd']
      rw [this]
      have ht : truthy (some ("(" ++ d ++ ")** -1")) = true := by
        simp [truthy, String.ext_iff]
      simp only [DenotesOpt, ht, if_true]
      exact ⟨_, rfl, by rw [one_div]; exact .inv hdg⟩
    · simp only [DenotesOpt, hdu] at hd
      simp only [Bool.false_eq_true, if_false] at hd
      refine ⟨by simp [entry, inferUnits, hu, hr, hdu], ?_⟩
      have : (entry o a).rateUnits = a.rateUnits := by simp [entry, inferUnits, hu, hr, hdu]
      rw [this, hd]
      simp [DenotesOpt, hr]

/-- C08.  An accepted call adds exactly: the rate input (one value per node), the initial value input
(unless `zero_start`), the final value output and the history output (unless `final_only`), under the
given names or, when no name is given, `name_rate`, `name_initial`, `name_final`. -/
theorem C08_registered (o : Opts) (c c' : Comp β) (a : Args β) (h : addIntegrand o c a = .ok c') :
    ∃ rate start final : String,
      (rate = if truthy a.rateName then a.rateName.getD "" else a.name ++ "_rate") ∧
      (start = if truthy a.startName then a.startName.getD "" else a.name ++ "_initial") ∧
      (final = if truthy a.endName then a.endName.getD "" else a.name ++ "_final") ∧
      c'.inputs.map (fun v => (v.name, v.size)) = c.inputs.map (fun v => (v.name, v.size)) ++
        ((rate, o.numNodes) :: if a.zeroStart then [] else [(start, 1)]) ∧
      c'.outputs.map (fun v => (v.name, v.size)) = c.outputs.map (fun v => (v.name, v.size)) ++
        ((final, 1) :: if a.finalOnly then [] else [(a.name, o.numNodes)]) ∧
      ∃ e, c'.states = c.states ++ [e] ∧ e.name = a.name ∧ e.rateName = rate ∧ e.startName = start ∧
        e.endName = final ∧ e.lower = a.lower ∧ e.upper = a.upper := by
  obtain ⟨-, hs, hi, ho, -⟩ := addIntegrand_ok h
  refine ⟨_, _, _, rfl, rfl, rfl, ?_, ?_, _, hs, rfl, rfl, rfl, rfl, rfl, rfl⟩
  · rw [hi]
    cases hz : a.zeroStart <;> simp [entryInputs, entry, orDefault, hz]
  · rw [ho]
    cases hz : a.finalOnly <;> simp [entryOutputs, entry, orDefault, hz]

/-- C08.  For every successful sequence of calls all registered variable names are distinct, and the
states are the entries of the calls in order. -/
theorem C08_sequence (o : Opts) (c' : Comp β) (as : List (Args β)) (c : Comp β)
    (hc : ((c.inputs ++ c.outputs).map Var.name).Nodup)
    (h : addAll o c as = .ok c') :
    ((c'.inputs ++ c'.outputs).map Var.name).Nodup ∧
    c'.states.map Entry.name = c.states.map Entry.name ++ as.map Args.name := by
  induction as generalizing c with
  | nil => simp only [addAll, Except.ok.injEq] at h; subst h; simpa using hc
  | cons a as ih =>
    simp only [addAll] at h
    split at h
    · cases h
    · rename_i c1 h1
      obtain ⟨-, hs, hi, ho, hn, hdis⟩ := addIntegrand_ok h1
      have hnd : ((c1.inputs ++ c1.outputs).map Var.name).Nodup := by
        rw [hi, ho]
        simp only [List.map_append] at hc hn hdis ⊢
        have := List.nodup_append'.2 ⟨hc, hn, fun x hx hx' => hdis x hx' hx⟩
        refine (List.Perm.nodup_iff ?_).1 this
        simp only [List.append_assoc]
        refine List.Perm.append_left _ ?_
        rw [← List.append_assoc, ← List.append_assoc]
        exact List.Perm.append_right _ List.perm_append_comm
      obtain ⟨r1, r2⟩ := ih c1 hnd h
      refine ⟨r1, ?_⟩
      rw [r2, hs]
      simp [entry]

/-- C08.  An even number of nodes is rejected at construction, an odd one accepted. -/
theorem C08_even_nodes_rejected (o : Opts) :
    mkComp β o = .error .evenNodes ↔ o.numNodes % 2 = 0 := by
  unfold mkComp
  split
  · rename_i h; simp only [true_iff]; omega
  · rename_i h; simp only [reduceCtorEq, false_iff]; omega

/-- C08.  `setup` accepts exactly the three documented time configurations. -/
theorem C08_time_setup (o : Opts) :
    timeInputs o = .error .badTimeSetup ↔
      ¬ (o.timeSetup = "dt" ∨ o.timeSetup = "duration" ∨ o.timeSetup = "bounds") := by
  unfold timeInputs
  split_ifs <;> simp_all

theorem truthy_iff (u : Option String) : truthy u = true ↔ ∃ s, u = some s ∧ s ≠ "" := by
  cases u <;> simp [truthy]

/-- C08.  When a call is accepted: at most one of the units is given (an empty string is no unit), the names of the variables
it adds, under the given or default names, are new and differ from each other, and the time configuration is one of the
documented ones (which is only looked at for more than one node). -/
theorem C08_accepts_iff (o : Opts) (c : Comp β) (a : Args β) :
    let nm (given : Option String) (suffix : String) : String :=
      match given with
      | none => a.name ++ suffix
      | some s => if s = "" then a.name ++ suffix else s
    let new := (nm a.rateName "_rate" :: if a.zeroStart then [] else [nm a.startName "_initial"]) ++
      (nm a.endName "_final" :: if a.finalOnly then [] else [a.name])
    (∃ c', addIntegrand o c a = .ok c') ↔
      (a.units = none ∨ a.units = some "" ∨ a.rateUnits = none ∨ a.rateUnits = some "") ∧
      new.Nodup ∧ (∀ n ∈ new, (∀ v ∈ c.inputs, v.name ≠ n) ∧ ∀ v ∈ c.outputs, v.name ≠ n) ∧
      (o.numNodes ≤ 1 ∨ o.timeSetup = "dt" ∨ o.timeSetup = "duration" ∨ o.timeSetup = "bounds") := by
  intro nm new
  have hnm : ∀ g sfx, orDefault g (a.name ++ sfx) = nm g sfx := by
    intro g sfx
    cases g with
    | none => rfl
    | some s =>
      by_cases h : s = ""
      · simp [orDefault, truthy, nm, h]
      · simp [orDefault, truthy, nm, h]
  have hnew : (entryInputs o (entry o a) ++ entryOutputs o (entry o a)).map Var.name = new := by
    simp only [entryInputs, entryOutputs, entry, hnm, new]
    cases a.zeroStart <;> cases a.finalOnly <;> simp
  have hu : (truthy a.units && truthy a.rateUnits) = false ↔
      (a.units = none ∨ a.units = some "" ∨ a.rateUnits = none ∨ a.rateUnits = some "") := by
    cases a.units <;> cases a.rateUnits <;> simp [truthy, or_iff_not_imp_left]
  have ht : validTimeSetup o.timeSetup = true ↔ (o.timeSetup = "dt" ∨ o.timeSetup = "duration" ∨ o.timeSetup = "bounds") := by
    simp [validTimeSetup, or_assoc]
  have hold : (∀ n ∈ new, n ∉ (c.inputs ++ c.outputs).map Var.name) ↔
      ∀ n ∈ new, (∀ v ∈ c.inputs, v.name ≠ n) ∧ ∀ v ∈ c.outputs, v.name ≠ n := by
    constructor
    · intro h n hn
      have := h n hn
      simp only [List.map_append, List.mem_append, List.mem_map, not_or, not_exists, not_and] at this
      exact this
    · intro h n hn
      simp only [List.map_append, List.mem_append, List.mem_map, not_or, not_exists, not_and]
      exact h n hn
  rw [← hu, ← ht, ← hold]
  unfold addIntegrand
  simp only [hnew]
  cases hb : (truthy a.units && truthy a.rateUnits) with
  | true => simp
  | false =>
    simp only [Bool.false_eq_true, if_false, true_and]
    by_cases hn : new.Nodup ∧ ∀ n ∈ new, n ∉ (c.inputs ++ c.outputs).map Var.name
    · rw [if_neg (not_not.2 hn)]
      by_cases hv : o.numNodes > 1 ∧ validTimeSetup o.timeSetup = false
      · rw [if_pos hv]
        constructor
        · rintro ⟨_, h⟩; cases h
        · rintro ⟨-, -, h | h⟩
          · omega
          · rw [hv.2] at h; cases h
      · rw [if_neg hv]
        refine ⟨fun _ => ⟨hn.1, hn.2, ?_⟩, fun _ => ⟨_, rfl⟩⟩
        by_cases h1 : o.numNodes ≤ 1
        · exact Or.inl h1
        · right
          cases h : validTimeSetup o.timeSetup with
          | true => rfl
          | false => exact absurd ⟨by omega, h⟩ hv
    · rw [if_pos hn]
      constructor
      · rintro ⟨_, h⟩; cases h
      · rintro ⟨h1, h2, -⟩; exact absurd ⟨h1, h2⟩ hn

/-- C08.  Units of the registered variables: the rate input has the rate unit, all others the unit of the quantity. -/
theorem C08_registered_units (o : Opts) (c c' : Comp β) (a : Args β) (h : addIntegrand o c a = .ok c') :
    ∃ e ins outs, c'.states = c.states ++ [e] ∧ c'.inputs = c.inputs ++ ins ∧ c'.outputs = c.outputs ++ outs ∧
      (∀ v ∈ ins, v.name = e.rateName → v.units = e.rateUnits) ∧
      (∀ v ∈ ins ++ outs, v.name ≠ e.rateName → v.units = e.units) := by
  obtain ⟨-, hs, hi, ho, hn, -⟩ := addIntegrand_ok h
  refine ⟨_, _, _, hs, hi, ho, ?_, ?_⟩
  · intro v hv hname
    rcases List.mem_cons.1 hv with rfl | hv'
    · rfl
    · exfalso
      simp only [entryInputs, List.map_append, List.map_cons, List.cons_append, List.nodup_cons, List.mem_append, not_or] at hn
      exact hn.1.1 (hname ▸ List.mem_map_of_mem hv')
  · intro v hv hname
    rcases List.mem_append.1 hv with hv | hv
    · rcases List.mem_cons.1 hv with rfl | hv
      · exact absurd rfl hname
      · split_ifs at hv with hz
        · cases hv
        · rw [List.mem_singleton.1 hv]
    · rcases List.mem_cons.1 hv with rfl | hv
      · rfl
      · split_ifs at hv with hz
        · cases hv
        · rw [List.mem_singleton.1 hv]

/-- a call meeting the hypotheses (velocity integrated to range over seconds) -/
example : ∃ c' : Comp Unit, addIntegrand ⟨11, some "s", "duration"⟩ ⟨[], [], []⟩
    ⟨"range", some "velocity", none, none, some "m", none, false, false, (), ()⟩ = .ok c' ∧
    DenotesOpt (G := Multiplicative ℤ) (fun s => if s = "s" then some (.ofAdd 1) else none)
      (some "s") (.ofAdd 1) := by
  refine ⟨_, rfl, ?_⟩
  have : truthy (some "s") = true := rfl
  simp only [DenotesOpt, this, if_true]
  exact ⟨"s", rfl, .base rfl⟩

end Verif.AddIntegrand
