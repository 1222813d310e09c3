import Verif.Model.Wiring

/-! Tools for reading off the equations of a group. -/

namespace Verif.Wiring

open Verif.Units Verif.VectorComps

/-- nothing is converted between equal units -/
theorem conv_self (u : String) (x : ℝ) : conv u u x = x := by simp [conv]

theorem conv_KS (x : ℝ) : conv "K/s" "(K) / (s)" x = x := by
  simp [conv, off, fac] <;> ring_nf

theorem conv_W_kW (x : ℝ) : conv "W" "kW" x = x / 1000 := by
  simp [conv, off, fac] <;> ring_nf

theorem conv_soc (x : ℝ) : conv "W / (kJ) " "(s)** -1" x = x / 1000 := by
  simp [conv, off, fac] <;> ring_nf

theorem conv_Wh (x : ℝ) : conv "W*h" "kJ" x = x * 3600 / 1000 := by
  simp [conv, off, fac] <;> ring_nf

theorem conv_energy (x : ℝ) : conv "W*h/kg" "W * h / kg" x = x := by
  simp [conv, off, fac] <;> ring_nf

theorem conv_cm (x : ℝ) : conv "cm" "m" x = x * 0.01 := by
  simp [conv, off, fac] <;> ring_nf

theorem conv_hp (x : ℝ) : conv "hp" "W" x = x * 745.7 := by
  simp [conv, off, fac] <;> ring_nf

theorem conv_inch2 (x : ℝ) : conv "inch**2" "m**2" x = x * 0.0254 ^ 2 := by
  simp [conv, off, fac] <;> ring_nf

theorem conv_kPa_MPa (x : ℝ) : conv "kPa" "MPa" x = x / 1000 := by
  simp [conv, off, fac] <;> ring_nf

theorem conv_kPa (x : ℝ) : conv "kPa" "Pa" x = x * 1000 := by
  simp [conv, off, fac] <;> ring_nf

theorem conv_kW (x : ℝ) : conv "kW" "W" x = x * 1000 := by
  simp [conv, off, fac] <;> ring_nf

theorem conv_kW_hp (x : ℝ) : conv "kW" "hp" x = x * 1000 / 745.7 := by
  simp [conv, off, fac] <;> ring_nf

theorem conv_rho1 (x : ℝ) : conv "kg / m ** 3" "kg/m**3" x = x := by
  simp [conv, off, fac] <;> ring_nf

theorem conv_rho2 (x : ℝ) : conv "kg / m**3" "kg * m**-3" x = x := by
  simp [conv, off, fac] <;> ring_nf

theorem conv_lb (x : ℝ) : conv "lb" "kg" x = x * 0.45359237 := by
  simp [conv, off, fac] <;> ring_nf

theorem conv_ft (x : ℝ) : conv "m" "ft" x = x / 0.3048 := by
  simp [conv, off, fac] <;> ring_nf

theorem conv_ms1 (x : ℝ) : conv "m / s" "m /s" x = x := by
  simp [conv, off, fac] <;> ring_nf

theorem conv_ms2 (x : ℝ) : conv "m / s" "m/s" x = x := by
  simp [conv, off, fac] <;> ring_nf

theorem conv_ms3 (x : ℝ) : conv "m/s" "m / s" x = x := by
  simp [conv, off, fac] <;> ring_nf

theorem conv_mm (x : ℝ) : conv "mm" "m" x = x * 0.001 := by
  simp [conv, off, fac] <;> ring_nf

theorem conv_acc (x : ℝ) : conv "m/s**2" "(m/s) / (s)" x = x := by
  simp [conv, off, fac] <;> ring_nf

theorem conv_ms4 (x : ℝ) : conv "m/s" "(m) / (s)" x = x := by
  simp [conv, off, fac] <;> ring_nf

theorem conv_ms5 (x : ℝ) : conv "m/s " "m/s" x = x := by
  simp [conv, off, fac] <;> ring_nf

theorem conv_ms6 (x : ℝ) : conv "m/s " "m / s" x = x := by
  simp [conv, off, fac] <;> ring_nf

theorem conv_kn1 (x : ℝ) : conv "m/s " "kn" x = x / (1852 / 3600) := by
  simp [conv, off, fac] <;> ring_nf

theorem conv_kn2 (x : ℝ) : conv "kn" "m / s" x = x * (1852 / 3600) := by
  simp [conv, off, fac] <;> ring_nf

theorem conv_kn3 (x : ℝ) : conv "kn" "m/s" x = x * (1852 / 3600) := by
  simp [conv, off, fac] <;> ring_nf

theorem conv_ft_m (x : ℝ) : conv "ft" "m" x = x * 0.3048 := by
  simp [conv, off, fac] <;> ring_nf

theorem conv_m2a (x : ℝ) : conv "m**2" "m **2" x = x := by
  simp [conv, off, fac] <;> ring_nf

theorem conv_m2b (x : ℝ) : conv "m **2" "m**2" x = x := by
  simp [conv, off, fac] <;> ring_nf

theorem conv_rho3 (x : ℝ) : conv "kg / m**3" "kg/m**3" x = x := by
  simp [conv, off, fac] <;> ring_nf

theorem conv_Pa (x : ℝ) : conv "N * m**-2" "Pa" x = x := by
  simp [conv, off, fac] <;> ring_nf

theorem conv_NM_km (x : ℝ) : conv "NM" "km" x = x * 1852 / 1000 := by
  simp [conv, off, fac] <;> ring_nf

theorem conv_m_km (x : ℝ) : conv "m" "km" x = x / 1000 := by
  simp [conv, off, fac] <;> ring_nf

theorem conv_m_NM (x : ℝ) : conv "m" "NM" x = x / 1852 := by
  simp [conv, off, fac] <;> ring_nf

theorem conv_NM_m (x : ℝ) : conv "NM" "m" x = x * 1852 := by
  simp [conv, off, fac] <;> ring_nf

open Lean in
/-- `wireOf g links [comps]`: the equations of the group `g` with the variables under their promoted names -/
macro "wireOf " g:term:max l:ident "[" cs:ident,* "]" : tactic => do
  let es ← cs.getElems.mapM fun c => `(Parser.Tactic.simpLemma| $c:term)
  `(tactic| (
    unfold Grp.rel
    generalize hV : Grp.view $g _ = V
    simp [explicit, implicit, Grp.sys, label, indep, exec, Verif.Wiring.sum, sums, eqn, product, balance, surrogate, opaque_,
      withOpts, OptVal.get, $es,*]
    subst hV
    simp only [Grp.view, $l:term, look, conv_self, conv_KS, conv_W_kW, conv_soc, conv_Wh, conv_energy, conv_cm, conv_hp,
      conv_inch2, conv_kPa_MPa, conv_kPa, conv_kW, conv_kW_hp, conv_rho1, conv_rho2, conv_lb, conv_ft, conv_ms1, conv_ms2,
      conv_ms3, conv_mm, conv_acc, conv_ms4, conv_ms5, conv_ms6, conv_kn1, conv_kn2, conv_kn3, conv_ft_m, conv_m2a, conv_m2b, conv_rho3, conv_Pa, conv_NM_km, conv_m_km, conv_m_NM, conv_NM_m, String.reduceEq, and_true, and_false, true_and, false_and, ite_true, ite_false, and_self,
      ↓reduceIte]))

/-- the same for a group that is a constant -/
macro "wire " g:ident l:ident "[" cs:ident,* "]" : tactic => `(tactic| wireOf $g:ident $l [$g, $cs,*])

/-- where the variables of a subsystem are found -/
macro "links " l:ident loc:(Lean.Parser.Tactic.location)? : tactic =>
  `(tactic| simp only [Grp.view, $l:term, look, conv_self, conv_KS, conv_W_kW, conv_soc, conv_Wh, conv_energy, conv_cm, conv_hp, conv_inch2, conv_kPa_MPa, conv_kPa, conv_kW, conv_kW_hp, conv_rho1, conv_rho2, conv_lb, conv_ft, conv_ms1, conv_ms2, conv_ms3, conv_mm, conv_acc, conv_ms4, conv_ms5, conv_ms6, conv_kn1, conv_kn2, conv_kn3, conv_ft_m, conv_m2a, conv_m2b, conv_rho3, conv_Pa, conv_NM_km, conv_m_km, conv_m_NM, conv_NM_m,
       String.reduceEq, and_true, and_false, true_and, false_and,
    ite_true, ite_false, and_self, ↓reduceIte] $[$loc]?)

/-- all variables of the subsystems are found as the table says -/
theorem view_all (g : Grp) {l : List Link} (h : g.links = l) (hn : (l.map fun k => (k.sub, k.var)).Nodup) (e : String → ℝ) :
    ∀ k ∈ l, g.view e k.sub k.var = conv k.unit k.want (e k.src) := by
  unfold Grp.view
  rw [h]
  clear h
  induction l with
  | nil => simp
  | cons a l ih =>
    intro k hk
    rw [List.map_cons, List.nodup_cons] at hn
    rcases List.mem_cons.1 hk with rfl | hk
    · simp [look]
    · have : ¬(a.sub = k.sub ∧ a.var = k.var) := by
        rintro ⟨h1, h2⟩
        exact hn.1 (List.mem_map.2 ⟨k, hk, by rw [h1, h2]⟩)
      rw [look, if_neg this]
      exact ih hn.2 k hk

/-- equality of pairs of strings by their numbers -/
abbrev fastPair : DecidableEq (String × String) := @instDecidableEqProd _ _ fastString fastString

theorem fast_nodup {l : List (String × String)} (h : @decide l.Nodup (@List.nodupDecidable _ fastPair l) = true) : l.Nodup :=
  @of_decide_eq_true _ (@List.nodupDecidable _ fastPair l) h

theorem add1 (e : String → ℝ) (out a : String) (kw) :
    (⟨out, [a], .all 1, 1, none, kw⟩ : AddSys ℝ).compute (fun n _ _ => e n) 0 0 = e a := by
  simp [AddSys.compute, AddSys.factors]

theorem add2 (e : String → ℝ) (out a b : String) (kw) :
    (⟨out, [a, b], .all 1, 1, none, kw⟩ : AddSys ℝ).compute (fun n _ _ => e n) 0 0 = e a + e b := by
  simp [AddSys.compute, AddSys.factors]

theorem add3 (e : String → ℝ) (out a b c : String) (kw) :
    (⟨out, [a, b, c], .all 1, 1, none, kw⟩ : AddSys ℝ).compute (fun n _ _ => e n) 0 0 = e a + e b + e c := by
  simp [AddSys.compute, AddSys.factors]

theorem add2s (e : String → ℝ) (out a b : String) (x y : ℝ) (kw) :
    (⟨out, [a, b], .all 1, 1, some [x, y], kw⟩ : AddSys ℝ).compute (fun n _ _ => e n) 0 0 = e a * x + e b * y := by
  simp [AddSys.compute, AddSys.factors]

open Lean in
/-- `parts g [defs]`: the subsystems of the group `g` are converged -/
macro "parts " g:term:max "[" cs:ident,* "]" : tactic => do
  let es ← cs.getElems.mapM fun c => `(Parser.Tactic.simpLemma| $c:term)
  `(tactic| (
    unfold Grp.rel
    generalize hV : Grp.view $g _ = V
    simp only [$es,*, Grp.sys, label, sums, eqn, indep, balance, surrogate, opaque_, exec, List.forall_mem_cons,
      List.forall_mem_append, List.not_mem_nil, false_imp_iff, implies_true, and_true, true_and, List.cons_append,
      List.nil_append, ↓reduceIte, Bool.false_eq_true, add1, add2, add3, add2s]
    subst hV))

/-- `views g g_links e at …`: the variables of the subsystems under their promoted names -/
macro "views " g:term:max l:ident e:ident loc:(Lean.Parser.Tactic.location)? : tactic =>
  `(tactic| (
    have hview := view_all $g $l (fast_nodup (by decide +kernel)) $e
    simp only [List.forall_mem_cons, List.not_mem_nil, false_imp_iff, implies_true, and_true, conv_self, conv_KS, conv_W_kW,
      conv_soc, conv_Wh, conv_energy, conv_cm, conv_hp, conv_inch2, conv_kPa_MPa, conv_kPa, conv_kW, conv_kW_hp, conv_rho1,
      conv_rho2, conv_lb, conv_ft, conv_ms1, conv_ms2, conv_ms3, conv_mm, conv_acc, conv_ms4, conv_ms5, conv_ms6, conv_kn1, conv_kn2, conv_kn3, conv_ft_m, conv_m2a, conv_m2b, conv_rho3, conv_Pa, conv_NM_km, conv_m_km, conv_m_NM, conv_NM_m] at hview
    simp only [hview] $[$loc]?
    try clear hview))

/-- the same for a table with a variable in its sources -/
macro "viewsVar " g:term:max l:ident e:ident loc:(Lean.Parser.Tactic.location)? : tactic =>
  `(tactic| (
    have hview := view_all $g $l (fast_nodup (by simp only [List.map_cons, List.map_nil]; decide +kernel)) $e
    simp only [List.forall_mem_cons, List.not_mem_nil, false_imp_iff, implies_true, and_true, conv_self, conv_KS, conv_W_kW,
      conv_soc, conv_Wh, conv_energy, conv_cm, conv_hp, conv_inch2, conv_kPa_MPa, conv_kPa, conv_kW, conv_kW_hp, conv_rho1,
      conv_rho2, conv_lb, conv_ft, conv_ms1, conv_ms2, conv_ms3, conv_mm, conv_acc, conv_ms4, conv_ms5, conv_ms6, conv_kn1, conv_kn2, conv_kn3, conv_ft_m, conv_m2a, conv_m2b, conv_rho3, conv_Pa, conv_NM_km, conv_m_km, conv_m_NM, conv_NM_m] at hview
    simp only [hview] $[$loc]?
    try clear hview))

/-- a state given by a table -/
def table (l : List (String × ℝ)) (n : String) : ℝ := (l.lookup n).getD 0

end Verif.Wiring
