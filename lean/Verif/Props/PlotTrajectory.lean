import Mathlib.Tactic.NormNum
import Mathlib.Data.List.Basic
import Mathlib.Data.List.Zip
import Verif.Model.PlotTrajectory

/-!
C138: `plot_trajectory` draws one figure for each variable, each phase against its own abscissa, and when it fails.
-/

namespace Verif.PlotTrajectory

/-- value of a variable of a phase; empty if there is none -/
def value (prob : Prob) (unit : Option String) (var phase : String) : List ℝ := (prob (phase ++ "." ++ var) unit).getD []

theorem vals_ok (prob : Prob) (var : String) (unit : Option String) (phases : List String) (vs : List (List ℝ)) :
    vals prob var unit phases = .ok vs ↔
      (∀ p ∈ phases, (prob (p ++ "." ++ var) unit).isSome) ∧ vs = phases.map (value prob unit var) := by
  induction phases generalizing vs with
  | nil =>
    simp only [vals, Except.ok.injEq, List.map_nil]
    exact ⟨fun h => ⟨by simp, h.symm⟩, fun h => h.2.symm⟩
  | cons p ps ih =>
    rcases h : prob (p ++ "." ++ var) unit with _ | v
    · simp [vals, h]
    · simp only [vals, h, List.mem_cons, forall_eq_or_imp, List.map_cons, value, Option.getD_some, Option.isSome_some, true_and]
      rcases h' : vals prob var unit ps with e | w
      · simp only [Except.map, reduceCtorEq, false_iff]
        rintro ⟨h1, -⟩
        have := (ih _).mpr ⟨h1, rfl⟩
        rw [h'] at this; cases this
      · obtain ⟨h1, h2⟩ := (ih w).mp h'
        simp only [Except.map, Except.ok.injEq]
        constructor
        · rintro rfl; exact ⟨h1, by rw [h2]⟩
        · rintro ⟨-, rfl⟩; rw [h2]

/-- what has to hold for variable `y`, number `i`, to be drawn -/
def Drawable (prob : Prob) (a : Args) (i : ℕ) (y : String) : Prop :=
  ∃ unit, a.y_units[i]? = some unit ∧ (∀ p ∈ a.phases, (prob (p ++ "." ++ y) unit).isSome) ∧
    ((a.phases.map fun p => (value prob a.x_unit a.x_var p).length).sum = (a.phases.map fun p => (value prob unit y p).length).sum) ∧
    ∀ ls, a.y_labels = some ls → i < ls.length

/-- the label promised for variable `y`, number `i` -/
def label (a : Args) (i : ℕ) (y : String) : Option String :=
  match a.y_labels with
  | none => some y
  | some ls => (ls[i]?).getD none

/-- the figure promised for variable `y`, number `i` -/
def promised (prob : Prob) (a : Args) (i : ℕ) (y : String) : Fig where
  xs := a.phases.flatMap (value prob a.x_unit a.x_var)
  ys := a.phases.flatMap (value prob ((a.y_units[i]?).getD none) y)
  xlabel := a.x_label.getD a.x_var
  ylabel := label a i y
  title := a.plot_title

theorem ylabel_ok (a : Args) (i : ℕ) (y : String) (l : Option String) :
    ylabel a i y = .ok l ↔ (∀ ls, a.y_labels = some ls → i < ls.length) ∧ l = label a i y := by
  unfold ylabel label
  rcases a.y_labels with _ | ls
  · simp [eq_comm]
  · rcases h : ls[i]? with _ | m
    · simp only [h, Option.some.injEq, forall_eq', reduceCtorEq, false_iff, not_and]
      intro hi; rw [List.getElem?_eq_none_iff] at h; omega
    · obtain ⟨hi, -⟩ := List.getElem?_eq_some_iff.mp h
      simp [hi, h, eq_comm]

theorem figure_ok (prob : Prob) (a : Args) (hp : a.phases ≠ []) (i : ℕ) (y : String) (F : Fig) :
    figure prob a (a.phases.flatMap (value prob a.x_unit a.x_var)) i y = .ok F ↔ Drawable prob a i y ∧ F = promised prob a i y := by
  unfold figure Drawable promised
  rcases hu : a.y_units[i]? with _ | unit
  · simp
  simp only [Option.some.injEq, exists_eq_left', Option.getD_some]
  rcases hv : vals prob y unit a.phases with e | vs
  · simp only [bind, Except.bind, reduceCtorEq, false_iff]
    rintro ⟨⟨h1, -⟩, -⟩
    have := (vals_ok prob y unit a.phases _).mpr ⟨h1, rfl⟩
    rw [hv] at this; cases this
  obtain ⟨h1, rfl⟩ := (vals_ok prob y unit a.phases vs).mp hv
  have hne : a.phases.map (value prob unit y) ≠ [] := by simpa using hp
  simp only [bind, Except.bind, concatenate, hne, if_false, ← List.flatMap_def, List.length_flatMap]
  by_cases hl : (a.phases.map fun p => (value prob a.x_unit a.x_var p).length).sum = (a.phases.map fun p => (value prob unit y p).length).sum
  · simp only [hl, ne_eq, not_true_eq_false, if_false]
    rcases hy : ylabel a i y with e | l
    · simp only [reduceCtorEq, false_iff]
      rintro ⟨⟨-, -, h3⟩, -⟩
      have := (ylabel_ok a i y _).mpr ⟨h3, rfl⟩
      rw [hy] at this; cases this
    · obtain ⟨h3, rfl⟩ := (ylabel_ok a i y l).mp hy
      simp only [Except.ok.injEq]
      constructor
      · rintro rfl; exact ⟨⟨h1, trivial, h3⟩, rfl⟩
      · rintro ⟨-, rfl⟩; rfl
  · simp [hl]

theorem figures_ok (prob : Prob) (a : Args) (hp : a.phases ≠ []) (ys : List String) (i : ℕ) (Fs : List Fig) :
    figures prob a (a.phases.flatMap (value prob a.x_unit a.x_var)) i ys = .ok Fs ↔
      (∀ k y, ys[k]? = some y → Drawable prob a (i + k) y) ∧ Fs = ys.mapIdx fun k y => promised prob a (i + k) y := by
  induction ys generalizing i Fs with
  | nil => simp [figures, eq_comm]
  | cons y ys ih =>
    simp only [figures, bind, Except.bind, List.mapIdx_cons]
    rcases hf : figure prob a (a.phases.flatMap (value prob a.x_unit a.x_var)) i y with e | F
    · simp only [reduceCtorEq, false_iff]
      rintro ⟨h, -⟩
      have := (figure_ok prob a hp i y _).mpr ⟨h 0 y rfl, rfl⟩
      rw [hf] at this; cases this
    obtain ⟨hd, rfl⟩ := (figure_ok prob a hp i y F).mp hf
    have hk : ∀ k, i + (k + 1) = i + 1 + k := fun k => by omega
    rcases hr : figures prob a (a.phases.flatMap (value prob a.x_unit a.x_var)) (i + 1) ys with e | Gs
    · simp only [reduceCtorEq, false_iff]
      rintro ⟨h, -⟩
      have := (ih (i + 1) _).mpr ⟨fun k y hy => by rw [← hk]; exact h (k + 1) y hy, rfl⟩
      rw [hr] at this; cases this
    obtain ⟨hds, rfl⟩ := (ih (i + 1) Gs).mp hr
    simp only [Except.ok.injEq, Nat.add_zero]
    have e : (fun k y => promised prob a (i + (k + 1)) y) = fun k y => promised prob a (i + 1 + k) y := by
      funext k y; rw [hk]
    rw [e]
    constructor
    · rintro rfl
      refine ⟨fun k z hz => ?_, rfl⟩
      cases k with
      | zero => cases hz; exact hd
      | succ k => rw [hk]; exact hds k z hz
    · rintro ⟨-, rfl⟩; rfl

/-- C138.  `plot_trajectory` succeeds exactly if there is a phase, every variable exists in every phase in the given units, there are units
and (if any) labels for every variable, and every variable has as many values in all as the abscissa; it then makes one figure for each
variable in the given order, with the values of the phases one after the other. -/
theorem C138_iff (prob : Prob) (a : Args) (Fs : List Fig) : plotTrajectory prob a = .ok Fs ↔
    (a.phases ≠ [] ∧ (∀ p ∈ a.phases, (prob (p ++ "." ++ a.x_var) a.x_unit).isSome) ∧
      ∀ i y, a.y_vars[i]? = some y → Drawable prob a i y) ∧
    Fs = a.y_vars.mapIdx fun i y => promised prob a i y := by
  unfold plotTrajectory
  rcases hv : vals prob a.x_var a.x_unit a.phases with e | vs
  · simp only [bind, Except.bind, reduceCtorEq, false_iff]
    rintro ⟨⟨-, h1, -⟩, -⟩
    have := (vals_ok prob a.x_var a.x_unit a.phases _).mpr ⟨h1, rfl⟩
    rw [hv] at this; cases this
  obtain ⟨h1, rfl⟩ := (vals_ok prob a.x_var a.x_unit a.phases vs).mp hv
  by_cases hp : a.phases = []
  · simp [bind, Except.bind, concatenate, hp]
  · have hne : a.phases.map (value prob a.x_unit a.x_var) ≠ [] := by simpa using hp
    simp only [bind, Except.bind, concatenate, hne, if_false, ← List.flatMap_def]
    rw [figures_ok prob a hp]
    simp only [Nat.zero_add]
    exact ⟨fun h => ⟨⟨hp, h1, h.1⟩, h.2⟩, fun h => ⟨h.1.2.2, h.2⟩⟩

theorem zip_flatMap {α β γ : Type} (f : γ → List α) (g : γ → List β) (l : List γ) (h : ∀ c ∈ l, (f c).length = (g c).length) :
    (l.flatMap f).zip (l.flatMap g) = l.flatMap fun c => (f c).zip (g c) := by
  induction l with
  | nil => rfl
  | cons c l ih =>
    simp only [List.flatMap_cons]
    rw [List.zip_append (h c (by simp)), ih fun c hc => h c (by simp [hc])]

/-- C138.  If abscissa and variable have the same number of values in every phase, the points of the figure are those of the phases, each
value at the abscissa of the same node of the same phase. -/
theorem C138_points (prob : Prob) (a : Args) (Fs : List Fig) (h : plotTrajectory prob a = .ok Fs) (i : ℕ) (y : String)
    (hy : a.y_vars[i]? = some y) : ∃ F unit, Fs[i]? = some F ∧ a.y_units[i]? = some unit ∧ F.xs.length = F.ys.length ∧
      ((∀ p ∈ a.phases, (value prob a.x_unit a.x_var p).length = (value prob unit y p).length) →
        F.xs.zip F.ys = a.phases.flatMap fun p => (value prob a.x_unit a.x_var p).zip (value prob unit y p)) := by
  obtain ⟨⟨-, -, hd⟩, rfl⟩ := (C138_iff prob a Fs).mp h
  obtain ⟨unit, hu, -, hs, -⟩ := hd i y hy
  refine ⟨promised prob a i y, unit, by simp [List.getElem?_mapIdx, hy], hu, ?_, fun hl => ?_⟩
  · simp only [promised, List.length_flatMap, hu, Option.getD_some]; exact hs
  · simp only [promised, hu, Option.getD_some]
    exact zip_flatMap _ _ _ hl

/-- one climb of two nodes and one descent of two nodes -/
def demo : Prob
  | "climb.range", _ => some [0, 10]
  | "descent.range", _ => some [10, 30]
  | "climb.h", _ => some [0, 5000]
  | "descent.h", _ => some [5000, 0]
  | _, _ => none

example : ∃ Fs, plotTrajectory demo { x_var := "range", x_unit := "NM", y_vars := ["h"], y_units := ["ft"], phases := ["climb", "descent"] } =
    .ok Fs ∧ Fs.map (fun F => F.xs.zip F.ys) = [[(0, 0), (10, 5000), (10, 5000), (30, 0)]] ∧ Fs.map Fig.ylabel = [some "h"] :=
  ⟨_, rfl, rfl, rfl⟩

/-- fewer units than variables: the last figure fails -/
example : plotTrajectory demo { x_var := "range", x_unit := "NM", y_vars := ["h", "h"], y_units := ["ft"], phases := ["climb"] } =
    .error .index := rfl

/-- a phase with two positions and one value after a phase with one position and two values -/
def shifted : Prob
  | "climb.range", _ => some [0]
  | "descent.range", _ => some [10, 30]
  | "climb.h", _ => some [0, 5000]
  | "descent.h", _ => some [100]
  | _, _ => none

/-- The condition of `C138_points` is needed: `plot_trajectory` compares the numbers of all values only, so that a value of one phase can be
drawn at the position of another. -/
theorem C138_shifted : ∃ prob a Fs, plotTrajectory prob a = .ok Fs ∧ ∃ F ∈ Fs, F.xs.zip F.ys ≠
    a.phases.flatMap fun p => (value prob a.x_unit a.x_var p).zip (value prob none "h" p) := by
  refine ⟨shifted, { x_var := "range", x_unit := none, y_vars := ["h"], y_units := [none], phases := ["climb", "descent"] }, _, rfl,
    _, List.mem_singleton.mpr rfl, ?_⟩
  intro h
  have := congrArg List.length h
  revert this
  simp only [List.flatMap_cons, List.flatMap_nil]
  decide

end Verif.PlotTrajectory
