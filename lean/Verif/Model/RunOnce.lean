import Verif.Model.Wiring

/-!
One pass through the subsystems of a group, in the order in which they were added: what `run_model` does with the default solver of
OpenMDAO (`NonlinearRunOnce`).  Each subsystem is fed with the current values and overwrites its outputs.
-/

namespace Verif.Wiring

attribute [local instance 10000] fastString

/-- promoted name of an output -/
def Sub.outName (s : Sub) (v : Var) : String := s.pout.name s.name v

/-- set the outputs of `s` -/
def put {W : Type*} (s : Sub) (T e : String → W) (n : String) : W :=
  match s.sys.outs.find? fun v => decide (s.outName v = n) with
  | some v => T v.name
  | none => e n

/-- `s` is run in the state `e` of the group: its inputs are read from there, its outputs are written -/
def Grp.Runs (g : Grp) (o : Opts) (s : Sub) (e e' : String → ℝ) : Prop :=
  ∃ T, s.sys.rel o T ∧ (∀ n, n ∉ s.sys.outs.map Var.name → T n = g.view e s.name n) ∧ e' = put s T e

/-- the subsystems `l` are run one after the other -/
def Grp.Pass (g : Grp) (o : Opts) : List Sub → (String → ℝ) → (String → ℝ) → Prop
  | [], e, e' => e' = e
  | s :: l, e, e' => ∃ e₁, g.Runs o s e e₁ ∧ g.Pass o l e₁ e'

/-- `NonlinearRunOnce` -/
def Grp.RunOnce (g : Grp) (o : Opts) (e e' : String → ℝ) : Prop := g.Pass o g.subs e e'

end Verif.Wiring
