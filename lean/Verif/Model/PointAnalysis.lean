import Verif.Model.Integrals

/-!
Complete `compute` of the two integrator classes of `openconcept/utilities/math/integrals.py`, including the special case
of one node ("so point analysis can be run without breaking everything").

The numbers come from `Verif.Integrals`; this file adds the case distinction on `num_nodes`, the options `zero_start` and
`final_only`, the shape of the outputs and the exceptions.  Rates are given as functions of the node number, of which the
first `num_nodes` values are used.  Output bounds are not enforced by `compute` and not modelled.
-/

namespace Verif.PointAnalysis

open Integrals

variable {K : Type*} [Field K]

/-- what can go wrong -/
inductive Err
  /-- integrals.py:528-529, 935-936: `num_nodes must be odd` -/
  | parity
  /-- the matrix of the method cannot be built (`bdf3` with three nodes) -/
  | matrix
  /-- integrals.py:1123: indexing the integer 0 -/
  | typeError
  /-- integrals.py:1101: the input `<segment>|dt` does not exist -/
  | keyError
  /-- integrals.py:1047-1048: named segments need `time_setup = "dt"` -/
  | timeSetup
  deriving DecidableEq

/-- the outputs: the history unless `final_only`, and the final value -/
structure Out (K : Type*) where
  hist : Option (List K)
  final : K

/-- the options used by `compute` -/
structure Opts where
  method : Method
  zeroStart : Bool
  finalOnly : Bool

/-- the history after the final value has been read: dropped with `final_only` -/
def Opts.out (o : Opts) (h : List K) (f : K) : Out K := { hist := if o.finalOnly then none else some h, final := f }

/-- integrals.py:742-784 `Integrator.compute` for one state (with the checks of `__init__`), `num_nodes = n` -/
noncomputable def newCompute (o : Opts) (n : ℕ) (qInit : K) (t : TimeInput K) (rate : ℕ → K) : Except Err (Out K) :=
  let q0 := if o.zeroStart then 0 else qInit
  match n with
  | 0 => .error .parity
  | m + 1 =>
    if m % 2 > 0 then .error .parity
    else if m = 0 then .ok (o.out [q0] q0)
    else match methodMatrix o.method m with
      | none => .error .matrix
      | some tri =>
        let Q := integratorCompute tri q0 t (fun b : Fin (m + 1) => rate b)
        .ok (o.out (List.ofFn Q) (Q (Fin.last m)))

/-- time inputs of `OldIntegrator`: one segment with any `time_setup`, or named segments with one step each, where `isDt`
tells whether `time_setup` is `"dt"` -/
inductive OldTime (K : Type*)
  | single (t : TimeInput K)
  | segments (S : ℕ) (isDt : Bool) (names : Fin (S + 1) → String) (counted : Option (List String)) (dts : Fin (S + 1) → K)

/-- integrals.py:923-1071 (the checks of `setup`) and 1073-1123 `OldIntegrator.compute`.  With one node `setup` adds the
input `dt` also for named segments, while `compute` reads `<segment>|dt`; `zero_start` sets `q0 = 0`, an integer, which
cannot be indexed.  `rate i b` is entry `i * num_nodes + b` of `dqdt`. -/
noncomputable def oldCompute (o : Opts) (n : ℕ) (qInit : K) (t : OldTime K) (rate : ℕ → ℕ → K) : Except Err (Out K) :=
  let q0 := if o.zeroStart then 0 else qInit
  match n with
  | 0 => .error .parity
  | m + 1 =>
    if m % 2 > 0 then .error .parity
    else if m = 0 then
      match t with
      | .single _ => if o.zeroStart then .error .typeError else .ok (o.out [q0] q0)
      | .segments _ _ _ _ _ => .error .keyError
    else match methodMatrix o.method m with
      | none => .error .matrix
      | some tri =>
        match t with
        | .single t =>
          let Q := integrate (S := 1) tri (countCol none none) q0 (fun _ => t.step m) (fun i b => rate i b)
          .ok (o.out (List.ofFn (Q 0)) (Q 0 (Fin.last m)))
        | .segments S isDt names counted dts =>
          if isDt = false then .error .timeSetup
          else
          let Q := integrate tri (countCol (some names) counted) q0 dts (fun i b => rate i b)
          .ok (o.out ((List.finRange (S + 1)).flatMap fun i => List.ofFn (Q i)) (Q (Fin.last S) (Fin.last m)))

/-- A chain of phases: the final value of each is the initial value of the next (mission_groups.py:309-328). -/
noncomputable def chain (o : Opts) (n : ℕ) (q0 : K) : List (TimeInput K × (ℕ → K)) → Except Err K
  | [] => .ok q0
  | p :: ps =>
    match newCompute o n q0 p.1 p.2 with
    | .error e => .error e
    | .ok r => chain o n r.final ps

end Verif.PointAnalysis
