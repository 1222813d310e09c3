import Mathlib.Data.Real.Basic
import Mathlib.Data.List.Basic
import Mathlib.Data.List.Forall2

/-! Model of the OpenAeroStruct training data components: the class level cache of
`openconcept/aerodynamics/openaerostruct/drag_polar.py` (`VLMDataGen`) and `aerostructural.py` (`OASDataGen`), and
`compute_training_data` in the same files. OpenAeroStruct itself is a function parameter. -/

namespace Verif.Training

/-! ### the class level cache -/

/-- drag_polar.py:499-501, aerostructural.py:445-454: the input arrays of the component, in order. VLM: mesh (flattened),
toverc, TempIncrement; aerostructural: S, AR, taper, sweep, twist, toverc, skin, spar, TempIncrement. -/
abbrev Key := List (List ℝ)

/-- drag_polar.py:468-470 (options of one component instance); `Sf` stands for the surf_options dictionary. `lens` are the
sizes of the input arrays; `sentinel` marks the temperature array. -/
structure Inst (Sf : Type) where
  surf : Sf
  lens : List ℕ
  mach : List ℝ
  alpha : List ℝ
  alt : List ℝ
  tol : ℝ

/-- a training grid: Mach, alpha and altitude lists (drag_polar.py:486-488; `meshgrid` of them) -/
structure Grid where
  mach : List ℝ
  alpha : List ℝ
  alt : List ℝ

def Inst.grid {Sf : Type} (i : Inst Sf) : Grid := ⟨i.mach, i.alpha, i.alt⟩

/-- shape of the training arrays -/
def Grid.shape (g : Grid) : ℕ × ℕ × ℕ := (g.mach.length, g.alpha.length, g.alt.length)

/-- class attributes (`none`: attribute missing). `insts`: instances whose setup succeeded (a component cannot run before
that); `data` are the training arrays, `parts` the stored partials. -/
structure St (Sf D P : Type) where
  surf : Option Sf
  insts : List (Inst Sf)
  key : Key
  grid : Grid
  data : D
  parts : Option P

/-- drag_polar.py:483-485, aerostructural.py:425-433: sentinel values, −1 for all arrays but the last (temperature, −42) -/
def sentinel : List ℕ → Key
  | [] => []
  | [n] => [List.replicate n (-42)]
  | n :: m :: l => List.replicate n (-1) :: sentinel (m :: l)

/-- drag_polar.py:504-510, aerostructural.py:457-469: all entries closer than the tolerance. Arrays of different sizes make
numpy raise (broadcasting of one-element arrays is not modelled); see `compute`. -/
def near (tol : ℝ) (a b : Key) : Prop := List.Forall₂ (List.Forall₂ fun x y => |x - y| < tol) a b

inductive Err where
  | surfOptions
  | notSetUp
  | shape
  | training
  | noPartials
deriving DecidableEq

variable {Sf D P : Type}

open Classical in
/-- drag_polar.py:446-492, aerostructural.py:365-442 `setup` (only the class state) -/
noncomputable def setup (zero : Grid → D) (s : St Sf D P) (i : Inst Sf) : St Sf D P × Except Err Unit :=
  if s.surf.isSome ∧ s.surf ≠ some i.surf then (s, .error .surfOptions)
  else (⟨some i.surf, i :: s.insts, sentinel i.lens, i.grid, zero i.grid, none⟩, .ok ())

open Classical in
/-- drag_polar.py:494-531, aerostructural.py:444-515 `compute`. `train surf grid key` is the result of
`compute_training_data`; `fails` says that this run of it raises. The result is the training data copied to the outputs; it is
an error when the shapes do not fit (no broadcasting modelled). -/
noncomputable def compute (train : Sf → Grid → Key → D × P) (s : St Sf D P) (i : Inst Sf) (k : Key) (fails : Bool) :
    St Sf D P × Except Err D :=
  if i ∉ s.insts then (s, .error .notSetUp)
  else if k.map List.length ≠ s.key.map List.length then (s, .error .shape)
  else if near i.tol k s.key then
    (s, if i.grid.shape = s.grid.shape then .ok s.data else .error .shape)
  else if fails then ({ s with key := k }, .error .training)
  else
    let r := train i.surf s.grid k
    ({ s with key := k, data := r.1, parts := some r.2 }, if i.grid.shape = s.grid.shape then .ok r.1 else .error .shape)

/-- drag_polar.py:533-537, aerostructural.py:517-522 `compute_partials`: runs `compute` with a dictionary for outputs (no shape
check), then copies the stored partials -/
noncomputable def partials (train : Sf → Grid → Key → D × P) (s : St Sf D P) (i : Inst Sf) (k : Key) (fails : Bool) :
    St Sf D P × Except Err P :=
  let r := compute train s i k fails
  (r.1, match r.2 with
    | .error .notSetUp => .error .notSetUp
    | .error .training => .error .training
    | .error .shape => if k.map List.length ≠ s.key.map List.length then .error .shape else
        match r.1.parts with
        | some p => if i.grid.shape = r.1.grid.shape then .ok p else .error .shape
        | none => .error .noPartials
    | _ => match r.1.parts with
        | some p => .ok p
        | none => .error .noPartials)

inductive Ev (Sf : Type) where
  | setup (i : Inst Sf)
  | compute (i : Inst Sf) (k : Key) (fails : Bool)
  | partials (i : Inst Sf) (k : Key) (fails : Bool)

noncomputable def step (zero : Grid → D) (train : Sf → Grid → Key → D × P) (s : St Sf D P) : Ev Sf → St Sf D P
  | .setup i => (setup zero s i).1
  | .compute i k f => (compute train s i k f).1
  | .partials i k f => (partials train s i k f).1

/-- class state before any setup: no attributes; the values of the missing attributes are arbitrary -/
def init (k : Key) (g : Grid) (d : D) : St Sf D P := ⟨none, [], k, g, d, none⟩

noncomputable def run (zero : Grid → D) (train : Sf → Grid → Key → D × P) (s : St Sf D P) (evs : List (Ev Sf)) : St Sf D P :=
  evs.foldl (step zero train) s

/-! ### compute_training_data -/

/-- numpy C-order flattening of a three dimensional array given as a function of its indices -/
def flatten {α : Type} (n m l : ℕ) (f : ℕ → ℕ → ℕ → α) : List α :=
  (List.range n).flatMap fun i => (List.range m).flatMap fun j => (List.range l).map fun k => f i j k

/-- drag_polar.py:486-488: `meshgrid(..., indexing="ij")` -/
def meshMach (g : Grid) (i _j _k : ℕ) : ℝ := g.mach.getD i 0
def meshAlpha (g : Grid) (_i j _k : ℕ) : ℝ := g.alpha.getD j 0
def meshAlt (g : Grid) (_i _j k : ℕ) : ℝ := g.alt.getD k 0

/-- a row of `test_points`: Mach, alpha, altitude, and whether to compute the wing weight (aerostructural.py:610-615) -/
structure Point where
  mach : ℝ
  alpha : ℝ
  alt : ℝ
  weight : Bool

/-- drag_polar.py:593-606, aerostructural.py:597-615: the rows of the transposed array; the other inputs are the same for all
rows and belong to the worker function -/
noncomputable def testPoints (g : Grid) : List Point :=
  let n := g.mach.length; let m := g.alpha.length; let l := g.alt.length
  let ma := flatten n m l (meshMach g); let al := flatten n m l (meshAlpha g); let h := flatten n m l (meshAlt g)
  (List.range ma.length).map fun r => ⟨ma.getD r 0, al.getD r 0, h.getD r 0, r = 0⟩

/-- `Pool.map`/`imap` (drag_polar.py:609-613): workers finish the tasks in the order `sched`; each result is stored in the slot
of its task -/
def pool {R : Type} (f : Point → R) (tasks : List Point) (sched : List ℕ) : List (Option R) :=
  sched.foldl (fun slots t => (tasks[t]?).elim slots fun p => slots.set t (some (f p))) (List.replicate tasks.length none)

/-- `numpy.unravel_index` for shape `(n, m, l)`, C order -/
def unravel (m l r : ℕ) : ℕ × ℕ × ℕ := (r / (m * l), r / l % m, r % l)

/-- drag_polar.py:629-632, aerostructural.py:662-665: copying the results to an array -/
def store {R : Type} (m l : ℕ) (val : R → ℝ) (out : List R) : ℕ × ℕ × ℕ → ℝ :=
  (List.range out.length).foldl (fun a r => (out[r]?).elim a fun v => Function.update a (unravel m l r) (val v)) (fun _ => 0)

/-- drag_polar.py:633-634: rows of a partial derivative array -/
def storeRow {R V : Type} (zero : V) (val : R → V) (out : List R) : ℕ → V :=
  (List.range out.length).foldl (fun a r => (out[r]?).elim a fun v => Function.update a r (val v)) (fun _ => zero)

/-- drag_polar.py:588-638, aerostructural.py:592-: `compute_training_data` for one output quantity. `f` is
`compute_aerodynamic_data`, `sched` the order in which workers finish. -/
noncomputable def trainArray {R : Type} (f : Point → R) (g : Grid) (sched : List ℕ) (val : R → ℝ) : ℕ × ℕ × ℕ → ℝ :=
  store g.alpha.length g.alt.length val ((pool f (testPoints g) sched).filterMap id)

/-- the same for a row of the partials -/
noncomputable def trainRows {R V : Type} (f : Point → R) (g : Grid) (sched : List ℕ) (zero : V) (val : R → V) : ℕ → V :=
  storeRow zero val ((pool f (testPoints g) sched).filterMap id)

/-- aerostructural.py: wing weight from the first result -/
noncomputable def trainWeight {R : Type} (f : Point → R) (g : Grid) (sched : List ℕ) (val : R → ℝ) : Option ℝ :=
  (((pool f (testPoints g) sched).filterMap id)[0]?).map val

end Verif.Training
