import Mathlib.Data.Rat.Defs
import Mathlib.Data.List.Nodup

/-!
# The check of the surface options: `VLMDataGen.setup` (drag_polar.py:462-481) and `OASDataGen.setup` (aerostructural.py:404-423)

`Model/Training.lean` takes this check as the comparison of two values; here the dictionaries are spelled out, with Python's `or` and the
comparisons of numpy.  Values are numbers (strings and flags stand as numbers) and one dimensional arrays.
-/

namespace Verif.SurfOptions

/-- a value of the dictionary -/
inductive Val where
  | num (x : ℚ)
  | arr (l : List ℚ)
deriving DecidableEq

/-- a dictionary, in the order of insertion -/
abbrev Dict := List (String × Val)

def Dict.keys (d : Dict) : List String := d.map Prod.fst

inductive Err where
  /-- the documented error (drag_polar.py:474-479) -/
  | differ
  /-- a key that is not there -/
  | key
  /-- arrays that cannot be compared, or the truth of an array of several entries -/
  | numpy
deriving DecidableEq

/-- what the variable `error` holds: a truth value or an array of them -/
inductive PV where
  | b (x : Bool)
  | a (l : List Bool)
deriving DecidableEq

/-- Python's `bool(...)` -/
def truth : PV → Except Err Bool
  | .b x => .ok x
  | .a [] => .ok false
  | .a [x] => .ok x
  | .a _ => .error .numpy

/-- numpy's `l != m` with broadcasting of one entry -/
def neArr (l m : List ℚ) : Except Err (List Bool) :=
  if l.length = m.length then .ok (List.zipWith (fun x y => decide (x ≠ y)) l m)
  else match l, m with
    | [x], m => .ok (m.map fun y => decide (x ≠ y))
    | l, [y] => .ok (l.map fun x => decide (x ≠ y))
    | _, _ => .error .numpy

/-- drag_polar.py:469-472: `np.any(old != new)` if the stored value is an array, `old != new` otherwise -/
def ne : Val → Val → Except Err PV
  | .arr l, .arr m => (neArr l m).map fun r => .b (r.any id)
  | .arr l, .num y => .ok (.b (l.any fun x => decide (x ≠ y)))
  | .num x, .num y => .ok (.b (decide (x ≠ y)))
  | .num x, .arr m => .ok (.a (m.map fun y => decide (x ≠ y)))

/-- `self.options["surf_options"][key]` -/
def get (d : Dict) (k : String) : Except Err Val :=
  match d.lookup k with
  | some v => .ok v
  | none => .error .key

/-- drag_polar.py:468-472: the loop over the stored dictionary; `or` does not evaluate its right side once `error` holds -/
def loop (new : Dict) : Dict → PV → Except Err PV
  | [], e => .ok e
  | (k, v) :: l, e => do
    if ← truth e then loop new l e
    else
      let w ← get new k
      let e' ← ne v w
      loop new l e'

/-- drag_polar.py:466: key views compare as sets -/
def keysDiffer (old new : Dict) : Bool := !(old.keys.all (· ∈ new.keys) && new.keys.all (· ∈ old.keys))

/-- drag_polar.py:464-479: the check against the stored dictionary -/
def check (old new : Dict) : Except Err Unit := do
  let e ← loop new old (.b (keysDiffer old new))
  if ← truth e then .error .differ else .ok ()

/-- drag_polar.py:464-481: the class attribute (`none` before the first setup) and the result of one setup -/
def setup (s : Option Dict) (new : Dict) : Option Dict × Except Err Unit :=
  match s with
  | none => (some new, .ok ())
  | some old => (some old, check old new)

/-- the setups of one Python process, of whatever problems and components -/
def run (s : Option Dict) : List Dict → Option Dict × List (Except Err Unit)
  | [] => (s, [])
  | d :: l => let r := setup s d; let q := run r.1 l; (q.1, r.2 :: q.2)

end Verif.SurfOptions
