import Mathlib.Data.Finset.Basic
import Mathlib.Data.List.Nodup

/-!
The sweeps over design range and specific energy at the end of the hybrid twin examples: openconcept/examples/HybridTwin.py:358-490,
HybridTwin_thermal.py:441-604 and HybridTwin_active_thermal.py:408-571 (a `run_type` other than "example").

Ranges and energies are natural numbers.  The optimization itself is an arbitrary function of the case and of the file it starts from; its
result is one of three.  The files are those of the current directory with names `case_<energy>_<range>.sql` and
`case_<energy>_<range>_failed.sql`; a file that exists can be read and has a driver case.  The recorder creates its file when the driver
starts (OpenMDAO, `SqliteRecorder.startup`), and `prob.cleanup()` closes it and does not fail.
-/

namespace Verif.SweepScript

inductive File
  | case (e r : ℕ)
  | failed (e r : ℕ)
  deriving DecidableEq

/-- how an optimization ends: successfully, with a flag or an exception of the driver, or with an exception before the driver opens the file -/
inductive Outcome
  | ok
  | late
  | early
  deriving DecidableEq

/-- what happens to a case; `start` is the file whose design variables are used -/
inductive Entry
  | skipped (e r : ℕ)
  | unread (e r : ℕ)
  | ran (e r : ℕ) (start : Option File) (ok : Bool)
  deriving DecidableEq

inductive Err
  /-- NameError: `filename_to_save`, or `WindowsError` where Python does not define it -/
  | name
  /-- FileNotFoundError -/
  | noFile
  deriving DecidableEq

structure St where
  files : Finset File
  last : Option File
  log : List Entry

/-- differences of the scripts: whether the last successful case is used for the next one, and whether the renaming depends on `write_logs` -/
structure Script where
  warm : Bool
  guarded : Bool

/-- HybridTwin.py:484: the renaming is not guarded; there is no `last_successful_opt` -/
def hybridTwin : Script := ⟨false, false⟩

/-- HybridTwin_thermal.py:448, 577-583, 597-598 (HybridTwin_active_thermal.py:415, 544-550, 564-565) -/
def thermal : Script := ⟨true, true⟩

/-- HybridTwin_thermal.py:592-602, HybridTwin.py:479-488: the handler of all exceptions.  Where the name `WindowsError` is not defined, evaluating
the second `except` raises a NameError; on Windows it is OSError, and renaming to an existing file raises it. -/
def handler (sc : Script) (windows logs : Bool) (s : St) (e r : ℕ) : St × Option Err :=
  if sc.guarded ∧ ¬ logs then (s, none)
  else if ¬ logs then (s, some .name)
  else if .case e r ∈ s.files then
    if windows ∧ .failed e r ∈ s.files then ({ s with files := s.files.erase (.case e r) }, none)
    else ({ s with files := insert (.failed e r) (s.files.erase (.case e r)) }, none)
  else (s, some (if windows then .noFile else .name))

/-- HybridTwin_thermal.py:585-591, HybridTwin.py:475-477: running the driver -/
def drive (sc : Script) (windows logs : Bool) (run : ℕ → ℕ → Option File → Outcome) (s : St) (e r : ℕ) : St × Option Err :=
  match run e r s.last with
  | .ok =>
    ({ files := if logs then insert (.case e r) s.files else s.files
       last := if logs ∧ sc.warm then some (.case e r) else s.last
       log := s.log ++ [.ran e r s.last true] }, none)
  | .late =>
    handler sc windows logs
      { s with files := if logs then insert (.case e r) s.files else s.files, log := s.log ++ [.ran e r s.last false] } e r
  | .early => handler sc windows logs { s with log := s.log ++ [.ran e r s.last false] } e r

/-- HybridTwin_thermal.py:453-602, HybridTwin.py:367-488: one case.  A recorded case is skipped; the next one is then to start from it, or, if its
range is 300, from the case with 50 more energy and range 700 (HybridTwin_thermal.py:560-566) -/
def step (sc : Script) (windows logs : Bool) (run : ℕ → ℕ → Option File → Outcome) (s : St) (e r : ℕ) : St × Option Err :=
  if logs ∧ .case e r ∈ s.files then
    ({ s with
        last := if sc.warm then (if r ≠ 300 then some (.case e r) else some (.case (e + 50) 700)) else s.last
        log := s.log ++ [.skipped e r] }, none)
  else
    match s.last with
    | some f =>
      if f ∈ s.files then drive sc windows logs run s e r
      else handler sc windows logs { s with log := s.log ++ [.unread e r] } e r
    | none => drive sc windows logs run s e r

/-- the loops; an exception that leaves the handler ends the script -/
def sweep (sc : Script) (windows logs : Bool) (run : ℕ → ℕ → Option File → Outcome) : List (ℕ × ℕ) → St → St × Option Err
  | [], s => (s, none)
  | (e, r) :: cs, s =>
    match step sc windows logs run s e r with
    | (s', none) => sweep sc windows logs run cs s'
    | (s', some x) => (s', some x)

/-- HybridTwin_thermal.py:451-452 -/
def casesThermal (energies ranges : List ℕ) : List (ℕ × ℕ) := energies.flatMap fun e => ranges.map fun r => (e, r)

/-- HybridTwin.py:365-366 -/
def casesHybrid (ranges energies : List ℕ) : List (ℕ × ℕ) := ranges.flatMap fun r => energies.map fun e => (e, r)

/-- HybridTwin_thermal.py:448: the state before the loops in a directory with these files -/
def begin (files : Finset File) : St := ⟨files, none, []⟩

end Verif.SweepScript
