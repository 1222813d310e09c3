import Mathlib.Analysis.SpecialFunctions.Pow.Real
import Mathlib.Analysis.SpecialFunctions.Sqrt
import Mathlib.Analysis.SpecialFunctions.Trigonometric.Basic
import Mathlib.Algebra.BigOperators.Fin

/-! Model of openconcept/aerodynamics/openaerostruct/mesh_gen.py.

Arrays are functions of their indices; only indices inside the array bounds are meaningful.  The flattening of the Jacobian
rows (lines 272-273, 294-322) is represented by indexing with (streamwise index, spanwise index, coordinate): numpy's
row-major `flatten` of the values and of `idx_mesh` enumerate the pairs in the same order.  The z coordinate is always
zero and is not modelled. -/

namespace Verif.Mesh

open Real

/-- numpy's `linspace(a, b, n)[j]`; for `n = 1` the single point `a` -/
noncomputable def linspace (a b : ℝ) (n j : ℕ) : ℝ := a + j * ((b - a) / ((n : ℝ) - 1))

/-! ### TrapezoidalPlanformMesh -/

/-- mesh_gen.py:68 -/
noncomputable def halfSpan (S AR : ℝ) : ℝ := √(AR * S) / 2
/-- mesh_gen.py:69 -/
noncomputable def cRoot (S AR taper : ℝ) : ℝ := S / (halfSpan S AR * (1 + taper))
/-- mesh_gen.py:72-81: x coordinate; `nx`, `ny` are numbers of coordinates, `sweep` in degrees -/
noncomputable def trapX (nx ny : ℕ) (S AR taper sweep : ℝ) (i j : ℕ) : ℝ :=
  linspace 0 1 nx i * cRoot S AR taper * linspace taper 1 ny j
    - linspace (cRoot S AR taper * taper) (cRoot S AR taper) ny j / 4
    + linspace (halfSpan S AR) 0 ny j * tan (sweep * π / 180)
/-- mesh_gen.py:72, 76: y coordinate -/
noncomputable def trapY (ny : ℕ) (S AR : ℝ) (j : ℕ) : ℝ := linspace (-1) 0 ny j * halfSpan S AR

/-- mesh_gen.py:103 -/
noncomputable def dbS (S AR : ℝ) : ℝ := AR / (4 * √(AR * S))
/-- mesh_gen.py:104 -/
noncomputable def dbAR (S AR : ℝ) : ℝ := S / (4 * √(AR * S))
/-- mesh_gen.py:105 -/
noncomputable def dcrS (S AR taper : ℝ) : ℝ :=
  1 / (halfSpan S AR * (1 + taper)) - S / (halfSpan S AR ^ 2 * (1 + taper)) * dbS S AR
/-- mesh_gen.py:106 -/
noncomputable def dcrAR (S AR taper : ℝ) : ℝ := -S / (halfSpan S AR ^ 2 * (1 + taper)) * dbAR S AR
/-- mesh_gen.py:107 -/
noncomputable def dcrtaper (S AR taper : ℝ) : ℝ := -S / (halfSpan S AR * (1 + taper) ^ 2)
/-- mesh_gen.py:109, 132 -/
noncomputable def trapYDS (ny : ℕ) (S AR : ℝ) (j : ℕ) : ℝ := linspace (-1) 0 ny j * dbS S AR
/-- mesh_gen.py:110, 133 -/
noncomputable def trapYDAR (ny : ℕ) (S AR : ℝ) (j : ℕ) : ℝ := linspace (-1) 0 ny j * dbAR S AR
/-- mesh_gen.py:112-114 -/
noncomputable def trapXDS (nx ny : ℕ) (S AR taper sweep : ℝ) (i j : ℕ) : ℝ :=
  linspace 0 1 nx i * linspace taper 1 ny j * dcrS S AR taper
    - linspace (dcrS S AR taper * taper) (dcrS S AR taper) ny j / 4
    + linspace (dbS S AR) 0 ny j * tan (sweep * π / 180)
/-- mesh_gen.py:116-118 -/
noncomputable def trapXDAR (nx ny : ℕ) (S AR taper sweep : ℝ) (i j : ℕ) : ℝ :=
  linspace 0 1 nx i * linspace taper 1 ny j * dcrAR S AR taper
    - linspace (dcrAR S AR taper * taper) (dcrAR S AR taper) ny j / 4
    + linspace (dbAR S AR) 0 ny j * tan (sweep * π / 180)
/-- mesh_gen.py:120-127 -/
noncomputable def trapXDtaper (nx ny : ℕ) (S AR taper : ℝ) (i j : ℕ) : ℝ :=
  linspace 0 1 nx i * cRoot S AR taper * linspace 1 0 ny j
    + linspace 0 1 nx i * linspace taper 1 ny j * dcrtaper S AR taper
    - (linspace (cRoot S AR taper) 0 ny j / 4
      + linspace (dcrtaper S AR taper * taper) (dcrtaper S AR taper) ny j / 4)
/-- mesh_gen.py:129-132 -/
noncomputable def trapXDsweep (ny : ℕ) (S AR sweep : ℝ) (j : ℕ) : ℝ :=
  linspace (halfSpan S AR) 0 ny j / cos (sweep * π / 180) ^ 2 * π / 180

/-! ### cosine spacing -/

/-- mesh_gen.py:687-691 -/
noncomputable def cosSpace (s e : ℝ) (n j : ℕ) : ℝ := s + 0.5 * (e - s) * (1 - cos (linspace 0 π n j))
/-- mesh_gen.py:694-698 -/
noncomputable def cosDStart (n j : ℕ) : ℝ := 1 - 0.5 * (1 - cos (linspace 0 π n j))
/-- mesh_gen.py:701-705 -/
noncomputable def cosDEnd (n j : ℕ) : ℝ := 0.5 * (1 - cos (linspace 0 π n j))

/-- values at the nodes of a region, mesh_gen.py:545-548, 672-680 (option `cos_spacing`) -/
noncomputable def nodal (c : Bool) (s e : ℝ) (n j : ℕ) : ℝ := if c then cosSpace s e n j else linspace s e n j
/-- mesh_gen.py:508-513, 633-638 -/
noncomputable def nodalDStart (c : Bool) (n j : ℕ) : ℝ := if c then cosDStart n j else linspace 1 0 n j
/-- mesh_gen.py:508-513, 633-638 -/
noncomputable def nodalDEnd (c : Bool) (n j : ℕ) : ℝ := if c then cosDEnd n j else linspace 0 1 n j

/-! ### option processing, shared by three components -/

/-- the `num_y` option: an int or an iterable -/
inductive NumY where
  | int (n : ℕ)
  | list (l : List ℕ)

/-- mesh_gen.py:236-249 (also 482-495, 607-620): processed list of panels per region, or ValueError -/
def processNumY (nSec : ℕ) (numY : NumY) : Except String (List ℕ) :=
  if nSec < 2 then .error "Must define at least two sections along the half span"
  else match numY with
    | .int n => .ok (List.replicate (nSec - 1) n)
    | .list l => if l.length ≠ nSec - 1 then
        .error "If specified as an iterable, the num_y option must have a length of num_sections"
      else .ok l

/-! ### SectionLinearInterp and ThicknessChordRatioInterp

`ny i` is the number of panels of region `i`; `off ny i` is the running `y_prev`. -/

/-- the running index `y_prev` -/
def off (ny : ℕ → ℕ) (i : ℕ) : ℕ := ∑ k ∈ Finset.range i, ny k

/-- numpy slice assignment `a[s : s + len] = v` -/
def writeSlice (a : ℕ → ℝ) (s len : ℕ) (v : ℕ → ℝ) : ℕ → ℝ := fun k => if s ≤ k ∧ k < s + len then v (k - s) else a k

/-- mesh_gen.py:662-684 `SectionLinearInterp.compute` after `m` iterations of the loop -/
noncomputable def interpArr (c : Bool) (ny : ℕ → ℕ) (p : ℕ → ℝ) : ℕ → ℕ → ℝ
  | 0 => fun _ => 0
  | m + 1 => writeSlice (interpArr c ny p m) (off ny m) (ny m + 1) (nodal c (p m) (p (m + 1)) (ny m + 1))

/-- mesh_gen.py:536-555 `ThicknessChordRatioInterp.compute` after `m` iterations -/
noncomputable def tcArr (c : Bool) (ny : ℕ → ℕ) (p : ℕ → ℝ) : ℕ → ℕ → ℝ
  | 0 => fun _ => 0.12
  | m + 1 => writeSlice (tcArr c ny p m) (off ny m) (ny m)
      (fun j => 0.5 * (nodal c (p m) (p (m + 1)) (ny m + 1) j + nodal c (p m) (p (m + 1)) (ny m + 1) (j + 1)))

/-- mesh_gen.py:628-652: the triplets (row, column, value) one region adds to the declared sparsity -/
noncomputable def interpTrip1 (c : Bool) (ny : ℕ → ℕ) (i : ℕ) : List (ℕ × ℕ × ℝ) :=
  let st := if i = 0 then 0 else 1
  (List.range (ny i - st)).map (fun j => (off ny i + st + j, i, nodalDStart c (ny i + 1) (st + j)))
    ++ (List.range (ny i)).map (fun j => (off ny i + 1 + j, i + 1, nodalDEnd c (ny i + 1) (j + 1)))
/-- mesh_gen.py:625-660: all triplets of `SectionLinearInterp` -/
noncomputable def interpTrip (c : Bool) (ny : ℕ → ℕ) (n : ℕ) : List (ℕ × ℕ × ℝ) := (List.range n).flatMap (interpTrip1 c ny)
/-- mesh_gen.py:625: allocated number of nonzeros, for `n` regions -/
def interpNnz (ny : ℕ → ℕ) (n : ℕ) : ℤ := (∑ i ∈ Finset.range n, ((ny i : ℤ) - 1)) * 2 + (n + 1)

/-- mesh_gen.py:504-527: triplets of one region of `ThicknessChordRatioInterp` -/
noncomputable def tcTrip1 (c : Bool) (ny : ℕ → ℕ) (i : ℕ) : List (ℕ × ℕ × ℝ) :=
  (List.range (ny i)).map (fun j => (off ny i + j, i, 0.5 * (nodalDStart c (ny i + 1) j + nodalDStart c (ny i + 1) (j + 1))))
    ++ (List.range (ny i)).map (fun j => (off ny i + j, i + 1, 0.5 * (nodalDEnd c (ny i + 1) j + nodalDEnd c (ny i + 1) (j + 1))))
/-- mesh_gen.py:500-535 -/
noncomputable def tcTrip (c : Bool) (ny : ℕ → ℕ) (n : ℕ) : List (ℕ × ℕ × ℝ) := (List.range n).flatMap (tcTrip1 c ny)

/-- the Jacobian entry OpenMDAO assembles from (row, column, value) triplets -/
noncomputable def jac (t : List (ℕ × ℕ × ℝ)) (r c : ℕ) : ℝ := (t.map fun e => if e.1 = r ∧ e.2.1 = c then e.2.2 else 0).sum

/-! ### SectionPlanformMesh -/

/-- inputs of `SectionPlanformMesh` with `n + 1` sections: leading edge offsets, spanwise locations of all but the root
section, chords and area -/
structure SecIn where
  x : ℕ → ℝ
  ysec : ℕ → ℝ
  c : ℕ → ℝ
  S : ℝ

/-- mesh_gen.py:346, 389: `hstack((y_sec, 0))` for `n` regions -/
def SecIn.y (i : SecIn) (n : ℕ) (k : ℕ) : ℝ := if k < n then i.ysec k else 0

/-- mesh_gen.py:354-366: x coordinates of the mesh after `m` iterations -/
noncomputable def secX (nx : ℕ) (ny : ℕ → ℕ) (q : SecIn) : ℕ → ℕ → ℕ → ℝ
  | 0 => fun _ _ => 0
  | m + 1 => fun i => writeSlice (secX nx ny q m i) (off ny m) (ny m + 1) (fun j =>
      cosSpace 0 1 nx i * cosSpace (q.c m) (q.c (m + 1)) (ny m + 1) j + cosSpace (q.x m) (q.x (m + 1)) (ny m + 1) j)
/-- mesh_gen.py:354-367: y coordinates after `m` iterations; `n` is the number of regions -/
noncomputable def secY (ny : ℕ → ℕ) (n : ℕ) (q : SecIn) : ℕ → ℕ → ℝ
  | 0 => fun _ => 0
  | m + 1 => writeSlice (secY ny n q m) (off ny m) (ny m + 1) (cosSpace (q.y n m) (q.y n (m + 1)) (ny m + 1))
/-- mesh_gen.py:352, 370, 381: twice the accumulated trapezoid areas -/
noncomputable def secA (n : ℕ) (q : SecIn) : ℝ :=
  (∑ k ∈ Finset.range n, (q.y n (k + 1) - q.y n k) * (q.c k + q.c (k + 1)) * 0.5) * 2
/-- coordinates of the scaled mesh (mesh_gen.py:383): `d = 0` for x, otherwise y -/
noncomputable def secRaw (nx : ℕ) (ny : ℕ → ℕ) (n : ℕ) (q : SecIn) (i j d : ℕ) : ℝ :=
  if d = 0 then secX nx ny q n i j else secY ny n q n j
/-- mesh_gen.py:344-386 `SectionPlanformMesh.compute`, `scale_area = True` -/
noncomputable def secMesh (nx : ℕ) (ny : ℕ → ℕ) (n : ℕ) (q : SecIn) (i j d : ℕ) : ℝ :=
  secRaw nx ny n q i j d * (q.S / secA n q) ^ (0.5 : ℝ)

/-- mesh_gen.py:281-323: accumulated weight of section `k` on node `j` (`dymesh_dysec` etc.) -/
noncomputable def secW (ny : ℕ → ℕ) (n j k : ℕ) : ℝ :=
  ∑ i ∈ Finset.range n, if off ny i + (if i = 0 then 0 else 1) ≤ j ∧ j < off ny i + (ny i + 1) then
    (if k = i + 1 then cosDEnd (ny i + 1) (j - off ny i) else 0) + (if k = i then cosDStart (ny i + 1) (j - off ny i) else 0)
  else 0
/-- mesh_gen.py:301-306: `dmesh_dysec_no_S_influence`; the root section is excluded -/
noncomputable def secDyRaw (ny : ℕ → ℕ) (n j k d : ℕ) : ℝ :=
  if d = 0 then 0 else ∑ i ∈ Finset.range n, if off ny i + (if i = 0 then 0 else 1) ≤ j ∧ j < off ny i + (ny i + 1) then
    (if i + 1 < n ∧ k = i + 1 then cosDEnd (ny i + 1) (j - off ny i) else 0)
      + (if k = i then cosDStart (ny i + 1) (j - off ny i) else 0) else 0
/-- mesh_gen.py:307-308: `dmesh_dcsec_no_S_influence` -/
noncomputable def secDcRaw (nx : ℕ) (ny : ℕ → ℕ) (n i j k d : ℕ) : ℝ := if d = 0 then cosSpace 0 1 nx i * secW ny n j k else 0
/-- mesh_gen.py:311-321: `dmesh_dxLEsec_no_S_influence` -/
noncomputable def secDxRaw (ny : ℕ → ℕ) (n j k d : ℕ) : ℝ := if d = 0 then secW ny n j k else 0

/-- mesh_gen.py:406-415, 420: dA_dysec -/
noncomputable def dAy (n : ℕ) (q : SecIn) (k : ℕ) : ℝ :=
  (∑ i ∈ Finset.range n, ((if k = i then -0.5 * (q.c i + q.c (i + 1)) else 0)
    + (if i + 1 < n ∧ k = i + 1 then 0.5 * (q.c i + q.c (i + 1)) else 0))) * 2
/-- mesh_gen.py:406-416, 421: dA_dcsec -/
noncomputable def dAc (n : ℕ) (q : SecIn) (k : ℕ) : ℝ :=
  (∑ i ∈ Finset.range n, if i ≤ k ∧ k < i + 2 then 0.5 * (q.y n (i + 1) - q.y n i) else 0) * 2

/-- mesh_gen.py:400, 426-427: partial of the mesh with respect to y_sec[k], using a cached unscaled mesh `u` -/
noncomputable def secMeshDy (ny : ℕ → ℕ) (n : ℕ) (q : SecIn) (u : ℕ → ℕ → ℕ → ℝ) (i j d k : ℕ) : ℝ :=
  secDyRaw ny n j k d * (q.S / secA n q) ^ (0.5 : ℝ)
    + -0.5 * u i j d * q.S ^ (0.5 : ℝ) * secA n q ^ (-1.5 : ℝ) * dAy n q k
/-- mesh_gen.py:402, 428-430: partial with respect to chord_sec[k] -/
noncomputable def secMeshDc (nx : ℕ) (ny : ℕ → ℕ) (n : ℕ) (q : SecIn) (u : ℕ → ℕ → ℕ → ℝ) (i j d k : ℕ) : ℝ :=
  secDcRaw nx ny n i j k d * (q.S / secA n q) ^ (0.5 : ℝ)
    + -0.5 * u i j d * q.S ^ (0.5 : ℝ) * secA n q ^ (-1.5 : ℝ) * dAc n q k
/-- mesh_gen.py:401, 425-426: partial with respect to x_LE_sec[k] -/
noncomputable def secMeshDx (ny : ℕ → ℕ) (n : ℕ) (q : SecIn) (j d k : ℕ) : ℝ :=
  secDxRaw ny n j k d * (q.S / secA n q) ^ (0.5 : ℝ)
/-- mesh_gen.py:431: partial with respect to S -/
noncomputable def secMeshDS (n : ℕ) (q : SecIn) (u : ℕ → ℕ → ℕ → ℝ) (i j d : ℕ) : ℝ :=
  0.5 * q.S ^ (-0.5 : ℝ) / secA n q ^ (0.5 : ℝ) * u i j d

/-- the object state: `inputs_cache` and `unscaled_flattened_mesh` -/
structure SecState where
  cache : Option SecIn
  unscaled : ℕ → ℕ → ℕ → ℝ

/-- mesh_gen.py:267: state after setup; `unscaled_flattened_mesh` does not exist yet, any value -/
def SecState.init (u : ℕ → ℕ → ℕ → ℝ) : SecState := ⟨none, u⟩

/-- mesh_gen.py:349, 378: state after `compute` -/
noncomputable def SecState.compute (nx : ℕ) (ny : ℕ → ℕ) (n : ℕ) (_ : SecState) (q : SecIn) : SecState :=
  ⟨some q, secRaw nx ny n q⟩

/-- mesh_gen.py:393-394: no input array differs from the cached one -/
def SecIn.Agree (n : ℕ) (a b : SecIn) : Prop :=
  (∀ k, k ≤ n → a.x k = b.x k) ∧ (∀ k, k < n → a.ysec k = b.ysec k) ∧ (∀ k, k ≤ n → a.c k = b.c k) ∧ a.S = b.S

open Classical in
/-- mesh_gen.py:392-396: state used by `compute_partials` -/
noncomputable def SecState.refresh (nx : ℕ) (ny : ℕ → ℕ) (n : ℕ) (s : SecState) (q : SecIn) : SecState :=
  if ∃ p, s.cache = some p ∧ q.Agree n p then s else s.compute nx ny n q

/-- events in the life of the component -/
inductive SecEv where
  | compute (q : SecIn)
  | partials (q : SecIn)

/-- state after an event -/
noncomputable def SecState.step (nx : ℕ) (ny : ℕ → ℕ) (n : ℕ) (s : SecState) : SecEv → SecState
  | .compute q => s.compute nx ny n q
  | .partials q => s.refresh nx ny n q

end Verif.Mesh
