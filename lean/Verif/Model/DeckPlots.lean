import Verif.Model.Aero

/-!
The contour plots of the engine decks: the `if plot:` branches of `CFM56` (openconcept/propulsion/cfm56.py:92-132), `N3Hybrid`
(openconcept/propulsion/N3.py:146-268) and `N3` (N3.py:360-433), and `compare_thrust_decks` (N3.py:437-531).

A deck is an arbitrary function of its inputs (the trained surrogates are not modelled), in the units declared by the component.  The
`Problem` is its current input values: `prob[...] = v` changes one of them, `run_model` followed by reading the outputs is the deck at the
current values.  The loops are run one iteration after the other and the inputs keep their values between iterations.  A figure is what is
given to `plt.xlabel`, `plt.ylabel`, `plt.title` and `plt.contourf`; number of levels and color bar are left out.  Division by zero
gives 0 here and an infinity or nan in numpy.
-/

namespace Verif.DeckPlots

open Verif.Aero (linspace)

/-- inputs of a deck: throttle, altitude (ft), Mach number, and of the hybrid deck the power (kW) -/
structure In where
  throttle : ℝ
  h : ℝ
  M : ℝ
  P : ℝ

/-- outputs of a deck: thrust (lbf), fuel flow (lbm/s), and T4 or the surge margin -/
structure Out where
  thrust : ℝ
  fuel : ℝ
  extra : ℝ

abbrev Deck := In → Out

abbrev Arr := ℕ → ℕ → ℝ

/-- cfm56.py:65-67, N3.py:118-121, 333-335: the values before anything is set -/
noncomputable def start : In := { throttle := 1.0, h := 0.0, M := 0.3, P := 0 }

/-- an array `pred[i, j, k]` -/
abbrev Pred := ℕ → ℕ → Out

/-- `np.zeros((n, m, 3))` -/
def zeros : Pred := fun _ _ => ⟨0, 0, 0⟩

/-- `pred[i, j] = o` -/
def put (p : Pred) (i j : ℕ) (o : Out) : Pred := fun a b => if a = i ∧ b = j then o else p a b

/-- the body of the loops: set inputs, run, store the outputs.  The third output is stored by one loop only (N3.py:238); storing it always
changes nothing that is drawn. -/
def body (f : Deck) (set : ℕ → ℕ → In → In) (i : ℕ) (sp : In × Pred) (j : ℕ) : In × Pred :=
  let s := set i j sp.1
  (s, put sp.2 i j (f s))

/-- `for i in range(n): for j in range(m): ...` -/
def sweep (f : Deck) (set : ℕ → ℕ → In → In) (n m : ℕ) (s : In) : In × Pred :=
  (List.range n).foldl (fun sp i => (List.range m).foldl (body f set i) sp) (s, zeros)

/-- one contour plot of `rows` by `cols` points -/
structure Fig where
  xlabel : String
  ylabel : String
  title : String
  rows : ℕ
  cols : ℕ
  X : Arr
  Y : Arr
  Z : Arr

/-- `np.meshgrid(x, y)`: first and second array -/
def xy (x y : ℕ → ℝ) : Arr × Arr := (fun _ j => x j, fun i _ => y i)

/-- `np.meshgrid(x, y, indexing="ij")` -/
def ij (x y : ℕ → ℝ) : Arr × Arr := (fun i _ => x i, fun _ j => y j)

/-- `(pred[:, :, 1] / pred[:, :, 0]) * 60 * 60` -/
noncomputable def sfcOf (p : Pred) : Arr := fun i j => (p i j).fuel / (p i j).thrust * 60 * 60

/-! ### CFM56 -/

/-- cfm56.py:99-101 -/
noncomputable def cfmGrid : Arr × Arr := xy (linspace 0.0 0.8 25) (linspace 0.0 35000.0 25)

/-- cfm56.py:105-107 -/
noncomputable def cfmSet (i j : ℕ) (s : In) : In := { s with throttle := 1.0, h := cfmGrid.2 i j, M := cfmGrid.1 i j }

/-- cfm56.py:102-110 -/
noncomputable def cfmPred (f : Deck) : Pred := (sweep f cfmSet 25 25 start).2

/-- cfm56.py:111-131 -/
noncomputable def cfmFigs (f : Deck) : List Fig :=
  let fig := fun t z => Fig.mk "Mach" "Altitude" t 25 25 cfmGrid.1 cfmGrid.2 z
  [fig "SFC (lb / hr lb) OM" (sfcOf (cfmPred f)),
   fig "Thrust (lb)" (fun i j => (cfmPred f i j).fuel),
   fig "Fuel Flow (lb)" (fun i j => (cfmPred f i j).thrust)]

/-! ### N3 -/

/-- N3.py:367-372 -/
noncomputable def n3GridA : Arr × Arr := ij (linspace 0.2 0.8 7) (linspace 0.0 35000.0 8)

/-- N3.py:376-378 -/
noncomputable def n3SetA (i j : ℕ) (s : In) : In := { s with throttle := 1.0, h := n3GridA.2 i j, M := n3GridA.1 i j }

/-- N3.py:402-405 -/
noncomputable def n3GridB : Arr × Arr := ij (linspace 0.1 1.0 10) (linspace 0.0 35000.0 8)

/-- N3.py:409-411 -/
noncomputable def n3SetB (i j : ℕ) (s : In) : In := { s with throttle := n3GridB.1 i j, h := n3GridB.2 i j, M := 0.5 }

/-- N3.py:382-399, 415-432 -/
noncomputable def n3Figs (f : Deck) : List Fig :=
  let a := sweep f n3SetA 7 8 start
  let b := sweep f n3SetB 10 8 a.1
  let figA := fun t z => Fig.mk "Mach" "Altitude" t 7 8 n3GridA.1 n3GridA.2 z
  let figB := fun t z => Fig.mk "Throttle" "Altitude" t 10 8 n3GridB.1 n3GridB.2 z
  [figA "SFC (lb / hr lb) OM" (sfcOf a.2),
   figA "Fuel Flow (lb/s)" (fun i j => (a.2 i j).fuel),
   figA "Thrust (lb)" (fun i j => (a.2 i j).thrust),
   figB "SFC (lb / hr lb) OM" (sfcOf b.2),
   figB "Fuel Flow (lb/s)" (fun i j => (b.2 i j).fuel),
   figB "Thrust (lb)" (fun i j => (b.2 i j).thrust)]

/-! ### N3Hybrid -/

/-- N3.py:153-155 -/
noncomputable def hybGridA : Arr × Arr := xy (linspace 0.2 0.8 25) (linspace 0.0 35000.0 25)

/-- N3.py:159-162 -/
noncomputable def hybSetA (i j : ℕ) (s : In) : In :=
  { s with P := 1000.0, throttle := 1.0, h := hybGridA.2 i j, M := hybGridA.1 i j }

/-- N3.py:189-191 -/
noncomputable def hybGridB : Arr × Arr := xy (linspace 0.1 1.0 25) (linspace 0.0 35000.0 25)

/-- N3.py:195-198 -/
noncomputable def hybSetB (i j : ℕ) (s : In) : In :=
  { s with P := 0.0, throttle := hybGridB.1 i j, h := hybGridB.2 i j, M := 0.5 }

/-- N3.py:225-227: powers, throttles -/
noncomputable def hybGridC : Arr × Arr := xy (linspace 0 1000 25) (linspace 0.1 1.0 25)

/-- N3.py:231-234 -/
noncomputable def hybSetC (i j : ℕ) (s : In) : In :=
  { s with P := hybGridC.1 i j, throttle := hybGridC.2 i j, h := 33000.0, M := 0.8 }

/-- N3.py:166-186, 202-222, 239-267 -/
noncomputable def hybFigs (f : Deck) : List Fig :=
  let a := sweep f hybSetA 25 25 start
  let b := sweep f hybSetB 25 25 a.1
  let c := sweep f hybSetC 25 25 b.1
  let figA := fun t z => Fig.mk "Mach" "Altitude" t 25 25 hybGridA.1 hybGridA.2 z
  let figB := fun t z => Fig.mk "Throttle" "Altitude" t 25 25 hybGridB.1 hybGridB.2 z
  let figC := fun t z => Fig.mk "Throttle" "Hybrid Power (kW)" t 25 25 hybGridC.2 hybGridC.1 z
  [figA "SFC (lb / hr lb) OM" (sfcOf a.2),
   figA "Fuel Flow (lb/s)" (fun i j => (a.2 i j).fuel),
   figA "Thrust (lb)" (fun i j => (a.2 i j).thrust),
   figB "SFC (lb / hr lb) OM" (sfcOf b.2),
   figB "Fuel Flow (lb/s)" (fun i j => (b.2 i j).fuel),
   figB "Thrust (lb)" (fun i j => (b.2 i j).thrust),
   figC "SFC (lb / hr lb) OM" (sfcOf c.2),
   figC "Fuel Flow (lb/s)" (fun i j => (c.2 i j).fuel),
   figC "Thrust (lb)" (fun i j => (c.2 i j).thrust),
   figC "Surge margin" (fun i j => (c.2 i j).extra)]

/-! ### compare_thrust_decks

The balance (N3.py:445-449) drives the throttle of the hybrid deck.  `solver` is the throttle the Newton solver leaves, an arbitrary function
of everything set before; a hypothesis says where it has converged.  The bounds 0.05 and 1.1 of the throttle are not modelled. -/

/-- inputs of both decks -/
structure Pair where
  n3 : In
  hyb : In

/-- N3.py:445-451, 470, 508: `run_model` -/
def runPair (solver : Pair → ℝ) (s : Pair) : Pair := { s with hyb := { s.hyb with throttle := solver s } }

/-- N3.py:465-474, 503-512: the body of the loops -/
def bodyPair (f g : Deck) (solver : Pair → ℝ) (set : ℕ → ℕ → Pair → Pair) (i : ℕ) (sp : Pair × Pred × Pred) (j : ℕ) : Pair × Pred × Pred :=
  let s := runPair solver (set i j sp.1)
  (s, put sp.2.1 i j (f s.n3), put sp.2.2 i j (g s.hyb))

/-- N3.py:460-464, 499-502 -/
def sweepPair (f g : Deck) (solver : Pair → ℝ) (set : ℕ → ℕ → Pair → Pair) (n m : ℕ) (s : Pair) : Pair × Pred × Pred :=
  (List.range n).foldl (fun sp i => (List.range m).foldl (bodyPair f g solver set i) sp) (s, zeros, zeros)

/-- N3.py:465-469 -/
noncomputable def cmpSetA (i j : ℕ) (s : Pair) : Pair :=
  { n3 := { s.n3 with throttle := 1.0, h := n3GridA.2 i j, M := n3GridA.1 i j }
    hyb := { s.hyb with h := n3GridA.2 i j, M := n3GridA.1 i j } }

/-- N3.py:503-507 -/
noncomputable def cmpSetB (i j : ℕ) (s : Pair) : Pair :=
  { n3 := { s.n3 with throttle := n3GridB.1 i j, h := n3GridB.2 i j, M := 0.5 }
    hyb := { s.hyb with h := n3GridB.2 i j, M := 0.5 } }

/-- `(predn3[:, :, 1] / predn3[:, :, 0]) / (predn3hybrid[:, :, 1] / predn3hybrid[:, :, 0])` -/
noncomputable def sfcRatio (p q : Pred) : Arr :=
  fun i j => ((p i j).fuel / (p i j).thrust) / ((q i j).fuel / (q i j).thrust)

/-- N3.py:475-492, 513-530 -/
noncomputable def cmpFigs (f g : Deck) (solver : Pair → ℝ) : List Fig :=
  let a := sweepPair f g solver cmpSetA 7 8 ⟨start, start⟩
  let b := sweepPair f g solver cmpSetB 10 8 a.1
  let figA := fun t z => Fig.mk "Mach" "Altitude" t 7 8 n3GridA.1 n3GridA.2 z
  let figB := fun t z => Fig.mk "Throttle" "Altitude" t 10 8 n3GridB.1 n3GridB.2 z
  [figA "SFC (lb / hr lb) OM" (sfcRatio a.2.1 a.2.2),
   figA "Fuel Flow (lb/s)" (fun i j => (a.2.1 i j).fuel / (a.2.2 i j).fuel),
   figA "Thrust (lb)" (fun i j => (a.2.1 i j).thrust / (a.2.2 i j).thrust),
   figB "SFC (lb / hr lb) OM" (sfcRatio b.2.1 b.2.2),
   figB "Fuel Flow ratio (N3 / N3hybrid) at equal thrust, M=0.8" (fun i j => (b.2.1 i j).fuel / (b.2.2 i j).fuel),
   figB "Thrust (lb)" (fun i j => (b.2.1 i j).thrust / (b.2.2 i j).thrust)]

end Verif.DeckPlots
