import Mathlib.Tactic.NormNum
import Mathlib.Tactic.Ring
import Mathlib.Tactic.FieldSimp
import Mathlib.Tactic.FinCases
import Verif.Model.DeckPlots

/-!
C136: the contour plots of the engine decks show what their titles say; false for two of the three plots of `CFM56`.
C137: what `compare_thrust_decks` draws.
-/

namespace Verif.DeckPlots

/-! ### what title and labels promise -/

/-- the quantity named by a title -/
noncomputable def named : String → Option (Out → ℝ)
  | "SFC (lb / hr lb) OM" => some fun o => 3600 * o.fuel / o.thrust
  | "Thrust (lb)" => some fun o => o.thrust
  | "Fuel Flow (lb/s)" => some fun o => o.fuel
  | "Fuel Flow (lb)" => some fun o => o.fuel
  | "Surge margin" => some fun o => o.extra
  | _ => none

/-- the input named by an axis label -/
def axis : String → Option (ℝ → In → In)
  | "Mach" => some fun v s => { s with M := v }
  | "Altitude" => some fun v s => { s with h := v }
  | "Throttle" => some fun v s => { s with throttle := v }
  | "Hybrid Power (kW)" => some fun v s => { s with P := v }
  | _ => none

/-- the figure shows at every point the quantity of its title, for the inputs on its axes and the other inputs as in `base` -/
def Honest (f : Deck) (base : In) (F : Fig) : Prop :=
  ∃ q ax ay, named F.title = some q ∧ axis F.xlabel = some ax ∧ axis F.ylabel = some ay ∧
    ∀ i < F.rows, ∀ j < F.cols, F.Z i j = q (f (ay (F.Y i j) (ax (F.X i j) base)))

/-! ### the loops -/

theorem fold_inner {S : Type} (step : S → ℕ → S) (Good : S → Prop) (Done : ℕ → S → Prop)
    (h1 : ∀ j s, Good s → Good (step s j)) (h2 : ∀ j s, Good s → Done j (step s j))
    (h3 : ∀ j b s, Good s → Done b s → Done b (step s j)) (m : ℕ) (s : S) (hs : Good s) :
    Good ((List.range m).foldl step s) ∧ ∀ j < m, Done j ((List.range m).foldl step s) := by
  induction m with
  | zero => exact ⟨hs, by simp⟩
  | succ m ih =>
    rw [List.range_succ, List.foldl_append]
    refine ⟨h1 _ _ ih.1, fun j hj => ?_⟩
    rcases Nat.lt_succ_iff_lt_or_eq.mp hj with h | rfl
    · exact h3 _ _ _ ih.1 (ih.2 j h)
    · exact h2 _ _ ih.1

theorem fold_keep {S : Type} (step : S → ℕ → S) (Good D : S → Prop)
    (h1 : ∀ j s, Good s → Good (step s j)) (h3 : ∀ j s, Good s → D s → D (step s j)) (m : ℕ) (s : S) (hs : Good s) (hd : D s) :
    D ((List.range m).foldl step s) := by
  have : Good ((List.range m).foldl step s) ∧ D ((List.range m).foldl step s) := by
    induction m with
    | zero => exact ⟨hs, hd⟩
    | succ m ih =>
      rw [List.range_succ, List.foldl_append]
      exact ⟨h1 _ _ ih.1, h3 _ _ ih.1 ih.2⟩
  exact this.2

theorem fold_both {S : Type} (step : ℕ → S → ℕ → S) (Good : S → Prop) (Done : ℕ → ℕ → S → Prop)
    (h1 : ∀ i j s, Good s → Good (step i s j)) (h2 : ∀ i j s, Good s → Done i j (step i s j))
    (h3 : ∀ i j a b s, Good s → Done a b s → Done a b (step i s j)) (n m : ℕ) (s : S) (hs : Good s) :
    Good ((List.range n).foldl (fun s i => (List.range m).foldl (step i) s) s) ∧
      ∀ i < n, ∀ j < m, Done i j ((List.range n).foldl (fun s i => (List.range m).foldl (step i) s) s) := by
  have hin : ∀ i s, Good s → Good ((List.range m).foldl (step i) s) := fun i s hs =>
    (fold_inner (step i) Good (Done i) (h1 i) (h2 i) (fun j b s => h3 i j i b s) m s hs).1
  exact ⟨(fold_inner (fun s i => (List.range m).foldl (step i) s) Good (fun i s => ∀ j < m, Done i j s)
      (fun i s => hin i s)
      (fun i s hs => (fold_inner (step i) Good (Done i) (h1 i) (h2 i) (fun j b s => h3 i j i b s) m s hs).2)
      (fun i a s hs hd j hj => fold_keep (step i) Good (Done a j) (h1 i) (fun k s => h3 i k a j s) m s hs (hd j hj)) n s hs).1,
    (fold_inner (fun s i => (List.range m).foldl (step i) s) Good (fun i s => ∀ j < m, Done i j s)
      (fun i s => hin i s)
      (fun i s hs => (fold_inner (step i) Good (Done i) (h1 i) (h2 i) (fun j b s => h3 i j i b s) m s hs).2)
      (fun i a s hs hd j hj => fold_keep (step i) Good (Done a j) (h1 i) (fun k s => h3 i k a j s) m s hs (hd j hj)) n s hs).2⟩

/-- If what is set does not depend on the past, every stored output belongs to its own point. -/
theorem sweep_at (f : Deck) (set : ℕ → ℕ → In → In) (Inv : In → Prop) (pt : ℕ → ℕ → In)
    (h : ∀ i j s, Inv s → set i j s = pt i j) (hp : ∀ i j, Inv (pt i j)) (n m : ℕ) (s : In) (hs : Inv s) :
    Inv (sweep f set n m s).1 ∧ ∀ i < n, ∀ j < m, (sweep f set n m s).2 i j = f (pt i j) := by
  refine fold_both (body f set) (fun sp => Inv sp.1) (fun i j sp => sp.2 i j = f (pt i j)) ?_ ?_ ?_ n m (s, zeros) hs
  · intro i j sp hsp; simp only [body, h i j _ hsp]; exact hp i j
  · intro i j sp hsp; simp [body, put, h i j _ hsp]
  · intro i j a b sp hsp hd
    simp only [body, put, h i j _ hsp]
    split
    · next e => rw [e.1, e.2]
    · exact hd

/-! ### CFM56 -/

theorem cfm_at (f : Deck) {i j : ℕ} (hi : i < 25) (hj : j < 25) :
    cfmPred f i j = f { throttle := 1, h := cfmGrid.2 i j, M := cfmGrid.1 i j, P := 0 } :=
  (sweep_at f cfmSet (fun s => s.P = 0) (fun i j => { throttle := 1, h := cfmGrid.2 i j, M := cfmGrid.1 i j, P := 0 })
    (fun i j s hs => by cases s; simp only at hs; subst hs; simp only [cfmSet]; norm_num) (fun _ _ => rfl) 25 25 start rfl).2 i hi j hj

/-- The first figure of `CFM56(plot=True)` is the specific fuel consumption at full throttle over Mach number and altitude. -/
theorem C136_cfm_sfc (f : Deck) : ∃ F, (cfmFigs f)[0]? = some F ∧ F.title = "SFC (lb / hr lb) OM" ∧ Honest f ⟨1, 0, 0, 0⟩ F := by
  refine ⟨_, rfl, rfl, _, _, _, rfl, rfl, rfl, ?_⟩
  intro i hi j hj
  simp only [sfcOf, cfm_at f hi hj]
  ring

/-- The figure titled "Thrust (lb)" shows the fuel flow and the figure titled "Fuel Flow (lb)" the thrust. -/
theorem C136_cfm_swapped (f : Deck) : ∃ F G, (cfmFigs f)[1]? = some F ∧ (cfmFigs f)[2]? = some G ∧
    F.title = "Thrust (lb)" ∧ G.title = "Fuel Flow (lb)" ∧
    ∀ i < 25, ∀ j < 25, F.Z i j = (f ⟨1, F.Y i j, F.X i j, 0⟩).fuel ∧ G.Z i j = (f ⟨1, G.Y i j, G.X i j, 0⟩).thrust := by
  refine ⟨_, _, rfl, rfl, rfl, rfl, fun i hi j hj => ?_⟩
  simp only [cfm_at f hi hj, and_self]

/-- `CFM56`: the figures are those promised only for a deck whose thrust in pounds equals its fuel flow in pounds per second at every plotted
point. -/
theorem C136_cfm_iff (f : Deck) : (∀ F ∈ cfmFigs f, Honest f ⟨1, 0, 0, 0⟩ F) ↔
    ∀ i < 25, ∀ j < 25, (f ⟨1, cfmGrid.2 i j, cfmGrid.1 i j, 0⟩).thrust = (f ⟨1, cfmGrid.2 i j, cfmGrid.1 i j, 0⟩).fuel := by
  constructor
  · intro H i hi j hj
    obtain ⟨q, ax, ay, hq, hx, hy, hz⟩ := H _ (List.mem_of_getElem? (i := 1) rfl)
    cases hq; cases hx; cases hy
    have := hz i hi j hj
    simp only [cfm_at f hi hj] at this
    exact this.symm
  · intro H F hF
    simp only [cfmFigs, List.mem_cons, List.not_mem_nil, or_false] at hF
    rcases hF with rfl | rfl | rfl
    · obtain ⟨F, h1, -, h2⟩ := C136_cfm_sfc f
      cases h1; exact h2
    · refine ⟨_, _, _, rfl, rfl, rfl, fun i hi j hj => ?_⟩
      simp only [cfm_at f hi hj]; exact (H i hi j hj).symm
    · refine ⟨_, _, _, rfl, rfl, rfl, fun i hi j hj => ?_⟩
      simp only [cfm_at f hi hj]; exact H i hi j hj

/-- The plotted points of `CFM56`: Mach number 0 to 0.8 from left to right, altitude 0 to 35000 ft from row to row. -/
theorem C136_cfm_points (f : Deck) : ∀ F ∈ cfmFigs f, F.rows = 25 ∧ F.cols = 25 ∧ F.xlabel = "Mach" ∧ F.ylabel = "Altitude" ∧
    ∀ i j, F.X i j = j * (0.8 / 24) ∧ F.Y i j = i * (35000 / 24) := by
  intro F hF
  simp only [cfmFigs, List.mem_cons, List.not_mem_nil, or_false] at hF
  rcases hF with rfl | rfl | rfl <;>
    refine ⟨rfl, rfl, rfl, rfl, fun i j => ⟨?_, ?_⟩⟩ <;> simp only [cfmGrid, xy, Aero.linspace] <;> norm_num

/-- a deck with the thrust 20000 lbf and the fuel flow 2 lbm/s: the plot of `CFM56` titled "Thrust (lb)" shows 2 -/
example : ∃ F ∈ cfmFigs (fun _ => ⟨20000, 2, 3000⟩), F.title = "Thrust (lb)" ∧ F.Z 3 4 = 2 := by
  obtain ⟨F, G, h1, -, h2, -, h3⟩ := C136_cfm_swapped (fun _ => ⟨20000, 2, 3000⟩)
  exact ⟨F, List.mem_of_getElem? h1, h2, (h3 3 (by norm_num) 4 (by norm_num)).1⟩

/-- the negation of C136 for `CFM56` -/
theorem C136_cfm_false : ∃ f : Deck, ¬ ∀ F ∈ cfmFigs f, Honest f ⟨1, 0, 0, 0⟩ F :=
  ⟨fun _ => ⟨20000, 2, 3000⟩, fun h => by
    have := (C136_cfm_iff _).mp h 0 (by norm_num) 0 (by norm_num)
    norm_num at this⟩

/-! ### N3 -/

theorem n3A_at (f : Deck) : (sweep f n3SetA 7 8 start).1.P = 0 ∧ ∀ i < 7, ∀ j < 8,
    (sweep f n3SetA 7 8 start).2 i j = f { throttle := 1, h := n3GridA.2 i j, M := n3GridA.1 i j, P := 0 } :=
  sweep_at f n3SetA (fun s => s.P = 0) (fun i j => { throttle := 1, h := n3GridA.2 i j, M := n3GridA.1 i j, P := 0 })
    (fun i j s hs => by cases s; simp only at hs; subst hs; simp only [n3SetA]; norm_num) (fun _ _ => rfl) 7 8 start rfl

theorem n3B_at (f : Deck) (s : In) (hs : s.P = 0) : ∀ i < 10, ∀ j < 8,
    (sweep f n3SetB 10 8 s).2 i j = f { throttle := n3GridB.1 i j, h := n3GridB.2 i j, M := 1 / 2, P := 0 } :=
  (sweep_at f n3SetB (fun s => s.P = 0) (fun i j => { throttle := n3GridB.1 i j, h := n3GridB.2 i j, M := 1 / 2, P := 0 })
    (fun i j s hs => by cases s; simp only at hs; subst hs; simp only [n3SetB]; norm_num) (fun _ _ => rfl) 10 8 s hs).2

/-- `N3(plot=True)`: three figures at full throttle and three at Mach 0.5, all as promised. -/
theorem C136_n3 (f : Deck) : (n3Figs f).length = 6 ∧
    (∀ F ∈ (n3Figs f).take 3, F.xlabel = "Mach" ∧ F.ylabel = "Altitude" ∧ F.rows = 7 ∧ F.cols = 8 ∧
      (∀ i j, F.X i j = 0.2 + i * 0.1 ∧ F.Y i j = j * 5000) ∧ Honest f ⟨1, 0, 0, 0⟩ F) ∧
    (∀ F ∈ (n3Figs f).drop 3, F.xlabel = "Throttle" ∧ F.ylabel = "Altitude" ∧ F.rows = 10 ∧ F.cols = 8 ∧
      (∀ i j, F.X i j = 0.1 + i * 0.1 ∧ F.Y i j = j * 5000) ∧ Honest f ⟨0, 0, 1 / 2, 0⟩ F) ∧
    (n3Figs f).map Fig.title = ["SFC (lb / hr lb) OM", "Fuel Flow (lb/s)", "Thrust (lb)", "SFC (lb / hr lb) OM", "Fuel Flow (lb/s)",
      "Thrust (lb)"] := by
  refine ⟨rfl, ?_, ?_, rfl⟩
  · intro F hF
    simp only [n3Figs, List.take, List.mem_cons, List.not_mem_nil, or_false] at hF
    rcases hF with rfl | rfl | rfl <;>
      refine ⟨rfl, rfl, rfl, rfl, fun i j => ⟨?_, ?_⟩, _, _, _, rfl, rfl, rfl, fun i hi j hj => ?_⟩ <;>
      first
      | (simp only [n3GridA, ij, Aero.linspace]; norm_num; done)
      | (simp only [sfcOf, (n3A_at f).2 i hi j hj]; done)
      | (simp only [sfcOf, (n3A_at f).2 i hi j hj]; ring)
  · intro F hF
    simp only [n3Figs, List.drop, List.mem_cons, List.not_mem_nil, or_false] at hF
    rcases hF with rfl | rfl | rfl <;>
      refine ⟨rfl, rfl, rfl, rfl, fun i j => ⟨?_, ?_⟩, _, _, _, rfl, rfl, rfl, fun i hi j hj => ?_⟩ <;>
      first
      | (simp only [n3GridB, ij, Aero.linspace]; norm_num; done)
      | (simp only [sfcOf, n3B_at f _ (n3A_at f).1 i hi j hj]; done)
      | (simp only [sfcOf, n3B_at f _ (n3A_at f).1 i hi j hj]; ring)

/-- the thrust plot at Mach 0.5 of a deck with thrust 20000 times throttle: 6000 lbf at throttle 0.3 -/
example : ∃ F ∈ n3Figs (fun s => ⟨20000 * s.throttle, 2 * s.M, 1⟩), F.title = "Thrust (lb)" ∧ F.X 2 5 = 0.3 ∧ F.Z 2 5 = 6000 := by
  have h := C136_n3 (fun s => ⟨20000 * s.throttle, 2 * s.M, 1⟩)
  obtain ⟨-, -, h2, -⟩ := h
  obtain ⟨-, -, -, -, hx, q, ax, ay, hq, ha, hb, hz⟩ := h2 _ (List.mem_of_getElem? (i := 2) rfl)
  refine ⟨_, List.mem_of_getElem? (i := 5) rfl, rfl, ?_, ?_⟩
  · rw [(hx 2 5).1]; norm_num
  · rw [hz 2 (by decide) 5 (by decide)]
    cases hq; cases ha; cases hb
    change 20000 * n3GridB.1 2 5 = 6000
    simp only [n3GridB, ij, Aero.linspace]; norm_num

/-! ### N3Hybrid -/

theorem hybA_at (f : Deck) : ∀ i < 25, ∀ j < 25, (sweep f hybSetA 25 25 start).2 i j =
    f { throttle := 1, h := hybGridA.2 i j, M := hybGridA.1 i j, P := 1000 } :=
  (sweep_at f hybSetA (fun _ => True) (fun i j => { throttle := 1, h := hybGridA.2 i j, M := hybGridA.1 i j, P := 1000 })
    (fun i j s _ => by simp only [hybSetA]; norm_num) (fun _ _ => trivial) 25 25 start trivial).2

theorem hybB_at (f : Deck) (s : In) : ∀ i < 25, ∀ j < 25, (sweep f hybSetB 25 25 s).2 i j =
    f { throttle := hybGridB.1 i j, h := hybGridB.2 i j, M := 1 / 2, P := 0 } :=
  (sweep_at f hybSetB (fun _ => True) (fun i j => { throttle := hybGridB.1 i j, h := hybGridB.2 i j, M := 1 / 2, P := 0 })
    (fun i j s _ => by simp only [hybSetB]; norm_num) (fun _ _ => trivial) 25 25 s trivial).2

theorem hybC_at (f : Deck) (s : In) : ∀ i < 25, ∀ j < 25, (sweep f hybSetC 25 25 s).2 i j =
    f { throttle := hybGridC.2 i j, h := 33000, M := 4 / 5, P := hybGridC.1 i j } :=
  (sweep_at f hybSetC (fun _ => True) (fun i j => { throttle := hybGridC.2 i j, h := 33000, M := 4 / 5, P := hybGridC.1 i j })
    (fun i j s _ => by simp only [hybSetC]; norm_num) (fun _ _ => trivial) 25 25 s trivial).2

/-- `N3Hybrid(plot=True)`: three figures at full throttle and 1000 kW, three at Mach 0.5 without hybrid power, four at Mach 0.8 and 33000 ft;
all as promised. -/
theorem C136_hybrid (f : Deck) :
    (∀ F ∈ (hybFigs f).take 3, F.xlabel = "Mach" ∧ F.ylabel = "Altitude" ∧ F.rows = 25 ∧ F.cols = 25 ∧
      (∀ i j, F.X i j = 0.2 + j * 0.025 ∧ F.Y i j = i * (35000 / 24)) ∧ Honest f ⟨1, 0, 0, 1000⟩ F) ∧
    (∀ F ∈ ((hybFigs f).drop 3).take 3, F.xlabel = "Throttle" ∧ F.ylabel = "Altitude" ∧ F.rows = 25 ∧ F.cols = 25 ∧
      (∀ i j, F.X i j = 0.1 + j * 0.0375 ∧ F.Y i j = i * (35000 / 24)) ∧ Honest f ⟨0, 0, 1 / 2, 0⟩ F) ∧
    (∀ F ∈ (hybFigs f).drop 6, F.xlabel = "Throttle" ∧ F.ylabel = "Hybrid Power (kW)" ∧ F.rows = 25 ∧ F.cols = 25 ∧
      (∀ i j, F.X i j = 0.1 + i * 0.0375 ∧ F.Y i j = j * (1000 / 24)) ∧ Honest f ⟨0, 33000, 4 / 5, 0⟩ F) ∧
    (hybFigs f).map Fig.title = ["SFC (lb / hr lb) OM", "Fuel Flow (lb/s)", "Thrust (lb)", "SFC (lb / hr lb) OM", "Fuel Flow (lb/s)",
      "Thrust (lb)", "SFC (lb / hr lb) OM", "Fuel Flow (lb/s)", "Thrust (lb)", "Surge margin"] := by
  refine ⟨?_, ?_, ?_, rfl⟩
  · intro F hF
    simp only [hybFigs, List.take, List.mem_cons, List.not_mem_nil, or_false] at hF
    rcases hF with rfl | rfl | rfl <;>
      refine ⟨rfl, rfl, rfl, rfl, fun i j => ⟨?_, ?_⟩, _, _, _, rfl, rfl, rfl, fun i hi j hj => ?_⟩ <;>
      first
      | (simp only [hybGridA, xy, Aero.linspace]; norm_num; done)
      | (simp only [sfcOf, hybA_at f i hi j hj]; done)
      | (simp only [sfcOf, hybA_at f i hi j hj]; ring)
  · intro F hF
    simp only [hybFigs, List.take, List.drop, List.mem_cons, List.not_mem_nil, or_false] at hF
    rcases hF with rfl | rfl | rfl <;>
      refine ⟨rfl, rfl, rfl, rfl, fun i j => ⟨?_, ?_⟩, _, _, _, rfl, rfl, rfl, fun i hi j hj => ?_⟩ <;>
      first
      | (simp only [hybGridB, xy, Aero.linspace]; norm_num; done)
      | (simp only [sfcOf, hybB_at f _ i hi j hj]; done)
      | (simp only [sfcOf, hybB_at f _ i hi j hj]; ring)
  · intro F hF
    simp only [hybFigs, List.drop, List.mem_cons, List.not_mem_nil, or_false] at hF
    rcases hF with rfl | rfl | rfl | rfl <;>
      refine ⟨rfl, rfl, rfl, rfl, fun i j => ⟨?_, ?_⟩, _, _, _, rfl, rfl, rfl, fun i hi j hj => ?_⟩ <;>
      first
      | (simp only [hybGridC, xy, Aero.linspace]; norm_num; done)
      | (simp only [sfcOf, hybC_at f _ i hi j hj]; done)
      | (simp only [sfcOf, hybC_at f _ i hi j hj]; ring)

/-- the surge margin plot of a deck whose surge margin is 20 minus one per 100 kW: 15 at 500 kW -/
example : ∃ F ∈ hybFigs (fun s => ⟨20000 * s.throttle, 2, 20 - s.P / 100⟩), F.title = "Surge margin" ∧ F.Y 7 12 = 500 ∧ F.Z 7 12 = 15 := by
  obtain ⟨-, -, h3, -⟩ := C136_hybrid (fun s => ⟨20000 * s.throttle, 2, 20 - s.P / 100⟩)
  obtain ⟨-, -, -, -, hx, q, ax, ay, hq, ha, hb, hz⟩ := h3 _ (List.mem_of_getElem? (i := 3) rfl)
  refine ⟨_, List.mem_of_getElem? (i := 9) rfl, rfl, ?_, ?_⟩
  · rw [(hx 7 12).2]; norm_num
  · rw [hz 7 (by decide) 12 (by decide)]
    cases hq; cases ha; cases hb
    change 20 - hybGridC.1 7 12 / 100 = 15
    simp only [hybGridC, xy, Aero.linspace]; norm_num

/-! ### compare_thrust_decks -/

/-- the state in which the decks are evaluated at a point: everything but the throttle of the hybrid deck is known -/
theorem sweepPair_at (f g : Deck) (solver : Pair → ℝ) (set : ℕ → ℕ → Pair → Pair) (a b : ℕ → ℕ → In) (Inv : Pair → Prop)
    (h : ∀ i j s, Inv s → set i j s = ⟨a i j, { b i j with throttle := s.hyb.throttle }⟩)
    (hp : ∀ i j t, Inv ⟨a i j, { b i j with throttle := t }⟩) (n m : ℕ) (s : Pair) (hs : Inv s) :
    Inv (sweepPair f g solver set n m s).1 ∧ ∀ i < n, ∀ j < m, ∃ t : ℝ,
      (sweepPair f g solver set n m s).2.1 i j = f (a i j) ∧
      (sweepPair f g solver set n m s).2.2 i j = g { b i j with throttle := solver ⟨a i j, { b i j with throttle := t }⟩ } := by
  refine fold_both (bodyPair f g solver set) (fun sp => Inv sp.1) (fun i j sp => ∃ t : ℝ, sp.2.1 i j = f (a i j) ∧
    sp.2.2 i j = g { b i j with throttle := solver ⟨a i j, { b i j with throttle := t }⟩ }) ?_ ?_ ?_ n m (s, zeros, zeros) hs
  · intro i j sp hsp; simp only [bodyPair, runPair, h i j _ hsp]; exact hp i j _
  · intro i j sp hsp; exact ⟨sp.1.hyb.throttle, by simp [bodyPair, runPair, put, h i j _ hsp]⟩
  · intro i j c d sp hsp hd
    by_cases e : c = i ∧ d = j
    · obtain ⟨rfl, rfl⟩ := e
      exact ⟨sp.1.hyb.throttle, by simp [bodyPair, runPair, put, h c d _ hsp]⟩
    · obtain ⟨t, h1, h2⟩ := hd
      exact ⟨t, by simp [bodyPair, put, e, h1], by simp [bodyPair, put, e, h2]⟩

/-- at flight condition `h`, `M` and throttle `τ` of the N3 the solver finds the throttle of the hybrid deck, without hybrid power, that gives
the same thrust, wherever it starts -/
def Converged (f g : Deck) (solver : Pair → ℝ) (τ h M : ℝ) : Prop :=
  ∀ t, (g ⟨solver ⟨⟨τ, h, M, 0⟩, ⟨t, h, M, 0⟩⟩, h, M, 0⟩).thrust = (f ⟨τ, h, M, 0⟩).thrust

/-- what the three figures of one sweep show at a point -/
def ShowsRatios (f g : Deck) (τ h M : ℝ) (sfc fuel thrust : ℝ) : Prop :=
  thrust = 1 ∧ sfc = fuel ∧ ∃ t, (g ⟨t, h, M, 0⟩).thrust = (f ⟨τ, h, M, 0⟩).thrust ∧ fuel = (f ⟨τ, h, M, 0⟩).fuel / (g ⟨t, h, M, 0⟩).fuel

theorem ratios {x y : Out} (hy : y.thrust = x.thrust) (hx : x.thrust ≠ 0) :
    x.thrust / y.thrust = 1 ∧ (x.fuel / x.thrust) / (y.fuel / y.thrust) = x.fuel / y.fuel := by
  refine ⟨by rw [hy, div_self hx], ?_⟩
  rw [hy]
  by_cases h : y.fuel = 0
  · simp [h]
  · field_simp

/-- `compare_thrust_decks`, Mach number and altitude at full throttle: wherever the solver converges and the N3 has thrust, the figure titled
"Thrust (lb)" is 1 and the figure titled "SFC (lb / hr lb) OM" is the one titled "Fuel Flow (lb/s)": the ratio of the fuel flows at equal
thrust and without hybrid power. -/
theorem C137_mach (f g : Deck) (solver : Pair → ℝ) : ∃ S F T, (cmpFigs f g solver).take 3 = [S, F, T] ∧
    S.title = "SFC (lb / hr lb) OM" ∧ F.title = "Fuel Flow (lb/s)" ∧ T.title = "Thrust (lb)" ∧
    ∀ i < 7, ∀ j < 8, (∀ G ∈ [S, F, T], G.X i j = 0.2 + i * 0.1 ∧ G.Y i j = j * 5000) ∧
      (Converged f g solver 1 (F.Y i j) (F.X i j) → (f ⟨1, F.Y i j, F.X i j, 0⟩).thrust ≠ 0 →
        ShowsRatios f g 1 (F.Y i j) (F.X i j) (S.Z i j) (F.Z i j) (T.Z i j)) := by
  refine ⟨_, _, _, rfl, rfl, rfl, rfl, fun i hi j hj => ⟨?_, fun hc h0 => ?_⟩⟩
  · intro G hG
    simp only [List.mem_cons, List.not_mem_nil, or_false] at hG
    rcases hG with rfl | rfl | rfl <;> constructor <;> simp only [n3GridA, ij, Aero.linspace] <;> norm_num
  · obtain ⟨t, h1, h2⟩ := (sweepPair_at f g solver cmpSetA (fun i j => ⟨1, n3GridA.2 i j, n3GridA.1 i j, 0⟩)
      (fun i j => ⟨0, n3GridA.2 i j, n3GridA.1 i j, 0⟩) (fun s => s.n3.P = 0 ∧ s.hyb.P = 0)
      (fun i j s hs => by
        obtain ⟨⟨_, _, _, _⟩, ⟨_, _, _, _⟩⟩ := s
        obtain ⟨h1, h2⟩ := hs; simp only at h1 h2; subst h1; subst h2; simp only [cmpSetA]; norm_num)
      (fun _ _ _ => ⟨rfl, rfl⟩) 7 8 ⟨start, start⟩ ⟨rfl, rfl⟩).2 i hi j hj
    have hr := ratios (hc t) h0
    simp only [ShowsRatios, sfcRatio, h1, h2]
    exact ⟨hr.1, hr.2, _, hc t, rfl⟩

/-- two decks of the same thrust, the hybrid one burning a quarter more at the same throttle: the thrust figure shows 1 and the SFC figure
0.8 -/
example : ∃ S F T, (cmpFigs (fun s => ⟨20000 * s.throttle, 2 * s.throttle, 0⟩) (fun s => ⟨20000 * s.throttle, 2.5 * s.throttle, 0⟩)
    fun s => s.n3.throttle).take 3 = [S, F, T] ∧ S.title = "SFC (lb / hr lb) OM" ∧ S.Z 2 3 = 0.8 ∧ T.Z 2 3 = 1 := by
  obtain ⟨S, F, T, h, hS, -, -, h3⟩ := C137_mach (fun s => ⟨20000 * s.throttle, 2 * s.throttle, 0⟩)
    (fun s => ⟨20000 * s.throttle, 2.5 * s.throttle, 0⟩) (fun s => s.n3.throttle)
  obtain ⟨h1, h2, t, ht, hf⟩ := (h3 2 (by norm_num) 3 (by norm_num)).2 (fun t => rfl) (by norm_num)
  refine ⟨S, F, T, h, hS, ?_, h1⟩
  simp only at ht hf
  have : t = 1 := by linarith
  rw [h2, hf, this]; norm_num

/-- `compare_thrust_decks`, throttle and altitude: as before, and the figure whose title says Mach 0.8 is computed at Mach 0.5. -/
theorem C137_throttle (f g : Deck) (solver : Pair → ℝ) : ∃ S F T, (cmpFigs f g solver).drop 3 = [S, F, T] ∧
    S.title = "SFC (lb / hr lb) OM" ∧ F.title = "Fuel Flow ratio (N3 / N3hybrid) at equal thrust, M=0.8" ∧ T.title = "Thrust (lb)" ∧
    ∀ i < 10, ∀ j < 8, (∀ G ∈ [S, F, T], G.X i j = 0.1 + i * 0.1 ∧ G.Y i j = j * 5000) ∧
      (Converged f g solver (F.X i j) (F.Y i j) (1 / 2) → (f ⟨F.X i j, F.Y i j, 1 / 2, 0⟩).thrust ≠ 0 →
        ShowsRatios f g (F.X i j) (F.Y i j) (1 / 2) (S.Z i j) (F.Z i j) (T.Z i j)) := by
  refine ⟨_, _, _, rfl, rfl, rfl, rfl, fun i hi j hj => ⟨?_, fun hc h0 => ?_⟩⟩
  · intro G hG
    simp only [List.mem_cons, List.not_mem_nil, or_false] at hG
    rcases hG with rfl | rfl | rfl <;> constructor <;> simp only [n3GridB, ij, Aero.linspace] <;> norm_num
  · have hA := (sweepPair_at f g solver cmpSetA (fun i j => ⟨1, n3GridA.2 i j, n3GridA.1 i j, 0⟩)
      (fun i j => ⟨0, n3GridA.2 i j, n3GridA.1 i j, 0⟩) (fun s => s.n3.P = 0 ∧ s.hyb.P = 0)
      (fun i j s hs => by
        obtain ⟨⟨_, _, _, _⟩, ⟨_, _, _, _⟩⟩ := s
        obtain ⟨h1, h2⟩ := hs; simp only at h1 h2; subst h1; subst h2; simp only [cmpSetA]; norm_num)
      (fun _ _ _ => ⟨rfl, rfl⟩) 7 8 ⟨start, start⟩ ⟨rfl, rfl⟩).1
    obtain ⟨t, h1, h2⟩ := (sweepPair_at f g solver cmpSetB (fun i j => ⟨n3GridB.1 i j, n3GridB.2 i j, 1 / 2, 0⟩)
      (fun i j => ⟨0, n3GridB.2 i j, 1 / 2, 0⟩) (fun s => s.n3.P = 0 ∧ s.hyb.P = 0)
      (fun i j s hs => by
        obtain ⟨⟨_, _, _, _⟩, ⟨_, _, _, _⟩⟩ := s
        obtain ⟨h1, h2⟩ := hs; simp only at h1 h2; subst h1; subst h2; simp only [cmpSetB]; norm_num)
      (fun _ _ _ => ⟨rfl, rfl⟩) 10 8 _ hA).2 i hi j hj
    have hr := ratios (hc t) h0
    simp only [ShowsRatios, sfcRatio, h1, h2]
    exact ⟨hr.1, hr.2, _, hc t, rfl⟩

/-- A figure titled Mach 0.8 that differs from the fuel flow ratio at Mach 0.8: with the same deck for both but a fuel flow of the N3
proportional to the Mach number the ratio shown is 1/2 and the ratio at Mach 0.8 is 4/5. -/
theorem C137_title : ∃ (f g : Deck) (solver : Pair → ℝ), (∀ τ h M, Converged f g solver τ h M) ∧
    ∃ F ∈ cmpFigs f g solver, F.title = "Fuel Flow ratio (N3 / N3hybrid) at equal thrust, M=0.8" ∧
      F.Z 4 3 = 1 / 2 ∧ (f ⟨F.X 4 3, F.Y 4 3, 0.8, 0⟩).fuel / (g ⟨F.X 4 3, F.Y 4 3, 0.8, 0⟩).fuel = 4 / 5 := by
  refine ⟨fun s => ⟨20000 * s.throttle, 2 * s.throttle * s.M, 0⟩, fun s => ⟨20000 * s.throttle, 2 * s.throttle, 0⟩,
    fun s => s.n3.throttle, fun τ h M t => rfl, ?_⟩
  obtain ⟨S, F, T, h, -, h2, -, h3⟩ := C137_throttle (fun s => ⟨20000 * s.throttle, 2 * s.throttle * s.M, 0⟩)
    (fun s => ⟨20000 * s.throttle, 2 * s.throttle, 0⟩) (fun s => s.n3.throttle)
  have hx := ((h3 4 (by norm_num) 3 (by norm_num)).1 F (by simp)).1
  have hx' : F.X 4 3 = 1 / 2 := by rw [hx]; norm_num
  obtain ⟨-, -, t, ht, hf⟩ := (h3 4 (by norm_num) 3 (by norm_num)).2 (fun t => rfl) (by simp only [hx']; norm_num)
  refine ⟨F, List.mem_of_mem_drop (i := 3) (by rw [h]; simp), h2, ?_, ?_⟩
  · simp only [hx'] at ht hf
    have : t = 1 / 2 := by linarith
    rw [hf, this]; norm_num
  · simp only [hx']; norm_num

end Verif.DeckPlots
