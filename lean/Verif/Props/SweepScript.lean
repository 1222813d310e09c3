import Mathlib.Tactic.NormNum
import Mathlib.Tactic.Common
import Verif.Model.SweepScript

/-!
C139: the sweeps of the hybrid twin examples run every case once, go on after a failed optimization and can be continued; false for
`HybridTwin.py` after a failure and for the continuation of the sweeps of the thermal examples.
-/

namespace Verif.SweepScript

/-- the case an entry is about -/
def Entry.key : Entry → ℕ × ℕ
  | .skipped e r => (e, r)
  | .unread e r => (e, r)
  | .ran e r _ _ => (e, r)

/-! ### without files -/

/-- Thermal examples without log files: every case is run once, in order and from the values of `set_values`, whatever fails. -/
theorem C139_thermal_nologs (windows : Bool) (run : ℕ → ℕ → Option File → Outcome) (cs : List (ℕ × ℕ)) (files : Finset File) (log : List Entry) :
    sweep thermal windows false run cs ⟨files, none, log⟩ =
      (⟨files, none, log ++ cs.map fun c => .ran c.1 c.2 none (run c.1 c.2 none == .ok)⟩, none) := by
  induction cs generalizing log with
  | nil => simp [sweep]
  | cons c cs ih =>
    obtain ⟨e, r⟩ := c
    have : step thermal windows false run ⟨files, none, log⟩ e r =
        (⟨files, none, log ++ [.ran e r none (run e r none == .ok)]⟩, none) := by
      rcases h : run e r none <;> simp [step, drive, handler, thermal, h]
    simp only [sweep, this, ih, List.map_cons, List.append_assoc, List.singleton_append]

theorem hybrid_step (windows : Bool) (run : ℕ → ℕ → Option File → Outcome) (files : Finset File) (log : List Entry) (e r : ℕ) :
    step hybridTwin windows false run ⟨files, none, log⟩ e r =
      (⟨files, none, log ++ [.ran e r none (run e r none == .ok)]⟩, if run e r none = .ok then none else some .name) := by
  rcases h : run e r none <;> simp [step, drive, handler, hybridTwin, h]

/-- `HybridTwin.py` without log files (as it is): the script goes through all cases exactly if no optimization fails. -/
theorem C139_hybrid_iff (windows : Bool) (run : ℕ → ℕ → Option File → Outcome) (cs : List (ℕ × ℕ)) (files : Finset File) (log : List Entry) :
    (sweep hybridTwin windows false run cs ⟨files, none, log⟩).2 = none ↔ ∀ c ∈ cs, run c.1 c.2 none = .ok := by
  induction cs generalizing log with
  | nil => simp [sweep]
  | cons c cs ih =>
    obtain ⟨e, r⟩ := c
    simp only [sweep, hybrid_step, List.mem_cons, forall_eq_or_imp]
    by_cases h : run e r none = .ok
    · simp only [h, if_true, ih, true_and]
    · simp [h]

/-- The first optimization that fails ends `HybridTwin.py` with a NameError; the cases after it are not run. -/
theorem C139_hybrid_stops (windows : Bool) (run : ℕ → ℕ → Option File → Outcome) (pre post : List (ℕ × ℕ)) (e r : ℕ) (files : Finset File)
    (log : List Entry) (hpre : ∀ c ∈ pre, run c.1 c.2 none = .ok) (h : run e r none ≠ .ok) :
    sweep hybridTwin windows false run (pre ++ (e, r) :: post) ⟨files, none, log⟩ =
      (⟨files, none, log ++ (pre.map fun c => .ran c.1 c.2 none true) ++ [.ran e r none false]⟩, some .name) := by
  induction pre generalizing log with
  | nil =>
    have hb : (run e r none == Outcome.ok) = false := by simpa using h
    simp [sweep, hybrid_step, h, hb]
  | cons c pre ih =>
    obtain ⟨a, b⟩ := c
    have h1 : run a b none = .ok := hpre (a, b) (by simp)
    have hb : (run a b none == Outcome.ok) = true := by simp [h1]
    simp only [List.cons_append, sweep, hybrid_step, h1, if_true]
    rw [ih _ fun c hc => hpre c (by simp [hc])]
    simp

/-- two cases, the first fails: `HybridTwin.py` ends with a NameError, the thermal example runs the second -/
example : (sweep hybridTwin false false (fun _ r _ => if r = 300 then .late else .ok) (casesHybrid [300, 350] [450]) (begin ∅)).2 = some .name ∧
    (sweep thermal false false (fun _ r _ => if r = 300 then .late else .ok) (casesThermal [450] [300, 350]) (begin ∅)).1.log =
      [.ran 450 300 none false, .ran 450 350 none true] := by decide

/-! ### with files -/

/-- what has to hold before a sweep: the file to start from exists, and wherever a case of range 300 is to be skipped, the file that is taken
instead exists -/
def Ready (cs : List (ℕ × ℕ)) (s : St) : Prop :=
  (∀ f, s.last = some f → f ∈ s.files) ∧ ∀ e, (e, 300) ∈ cs → .case e 300 ∈ s.files → .case (e + 50) 700 ∈ s.files

theorem drive_logs (windows : Bool) (run : ℕ → ℕ → Option File → Outcome) (hrun : ∀ e r f, run e r f ≠ .early) (s : St) (e r : ℕ)
    (hs : .case e r ∉ s.files) :
    ∃ s' ok, drive thermal windows true run s e r = (s', none) ∧ (ok = true ↔ run e r s.last = .ok) ∧
      s'.log = s.log ++ [.ran e r s.last ok] ∧ s'.last = (if ok then some (.case e r) else s.last) ∧
      (∀ a b, .case a b ∈ s'.files ↔ .case a b ∈ s.files ∨ (ok = true ∧ (a, b) = (e, r))) ∧
      (∀ a b, .failed a b ∈ s.files → .failed a b ∈ s'.files) := by
  rcases h : run e r s.last with _ | _ | _
  · refine ⟨_, true, by simp [drive, h]; rfl, by simp, rfl, by simp [thermal], fun a b => ?_, fun a b hf => ?_⟩
    · simp only [Finset.mem_insert, File.case.injEq, Prod.mk.injEq, true_and]; tauto
    · simp [hf]
  · have hm : File.case e r ∈ insert (File.case e r) s.files := Finset.mem_insert_self _ _
    by_cases hw : windows = true ∧ File.failed e r ∈ insert (File.case e r) s.files
    · refine ⟨_, false, by simp only [drive, h, handler, if_true, hm, hw]; simp [thermal]; rfl, by simp, rfl, by simp, fun a b => ?_, fun a b hf => ?_⟩
      · simp only [Finset.mem_erase, File.case.injEq, ne_eq, Bool.false_eq_true, false_and, or_false]
        refine ⟨fun h => h.2, fun h2 => ⟨?_, h2⟩⟩
        rintro ⟨rfl, rfl⟩; exact hs h2
      · simp [hf]
    · refine ⟨_, false, by simp only [drive, h, handler, if_true, hm, hw, if_false]; simp [thermal]; rfl, by simp, rfl, by simp, fun a b => ?_,
        fun a b hf => ?_⟩
      · simp only [Finset.mem_erase, Finset.mem_insert, File.case.injEq, ne_eq, reduceCtorEq, false_or, Bool.false_eq_true, false_and, or_false]
        refine ⟨fun h => h.2, fun h2 => ⟨?_, h2⟩⟩
        rintro ⟨rfl, rfl⟩; exact hs h2
      · simp [hf]
  · exact absurd h (hrun _ _ _)

/-- C139 with log files, thermal examples.  If no optimization fails before its file is opened and the files are as described by `Ready`, the sweep
handles every case once and in order: it skips exactly those recorded before, and afterwards exactly those and the successful ones are
recorded. -/
theorem C139_completes (windows : Bool) (run : ℕ → ℕ → Option File → Outcome) (hrun : ∀ e r f, run e r f ≠ .early) (cs : List (ℕ × ℕ))
    (hn : cs.Nodup) (s : St) (hr : Ready cs s) :
    ∃ s' new, sweep thermal windows true run cs s = (s', none) ∧ s'.log = s.log ++ new ∧ new.map Entry.key = cs ∧
      (∀ c ∈ cs, Entry.skipped c.1 c.2 ∈ new ↔ .case c.1 c.2 ∈ s.files) ∧ (∀ e r, Entry.unread e r ∉ new) ∧
      ∀ e r, .case e r ∈ s'.files ↔ .case e r ∈ s.files ∨ ∃ f, Entry.ran e r f true ∈ new := by
  induction cs generalizing s with
  | nil => exact ⟨s, [], rfl, by simp, rfl, by simp, by simp, by simp⟩
  | cons c cs ih =>
    obtain ⟨e, r⟩ := c
    obtain ⟨hnot, hn'⟩ := List.nodup_cons.mp hn
    obtain ⟨h1, h2⟩ := hr
    have hkey : ∀ new : List Entry, new.map Entry.key = cs → ∀ x ∈ new, x.key ≠ (e, r) := by
      intro new hk x hx hc
      exact hnot (hk ▸ hc ▸ List.mem_map_of_mem hx)
    by_cases hin : File.case e r ∈ s.files
    · -- recorded
      let s1 : St := { s with
        last := if r ≠ 300 then some (.case e r) else some (.case (e + 50) 700)
        log := s.log ++ [.skipped e r] }
      have hstep : step thermal windows true run s e r = (s1, none) := by simp [step, hin, thermal, s1]
      have hr1 : Ready cs s1 := by
        refine ⟨fun f hf => ?_, fun a ha hfa => h2 a (by simp [ha]) hfa⟩
        by_cases h3 : r = 300
        · subst h3; simp only [s1, ne_eq, not_true_eq_false, if_false, Option.some.injEq] at hf; subst hf
          exact h2 e (by simp) hin
        · simp only [s1, ne_eq, h3, not_false_eq_true, if_true, Option.some.injEq] at hf; subst hf; exact hin
      obtain ⟨s', new, e1, e2, e3, e4, e5, e6⟩ := ih hn' s1 hr1
      refine ⟨s', .skipped e r :: new, by simp only [sweep, hstep]; exact e1, by rw [e2]; simp [s1], by simp [Entry.key, e3], ?_, ?_, ?_⟩
      · intro c hc
        rcases List.mem_cons.mp hc with rfl | hcs
        · simp [hin]
        · rw [List.mem_cons, ← show _ ↔ _ from e4 c hcs]
          constructor
          · rintro (h | h)
            · cases h; exact absurd ‹_ ∈ cs› hnot
            · exact h
          · exact Or.inr
      · intro a b h; simp only [List.mem_cons, reduceCtorEq, false_or] at h; exact e5 a b h
      · intro a b; rw [e6]; simp [s1]
    · -- not recorded
      obtain ⟨s1, ok, d1, -, d3, d4, d5, d6⟩ := drive_logs windows run hrun s e r hin
      have hstep : step thermal windows true run s e r = (s1, none) := by
        unfold step
        rcases hl : s.last with _ | f
        · simpa [hin, hl] using d1
        · simpa [hin, hl, h1 f hl] using d1
      have hr1 : Ready cs s1 := by
        refine ⟨fun f hf => ?_, fun a ha hfa => ?_⟩
        · rw [d4] at hf
          cases ok
          · have hf' := h1 f hf
            rcases f with ⟨a, b⟩ | ⟨a, b⟩
            · exact (d5 a b).mpr (Or.inl hf')
            · exact d6 a b hf'
          · simp only [if_true, Option.some.injEq] at hf; subst hf
            exact (d5 e r).mpr (Or.inr ⟨rfl, rfl⟩)
        · rcases (d5 a 300).mp hfa with h | ⟨-, h⟩
          · exact (d5 _ _).mpr (Or.inl (h2 a (by simp [ha]) h))
          · exact absurd (h ▸ ha) hnot
      obtain ⟨s', new, e1, e2, e3, e4, e5, e6⟩ := ih hn' s1 hr1
      refine ⟨s', .ran e r s.last ok :: new, by simp only [sweep, hstep]; exact e1, by rw [e2, d3]; simp, by simp [Entry.key, e3], ?_, ?_, ?_⟩
      · intro c hc
        rcases List.mem_cons.mp hc with rfl | hcs
        · simp only [hin, iff_false, List.mem_cons, reduceCtorEq, false_or]
          intro h; exact hkey new e3 _ h rfl
        · rw [List.mem_cons, e4 c hcs, d5]
          constructor
          · rintro (h | h | ⟨-, h⟩)
            · cases h
            · exact h
            · exact absurd (h ▸ hcs) hnot
          · exact fun h => Or.inr (Or.inl h)
      · intro a b h; simp only [List.mem_cons, reduceCtorEq, false_or] at h; exact e5 a b h
      · intro a b
        rw [e6, d5]
        constructor
        · rintro ((h | ⟨h, h'⟩) | ⟨f, h⟩)
          · exact Or.inl h
          · cases h'; subst h; exact Or.inr ⟨s.last, by simp⟩
          · exact Or.inr ⟨f, by simp [h]⟩
        · rintro (h | ⟨f, h⟩)
          · exact Or.inl (Or.inl h)
          · rcases List.mem_cons.mp h with h | h
            · cases h; exact Or.inl (Or.inr ⟨rfl, rfl⟩)
            · exact Or.inr ⟨f, h⟩

/-- In an empty directory the sweeps of the thermal examples come to their end. -/
theorem C139_fresh (windows : Bool) (run : ℕ → ℕ → Option File → Outcome) (hrun : ∀ e r f, run e r f ≠ .early) (cs : List (ℕ × ℕ))
    (hn : cs.Nodup) :
    ∃ s', sweep thermal windows true run cs (begin ∅) = (s', none) ∧ s'.log.map Entry.key = cs ∧
      ∀ e r, .case e r ∈ s'.files ↔ ∃ f, Entry.ran e r f true ∈ s'.log := by
  obtain ⟨s', new, h1, h2, h3, -, -, h6⟩ := C139_completes windows run hrun cs hn (begin ∅) ⟨by simp [begin], by simp [begin]⟩
  have : s'.log = new := by rw [h2]; simp [begin]
  refine ⟨s', h1, by rw [this, h3], fun e r => by rw [h6, this]; simp [begin]⟩

/-! ### where a case starts -/

/-- every case that is run starts from the last one that succeeded before it -/
def Chained : Option File → List Entry → Prop
  | _, [] => True
  | f, .ran e r g ok :: l => g = f ∧ Chained (if ok then some (.case e r) else f) l
  | f, _ :: l => Chained f l

/-- In a directory without recorded cases every case starts from the values of the last case that succeeded before it in this sweep, and the first
ones from those of `set_values`. -/
theorem C139_warm (windows : Bool) (run : ℕ → ℕ → Option File → Outcome) (hrun : ∀ e r f, run e r f ≠ .early) (cs : List (ℕ × ℕ))
    (hn : cs.Nodup) (s : St) (hl : ∀ f, s.last = some f → f ∈ s.files) (hf : ∀ c ∈ cs, .case c.1 c.2 ∉ s.files) :
    ∃ s' new, sweep thermal windows true run cs s = (s', none) ∧ s'.log = s.log ++ new ∧ new.map Entry.key = cs ∧ Chained s.last new := by
  induction cs generalizing s with
  | nil => exact ⟨s, [], rfl, by simp, rfl, trivial⟩
  | cons c cs ih =>
    obtain ⟨e, r⟩ := c
    obtain ⟨hnot, hn'⟩ := List.nodup_cons.mp hn
    have hin : File.case e r ∉ s.files := hf (e, r) (by simp)
    obtain ⟨s1, ok, d1, -, d3, d4, d5, d6⟩ := drive_logs windows run hrun s e r hin
    have hstep : step thermal windows true run s e r = (s1, none) := by
      unfold step
      rcases h : s.last with _ | f
      · simpa [hin, h] using d1
      · simpa [hin, h, hl f h] using d1
    obtain ⟨s', new, e1, e2, e3, e4⟩ := ih hn' s1
      (fun f h => by
        rw [d4] at h
        cases ok
        · have h' := hl f h
          rcases f with ⟨a, b⟩ | ⟨a, b⟩
          · exact (d5 a b).mpr (Or.inl h')
          · exact d6 a b h'
        · simp only [if_true, Option.some.injEq] at h; subst h
          exact (d5 e r).mpr (Or.inr ⟨rfl, rfl⟩))
      (fun c hc h => by
        rcases (d5 _ _).mp h with h | ⟨-, h⟩
        · exact hf c (by simp [hc]) h
        · exact hnot (h ▸ hc))
    refine ⟨s', .ran e r s.last ok :: new, by simp only [sweep, hstep]; exact e1, by rw [e2, d3]; simp, by simp [Entry.key, e3], rfl, ?_⟩
    rw [← d4]; exact e4

/-- four cases, the second fails: the third starts from the first -/
example : (sweep thermal false true (fun _ r _ => if r = 350 then .late else .ok) (casesThermal [450] [300, 350, 400]) (begin ∅)).1.log =
    [.ran 450 300 none true, .ran 450 350 (some (.case 450 300)) false, .ran 450 400 (some (.case 450 300)) true] := by decide

/-- The hypothesis on early exceptions is needed: with log files an exception before the driver opens the file (in `setup` or `set_values`) ends
every script. -/
theorem C139_early (sc : Script) (windows : Bool) (run : ℕ → ℕ → Option File → Outcome) (s : St) (e r : ℕ) (cs : List (ℕ × ℕ))
    (hs : .case e r ∉ s.files) (hl : ∀ f, s.last = some f → f ∈ s.files) (he : run e r s.last = .early) :
    (sweep sc windows true run ((e, r) :: cs) s).2 = some (if windows then .noFile else .name) := by
  rcases h : s.last with _ | f
  · rw [h] at he; simp [sweep, step, drive, handler, hs, h, he]
  · rw [h] at he; simp [sweep, step, drive, handler, hs, h, hl f h, he]

/-! ### continuing a sweep -/

/-- C139, negation.  A sweep that is continued after its first case, range 300, has been recorded ends with an exception at the first case that is
not recorded yet, unless the case with 50 more energy and range 700 happens to exist; nothing else is run. -/
theorem C139_resume_fails (windows : Bool) (run : ℕ → ℕ → Option File → Outcome) (e r : ℕ) (rest : List (ℕ × ℕ)) (files : Finset File)
    (h1 : .case e 300 ∈ files) (h2 : .case e r ∉ files) (h3 : .case (e + 50) 700 ∉ files) :
    sweep thermal windows true run ((e, 300) :: (e, r) :: rest) (begin files) =
      (⟨files, some (.case (e + 50) 700), [.skipped e 300, .unread e r]⟩, some (if windows then .noFile else .name)) := by
  simp [sweep, step, begin, h1, h2, h3, thermal, handler]

/-- So the sweep suggested in the comment of the script, interrupted after its first case, cannot be continued. -/
theorem C139_resume_witness (windows : Bool) : ∃ (run : ℕ → ℕ → Option File → Outcome) (s' : St),
    (∀ e r f, run e r f = .ok) ∧ sweep thermal windows true run [(250, 300)] (begin ∅) = (s', none) ∧
    (sweep thermal windows true run (casesThermal [250, 300, 350, 400, 450, 500, 550, 600, 650, 700, 750, 800]
      [300, 350, 400, 450, 500, 550, 600, 650, 700]) (begin s'.files)).2 ≠ none := by
  refine ⟨fun _ _ _ => .ok, ⟨{.case 250 300}, some (.case 250 300), [.ran 250 300 none true]⟩, fun _ _ _ => rfl, rfl, ?_⟩
  have hc : casesThermal [250, 300, 350, 400, 450, 500, 550, 600, 650, 700, 750, 800] [300, 350, 400, 450, 500, 550, 600, 650, 700] =
      (250, 300) :: (250, 350) ::
        (casesThermal [250, 300, 350, 400, 450, 500, 550, 600, 650, 700, 750, 800] [300, 350, 400, 450, 500, 550, 600, 650, 700]).drop 2 := rfl
  rw [hc, C139_resume_fails windows _ 250 350 _ _ (by simp) (by simp) (by simp)]
  simp

end Verif.SweepScript
