import Verif.Model.HybridTwin
import Verif.Props.Aircraft
import Verif.Props.Propulsion

/-! Property C104: where the energy of the series hybrid twin's mission comes from. -/

namespace Verif.HybridTwin

open Verif.Integrals Verif.Propulsion Verif.Aircraft

variable {m : ℕ} {M : Matrix (Fin (m + 1)) (Fin (m + 1)) ℝ} {mp : Maps}

/-- electric power of the motors of a phase (one motor has the throttle, the other one throttle times activity) -/
def power (d : Plane) (p : Leg m) (b : Fin (m + 1)) : ℝ := (1 + p.active b) * p.throttle b * d.motorRating

/-- electric energy that the motors take in a phase, as the mission integrates it (Simpson's rule) -/
noncomputable def energy (M : Matrix (Fin (m + 1)) (Fin (m + 1)) ℝ) (d : Plane) (p : Leg m) : ℝ :=
  integratorFinal M 0 (.duration p.duration) (power d p)

/-- fuel per electric energy of the turbogenerator: specific consumption of the engine over the generator's efficiency -/
noncomputable def fuelPerEnergy : ℝ := 0.6 * 1.68965774e-7 / 0.97

theorem fuelPerEnergy_pos : 0 < fuelPerEnergy := by norm_num [fuelPerEnergy]

/-- C104.  In a converged phase with hybridization `h` the battery carries the fraction `h` of the motors' electric power and
the engine burns fuel for the rest, at every node. -/
theorem C104_split (d : Plane) (p : Leg m) (h : p.Converged mp d) (b : Fin (m + 1)) :
    (p.out mp d b).batteryLoad = p.hyb * power d p b ∧
    (p.out mp d b).fuel = (1 - p.hyb) * power d p b * fuelPerEnergy := by
  have hf : (p.node d b).splitFraction = p.hyb := by simp [Leg.node, Leg.fraction, Aero.linspace]
  have hl : (p.out mp d b).totalLoad = power d p b := by
    simp only [Leg.out, twinHybrid, motor, Leg.node, power]; ring
  obtain ⟨h1, h2⟩ := C43_balance mp (p.s1 b) (p.s2 b) (p.node d b) (h b)
  change (p.out mp d b).totalLoad = (p.out mp d b).batteryLoad + (p.out mp d b).genAvailable at h1
  change (p.out mp d b).batteryLoad = (p.node d b).splitFraction * (p.out mp d b).totalLoad at h2
  rw [hf, hl] at h2
  have hg : (p.out mp d b).fuel = (p.out mp d b).genAvailable * fuelPerEnergy := by
    simp only [Leg.out, twinHybrid, generator, turboshaft, hybridGen, turboOpts, fuelPerEnergy]
    norm_num; ring
  refine ⟨h2, ?_⟩
  rw [hg]
  have : (p.out mp d b).genAvailable = (1 - p.hyb) * power d p b := by linarith
  rw [this]

theorem segFinal_mul (c t : ℝ) (r : Fin (m + 1) → ℝ) :
    segFinal M 0 ⟨fun b => c * r b, t⟩ = c * integratorFinal M 0 (.duration t) r := by
  have := C03_affine M (.duration t) 0 0 c 0 r (fun _ => 0) (Fin.last m)
  simp only [mul_zero, add_zero, zero_mul] at this
  exact this

/-- fuel burned and charge lost in one phase -/
theorem seg_totals (d : Plane) (p : Leg m) (h : p.Converged mp d) :
    segFinal M 0 (p.fuelSeg mp d) = (1 - p.hyb) * energy M d p * fuelPerEnergy ∧
    segFinal M 0 (p.socSeg mp d) = -(p.hyb * energy M d p / (3600 * (d.wBattery * d.specificEnergy))) := by
  constructor
  · have e : p.fuelSeg mp d = ⟨fun b => ((1 - p.hyb) * fuelPerEnergy) * power d p b, p.duration⟩ := by
      unfold Leg.fuelSeg
      congr 1
      funext b
      rw [(C104_split d p h b).2]; ring
    rw [e, segFinal_mul, energy]; ring
  · have e : p.socSeg mp d
        = ⟨fun b => (-(p.hyb / (3600 * (d.wBattery * d.specificEnergy)))) * power d p b, p.duration⟩ := by
      unfold Leg.socSeg
      congr 1
      funext b
      rw [(C104_split d p h b).1]
      simp only [dSOCdt, battery]
      rcases eq_or_ne (d.wBattery * d.specificEnergy) 0 with h0 | h0
      · simp [h0]
      · field_simp; norm_num; ring
    rw [e, segFinal_mul, energy]; ring

/-- C104.  For any hybridizations, throttles and durations: the state of charge falls by the battery's share of the motor energy
over the battery's capacity, the fuel is that of the generator's share. -/
theorem C104_totals (d : Plane) (l : List (Leg m)) (hl : ∀ p ∈ l, p.Converged mp d) (soc0 fuel0 : ℝ) :
    socFinal M mp d soc0 l
      = soc0 - (l.map fun p => p.hyb * energy M d p).sum / (3600 * (d.wBattery * d.specificEnergy)) ∧
    fuelFinal M mp d fuel0 l = fuel0 + (l.map fun p => (1 - p.hyb) * energy M d p).sum * fuelPerEnergy := by
  unfold socFinal fuelFinal
  rw [(C92_total soc0 _).1, (C92_total fuel0 _).1, List.map_map, List.map_map]
  have key : (l.map (segFinal M 0 ∘ Leg.socSeg mp d)).sum
      = -((l.map fun p => p.hyb * energy M d p).sum / (3600 * (d.wBattery * d.specificEnergy))) ∧
      (l.map (segFinal M 0 ∘ Leg.fuelSeg mp d)).sum = (l.map fun p => (1 - p.hyb) * energy M d p).sum * fuelPerEnergy := by
    clear soc0 fuel0
    induction l with
    | nil => simp
    | cons p l ih =>
      obtain ⟨a, b⟩ := ih fun q hq => hl q (by simp [hq])
      obtain ⟨s1, s2⟩ := seg_totals (M := M) d p (hl p (by simp))
      simp only [List.map_cons, List.sum_cons]
      constructor
      · rw [a, Function.comp_apply, s2]; ring
      · rw [b, Function.comp_apply, s1]; ring
  rw [key.1, key.2]
  exact ⟨by ring, rfl⟩

/-- C104.  Energy balance of the mission: what the battery gave plus what the generator made of the fuel is what the motors
took, whatever the hybridizations are. -/
theorem C104_energy (d : Plane) (l : List (Leg m)) (hl : ∀ p ∈ l, p.Converged mp d) (soc0 fuel0 : ℝ)
    (hE : d.wBattery * d.specificEnergy ≠ 0) :
    (soc0 - socFinal M mp d soc0 l) * (3600 * (d.wBattery * d.specificEnergy))
      + (fuelFinal M mp d fuel0 l - fuel0) / fuelPerEnergy = (l.map (energy M d)).sum := by
  obtain ⟨a, b⟩ := C104_totals (M := M) d l hl soc0 fuel0
  rw [a, b]
  have hsum : (l.map (energy M d)).sum
      = (l.map fun p => p.hyb * energy M d p).sum + (l.map fun p => (1 - p.hyb) * energy M d p).sum := by
    clear hl a b
    induction l with
    | nil => simp
    | cons p l ih => simp only [List.map_cons, List.sum_cons]; rw [ih]; ring
  rw [hsum]
  have hk := fuelPerEnergy_pos.ne'
  have hE' : 3600 * (d.wBattery * d.specificEnergy) ≠ 0 := mul_ne_zero (by norm_num) hE
  rw [sub_sub_cancel, div_mul_cancel₀ _ hE', add_sub_cancel_left, mul_div_cancel_right₀ _ hk]

theorem missionFuel_const (l : List (Aircraft.Seg m)) (q0 : ℝ) (hl : ∀ s ∈ l, ∀ b, s.flow b = 0) :
    (∀ f ∈ missionFuel M q0 l, ∀ b, f b = q0) ∧ missionFinal M q0 l = q0 := by
  have h0 : ∀ s : Aircraft.Seg m, (∀ b, s.flow b = 0) → ∀ b, segFuel M q0 s b = q0 := by
    intro s hs b
    have : s.flow = fun _ => 0 := funext hs
    simp only [segFuel, integratorCompute_eq, this]
    have : M.mulVec (fun _ => (0 : ℝ)) = 0 := Matrix.mulVec_zero M
    rw [this]; simp
  induction l with
  | nil => simp [missionFuel, missionFinal]
  | cons s l ih =>
    obtain ⟨a, b⟩ := ih fun t ht => hl t (by simp [ht])
    have hs := h0 s (hl s (by simp))
    have hf : segFinal M q0 s = q0 := hs (Fin.last m)
    refine ⟨?_, ?_⟩
    · intro f hf' b
      simp only [missionFuel, List.mem_cons, hf] at hf'
      rcases hf' with rfl | hf'
      · exact hs b
      · exact a f hf' b
    · simp only [missionFinal, List.foldl_cons, hf]
      exact b

/-- C104.  Phases with the default hybridization which are not called climb, cruise or descent - the take-off phases, but also
reserve phases and a loiter - burn no fuel: `fuel_used` is constant over all their nodes. -/
theorem C104_no_fuel (d : Plane) (l : List (Leg m)) (hl : ∀ p ∈ l, p.Converged mp d) (hd : ∀ p ∈ l, p.Default)
    (hn : ∀ p ∈ l, p.name ∉ ["climb", "cruise", "descent"]) (fuel0 : ℝ) :
    (∀ f ∈ fuelHist M mp d fuel0 l, ∀ b, f b = fuel0) ∧ fuelFinal M mp d fuel0 l = fuel0 := by
  apply missionFuel_const
  intro s hs b
  obtain ⟨p, hp, rfl⟩ := List.mem_map.1 hs
  have hh : p.hyb = 1 := by rw [hd p hp, hybridization, if_neg (hn p hp)]
  simp only [Leg.fuelSeg]
  rw [(C104_split d p (hl p hp) b).2, hh]
  ring

/-- C104.  Climb, cruise and descent with the default hybridization leave the state of charge constant at all their nodes. -/
theorem C104_no_charge (d : Plane) (l : List (Leg m)) (hl : ∀ p ∈ l, p.Converged mp d) (hd : ∀ p ∈ l, p.Default)
    (hn : ∀ p ∈ l, p.name ∈ ["climb", "cruise", "descent"]) (soc0 : ℝ) :
    (∀ s ∈ socHist M mp d soc0 l, ∀ b, s b = soc0) ∧ socFinal M mp d soc0 l = soc0 := by
  apply missionFuel_const
  intro s hs b
  obtain ⟨p, hp, rfl⟩ := List.mem_map.1 hs
  have hh : p.hyb = 0 := by rw [hd p hp, hybridization, if_pos (hn p hp)]
  simp only [Leg.socSeg, dSOCdt]
  rw [(C104_split d p (hl p hp) b).1, hh]
  simp

/-- energy of a phase with constant motor power (Simpson's rule is exact) -/
theorem energy_const (hM : methodMatrix .simpson m = some M) (hm : m ≠ 0) (d : Plane) (p : Leg m) (c : ℝ)
    (h : ∀ b, (1 + p.active b) * p.throttle b = c) : energy M d p = c * d.motorRating * p.duration := by
  have e : power d p = fun b : Fin (m + 1) => (Polynomial.C (c * d.motorRating)).eval ((b : ℕ) * (p.duration / m)) := by
    funext b
    rw [power, h, Polynomial.eval_C]
  have := C01_simpson_final_cubic hM hm (Polynomial.C (c * d.motorRating)) (by rw [Polynomial.natDegree_C]; norm_num) 0 p.duration 0
  simp only [zero_add, sub_zero, Polynomial.eval_C, intervalIntegral.integral_const, smul_eq_mul] at this
  rw [energy, e]
  simp only [Polynomial.eval_C]
  rw [mul_comm (c * d.motorRating), ← this]
  simp [integratorFinal, integratorCompute, TimeInput.step]

/-- the phases of a take-off -/
theorem takeoff_energy (hM : methodMatrix .simpson m = some M) (hm : m ≠ 0) (d : Plane) (f : Flight m) (hf : f.Setup) :
    energy M d f.v0v1 = 2 * d.motorRating * f.v0v1.duration ∧ energy M d f.v1vr = d.motorRating * f.v1vr.duration ∧
    energy M d f.rotate = d.motorRating * f.rotate.duration ∧ energy M d f.v1v0 = 0 := by
  refine ⟨?_, ?_, ?_, ?_⟩
  · rw [energy_const hM hm d _ 2 fun b => ?_]
    rw [(hf.v0v1 b).1, (hf.v0v1 b).2]; norm_num [Bfl.Seg.throttle, Bfl.Seg.active]
  · rw [energy_const hM hm d _ 1 fun b => ?_, one_mul]
    rw [(hf.v1vr b).1, (hf.v1vr b).2]; norm_num [Bfl.Seg.throttle, Bfl.Seg.active]
  · rw [energy_const hM hm d _ 1 fun b => ?_, one_mul]
    rw [(hf.rotate b).1, (hf.rotate b).2]; norm_num
  · rw [energy_const hM hm d _ 0 fun b => ?_, zero_mul, zero_mul]
    rw [(hf.v1v0 b).1, (hf.v1v0 b).2]; norm_num [Bfl.Seg.throttle, Bfl.Seg.active]

/-- all phases have converged -/
def Flight.Converged (mp : Maps) (d : Plane) (f : Flight m) : Prop :=
  ∀ p ∈ [f.v0v1, f.v1vr, f.v1v0, f.rotate, f.climb, f.cruise, f.descent], p.Converged mp d
/-- no phase has been given another hybridization -/
def Flight.Default (f : Flight m) : Prop :=
  ∀ p ∈ [f.v0v1, f.v1vr, f.v1v0, f.rotate, f.climb, f.cruise, f.descent], p.Default

/-- C104.  With the default hybridizations the mission ends with the charge that the take-off left: two motors at rated power
until the decision speed, one from there to the obstacle.  The aircraft begins its climb with its take-off weight, all fuel is
burned in climb, cruise and descent, for all electric energy that the motors take there. -/
theorem C104_mission (hM : methodMatrix .simpson m = some M) (hm : m ≠ 0) (d : Plane) (f : Flight m) (hf : f.Setup)
    (hc : f.Converged mp d) (hd : f.Default) (soc0 : ℝ) :
    socFinal M mp d soc0 f.legs
      = soc0 - d.motorRating * (2 * f.v0v1.duration + f.v1vr.duration + f.rotate.duration)
          / (3600 * (d.wBattery * d.specificEnergy)) ∧
    fuelFinal M mp d 0 [f.v0v1, f.v1vr, f.rotate] = 0 ∧
    fuelFinal M mp d 0 f.legs = (energy M d f.climb + energy M d f.cruise + energy M d f.descent) * fuelPerEnergy ∧
    socFinal M mp d soc0 f.aborted
      = soc0 - d.motorRating * (2 * f.v0v1.duration) / (3600 * (d.wBattery * d.specificEnergy)) ∧
    fuelFinal M mp d 0 f.aborted = 0 := by
  obtain ⟨e1, e2, e3, e4⟩ := takeoff_energy hM hm d f hf
  obtain ⟨n1, n2, n3, n4, n5, n6, n7⟩ := hf.names
  have c1 : ∀ p ∈ f.legs, p.Converged mp d := fun p hp => hc p (by simp [Flight.legs] at hp ⊢; tauto)
  have c2 : ∀ p ∈ f.aborted, p.Converged mp d := fun p hp => hc p (by simp [Flight.aborted] at hp ⊢; tauto)
  have d1 : f.v0v1.hyb = 1 := by rw [hd f.v0v1 (by simp), n1]; simp [hybridization]
  have d2 : f.v1vr.hyb = 1 := by rw [hd f.v1vr (by simp), n2]; simp [hybridization]
  have d3 : f.v1v0.hyb = 1 := by rw [hd f.v1v0 (by simp), n3]; simp [hybridization]
  have d4 : f.rotate.hyb = 1 := by rw [hd f.rotate (by simp), n4]; simp [hybridization]
  have d5 : f.climb.hyb = 0 := by rw [hd f.climb (by simp), n5]; simp [hybridization]
  have d6 : f.cruise.hyb = 0 := by rw [hd f.cruise (by simp), n6]; simp [hybridization]
  have d7 : f.descent.hyb = 0 := by rw [hd f.descent (by simp), n7]; simp [hybridization]
  obtain ⟨t1, t2⟩ := C104_totals (M := M) d f.legs c1 soc0 0
  obtain ⟨t3, t4⟩ := C104_totals (M := M) d f.aborted c2 soc0 0
  have t5 := (C104_totals (M := M) d [f.v0v1, f.v1vr, f.rotate]
    (fun p hp => hc p (by simp at hp ⊢; tauto)) soc0 0).2
  simp only [Flight.legs, Flight.aborted, List.map_cons, List.map_nil, List.sum_cons, List.sum_nil, d1, d2, d3, d4, d5, d6,
    d7, e1, e2, e3, e4] at t1 t2 t3 t4 t5
  refine ⟨?_, ?_, ?_, ?_, ?_⟩
  · rw [Flight.legs, t1]; ring
  · rw [t5]; ring
  · rw [Flight.legs, t2]; ring
  · rw [Flight.aborted, t3]; ring
  · rw [Flight.aborted, t4]; ring

/-- C104.  The weight when the climb begins is the take-off weight. -/
theorem C104_climb_weight (d : Plane) (f : Flight m) (hf : f.Setup) (hc : f.Converged mp d) (hd : f.Default) (mtow : ℝ) :
    ∀ g ∈ fuelHist M mp d 0 [f.v0v1, f.v1vr, f.rotate], ∀ b, weight mtow g b = mtow := by
  intro g hg b
  obtain ⟨n1, n2, n3, n4, n5, n6, n7⟩ := hf.names
  rw [C92_weight, (C104_no_fuel d _ (fun p hp => hc p (by simp at hp ⊢; tauto))
    (fun p hp => hd p (by simp at hp ⊢; tauto)) ?_ 0).1 g hg b, sub_zero]
  intro p hp
  simp only [List.mem_cons, List.not_mem_nil, or_false] at hp
  rcases hp with rfl | rfl | rfl <;> simp [n1, n2, n4]

/-- C104.  Trading fuel for charge in one phase: with the motors' power histories unchanged, raising the hybridization of a phase
by `x` takes `x` times the energy of that phase from the battery instead of the fuel. -/
theorem C104_exchange (d : Plane) (l l' : List (Leg m)) (p p' : Leg m) (x : ℝ)
    (hp : ∀ b, power d p' b = power d p b) (ht : p'.duration = p.duration) (hx : p'.hyb = p.hyb + x)
    (h1 : ∀ q ∈ l ++ p :: l', q.Converged mp d) (h2 : p'.Converged mp d) (soc0 fuel0 : ℝ) :
    socFinal M mp d soc0 (l ++ p' :: l')
      = socFinal M mp d soc0 (l ++ p :: l') - x * energy M d p / (3600 * (d.wBattery * d.specificEnergy)) ∧
    fuelFinal M mp d fuel0 (l ++ p' :: l') = fuelFinal M mp d fuel0 (l ++ p :: l') - x * energy M d p * fuelPerEnergy := by
  have e : energy M d p' = energy M d p := by
    have : power d p' = power d p := funext hp
    simp only [energy, this, ht]
  have h3 : ∀ q ∈ l ++ p' :: l', q.Converged mp d := by
    intro q hq
    simp only [List.mem_append, List.mem_cons] at hq h1
    rcases hq with hq | rfl | hq
    · exact h1 q (Or.inl hq)
    · exact h2
    · exact h1 q (Or.inr (Or.inr hq))
  obtain ⟨a, b⟩ := C104_totals (M := M) d _ h1 soc0 fuel0
  obtain ⟨a', b'⟩ := C104_totals (M := M) d _ h3 soc0 fuel0
  rw [a, b, a', b']
  simp only [List.map_append, List.map_cons, List.sum_append, List.sum_cons, e, hx]
  constructor <;> ring

/-- C104.  Converged phases exist for all throttles, activities, hybridizations and conditions, and the engine throttle is
determined by them. -/
theorem C104_reachable (d : Plane) (hR : d.engRating ≠ 0) (p : Leg m) :
    ∃! t : Fin (m + 1) → ℝ, Leg.Converged mp d { p with engThrottle := t } := by
  choose t h1 h2 using fun b => C43_unique mp (p.s1 b) (p.s2 b) (p.node d b) hR
  refine ⟨t, fun b => h1 b, fun t' ht' => ?_⟩
  funext b
  exact h2 b (t' b) (ht' b)

/-- C104.  For given loads exactly one cruise hybridization ends the mission with a given state of charge. -/
theorem C104_target (d : Plane) (l l' : List (Leg m)) (p : Leg m) (hR : d.engRating ≠ 0) (hE : d.wBattery * d.specificEnergy ≠ 0)
    (hp : energy M d p ≠ 0) (h1 : ∀ q ∈ l ++ p :: l', q.Converged mp d) (soc0 target : ℝ) :
    ∃! h : ℝ, ∃ t, Leg.Converged mp d { p with hyb := h, engThrottle := t } ∧
      socFinal M mp d soc0 (l ++ { p with hyb := h, engThrottle := t } :: l') = target := by
  have key : ∀ h t, Leg.Converged mp d { p with hyb := h, engThrottle := t } →
      socFinal M mp d soc0 (l ++ { p with hyb := h, engThrottle := t } :: l')
        = socFinal M mp d soc0 (l ++ p :: l') - (h - p.hyb) * energy M d p / (3600 * (d.wBattery * d.specificEnergy)) := by
    intro h t hc
    exact (C104_exchange (M := M) d l l' p { p with hyb := h, engThrottle := t } (h - p.hyb) (fun b => rfl) rfl
      (by simp) h1 hc soc0 0).1
  set s := socFinal M mp d soc0 (l ++ p :: l')
  set E := 3600 * (d.wBattery * d.specificEnergy)
  have hE' : E ≠ 0 := mul_ne_zero (by norm_num) hE
  refine ⟨p.hyb + (s - target) * E / energy M d p, ?_, ?_⟩
  · obtain ⟨t, ht, -⟩ := C104_reachable (mp := mp) d hR { p with hyb := p.hyb + (s - target) * E / energy M d p }
    refine ⟨t, ht, ?_⟩
    rw [key _ _ ht]
    field_simp
    ring
  · rintro h ⟨t, hc, ht⟩
    rw [key _ _ hc] at ht
    field_simp
    field_simp at ht
    linarith

/-- useful power of a propeller with shaft power `P`: the efficiency that the map has for power coefficient and advance ratio -/
noncomputable def useful (mp : Maps) (s : Side) (P : ℝ) : ℝ :=
  mp.eta (P / (s.rho * (s.rpm / 60) ^ 3 * s.diameter ^ 5)) (s.utrue / (s.rpm / 60 * s.diameter)) * P

theorem propeller_useful (s : Side) (hr : 0 < s.rho) (hn : 0 < s.rpm) (hD : 0 < s.diameter)
    (hJ : 0.2 ≤ 60 * s.utrue / s.rpm / s.diameter) (P : ℝ) : propeller mp (s.coef P) = useful mp s P / s.utrue := by
  have hu : s.utrue ≠ 0 := by rintro h; rw [h] at hJ; norm_num at hJ
  rw [eq_div_iff hu]
  refine (C40_efficiency mp (s.coef P) hr hn hD hJ).trans ?_
  simp only [useful, powerCoef, advanceRatio, Side.coef]
  congr 2
  · field_simp
  · field_simp

/-- C104.  Thrust of the two propellers: each motor turns 97 % of its share of the electric power into shaft power. -/
theorem C104_thrust (d : Plane) (p : Leg m) (b : Fin (m + 1))
    (h : ∀ s ∈ [p.s1 b, p.s2 b], 0 < s.rho ∧ 0 < s.rpm ∧ 0 < s.diameter ∧ 0.2 ≤ 60 * s.utrue / s.rpm / s.diameter) :
    (p.out mp d b).thrust = useful mp (p.s1 b) (0.97 * (p.throttle b * d.motorRating)) / (p.s1 b).utrue
      + useful mp (p.s2 b) (0.97 * (p.throttle b * p.active b * d.motorRating)) / (p.s2 b).utrue := by
  obtain ⟨a1, a2, a3, a4⟩ := h (p.s1 b) (by simp)
  obtain ⟨b1, b2, b3, b4⟩ := h (p.s2 b) (by simp)
  simp only [Leg.out, twinHybrid, motor, Leg.node, hybridMotor]
  rw [propeller_useful _ a1 a2 a3 a4, propeller_useful _ b1 b2 b3 b4]
  rw [mul_comm (0.97 : ℝ), mul_comm (0.97 : ℝ)]

/-- C104.  In a converged phase the battery turns 3 % of its load into heat, and its rating of 5 kW/kg suffices exactly if the
hybridized fraction of the motors' power stays below it. -/
theorem C104_battery (d : Plane) (p : Leg m) (h : p.Converged mp d) (b : Fin (m + 1)) (hW : 0 < d.wBattery) :
    let o := battery battOpts d.wBattery (p.out mp d b).batteryLoad d.specificEnergy
    o.heat = 0.03 * (p.hyb * power d p b) ∧ (o.margin ≤ 1 ↔ p.hyb * power d p b ≤ 5000 * d.wBattery) := by
  intro o
  simp only [o, battery, battOpts, (C104_split d p h b).1]
  refine ⟨by ring, ?_⟩
  rw [div_le_one (by positivity)]

/-- a leg with constant throttle -/
noncomputable def constLeg (name : String) (t a T : ℝ) : Leg 2 :=
  { name := name, hyb := hybridization name, duration := T, throttle := fun _ => t, active := fun _ => a,
    engThrottle := fun _ => 0, s1 := fun _ => ⟨2.2, 2000, 1, 60⟩, s2 := fun _ => ⟨2.2, 2000, 1, 60⟩ }

/-- example: 300 kg of batteries with 450 W h/kg and motors of 400 kW: ground rolls of 10 s and 5 s and 5 s in the air take 10/405 of the
charge -/
example (mp : Maps) : ∃ f : Flight 2, f.Setup ∧ f.Default ∧ f.Converged mp ⟨400000, 750000, 1117200, 300, 450, 1⟩ ∧
    socFinal (simpsonTri 2) mp ⟨400000, 750000, 1117200, 300, 450, 1⟩ 1 f.legs = 1 - 10 / 405 := by
  let d : Plane := ⟨400000, 750000, 1117200, 300, 450, 1⟩
  have hR : d.engRating ≠ 0 := by norm_num [d]
  have mk : ∀ name t a T, ∃ p : Leg 2, p.Converged mp d ∧ p.name = name ∧ p.Default ∧ p.duration = T ∧
      (∀ b, p.throttle b = t) ∧ ∀ b, p.active b = a := by
    intro name t a T
    obtain ⟨e, he, -⟩ := C104_reachable (mp := mp) d hR (constLeg name t a T)
    exact ⟨_, he, rfl, rfl, rfl, fun _ => rfl, fun _ => rfl⟩
  obtain ⟨p1, a1, b1, c1, e1, f1, g1⟩ := mk "v0v1" 1 1 10
  obtain ⟨p2, a2, b2, c2, e2, f2, g2⟩ := mk "v1vr" 1 0 5
  obtain ⟨p3, a3, b3, c3, e3, f3, g3⟩ := mk "v1v0" 0 0 12
  obtain ⟨p4, a4, b4, c4, e4, f4, g4⟩ := mk "rotate" 1 0 5
  obtain ⟨p5, a5, b5, c5, e5, f5, g5⟩ := mk "climb" 0.9 1 1000
  obtain ⟨p6, a6, b6, c6, e6, f6, g6⟩ := mk "cruise" 0.6 1 5000
  obtain ⟨p7, a7, b7, c7, e7, f7, g7⟩ := mk "descent" 0.2 1 900
  have hf : Flight.Setup (⟨p1, p2, p3, p4, p5, p6, p7⟩ : Flight 2) :=
    ⟨⟨b1, b2, b3, b4, b5, b6, b7⟩, fun b => ⟨f1 b, g1 b⟩, fun b => ⟨f2 b, g2 b⟩, fun b => ⟨f3 b, g3 b⟩, fun b => ⟨f4 b, g4 b⟩⟩
  have hd : Flight.Default (⟨p1, p2, p3, p4, p5, p6, p7⟩ : Flight 2) := by
    intro p hp; simp at hp; rcases hp with rfl | rfl | rfl | rfl | rfl | rfl | rfl <;> assumption
  have hc : Flight.Converged mp d (⟨p1, p2, p3, p4, p5, p6, p7⟩ : Flight 2) := by
    intro p hp; simp at hp; rcases hp with rfl | rfl | rfl | rfl | rfl | rfl | rfl <;> assumption
  refine ⟨_, hf, hd, hc, ?_⟩
  rw [(C104_mission (methodMatrix_simpson.2 ⟨rfl, rfl⟩) (by norm_num) d _ hf hc hd 1).1]
  simp only [e1, e2, e4, d]
  norm_num

end Verif.HybridTwin
