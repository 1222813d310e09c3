import Verif.Model.Geometry
import Verif.Proof.HDeriv
import Mathlib.MeasureTheory.Integral.IntervalIntegral.FundThmCalculus
import Mathlib.Tactic.NormNum

/-! Properties C69, C70, C71 and C74: geometry, tail sizing and costs. -/

namespace Verif.Geometry

open Real

/-! ### C69: consistency -/

/-- C69.  Span and aspect ratio invert each other. -/
theorem C69_span_aspect (S x : ℝ) (hS : 0 < S) (hx : 0 < x) : aspect S (span S x) = x ∧ span S (aspect S x) = x := by
  have e1 : ∀ y : ℝ, 0 < y → (y ^ (0.5 : ℝ)) ^ 2 = y := by
    intro y hy; rw [← rpow_natCast, ← rpow_mul hy.le]; norm_num
  constructor
  · unfold aspect span
    rw [mul_pow, e1 S hS, e1 x hx]; field_simp
  · unfold aspect span
    rw [← mul_rpow hS.le (by positivity), show S * (x ^ 2 / S) = x ^ 2 by field_simp, ← rpow_natCast, ← rpow_mul hx.le]
    norm_num

/-- C69.  Declared partials of span, aspect ratio and cylinder area. -/
theorem C69_partials (S x L D : ℝ) (hS : 0 < S) (hx : 0 < x) :
    HasDerivAt (fun s => span s x) (spanD S x).1 S ∧ HasDerivAt (fun a => span S a) (spanD S x).2 x ∧
    HasDerivAt (fun b => aspect S b) (aspectD S x).1 x ∧ HasDerivAt (fun s => aspect s x) (aspectD S x).2 S ∧
    HasDerivAt (fun l => cylinder l D) (cylinderD L D).1 L ∧ HasDerivAt (fun d => cylinder L d) (cylinderD L D).2 D := by
  have hp : ∀ {y : ℝ}, 0 < y → HasDerivAt (fun z : ℝ => z ^ (0.5 : ℝ)) (0.5 * y ^ (0.5 - 1 : ℝ)) y :=
    fun hy => hasDerivAt_rpow_const (Or.inl hy.ne')
  refine ⟨(hp hS).mul_const _, ?_, ?_, ?_, ?_, ?_⟩
  · refine hd_congr ((hp hx).const_mul _) ?_
    unfold spanD; ring
  · refine hd_congr ((hasDerivAt_pow 2 x).div_const S) ?_
    unfold aspectD; push_cast; ring
  · refine hd_congr (hd_const_div (x ^ 2) (hasDerivAt_id' S) hS.ne') ?_
    unfold aspectD; ring
  · refine hd_congr ((hasDerivAt_id' L).const_mul (π * D)) ?_
    unfold cylinderD; ring
  · refine hd_congr (((hasDerivAt_id' D).const_mul π).mul_const L) ?_
    unfold cylinderD; ring

/-- chord of a panel at spanwise location `y` -/
noncomputable def chordAt (a b : Sec) (y : ℝ) : ℝ := (a.c * (b.y - y) + b.c * (y - a.y)) / (b.y - a.y)
/-- leading edge of a panel at spanwise location `y` -/
noncomputable def leAt (a b : Sec) (y : ℝ) : ℝ := (a.x * (b.y - y) + b.x * (y - a.y)) / (b.y - a.y)

theorem int_lin_mul (p q r s y1 y2 : ℝ) (h : y1 < y2) :
    ∫ y in y1..y2, (p * (y2 - y) + q * (y - y1)) / (y2 - y1) * ((r * (y2 - y) + s * (y - y1)) / (y2 - y1))
      = (y2 - y1) * (2 * p * r + p * s + q * r + 2 * q * s) / 6 := by
  have hne : y2 - y1 ≠ 0 := by linarith
  have key : ∀ y : ℝ, HasDerivAt
      (fun y => (-(p * r) * (y2 - y) ^ 3 / 3 + (p * s + q * r) * ((y2 - y1) * (y - y1) ^ 2 / 2 - (y - y1) ^ 3 / 3)
        + q * s * (y - y1) ^ 3 / 3) / (y2 - y1) ^ 2)
      ((p * (y2 - y) + q * (y - y1)) / (y2 - y1) * ((r * (y2 - y) + s * (y - y1)) / (y2 - y1))) y := by
    intro y
    have d1 : HasDerivAt (fun y : ℝ => y2 - y) (-1) y := by simpa using (hasDerivAt_id' y).const_sub y2
    have d2 : HasDerivAt (fun y : ℝ => y - y1) 1 y := (hasDerivAt_id' y).sub_const y1
    refine hd_congr ((((((d1.pow 3).const_mul (-(p * r))).div_const 3).add
      (((((d2.pow 2).const_mul (y2 - y1)).div_const 2).sub ((d2.pow 3).div_const 3)).const_mul (p * s + q * r))).add
      (((d2.pow 3).const_mul (q * s)).div_const 3)).div_const ((y2 - y1) ^ 2)) ?_
    field_simp
    ring
  rw [intervalIntegral.integral_eq_sub_of_hasDerivAt (fun y _ => key y)]
  · field_simp
    ring
  · refine Continuous.intervalIntegrable ?_ _ _
    simp only [div_eq_mul_inv]
    fun_prop

/-- C69.  The panel formulas are the integrals they are documented to be: area `∫ c`, MAC numerator `∫ c²` and quarter
chord numerator `∫ c (x_LE + c/4)` over the panel. -/
theorem C69_panel_integrals (a b : Sec) (h : a.y < b.y) :
    panelArea a b = ∫ y in a.y..b.y, chordAt a b y ∧
    (b.y - a.y) * (a.c ^ 2 + a.c * b.c + b.c ^ 2) / 3 = ∫ y in a.y..b.y, chordAt a b y ^ 2 ∧
    (b.y - a.y) * (a.c * b.c + 4 * a.c * a.x + 2 * a.c * b.x + 2 * b.c * a.x + 4 * b.c * b.x + a.c ^ 2 + b.c ^ 2) / 12
      = ∫ y in a.y..b.y, chordAt a b y * (leAt a b y + chordAt a b y / 4) := by
  have hne : b.y - a.y ≠ 0 := by linarith
  have one : ∀ y, (1 * (b.y - y) + 1 * (y - a.y)) / (b.y - a.y) = 1 := by intro y; field_simp; ring
  refine ⟨?_, ?_, ?_⟩
  · have := int_lin_mul a.c b.c 1 1 a.y b.y h
    simp only [one, mul_one] at this
    unfold chordAt
    rw [this]; unfold panelArea; ring
  · have := int_lin_mul a.c b.c a.c b.c a.y b.y h
    unfold chordAt
    simp only [pow_two]
    rw [this]; ring
  · have := int_lin_mul a.c b.c (a.x + a.c / 4) (b.x + b.c / 4) a.y b.y h
    have e : ∀ y, chordAt a b y * (leAt a b y + chordAt a b y / 4)
        = (a.c * (b.y - y) + b.c * (y - a.y)) / (b.y - a.y)
          * (((a.x + a.c / 4) * (b.y - y) + (b.x + b.c / 4) * (y - a.y)) / (b.y - a.y)) := by
      intro y; unfold chordAt leAt; field_simp; ring
    simp only [e]
    rw [this]; ring

/-- consecutive sections satisfy `P` -/
def Pairs (P : Sec → Sec → Prop) : List Sec → Prop
  | a :: b :: l => P a b ∧ Pairs P (b :: l)
  | _ => True

theorem pairSum_congr {f g : Sec → Sec → ℝ} {l : List Sec} (h : Pairs (fun a b => f a b = g a b) l) : pairSum f l = pairSum g l := by
  induction l with
  | nil => rfl
  | cons a l ih =>
    cases l with
    | nil => rfl
    | cons b l => simp only [pairSum]; rw [h.1, ih h.2]

theorem pairSum_div (k : ℝ) (f : Sec → Sec → ℝ) (l : List Sec) : pairSum (fun a b => f a b / k) l = pairSum f l / k := by
  induction l with
  | nil => simp [pairSum]
  | cons a l ih =>
    cases l with
    | nil => simp [pairSum]
    | cons b l => simp only [pairSum] at ih ⊢; rw [ih]; ring

theorem Pairs.mono {P Q : Sec → Sec → Prop} (h : ∀ a b, P a b → Q a b) {l : List Sec} (hp : Pairs P l) : Pairs Q l := by
  induction l with
  | nil => trivial
  | cons a l ih =>
    cases l with
    | nil => trivial
    | cons b l => exact ⟨h _ _ hp.1, ih hp.2⟩

/-- C69.  For any list of sections from tip to root, area, MAC and the quarter chord location of the MAC are the integrals of
chord, chord squared and chord times quarter chord position over the half wing, divided by the half wing area. -/
theorem C69_sections_integrals (l : List Sec) (h : Pairs (fun a b => a.y < b.y) l) :
    areaSections 0 1 l = 2 * pairSum (fun a b => ∫ y in a.y..b.y, chordAt a b y) l ∧
    macSections l = pairSum (fun a b => ∫ y in a.y..b.y, chordAt a b y ^ 2) l
      / pairSum (fun a b => ∫ y in a.y..b.y, chordAt a b y) l ∧
    xc4Sections l = pairSum (fun a b => ∫ y in a.y..b.y, chordAt a b y * (leAt a b y + chordAt a b y / 4)) l
      / pairSum (fun a b => ∫ y in a.y..b.y, chordAt a b y) l := by
  have e0 := pairSum_congr (h.mono fun a b hab => (C69_panel_integrals a b hab).1)
  have e1 := pairSum_congr (h.mono fun a b hab => (C69_panel_integrals a b hab).2.1)
  have e2 := pairSum_congr (h.mono fun a b hab => (C69_panel_integrals a b hab).2.2)
  rw [← e0, ← e1, ← e2]
  refine ⟨?_, ?_, ?_⟩
  · unfold areaSections panelArea
    congr 2
    funext a b; ring
  · unfold macSections
    rw [pairSum_div, pairSum_div, div_div]
  · unfold xc4Sections
    rw [pairSum_div, pairSum_div, div_div]

/-- the trapezoidal half wing with given area, aspect ratio and taper as sections from tip to root -/
noncomputable def trapWing (S AR taper xt xr : ℝ) : List Sec :=
  [⟨xt, cTip S AR taper, -(span S AR / 2)⟩, ⟨xr, cRoot S AR taper, 0⟩]

/-- C69.  The trapezoidal MAC formula agrees with the section based components: the two section wing with the root and tip
chords used by the formula and half the span has the requested area, and its section MAC is the trapezoidal MAC. -/
theorem C69_trapezoid (S AR taper xt xr : ℝ) (hS : 0 < S) (hA : 0 < AR) (ht : 0 ≤ taper) :
    areaSections 0 1 (trapWing S AR taper xt xr) = S ∧ macSections (trapWing S AR taper xt xr) = macTrap S AR taper ∧
    cTip S AR taper = taper * cRoot S AR taper := by
  have hsp : span S AR = √S * √AR := by unfold span; rw [sqrt_eq_rpow, sqrt_eq_rpow]; norm_num
  have hcr : cRoot S AR taper = √S / √AR * 2 / (1 + taper) := by unfold cRoot; rw [sqrt_div hS.le]
  have s1 := sqrt_pos.2 hS
  have s2 := sqrt_pos.2 hA
  have s3 := sq_sqrt hS.le
  have h1 : 0 < 1 + taper := by linarith
  have hcp : 0 < cRoot S AR taper := by rw [hcr]; positivity
  have hS2 : S = cRoot S AR taper * (1 + taper) / 2 * span S AR := by
    rw [hsp, hcr]; field_simp; rw [s3]
  have hspos : 0 < span S AR := by rw [hsp]; positivity
  refine ⟨?_, ?_, rfl⟩
  · simp only [areaSections, trapWing, pairSum]
    conv_rhs => rw [hS2]
    unfold cTip
    ring
  · simp only [macSections, trapWing, pairSum, panelArea, add_zero]
    unfold macTrap cTip
    have : cRoot S AR taper + taper * cRoot S AR taper ≠ 0 := by
      have : 0 < cRoot S AR taper + taper * cRoot S AR taper := by positivity
      exact this.ne'
    have : taper + 1 ≠ 0 := by linarith
    generalize cRoot S AR taper = c at *
    generalize span S AR = b at *
    norm_num
    field_simp
    ring

/-- C69.  The trapezoidal MAC lies between the mean chord and the larger of tip and root chord. -/
theorem C69_mac_bounds (S AR taper : ℝ) (hS : 0 < S) (hA : 0 < AR) (ht : 0 ≤ taper) (ht1 : taper ≤ 1) :
    (cRoot S AR taper + cTip S AR taper) / 2 ≤ macTrap S AR taper ∧ macTrap S AR taper ≤ cRoot S AR taper := by
  have h1 : 0 < 1 + taper := by linarith
  have hcp : 0 < cRoot S AR taper := by unfold cRoot; positivity
  have e : macTrap S AR taper = cRoot S AR taper * (2 / 3 * (1 + taper + taper ^ 2) / (1 + taper)) := by
    unfold macTrap cTip
    have : cRoot S AR taper + taper * cRoot S AR taper ≠ 0 := by positivity
    generalize cRoot S AR taper = c at *
    field_simp
    ring
  rw [e]
  constructor
  · have : (cRoot S AR taper + cTip S AR taper) / 2 = cRoot S AR taper * ((1 + taper) / 2) := by unfold cTip; ring
    rw [this]
    refine mul_le_mul_of_nonneg_left ?_ hcp.le
    rw [le_div_iff₀ h1]
    nlinarith [sq_nonneg (taper - 1)]
  · have : 2 / 3 * (1 + taper + taper ^ 2) / (1 + taper) ≤ 1 := by
      rw [div_le_one h1]; nlinarith
    nlinarith

/-- C69.  Declared partials of the trapezoidal MAC. -/
theorem C69_mac_partials (S AR taper : ℝ) (hS : 0 < S) (hA : 0 < AR) (ht : 0 ≤ taper) :
    HasDerivAt (fun x => macTrap x AR taper) (macTrapDS S AR taper) S ∧
    HasDerivAt (fun x => macTrap S x taper) (macTrapDAR S AR taper) AR ∧
    HasDerivAt (fun x => macTrap S AR x) (macTrapDtaper S AR taper) taper := by
  have h1 : 0 < 1 + taper := by linarith
  have hcp : 0 < cRoot S AR taper := by unfold cRoot; positivity
  have s1 := sqrt_pos.2 hS
  have s2 := sqrt_pos.2 hA
  -- derivative of the MAC along curves of root and tip chord
  have key : ∀ {cr ct : ℝ → ℝ} {r t x : ℝ}, HasDerivAt cr r x → HasDerivAt ct t x → cr x = cRoot S AR taper →
      ct x = cTip S AR taper → HasDerivAt (fun y => 2 / 3 * (cr y + ct y - cr y * ct y / (cr y + ct y)))
        (dMACdcr S AR taper * r + dMACdct S AR taper * t) x := by
    intro cr ct r t x h2 h3 e2 e3
    have hne : cr x + ct x ≠ 0 := by
      rw [e2, e3]; unfold cTip; positivity
    refine hd_congr (((h2.add h3).sub (hd_div (h2.fun_mul h3) (h2.add h3) hne)).const_mul (2 / 3)) ?_
    simp only [Pi.add_apply]
    rw [e2, e3] at hne ⊢
    unfold dMACdcr dMACdct
    generalize cRoot S AR taper = c at *
    generalize cTip S AR taper = d at *
    field_simp
    ring
  have dS : HasDerivAt (fun x => cRoot x AR taper) (0.5 / √(S * AR) * 2 / (1 + taper)) S := by
    refine hd_congr (((HasDerivAt.sqrt ((hasDerivAt_id' S).div_const AR) (by positivity)).mul_const 2).div_const _) ?_
    rw [sqrt_div hS.le, sqrt_mul hS.le]
    have s3 := sq_sqrt hA.le
    have : AR = √AR ^ 2 := s3.symm
    generalize √AR = q at *
    rw [this]
    field_simp
    norm_num
  have dA : HasDerivAt (fun x => cRoot S x taper) (-0.5 * S ^ (0.5 : ℝ) / AR ^ (1.5 : ℝ) * 2 / (1 + taper)) AR := by
    refine hd_congr (((HasDerivAt.sqrt (hd_const_div S (hasDerivAt_id' AR) hA.ne') (by positivity)).mul_const 2).div_const _) ?_
    rw [sqrt_div hS.le]
    have e1 : S ^ (0.5 : ℝ) = √S := by rw [sqrt_eq_rpow]; norm_num
    have e2 : AR ^ (1.5 : ℝ) = √AR ^ 3 := by rw [sqrt_eq_rpow, ← rpow_natCast, ← rpow_mul hA.le]; norm_num
    rw [e1, e2]
    have s3 : AR = √AR ^ 2 := (sq_sqrt hA.le).symm
    have s4 : S = √S ^ 2 := (sq_sqrt hS.le).symm
    generalize √AR = q at *
    generalize √S = p at *
    rw [s3, s4]
    field_simp
    norm_num
  have dT : HasDerivAt (fun x => cRoot S AR x) (-√(S / AR) * 2 / (1 + taper) ^ 2) taper := by
    refine hd_congr (hd_const_div (√(S / AR) * 2) ((hasDerivAt_id' taper).const_add 1) h1.ne') ?_
    ring
  refine ⟨?_, ?_, ?_⟩
  · refine hd_congr (key dS (dS.const_mul taper) rfl rfl) ?_
    unfold macTrapDS; ring
  · refine hd_congr (key dA (dA.const_mul taper) rfl rfl) ?_
    unfold macTrapDAR; ring
  · refine hd_congr (key dT ((hasDerivAt_id' taper).fun_mul dT) rfl rfl) ?_
    unfold macTrapDtaper; ring

example : areaSections 0 1 (trapWing 100 9 0.3 5 0) = 100 :=
  (C69_trapezoid 100 9 0.3 5 0 (by norm_num) (by norm_num) (by norm_num)).1

/-! ### C70: refinement invariance and bounds -/

/-- the section obtained by linear interpolation between two sections -/
noncomputable def interpSec (a b : Sec) (t : ℝ) : Sec :=
  ⟨a.x + t * (b.x - a.x), a.c + t * (b.c - a.c), a.y + t * (b.y - a.y)⟩

theorem pairSum_insert (f : Sec → Sec → ℝ) (a m b : Sec) (h : f a m + f m b = f a b) (l1 l2 : List Sec) :
    pairSum f (l1 ++ a :: m :: b :: l2) = pairSum f (l1 ++ a :: b :: l2) := by
  induction l1 with
  | nil => simp only [List.nil_append, pairSum]; rw [← h]; ring
  | cons c l ih =>
    cases l with
    | nil =>
      simp only [List.nil_append, List.cons_append, pairSum] at ih ⊢
      rw [ih]
    | cons d l =>
      simp only [List.cons_append, pairSum] at ih ⊢
      rw [ih]

/-- C70.  Inserting an interpolated section changes neither area nor MAC nor its location. -/
theorem C70_refine (l1 l2 : List Sec) (a b : Sec) (t fs fe : ℝ) :
    let l := l1 ++ a :: b :: l2
    let l' := l1 ++ a :: interpSec a b t :: b :: l2
    areaSections fs fe l' = areaSections fs fe l ∧ macSections l' = macSections l ∧ xc4Sections l' = xc4Sections l := by
  have hA : pairSum panelArea (l1 ++ a :: interpSec a b t :: b :: l2) = pairSum panelArea (l1 ++ a :: b :: l2) :=
    pairSum_insert _ _ _ _ (by simp only [panelArea, interpSec]; ring) _ _
  refine ⟨?_, ?_, ?_⟩
  · unfold areaSections
    rw [pairSum_insert]
    simp only [interpSec]; ring
  · unfold macSections
    rw [hA, pairSum_insert]
    rw [← add_div]; congr 1
    simp only [interpSec]; ring
  · unfold xc4Sections
    rw [hA, pairSum_insert]
    rw [← add_div]; congr 1
    simp only [interpSec]; ring

/-- C70.  The panel sweeps are refinement invariant too, hence so is the average. -/
theorem C70_refine_sweep (l1 l2 : List Sec) (a b : Sec) (t : ℝ) (hy : a.y < b.y) (h0 : 0 < t) (h1 : t < 1) :
    sweepSections (l1 ++ a :: interpSec a b t :: b :: l2) = sweepSections (l1 ++ a :: b :: l2) := by
  have hne : b.y - a.y ≠ 0 := by linarith
  have e1 : panelSweep a (interpSec a b t) = panelSweep a b := by
    unfold panelSweep; congr 2
    simp only [interpSec]
    rw [show a.y + t * (b.y - a.y) - a.y = t * (b.y - a.y) by ring, div_eq_div_iff (by positivity) hne]
    ring
  have e2 : panelSweep (interpSec a b t) b = panelSweep a b := by
    unfold panelSweep; congr 2
    simp only [interpSec]
    have : b.y - (a.y + t * (b.y - a.y)) = (1 - t) * (b.y - a.y) := by ring
    rw [this, div_eq_div_iff (mul_ne_zero (by linarith) hne) hne]
    ring
  have hA : pairSum panelArea (l1 ++ a :: interpSec a b t :: b :: l2) = pairSum panelArea (l1 ++ a :: b :: l2) :=
    pairSum_insert _ _ _ _ (by simp only [panelArea, interpSec]; ring) _ _
  unfold sweepSections
  rw [hA, pairSum_insert]
  rw [e1, e2, ← mul_add]
  congr 1
  simp only [panelArea, interpSec]; ring

theorem pairSum_le {f g : Sec → Sec → ℝ} {l : List Sec} (h : Pairs (fun a b => f a b ≤ g a b) l) : pairSum f l ≤ pairSum g l := by
  induction l with
  | nil => exact le_rfl
  | cons a l ih =>
    cases l with
    | nil => exact le_rfl
    | cons b l => exact add_le_add h.1 (ih h.2)

theorem pairSum_mul (k : ℝ) (f : Sec → Sec → ℝ) (l : List Sec) : pairSum (fun a b => k * f a b) l = k * pairSum f l := by
  induction l with
  | nil => simp [pairSum]
  | cons a l ih =>
    cases l with
    | nil => simp [pairSum]
    | cons b l => simp only [pairSum] at ih ⊢; rw [ih]; ring

/-- C70.  The averaged sweep lies between bounds on the magnitude of the panel sweeps; in particular a uniform sweep is
returned unchanged (in magnitude, as documented). -/
theorem C70_sweep_bounds (l : List Sec) (lo hi : ℝ) (h0 : 0 ≤ lo) (h1 : hi ≤ 90)
    (hp : Pairs (fun a b => 0 ≤ panelArea a b ∧ lo ≤ |panelSweep a b| ∧ |panelSweep a b| ≤ hi) l)
    (hA : 0 < pairSum panelArea l) (hlh : lo ≤ hi) : lo ≤ sweepSections l ∧ sweepSections l ≤ hi := by
  have hpi := pi_pos
  have hr : 0 < π / 180 := by positivity
  have hlo : lo * (π / 180) ∈ Set.Icc 0 π := ⟨by positivity, by nlinarith⟩
  have hhi : hi * (π / 180) ∈ Set.Icc 0 π := ⟨by nlinarith, by nlinarith⟩
  have hcos : ∀ a b, lo ≤ |panelSweep a b| ∧ |panelSweep a b| ≤ hi →
      cos (hi * (π / 180)) ≤ cos (panelSweep a b * (π / 180)) ∧ cos (panelSweep a b * (π / 180)) ≤ cos (lo * (π / 180)) := by
    intro a b ⟨h2, h3⟩
    have e : cos (panelSweep a b * (π / 180)) = cos (|panelSweep a b| * (π / 180)) := by
      rw [← cos_abs, abs_mul, abs_of_pos hr]
    rw [e]
    have hm : |panelSweep a b| * (π / 180) ∈ Set.Icc 0 π := ⟨by positivity, by nlinarith⟩
    exact ⟨strictAntiOn_cos.antitoneOn hm hhi (by nlinarith), strictAntiOn_cos.antitoneOn hlo hm (by nlinarith)⟩
  have b1 : cos (hi * (π / 180)) ≤ pairSum (fun a b => cos (panelSweep a b * (π / 180)) * panelArea a b) l / pairSum panelArea l := by
    rw [le_div_iff₀ hA, ← pairSum_mul]
    exact pairSum_le (hp.mono fun a b h => mul_le_mul_of_nonneg_right (hcos a b h.2).1 h.1)
  have b2 : pairSum (fun a b => cos (panelSweep a b * (π / 180)) * panelArea a b) l / pairSum panelArea l ≤ cos (lo * (π / 180)) := by
    rw [div_le_iff₀ hA, ← pairSum_mul]
    exact pairSum_le (hp.mono fun a b h => mul_le_mul_of_nonneg_right (hcos a b h.2).2 h.1)
  unfold sweepSections
  constructor
  · rw [le_div_iff₀ hr, ← arccos_cos hlo.1 hlo.2]
    exact arccos_le_arccos b2
  · rw [div_le_iff₀ hr, ← arccos_cos hhi.1 hhi.2]
    exact arccos_le_arccos b1

/-- C70.  Sweep of a panel: the arc tangent of the quarter chord offset over the width, always below 90 degrees. -/
theorem C70_panel_sweep (a b : Sec) : |panelSweep a b| < 90 := by
  have hr : 0 < π / 180 := by have := pi_pos; positivity
  unfold panelSweep
  rw [abs_div, abs_of_pos hr, div_lt_iff₀ hr, abs_lt]
  have h1 := neg_pi_div_two_lt_arctan (((a.x + a.c * 0.25) - (b.x + b.c * 0.25)) / (b.y - a.y))
  have h2 := arctan_lt_pi_div_two (((a.x + a.c * 0.25) - (b.x + b.c * 0.25)) / (b.y - a.y))
  constructor <;> linarith

/-- C70.  Forward and backward sweep are not distinguished: mirroring every offset leaves the result unchanged. -/
theorem C70_sweep_sign (a b : Sec) (hA : 0 < panelArea a b) : sweepSections [a, b] = |panelSweep a b| := by
  have h := C70_sweep_bounds [a, b] |panelSweep a b| |panelSweep a b| (abs_nonneg _) (C70_panel_sweep a b).le
    ⟨⟨hA.le, le_rfl, le_rfl⟩, trivial⟩ (by simp only [pairSum]; linarith) le_rfl
  exact le_antisymm h.2 h.1

/-- C70.  The area of a wing cut at a section is the sum of the areas of the parts selected by the index options. -/
theorem C70_area_split (l1 l2 : List Sec) (s : Sec) (fs fe : ℝ) :
    areaSections fs fe (secSlice 0 (some l1.length) (l1 ++ s :: l2))
      + areaSections fs fe (secSlice l1.length none (l1 ++ s :: l2)) = areaSections fs fe (l1 ++ s :: l2) := by
  have e1 : secSlice 0 (some l1.length) (l1 ++ s :: l2) = l1 ++ [s] := by
    simp [secSlice, List.take_append]
  have e2 : secSlice l1.length none (l1 ++ s :: l2) = s :: l2 := by
    simp only [secSlice, Option.elim_none, List.take_length, List.drop_left]
  rw [e1, e2]
  unfold areaSections
  rw [← mul_add]
  congr 1
  generalize (fun a b : Sec => 0.5 * (a.c + b.c) * (fe - fs) * (b.y - a.y)) = f
  induction l1 with
  | nil => simp [pairSum]
  | cons a l ih =>
    cases l with
    | nil => simp [pairSum]
    | cons b l =>
      simp only [List.cons_append, pairSum] at ih ⊢
      have := ih (by simp [secSlice, List.take_append])
        (by rw [← List.cons_append]; simp only [secSlice, Option.elim_none, List.take_length, List.drop_left])
      linarith

example : areaSections 0 1 [⟨5, 1, -10⟩, interpSec ⟨5, 1, -10⟩ ⟨0, 4, 0⟩ 0.3, ⟨0, 4, 0⟩] = 50 := by
  refine (C70_refine [] [] ⟨5, 1, -10⟩ ⟨0, 4, 0⟩ 0.3 0 1).1.trans ?_
  norm_num [areaSections, pairSum]

/-! ### C71: tail sizing -/

/-- C71.  Volume coefficients and partials. -/
theorem C71_tail (C S x arm : ℝ) (hS : 0 < S) (hx : 0 < x) (ha : arm ≠ 0) :
    hstab C S x arm * arm / (x * S) = C ∧ vstab C S x arm * arm / (span S x * S) = C := by
  constructor
  · unfold hstab; field_simp
  · unfold vstab span
    have e1 : √x = x ^ (0.5 : ℝ) := by rw [sqrt_eq_rpow]; norm_num
    have e2 : S ^ (1.5 : ℝ) = S ^ (0.5 : ℝ) * S := by
      rw [← rpow_add_one hS.ne']; norm_num
    rw [e1, e2]
    have : 0 < x ^ (0.5 : ℝ) := by positivity
    have : 0 < S ^ (0.5 : ℝ) := by positivity
    field_simp

/-- C71.  Declared partials. -/
theorem C71_partials (C S x arm : ℝ) (hS : 0 < S) (hx : 0 < x) (ha : arm ≠ 0) :
    HasDerivAt (fun y => hstab C y x arm) (hstabD C S x arm).1 S ∧
    HasDerivAt (fun y => hstab C S y arm) (hstabD C S x arm).2.1 x ∧
    HasDerivAt (fun y => hstab C S x y) (hstabD C S x arm).2.2 arm ∧
    HasDerivAt (fun y => vstab C y x arm) (vstabD C S x arm).1 S ∧
    HasDerivAt (fun y => vstab C S y arm) (vstabD C S x arm).2.1 x ∧
    HasDerivAt (fun y => vstab C S x y) (vstabD C S x arm).2.2 arm := by
  refine ⟨?_, ?_, ?_, ?_, ?_, ?_⟩
  · refine hd_congr (((hasDerivAt_id' S).const_mul (C * x)).div_const arm) ?_
    unfold hstabD; ring
  · refine hd_congr ((((hasDerivAt_id' x).const_mul C).mul_const S).div_const arm) ?_
    unfold hstabD; ring
  · refine hd_congr (hd_const_div (C * x * S) (hasDerivAt_id' arm) ha) ?_
    unfold hstabD; ring
  · have h := hasDerivAt_rpow_const (x := S) (p := (1.5 : ℝ)) (Or.inl hS.ne')
    refine hd_congr ((h.const_mul (C * √x)).div_const arm) ?_
    unfold vstabD
    rw [sqrt_mul hx.le, show (1.5 - 1 : ℝ) = 1 / 2 by norm_num, ← sqrt_eq_rpow]
    ring
  · have h : HasDerivAt (fun y => √y) (1 / (2 * √x)) x := hasDerivAt_sqrt hx.ne'
    refine hd_congr (((h.const_mul C).mul_const (S ^ (1.5 : ℝ))).div_const arm) ?_
    unfold vstabD
    rw [show (-0.5 : ℝ) = -(1 / 2) by norm_num, rpow_neg hx.le, ← sqrt_eq_rpow]
    have := sqrt_pos.2 hx
    field_simp
    norm_num
    ring
  · refine hd_congr (hd_const_div (C * √x * S ^ (1.5 : ℝ)) (hasDerivAt_id' arm) ha) ?_
    unfold vstabD; ring

example : hstab 1.0 120 4 18 * 18 / (4 * 120) = 1.0 := (C71_tail 1.0 120 4 18 (by norm_num) (by norm_num) (by norm_num)).1

/-! ### C74: costs -/

variable {n m : ℕ}

/-- C74.  The trip cost is the sum of its parts: fuel, electricity, battery wear, and the amortised purchase price; over the
amortisation period (cycles per day × 365 × years) the purchase share adds up to the total nonrecurring cost. -/
theorem C74_sum (o : CostOpts) (i : CostIn n m) (hc : o.cycles ≠ 0) (hl : o.life ≠ 0) :
    tripCost true o i = fuelCost o i + electricity o i + tripBattery o i + nrTrip o i ∧
    tripCost false o i = fuelCost o i + nrTrip o i ∧
    nrTrip o i * (o.cycles * 365 * o.life) = totalNR o i ∧
    totalNR o i = o.premium * (o.afCost * (i.oew - ∑ k, i.w k) + ∑ k, i.nr k) := by
  refine ⟨?_, ?_, ?_, ?_⟩
  · simp only [tripCost, tripEnergy, if_true]; ring
  · simp [tripCost, tripEnergy]
  · unfold nrTrip; field_simp
  · unfold totalNR airframeNR; ring

/-- C74.  Declaring batteries that cost and use nothing equals declaring none; zero batteries equal `None`. -/
theorem C74_no_batteries (o : CostOpts) (i : CostIn n m) (h1 : ∀ k, i.battNR k = 0) (h2 : ∀ k, i.battE k = 0) :
    tripCost true o i = tripCost false o i ∧ tripEnergy true o i = tripEnergy false o i := by
  simp [tripCost, tripEnergy, electricity, tripBattery, h1, h2]

theorem sum_update_hd {n : ℕ} (v : Fin n → ℝ) (k : Fin n) : HasDerivAt (fun x => ∑ j, Function.update v k x j) 1 (v k) := by
  have e : (fun x => ∑ j, Function.update v k x j) = fun x => x + ∑ j ∈ Finset.univ \ {k}, v j := by
    funext x; rw [Finset.sum_update_of_mem (Finset.mem_univ k)]
  rw [e]
  exact (hasDerivAt_id' (v k)).add_const _

/-- C74.  The declared constant partials are the derivatives, for any number of components and batteries. -/
theorem C74_partials (hb : Bool) (o : CostOpts) (i : CostIn n m) :
    (∀ k, HasDerivAt (fun x => airframeNR o {i with w := Function.update i.w k x}) (dNRdW o) (i.w k) ∧
      HasDerivAt (fun x => totalNR o {i with w := Function.update i.w k x}) (dNRdW o) (i.w k) ∧
      HasDerivAt (fun x => tripCost hb o {i with w := Function.update i.w k x}) (dTripdW o) (i.w k) ∧
      HasDerivAt (fun x => totalNR o {i with nr := Function.update i.nr k x}) (dNRdNR o) (i.nr k) ∧
      HasDerivAt (fun x => tripCost hb o {i with nr := Function.update i.nr k x}) (dTripdNR o) (i.nr k)) ∧
    (∀ k, HasDerivAt (fun x => electricity o {i with battE := Function.update i.battE k x}) o.elecCost (i.battE k) ∧
      HasDerivAt (fun x => tripEnergy true o {i with battE := Function.update i.battE k x}) o.elecCost (i.battE k) ∧
      HasDerivAt (fun x => tripCost true o {i with battE := Function.update i.battE k x}) o.elecCost (i.battE k) ∧
      HasDerivAt (fun x => tripBattery o {i with battNR := Function.update i.battNR k x}) (dBattdNR o) (i.battNR k) ∧
      HasDerivAt (fun x => tripCost true o {i with battNR := Function.update i.battNR k x}) (dBattdNR o) (i.battNR k)) ∧
    HasDerivAt (fun x => airframeNR o {i with oew := x}) (dNRdOEW o) i.oew ∧
    HasDerivAt (fun x => totalNR o {i with oew := x}) (dNRdOEW o) i.oew ∧
    HasDerivAt (fun x => tripCost hb o {i with oew := x}) (dTripdOEW o) i.oew ∧
    HasDerivAt (fun x => fuelCost o {i with fuel := x}) o.fuelCost i.fuel ∧
    HasDerivAt (fun x => tripEnergy hb o {i with fuel := x}) o.fuelCost i.fuel ∧
    HasDerivAt (fun x => tripCost hb o {i with fuel := x}) o.fuelCost i.fuel := by
  have eT : ∀ j : CostIn n m, tripCost hb o j = totalNR o j / o.cycles / 365 / o.life
      + (fuelCost o j + if hb then electricity o j + tripBattery o j else 0) := by
    intro j; cases hb <;> simp [tripCost, tripEnergy, nrTrip] <;> ring
  have eT' : ∀ j : CostIn n m, tripCost true o j = electricity o j + (tripBattery o j + (fuelCost o j + nrTrip o j)) := by
    intro j; simp [tripCost, tripEnergy]; ring
  have eT'' : ∀ j : CostIn n m, tripCost true o j = tripBattery o j + (electricity o j + (fuelCost o j + nrTrip o j)) := by
    intro j; simp [tripCost, tripEnergy]; ring
  refine ⟨fun k => ?_, fun k => ?_, ?_⟩
  · have a1 : HasDerivAt (fun x => airframeNR o {i with w := Function.update i.w k x}) (dNRdW o) (i.w k) := by
      refine hd_congr ((((sum_update_hd i.w k).const_sub i.oew).mul_const o.afCost).mul_const o.premium) ?_
      unfold dNRdW; ring
    have a2 : HasDerivAt (fun x => totalNR o {i with w := Function.update i.w k x}) (dNRdW o) (i.w k) :=
      a1.add_const ((∑ k, i.nr k) * o.premium)
    have a3 : HasDerivAt (fun x => totalNR o {i with nr := Function.update i.nr k x}) (dNRdNR o) (i.nr k) := by
      refine hd_congr (((sum_update_hd i.nr k).mul_const o.premium).const_add (airframeNR o i)) ?_
      unfold dNRdNR; ring
    refine ⟨a1, a2, ?_, a3, ?_⟩
    · simp only [eT]
      exact (((a2.div_const o.cycles).div_const 365).div_const o.life).add_const
        (fuelCost o i + if hb then electricity o i + tripBattery o i else 0)
    · simp only [eT]
      exact (((a3.div_const o.cycles).div_const 365).div_const o.life).add_const
        (fuelCost o i + if hb then electricity o i + tripBattery o i else 0)
  · have b1 : HasDerivAt (fun x => electricity o {i with battE := Function.update i.battE k x}) o.elecCost (i.battE k) := by
      refine hd_congr ((sum_update_hd i.battE k).mul_const o.elecCost) (by ring)
    have b2 : HasDerivAt (fun x => tripBattery o {i with battNR := Function.update i.battNR k x}) (dBattdNR o) (i.battNR k) :=
      (sum_update_hd i.battNR k).div_const o.battCycles
    refine ⟨b1, ?_, ?_, b2, ?_⟩
    · simp only [tripEnergy, if_true]; exact b1.add_const (fuelCost o i)
    · simp only [eT']; exact b1.add_const (tripBattery o i + (fuelCost o i + nrTrip o i))
    · simp only [eT'']; exact b2.add_const (electricity o i + (fuelCost o i + nrTrip o i))
  · have c1 : HasDerivAt (fun x => airframeNR o {i with oew := x}) (dNRdOEW o) i.oew := by
      refine hd_congr ((((hasDerivAt_id' i.oew).sub_const (∑ k, i.w k)).mul_const o.afCost).mul_const o.premium) ?_
      unfold dNRdOEW; ring
    have c2 : HasDerivAt (fun x => totalNR o {i with oew := x}) (dNRdOEW o) i.oew :=
      c1.add_const ((∑ k, i.nr k) * o.premium)
    have c3 : HasDerivAt (fun x => fuelCost o {i with fuel := x}) o.fuelCost i.fuel := by
      refine hd_congr ((hasDerivAt_id' i.fuel).mul_const o.fuelCost) (by ring)
    refine ⟨c1, c2, ?_, c3, ?_, ?_⟩
    · simp only [eT]
      exact (((c2.div_const o.cycles).div_const 365).div_const o.life).add_const
        (fuelCost o i + if hb then electricity o i + tripBattery o i else 0)
    · cases hb
      · simpa [tripEnergy] using c3
      · simp only [tripEnergy, if_true]; exact c3.const_add (electricity o i)
    · simp only [eT]
      exact (c3.add_const (if hb then electricity o i + tripBattery o i else 0)).const_add
        (totalNR o i / o.cycles / 365 / o.life)

example : tripCost true ⟨266, 0.8, 0.01, 15, 5, 1500, 1.1⟩ (⟨3000, 200, ![300], ![100000], ![], ![]⟩ : CostIn 1 0)
    = tripCost false ⟨266, 0.8, 0.01, 15, 5, 1500, 1.1⟩ (⟨3000, 200, ![300], ![100000], ![], ![]⟩ : CostIn 1 0) :=
  (C74_no_batteries _ _ (fun k => k.elim0) (fun k => k.elim0)).1

end Verif.Geometry
