import Verif.Model.Psf
import Mathlib.MeasureTheory.Integral.IntervalIntegral.FundThmCalculus
import Mathlib.MeasureTheory.Integral.IntervalIntegral.IntegrationByParts
import Mathlib.Analysis.SpecialFunctions.Trigonometric.ArctanDeriv
import Mathlib.Analysis.SpecialFunctions.Trigonometric.Deriv
import Mathlib.Tactic.FieldSimp
import Mathlib.Tactic.Linarith
import Mathlib.Tactic.Ring
import Mathlib.Tactic.NormNum
import Mathlib.Tactic.Positivity

/-!
# The solid angle of a pixel

The specification is the solid angle of a cone with an elliptical cross-section: at azimuth `p` the cone reaches
the polar angle whose tangent is the distance `r` of the ellipse with half axes `a`, `b` from its centre, and the
solid angle is the integral of `1 - cos` of that angle over the azimuth.
-/

namespace ExoRad.Psf

open Real intervalIntegral

/-- Distance of the ellipse `(x/a)^2 + (y/b)^2 = 1` from its centre in the direction `p`. -/
noncomputable def ellipseRadius (a b p : ℝ) : ℝ := a * b / √((b * cos p) ^ 2 + (a * sin p) ^ 2)

/-- The solid angle of the cone of height 1 over that ellipse. -/
noncomputable def coneSolidAngle (a b : ℝ) : ℝ := ∫ p in (0 : ℝ)..(2 * π), (1 - cos (arctan (ellipseRadius a b p)))

/-! ## The azimuth of a point of the ellipse given by its parameter -/

theorem weight_pos (q t : ℝ) (hq : 0 < q) : 0 < cos t ^ 2 + q * sin t ^ 2 := by
  rcases eq_or_ne (cos t) 0 with h | h
  · have := sin_sq_add_cos_sq t
    rw [h] at this ⊢
    nlinarith
  · have := sq_pos_of_ne_zero h
    have := mul_nonneg hq.le (sq_nonneg (sin t))
    linarith

/-- The azimuth of the point `(cos t, q sin t)`. -/
noncomputable def azimuth (q t : ℝ) : ℝ := t - arctan ((1 - q) * sin t * cos t / (cos t ^ 2 + q * sin t ^ 2))

theorem azimuth_zero (q : ℝ) : azimuth q 0 = 0 := by simp [azimuth]

theorem azimuth_quarter (q : ℝ) : azimuth q (π / 2) = π / 2 := by simp [azimuth]

theorem azimuth_aux (q t : ℝ) : (cos t ^ 2 + q * sin t ^ 2) ^ 2 + ((1 - q) * sin t * cos t) ^ 2 =
    cos t ^ 2 + q ^ 2 * sin t ^ 2 := by
  have h : sin t ^ 2 = 1 - cos t ^ 2 := sin_sq t
  have h4 : sin t ^ 4 = (1 - cos t ^ 2) ^ 2 := by rw [← h]; ring
  calc _ = cos t ^ 4 + q ^ 2 * sin t ^ 4 + (1 + q ^ 2) * sin t ^ 2 * cos t ^ 2 := by ring
    _ = _ := by rw [h4, h]; ring

theorem azimuth_deriv (q t : ℝ) (hq : 0 < q) :
    HasDerivAt (azimuth q) (q / (cos t ^ 2 + q ^ 2 * sin t ^ 2)) t := by
  have hD := weight_pos q t hq
  have hD2 := weight_pos (q ^ 2) t (by positivity)
  have hs := hasDerivAt_sin t
  have hc := hasDerivAt_cos t
  have hnum : HasDerivAt (fun t => (1 - q) * sin t * cos t) ((1 - q) * cos t * cos t + (1 - q) * sin t * (-sin t)) t :=
    (hs.const_mul (1 - q)).mul hc
  have hden : HasDerivAt (fun t => cos t ^ 2 + q * sin t ^ 2)
      (2 * cos t * (-sin t) + q * (2 * sin t * cos t)) t := by
    have h1 := hc.pow 2
    have h2 := (hs.pow 2).const_mul q
    refine HasDerivAt.congr_deriv (h1.add h2) ?_
    simp
  have hu := hnum.div hden hD.ne'
  have := (hasDerivAt_id t).sub hu.arctan
  refine this.congr_deriv ?_
  have haux := azimuth_aux q t
  have e : 1 + ((1 - q) * sin t * cos t / (cos t ^ 2 + q * sin t ^ 2)) ^ 2 =
      (cos t ^ 2 + q ^ 2 * sin t ^ 2) / (cos t ^ 2 + q * sin t ^ 2) ^ 2 := by
    rw [← haux]; field_simp
  change 1 - 1 / (1 + ((1 - q) * sin t * cos t / (cos t ^ 2 + q * sin t ^ 2)) ^ 2) * _ = _
  rw [e]
  have h : sin t ^ 2 = 1 - cos t ^ 2 := sin_sq t
  field_simp
  have h4 : sin t ^ 4 = (1 - cos t ^ 2) ^ 2 := by rw [← h]; ring
  ring_nf
  simp only [h, h4]
  ring

theorem azimuth_cos_sq (q t : ℝ) (hq : 0 < q) : cos (azimuth q t) ^ 2 = cos t ^ 2 / (cos t ^ 2 + q ^ 2 * sin t ^ 2) := by
  have hD := weight_pos q t hq
  have hD2 := weight_pos (q ^ 2) t (by positivity)
  unfold azimuth
  rw [cos_sub, cos_arctan, sin_arctan]
  set u := (1 - q) * sin t * cos t / (cos t ^ 2 + q * sin t ^ 2) with hu
  have e : 1 + u ^ 2 = (cos t ^ 2 + q ^ 2 * sin t ^ 2) / (cos t ^ 2 + q * sin t ^ 2) ^ 2 := by
    rw [← azimuth_aux q t, hu]; field_simp
  have e2 : cos t + sin t * u = cos t / (cos t ^ 2 + q * sin t ^ 2) := by
    rw [hu, eq_div_iff hD.ne', add_mul, ← mul_div_assoc, div_mul_cancel₀ _ hD.ne']
    have h : sin t ^ 2 = 1 - cos t ^ 2 := sin_sq t
    calc _ = cos t * (cos t ^ 2 + sin t ^ 2) := by ring
      _ = cos t := by rw [h]; ring
  have : (cos t * (1 / √(1 + u ^ 2)) + sin t * (u / √(1 + u ^ 2))) = (cos t + sin t * u) / √(1 + u ^ 2) := by ring
  rw [this, div_pow, sq_sqrt (by positivity), e, e2]
  field_simp

/-! ## The formula is the solid angle -/

theorem ellipse_den_pos (a b p : ℝ) (ha : 0 < a) (hb : 0 < b) : 0 < (b * cos p) ^ 2 + (a * sin p) ^ 2 := by
  have hw := weight_pos ((a / b) ^ 2) p (by positivity)
  have : (b * cos p) ^ 2 + (a * sin p) ^ 2 = b ^ 2 * (cos p ^ 2 + (a / b) ^ 2 * sin p ^ 2) := by field_simp
  rw [this]; positivity

theorem ellipseRadius_sq (a b p : ℝ) (ha : 0 < a) (hb : 0 < b) :
    ellipseRadius a b p ^ 2 = (a * b) ^ 2 / ((b * cos p) ^ 2 + (a * sin p) ^ 2) := by
  unfold ellipseRadius
  rw [div_pow, sq_sqrt (ellipse_den_pos a b p ha hb).le]

theorem ellipseRadius_pos (a b p : ℝ) (ha : 0 < a) (hb : 0 < b) : 0 < ellipseRadius a b p :=
  div_pos (mul_pos ha hb) (sqrt_pos.mpr (ellipse_den_pos a b p ha hb))

theorem ellipseRadius_continuous (a b : ℝ) (ha : 0 < a) (hb : 0 < b) : Continuous (ellipseRadius a b) := by
  unfold ellipseRadius
  refine continuous_const.div (by fun_prop) ?_
  intro p
  exact (sqrt_pos.mpr (ellipse_den_pos a b p ha hb)).ne'

theorem cone_continuous (a b : ℝ) (ha : 0 < a) (hb : 0 < b) : Continuous (fun p => cos (arctan (ellipseRadius a b p))) :=
  continuous_cos.comp (continuous_arctan.comp (ellipseRadius_continuous a b ha hb))

/-- The point of the ellipse with parameter `t` is at distance `√(a² cos² t + b² sin² t)`. -/
theorem ellipseRadius_azimuth (a b t : ℝ) (ha : 0 < a) (hb : 0 < b) :
    ellipseRadius a b (azimuth (b / a) t) ^ 2 = (a * cos t) ^ 2 + (b * sin t) ^ 2 := by
  have hq : 0 < b / a := div_pos hb ha
  have hD2 := weight_pos ((b / a) ^ 2) t (by positivity)
  rw [ellipseRadius_sq a b _ ha hb]
  have h1 := azimuth_cos_sq (b / a) t hq
  have h2 : sin (azimuth (b / a) t) ^ 2 = 1 - cos (azimuth (b / a) t) ^ 2 := sin_sq _
  have e : (b * cos (azimuth (b / a) t)) ^ 2 + (a * sin (azimuth (b / a) t)) ^ 2 =
      b ^ 2 / (cos t ^ 2 + (b / a) ^ 2 * sin t ^ 2) := by
    rw [mul_pow, mul_pow, h2, h1, eq_div_iff hD2.ne', add_mul, mul_sub, sub_mul, mul_one, ← mul_div_assoc,
      div_mul_cancel₀ _ hD2.ne', ← mul_div_assoc, div_mul_cancel₀ _ hD2.ne']
    have hs : sin t ^ 2 = 1 - cos t ^ 2 := sin_sq t
    field_simp
    rw [hs]; ring
  rw [e]
  field_simp

theorem ellipseRadius_neg (a b p : ℝ) : ellipseRadius a b (π - p) = ellipseRadius a b p := by
  unfold ellipseRadius
  rw [cos_pi_sub, sin_pi_sub, mul_neg, neg_sq]

theorem ellipseRadius_add (a b p : ℝ) : ellipseRadius a b (p + π) = ellipseRadius a b p := by
  unfold ellipseRadius
  rw [cos_add_pi, sin_add_pi, mul_neg, neg_sq, mul_neg, neg_sq]

/-- The four quadrants are alike. -/
theorem coneSolidAngle_quadrant (a b : ℝ) (ha : 0 < a) (hb : 0 < b) :
    coneSolidAngle a b = 4 * ∫ p in (0 : ℝ)..(π / 2), (1 - cos (arctan (ellipseRadius a b p))) := by
  have hi : ∀ u v : ℝ, IntervalIntegrable (fun p => 1 - cos (arctan (ellipseRadius a b p))) MeasureTheory.volume u v :=
    fun u v => (continuous_const.sub (cone_continuous a b ha hb)).intervalIntegrable u v
  unfold coneSolidAngle
  have h1 := integral_add_adjacent_intervals (hi 0 π) (hi π (2 * π))
  have h2 := integral_add_adjacent_intervals (hi 0 (π / 2)) (hi (π / 2) π)
  have h3 := integral_comp_add_right (fun p => 1 - cos (arctan (ellipseRadius a b p))) π (a := 0) (b := π)
  have h4 := integral_comp_sub_left (fun p => 1 - cos (arctan (ellipseRadius a b p))) π (a := 0) (b := π / 2)
  simp only [ellipseRadius_add, zero_add] at h3
  simp only [ellipseRadius_neg, sub_zero] at h4
  have e1 : π + π = 2 * π := by ring
  have e2 : π - π / 2 = π / 2 := by ring
  rw [e1] at h3
  rw [e2] at h4
  rw [← h1, ← h3, ← h2, ← h4]
  ring

theorem integrand_eq (a b t : ℝ) (hb : 0 < b) (hab : b ≤ a) :
    4 * 1 * b / (a * √(1 ^ 2 + a ^ 2)) *
      (1 / ((1 - √(1 - (b / a) ^ 2) ^ 2 * sin t ^ 2) * √(1 - √((a ^ 2 - b ^ 2) / (1 ^ 2 + a ^ 2)) ^ 2 * sin t ^ 2))) =
    4 * (cos (arctan (ellipseRadius a b (azimuth (b / a) t))) * (b / a / (cos t ^ 2 + (b / a) ^ 2 * sin t ^ 2))) := by
  have ha : 0 < a := hb.trans_le hab
  have hq1 : (b / a) ^ 2 ≤ 1 := by
    rw [div_pow, div_le_one (by positivity)]
    exact pow_le_pow_left₀ hb.le hab 2
  have hk : 0 ≤ (a ^ 2 - b ^ 2) / (1 ^ 2 + a ^ 2) := by
    apply div_nonneg
    · have := pow_le_pow_left₀ hb.le hab 2; linarith
    · positivity
  rw [sq_sqrt (by linarith), sq_sqrt hk, cos_arctan, ellipseRadius_azimuth a b t ha hb]
  have hs : sin t ^ 2 = 1 - cos t ^ 2 := sin_sq t
  have e1 : 1 - (1 - (b / a) ^ 2) * sin t ^ 2 = cos t ^ 2 + (b / a) ^ 2 * sin t ^ 2 := by rw [hs]; ring
  have hA : 0 < 1 + a ^ 2 := by positivity
  have e2 : 1 - (a ^ 2 - b ^ 2) / (1 ^ 2 + a ^ 2) * sin t ^ 2 =
      (1 + ((a * cos t) ^ 2 + (b * sin t) ^ 2)) / (1 + a ^ 2) := by
    rw [one_pow]
    field_simp
    rw [hs]; ring
  have hR : 0 < 1 + ((a * cos t) ^ 2 + (b * sin t) ^ 2) := by positivity
  rw [e1, e2, one_pow, sqrt_div' _ hA.le]
  have h1 := sqrt_pos.mpr hA
  have h2 := sqrt_pos.mpr hR
  have h3 := weight_pos ((b / a) ^ 2) t (by positivity)
  generalize √(1 + a ^ 2) = A at *
  generalize √(1 + ((a * cos t) ^ 2 + (b * sin t) ^ 2)) = R at *
  generalize cos t ^ 2 + (b / a) ^ 2 * sin t ^ 2 = W at *
  field_simp

theorem coneFormula_eq (a b : ℝ) (hb : 0 < b) (hab : b ≤ a) : coneFormula a b = coneSolidAngle a b := by
  have ha : 0 < a := hb.trans_le hab
  have hq : 0 < b / a := div_pos hb ha
  have hsub := integral_comp_mul_deriv (a := 0) (b := π / 2) (f := azimuth (b / a))
    (f' := fun t => b / a / (cos t ^ 2 + (b / a) ^ 2 * sin t ^ 2))
    (g := fun p => cos (arctan (ellipseRadius a b p)))
    (fun t _ => azimuth_deriv (b / a) t hq)
    (by
      apply Continuous.continuousOn
      refine continuous_const.div (by fun_prop) ?_
      intro t
      exact (weight_pos ((b / a) ^ 2) t (by positivity)).ne')
    (cone_continuous a b ha hb)
  rw [azimuth_zero, azimuth_quarter] at hsub
  rw [coneSolidAngle_quadrant a b ha hb]
  rw [integral_sub (by simp) ((cone_continuous a b ha hb).intervalIntegrable _ _), ← hsub]
  unfold coneFormula ellippi
  simp only
  rw [← integral_const_mul, integral_congr (g := fun t => 4 * (cos (arctan (ellipseRadius a b (azimuth (b / a) t))) *
    (b / a / (cos t ^ 2 + (b / a) ^ 2 * sin t ^ 2)))) (fun t _ => integrand_eq a b t hb hab), integral_const_mul]
  simp only [integral_const, sub_zero, smul_eq_mul, mul_one, Function.comp]
  ring

theorem ellipseRadius_symm (a b p : ℝ) : ellipseRadius a b (π / 2 - p) = ellipseRadius b a p := by
  unfold ellipseRadius
  rw [cos_pi_div_two_sub, sin_pi_div_two_sub, mul_comm a b, add_comm]

theorem coneSolidAngle_symm (a b : ℝ) (ha : 0 < a) (hb : 0 < b) : coneSolidAngle a b = coneSolidAngle b a := by
  rw [coneSolidAngle_quadrant a b ha hb, coneSolidAngle_quadrant b a hb ha]
  have := integral_comp_sub_left (fun p => 1 - cos (arctan (ellipseRadius a b p))) (π / 2) (a := 0) (b := π / 2)
  simp only [ellipseRadius_symm, sub_self, sub_zero] at this
  rw [this]

/-- The f-number in the second direction that `OmegaPix` uses. -/
noncomputable def secondFnum (fx : ℝ) : Option ℝ → ℝ
  | none => fx
  | some v => if v = 0 then fx else v

/-- `OmegaPix` is the solid angle of the elliptical cone with half-angles of tangent `1/(2 Fx)` and `1/(2 Fy)`; without
a second f-number (or with 0) the cone is circular. -/
theorem omegaPix_solid_angle (fx : ℝ) (fy : Option ℝ) (hx : 0 < fx) (hy : 0 < secondFnum fx fy) :
    omegaPix fx fy = coneSolidAngle (1 / (2 * fx)) (1 / (2 * secondFnum fx fy)) := by
  have key : omegaPix fx fy = if fx > secondFnum fx fy
      then coneFormula (1 / (2 * secondFnum fx fy)) (1 / (2 * fx))
      else coneFormula (1 / (2 * fx)) (1 / (2 * secondFnum fx fy)) := by
    unfold omegaPix secondFnum
    rfl
  rw [key]
  split
  · rename_i h
    rw [coneFormula_eq _ _ (by positivity) (one_div_le_one_div_of_le (by positivity) (by linarith)), coneSolidAngle_symm _ _ (by positivity) (by positivity)]
  · rename_i h
    rw [coneFormula_eq _ _ (by positivity) (one_div_le_one_div_of_le (by positivity) (by linarith))]

/-- A circular beam. -/
theorem omegaPix_circular (f : ℝ) (hf : 0 < f) (fy : Option ℝ) (hy : fy = none ∨ fy = some 0 ∨ fy = some f) :
    omegaPix f fy = 2 * π * (1 - cos (arctan (1 / (2 * f)))) := by
  have hs : secondFnum f fy = f := by
    rcases hy with rfl | rfl | rfl
    · rfl
    · simp [secondFnum]
    · simp [secondFnum, hf.ne']
  rw [omegaPix_solid_angle f fy hf (by rw [hs]; exact hf), hs]
  have : ∀ p, ellipseRadius (1 / (2 * f)) (1 / (2 * f)) p = 1 / (2 * f) := by
    intro p
    unfold ellipseRadius
    have h0 : 0 < 1 / (2 * f) := by positivity
    have e : (1 / (2 * f) * cos p) ^ 2 + (1 / (2 * f) * sin p) ^ 2 = (1 / (2 * f)) ^ 2 := by
      rw [mul_pow, mul_pow, ← mul_add, cos_sq_add_sin_sq, mul_one]
    rw [e, sqrt_sq h0.le, mul_div_assoc, div_self h0.ne', mul_one]
  unfold coneSolidAngle
  simp only [this, integral_const, smul_eq_mul, sub_zero]

theorem omegaPix_symm (fx fy : ℝ) (hx : 0 < fx) (hy : 0 < fy) : omegaPix fx (some fy) = omegaPix fy (some fx) := by
  have h1 : secondFnum fx (some fy) = fy := by simp [secondFnum, hy.ne']
  have h2 : secondFnum fy (some fx) = fx := by simp [secondFnum, hx.ne']
  rw [omegaPix_solid_angle fx _ hx (by rw [h1]; exact hy), omegaPix_solid_angle fy _ hy (by rw [h2]; exact hx), h1, h2,
    coneSolidAngle_symm _ _ (by positivity) (by positivity)]

theorem cos_arctan_strictAnti {x y : ℝ} (hx : 0 ≤ x) (h : x < y) : cos (arctan y) < cos (arctan x) := by
  rw [cos_arctan, cos_arctan]
  apply one_div_lt_one_div_of_lt (sqrt_pos.mpr (by positivity))
  apply sqrt_lt_sqrt (by positivity)
  have := pow_lt_pow_left₀ h hx two_ne_zero
  linarith

theorem ellipseRadius_sq' (a b p : ℝ) (ha : 0 < a) (hb : 0 < b) :
    ellipseRadius a b p ^ 2 = 1 / ((cos p / a) ^ 2 + (sin p / b) ^ 2) := by
  rw [ellipseRadius_sq a b p ha hb]
  have h := ellipse_den_pos a b p ha hb
  have : (cos p / a) ^ 2 + (sin p / b) ^ 2 = ((b * cos p) ^ 2 + (a * sin p) ^ 2) / (a * b) ^ 2 := by
    field_simp
  rw [this, one_div_div]

theorem ellipseRadius_mono (a a' b p : ℝ) (ha : 0 < a) (hb : 0 < b) (h : a ≤ a') :
    ellipseRadius a b p ≤ ellipseRadius a' b p := by
  have ha' := ha.trans_le h
  apply le_of_sq_le_sq _ (ellipseRadius_pos a' b p ha' hb).le
  rw [ellipseRadius_sq' a b p ha hb, ellipseRadius_sq' a' b p ha' hb]
  have pos : 0 < (cos p / a') ^ 2 + (sin p / b) ^ 2 := by
    have h := ellipse_den_pos a' b p ha' hb
    have : (cos p / a') ^ 2 + (sin p / b) ^ 2 = ((b * cos p) ^ 2 + (a' * sin p) ^ 2) / (a' * b) ^ 2 := by field_simp
    rw [this]; positivity
  apply one_div_le_one_div_of_le pos
  rw [div_pow, div_pow]
  have := div_le_div_of_nonneg_left (sq_nonneg (cos p)) (by positivity) (pow_le_pow_left₀ ha.le h 2)
  rw [div_pow]
  linarith

theorem ellipseRadius_at_zero (a b : ℝ) (hb : 0 < b) : ellipseRadius a b 0 = a := by
  unfold ellipseRadius
  simp [sqrt_sq hb.le, hb.ne']

theorem coneSolidAngle_strictMono (a a' b : ℝ) (ha : 0 < a) (hb : 0 < b) (h : a < a') :
    coneSolidAngle a b < coneSolidAngle a' b := by
  have ha' := ha.trans h
  unfold coneSolidAngle
  apply integral_lt_integral_of_continuousOn_of_le_of_exists_lt (by positivity)
    (continuous_const.sub (cone_continuous a b ha hb)).continuousOn
    (continuous_const.sub (cone_continuous a' b ha' hb)).continuousOn
  · intro p _
    change 1 - cos (arctan (ellipseRadius a b p)) ≤ 1 - cos (arctan (ellipseRadius a' b p))
    rcases (ellipseRadius_mono a a' b p ha hb h.le).eq_or_lt with e | e
    · rw [e]
    · have := cos_arctan_strictAnti (ellipseRadius_pos a b p ha hb).le e
      linarith
  · refine ⟨0, ⟨le_rfl, by positivity⟩, ?_⟩
    change 1 - cos (arctan (ellipseRadius a b 0)) < 1 - cos (arctan (ellipseRadius a' b 0))
    rw [ellipseRadius_at_zero a b hb, ellipseRadius_at_zero a' b hb]
    have := cos_arctan_strictAnti ha.le h
    linarith

/-- A faster beam in either direction gives a larger solid angle. -/
theorem omegaPix_strictAnti (fx fx' fy : ℝ) (hx : 0 < fx) (hy : 0 < fy) (h : fx < fx') :
    omegaPix fx' (some fy) < omegaPix fx (some fy) ∧ omegaPix fy (some fx') < omegaPix fy (some fx) ∧
    omegaPix fx' none < omegaPix fx none := by
  have hx' := hx.trans h
  have e : ∀ u v : ℝ, 0 < u → 0 < v → omegaPix u (some v) = coneSolidAngle (1 / (2 * u)) (1 / (2 * v)) := by
    intro u v hu hv
    have h1 : secondFnum u (some v) = v := by simp [secondFnum, hv.ne']
    rw [omegaPix_solid_angle u _ hu (by rw [h1]; exact hv), h1]
  have hlt : 1 / (2 * fx') < 1 / (2 * fx) := one_div_lt_one_div_of_lt (by positivity) (by linarith)
  have main : omegaPix fx' (some fy) < omegaPix fx (some fy) := by
    rw [e _ _ hx' hy, e _ _ hx hy]
    exact coneSolidAngle_strictMono _ _ _ (by positivity) (by positivity) hlt
  refine ⟨main, ?_, ?_⟩
  · rw [omegaPix_symm fy fx' hy hx', omegaPix_symm fy fx hy hx]; exact main
  · rw [omegaPix_circular fx hx none (.inl rfl), omegaPix_circular fx' hx' none (.inl rfl)]
    have := cos_arctan_strictAnti (x := 1 / (2 * fx')) (by positivity) hlt
    have hpi := pi_pos
    nlinarith

/-- The solid angle is that of a cone: more than nothing, less than a half space, and between the circular cones of
the two f-numbers. -/
theorem omegaPix_bounds (fx fy : ℝ) (hx : 0 < fx) (hy : 0 < fy) :
    0 < omegaPix fx (some fy) ∧ omegaPix fx (some fy) < 2 * π ∧
    omegaPix (max fx fy) none ≤ omegaPix fx (some fy) ∧ omegaPix fx (some fy) ≤ omegaPix (min fx fy) none := by
  have circ : ∀ f : ℝ, 0 < f → omegaPix f none = omegaPix f (some f) ∧ 0 < omegaPix f none ∧ omegaPix f none < 2 * π := by
    intro f hf
    have hpi := pi_pos
    rw [omegaPix_circular f hf none (.inl rfl), omegaPix_circular f hf (some f) (.inr (.inr rfl))]
    have h1 := cos_arctan_strictAnti (x := 0) le_rfl (y := 1 / (2 * f)) (by positivity)
    have h2 := cos_arctan_pos (1 / (2 * f))
    rw [arctan_zero, cos_zero] at h1
    refine ⟨rfl, mul_pos (by positivity) (by linarith), ?_⟩
    nlinarith
  have mono : ∀ u u' v : ℝ, 0 < u → 0 < v → u ≤ u' → omegaPix u' (some v) ≤ omegaPix u (some v) ∧
      omegaPix v (some u') ≤ omegaPix v (some u) := by
    intro u u' v hu hv h
    rcases h.eq_or_lt with rfl | h
    · exact ⟨le_rfl, le_rfl⟩
    · exact ⟨(omegaPix_strictAnti u u' v hu hv h).1.le, (omegaPix_strictAnti u u' v hu hv h).2.1.le⟩
  have hmax : 0 < max fx fy := lt_max_of_lt_left hx
  have hmin : 0 < min fx fy := lt_min hx hy
  have lower : omegaPix (max fx fy) none ≤ omegaPix fx (some fy) := by
    rw [(circ _ hmax).1]
    exact ((mono fx (max fx fy) (max fx fy) hx hmax (le_max_left _ _)).1).trans
      (mono fy (max fx fy) fx hy hx (le_max_right _ _)).2
  have upper : omegaPix fx (some fy) ≤ omegaPix (min fx fy) none := by
    rw [(circ _ hmin).1]
    exact ((mono (min fx fy) fx fy hmin hy (min_le_left _ _)).1).trans
      (mono (min fx fy) fy (min fx fy) hmin hmin (min_le_right _ _)).2
  exact ⟨(circ _ hmax).2.1.trans_le lower, upper.trans_lt (circ _ hmin).2.2, lower, upper⟩

/-- The hypotheses are met by an elliptical beam. -/
example : (0 : ℝ) < 15 ∧ (0 : ℝ) < 20 ∧ 0 < secondFnum 15 (some 20) := by norm_num [secondFnum]

end ExoRad.Psf
