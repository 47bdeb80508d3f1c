import Verif.Model.Planck

/-!
# The black body (C49)
-/

namespace ExoRad

theorem planck_denominator (wl T : ℝ) (hw : 0 < wl) (hT : 0 < T) : 0 < Real.exp (14387.7516 / (wl * T)) - 1 := by
  have h : 0 < 14387.7516 / (wl * T) := div_pos (by norm_num) (mul_pos hw hT)
  have := Real.add_one_lt_exp h.ne'
  linarith

/-- C49: the radiance is positive at every wavelength and temperature. -/
theorem planck_pos (wl T : ℝ) (hw : 0 < wl) (hT : 0 < T) : 0 < planck wl T :=
  div_pos (div_pos (by norm_num) (pow_pos hw 5)) (planck_denominator wl T hw hT)

/-- C49: at every wavelength the radiance is strictly increasing in temperature. -/
theorem planck_strictMono (wl T T' : ℝ) (hw : 0 < wl) (hT : 0 < T) (h : T < T') : planck wl T < planck wl T' := by
  have hT' := hT.trans h
  apply div_lt_div_of_pos_left (div_pos (by norm_num) (pow_pos hw 5)) (planck_denominator wl T' hw hT')
  have : 14387.7516 / (wl * T') < 14387.7516 / (wl * T) :=
    div_lt_div_of_pos_left (by norm_num) (mul_pos hw hT) (mul_lt_mul_of_pos_left h hw)
  have := Real.exp_lt_exp.mpr this
  linarith

/-- C49: the radiance lies between Wien's and the Rayleigh–Jeans law. -/
theorem planck_between (wl T : ℝ) (hw : 0 < wl) (hT : 0 < T) :
    1.191042768e8 / wl ^ 5 * Real.exp (-(14387.7516 / (wl * T))) < planck wl T ∧
      planck wl T < 1.191042768e8 / 14387.7516 * T / wl ^ 4 := by
  have hx : 0 < 14387.7516 / (wl * T) := div_pos (by norm_num) (mul_pos hw hT)
  have hd := planck_denominator wl T hw hT
  have ha : (0 : ℝ) < 1.191042768e8 / wl ^ 5 := div_pos (by norm_num) (pow_pos hw 5)
  constructor
  · rw [Real.exp_neg, ← div_eq_mul_inv]
    exact div_lt_div_of_pos_left ha hd (by linarith)
  · have h1 : planck wl T < 1.191042768e8 / wl ^ 5 / (14387.7516 / (wl * T)) := by
      apply div_lt_div_of_pos_left ha hx
      have := Real.add_one_lt_exp hx.ne'
      linarith
    refine h1.trans_eq ?_
    field_simp

/-- A concrete case: the Sun at 0.5 µm. -/
example : 0 < planck 0.5 5778 ∧ planck 0.5 5778 < planck 0.5 6000 :=
  ⟨planck_pos _ _ (by norm_num) (by norm_num), planck_strictMono _ _ _ (by norm_num) (by norm_num) (by norm_num)⟩

end ExoRad
