import Mathlib.Analysis.SpecialFunctions.Exp

/-!
# `exorad/utils/exolib.py` `planck`
-/

namespace ExoRad

/-- `exorad/utils/exolib.py:167-190` `planck` at one wavelength (µm) and temperature (K), in W m⁻² sr⁻¹ µm⁻¹.
Simplification: real arithmetic, so the exponential does not overflow (numpy gives `inf` there, and a radiance
of 0); `0 < wl * T` is meant (numpy gives NaN, inf or 0 at `wl * T = 0`, Lean 0). numpy raises no
ArithmeticError, lines 188-189 are dead. -/
noncomputable def planck (wl T : ℝ) : ℝ :=
  1.191042768e8 / wl ^ 5 / (Real.exp (14387.7516 / (wl * T)) - 1)

end ExoRad
