import Mathlib.Analysis.SpecialFunctions.Pow.Real

/-!
# Specification of the detector noise

Textbook formulas, independent of the model: number of non-destructive reads, MULTIACCUM gains,
and the variance budget of one spectral bin.
-/

namespace ExoRad.Spec
noncomputable section

/-- Number of non-destructive reads in a ramp of `t` seconds at `f` Hz, at least two (CDS). -/
def reads (t f : ℝ) : ℝ := max 2 (⌊t * f⌋ : ℤ)

/-- Read noise gain of a ramp of `n` reads, each the average of `m` samples. -/
def readGain (n m : ℝ) : ℝ := 12 * (n - 1) / (n * (n + 1)) / m

/-- Shot noise gain of a ramp of `n` reads. -/
def shotGain (n : ℝ) : ℝ := 6 * (n ^ 2 + 1) / (5 * (n * (n + 1)))

/-- One spectral bin: star signal, sum of all signals in the bin (ct/s), pixels in the window. -/
structure Bin where
  star : ℝ
  total : ℝ
  window : ℝ

/-- Noise parameters of the channel: dark current (ct/s/pix), read noise (ct/pix), excess photon
noise factor, frame time (s), reads frequency, reads averaged. -/
structure Params where
  dark : ℝ
  read : ℝ
  excess : ℝ
  frame : ℝ
  freq : ℝ
  avg : ℝ

/-- Variance of the rate measured in one hour, (ct/s)² hr. -/
def rateVariance (p : Params) (b : Bin) : ℝ :=
  let n := reads p.frame p.freq
  (shotGain n * b.window * p.dark
    + (1 + p.excess) * shotGain n * b.total
    + readGain n p.avg * p.read ^ 2 * b.window / p.frame) / 3600

/-- Relative variance of the bin with custom noises given in ppm. -/
def relVariance (p : Params) (b : Bin) (customs : List ℝ) : ℝ :=
  rateVariance p b / b.star ^ 2 + (customs.map (fun v => (v / 1000000) ^ 2)).sum

end
end ExoRad.Spec
