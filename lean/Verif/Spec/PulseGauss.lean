import Mathlib.Probability.Distributions.Gaussian.Real

/-
What a Gaussian pulse is: the density of a normal distribution, scaled to a given peak.
-/

namespace QTrl.Spec

/-- The normal density with this mean and variance, scaled so that its maximum is `peak`. -/
noncomputable def gaussianShape (peak mean : ℝ) (variance : NNReal) (x : ℝ) : ℝ :=
  peak * (ProbabilityTheory.gaussianPDFReal mean variance x /
    ProbabilityTheory.gaussianPDFReal mean variance mean)

end QTrl.Spec
