import Mathlib.Analysis.SpecialFunctions.Log.Basic
import Mathlib.Analysis.SpecialFunctions.Pow.Real
import Verif.Num.Np

/-! Specification of the deviation measures over `ℝ` (docstrings of `bfit/measure.py`). -/

namespace BFit

open Real

noncomputable section

/-- Kullback-Leibler integrand. -/
def klInt (f g : ℝ) : ℝ := f * log (f / g)

/-- Tsallis integrand. -/
def tsInt (α f g : ℝ) : ℝ := f * ((f / g) ^ (α - 1) - 1) / (α - 1)

/-- A density/model pair for which the masked division is an ordinary division: the model exceeds the
mask and the quotient is below `1 / tiny = 2^1022` (numpy masks larger quotients). -/
def Unmasked (μ f g : ℝ) : Prop := μ < g ∧ f * tiny < g

/-- Values of the KL measure at a point with positive density and non-negative model. -/
def klVal (μ f g : ℝ) : ℝ := by
  classical exact if Unmasked μ f g then klInt f g else 0

end
end BFit
