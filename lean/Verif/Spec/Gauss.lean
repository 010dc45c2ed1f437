import Mathlib.Analysis.SpecialFunctions.Pow.Real
import Mathlib.Analysis.SpecialFunctions.Trigonometric.Basic

/-!
Specification of the Gaussian density models: the documented formulas over `ℝ`
(class docstrings of `bfit/model.py`).
-/

namespace BFit

open Real

noncomputable section

/-- s-type basis function `exp(-a r²)`, times `(a/π)^{3/2}` when normalised. -/
def sBasis (norm : Bool) (a r : ℝ) : ℝ :=
  (if norm then (a / π) ^ (3 / 2 : ℝ) else 1) * exp (-a * r ^ 2)

/-- p-type basis function `r² exp(-b r²)`, times `2 b^{5/2} / (3 π^{3/2})` when normalised. -/
def pBasis (norm : Bool) (b r : ℝ) : ℝ :=
  (if norm then 2 * b ^ (5 / 2 : ℝ) / (3 * π ^ (3 / 2 : ℝ)) else 1) * (r ^ 2 * exp (-b * r ^ 2))

/-- Basis function number `k` of an atom with `ns` s-type functions listed first. -/
def basisFn (ns : ℕ) (norm : Bool) (k : ℕ) (e r : ℝ) : ℝ :=
  if k < ns then sBasis norm e r else pBasis norm e r

/-- The atomic model density at radius `r`: coefficients/exponents `c`, `e` of `ns` s-type and then
`np` p-type functions. -/
def atomDensity (ns np : ℕ) (norm : Bool) (c e : List ℝ) (r : ℝ) : ℝ :=
  ∑ k ∈ Finset.range (ns + np), c.getD k 0 * basisFn ns norm k (e.getD k 0) r

/-- Number of basis functions of the first `a` centres. -/
def molOffset (ats : List (ℕ × ℕ)) (a : ℕ) : ℕ := ((ats.take a).map fun b => b.1 + b.2).sum

/-- The molecular density: the sum over the centres `a` of the atomic density with the block of
parameters of that centre, at the distance `ρ a` of the point to the centre. -/
def molDensity (norm : Bool) (ats : List (ℕ × ℕ)) (ρ : ℕ → ℝ) (c e : List ℝ) : ℝ :=
  ∑ a ∈ Finset.range ats.length,
    let nb := (ats.getD a (0, 0)).1 + (ats.getD a (0, 0)).2
    atomDensity (ats.getD a (0, 0)).1 (ats.getD a (0, 0)).2 norm
      ((c.drop (molOffset ats a)).take nb) ((e.drop (molOffset ats a)).take nb) (ρ a)

end
end BFit
