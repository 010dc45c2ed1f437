import Verif.Spec.Gauss
import Verif.Model.Fit

/-!
Flat view of a Gaussian model: basis function `k` is s- or p-type and sees point `i` at a certain
distance.  Used to state properties of the fitting classes for atomic and molecular models at once.
-/

namespace BFit

open Real

noncomputable section

/-- Number of basis functions, type of each of them and distance of its centre to each grid point. -/
structure Shape where
  nb : ℕ
  isS : ℕ → Bool
  rad : ℕ → ℕ → ℝ

/-- Basis function of either type. -/
def bf (isS norm : Bool) (e r : ℝ) : ℝ := if isS then sBasis norm e r else pBasis norm e r

/-- Model density at point `i`. -/
def Shape.dens (S : Shape) (norm : Bool) (c e : ℕ → ℝ) (i : ℕ) : ℝ :=
  ∑ k ∈ Finset.range S.nb, c k * bf (S.isS k) norm (e k) (S.rad k i)

/-- The parameter vector of a list. -/
def vec (l : List ℝ) (k : ℕ) : ℝ := l.getD k 0

end
end BFit
