import Verif.Model.Round

/-!
# Rounded arithmetic in `goodness_of_fit`

The rounding model of Model/Round for the five numbers of fit.py:184-192.  The logarithm is a library function of
accuracy `u`; taking absolute values, comparing and selecting a maximum are exact.
-/

namespace BFit

open Real Classical

noncomputable section

/-- One execution of `goodness_of_fit` (fit.py:184-192) for a density `f` on `N > 0` points, mask value `μ`, and `φ i k`
the value of basis function `k` at point `i` as computed, `c` the coefficients.  The model values must not be negative
(otherwise measure.py:210-215 answers with a constant).  `m` is `approx` (fit.py:184), `d` the difference (fit.py:185),
`r` and `sq` the residual and value of `SquaredDifference.evaluate` (measure.py:110-112), `z`, `ratio`, `lg` and `value`
belong to `KLDivergence.evaluate` (measure.py:218-224; `z` is the bound below which numpy masks a denominator). -/
structure RGoodness (u τ : ℝ) (grid : Grid) (spherical : Bool) (N nb : ℕ) (f : ℕ → ℝ) (μ : ℝ)
    (φ : ℕ → ℕ → ℝ) (c : ℕ → ℝ) (integral l1 linf ls kl : ℝ) where
  m : ℕ → ℝ
  d : ℕ → ℝ
  r : ℕ → ℝ
  sq : ℕ → ℝ
  z : ℕ → ℝ
  ratio : ℕ → ℝ
  lg : ℕ → ℝ
  value : ℕ → ℝ
  h_m : ∀ i < N, RDens u τ nb (φ i) c (m i)
  h_d : ∀ i < N, Fl u (d i) (f i - m i)
  h_integral : RIntegrate u τ grid spherical m integral
  h_l1 : RIntegrate u τ grid spherical (fun i => |d i|) l1
  h_linf : (∃ i < N, |d i| = linf) ∧ ∀ i < N, |d i| ≤ linf
  h_r : ∀ i < N, Fl u (r i) (f i - m i)
  h_sq : ∀ i < N, Fu u τ (sq i) (r i ^ 2)
  h_ls : RIntegrate u τ grid spherical sq ls
  h_z : ∀ i < N, Fu u τ (z i) (f i * tiny)
  h_ratio : ∀ i < N, if μ < m i ∧ z i < m i then Fu u τ (ratio i) (f i / m i) else ratio i = 1
  h_lg : ∀ i < N, Fu u τ (lg i) (log (ratio i))
  h_value : ∀ i < N, Fu u τ (value i) (f i * lg i)
  h_kl : RIntegrate u τ grid spherical value kl

end
end BFit
