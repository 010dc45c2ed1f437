import Verif.Model.Fit
import Verif.Spec.Measure

/-!
# Rounded arithmetic in `integrate`, `evaluate` and `_update_params`

The other model files compute with exact real numbers.  This file models the same lines with rounding: every
operation returns some number within the relative error `u` of its exact result (`Fl`), chosen anew at each
operation, and sums are formed in any order.  Products, quotients, powers and exponentials below `τ` in absolute
value may have the absolute error `u τ` instead (`Fu`, gradual underflow), sums and differences may not: they are
exact there.  With the smallest normal number as `τ` this covers IEEE double and extended precision with any
rounding direction, fused multiply-add, blocked or pairwise summation and library functions `exp` and `pow` of
accuracy `u`, as long as nothing overflows; `τ = 0` excludes underflow.  Overflow and the special values are not
modelled here.
-/

namespace BFit

open Real Classical

noncomputable section

/-- `v` is an admissible result of an operation with exact result `x`: the relative error is at most `u` (standard
model of floating-point arithmetic, for all operations of grid.py:77, 413, model.py:198-307, fit.py:277-302,
measure.py:110-116, 204-228, density.py:119-467). -/
def Fl (u v x : ℝ) : Prop := |v - x| ≤ u * |x|

/-- The same for an operation that may underflow (`np.exp`, model.py:198, 258, 305): below `τ` the absolute error is
at most `u τ`.  Zero and the sign are exact. -/
def Fu (u τ v x : ℝ) : Prop := Fl u v x ∨ 0 < |x| ∧ |x| < τ ∧ |v - x| ≤ u * τ ∧ 0 ≤ v * x

/-- `s` is an admissible result of `np.sum` on the list of numbers (grid.py:77, 412; the sum inside `np.dot`,
model.py:248, 298).  Any two partial sums may be added; adding the initial zero is exact and not counted. -/
inductive RSum (u : ℝ) : List ℝ → ℝ → Prop
  | nil : RSum u [] 0
  | one (x : ℝ) : RSum u [x] x
  | add {l l₁ l₂ : List ℝ} {s₁ s₂ s : ℝ} (h₁ : RSum u l₁ s₁) (h₂ : RSum u l₂ s₂) (n₁ : l₁ ≠ [])
      (n₂ : l₂ ≠ []) (hl : l.Perm (l₁ ++ l₂)) (hs : Fl u s (s₁ + s₂)) : RSum u l s

/-- `np.trapz(y=y, x=x)` on `N` points (grid.py:77): `(diff(x) * (y[1:] + y[:-1]) / 2.0).sum()`. -/
def RTrapz (u τ : ℝ) (N : ℕ) (x y : ℕ → ℝ) (v : ℝ) : Prop :=
  ∃ t : ℕ → ℝ, (∀ i, i + 1 < N → ∃ d s p, Fl u d (x (i + 1) - x i) ∧ Fl u s (y (i + 1) + y i) ∧
      Fu u τ p (d * s) ∧ Fu u τ (t i) (p / 2)) ∧
    RSum u ((List.range (N - 1)).map t) v

/-- `np.sum(self._weights * arr)` (grid.py:412). -/
def RWeighted (u τ : ℝ) (N : ℕ) (w y : ℕ → ℝ) (v : ℝ) : Prop :=
  ∃ t : ℕ → ℝ, (∀ i < N, Fu u τ (t i) (w i * y i)) ∧ RSum u ((List.range N).map t) v

/-- `_BaseFit.integrate` (fit.py:145-147) with grid.py:73-77, 408-413 on an array of the right size with the
entries `y`.  The coordinates and weights of the grid are finite; spherical integration needs a radial grid. -/
def RIntegrate (u τ : ℝ) (grid : Grid) (spherical : Bool) (y : ℕ → ℝ) (v : ℝ) : Prop :=
  match grid with
  | .radial g => ∃ x : List ℝ, g.points = x.map XR.fin ∧
      if spherical then
        ∃ h : ℕ → ℝ, (∀ i < x.length, ∃ a p b q, Fu u τ a (y i * 4) ∧ Fl u p π ∧ Fu u τ b (a * p) ∧
            Fu u τ q (x.getD i 0 ^ 2) ∧ Fu u τ (h i) (b * q)) ∧
          RTrapz u τ x.length (x.getD · 0) h v
      else RTrapz u τ x.length (x.getD · 0) y v
  | .cubic g => spherical = false ∧ ∃ w : List ℝ, g.weights = w.map XR.fin ∧ w.length = g.points.length ∧
      RWeighted u τ w.length (w.getD · 0) y v

/-- The value of a basis function of exponent `e` at distance `r` (model.py:198, 245-246, 289, 296): the
Gaussian `exp(-e * r**2)`, for p-type functions times `r**2`, and the normalisation. -/
def RBasis (u τ : ℝ) (isS norm : Bool) (e r v : ℝ) : Prop :=
  ∃ r2 a E, Fu u τ r2 (r ^ 2) ∧ Fu u τ a (-e * r2) ∧ Fu u τ E (exp a) ∧
    if isS then
      if norm then ∃ p d n, Fl u p π ∧ Fu u τ d (e / p) ∧ Fu u τ n (d ^ (3 / 2 : ℝ)) ∧ Fu u τ v (E * n)
      else v = E
    else ∃ g, Fu u τ g (E * r2) ∧
      if norm then ∃ p n m d k, Fl u p π ∧ Fu u τ n (e ^ (5 / 2 : ℝ)) ∧ Fu u τ m (p ^ (3 / 2 : ℝ)) ∧
        Fu u τ d (n / m) ∧ Fu u τ k (g * d) ∧ Fu u τ v (k / (3 / 2))
      else v = g

/-- The model density at one point (model.py:248, 298, 216, 469-489): products of the `n` coefficients and
values, added in any order.  Simplified: partial sums are not stored in a format of lower precision (a molecular
model on points of extended precision stores the sum of the first centre in double precision). -/
def RDens (u τ : ℝ) (n : ℕ) (φ c : ℕ → ℝ) (m : ℝ) : Prop :=
  ∃ t : ℕ → ℝ, (∀ k < n, Fu u τ (t k) (φ k * c k)) ∧ RSum u ((List.range n).map t) m

/-- One execution of `_update_params(update_coeffs=True, update_expons=True)` (fit.py:277-302, with both averages) for
a density `f` on `N` points, mask value `μ` and multiplier `lm`; `φ i k` is the value of basis function `k` at point
`i` as computed, `rad k i` the distance of its centre and `c` the coefficients.  The names are those of the code: `m`
(fit.py:279), `dm` (the values stored in the derivative array, model.py:254, 302), `z` (the bound below which numpy
masks a denominator), `ratio` (`-dk`, measure.py:218-227, for non-negative `f` and `m`), `integrand`, `avrg1`, `avrg2`
(the integrals stored in arrays, fit.py:283-295), the new coefficients `c'` and exponents `e'` (fit.py:299-301). -/
structure RUpdate (u τ : ℝ) (grid : Grid) (spherical : Bool) (N nb : ℕ) (f : ℕ → ℝ) (μ lm : ℝ)
    (φ : ℕ → ℕ → ℝ) (rad : ℕ → ℕ → ℝ) (pref c c' e' : ℕ → ℝ) where
  m : ℕ → ℝ
  dm : ℕ → ℕ → ℝ
  z : ℕ → ℝ
  ratio : ℕ → ℝ
  integrand : ℕ → ℕ → ℝ
  rad2 : ℕ → ℕ → ℝ
  integrand2 : ℕ → ℕ → ℝ
  avrg1 : ℕ → ℝ
  avrg2 : ℕ → ℝ
  a : ℕ → ℝ
  b : ℕ → ℝ
  h_m : ∀ i < N, RDens u τ nb (φ i) c (m i)
  h_dm : ∀ i < N, ∀ k < nb, Fu u τ (dm i k) (φ i k)
  h_z : ∀ i < N, Fu u τ (z i) (f i * tiny)
  h_ratio : ∀ i < N, if μ < m i ∧ z i < m i then Fu u τ (ratio i) (f i / m i) else ratio i = 1
  h_integrand : ∀ k < nb, ∀ i < N, Fu u τ (integrand k i) (ratio i * dm i k)
  h_avrg1 : ∀ k < nb, ∃ v, RIntegrate u τ grid spherical (integrand k) v ∧ Fu u τ (avrg1 k) v
  h_rad2 : ∀ k < nb, ∀ i < N, Fu u τ (rad2 k i) (rad k i ^ 2)
  h_integrand2 : ∀ k < nb, ∀ i < N, Fu u τ (integrand2 k i) (integrand k i * rad2 k i)
  h_avrg2 : ∀ k < nb, ∃ v, RIntegrate u τ grid spherical (integrand2 k) v ∧ Fu u τ (avrg2 k) v
  h_a : ∀ k < nb, Fu u τ (a k) (c k * avrg1 k)
  h_c : ∀ k < nb, Fu u τ (c' k) (a k / lm)
  h_b : ∀ k < nb, Fu u τ (b k) (pref k * avrg1 k)
  h_e : ∀ k < nb, Fu u τ (e' k) (b k / avrg2 k)

/-- The multiplier of a `KLDivergenceFPI` object with target `T` (fit.py:240). -/
def RMultiplier (u τ : ℝ) (grid : Grid) (spherical : Bool) (f : ℕ → ℝ) (T lm : ℝ) : Prop :=
  ∃ v, RIntegrate u τ grid spherical f v ∧ Fu u τ lm (v / T)

end
end BFit
