import Verif.Model.Round
import Verif.Model.Measure

/-!
# Rounded arithmetic in the objective of `ScipyFit`

The rounding model of Model/Round for `func` and `const_norm` (fit.py:700-748): the derivative columns of the model, the
measures with their derivatives, the objective, its gradient and the constraint.
-/

namespace BFit

open Real Classical

noncomputable section

/-- The derivative column of an exponent `e` with coefficient `c` at distance `r`, `φ` being the computed value of the basis
function: `- matrix * radii**2 * coeffs` stored in the array `dg` (model.py:256, 304), and for normalised functions
`+= 1.5 * matrix * (coeffs * expons**0.5) / pi**1.5` (s-type, model.py:257-259) or
`+= 5 * matrix * (coeffs * expons**1.5) / (3 * pi**1.5)` (p-type, model.py:305-307) with `matrix` evaluated anew.  p-type
functions that are not normalised use model.py:256 (model.py:291-293). -/
def RExpCol (u τ : ℝ) (isS norm : Bool) (e c r φ v : ℝ) : Prop :=
  ∃ r2 a b d, Fu u τ r2 (r ^ 2) ∧ Fu u τ a (-φ * r2) ∧ Fu u τ b (a * c) ∧ Fu u τ d b ∧
    if norm then
      ∃ s x E t h g k p q l y, Fu u τ s (r ^ 2) ∧ Fu u τ x (-e * s) ∧ Fu u τ E (exp x) ∧ Fu u τ g (c * h) ∧
        Fu u τ k (t * g) ∧ Fl u p π ∧ Fu u τ q (p ^ (3 / 2 : ℝ)) ∧ Fl u y (d + l) ∧ Fu u τ v y ∧
        if isS then Fu u τ t (1.5 * E) ∧ Fu u τ h (e ^ (1 / 2 : ℝ)) ∧ Fu u τ l (k / q)
        else ∃ m q3, Fu u τ m (E * s) ∧ Fu u τ t (5 * m) ∧ Fu u τ h (e ^ (3 / 2 : ℝ)) ∧ Fu u τ q3 (3 * q) ∧
          Fu u τ l (k / q3)
    else v = d

/-- The value `v` and derivative `d` of a measure at a point with density `f` and computed model `m`:
`SquaredDifference.evaluate` (measure.py:110-116) and `KLDivergence.evaluate` (measure.py:218-227; `z` is the bound below which
numpy masks a denominator; the model must not be negative at any point, otherwise measure.py:210-215 answers with a
constant), `TsallisDivergence.evaluate` (measure.py:342-349; `alpha - 1.0` gives the same number `b` both times).  Executions
of `TsallisDivergence` with negative densities, or with a masked or zero ratio and a negative power, where numpy gives nan or
inf, are not modelled. -/
def RMeas (u τ : ℝ) (M : Meas) (f m v d : ℝ) : Prop :=
  match M with
  | .sq => ∃ r, Fl u r (f - m) ∧ Fu u τ v (r ^ 2) ∧ Fu u τ d (-2 * r)
  | .kl K => ∃ z ratio lg, Fu u τ z (f * tiny) ∧
      (if K.maskValue < XR.fin m ∧ z < m then Fu u τ ratio (f / m) else ratio = 1) ∧
      Fu u τ lg (log ratio) ∧ Fu u τ v (f * lg) ∧ d = -ratio
  | .ts t => ∃ z ratio b p q a s, Fu u τ z (f * tiny) ∧
      (if t.maskValue < XR.fin m ∧ z < m then Fu u τ ratio (f / m) else ratio = 0) ∧
      Fl u b (t.alpha - 1) ∧ (0 < ratio ∨ ratio = 0 ∧ 0 ≤ b) ∧ Fu u τ p (ratio ^ b) ∧ Fl u q (p - 1) ∧
      Fu u τ a (f * q) ∧ Fu u τ v (a / b) ∧ Fu u τ s (ratio ^ t.alpha) ∧ d = -s

/-- One execution of `ScipyFit.func` (fit.py:718-726) with a vector of `len` entries, of which entry 0 is column `off` of the
Jacobian, for a density `f` and weights `w` on `N` points.  `φ` are the values of the basis functions, `m` and `dm` the model and
its Jacobian (fit.py:718, model.py:254-307; the slices of fit.py:769-785 and the copies into the arrays of model.py:201-220 are
exact), `k` and `dk` the measure (fit.py:720), `wk` the integrand of the objective (fit.py:722), `a` and `b` the products of
fit.py:725. -/
structure RFunc (u τ : ℝ) (grid : Grid) (spherical : Bool) (N nb : ℕ) (M : Meas) (f w : ℕ → ℝ) (isS : ℕ → Bool) (norm : Bool)
    (rad : ℕ → ℕ → ℝ) (c e : ℕ → ℝ) (off len : ℕ) (obj : ℝ) (grad : ℕ → ℝ) where
  φ : ℕ → ℕ → ℝ
  m : ℕ → ℝ
  dm : ℕ → ℕ → ℝ
  k : ℕ → ℝ
  dk : ℕ → ℝ
  wk : ℕ → ℝ
  a : ℕ → ℝ
  b : ℕ → ℕ → ℝ
  h_φ : ∀ i < N, ∀ j < nb, RBasis u τ (isS j) norm (e j) (rad j i) (φ i j)
  h_m : ∀ i < N, RDens u τ nb (φ i) c (m i)
  h_dm_coeffs : ∀ i < N, ∀ j < nb, Fu u τ (dm i j) (φ i j)
  h_dm_expons : ∀ i < N, ∀ j < nb, RExpCol u τ (isS j) norm (e j) (c j) (rad j i) (φ i j) (dm i (nb + j))
  h_k : ∀ i < N, RMeas u τ M (f i) (m i) (k i) (dk i)
  h_wk : ∀ i < N, Fu u τ (wk i) (w i * k i)
  h_obj : RIntegrate u τ grid spherical wk obj
  h_a : ∀ i < N, Fu u τ (a i) (w i * dk i)
  h_b : ∀ l < len, ∀ i < N, Fu u τ (b l i) (a i * dm i (off + l))
  h_grad : ∀ l < len, ∃ v, RIntegrate u τ grid spherical (b l) v ∧ Fu u τ (grad l) v

/-- One execution of `ScipyFit.const_norm` (fit.py:746-748) for an object with `integral_dens = T`. -/
structure RConst (u τ : ℝ) (grid : Grid) (spherical : Bool) (N nb : ℕ) (isS : ℕ → Bool) (norm : Bool)
    (rad : ℕ → ℕ → ℝ) (c e : ℕ → ℝ) (T cons : ℝ) where
  φ : ℕ → ℕ → ℝ
  m : ℕ → ℝ
  v : ℝ
  h_φ : ∀ i < N, ∀ j < nb, RBasis u τ (isS j) norm (e j) (rad j i) (φ i j)
  h_m : ∀ i < N, RDens u τ nb (φ i) c (m i)
  h_v : RIntegrate u τ grid spherical m v
  h_cons : Fl u cons (T - v)

end
end BFit
