import Verif.Model.Overflow

/-!
# The derivatives of `evaluate` in the exponents with rounding, underflow and overflow

The lines of model.py that fill the second half of the array of derivatives, with the errors of `Model/Round.lean`, and
then with overflow as in `Model/Overflow.lean`.
-/

namespace BFit

open Real Classical

noncomputable section

/-- The entry of `matrix` for the squared distance `r2` and the exponential `E` as computed (model.py:245-246, 289, 296);
`RBasis` is this for the squared distance and exponential of model.py:198. -/
def RValue (u τ : ℝ) (isS norm : Bool) (e r2 E v : ℝ) : Prop :=
  if isS then
    if norm then ∃ p d n, Fl u p π ∧ Fu u τ d (e / p) ∧ Fu u τ n (d ^ (3 / 2 : ℝ)) ∧ Fu u τ v (E * n)
    else v = E
  else ∃ g, Fu u τ g (E * r2) ∧
    if norm then ∃ p n m d k, Fl u p π ∧ Fu u τ n (e ^ (5 / 2 : ℝ)) ∧ Fu u τ m (p ^ (3 / 2 : ℝ)) ∧
      Fu u τ d (n / m) ∧ Fu u τ k (g * d) ∧ Fu u τ v (k / (3 / 2))
    else v = g

/-- The term `1.5 * matrix * (coeffs * expons**0.5) / np.pi**1.5` (model.py:258-259) or
`5 * matrix * (coeffs * expons**1.5) / (3 * np.pi**1.5)` (model.py:305-307) added for normalised functions, for the
squared distance `r2` as computed.  The exponential is computed again. -/
def RNormTerm (u τ : ℝ) (isS : Bool) (e r2 c y : ℝ) : Prop :=
  ∃ a E p m, Fu u τ a (-e * r2) ∧ Fu u τ E (exp a) ∧ Fl u p π ∧ Fu u τ m (p ^ (3 / 2 : ℝ)) ∧
    if isS then ∃ b s w x, Fu u τ b (3 / 2 * E) ∧ Fu u τ s (e ^ (1 / 2 : ℝ)) ∧ Fu u τ w (c * s) ∧ Fu u τ x (b * w) ∧
      Fu u τ y (x / m)
    else ∃ g b s w x d, Fu u τ g (E * r2) ∧ Fu u τ b (5 * g) ∧ Fu u τ s (e ^ (3 / 2 : ℝ)) ∧ Fu u τ w (c * s) ∧
      Fu u τ x (b * w) ∧ Fu u τ d (3 * m) ∧ Fu u τ y (x / d)

/-- The derivative in the exponent `e` of a function with coefficient `c` at distance `r` (model.py:198, 256-259, 289,
303-307; columns of the second half of the array returned by `evaluate(..., deriv=True)`).  `np.power(radii, 2)` gives
the same number each time. -/
def RDeriv (u τ : ℝ) (isS norm : Bool) (e r c v : ℝ) : Prop :=
  ∃ r2 a E φ q t, Fu u τ r2 (r ^ 2) ∧ Fu u τ a (-e * r2) ∧ Fu u τ E (exp a) ∧ RValue u τ isS norm e r2 E φ ∧
    Fu u τ q (-φ * r2) ∧ Fu u τ t (q * c) ∧
    if norm then ∃ y, RNormTerm u τ isS e r2 c y ∧ Fl u v (t + y) else v = t

/-- `RValue` with overflow (model.py:245-246, 289, 296). -/
def XValue (u τ Ω : ℝ) (isS norm : Bool) (e r2 E v : XR) : Prop :=
  if isS then
    if norm then ∃ p d n, Fx u τ Ω p (XR.fin π) ∧ Fx u τ Ω d (e / p) ∧ Fx u τ Ω n (XR.pow d (3 / 2)) ∧
      Fx u τ Ω v (E * n)
    else v = E
  else ∃ g, Fx u τ Ω g (E * r2) ∧
    if norm then ∃ p n m d k, Fx u τ Ω p (XR.fin π) ∧ Fx u τ Ω n (XR.pow e (5 / 2)) ∧
      Fx u τ Ω m (XR.pow p (3 / 2)) ∧ Fx u τ Ω d (n / m) ∧ Fx u τ Ω k (g * d) ∧ Fx u τ Ω v (k / XR.fin (3 / 2))
    else v = g

/-- `RNormTerm` with overflow (model.py:258-259, 305-307). -/
def XNormTerm (u τ Ω : ℝ) (isS : Bool) (e r2 c y : XR) : Prop :=
  ∃ a E p m, Fx u τ Ω a (-e * r2) ∧ Fx u τ Ω E (XR.exp a) ∧ Fx u τ Ω p (XR.fin π) ∧ Fx u τ Ω m (XR.pow p (3 / 2)) ∧
    if isS then ∃ b s w x, Fx u τ Ω b (XR.fin (3 / 2) * E) ∧ Fx u τ Ω s (XR.pow e (1 / 2)) ∧ Fx u τ Ω w (c * s) ∧
      Fx u τ Ω x (b * w) ∧ Fx u τ Ω y (x / m)
    else ∃ g b s w x d, Fx u τ Ω g (E * r2) ∧ Fx u τ Ω b (XR.fin 5 * g) ∧ Fx u τ Ω s (XR.pow e (3 / 2)) ∧
      Fx u τ Ω w (c * s) ∧ Fx u τ Ω x (b * w) ∧ Fx u τ Ω d (XR.fin 3 * m) ∧ Fx u τ Ω y (x / d)

/-- `RDeriv` with overflow (model.py:198, 256-259, 289, 303-307). -/
def XDeriv (u τ Ω : ℝ) (isS norm : Bool) (e r c v : XR) : Prop :=
  ∃ r2 a E φ q t, Fx u τ Ω r2 (XR.pow r 2) ∧ Fx u τ Ω a (-e * r2) ∧ Fx u τ Ω E (XR.exp a) ∧
    XValue u τ Ω isS norm e r2 E φ ∧ Fx u τ Ω q (-φ * r2) ∧ Fx u τ Ω t (q * c) ∧
    if norm then ∃ y, XNormTerm u τ Ω isS e r2 c y ∧ Fx u 0 Ω v (t + y) else v = t

end
end BFit
