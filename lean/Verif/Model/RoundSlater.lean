import Verif.Model.Round
import Verif.Model.Slater

/-! The densities of `bfit/density.py` with rounding.  `Fl` and `Fu` are those of `Model/Round.lean`: every operation has
a relative error of at most `u`, and an operation that may underflow an absolute error of at most `u τ` below `τ`. -/

namespace BFit

open Real

noncomputable section

/-- One entry of `radial_slater_orbital` (density.py:246-249).  The names are `a` for `2. * exponent`, `f` for the
factorial, `m` for `norm`, `w` for `pref`, `E` for the exponential. -/
def RSlater (u τ z : ℝ) (n : ℕ) (r v : ℝ) : Prop :=
  ∃ a p f q s m w x E t, Fu u τ a (2 * z) ∧ Fu u τ p (a ^ n) ∧ Fl u f (Nat.factorial (2 * n)) ∧ Fu u τ q (a / f) ∧
    Fu u τ s (sqrt q) ∧ Fu u τ m (p * s) ∧ Fu u τ w (r ^ (n - 1)) ∧ Fu u τ x (-z * r) ∧ Fu u τ E (exp x) ∧
    Fu u τ t (m * w) ∧ Fu u τ v (t * E)

/-- One entry of `derivative_radial_slater_type_orbital` (density.py:401-408).  The number `n - 1` is exact. -/
def RSlaterDeriv (u τ z : ℝ) (n : ℕ) (r v : ℝ) : Prop :=
  if |r| < 1e-10 then v = 0
  else ∃ s d g, RSlater u τ z n r s ∧ Fu u τ d (((n : ℝ) - 1) / r) ∧ Fl u g (d - z) ∧ Fu u τ v (g * s)

/-- One entry of the product of the matrix of Slater functions or of their derivatives and the coefficients
(density.py:298, 435, 443). -/
def ROrbDot (u τ : ℝ) (deriv : Bool) (bs : List (ℝ × ℕ)) (c : List ℝ) (r m : ℝ) : Prop :=
  ∃ s : ℕ → ℝ, (∀ k < bs.length, if deriv then RSlaterDeriv u τ (bs.getD k 0).1 (bs.getD k 0).2 r (s k)
      else RSlater u τ (bs.getD k 0).1 (bs.getD k 0).2 r (s k)) ∧ RDens u τ bs.length s (c.getD · 0) m

/-- One entry of `phi_matrix` (density.py:293-298).  It is rounded once more when it is stored. -/
def ROrb (u τ : ℝ) (deriv : Bool) (bs : List (ℝ × ℕ)) (c : List ℝ) (r φ : ℝ) : Prop :=
  ∃ m, ROrbDot u τ deriv bs c r m ∧ Fu u τ φ m

/-- `x / (4 * np.pi)` (density.py:358, 449, 467). -/
def RFourPi (u τ x v : ℝ) : Prop := ∃ p f, Fl u p π ∧ Fl u f (4 * p) ∧ Fu u τ v (x / f)

/-- The density at one point for given weights of the orbitals (density.py:358). -/
def RDensity (u τ : ℝ) (os : List Orb) (basis : Sub → List (ℝ × ℕ)) (c : Orb → List ℝ) (w : List ℝ) (r ρ : ℝ) : Prop :=
  ∃ φ q : ℕ → ℝ, ∃ d, (∀ i o, os[i]? = some o → ROrb u τ false (basis o.sub) (c o) r (φ i) ∧ Fu u τ (q i) (φ i ^ 2)) ∧
    RDens u τ os.length q (w.getD · 0) d ∧ RFourPi u τ d ρ

/-- `derivative_density` at one point (density.py:465-467). -/
def RDerivDensity (u τ : ℝ) (os : List Orb) (basis : Sub → List (ℝ × ℕ)) (c : Orb → List ℝ) (w : List ℝ) (r ρ : ℝ) :
    Prop :=
  ∃ φ ψ p q : ℕ → ℝ, ∃ d, (∀ i o, os[i]? = some o → ROrb u τ false (basis o.sub) (c o) r (φ i) ∧
      ROrb u τ true (basis o.sub) (c o) r (ψ i) ∧ Fu u τ (p i) (φ i * ψ i) ∧ Fu u τ (q i) (2 * p i)) ∧
    RDens u τ os.length q (w.getD · 0) d ∧ RFourPi u τ d ρ

/-- One entry of the matrix in `positive_definite_kinetic_energy` (density.py:429-445).  The squares of the derivatives
are rounded once more when they are stored, and so is the sum. -/
def RKinEntry (u τ : ℝ) (o : Orb) (bs : List (ℝ × ℕ)) (c : List ℝ) (r v : ℝ) : Prop :=
  ∃ m q s, ROrbDot u τ true bs c r m ∧ Fu u τ q (m ^ 2) ∧ Fu u τ s q ∧
    if |r| < 1e-10 then Fl u v s
    else ∃ m' q' g r2 h t, ROrbDot u τ false bs c r m' ∧ Fu u τ q' (m' ^ 2) ∧ Fu u τ g (angular o.sub * q') ∧
      Fu u τ r2 (r ^ 2) ∧ Fu u τ h (g / r2) ∧ Fl u t (s + h) ∧ Fu u τ v t

/-- `positive_definite_kinetic_energy` at one point (density.py:447-449). -/
def RKinetic (u τ : ℝ) (os : List Orb) (basis : Sub → List (ℝ × ℕ)) (c : Orb → List ℝ) (w : List ℝ) (r ρ : ℝ) : Prop :=
  ∃ q : ℕ → ℝ, ∃ d e, (∀ i o, os[i]? = some o → RKinEntry u τ o (basis o.sub) (c o) r (q i)) ∧
    RDens u τ os.length q (w.getD · 0) d ∧ Fu u τ e (d / 2) ∧ RFourPi u τ e ρ

/-- The weight of one orbital with occupation `n` and energy `e` for `"valence"` and `"core"` (density.py:351-356); `E` is
the computed exponential, `h` the energy of the orbital listed last. -/
def RWeight (u τ : ℝ) (core : Bool) (n e h E w : ℝ) : Prop :=
  ∃ d s, Fl u d (e - h) ∧ Fu u τ s (d ^ 2) ∧ Fu u τ E (exp (-s)) ∧
    if core then ∃ g, Fl u g (1 - E) ∧ Fu u τ w (n * g) else Fu u τ w (n * E)

/-- The valence or core density at one point (density.py:349-358) with the computed exponentials `E`. -/
def RSplit (u τ : ℝ) (core : Bool) (os : List Orb) (basis : Sub → List (ℝ × ℕ)) (c : Orb → List ℝ) (occ en : List ℝ)
    (E : ℕ → ℝ) (r ρ : ℝ) : Prop :=
  ∃ w : List ℝ, w.length = os.length ∧
    (∀ i < os.length, RWeight u τ core (occ.getD i 0) (en.getD i 0) (en.getD (occ.length - 1) 0) (E i) (w.getD i 0)) ∧
    RDensity u τ os basis c w r ρ

end
end BFit
