import Verif.Model.Slater
import Verif.Lemmas.Trapz

/-!
Specification of the Slater-type functions and of the atomic orbitals over `ℝ`
(docstrings of `bfit/density.py`).
-/

namespace BFit

open Real

noncomputable section

/-- The radial Slater function `(2z)^n sqrt(2z/(2n)!) r^(n-1) exp(-z r)`. -/
def slaterR (z : ℝ) (n : ℕ) (r : ℝ) : ℝ :=
  (2 * z) ^ n * sqrt (2 * z / (Nat.factorial (2 * n))) * r ^ (n - 1) * exp (-z * r)

/-- Its derivative in the form of the documentation. -/
def slaterR' (z : ℝ) (n : ℕ) (r : ℝ) : ℝ := (((n : ℝ) - 1) / r - z) * slaterR z n r

/-- Radial part of an orbital: the combination with coefficients `c` of the Slater functions `bs`. -/
def orbR (bs : List (ℝ × ℕ)) (c : List ℝ) (r : ℝ) : ℝ :=
  wsum (bs.map fun b => slaterR b.1 b.2 r) c

/-- The same combination of the derivatives. -/
def orbR' (bs : List (ℝ × ℕ)) (c : List ℝ) (r : ℝ) : ℝ :=
  wsum (bs.map fun b => slaterR' b.1 b.2 r) c

/-- Azimuthal quantum number of a subshell. -/
def Sub.l : Sub → ℕ
  | .S => 0
  | .P => 1
  | .D => 2
  | .F => 3

/-- A `SlaterAtoms` object with finite data: Slater functions `basis` of each subshell (positive
exponents, positive numbers), coefficients `c`, non-negative occupations and energies. -/
structure IsSlater (A : SlaterAtom) (basis : Sub → List (ℝ × ℕ)) (c : Orb → List ℝ) (occ en : List ℝ) :
    Prop where
  exps : ∀ o ∈ A.orbitals, A.exps o.sub = some (fins ((basis o.sub).map Prod.fst))
  nums : ∀ o ∈ A.orbitals, A.nums o.sub = some ((basis o.sub).map Prod.snd)
  coeff : ∀ o ∈ A.orbitals, A.coeff o = some (fins (c o))
  width : ∀ o ∈ A.orbitals, (c o).length = (basis o.sub).length
  pos : ∀ o ∈ A.orbitals, ∀ b ∈ basis o.sub, 0 < b.1 ∧ 1 ≤ b.2
  occ_eq : A.occ = fins occ
  occ_len : occ.length = A.orbitals.length
  occ_nonneg : ∀ x ∈ occ, 0 ≤ x
  en_eq : A.energies = fins en
  en_len : en.length = A.orbitals.length

end
end BFit
