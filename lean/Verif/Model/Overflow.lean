import Verif.Model.Round

/-!
# Overflow, infinities and nan in `evaluate`

The lines of `Model/Round.lean` for `evaluate` with all values of floating-point numbers: an operation with a result
too large for the format returns an infinity, and the rules for infinities and nan are those of `XR`.
-/

namespace BFit

open Real Classical

noncomputable section

/-- `v` is an admissible result of an operation of model.py:198-298 with the exact result `x`: finite results with the
errors of `Fu`; from `Ω` on the infinity of the same sign is possible, from `2 Ω` on it is certain.  With `Ω = 2^1023`
these are doubles, rounded to nearest; between `Ω` and `2 Ω` more results are allowed than occur. -/
def Fx (u τ Ω : ℝ) (v : XR) : XR → Prop
  | .fin x => (|x| < 2 * Ω ∧ ∃ y, v = .fin y ∧ Fu u τ y x) ∨ (Ω ≤ |x| ∧ v = XR.sgnInf x)
  | x => v = x

/-- A floating-point format for the arrays of model.py: relative error `u`, smallest normal number `τ`, largest power of
two `Ω`; met by single and double precision (`C144_double`). -/
structure FloatFormat (u τ Ω : ℝ) : Prop where
  u0 : 0 ≤ u
  u1 : u ≤ 1 / 10
  τ0 : 0 < τ
  τ1 : τ ≤ 1
  Ω1 : 1000 ≤ Ω
  low : u * τ * Ω ≤ 1
  high : 720 ≤ u * τ * Ω ^ 3

/-- The value of a basis function of exponent `e` at distance `r` (model.py:198, 245-246, 289, 296), as `RBasis` with
overflow. -/
def XBasis (u τ Ω : ℝ) (isS norm : Bool) (e r v : XR) : Prop :=
  ∃ r2 a E, Fx u τ Ω r2 (XR.pow r 2) ∧ Fx u τ Ω a (-e * r2) ∧ Fx u τ Ω E (XR.exp a) ∧
    if isS then
      if norm then ∃ p d n, Fx u τ Ω p (XR.fin π) ∧ Fx u τ Ω d (e / p) ∧ Fx u τ Ω n (XR.pow d (3 / 2)) ∧
        Fx u τ Ω v (E * n)
      else v = E
    else ∃ g, Fx u τ Ω g (E * r2) ∧
      if norm then ∃ p n m d k, Fx u τ Ω p (XR.fin π) ∧ Fx u τ Ω n (XR.pow e (5 / 2)) ∧
        Fx u τ Ω m (XR.pow p (3 / 2)) ∧ Fx u τ Ω d (n / m) ∧ Fx u τ Ω k (g * d) ∧ Fx u τ Ω v (k / XR.fin (3 / 2))
      else v = g

/-- `np.sum` and the sum inside `np.dot` (model.py:248, 298), in any order, as `RSum` with overflow. -/
inductive XSum (u Ω : ℝ) : List XR → XR → Prop
  | nil : XSum u Ω [] (XR.fin 0)
  | one (x : XR) : XSum u Ω [x] x
  | add {l l₁ l₂ : List XR} {s₁ s₂ s : XR} (h₁ : XSum u Ω l₁ s₁) (h₂ : XSum u Ω l₂ s₂) (n₁ : l₁ ≠ [])
      (n₂ : l₂ ≠ []) (hl : l.Perm (l₁ ++ l₂)) (hs : Fx u 0 Ω s (s₁ + s₂)) : XSum u Ω l s

/-- The model density at one point (model.py:248, 298, 216, 469-489), as `RDens` with overflow. -/
def XDens (u τ Ω : ℝ) (n : ℕ) (φ c : ℕ → XR) (m : XR) : Prop :=
  ∃ t : ℕ → XR, (∀ k < n, Fx u τ Ω (t k) (φ k * c k)) ∧ XSum u Ω ((List.range n).map t) m

end
end BFit
