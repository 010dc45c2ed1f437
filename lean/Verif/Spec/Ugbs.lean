import Verif.Spec.Data
import Verif.Spec.Fit
import Mathlib.Analysis.SpecialFunctions.Exp

/-! Specification of the bundled UGBS file. -/

namespace BFit

noncomputable section

/-- `2.5E-002`: a decimal number without white space, `E-` and digits, for the number `x`. -/
def SciText (w : Str) (x : ℝ) : Prop :=
  ∃ (m d : Str) (y : ℝ), w = m ++ 'E' :: '-' :: d ∧ DecText m y ∧ (∀ c ∈ m, ¬ White c) ∧ d ≠ [] ∧
    (∀ c ∈ d, c.isDigit = true) ∧ x = y / 10 ^ decDigits d

/-- The built-in `float` reads decimal numbers with and without an exponent exactly. -/
structure ReadsFloats (tf : Str → Py XR) : Prop where
  dec : ReadsDecimals tf
  sci : ∀ w x, SciText w x → tf w = .ok (.fin x)

/-- `str.lower` on ASCII strings. -/
def LowersAscii (low : Str → Str) : Prop :=
  ∀ w : Str, (∀ c ∈ w, c.toNat < 128) → low w = w.map Char.toLower

/-- The exponents of the universal Gaussian basis set. -/
def universal (k : ℤ) : ℝ := Real.exp (0.12 + 0.672 * k)

/-- The part of the UGBS file for an element: its atomic number, its symbol, the shells with the number of the
first exponent in the universal set (counted from `-6`) and the number of exponents, and the lines. -/
structure UBlock where
  z : ℕ
  el : Str
  shells : List (Char × ℕ × ℕ)
  lines : List Str

/-- The exponents of a shell of an element: consecutive members of the universal set in descending order, from
number `top` on. -/
structure ShellOk (l : List ℝ) (top : ℤ) : Prop where
  le : top ≤ 27
  ge : -6 ≤ top - l.length + 1
  near : ∀ i < l.length, |vec l i - universal (top - i)| ≤ 5e-15 * universal (top - i)

/-- The shells that an element has. -/
def shellsOf (z : ℕ) : List Char :=
  if z < 5 then ['S'] else if z < 21 then ['S', 'P'] else if z < 72 then ['S', 'P', 'D'] else ['S', 'P', 'D', 'F']

end
end BFit
