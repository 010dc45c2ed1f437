import Verif.Spec.Parse

/-! Specification of the decimal numbers in the data files, and the texts of the bundled files. -/

namespace BFit

noncomputable section

/-- Value of a string of digits. -/
def decDigits (s : Str) : ℕ := s.foldl (fun a c => 10 * a + (c.toNat - 48)) 0

/-- `  -12.345`: white space, perhaps a minus sign, perhaps digits, a point, digits, white space, for the number
`x`. -/
def DecText (w : Str) (x : ℝ) : Prop :=
  ∃ (a : Str) (neg : Bool) (d d' b : Str),
    w = a ++ ((if neg then ['-'] else []) ++ (d ++ '.' :: (d' ++ b))) ∧
    Blank a ∧ Blank b ∧ d' ≠ [] ∧
    (∀ c ∈ d, c.isDigit = true) ∧ (∀ c ∈ d', c.isDigit = true) ∧
    x = (if neg then -1 else 1) * (decDigits (d ++ d') : ℝ) / 10 ^ d'.length

/-- The built-in `float` reads decimal numbers exactly (no rounding, as everywhere in the model). -/
def ReadsDecimals (tf : Str → Py XR) : Prop := ∀ w x, DecText w x → tf w = .ok (.fin x)

/-- Charge of an atom. -/
inductive Charge
  | neutral
  | anion
  | cation
  deriving DecidableEq

/-- Number of electrons of the atom with atomic number `z`. -/
def Charge.electrons : Charge → ℕ → ℕ
  | .neutral, z => z
  | .anion, z => z + 1
  | .cation, z => z - 1

/-- File of an element relative to the directory of the package. -/
def Charge.path : Charge → Str → Str
  | .neutral, e => "/data/neutral/".toList ++ e ++ ".slater".toList
  | .anion, e => "/data/anion/".toList ++ e ++ ".an".toList
  | .cation, e => "/data/cation/".toList ++ e ++ ".cat".toList

/-- A data file: atomic number, charge, lines. -/
structure DataFile where
  z : ℕ
  charge : Charge
  lines : List Str

/-- The atoms among those in the bundled files whose last orbital in the order S, P, D, F has the highest
orbital energy. -/
def lastIsHighest : Charge → List ℕ
  | .neutral => [1, 2, 3, 4, 5, 6, 7, 8, 9, 10, 13, 14, 15, 16, 17, 18, 46]
  | .anion => [1, 3, 5, 6, 7, 8, 9, 13, 14, 15, 16, 17]
  | .cation => [3, 4, 5, 6, 7, 8, 9, 10, 11, 14, 15, 16, 17, 18, 19, 23, 24, 27, 28, 29, 41, 42, 44, 45, 46, 47]

/-- A string literal as a list of characters. -/
elab "chars!" s:str : term => return Lean.toExpr s.getString.toList

end
end BFit
