import Verif.Model.Npz

/-! Specification of the archives with results of fits. -/

namespace BFit

noncomputable section

/-- The numbers of an element in an archive: numbers of functions and the bits of the coefficients and exponents. -/
structure NEntry where
  sym : Str
  ns : ℕ
  np : ℕ
  cs : List ℕ
  es : List ℕ

/-- Eight bytes, the lowest first. -/
def le8 (w : ℕ) : List ℕ :=
  [w % 256, w / 256 % 256, w / 256 ^ 2 % 256, w / 256 ^ 3 % 256, w / 256 ^ 4 % 256, w / 256 ^ 5 % 256, w / 256 ^ 6 % 256,
    w / 256 ^ 7 % 256]

/-- A `.npy` file with an array of doubles. -/
def npyFloats (ws : List ℕ) : List ℕ :=
  npyHead "<f8".toList ("(".toList ++ Nat.toDigits 10 ws.length ++ ",)".toList) ++ ws.flatMap le8

/-- A `.npy` file with an integer. -/
def npyInt (n : ℕ) : List ℕ := npyHead "<i8".toList "()".toList ++ le8 n

/-- The members for an element (in `kl_slsqp_results.npz` the last two come first). -/
def NEntry.members (e : NEntry) : List (Str × List ℕ) :=
  [(e.sym ++ "_coeffs.npy".toList, npyFloats e.cs), (e.sym ++ "_exps.npy".toList, npyFloats e.es),
    (e.sym ++ "_num_s.npy".toList, npyInt e.ns), (e.sym ++ "_num_p.npy".toList, npyInt e.np)]

/-- An archive. -/
def npzMembers (es : List NEntry) : List (Str × List ℕ) := es.flatMap NEntry.members

/-- Among all finite doubles, `x` is the only one closest to the number `y`: the value that Python reads for a decimal
numeral with the value `y`. -/
def ReadsAs (x y : XR) : Prop :=
  ∃ (w : ℕ) (a r : ℝ), w < 2 ^ 64 ∧ x = f64 w ∧ x = XR.fin a ∧ y = XR.fin r ∧
    ∀ w' < 2 ^ 64, ∀ b, f64 w' = XR.fin b → b ≠ a → |a - r| < |b - r|

end
end BFit
