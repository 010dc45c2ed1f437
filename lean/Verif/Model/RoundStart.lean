import Verif.Model.Round

/-!
# The one-function starts of the greedy search with rounding

`GreedyLeastSquares._solve_one_function_weight` and `GreedyKLFPI.get_best_one_function_solution` with the errors of `Model/Round.lean`
on radial grids, for finite data.  Doubling and `2 * 4` are exact.  No operation underflows.
-/

namespace BFit

open Real Classical

noncomputable section

/-- `(a * b - c * d) / (e * f - g * h)` (greedy.py:759-760). -/
def RQuot (u v a b c d e f g h : ℝ) : Prop :=
  ∃ p q m r s k, Fl u p (a * b) ∧ Fl u q (c * d) ∧ Fl u m (p - q) ∧ Fl u r (e * f) ∧ Fl u s (g * h) ∧ Fl u k (r - s) ∧
    Fl u v (m / k)

/-- `_solve_one_function_weight` (greedy.py:749-763) for `n` points `x`, the density `y` and the weight `w`: the coefficient `cf`
and the exponent `α`. -/
def RSolveOne (u : ℝ) (n : ℕ) (x y w : ℕ → ℝ) (cf α : ℝ) : Prop :=
  ∃ q r l tb tc te s tf : ℕ → ℝ, ∃ W B C E F A V,
    (∀ i < n, Fl u (q i) (x i ^ 2) ∧ Fl u (r i) (x i ^ 4) ∧ Fl u (l i) (log (y i)) ∧ Fl u (tb i) (w i * q i) ∧
      Fl u (tc i) (w i * l i) ∧ Fl u (te i) (w i * r i) ∧ Fl u (s i) (w i * q i) ∧ Fl u (tf i) (s i * l i)) ∧
    RSum u ((List.range n).map w) W ∧ RSum u ((List.range n).map tb) B ∧ RSum u ((List.range n).map tc) C ∧
    RSum u ((List.range n).map te) E ∧ RSum u ((List.range n).map tf) F ∧
    RQuot u A (2 * B) (2 * F) (2 * C) (2 * E) (2 * B) (2 * B) (2 * W) (2 * E) ∧
    RQuot u V (2 * W) (2 * F) (2 * C) (2 * B) (2 * W) (2 * E) (2 * B) (2 * B) ∧ Fl u cf (exp A) ∧ α = -V

/-- The exponent of `GreedyKLFPI.get_best_one_function_solution` (greedy.py:945-949) for the points `x`, the density `f` and the
stored number of electrons `T`. -/
def RKlStart (u : ℝ) (x : List ℝ) (f : ℕ → ℝ) (T α : ℝ) : Prop :=
  ∃ q r h : ℕ → ℝ, ∃ d k p m n, (∀ i < x.length, Fl u (q i) (x.getD i 0 ^ 2) ∧ Fl u (r i) (q i ^ 2) ∧ Fl u (h i) (f i * r i)) ∧
    RTrapz u 0 x.length (x.getD · 0) h d ∧ Fl u k (3 * T) ∧ Fl u p π ∧ Fl u m (8 * p) ∧ Fl u n (m * d) ∧ Fl u α (k / n)

end
end BFit
