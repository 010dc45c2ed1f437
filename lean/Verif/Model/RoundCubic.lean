import Verif.Model.Round

/-!
# The points and weights of cubic grids with rounding

`CubicGrid.__init__`, `_calculate_volume` and `_choose_weight_scheme` with the errors of `Model/Round.lean`, for finite axes and
origins in three dimensions and positive shapes.  No operation underflows.
-/

namespace BFit

open Real Classical

noncomputable section

/-- Point `(i, j, k)` computed as `coords.T.dot(axes) + origin` (grid.py:279). -/
def RCubicPoint (u : ℝ) (o : Fin 3 → ℝ) (a : Fin 3 → Fin 3 → ℝ) (i j k : ℕ) (p : Fin 3 → ℝ) : Prop :=
  ∀ d, ∃ x y z s, Fl u x (i * a 0 d) ∧ Fl u y (j * a 1 d) ∧ Fl u z (k * a 2 d) ∧ RSum u [x, y, z] s ∧ Fl u (p d) (s + o d)

/-- An entry `x y - z t` of `np.cross` (grid.py:362). -/
def RCross (u c x y z t : ℝ) : Prop := ∃ p q, Fl u p (x * y) ∧ Fl u q (z * t) ∧ Fl u c (p - q)

/-- The number `volume / numpnt` that fills the weights (grid.py:355-377).  The number of points is rounded too. -/
def RCubicWeight (u : ℝ) (a : Fin 3 → Fin 3 → ℝ) (nx ny nz : ℕ) (w : ℝ) : Prop :=
  ∃ A B C c t : Fin 3 → ℝ, ∃ V N, (∀ d, Fl u (A d) (nx * a 0 d)) ∧ (∀ d, Fl u (B d) (ny * a 1 d)) ∧
    (∀ d, Fl u (C d) (nz * a 2 d)) ∧ RCross u (c 0) (A 1) (B 2) (A 2) (B 1) ∧ RCross u (c 1) (A 2) (B 0) (A 0) (B 2) ∧
    RCross u (c 2) (A 0) (B 1) (A 1) (B 0) ∧ (∀ d, Fl u (t d) (c d * C d)) ∧ RSum u [t 0, t 1, t 2] V ∧
    Fl u N (nx * ny * nz) ∧ Fl u w (|V| / N)

end
end BFit
