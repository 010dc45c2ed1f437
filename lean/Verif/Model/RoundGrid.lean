import Verif.Model.Round

/-!
# The points of the radial grids with rounding

`ClenshawRadialGrid._get_points` and `UniformRadialGrid.__init__` with the errors of `Model/Round.lean`.  The constants and the
points are computed in formats of different precision (`np.pi` is a double, `np.arange` has the given `dtype`); `u` is a bound for
all of them.  No operation underflows.
-/

namespace BFit

open Real Classical

noncomputable section

/-- A result of `np.cos` (grid.py:232, 240): a small relative error, never above one in absolute value, exact at zero. -/
def RCos (u v x : ℝ) : Prop := Fl u v (cos x) ∧ |v| ≤ 1 ∧ (x = 0 → v = 1)

/-- The number `1. - np.cos(0.5 * np.pi * p / num_pts)` for the entry `p` of `np.arange` (grid.py:232-236, 240).  Halving is
exact. -/
def RClenshaw (u : ℝ) (n p : ℕ) (w : ℝ) : Prop :=
  ∃ q a t c, Fl u q π ∧ Fl u a (1 / 2 * q * p) ∧ Fl u t (a / n) ∧ RCos u c t ∧ Fl u w (1 - c)

/-- The computed core points for the atomic number `z` (grid.py:231-237): `n` numbers, the first for `p = 0` if the origin is
included, otherwise for `p = 1`. -/
def RCore (u : ℝ) (z : ℤ) (n : ℕ) (o : Bool) (v : List ℝ) : Prop :=
  v.length = n ∧ ∀ (k : ℕ) (hk : k < v.length), ∃ w, RClenshaw u n (k + if o then 0 else 1) w ∧ Fl u v[k] (w / (2 * z))

/-- The computed diffuse points (grid.py:238-241). -/
def RDiffuse (u : ℝ) (n : ℕ) (v : List ℝ) : Prop :=
  v.length = n ∧ ∀ (k : ℕ) (hk : k < v.length), ∃ w, RClenshaw u n (k + 1) w ∧ Fl u v[k] (25 * w)

/-- The computed points of a Clenshaw grid (grid.py:168-189) for extra points `l`: sorting is exact. -/
def RClenshawGrid (u : ℝ) (z : ℤ) (m n : ℕ) (l : List ℝ) (o : Bool) (v : List ℝ) : Prop :=
  ∃ c d, RCore u z m o c ∧ RDiffuse u n d ∧ v.Perm (c ++ d ++ l) ∧ v.Pairwise (· ≤ ·)

/-- The computed points of a uniform grid (grid.py:117-118, `np.linspace`): `arange(0, num) * step + start` with
`step = (stop - start) / (num - 1)`, the last number replaced by `stop`; for one point `start`.  Adding zero is exact.  The numbers
are computed in double precision; the conversion to `dtype` is exact for longer types. -/
def RUniform (u a b : ℝ) (n : ℕ) (v : List ℝ) : Prop :=
  v.length = n ∧ ∀ (k : ℕ) (hk : k < v.length),
    if n = 1 then v[k] = a
    else if k = n - 1 then v[k] = b
    else ∃ δ s y, Fl u δ (b - a) ∧ Fl u s (δ / ((n : ℝ) - 1)) ∧ Fl u y (k * s) ∧
      if y = 0 then v[k] = a else Fl u v[k] (y + a)

end
end BFit
