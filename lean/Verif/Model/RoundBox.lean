import Verif.Model.Round
import Verif.Model.Grid

/-!
# `CubicGrid.from_molecule` with rounding

The origin and the shape of the grid for `rotate=False` with the errors of `Model/Round.lean`, for finite input.  Doubling and
halving are exact.  No operation underflows.
-/

namespace BFit

open Real Classical

noncomputable section

/-- The centre of the nuclear charges (grid.py:319-320). -/
def RCentre (u : ℝ) (zs : List ℝ) (coords : List (Fin 3 → ℝ)) (com : Fin 3 → ℝ) : Prop :=
  ∃ T, RSum u zs T ∧ ∀ d, ∃ t S, List.Forall₂ (Fl u) t (List.zipWith (fun z (x : Fin 3 → ℝ) => z * x d) zs coords) ∧
    RSum u t S ∧ Fl u (com d) (S / T)

/-- The number of points in one direction (grid.py:346-349). -/
def RExtent (u hi lo ext sp : ℝ) (n : ℤ) : Prop :=
  ∃ l s q, Fl u l (hi - lo) ∧ Fl u s (l + 2 * ext) ∧ Fl u q (s / sp) ∧ n = ⌈q⌉

/-- The origin and the shape passed to the constructor for `rotate=False` (grid.py:318-320, 336-353). -/
def RFromMolecule (u : ℝ) (zs : List ℝ) (coords : List (Fin 3 → ℝ)) (sp ext : ℝ) (o : Fin 3 → ℝ) (n : Fin 3 → ℤ) : Prop :=
  ∃ com, RCentre u zs coords com ∧ ∀ d, (∃ hi lo : ℝ, npMax (coords.map fun x => XR.fin (x d)) = .ok (XR.fin hi) ∧
      npMin (coords.map fun x => XR.fin (x d)) = .ok (XR.fin lo) ∧ RExtent u hi lo ext sp (n d)) ∧
    ∃ p q r s, Fl u p (0.5 * n 0 * if (0 : Fin 3) = d then sp else 0) ∧ Fl u q (0.5 * n 1 * if (1 : Fin 3) = d then sp else 0) ∧
      Fl u r (0.5 * n 2 * if (2 : Fin 3) = d then sp else 0) ∧ RSum u [p, q, r] s ∧ Fl u (o d) (com d - s)

end
end BFit
