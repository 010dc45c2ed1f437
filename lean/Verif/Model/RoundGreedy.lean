import Verif.Model.Round
import Verif.Num.Np

/-!
# Guesses and `remove_redundancies` of the greedy search with rounding

The functions of `Model/Greedy.lean` on finite numbers, with operations of which only a bound of the relative error is known.
Every operation returns a number that is determined by its operands.  Halving is exact; nothing underflows.
-/

namespace BFit

open Classical

noncomputable section

/-- Addition, subtraction, multiplication and division with relative errors of at most `u`. -/
structure ROps (u : ℝ) where
  add : ℝ → ℝ → ℝ
  sub : ℝ → ℝ → ℝ
  mul : ℝ → ℝ → ℝ
  div : ℝ → ℝ → ℝ
  add_fl : ∀ x y, Fl u (add x y) (x + y)
  sub_fl : ∀ x y, Fl u (sub x y) (x - y)
  mul_fl : ∀ x y, Fl u (mul x y) (x * y)
  div_fl : ∀ x y, Fl u (div x y) (x / y)

variable {u : ℝ} (R : ROps u)

/-- The guess with a new function at position `index` (greedy.py:126-133). -/
def rInsertAt (factor coeffVal : ℝ) (coeffs exps : List ℝ) (index : ℕ) : List ℝ × List ℝ :=
  if index = 0 then
    (npInsert coeffs index coeffVal, npInsert exps index (R.div (exps.getD index 0) factor))
  else
    (npInsert coeffs index coeffVal,
      npInsert exps index (R.add (exps.getD (index - 1) 0) (exps.getD index 0) / 2))

/-- `get_next_choices` (greedy.py:91-139). -/
def rNextChoices (factor : ℝ) (coeffs fparams : List ℝ) (coeffVal : ℝ) : List (List ℝ) :=
  let size := fparams.length
  (List.range size).flatMap fun index =>
    let p := rInsertAt R factor coeffVal coeffs fparams index
    (p.1 ++ p.2) ::
      (if index = size - 1 then
        [(coeffs ++ [coeffVal]) ++ (fparams ++ [R.mul (fparams.getD index 0) factor])]
      else [])

/-- `similar_indexes` for one `i` (greedy.py:69-77). -/
def rSimilarIndexes (fparams : List ℝ) (eps : ℝ) (i : ℕ) : List ℕ :=
  let js := (List.range' (i + 1) (fparams.length - (i + 1))).filter
    (fun j => decide (|R.sub (fparams.getD i 0) (fparams.getD j 0)| < eps))
  if js = [] then [] else i :: js

/-- `indexes_same` (greedy.py:66-77). -/
def rIndexesSame (fparams : List ℝ) (eps : ℝ) : List (List ℕ) :=
  ((List.range fparams.length).map (rSimilarIndexes R fparams eps)).filter (fun g => decide (g ≠ []))

/-- `new_coeffs[group[0]] += coeffs[group[i]]` for all later members (greedy.py:79-82). -/
def rAddGroup (coeffs : List ℝ) (new : List ℝ) (group : List ℕ) : List ℝ :=
  group.tail.foldl (fun nc j => nc.modify (group.headD 0) (fun c => R.add c (coeffs.getD j 0))) new

/-- `remove_redundancies` (greedy.py:37-88). -/
def rRemoveRedundancies (coeffs fparams : List ℝ) (eps : ℝ) : List ℝ × List ℝ :=
  let same := rIndexesSame R fparams eps
  let newCoeffs := same.foldl (rAddGroup R coeffs) coeffs
  if same.length ≠ 0 then
    let indices := same.flatMap List.tail
    (npDelete newCoeffs indices, npDelete fparams indices)
  else (newCoeffs, fparams)

end
end BFit
