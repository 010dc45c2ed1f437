import Verif.Model.RoundGreedy

/-!
# The pick-two and pick-two-lose-one guesses with rounding

The functions of `Model/Greedy.lean` on finite numbers, with the operations of `Model/RoundGreedy.lean`.
-/

namespace BFit

open Classical

noncomputable section

variable {u : ℝ} (R : ROps u)

/-- `_get_next_possible_coeffs_and_exps2` (greedy.py:177-196); the two parallel lists are a list of pairs. -/
def rNextPairs (factor : ℝ) (coeffs exps : List ℝ) (coeffVal : ℝ) : List (List ℝ × List ℝ) :=
  let size := exps.length
  (List.range size).flatMap fun index =>
    rInsertAt R factor coeffVal coeffs exps index ::
      (if index = size - 1 then [(coeffs ++ [coeffVal], exps ++ [R.mul (exps.getD index 0) factor])] else [])

/-- `get_two_next_choices` (greedy.py:142-224). -/
def rTwoNextChoices (factor : ℝ) (coeffs fparams : List ℝ) (coeffVal : ℝ) : List (List ℝ) :=
  let size := fparams.length
  let pairs := (List.range size).flatMap fun i =>
    let p := rInsertAt R factor coeffVal coeffs fparams i
    sliceFrom (rNextPairs R factor p.1 p.2 coeffVal) i ++
      (if i = size - 1 then
        sliceFrom (rNextPairs R factor (coeffs ++ [coeffVal]) (fparams ++ [R.mul (fparams.getD i 0) factor]) coeffVal) (-2)
      else [])
  pairs.map (fun p => p.1 ++ p.2)

/-- `pick_two_lose_one` (greedy.py:227-262). -/
def rPickTwoLoseOne (factor : ℝ) (coeffs exps : List ℝ) (coeffVal : ℝ) : List (List ℝ) :=
  (rTwoNextChoices R factor coeffs exps coeffVal).flatMap fun p =>
    let coeff := p.take (p.length / 2)
    let exp := p.drop (p.length / 2)
    (List.range (p.length / 2)).map fun j => npDelete coeff [j] ++ npDelete exp [j]

end
end BFit
