import Verif.Spec.PrintText

/-! Specification of the texts in `exit_information`. -/

namespace BFit

noncomputable section

/-- The text about failing rounds with two whole numbers. -/
def NotBestText (w : Str) (a b : ℤ) : Prop :=
  ∃ u v, w = chars! "Next Iteration Did Not Find The Best Choice at number of s-type " ++
    (u ++ (chars! " and p-type " ++ v)) ∧ IntText u a ∧ IntText v b

/-- The text about the maximum with a whole number. -/
def MaxText (w : Str) (n : ℤ) : Prop := ∃ u, w = chars! "Max number of functions reached," ++ u ∧ IntText u n

/-- The text about convergence with the texts of a difference and a threshold. -/
def EpsText (w d t : Str) : Prop := w = chars! "Cost function is less than some epsilon: " ++ (d ++ (chars! " <= " ++ t))

end
end BFit
