import Verif.Model.Gauss
import Verif.Model.Parse

/-! Use of the results of fits that come with the package, as documented in README.md. -/

namespace BFit

noncomputable section

/-- What `json.load` returns for an element in `bfit/data/kl_fpi_results.json` or `kl_slsqp_results.json`: the
values under the keys `num_s`, `num_p`, `coeffs` and `exps`, the last two as arrays (README.md:130-133).
Simplified: only these four keys, the counts are not negative. -/
structure FitEntry where
  numS : ℕ
  numP : ℕ
  coeffs : List XR
  exps : List XR

/-- `data[element]` (README.md:128).  The dictionary is given as the list of its items in the order of the
file; of items with the same key the last one counts, as in `json.load`. -/
def fitOf (data : List (Str × FitEntry)) (element : Str) : Py FitEntry :=
  match data.reverse.find? fun p => p.1 == element with
  | some p => .ok p.2
  | none => raise .keyError

/-- `AtomicGaussianDensity(points, num_s=num_s, num_p=num_p, normalize=True).evaluate(coeffs, exps)`
(README.md:142-143). -/
def fitModel (points : List XR) (v : FitEntry) : Py (List XR) :=
  match Atomic.init (.arr (.one points)) .none (.int v.numS) (.int v.numP) true with
  | .error err => .error err
  | .ok m => match m.evaluate (ND.vec v.coeffs) (ND.vec v.exps) false with
    | .error err => .error err
    | .ok out => .ok out.1

end
end BFit
