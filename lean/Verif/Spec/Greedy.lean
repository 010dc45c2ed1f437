import Verif.Num.Np
import Mathlib.Data.List.InsertIdx

/-!
# Specification vocabulary for greedy.py
-/

namespace BFit

open Classical

noncomputable section

/-- The new exponent offered at position `k` of `n = es.length` exponents: the first divided by the
factor, the midpoint of the two neighbours, or the last times the factor. -/
def newExponent (factor : XR) (es : List XR) (k : ℕ) : XR :=
  if k = 0 then es.getD 0 0 / factor
  else if k = es.length then es.getD (es.length - 1) 0 * factor
  else (es.getD (k - 1) 0 + es.getD k 0) / XR.fin 2

/-- Parameters with one more function at position `k`. -/
def withNew (factor v : XR) (p : List XR × List XR) (k : ℕ) : List XR × List XR :=
  (p.1.insertIdx k v, p.2.insertIdx k (newExponent factor p.2 k))

/-- Positions `i`, `j` hold similar exponents. -/
def Similar (es : List XR) (eps : XR) (i j : ℕ) : Prop :=
  (es.getD i 0 - es.getD j 0).abs < eps

end
end BFit
