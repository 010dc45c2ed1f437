import Verif.Model.Fits
import Verif.Spec.Data

/-! Specification of the files with results of fits. -/

namespace BFit

noncomputable section

/-- `12`: digits without a leading zero, for the number `n`. -/
def JInt (w : Str) (n : ℕ) : Prop :=
  w ≠ [] ∧ (∀ c ∈ w, c.isDigit = true) ∧ (w.head? = some '0' → w = ['0']) ∧ n = decDigits w

/-- `1.25`, `9.75e-09` or `1e-12`: an integer, perhaps a point and digits, perhaps `e-` and digits, but not
only an integer, for the number `x`. -/
def JFloat (w : Str) (x : ℝ) : Prop :=
  ∃ (d d' ex : Str) (n : ℕ),
    w = d ++ ((if d' = [] then [] else '.' :: d') ++ (if ex = [] then [] else 'e' :: '-' :: ex)) ∧
    JInt d n ∧ (∀ c ∈ d', c.isDigit = true) ∧ (∀ c ∈ ex, c.isDigit = true) ∧ ¬ (d' = [] ∧ ex = []) ∧
    x = (decDigits (d ++ d') : ℝ) / 10 ^ (d'.length + decDigits ex)

/-- The texts of the symbol of an element and of the numbers for it. -/
structure JEntry where
  sym : Str
  numS : Str
  numP : Str
  coeffs : List Str
  exps : List Str

/-- Join with a comma and a space. -/
def commas : List Str → Str
  | [] => []
  | [w] => w
  | w :: w' :: ws => w ++ ", ".toList ++ commas (w' :: ws)

/-- `"h": {"num_s": 20, "num_p": 0, "coeffs": [9.75e-09, ...], "exps": [...]}`. -/
def JEntry.text (e : JEntry) : Str :=
  "\"".toList ++ e.sym ++ "\": {\"num_s\": ".toList ++ e.numS ++ ", \"num_p\": ".toList ++ e.numP ++
    ", \"coeffs\": [".toList ++ commas e.coeffs ++ "], \"exps\": [".toList ++ commas e.exps ++ "]}".toList

/-- The text of a file. -/
def fitsText (es : List JEntry) : Str := "{".toList ++ commas (es.map JEntry.text) ++ "}".toList

/-- The texts of the numbers in an entry stand for these values. -/
structure JEntry.Means (e : JEntry) (v : FitEntry) : Prop where
  sym : e.sym ≠ [] ∧ ∀ c ∈ e.sym, c.isAlpha = true
  numS : JInt e.numS v.numS
  numP : JInt e.numP v.numP
  coeffs : List.Forall₂ (fun w x => ∃ y, JFloat w y ∧ x = XR.fin y) e.coeffs v.coeffs
  exps : List.Forall₂ (fun w x => ∃ y, JFloat w y ∧ x = XR.fin y) e.exps v.exps

/-- `json.load` reads texts of this form, with exact numbers (no rounding, as everywhere in the model). -/
def ReadsFits (jload : Str → Py (List (Str × FitEntry))) : Prop :=
  ∀ (es : List JEntry) (data : List (Str × FitEntry)),
    List.Forall₂ (fun e p => p.1 = e.sym ∧ e.Means p.2) es data → jload (fitsText es) = .ok data

end
end BFit
