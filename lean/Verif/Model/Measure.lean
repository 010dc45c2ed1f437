import Verif.Num.Np

/-!
# Model of `bfit/measure.py`

Arguments are Python objects (`PyObj`), because the argument checks distinguish them.  An array with
one-dimensional shape carries its entries as a list.
-/

namespace BFit

open Classical

noncomputable section

/-- Result of a measure (measure.py:114-116, 225-228, 347-349): the values and, when `deriv=True`, the derivative. -/
abbrev MeasOut := List XR × Option (List XR)

/-- The argument checks shared by the three `evaluate` methods (measure.py:99-109, 198-209 and
329-340).  The f-string of the first check evaluates `density.shape`, which raises AttributeError when
`density` is not an array.  Returns the entries of both arrays and the flag. -/
def checkArgs (density model deriv : PyObj) : Py (List XR × List XR × Bool) :=
  match model with
  | .arr m => match density with
    | .arr d =>
      if d.ndim ≠ 1 then raise .valueError
      else if m.shape ≠ d.shape then raise .valueError
      else match deriv with
        | .bool b => .ok (d.data, m.data, b)
        | _ => raise .typeError
    | _ => raise .valueError
  | _ => match density with
    | .arr _ => raise .valueError
    | _ => raise .attributeError

/-- Entries of `SquaredDifference.evaluate` (measure.py:110-117). -/
def sqCore (density model : List XR) (deriv : Bool) : MeasOut :=
  let residual := List.zipWith (· - ·) density model
  let value := residual.map (fun r => XR.pow r 2)
  (value, if deriv then some (residual.map (fun r => XR.fin (-2) * r)) else none)

/-- `SquaredDifference.evaluate` (measure.py:66-117). -/
def sqEvaluate (density model deriv : PyObj) : Py MeasOut :=
  match checkArgs density model deriv with
  | .error e => .error e
  | .ok (d, m, b) => .ok (sqCore d m b)

/-- A `KLDivergence` object (measure.py:123-150). -/
structure KL where
  maskValue : XR
  negativeVal : XR

/-- `KLDivergence()` with the default arguments (measure.py:123). -/
def KL.default : KL := ⟨XR.fin 1e-12, XR.fin 100000⟩

/-- The ratio of measure.py:218-219. -/
def KL.ratio (k : KL) (density model : List XR) : List XR :=
  List.zipWith (maDivFilled k.maskValue (XR.fin 1)) density model

/-- Entries of `KLDivergence.evaluate` (measure.py:210-228). -/
def KL.core (k : KL) (density model : List XR) (deriv : Bool) : MeasOut :=
  if ∃ x ∈ model, x < XR.fin 0 then
    (List.replicate model.length k.negativeVal,
      if deriv then some (List.replicate model.length k.negativeVal) else none)
  else
    let ratio := k.ratio density model
    let value := List.zipWith (fun d r => d * XR.log r) density ratio
    (value, if deriv then some (ratio.map (fun r => -r)) else none)

/-- `KLDivergence.evaluate` (measure.py:152-228). -/
def KL.evaluate (k : KL) (density model deriv : PyObj) : Py MeasOut :=
  match checkArgs density model deriv with
  | .error e => .error e
  | .ok (d, m, b) => .ok (k.core d m b)

/-- A `TsallisDivergence` object (measure.py:234-272).  Simplification: alpha is a finite number. -/
structure Tsallis where
  alpha : ℝ
  maskValue : XR

/-- `TsallisDivergence.__init__` (measure.py:234-262) for a finite alpha. -/
def Tsallis.init (alpha : ℝ) (maskValue : XR) : Py Tsallis :=
  if alpha < 0 then raise .valueError
  else if |alpha - 1| < 1e-10 then raise .valueError
  else .ok ⟨alpha, maskValue⟩

/-- Entries of `TsallisDivergence.evaluate` (measure.py:342-349). -/
def Tsallis.core (t : Tsallis) (density model : List XR) (deriv : Bool) : MeasOut :=
  let ratio := List.zipWith (maDivFilled t.maskValue (XR.fin 0)) density model
  let value := List.zipWith (fun d r => d * (XR.pow r (t.alpha - 1) - XR.fin 1)) density ratio
  let integrand := value.map (fun v => v / XR.fin (t.alpha - 1))
  (integrand, if deriv then some (ratio.map (fun r => -(XR.pow r t.alpha))) else none)

/-- `TsallisDivergence.evaluate` (measure.py:274-349). -/
def Tsallis.evaluate (t : Tsallis) (density model deriv : PyObj) : Py MeasOut :=
  match checkArgs density model deriv with
  | .error e => .error e
  | .ok (d, m, b) => .ok (t.core d m b)

/-- An instance of one of the three measure classes (measure.py:63, 120, 231). -/
inductive Meas where
  | sq
  | kl (k : KL)
  | ts (t : Tsallis)

/-- `measure.evaluate(density, model, deriv)`: the method of the class (measure.py:66, 152, 274). -/
def Meas.evaluate : Meas → PyObj → PyObj → PyObj → Py MeasOut
  | .sq, d, m, b => sqEvaluate d m b
  | .kl k, d, m, b => k.evaluate d m b
  | .ts t, d, m, b => t.evaluate d m b

end
end BFit
