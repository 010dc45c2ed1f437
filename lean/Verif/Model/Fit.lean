import Verif.Model.Grid
import Verif.Model.Gauss
import Verif.Model.Measure

/-!
# Model of `bfit/fit.py`

Fit objects are never mutated by the methods modelled here; the optimiser of scipy is an arbitrary
function.  Timing and printing are not modelled.
-/

namespace BFit

open Classical

noncomputable section

/-- The `model` attribute of a fit: an object of one of the two classes of model.py. -/
inductive GModel where
  | atom (m : Atomic)
  | mol (m : Molecular)

/-- `model.nbasis` (model.py:122-125, 374-377). -/
def GModel.nbasis : GModel → ℤ
  | .atom m => m.nbasis
  | .mol m => m.nbasis

/-- `model.natoms` (model.py:127-130, 384-387). -/
def GModel.natoms : GModel → ℕ
  | .atom _ => 1
  | .mol m => m.basis.length

/-- `model.prefactor` (model.py:132-135, 389-396). -/
def GModel.prefactor : GModel → List XR
  | .atom m => m.prefactor
  | .mol m => m.prefactor

/-- `model.points` (model.py:102-105, 369-372). -/
def GModel.points : GModel → Pts
  | .atom m => m.points
  | .mol m => m.points

/-- `model.evaluate(coeffs, expons, deriv)` for 1-D arrays (model.py:156-216, 420-492). -/
def GModel.evaluate (m : GModel) (coeffs expons : List XR) (deriv : Bool) : Py EvalOut :=
  match m with
  | .atom m => m.evaluate (ND.vec coeffs) (ND.vec expons) deriv
  | .mol m => m.evaluate (ND.vec coeffs) (ND.vec expons) deriv

/-- The radii used for basis function `index` in the exponent update (fit.py:288-294). -/
def GModel.radiiFor (m : GModel) (index : ℕ) : Py (List XR) :=
  match m with
  | .atom m => .ok m.radii
  | .mol m =>
    if m.basis.length = 1 then .ok m.radii.flatten
    else match m.assignBasis index with
      | .error e => .error e
      | .ok a => match m.radii[a]? with
        | some r => .ok r
        | none => raise .indexError

/-- Elementwise binary operation on 1-D arrays with numpy broadcasting (`density - model`, measure.py:111; `self.weights * k`,
fit.py:722, 725; `-dk * dm[:, index]`, fit.py:285). -/
def bcast (op : XR → XR → XR) (a b : List XR) : Py (List XR) :=
  if a.length = b.length then .ok (List.zipWith op a b)
  else if b.length = 1 then .ok (a.map (fun x => op x (b.headD 0)))
  else if a.length = 1 then .ok (b.map (fun y => op (a.headD 0) y))
  else raise .valueError

/-- `[f(x) for x in l]`, or a loop that collects values (fit.py:284-286, 724-725; _slater.py:234, 269-270), for a
function that may raise. -/
def mapPy {α β : Type} (f : α → Py β) : List α → Py (List β)
  | [] => .ok []
  | x :: xs => match f x with
    | .error e => .error e
    | .ok y => match mapPy f xs with
      | .error e => .error e
      | .ok ys => .ok (y :: ys)

/-- `grid.points.ndim != 1` (fit.py:78). -/
def Grid.multiDim : Grid → Bool
  | .radial _ => false
  | .cubic _ => true

/-- Attributes of a fit object (fit.py:39-95). -/
structure Fit where
  grid : Grid
  density : List XR
  model : GModel
  integralDens : XR
  spherical : Bool
  maskValue : XR

/-- `_BaseFit.integrate` (fit.py:127-147) in terms of the grid and the flag.  The product is formed
left to right.  A spherical fit on a cubic grid cannot be constructed (fit.py:78-82). -/
def integrateOn (grid : Grid) (spherical : Bool) (f : List XR) : Py XR :=
  if spherical then
    match grid with
    | .radial g =>
      match bcast (· * ·) (f.map (fun x => x * XR.fin 4 * XR.fin Real.pi))
          (g.points.map (fun p => XR.pow p 2)) with
      | .error e => .error e
      | .ok h => grid.integrate (ND.vec h)
    | .cubic _ => raise .valueError
  else grid.integrate (ND.vec f)

/-- `self.integrate` (fit.py:127-147). -/
def Fit.integrate (F : Fit) (f : List XR) : Py XR := integrateOn F.grid F.spherical f

/-- `_BaseFit.__init__` (fit.py:39-95) for a grid object of grid.py (which has the attributes checked
at fit.py:70-77) and a 1-D density array.  The measure is kept by the subclasses. -/
def Fit.init (grid : Grid) (density : List XR) (model : GModel) (integralDens : Option XR)
    (spherical : Bool) (maskValue : XR) : Py Fit :=
  if ∃ x ∈ density, x < XR.fin 0 then raise .valueError
  else if grid.multiDim = true ∧ spherical = true then raise .valueError
  else match integralDens with
    | some v => .ok ⟨grid, density, model, v, spherical, maskValue⟩
    | none => match integrateOn grid spherical density with
      | .error e => .error e
      | .ok v => .ok ⟨grid, density, model, v, spherical, maskValue⟩

/-- `self.kl_error` (fit.py:94): the default negative value of the class. -/
def Fit.klError (F : Fit) : KL := ⟨F.maskValue, XR.fin 100000⟩

/-- The list returned by `goodness_of_fit` (fit.py:186-192). -/
structure Perf where
  integral : XR
  l1 : XR
  linf : XR
  ls : XR
  kl : XR

/-- `_BaseFit.goodness_of_fit` (fit.py:149-192). -/
def Fit.goodness (F : Fit) (coeffs expons : List XR) : Py Perf :=
  match F.model.evaluate coeffs expons false with
  | .error e => .error e
  | .ok (approx, _) =>
    match bcast (· - ·) F.density approx with
    | .error e => .error e
    | .ok d =>
      let diff := d.map XR.abs
      match F.integrate approx with
      | .error e => .error e
      | .ok i => match F.integrate diff with
        | .error e => .error e
        | .ok l1 => match npMax diff with
          | .error e => .error e
          | .ok linf =>
            match sqEvaluate (.arr (ND.vec F.density)) (.arr (ND.vec approx)) (.bool false) with
            | .error e => .error e
            | .ok (s, _) => match F.integrate s with
              | .error e => .error e
              | .ok ls =>
                match F.klError.evaluate (.arr (ND.vec F.density)) (.arr (ND.vec approx))
                    (.bool false) with
                | .error e => .error e
                | .ok (k, _) => match F.integrate k with
                  | .error e => .error e
                  | .ok kl => .ok ⟨i, l1, linf, ls, kl⟩

/-! ### KLDivergenceFPI -/

/-- A `KLDivergenceFPI` object (fit.py:213-247): the base attributes and the Lagrange multiplier.  Its
measure is `KLDivergence(mask_value=mask_value)` with the same mask as `kl_error`. -/
structure FPI extends Fit where
  lm : XR

/-- `KLDivergenceFPI.__init__` (fit.py:213-242). -/
def FPI.init (grid : Grid) (density : List XR) (model : GModel) (maskValue : XR)
    (integralDens : Option XR) (spherical : Bool) : Py FPI :=
  match Fit.init grid density model integralDens spherical maskValue with
  | .error e => .error e
  | .ok F => match F.integrate F.density with
    | .error e => .error e
    | .ok v =>
      let lm := v / F.integralDens
      if lm = XR.fin 0 ∨ lm = XR.nan then raise .runtimeError
      else .ok { F with lm := lm }

/-- One pass of the loop over the basis functions in `_update_params` (fit.py:284-295): the two
averages of basis function `index`.  The derivative matrix has a column for each basis function, so
the default of the column lookup is not used. -/
def FPI.averages (F : FPI) (dk : List XR) (dm : List (List XR)) (updateExpons : Bool) (index : ℕ) :
    Py (XR × XR) :=
  let integrand := List.zipWith (· * ·) (dk.map (fun x => -x)) (dm.map (fun row => row.getD index 0))
  match F.integrate integrand with
  | .error e => .error e
  | .ok a1 =>
    if updateExpons then
      match F.model.radiiFor index with
      | .error e => .error e
      | .ok radii => match bcast (· * ·) integrand (radii.map (fun r => XR.pow r 2)) with
        | .error e => .error e
        | .ok h => match F.integrate h with
          | .error e => .error e
          | .ok a2 => .ok (a1, a2)
    else .ok (a1, XR.fin 0)

/-- `KLDivergenceFPI._update_params` (fit.py:249-302). -/
def FPI.updateParams (F : FPI) (coeffs expons : List XR) (updateCoeffs updateExpons : Bool) :
    Py (List XR × List XR) :=
  if updateCoeffs = false ∧ updateExpons = false then raise .valueError
  else match F.model.evaluate coeffs expons true with
    | .error e => .error e
    | .ok (m, dm) =>
      match F.klError.evaluate (.arr (ND.vec F.density)) (.arr (ND.vec m)) (.bool true) with
      | .error e => .error e
      | .ok (_, dk) =>
        match mapPy (F.averages (dk.getD []) (dm.getD []) updateExpons)
            (List.range F.model.nbasis.toNat) with
        | .error e => .error e
        | .ok avrg =>
          let avrg1 := avrg.map Prod.fst
          let avrg2 := avrg.map Prod.snd
          .ok (if updateCoeffs then
                (List.zipWith (· * ·) coeffs avrg1).map (fun x => x / F.lm) else coeffs,
              if updateExpons then
                List.zipWith (· / ·) (List.zipWith (· * ·) F.model.prefactor avrg1) avrg2
              else expons)

/-- Loop variables of `KLDivergenceFPI.run` (fit.py:360-367). -/
structure FPIState where
  cs : List XR
  es : List XR
  diffDiv : XR
  maxDC : XR
  maxDE : XR
  performance : List Perf

/-- Options of `KLDivergenceFPI.run` (fit.py:304-305). -/
structure FPIOpts where
  optCoeffs : Bool
  optExpons : Bool
  maxiter : ℤ
  cThr : XR
  eThr : XR
  dThr : XR

/-- The loop condition without the iteration limit (fit.py:387-388). -/
def FPIState.notConverged (s : FPIState) (o : FPIOpts) : Prop :=
  (s.maxDE > o.eThr ∨ s.maxDC > o.cThr) ∧ s.diffDiv > o.dThr

/-- `np.max(np.abs(new - old))` (fit.py:401-402). -/
def maxChange (new old : List XR) : Py XR := npMax ((List.zipWith (· - ·) new old).map XR.abs)

/-- The loop body (fit.py:389-410). -/
def FPI.step (F : FPI) (o : FPIOpts) (s : FPIState) : Py FPIState :=
  if o.optCoeffs = false ∧ o.optExpons = false then raise .valueError
  else match F.updateParams s.cs s.es o.optCoeffs o.optExpons with
    | .error e => .error e
    | .ok (cs, es) => match maxChange cs s.cs with
      | .error e => .error e
      | .ok dc => match maxChange es s.es with
        | .error e => .error e
        | .ok de => match F.goodness cs es with
          | .error e => .error e
          | .ok p =>
            .ok ⟨cs, es,
              (match s.performance.getLast? with
                | none => s.diffDiv
                | some q => (p.kl - q.kl).abs),
              dc, de, s.performance ++ [p]⟩

/-- The `while` loop (fit.py:387-415); the number is `maxiter - niter`. -/
def FPI.loop (F : FPI) (o : FPIOpts) : ℕ → FPIState → Py FPIState
  | 0, s => .ok s
  | n + 1, s =>
    if s.notConverged o then
      match F.step o s with
      | .error e => .error e
      | .ok s' => FPI.loop F o n s'
    else .ok s

/-- Result of `KLDivergenceFPI.run` (fit.py:433-438). -/
structure FPIResult where
  coeffs : List XR
  exps : List XR
  fun_ : List XR
  success : Bool
  performance : List Perf

/-- `KLDivergenceFPI.run` (fit.py:304-440). -/
def FPI.run (F : FPI) (c0 e0 : PyObj) (o : FPIOpts) : Py FPIResult :=
  match c0, e0 with
  | .arr c, .arr e =>
    if c.shape.map Int.ofNat ≠ [F.model.nbasis] then raise .valueError
    else if e.shape.map Int.ofNat ≠ [F.model.nbasis] then raise .valueError
    else match F.loop o o.maxiter.toNat ⟨c.data, e.data, XR.pinf, XR.pinf, XR.pinf, []⟩ with
      | .error err => .error err
      | .ok s =>
        .ok ⟨s.cs, s.es, s.performance.map Perf.kl,
          decide ¬ ((o.maxiter = s.performance.length ∧ s.diffDiv > o.dThr) ∨ s.diffDiv = XR.nan),
          s.performance⟩
  | _, _ => raise .typeError

/-! ### ScipyFit -/

/-- The methods accepted by ScipyFit (fit.py:507-508). -/
inductive SMethod | slsqp | trustConstr
  deriving DecidableEq

/-- `method.lower()` looked up in the accepted names (fit.py:507-512); ASCII letters only. -/
def SMethod.parse (s : String) : Option SMethod :=
  let l := s.toList.map Char.toLower
  if l = ['s', 'l', 's', 'q', 'p'] then some .slsqp
  else if l = ['t', 'r', 'u', 's', 't', '-', 'c', 'o', 'n', 's', 't', 'r'] then some .trustConstr
  else none

/-- The `measure` argument: an instance of a measure class, or anything else (for instance the class
`KLDivergence` itself, which is the default, fit.py:470). -/
inductive MeasArg where
  | inst (m : Meas)
  | klClass
  | other

/-- A `ScipyFit` object (fit.py:443-517). -/
structure SFit extends Fit where
  measure : Meas
  method : SMethod
  weights : List XR

/-- `grid.points` as a points array (grid.py:47-50, 379-382; read at fit.py:503 and greedy.py:719). -/
def Grid.pts : Grid → Pts
  | .radial g => .one g.points
  | .cubic g => .two 3 (g.points.map (fun p => [p 0, p 1, p 2]))

/-- A points array as columns and rows, for the broadcasting of fit.py:503: a 1-D array of length `n` counts as one
row of length `n`. -/
def Pts.mat : Pts → ℕ × List (List XR)
  | .one l => (l.length, [l])
  | .two cols rows => (cols, rows)

/-- Difference of two rows in `grid.points - model.points` (fit.py:503) with numpy broadcasting (the lengths are equal
or one of them is 1). -/
def subRow (a b : List XR) : List XR :=
  if a.length = b.length then List.zipWith (· - ·) a b
  else if b.length = 1 then a.map (fun x => x - b.headD 0)
  else b.map (fun y => a.headD 0 - y)

/-- `np.any(abs(grid.points - model.points) > 1.e-12)` (fit.py:503) with numpy broadcasting; `none` is the
ValueError of arrays that cannot be broadcast. -/
def pointsDiffer (p q : Pts) : Option Bool :=
  let a := p.mat
  let b := q.mat
  if (a.1 = b.1 ∨ a.1 = 1 ∨ b.1 = 1) ∧
      (a.2.length = b.2.length ∨ a.2.length = 1 ∨ b.2.length = 1) then
    let diff := if a.2.length = b.2.length then List.zipWith subRow a.2 b.2
      else if b.2.length = 1 then a.2.map (fun r => subRow r (b.2.headD []))
      else b.2.map (fun r => subRow (a.2.headD []) r)
    some (decide (∃ row ∈ diff, ∃ d ∈ row, d.abs > XR.fin 1e-12))
  else none

/-- `ScipyFit.__init__` (fit.py:470-517). -/
def SFit.init (grid : Grid) (density : List XR) (model : GModel) (measure : MeasArg)
    (method : String) (weights : Option (List XR)) (integralDens : Option XR) (spherical : Bool)
    (maskValue : XR) : Py SFit :=
  match pointsDiffer grid.pts model.points with
  | none => raise .valueError
  | some true => raise .valueError
  | some false =>
    if grid.len ≠ density.length then raise .valueError
    else match SMethod.parse method with
      | none => raise .valueError
      | some meth => match measure with
        | .inst ms =>
          match Fit.init grid density model integralDens spherical maskValue with
          | .error e => .error e
          | .ok F => .ok { F with
              measure := ms, method := meth,
              weights := weights.getD (List.replicate density.length (XR.fin 1)) }
        | _ => raise .typeError

/-- The extra arguments handed to the objective (fit.py:575-586): nothing, or a tag and the frozen
parameters; `bad` is any other tag. -/
inductive SArgs where
  | none
  | fixedExpons (e : List XR)
  | fixedCoeffs (c : List XR)
  | bad

/-- `ScipyFit.evaluate_model` (fit.py:750-785). -/
def SFit.evaluateModel (S : SFit) (x : List XR) (args : SArgs) : Py (List XR × List (List XR)) :=
  let nb := S.model.nbasis
  let go (c e : List XR) (start stop : ℤ) : Py (List XR × List (List XR)) :=
    match S.model.evaluate c e true with
    | .error err => .error err
    | .ok (m, dm) => .ok (m, (dm.getD []).map (fun row => sliceFrom (sliceTo row stop) start))
  match args with
  | .fixedCoeffs c => go c x nb (2 * nb)
  | .fixedExpons e => go x e 0 nb
  | .bad => raise .valueError
  | .none => go (sliceTo x nb) (sliceFrom x nb) 0 (2 * nb)

/-- `dm[:, index]` (fit.py:285, 725): column `index` of a matrix, IndexError when a row is too short. -/
def column (dm : List (List XR)) (index : ℕ) : Py (List XR) :=
  mapPy (fun row : List XR => match row[index]? with
    | some v => .ok v
    | none => raise .indexError) dm

/-- One entry of the gradient (fit.py:724-725): `integrate(weights * dk * dm[:, index])`. -/
def SFit.gradEntry (S : SFit) (dk : List XR) (dm : List (List XR)) (index : ℕ) : Py XR :=
  match bcast (· * ·) S.weights dk with
  | .error e => .error e
  | .ok wdk => match column dm index with
    | .error e => .error e
    | .ok col => match bcast (· * ·) wdk col with
      | .error e => .error e
      | .ok h => S.integrate h

/-- `ScipyFit.func` (fit.py:700-726). -/
def SFit.func (S : SFit) (x : List XR) (args : SArgs) : Py (XR × List XR) :=
  match S.evaluateModel x args with
  | .error e => .error e
  | .ok (m, dm) =>
    match S.measure.evaluate (.arr (ND.vec S.density)) (.arr (ND.vec m)) (.bool true) with
    | .error e => .error e
    | .ok (k, dk) => match bcast (· * ·) S.weights k with
      | .error e => .error e
      | .ok wk => match S.integrate wk with
        | .error e => .error e
        | .ok obj => match mapPy (S.gradEntry (dk.getD []) dm) (List.range x.length) with
          | .error e => .error e
          | .ok d => .ok (obj, d)

/-- `ScipyFit.const_norm` (fit.py:728-748). -/
def SFit.constNorm (S : SFit) (x : List XR) (args : SArgs) : Py XR :=
  match S.evaluateModel x args with
  | .error e => .error e
  | .ok (m, _) => match S.integrate m with
    | .error e => .error e
    | .ok v => .ok (S.integralDens - v)

/-- What `run` hands to `scipy.optimize.minimize` (fit.py:655-664). -/
structure SProblem where
  objective : List XR → Py (XR × List XR)
  x0 : List XR
  method : SMethod
  bounds : List (XR × XR)
  constraints : List (List XR → Py XR)
  tol : XR
  maxiter : ℤ

/-- The fields of the optimiser's result that `run` uses (fit.py:669-697). -/
structure SRes where
  x : List XR
  fun_ : XR
  jac : List XR
  success : Bool
  message : String

/-- Options of `ScipyFit.run` (fit.py:519-520). -/
structure SOpts where
  optCoeffs : Bool
  optExpons : Bool
  maxiter : ℤ
  tol : XR
  withConstraint : Bool

/-- Bounds, initial vector and extra arguments (fit.py:574-588). -/
def SFit.setup (S : SFit) (c0 e0 : List XR) (optCoeffs optExpons : Bool) :
    Py (List (XR × XR) × List XR × SArgs) :=
  let b := (XR.fin 1e-12, XR.pinf)
  if optCoeffs && optExpons then
    .ok (List.replicate (2 * S.model.nbasis).toNat b, c0 ++ e0, .none)
  else if optCoeffs then .ok (List.replicate S.model.nbasis.toNat b, c0, .fixedExpons e0)
  else if optExpons then .ok (List.replicate S.model.nbasis.toNat b, e0, .fixedCoeffs c0)
  else raise .valueError

/-- The constraints (fit.py:589-595): with method trust-constr the constraint function is registered
without the extra arguments. -/
def SFit.constraints (S : SFit) (args : SArgs) (withConstraint : Bool) : List (List XR → Py XR) :=
  if withConstraint then
    match S.method with
    | .slsqp => [fun x => S.constNorm x args]
    | .trustConstr => [fun x => S.constNorm x .none]
  else []

/-- The problem handed to the optimiser by `run` (fit.py:574-664). -/
def SFit.problem (S : SFit) (c0 e0 : List XR) (o : SOpts) : Py SProblem :=
  match S.setup c0 e0 o.optCoeffs o.optExpons with
  | .error e => .error e
  | .ok (bounds, x0, args) =>
    .ok ⟨fun x => S.func x args, x0, S.method, bounds, S.constraints args o.withConstraint,
      o.tol, o.maxiter⟩

/-- Result of `ScipyFit.run` (fit.py:690-697). -/
structure SResult where
  coeffs : List XR
  exps : List XR
  fun_ : XR
  success : Bool
  message : String
  jacobian : List XR
  performance : Perf

/-- `ScipyFit.run` (fit.py:519-698); `minimize` is an arbitrary optimiser. -/
def SFit.run (S : SFit) (minimize : SProblem → Py SRes) (c0 e0 : List XR) (o : SOpts) :
    Py SResult :=
  match S.problem c0 e0 o with
  | .error e => .error e
  | .ok P => match minimize P with
    | .error e => .error e
    | .ok r =>
      let ce : List XR × List XR :=
        if o.optCoeffs && o.optExpons then
          (sliceTo r.x S.model.nbasis, sliceFrom r.x S.model.nbasis)
        else if o.optCoeffs then (r.x, e0)
        else (c0, r.x)
      match S.goodness ce.1 ce.2 with
      | .error e => .error e
      | .ok p => .ok ⟨ce.1, ce.2, r.fun_, r.success, r.message, r.jac, p⟩

end
end BFit
