import Verif.Model.Greedy

/-!
# The greedy classes of `bfit/greedy.py` on a `CubicGrid`

The docstrings of both classes list `CubicGrid` as a grid (greedy.py:669, 840).  The code is the same as
on a radial grid, but `self.grid.points` is now an array of shape `(n, 3)`, so the expressions that combine
it with the density are broadcast.  Only these expressions are modelled again here.
-/

namespace BFit

open Classical

noncomputable section

/-- `self.grid.points` as rows (greedy.py:752, 757-758, 945-949). -/
def cubicRows (points : List V3) : List (List XR) := points.map fun p => [p 0, p 1, p 2]

/-- `v op m` (`weight * np.power(self.grid.points, 2)`, greedy.py:752, 757-758) for a 1-D array `v` and an array `m` of shape `(n, 3)` with numpy broadcasting: `v` is
combined with every row if it has three entries or one, and other sizes raise. -/
def bcastRows (op : XR → XR → XR) (v : List XR) (m : List (List XR)) : Py (List (List XR)) :=
  if v.length = 3 then .ok (m.map (List.zipWith op v))
  else if v.length = 1 then .ok (m.map (List.map (op (v.headD 0))))
  else raise .valueError

/-- `np.sum` of a 2-D array (greedy.py:752, 757-758). -/
def sum2 (m : List (List XR)) : XR := (m.map List.sum).sum

/-- `GreedyKLFPI.get_best_one_function_solution` (greedy.py:945-949): the array handed to `integrate` has
shape `(n, 3)`. -/
def klOneFunCubic (g : CubicGrid) (density : List XR) (integralDens : XR) : Py (List XR) :=
  match bcastRows (· * ·) density
      ((cubicRows g.points).map (List.map fun x => XR.pow (XR.pow x 2) 2)) with
  | .error e => .error e
  | .ok h => match g.integrate (ND.mat 3 h) with
    | .error e => .error e
    | .ok denom =>
      .ok [integralDens, XR.fin 3 * integralDens / (XR.fin 2 * XR.fin 4 * XR.fin Real.pi * denom)]

/-- The greedy interface of a `GreedyKLFPI` object (greedy.py:826-968) on a cubic grid. -/
def klEnvCubic (F : FPI) (g : CubicGrid) (choice : Choice) (ol og : FPIOpts) (rnd : ℕ → ℕ → ℕ → ℝ) :
    GEnv :=
  { klEnv F [] choice ol og rnd with oneFun := fun _ _ => klOneFunCubic g F.density F.integralDens }

/-- `GreedyKLFPI.__init__` (greedy.py:829-903) on a cubic grid. -/
def klInitCubic (g : CubicGrid) (density : List XR) (choice : String) (maskValue : XR)
    (integralDens : Option XR) (spherical : Bool) : Py (FPI × Choice) :=
  match Atomic.init (.arr (.two 3 (cubicRows g.points))) .none (.int 1) (.int 0) true with
  | .error e => .error e
  | .ok m =>
    match FPI.init (.cubic g) density (.atom m) maskValue integralDens spherical with
    | .error e => .error e
    | .ok F => match Choice.parse choice with
      | .error e => .error e
      | .ok c => .ok (F, c)

/-- `_solve_one_function_weight` (greedy.py:749-763). -/
def solveOneWeightCubic (points : List V3) (density weight : List XR) : Py (List XR) :=
  let pw (k : ℝ) := (cubicRows points).map (List.map fun x => XR.pow x k)
  let a := XR.fin 2 * weight.sum
  match bcastRows (· * ·) weight (pw 2) with
  | .error err => .error err
  | .ok w2 =>
    let b := XR.fin 2 * sum2 w2
    match bcast (· * ·) weight (density.map XR.log) with
    | .error err => .error err
    | .ok wl =>
      let c := XR.fin 2 * wl.sum
      let d := b
      match bcastRows (· * ·) weight (pw 4) with
      | .error err => .error err
      | .ok w4 =>
        let e := XR.fin 2 * sum2 w4
        match bcastRows (fun y x => x * y) (density.map XR.log) w2 with
        | .error err => .error err
        | .ok w2l =>
          let f := XR.fin 2 * sum2 w2l
          let bigA := (b * f - c * e) / (b * d - a * e)
          let bigB := (a * f - c * d) / (a * e - b * d)
          .ok [XR.exp bigA, -bigB]

/-- `GreedyLeastSquares.get_best_one_function_solution` (greedy.py:765-782). -/
def lsOneFunCubic (points : List V3) (density : List XR) (obj : List XR → Py XR) : Py (List XR) :=
  match solveOneWeightCubic points density (List.replicate points.length (XR.fin 1)) with
  | .error e => .error e
  | .ok p1 => match obj p1 with
    | .error e => .error e
    | .ok v1 => match solveOneWeightCubic points density density with
      | .error e => .error e
      | .ok p2 => match obj p2 with
        | .error e => .error e
        | .ok v2 =>
          match solveOneWeightCubic points density (density.map (fun x => XR.pow x 2)) with
          | .error e => .error e
          | .ok p3 => match obj p3 with
            | .error e => .error e
            | .ok v3 => .ok (pyMinKey (v1, p1) [(v2, p2), (v3, p3)]).2

/-- `GreedyLeastSquares.get_optimization_routine` (greedy.py:806-823): `_create_cofactor_matrix`
(greedy.py:784-795) reshapes the `(n, 3)` array of squared coordinates to `(n, 1)`, which raises unless
there are no points. -/
def lsOptimiseCubic (S : SFit) (points : List V3) (ns np : ℕ)
    (nnls : List (List XR) → List XR → Py (List XR)) (minimize : SProblem → Py SRes)
    (tol : XR) (maxiter : ℤ) (withConstraint : Bool) (params : List XR) : Py (List XR) :=
  if points.length * 3 ≠ points.length then raise .valueError
  else lsOptimise S [] ns np nnls minimize tol maxiter withConstraint params

/-- The greedy interface of a `GreedyLeastSquares` object (greedy.py:656-823) on a cubic grid. -/
def lsEnvCubic (S : SFit) (g : CubicGrid) (choice : Choice) (o : LSOpts)
    (nnls : ℕ → ℕ → List (List XR) → List XR → Py (List XR))
    (minimize : ℕ → ℕ → SProblem → Py SRes) (rnd : ℕ → ℕ → ℕ → ℝ) : GEnv :=
  { lsEnv S [] choice o nnls minimize rnd with
    oneFun := fun ns np => lsOneFunCubic g.points S.density (evalObj (S.withCounts ns np).toFit S.measure)
    optLocal := fun t i ns np => lsOptimiseCubic S g.points ns np (nnls t (i + 1)) (minimize t (i + 1))
      o.localTol o.lMaxiter o.withConstraint
    optGlobal := fun t ns np => lsOptimiseCubic S g.points ns np (nnls t 0) (minimize t 0) o.globalTol
      o.gMaxiter o.withConstraint }

/-- `GreedyLeastSquares.__init__` (greedy.py:659-722) on a cubic grid. -/
def lsInitCubic (g : CubicGrid) (density : List XR) (choice method : String) (normalize : Bool)
    (integralDens : Option XR) (spherical : Bool) : Py (SFit × Choice) :=
  match Atomic.init (.arr (.two 3 (cubicRows g.points))) .none (.int 1) (.int 0) normalize with
  | .error e => .error e
  | .ok m =>
    match SFit.init (.cubic g) density (.atom m) (.inst .sq) method none integralDens spherical
        (XR.fin 1e-18) with
    | .error e => .error e
    | .ok S => match Choice.parse choice with
      | .error e => .error e
      | .ok c => .ok (S, c)

end
end BFit
