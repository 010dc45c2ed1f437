import Verif.Model.Fit

/-!
# Model of `bfit/greedy.py`

The optimisers (scipy, nnls, the fixed point iteration inside a greedy round) and the random number
generator enter the generic greedy algorithm as arbitrary functions of a time stamp, so the theorems
hold for every behaviour of them.  The two concrete subclasses instantiate that interface.  Printing
(`disp`) is not modelled.
-/

namespace BFit

open Classical

noncomputable section

/-! ### choice functions -/

/-- The guess with a new function at position `index` (greedy.py:126-133, 183-189, 201-207): at the
front the exponent `exp / factor`, else the midpoint of two neighbours.  `coeffs` is as long as the
exponents (it is in every call), so `np.insert` is in range. -/
def insertAt (factor coeffVal : XR) (coeffs exps : List XR) (index : ℕ) : List XR × List XR :=
  if index = 0 then
    (npInsert coeffs index coeffVal, npInsert exps index (exps.getD index 0 / factor))
  else
    (npInsert coeffs index coeffVal,
      npInsert exps index ((exps.getD (index - 1) 0 + exps.getD index 0) / XR.fin 2))

/-- `get_next_choices` (greedy.py:91-139). -/
def getNextChoices (factor : XR) (coeffs fparams : List XR) (coeffVal : XR) : List (List XR) :=
  let size := fparams.length
  (List.range size).flatMap fun index =>
    let p := insertAt factor coeffVal coeffs fparams index
    (p.1 ++ p.2) ::
      (if index = size - 1 then
        [(coeffs ++ [coeffVal]) ++ (fparams ++ [fparams.getD index 0 * factor])]
      else [])

/-- `_get_next_possible_coeffs_and_exps2` (greedy.py:177-196); the two parallel lists are a list of
pairs. -/
def nextPairs (factor : XR) (coeffs exps : List XR) (coeffVal : XR) : List (List XR × List XR) :=
  let size := exps.length
  (List.range size).flatMap fun index =>
    insertAt factor coeffVal coeffs exps index ::
      (if index = size - 1 then
        [(coeffs ++ [coeffVal], exps ++ [exps.getD index 0 * factor])]
      else [])

/-- `get_two_next_choices` (greedy.py:142-224). -/
def getTwoNextChoices (factor : XR) (coeffs fparams : List XR) (coeffVal : XR) : List (List XR) :=
  let size := fparams.length
  let pairs := (List.range size).flatMap fun i =>
    let p := insertAt factor coeffVal coeffs fparams i
    sliceFrom (nextPairs factor p.1 p.2 coeffVal) i ++
      (if i = size - 1 then
        sliceFrom (nextPairs factor (coeffs ++ [coeffVal])
          (fparams ++ [fparams.getD i 0 * factor]) coeffVal) (-2)
      else [])
  pairs.map (fun p => p.1 ++ p.2)

/-- `pick_two_lose_one` (greedy.py:227-262). -/
def pickTwoLoseOne (factor : XR) (coeffs exps : List XR) (coeffVal : XR) : List (List XR) :=
  (getTwoNextChoices factor coeffs exps coeffVal).flatMap fun p =>
    let coeff := p.take (p.length / 2)
    let exp := p.drop (p.length / 2)
    (List.range (p.length / 2)).map fun j => npDelete coeff [j] ++ npDelete exp [j]

/-! ### redundancies -/

/-- `similar_indexes` for one `i` (greedy.py:69-77): empty, or `i` followed by the later indices with
a similar exponent. -/
def similarIndexes (fparams : List XR) (eps : XR) (i : ℕ) : List ℕ :=
  let js := (List.range' (i + 1) (fparams.length - (i + 1))).filter
    (fun j => decide ((fparams.getD i 0 - fparams.getD j 0).abs < eps))
  if js = [] then [] else i :: js

/-- `indexes_same` (greedy.py:66-77). -/
def indexesSame (fparams : List XR) (eps : XR) : List (List ℕ) :=
  ((List.range fparams.length).map (similarIndexes fparams eps)).filter (fun g => decide (g ≠ []))

/-- `new_coeffs[group[0]] += coeffs[group[i]]` for all later members (greedy.py:79-82). -/
def addGroup (coeffs : List XR) (new : List XR) (group : List ℕ) : List XR :=
  group.tail.foldl (fun nc j => nc.modify (group.headD 0) (· + coeffs.getD j 0)) new

/-- `remove_redundancies` (greedy.py:37-88). -/
def removeRedundancies (coeffs fparams : List XR) (eps : XR) : List XR × List XR :=
  let same := indexesSame fparams eps
  let newCoeffs := same.foldl (addGroup coeffs) coeffs
  if same.length ≠ 0 then
    let indices := same.flatMap List.tail
    (npDelete newCoeffs indices, npDelete fparams indices)
  else (newCoeffs, fparams)

/-! ### the greedy algorithm -/

/-- The choice functions accepted by `GreedyStrategy.__init__` (greedy.py:292-302). -/
inductive Choice | pickOne | pickTwo | pickTwoLoseOne
  deriving DecidableEq

/-- `choice_function` (greedy.py:292-302). -/
def Choice.parse (s : String) : Py Choice :=
  if s = "pick-one" then .ok .pickOne
  else if s = "pick-two" then .ok .pickTwo
  else if s = "pick-two-lose-one" then .ok .pickTwoLoseOne
  else raise .valueError

/-- `_numb_func_increase` (greedy.py:294, 297, 300). -/
def Choice.inc : Choice → ℕ
  | .pickOne => 1
  | .pickTwo => 2
  | .pickTwoLoseOne => 1

/-- `self.next_param_func(factor, coeffs, exps)` (greedy.py:292-300, 526, 540) with the default coefficient 100. -/
def Choice.next (c : Choice) (factor : XR) (coeffs exps : List XR) : List (List XR) :=
  match c with
  | .pickOne => getNextChoices factor coeffs exps (XR.fin 100)
  | .pickTwo => getTwoNextChoices factor coeffs exps (XR.fin 100)
  | .pickTwoLoseOne => BFit.pickTwoLoseOne factor coeffs exps (XR.fin 100)

/-- What the generic algorithm uses of a subclass (greedy.py:338-362, 535-537).  `ns`, `np` are the counts of the
model object at the time of the call, `t` the number of the greedy round and `i` the number of the guess. -/
structure GEnv where
  choice : Choice
  /-- `get_best_one_function_solution()`. -/
  oneFun : (ns np : ℕ) → Py (List XR)
  /-- `get_optimization_routine(params, local=True)` for guess `i` of round `t`. -/
  optLocal : (t i ns np : ℕ) → List XR → Py (List XR)
  /-- `get_optimization_routine(params, local=False)` of round `t`. -/
  optGlobal : (t ns np : ℕ) → List XR → Py (List XR)
  /-- `eval_obj_function(params)`. -/
  obj : (ns np : ℕ) → List XR → Py XR
  /-- `fitting_obj.goodness_of_fit(params[:n // 2], params[n // 2:])` as used by `store_errors`. -/
  gof : (ns np : ℕ) → List XR → Py Perf
  /-- Numbers in `[0, 1)` drawn in round `t` for random guess `w`, entry `k`. -/
  rnd : (t w k : ℕ) → ℝ

/-- `_find_best_lparams` (greedy.py:385-413), the loop over guess numbers.  The accumulator holds the
best value, the best parameters (`None` at first) and `is_s_optimal`. -/
def GEnv.findBestLoop (E : GEnv) (t ns np : ℕ) (paramList : List (List XR)) (numS : ℕ) :
    List ℕ → XR × Option (List XR) × Bool → Py (XR × Option (List XR) × Bool)
  | [], acc => .ok acc
  | i :: is, acc =>
    match paramList[i]? with
    | none => raise .indexError
    | some param =>
      let ms := if i < numS then ns + E.choice.inc else ns
      let mp := if i < numS then np else np + E.choice.inc
      match E.optLocal t i ms mp param with
      | .error e => .error e
      | .ok lp => match E.obj ms mp lp with
        | .error e => .error e
        | .ok cost =>
          GEnv.findBestLoop E t ns np paramList numS is
            (if cost < acc.1 then (cost, some lp, decide (i < numS)) else acc)

/-- `_find_best_lparams` (greedy.py:364-413). -/
def GEnv.findBest (E : GEnv) (t ns np : ℕ) (paramList : List (List XR)) (numS numP : ℕ) :
    Py (XR × Option (List XR) × Bool) :=
  E.findBestLoop t ns np paramList numS (List.range (numS + numP)) (XR.fin 1e10, none, false)

/-- The four parts of a parameter vector (greedy.py:421). -/
structure Parts where
  sCoeffs : List XR
  sExps : List XR
  pCoeffs : List XR
  pExps : List XR

/-- `_split_parameters` (greedy.py:415-421). -/
def splitParams (ns np : ℕ) (params : List XR) : Parts :=
  ⟨params.take ns, (params.take (2 * ns + np)).drop (ns + np),
    (params.take (ns + np)).drop ns, params.drop (2 * ns + np)⟩

/-- The attributes of a greedy object that change (greedy.py:303-306); `modelS`, `modelP` are the
counts held by the model object. -/
structure GObj where
  numS : ℕ
  numP : ℕ
  modelS : ℕ
  modelP : ℕ
  errArr : List Perf

/-- The object made by the constructors (greedy.py:303-306, 719, 901). -/
def GObj.fresh : GObj := ⟨1, 0, 1, 0, []⟩

/-- Local variables of `run` together with the object (greedy.py:505-513). -/
structure GState extends GObj where
  gparams : List XR
  factor : XR
  numbFuncs : ℤ
  prev : XR
  best : XR
  paramsIter : List (List XR)
  redum : ℕ
  round : ℕ

/-- Arguments of `run` (greedy.py:447), without `factor` and `disp`.  `extra` is
`add_extra_choices` if it is callable. -/
structure GOpts where
  dThr : XR
  maxFuncs : ℤ
  extra : Option (List XR → Py (List XR))

/-- The loop condition (greedy.py:520-521). -/
def GState.continues (s : GState) (o : GOpts) : Prop :=
  s.numbFuncs ≤ o.maxFuncs - 1 ∧ s.redum < 5 ∧ o.dThr ≤ (s.best - s.prev).abs

/-- `choices_parameters_s` (greedy.py:526-531). -/
def GEnv.choicesS (E : GEnv) (s : GState) : List (List XR) :=
  let q := splitParams s.numS s.numP s.gparams
  (E.choice.next s.factor q.sCoeffs q.sExps).map fun x =>
    x.take (s.numS + E.choice.inc) ++ q.pCoeffs ++ x.drop (s.numS + E.choice.inc) ++ q.pExps

/-- The random vector number `w` of a round (greedy.py:534-538), scaled by `m` and shifted by `b`. -/
def GEnv.randVec (E : GEnv) (t w : ℕ) (m b : ℝ) : List XR :=
  (List.range (2 * E.choice.inc)).map fun k => XR.fin (E.rnd t w k * m + b)

/-- `choices_parameters_p` (greedy.py:532-545). -/
def GEnv.choicesP (E : GEnv) (s : GState) : List (List XR) :=
  let q := splitParams s.numS s.numP s.gparams
  let xs := if s.numP = 0 then
      [E.randVec s.round 0 1 0, E.randVec s.round 1 9 1, E.randVec s.round 2 90 10]
    else E.choice.next s.factor q.pCoeffs q.pExps
  xs.map fun x =>
    q.sCoeffs ++ x.take (s.numP + E.choice.inc) ++ q.sExps ++ x.drop (s.numP + E.choice.inc)

/-- `total_choices` (greedy.py:548-551). -/
def GEnv.totalChoices (E : GEnv) (o : GOpts) (s : GState) : Py (List (List XR)) :=
  match o.extra with
  | none => .ok (E.choicesS s ++ E.choicesP s)
  | some f => match f s.gparams with
    | .error e => .error e
    | .ok x => .ok (E.choicesS s ++ E.choicesP s ++ [x])

/-- The test for a failed round (greedy.py:573-578); `ns`, `np` are the increased counts. -/
def roundFails (ns np : ℕ) (optParam : List XR) (optValue best : XR) : Prop :=
  let q := splitParams ns np optParam
  ns ≠ (removeRedundancies q.sCoeffs q.sExps (XR.fin 1e-3)).1.length ∨
    np ≠ (removeRedundancies q.pCoeffs q.pExps (XR.fin 1e-3)).1.length ∨ best < optValue

/-- The rest of a round once the best guess is known (greedy.py:558-596).  `None` as best guess makes
`len(params)` in the optimisation routine raise TypeError. -/
def GEnv.finishRound (E : GEnv) (factor0 : XR) (s : GState) (bestParam : Option (List XR))
    (isS : Bool) : Py GState :=
  let ns := if isS then s.numS + E.choice.inc else s.numS
  let np := if isS then s.numP else s.numP + E.choice.inc
  match bestParam with
  | none => raise .typeError
  | some bp => match E.optGlobal s.round ns np bp with
    | .error e => .error e
    | .ok op => match E.obj ns np op with
      | .error e => .error e
      | .ok v =>
        if roundFails ns np op v s.best then
          .ok { s with
            redum := s.redum + 1, factor := s.factor * XR.fin 2, round := s.round + 1
            numS := if isS then ns - E.choice.inc else ns
            numP := if isS then np else np - E.choice.inc
            modelS := if isS then ns - E.choice.inc else ns
            modelP := if isS then np else np - E.choice.inc
            numbFuncs := s.numbFuncs + E.choice.inc - E.choice.inc }
        else if v ≤ s.best then
          match E.gof ns np op with
          | .error e => .error e
          | .ok err =>
            .ok { numS := ns, numP := np, modelS := ns, modelP := np
                  errArr := s.errArr ++ [err], gparams := op, factor := factor0
                  numbFuncs := s.numbFuncs + E.choice.inc, prev := s.best, best := v
                  paramsIter := s.paramsIter ++ [op], redum := 0, round := s.round + 1 }
        else
          .ok { s with
            numS := ns, numP := np, modelS := ns, modelP := np
            numbFuncs := s.numbFuncs + E.choice.inc, round := s.round + 1 }

/-- One pass of the `while` loop (greedy.py:522-596). -/
def GEnv.step (E : GEnv) (o : GOpts) (factor0 : XR) (s : GState) : Py GState :=
  match E.totalChoices o s with
  | .error e => .error e
  | .ok total =>
    match E.findBest s.round s.numS s.numP total (E.choicesS s).length (E.choicesP s).length with
    | .error e => .error e
    | .ok (_, bp, isS) => E.finishRound factor0 s bp isS

/-- The `while` loop (greedy.py:520-602) with a bound on the number of rounds; theorem
`C52_bound_irrelevant` shows that the bound used by `run` is never what stops the loop. -/
def GEnv.loop (E : GEnv) (o : GOpts) (factor0 : XR) : ℕ → GState → Py GState
  | 0, s => .ok s
  | n + 1, s =>
    if s.continues o then
      match E.step o factor0 s with
      | .error e => .error e
      | .ok s' => GEnv.loop E o factor0 n s'
    else .ok s

/-- The exit messages (greedy.py:607-608, 645-649) without the interpolated numbers. -/
inductive ExitInfo | notBestChoice | maxReached | epsilon
  deriving DecidableEq

/-- `_final_exit_info` (greedy.py:641-653). -/
def finalExitInfo (numFunc maxFunc : ℤ) (best prev thr : XR) : Py ExitInfo :=
  if ¬ numFunc < maxFunc - 1 then .ok .maxReached
  else if (best - prev).abs < thr then .ok .epsilon
  else raise .runtimeError

/-- The result of `run` (greedy.py:630-638). -/
structure GResult where
  coeffs : List XR
  exps : List XR
  numS : ℕ
  numP : ℕ
  fun_ : XR
  success : Bool
  parametersIteration : List (List XR)
  performance : List Perf
  exitInformation : ExitInfo

/-- The start of `run` (greedy.py:505-513). -/
def GEnv.start (E : GEnv) (ob : GObj) (factor : XR) : Py GState :=
  match E.oneFun ob.modelS ob.modelP with
  | .error e => .error e
  | .ok g => match E.gof ob.modelS ob.modelP g with
    | .error e => .error e
    | .ok err => match E.obj ob.modelS ob.modelP g with
      | .error e => .error e
      | .ok v =>
        .ok { numS := ob.numS, numP := ob.numP, modelS := ob.modelS, modelP := ob.modelP
              errArr := ob.errArr ++ [err], gparams := g, factor := factor, numbFuncs := 1
              prev := XR.pinf, best := v, paramsIter := [g], redum := 0, round := 0 }

/-- The end of `run` (greedy.py:604-639). -/
def GEnv.finish (E : GEnv) (o : GOpts) (s : GState) : Py (GResult × GObj) :=
  let info := if s.redum = 5 then .ok ExitInfo.notBestChoice
    else finalExitInfo s.numbFuncs o.maxFuncs s.best s.prev o.dThr
  match info with
  | .error e => .error e
  | .ok info =>
    let last := s.paramsIter.getLastD []
    let q := splitParams s.numS s.numP last
    match E.obj s.modelS s.modelP last with
    | .error e => .error e
    | .ok v =>
      .ok (⟨q.sCoeffs ++ q.pCoeffs, q.sExps ++ q.pExps, s.numS, s.numP, v,
        decide ¬ (s.numbFuncs = o.maxFuncs - 1 ∨ s.redum = 5), s.paramsIter, s.errArr, info⟩,
        s.toGObj)

/-- `GreedyStrategy.run` (greedy.py:447-639): the result and the changed object. -/
def GEnv.run (E : GEnv) (ob : GObj) (factor : PyObj) (o : GOpts) : Py (GResult × GObj) :=
  match factor with
  | .float f =>
    if f ≤ XR.fin 0 then raise .valueError
    else match E.start ob f with
      | .error e => .error e
      | .ok s => match E.loop o f (5 * (o.maxFuncs - 1).toNat) s with
        | .error e => .error e
        | .ok s' => E.finish o s'
  | _ => raise .typeError

/-! ### GreedyLeastSquares -/

/-- The fit object after `model.change_numb_s_and_numb_p(ns, np)`; the models of greedy objects are
atomic (greedy.py:719, 901). -/
def GModel.withCounts (m : GModel) (ns np : ℕ) : GModel :=
  match m with
  | .atom a => .atom { a with ns := ns, np := np }
  | .mol a => .mol a

/-- First half of a parameter vector, `params[:len(params)//2]` (greedy.py:351, 357). -/
def firstHalf (p : List XR) : List XR := p.take (p.length / 2)
/-- Second half of a parameter vector, `params[len(params)//2:]` (greedy.py:351, 357). -/
def secondHalf (p : List XR) : List XR := p.drop (p.length / 2)

/-- `eval_obj_function` (greedy.py:349-353) for a fit object and its measure. -/
def evalObj (F : Fit) (measure : Meas) (params : List XR) : Py XR :=
  match F.model.evaluate (firstHalf params) (secondHalf params) false with
  | .error e => .error e
  | .ok (m, _) =>
    match measure.evaluate (.arr (ND.vec F.density)) (.arr (ND.vec m)) (.bool false) with
    | .error e => .error e
    | .ok (k, _) => F.integrate k

/-- `_solve_one_function_weight` (greedy.py:749-763) in terms of the points and the density.  The
arrays have one entry per grid point: the constructor of ScipyFit refuses other densities. -/
def solveOneWeight (points density weight : List XR) : List XR :=
  let wsum (f : XR → XR → XR → XR) : XR :=
    (List.zipWith (fun w pd => f w pd.1 pd.2) weight (List.zip points density)).sum
  let a := XR.fin 2 * weight.sum
  let b := XR.fin 2 * wsum (fun w x _ => w * XR.pow x 2)
  let c := XR.fin 2 * wsum (fun w _ y => w * XR.log y)
  let d := b
  let e := XR.fin 2 * wsum (fun w x _ => w * XR.pow x 4)
  let f := XR.fin 2 * wsum (fun w x y => w * XR.pow x 2 * XR.log y)
  let bigA := (b * f - c * e) / (b * d - a * e)
  let bigB := (a * f - c * d) / (a * e - b * d)
  [XR.exp bigA, -bigB]

/-- Python's `min(list, key=...)` (greedy.py:779-781) on (value, object) pairs: the first entry not improved by a
strictly smaller later value. -/
def pyMinKey {α : Type} : XR × α → List (XR × α) → XR × α
  | m, [] => m
  | m, x :: xs => pyMinKey (if x.1 < m.1 then x else m) xs

/-- `GreedyLeastSquares.get_best_one_function_solution` (greedy.py:765-782); `obj` is
`eval_obj_function`. -/
def lsOneFun (points density : List XR) (obj : List XR → Py XR) : Py (List XR) :=
  let p1 := solveOneWeight points density (List.replicate points.length (XR.fin 1))
  match obj p1 with
  | .error e => .error e
  | .ok v1 =>
    let p2 := solveOneWeight points density density
    match obj p2 with
    | .error e => .error e
    | .ok v2 =>
      let p3 := solveOneWeight points density (density.map (fun x => XR.pow x 2))
      match obj p3 with
      | .error e => .error e
      | .ok v3 => .ok (pyMinKey (v1, p1) [(v2, p2), (v3, p3)]).2

/-- `_create_cofactor_matrix` (greedy.py:784-795), one row per grid point. -/
def cofactorMatrix (points : List XR) (ns np : ℕ) (exponents : List XR) : List (List XR) :=
  points.map fun r =>
    let g := XR.pow r 2
    let rowS := (exponents.take ns).map (fun e => XR.exp ((-e) * g))
    if np ≠ 0 then rowS ++ (exponents.drop ns).map (fun e => g * XR.exp ((-e) * g)) else rowS

/-- Options of `GreedyLeastSquares` (greedy.py:659-663). -/
structure LSOpts where
  localTol : XR
  globalTol : XR
  lMaxiter : ℤ
  gMaxiter : ℤ
  withConstraint : Bool

/-- The fit object after `self.model.change_numb_s_and_numb_p(ns, np)` (greedy.py:396-403, 564, 587). -/
def SFit.withCounts (S : SFit) (ns np : ℕ) : SFit := { S with model := S.model.withCounts ns np }

/-- `GreedyLeastSquares.get_optimization_routine` (greedy.py:806-823) with an arbitrary nnls solver
(greedy.py:797-803) and an arbitrary optimiser; `points` are the radial grid points. -/
def lsOptimise (S : SFit) (points : List XR) (ns np : ℕ)
    (nnls : List (List XR) → List XR → Py (List XR)) (minimize : SProblem → Py SRes)
    (tol : XR) (maxiter : ℤ) (withConstraint : Bool) (params : List XR) : Py (List XR) :=
  let exps := secondHalf params
  match nnls (cofactorMatrix points ns np exps) S.density with
  | .error e => .error e
  | .ok coeffs =>
    match (S.withCounts ns np).run minimize coeffs exps ⟨true, true, maxiter, tol, withConstraint⟩ with
    | .error e => .error e
    | .ok r => .ok (r.coeffs ++ r.exps)

/-- The greedy interface of a `GreedyLeastSquares` object (greedy.py:656-823) on a radial grid; the
external solvers may behave differently at each call. -/
def lsEnv (S : SFit) (points : List XR) (choice : Choice) (o : LSOpts)
    (nnls : ℕ → ℕ → List (List XR) → List XR → Py (List XR))
    (minimize : ℕ → ℕ → SProblem → Py SRes) (rnd : ℕ → ℕ → ℕ → ℝ) : GEnv where
  choice := choice
  oneFun ns np := lsOneFun points S.density (evalObj (S.withCounts ns np).toFit S.measure)
  optLocal t i ns np := lsOptimise S points ns np (nnls t (i + 1)) (minimize t (i + 1)) o.localTol
    o.lMaxiter o.withConstraint
  optGlobal t ns np := lsOptimise S points ns np (nnls t 0) (minimize t 0) o.globalTol
    o.gMaxiter o.withConstraint
  obj ns np := evalObj (S.withCounts ns np).toFit S.measure
  gof ns np p := (S.withCounts ns np).goodness (firstHalf p) (secondHalf p)
  rnd := rnd

/-! ### GreedyKLFPI -/

/-- The fit object after `self.model.change_numb_s_and_numb_p(ns, np)` (greedy.py:396-403, 564, 587). -/
def FPI.withCounts (F : FPI) (ns np : ℕ) : FPI := { F with model := F.model.withCounts ns np }

/-- `GreedyKLFPI.get_best_one_function_solution` (greedy.py:945-949) on a radial grid. -/
def klOneFun (grid : Grid) (points density : List XR) (integralDens : XR) : Py (List XR) :=
  match bcast (· * ·) density (points.map (fun x => XR.pow (XR.pow x 2) 2)) with
  | .error e => .error e
  | .ok h => match grid.integrate (ND.vec h) with
    | .error e => .error e
    | .ok denom =>
      .ok [integralDens, XR.fin 3 * integralDens / (XR.fin 2 * XR.fin 4 * XR.fin Real.pi * denom)]

/-- `GreedyKLFPI.get_optimization_routine` (greedy.py:952-968). -/
def klOptimise (F : FPI) (o : FPIOpts) (params : List XR) : Py (List XR) :=
  match F.run (.arr (ND.vec (firstHalf params))) (.arr (ND.vec (secondHalf params))) o with
  | .error e => .error e
  | .ok r => .ok (r.coeffs ++ r.exps)

/-- The greedy interface of a `GreedyKLFPI` object (greedy.py:826-968) on a radial grid; `ol` and
`og` are the options of the local and global runs (both optimise coefficients and exponents). -/
def klEnv (F : FPI) (points : List XR) (choice : Choice) (ol og : FPIOpts)
    (rnd : ℕ → ℕ → ℕ → ℝ) : GEnv where
  choice := choice
  oneFun _ _ := klOneFun F.grid points F.density F.integralDens
  optLocal _ _ ns np := klOptimise (F.withCounts ns np) ol
  optGlobal _ ns np := klOptimise (F.withCounts ns np) og
  obj ns np := evalObj (F.withCounts ns np).toFit (.kl F.klError)
  gof ns np p := (F.withCounts ns np).goodness (firstHalf p) (secondHalf p)
  rnd := rnd

/-! ### construction -/

/-- `GreedyLeastSquares.__init__` (greedy.py:659-722) on a radial grid: the fit object and the strategy
(`GreedyStrategy.__init__`, greedy.py:289-306). -/
def lsInit (points density : List XR) (choice method : String) (normalize : Bool)
    (integralDens : Option XR) (spherical : Bool) : Py (SFit × Choice) :=
  match Atomic.init (.arr (.one points)) .none (.int 1) (.int 0) normalize with
  | .error e => .error e
  | .ok m =>
    match SFit.init (.radial ⟨points⟩) density (.atom m) (.inst .sq) method none integralDens spherical
        (XR.fin 1e-18) with
    | .error e => .error e
    | .ok S => match Choice.parse choice with
      | .error e => .error e
      | .ok c => .ok (S, c)

/-- `GreedyKLFPI.__init__` (greedy.py:829-903) on a radial grid. -/
def klInit (points density : List XR) (choice : String) (maskValue : XR) (integralDens : Option XR)
    (spherical : Bool) : Py (FPI × Choice) :=
  match Atomic.init (.arr (.one points)) .none (.int 1) (.int 0) true with
  | .error e => .error e
  | .ok m =>
    match FPI.init (.radial ⟨points⟩) density (.atom m) maskValue integralDens spherical with
    | .error e => .error e
    | .ok F => match Choice.parse choice with
      | .error e => .error e
      | .ok c => .ok (F, c)

end
end BFit
