import Verif.Model.Fit
import Verif.Model.Greedy

/-!
# Arrays as objects

The other model files treat an array as a value.  Here an array is a place in memory, as in Python: two
names can refer to the same array, an assignment such as `a[i] = x` or `a[i] += x` changes the array for
every name that refers to it, and an expression such as `a * b` or `a.copy()` makes a new array.

One-dimensional arrays only.  The arrays that a model object, a measure or the optimiser makes for its own use and
never hands out are values, as before; the arrays of `avrg1`, `avrg2`, `new_coeffs` and `x0`, which are changed in
place, are places.
-/

namespace BFit
open Classical
noncomputable section

/-- The arrays that exist, in the order in which they were made; an array is referred to by its position. -/
abbrev Mem := List (List XR)

/-- The present content of an array. -/
def Mem.at (h : Mem) (r : ℕ) : List XR := h.getD r []

/-- `a[i] = x`. -/
def Mem.put (h : Mem) (r i : ℕ) (x : XR) : Mem := h.set r ((h.at r).set i x)

/-- A new array with the given content, and its position. -/
def Mem.new (h : Mem) (l : List XR) : Mem × ℕ := (h ++ [l], h.length)

/-! ### the fixed-point fit -/

/-- A `KLDivergenceFPI` object on a radial grid (fit.py:69-95, 240).  `self._density` is the array given to the
constructor, and `grid.points` is the array given to the grid: `np.ravel` of a contiguous one-dimensional array makes
no copy (grid.py:45).  The radii of the model are a new array (model.py:91-95) that nothing else refers to. -/
structure FPIObj where
  points : ℕ
  density : ℕ
  model : GModel
  integralDens : XR
  lm : XR
  spherical : Bool
  maskValue : XR

/-- What the object amounts to at present. -/
def FPIObj.view (X : FPIObj) (h : Mem) : FPI :=
  { grid := .radial ⟨h.at X.points⟩, density := h.at X.density, model := X.model,
    integralDens := X.integralDens, spherical := X.spherical, maskValue := X.maskValue, lm := X.lm }

/-- `KLDivergenceFPI.__init__` (fit.py:213-242) for a grid whose points are the array `points`. -/
def FPIObj.init (h : Mem) (points density : ℕ) (model : GModel) (maskValue : XR) (integralDens : Option XR)
    (spherical : Bool) : Py FPIObj :=
  match FPI.init (.radial ⟨h.at points⟩) (h.at density) model maskValue integralDens spherical with
  | .error e => .error e
  | .ok F => .ok ⟨points, density, model, F.integralDens, F.lm, spherical, maskValue⟩

/-- The loop over the basis functions (fit.py:284-295), which fills `avrg1` and `avrg2` in place. -/
def FPIObj.fill (X : FPIObj) (dk : List XR) (dm : List (List XR)) (updateExpons : Bool) (avrg1 avrg2 : ℕ) :
    List ℕ → Mem → Py Mem
  | [], h => .ok h
  | index :: rest, h => match (X.view h).averages dk dm updateExpons index with
    | .error e => .error e
    | .ok (x, y) =>
      let h1 := h.put avrg1 index x
      FPIObj.fill X dk dm updateExpons avrg1 avrg2 rest (if updateExpons then h1.put avrg2 index y else h1)

/-- `KLDivergenceFPI._update_params` (fit.py:249-302): the two arrays that it returns. -/
def FPIObj.update (X : FPIObj) (h : Mem) (coeffs expons : ℕ) (updateCoeffs updateExpons : Bool) :
    Py (Mem × ℕ × ℕ) :=
  if updateCoeffs = false ∧ updateExpons = false then raise .valueError
  else match X.model.evaluate (h.at coeffs) (h.at expons) true with
    | .error e => .error e
    | .ok (m, dm) =>
      match (X.view h).klError.evaluate (.arr (ND.vec (h.at X.density))) (.arr (ND.vec m)) (.bool true) with
      | .error e => .error e
      | .ok (_, dk) =>
        let n := X.model.nbasis.toNat
        let (h1, avrg1) := h.new (List.replicate n (XR.fin 0))
        let (h2, avrg2) := h1.new (List.replicate n (XR.fin 0))
        match X.fill (dk.getD []) (dm.getD []) updateExpons avrg1 avrg2 (List.range n) h2 with
        | .error e => .error e
        | .ok h3 =>
          let (h4, newCoeffs) :=
            if updateCoeffs then
              h3.new ((List.zipWith (· * ·) (h3.at coeffs) (h3.at avrg1)).map (fun x => x / X.lm))
            else (h3, coeffs)
          let (h5, newExpons) :=
            if updateExpons then
              h4.new (List.zipWith (· / ·) (List.zipWith (· * ·) X.model.prefactor (h4.at avrg1)) (h4.at avrg2))
            else (h4, expons)
          .ok (h5, newCoeffs, newExpons)

/-- The loop variables of `run` (fit.py:360-367); `new_cs` and `new_es` are arrays. -/
structure MState where
  cs : ℕ
  es : ℕ
  diffDiv : XR
  maxDC : XR
  maxDE : XR
  performance : List Perf

/-- The loop body (fit.py:389-410).  `old_cs` and `old_es` are further names of the arrays `new_cs` and `new_es`, and
are read after the update. -/
def FPIObj.step (X : FPIObj) (o : FPIOpts) (h : Mem) (s : MState) : Py (Mem × MState) :=
  if o.optCoeffs = false ∧ o.optExpons = false then raise .valueError
  else match X.update h s.cs s.es o.optCoeffs o.optExpons with
    | .error e => .error e
    | .ok (h', cs, es) => match maxChange (h'.at cs) (h'.at s.cs) with
      | .error e => .error e
      | .ok dc => match maxChange (h'.at es) (h'.at s.es) with
        | .error e => .error e
        | .ok de => match (X.view h').goodness (h'.at cs) (h'.at es) with
          | .error e => .error e
          | .ok p =>
            .ok (h', ⟨cs, es,
              (match s.performance.getLast? with
                | none => s.diffDiv
                | some q => (p.kl - q.kl).abs),
              dc, de, s.performance ++ [p]⟩)

/-- The `while` loop (fit.py:387-415); the number is `maxiter - niter`. -/
def FPIObj.loop (X : FPIObj) (o : FPIOpts) : ℕ → Mem → MState → Py (Mem × MState)
  | 0, h, s => .ok (h, s)
  | n + 1, h, s =>
    if (s.maxDE > o.eThr ∨ s.maxDC > o.cThr) ∧ s.diffDiv > o.dThr then
      match X.step o h s with
      | .error e => .error e
      | .ok (h', s') => FPIObj.loop X o n h' s'
    else .ok (h, s)

/-- Result of `KLDivergenceFPI.run` (fit.py:433-438). -/
structure MResult where
  coeffs : ℕ
  exps : ℕ
  fun_ : List XR
  success : Bool
  performance : List Perf

/-- `KLDivergenceFPI.run` (fit.py:304-440) for one-dimensional arrays `c0` and `e0`. -/
def FPIObj.run (X : FPIObj) (h : Mem) (c0 e0 : ℕ) (o : FPIOpts) : Py (Mem × MResult) :=
  if ((h.at c0).length : ℤ) ≠ X.model.nbasis then raise .valueError
  else if ((h.at e0).length : ℤ) ≠ X.model.nbasis then raise .valueError
  else match X.loop o o.maxiter.toNat h ⟨c0, e0, XR.pinf, XR.pinf, XR.pinf, []⟩ with
    | .error err => .error err
    | .ok (h', s) =>
      .ok (h', ⟨s.cs, s.es, s.performance.map Perf.kl,
        decide ¬ ((o.maxiter = s.performance.length ∧ s.diffDiv > o.dThr) ∨ s.diffDiv = XR.nan),
        s.performance⟩)

/-! ### the fit by an optimiser -/

/-- The fields of the optimiser's result that `run` uses; `x` is an array. -/
structure MRes where
  x : ℕ
  fun_ : XR
  jac : List XR
  success : Bool
  message : String

/-- Result of `ScipyFit.run` (fit.py:690-697). -/
structure MSResult where
  coeffs : ℕ
  exps : ℕ
  fun_ : XR
  success : Bool
  message : String
  jacobian : List XR
  performance : Perf

/-- `ScipyFit.run` (fit.py:519-698).  The optimiser is given the array `x0` and may change it.  `x0.astype(np.float64)`
is a new array (fit.py:652).  The two slices of `res["x"]` (fit.py:674) are represented by new arrays; nothing else that
`run` returns refers to `res["x"]`. -/
def SFit.runM (S : SFit) (minimize : SProblem → Mem → ℕ → Mem × Py MRes) (h : Mem) (c0 e0 : ℕ) (o : SOpts) :
    Mem × Py MSResult :=
  match S.problem (h.at c0) (h.at e0) o with
  | .error e => (h, .error e)
  | .ok P =>
    let (h1, x) :=
      if o.optCoeffs && o.optExpons then h.new (h.at c0 ++ h.at e0)
      else if o.optCoeffs then (h, c0)
      else (h, e0)
    let (h2, x0) := h1.new (h1.at x)
    match minimize P h2 x0 with
    | (h3, .error e) => (h3, .error e)
    | (h3, .ok r) =>
      let (h4, coeffs, expons) :=
        if o.optCoeffs && o.optExpons then
          let (h4, a) := h3.new (sliceTo (h3.at r.x) S.model.nbasis)
          let (h5, b) := h4.new (sliceFrom (h4.at r.x) S.model.nbasis)
          (h5, a, b)
        else if o.optCoeffs then (h3, r.x, e0)
        else (h3, c0, r.x)
      match S.goodness (h4.at coeffs) (h4.at expons) with
      | .error e => (h4, .error e)
      | .ok p => (h4, .ok ⟨coeffs, expons, r.fun_, r.success, r.message, r.jac, p⟩)

/-! ### the removal of redundancies -/

/-- `new_coeffs[group[0]] += coeffs[group[i]]` for all later members of a group (greedy.py:81-82). -/
def addGroupM (coeffs newCoeffs first : ℕ) : List ℕ → Mem → Mem
  | [], h => h
  | j :: rest, h =>
    addGroupM coeffs newCoeffs first rest
      (h.put newCoeffs first ((h.at newCoeffs).getD first 0 + (h.at coeffs).getD j 0))

/-- The loop over the groups (greedy.py:80-82). -/
def addGroupsM (coeffs newCoeffs : ℕ) : List (List ℕ) → Mem → Mem
  | [], h => h
  | g :: rest, h => addGroupsM coeffs newCoeffs rest (addGroupM coeffs newCoeffs (g.headD 0) g.tail h)

/-- `remove_redundancies` (greedy.py:37-88). -/
def removeRedundanciesM (h : Mem) (coeffs fparams : ℕ) (eps : XR) : Mem × ℕ × ℕ :=
  let (h1, newCoeffs) := h.new (h.at coeffs)
  let (h2, newExps) := h1.new (h1.at fparams)
  let same := indexesSame (h2.at fparams) eps
  let h3 := addGroupsM coeffs newCoeffs same h2
  if same.length ≠ 0 then
    let indices := same.flatMap List.tail
    let (h4, newExps') := h3.new (npDelete (h3.at newExps) indices)
    let (h5, newCoeffs') := h4.new (npDelete (h4.at newCoeffs) indices)
    (h5, newCoeffs', newExps')
  else (h3, newCoeffs, newExps)

end
end BFit
