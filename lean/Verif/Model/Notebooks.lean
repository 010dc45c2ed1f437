import Verif.Model.Tables
import Verif.Model.Greedy
import Verif.Model.GreedyCubic

/-! The notebooks of `examples`.  Printing and plotting are left out; arrays that are plotted are kept. -/

namespace BFit

noncomputable section

/-- The grid of examples/atomic_density.ipynb and examples/greedy_atomic_density.ipynb (first code cell of each):
`ClenshawRadialGrid(4, num_core_pts=400, num_diffuse_pts=500, extra_pts=[25, 50, 75])`. -/
def notebookGrid : Py RadialGrid :=
  clenshawRadialGrid (.int 4) (.int 400) (.int 500) (.seq (fins [25, 50, 75])) (.bool true)

/-- The grid and the density of beryllium on it (first and second code cells of examples/atomic_density.ipynb and
examples/greedy_atomic_density.ipynb).  `none`: reading the file does not end. -/
def notebookDensity (isAlpha : Str → Bool) (low : Str → Str) (tf : Str → Py XR) (fs : Str → Option (List Str)) :
    Option (Except ScriptErr (RadialGrid × List XR)) :=
  match notebookGrid with
  | .error e => some (.error (.raised e))
  | .ok g => match slaterInit isAlpha low tf fs (.str "be".toList) false false with
    | none => none
    | some (.error e) => some (.error (.raised e))
    | some (.ok R) => match R.attrs.atomicDensity (ND.vec g.points) "total" with
      | .error e => some (.error (.raised e))
      | .ok density => some (.ok (g, density))

/-- `results["performance"][:, k]` (sixth code cell of examples/atomic_density.ipynb, fifth one of
examples/molecular_density.ipynb): the array has no second axis if no update was made. -/
def perfColumn (f : Perf → XR) : List Perf → Except ScriptErr (List XR)
  | [] => .error .index
  | l => .ok (l.map f)

/-- What the notebook examples/atomic_density.ipynb prints and plots: the printed integral, the first model, the result
of `run`, the printed sum of the coefficients, the final model and the four plotted columns under their titles. -/
structure AtomicBook where
  integral : XR
  start : List XR
  result : FPIResult
  total : XR
  final : List XR
  plotIntegration : List XR
  plotL1 : List XR
  plotLinf : List XR
  plotKL : List XR

/-- Start values (fifth code cell of examples/atomic_density.ipynb). -/
def notebookC0 : List ℝ := [0.2, 0.5, 0.2, 0.3, 0.4, 0.6, 0.7, 0.9]

/-- Start values (fifth code cell of examples/atomic_density.ipynb). -/
def notebookE0 : List ℝ := [0.001, 0.1, 10, 100, 1000, 0.01, 0.1, 1]

/-- The columns that are plotted and what follows from them (sixth code cell of examples/atomic_density.ipynb): column 3
has the title "Kullback-Leibler value". -/
def atomicBookPlots (integral : XR) (start : List XR) (r : FPIResult) (final : List XR) :
    Except ScriptErr AtomicBook :=
  match perfColumn Perf.integral r.performance with
  | .error e => .error e
  | .ok p0 => match perfColumn Perf.l1 r.performance with
    | .error e => .error e
    | .ok p1 => match perfColumn Perf.linf r.performance with
      | .error e => .error e
      | .ok p2 => match perfColumn Perf.ls r.performance with
        | .error e => .error e
        | .ok p3 => .ok ⟨integral, start, r, r.coeffs.sum, final, p0, p1, p2, p3⟩

/-- The notebook from the density on (second to sixth code cells of examples/atomic_density.ipynb): `grid.integrate(density)`
without the factor `4 pi r**2`, five s-type and three p-type functions, `KLDivergenceFPI` with `integral_dens=4`,
`spherical=True` and the default mask value 0, `run` with `maxiter=1000`. -/
def atomicBookFit (g : RadialGrid) (density : List XR) : Except ScriptErr AtomicBook :=
  match inScript (g.integrate (ND.vec density)) with
  | .error e => .error e
  | .ok integral => match inScript (Atomic.init (.arr (.one g.points)) .none (.int 5) (.int 3) true) with
    | .error e => .error e
    | .ok m => match inScript (FPI.init (.radial g) density (.atom m) (XR.fin 0) (some (XR.fin 4)) true) with
      | .error e => .error e
      | .ok F => match inScript (m.evaluate (ND.vec (fins notebookC0)) (ND.vec (fins notebookE0)) false) with
        | .error e => .error e
        | .ok (start, _) =>
          match inScript (F.run (.arr (ND.vec (fins notebookC0))) (.arr (ND.vec (fins notebookE0)))
              ⟨true, true, 1000, XR.fin 1e-6, XR.fin 1e-6, XR.fin 1e-6⟩) with
          | .error e => .error e
          | .ok r => match inScript (m.evaluate (ND.vec r.coeffs) (ND.vec r.exps) false) with
            | .error e => .error e
            | .ok (final, _) => atomicBookPlots integral start r final

/-- The notebook examples/atomic_density.ipynb. -/
def atomicBook (isAlpha : Str → Bool) (low : Str → Str) (tf : Str → Py XR) (fs : Str → Option (List Str)) :
    Option (Except ScriptErr AtomicBook) :=
  match notebookDensity isAlpha low tf fs with
  | none => none
  | some (.error e) => some (.error e)
  | some (.ok (g, density)) => some (atomicBookFit g density)

/-- The notebook examples/greedy_atomic_density.ipynb from the density on (second to fourth code cells): the printed
spherical integral, `GreedyKLFPI` with `"pick-one"`, `l_maxiter=2500`, `g_maxiter=5000`, `spherical=True` (other options
at their defaults, greedy.py:829-834), `run(50.0, max_numb_funcs=4)`, and the values of the final model, which is
constructed with `num_s=result["num_s"]` and without p-type functions.  The result of the search and what happens in
the last step are returned separately.  `rnd` are the random numbers. -/
def greedyBookFit (rnd : ℕ → ℕ → ℕ → ℝ) (g : RadialGrid) (density : List XR) :
    Except ScriptErr (XR × GResult × Except ScriptErr (List XR)) :=
  match inScript (sphIntegrate g density) with
  | .error e => .error e
  | .ok integral => match inScript (klInit g.points density "pick-one" (XR.fin 1e-12) none true) with
    | .error e => .error e
    | .ok (F, c) =>
      match inScript ((klEnv F g.points c ⟨true, true, 2500, XR.fin 1e-2, XR.fin 1e-3, XR.fin 1e-8⟩
          ⟨true, true, 5000, XR.fin 1e-4, XR.fin 1e-5, XR.fin 1e-10⟩ rnd).run GObj.fresh (.float (XR.fin 50))
          ⟨XR.fin 1e-8, 4, none⟩) with
      | .error e => .error e
      | .ok (r, _) => .ok (integral, r,
          match inScript (Atomic.init (.arr (.one g.points)) .none (.int r.numS) (.int 0) true) with
          | .error e => .error e
          | .ok m => match inScript (m.evaluate (ND.vec r.coeffs) (ND.vec r.exps) false) with
            | .error e => .error e
            | .ok (final, _) => .ok final)

/-- The notebook examples/greedy_atomic_density.ipynb. -/
def greedyBook (rnd : ℕ → ℕ → ℕ → ℝ) (isAlpha : Str → Bool) (low : Str → Str) (tf : Str → Py XR)
    (fs : Str → Option (List Str)) : Option (Except ScriptErr (XR × GResult × Except ScriptErr (List XR))) :=
  match notebookDensity isAlpha low tf fs with
  | none => none
  | some (.error e) => some (.error e)
  | some (.ok (g, density)) => some (greedyBookFit rnd g density)

/-- The coefficients at the start (fourth code cell of examples/molecular_density.ipynb): all ones. -/
def waterC0 : List ℝ := List.replicate 10 1 ++ List.replicate 3 1 ++ List.replicate 3 1

/-- The exponents at the start (fourth code cell of examples/molecular_density.ipynb): `e_o + c_h1 + c_h2`, with the
coefficients of the hydrogen atoms in the place of their exponents. -/
def waterE0 : List ℝ :=
  [0.001, 0.1, 1, 10, 100, 1000, 2000, 0.01, 1, 10] ++ List.replicate 3 1 ++ List.replicate 3 1

/-- The notebook examples/molecular_density.ipynb from the density on (third to fifth code cells): model with 7 s-type
and 3 p-type functions on the first atom and 3 s-type functions on each of the others, `KLDivergenceFPI` with default
options, `run` with `maxiter=15`, and the four columns that are plotted; column 3 has the title "Kullback-Leibler
value".  The grid is an object of another package with arbitrary points and weights; only its `points` and `integrate`
are used, which is the weighted sum as in `CubicGrid` (whose `origin` and `axes` have no influence); the density and the
coordinates of the atoms also come from other packages. -/
def waterBook (grid : CubicGrid) (density : List XR) (atcoords : List (List XR)) :
    Except ScriptErr (FPIResult × List XR × List XR × List XR × List XR) :=
  match inScript (Molecular.init (.two 3 (cubicRows grid.points)) 3 atcoords [(7, 3), (3, 0), (3, 0)] true) with
  | .error e => .error e
  | .ok m => match inScript (FPI.init (.cubic grid) density (.mol m) (XR.fin 0) none false) with
    | .error e => .error e
    | .ok F =>
      match inScript (F.run (.arr (ND.vec (fins waterC0))) (.arr (ND.vec (fins waterE0)))
          ⟨true, true, 15, XR.fin 1e-3, XR.fin 1e-4, XR.fin 1e-6⟩) with
      | .error e => .error e
      | .ok r => match perfColumn Perf.integral r.performance with
        | .error e => .error e
        | .ok p0 => match perfColumn Perf.l1 r.performance with
          | .error e => .error e
          | .ok p1 => match perfColumn Perf.linf r.performance with
            | .error e => .error e
            | .ok p2 => match perfColumn Perf.ls r.performance with
              | .error e => .error e
              | .ok p3 => .ok (r, p0, p1, p2, p3)

end
end BFit
