import Verif.Model.Display
import Verif.Model.Fits
import Verif.Model.Tables

/-! The examples in README.md. -/

namespace BFit

noncomputable section

/-- Steps 1 to 3 of the example in README.md:153-180: `UniformRadialGrid(num_pts=100, min_radii=0., max_radii=50.)`,
`AtomicGaussianDensity(grid.points, num_s=5, num_p=0, normalize=True)` and `KLDivergenceFPI(grid, density, model)` with
the defaults `mask_value=0.`, `integral_dens=None`, `spherical=False` (fit.py:213).  Simplified: the entries of
`density` are numbers in a one-dimensional array. -/
def readmeFit (density : List XR) : Py FPI :=
  match uniformRadialGrid (.int 100) (.float (XR.fin 0)) (.float (XR.fin 50)) with
  | .error e => .error e
  | .ok g => match Atomic.init (.arr (.one g.points)) .none (.int 5) (.int 0) true with
    | .error e => .error e
    | .ok m => FPI.init (.radial g) density (.atom m) (XR.fin 0) none false

/-- `c0` as in README.md:186: four numbers. -/
def readmeC0 : List ℝ := [1, 1, 1, 1]

/-- `e0` (README.md:187). -/
def readmeE0 : List ℝ := [0.001, 0.1, 1, 5, 100]

/-- Step 4 (README.md:182-196) after the other steps: `run` with `maxiter=1000`, `disp=True` and the default thresholds
(fit.py:304-305), then `result["fun"][-1]`.  The first component is what `run` prints; the four lines that the example
itself prints show the second component. -/
def readmeRun (c0 : List ℝ) (density : List XR) : List Line × Except ScriptErr (FPIResult × XR) :=
  match readmeFit density with
  | .error e => ([], .error (.raised e))
  | .ok F => match F.runD (.arr (ND.vec (fins c0))) (.arr (ND.vec (fins readmeE0)))
      ⟨true, true, 1000, XR.fin 1e-6, XR.fin 1e-6, XR.fin 1e-6⟩ true with
    | (out, .error e) => (out, .error (.raised e))
    | (out, .ok r) => match r.fun_.getLast? with
      | none => (out, .error .index)
      | some v => (out, .ok (r, v))

/-- The number printed in README.md:136-148 for the values `v` of an element, with the name `coefficients` corrected (it
is spelt `coeffcients` where it is assigned, README.md:111, 132): the argument of `grid.integrate` is
`model_pts - 4.0 - np.pi - grid.points--2.0`. -/
def readmeIntegral (v : FitEntry) : Py XR :=
  match clenshawRadialGrid (.int 4) (.int 10000) (.int 899) (.seq (fins [50, 75, 100])) (.bool true) with
  | .error e => .error e
  | .ok g => match fitModel g.points v with
    | .error e => .error e
    | .ok m => g.integrate (ND.vec ((List.zipWith (· - ·) ((m.map (· - XR.fin 4)).map (· - XR.fin Real.pi)) g.points).map
        (· - -XR.fin 2)))

end
end BFit
