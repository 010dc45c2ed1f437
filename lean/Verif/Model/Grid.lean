import Verif.Num.Np
import Mathlib.Algebra.BigOperators.Fin

/-!
# Model of `bfit/grid.py`

The `dtype` arguments are not modelled (numbers are exact).
-/

namespace BFit

open Classical

noncomputable section

/-- A radial grid object (grid.py:30-54): the stored 1-D array of points. -/
structure RadialGrid where
  points : List XR

/-- `_BaseRadialGrid.__init__` (grid.py:33-45). -/
def RadialGrid.mk? (points : PyObj) : Py RadialGrid :=
  match points with
  | .arr a => if a.ndim ≠ 1 then raise .typeError else .ok ⟨a.data⟩
  | _ => raise .typeError

/-- `_BaseRadialGrid.__len__` (grid.py:52-54). -/
def RadialGrid.len (g : RadialGrid) : ℕ := g.points.length

/-- `_BaseRadialGrid.integrate` (grid.py:56-77) for an array argument. -/
def RadialGrid.integrate (g : RadialGrid) (arr : ND XR) : Py XR :=
  if arr.shape ≠ [g.points.length] then raise .valueError
  else .ok (trapz arr.data g.points)

/-- `UniformRadialGrid.__init__` (grid.py:88-119). -/
def uniformRadialGrid (numPts minRadii maxRadii : PyObj) : Py RadialGrid :=
  match numPts.asInt? with
  | none => raise .typeError
  | some n =>
    if n ≤ 0 then raise .typeError else
    match minRadii.asReal? with
    | none => raise .typeError
    | some lo =>
      match maxRadii.asReal? with
      | none => raise .typeError
      | some hi =>
        if hi ≤ lo then raise .valueError
        else .ok ⟨npLinspace lo hi n.toNat⟩

/-- The `mode` argument of `_get_points` (grid.py:196-246); only these two are ever passed. -/
inductive ClenshawMode | core | diffuse

/-- `ClenshawRadialGrid._get_points` (grid.py:196-246).  `np.arange(1.0 - o, n + int(not o))` has
the `n` entries `p + (1 - o)`, `p < n`. The unreachable `else: raise` branch is omitted. -/
def clenshawPoints (z : ℤ) (n : ℕ) (mode : ClenshawMode) (includeOrigin : Bool) : List XR :=
  match mode with
  | .core =>
    (List.range n).map (fun (p : ℕ) =>
      (XR.fin 1 - XR.cos (XR.fin (0.5 * Real.pi)
          * XR.fin ((p : ℝ) + (if includeOrigin then 0 else 1)) / XR.fin n))
        / XR.fin (2 * z))
  | .diffuse =>
    (List.range n).map (fun (p : ℕ) =>
      XR.fin 25 * (XR.fin 1 - XR.cos (XR.fin (0.5 * Real.pi) * XR.fin ((p : ℝ) + 1) / XR.fin n)))

/-- The truth test and iterable check on `extra_pts` (grid.py:181-187): `none` when the argument is
falsy, otherwise the values to concatenate.  Truth of an array of more than one element raises
ValueError; a one-element array that is not 1-D cannot be concatenated (ValueError). -/
def extraPoints (extra : PyObj) : Py (Option (List XR)) :=
  match extra with
  | .none => .ok Option.none
  | .bool b => if b then raise .typeError else .ok Option.none
  | .int n => if n ≠ 0 then raise .typeError else .ok Option.none
  | .float x => if x ≠ XR.fin 0 then raise .typeError else .ok Option.none
  | .str s => if s ≠ "" then raise .typeError else .ok Option.none
  | .seq l => if l = [] then .ok Option.none else .ok (some l)
  | .arr a =>
    match a.data with
    | [] => .ok Option.none
    | [x] => if x = XR.fin 0 then .ok Option.none
             else if a.ndim ≠ 1 then raise .valueError else .ok (some [x])
    | _ => raise .valueError
  | .other => raise .typeError

/-- `ClenshawRadialGrid.__init__` (grid.py:140-189). -/
def clenshawRadialGrid (atomicNumber numCore numDiffuse extra includeOrigin : PyObj) :
    Py RadialGrid :=
  match atomicNumber.asInt? with
  | none => raise .typeError
  | some z =>
    if z ≤ 0 then raise .typeError else
    match numCore.asInt? with
    | none => raise .typeError
    | some m =>
      if m < 0 then raise .typeError else
      match numDiffuse.asInt? with
      | none => raise .typeError
      | some n =>
        if n < 0 then raise .typeError else
        match includeOrigin with
        | .bool o =>
          let core := clenshawPoints z m.toNat .core o
          let diff := clenshawPoints z n.toNat .diffuse true
          match extraPoints extra with
          | .error e => .error e
          | .ok (some l) => .ok ⟨npSort (core ++ diff ++ l)⟩
          | .ok Option.none => .ok ⟨npSort (core ++ diff)⟩
        | _ => raise .typeError

/-- A point of (or axis in) three-dimensional space (rows of the arrays of grid.py:255-279). -/
abbrev V3 := Fin 3 → XR

/-- A `CubicGrid` object (grid.py:249-413). -/
structure CubicGrid where
  origin : V3
  axes : Fin 3 → V3
  points : List V3
  weights : List XR

/-- A three-dimensional numpy array (a component of `coords`, grid.py:272-278): extents and an indexing function. -/
structure Arr3 where
  n0 : ℕ
  n1 : ℕ
  n2 : ℕ
  get : ℕ → ℕ → ℕ → ℕ

/-- `np.meshgrid(arange(nx), arange(ny), arange(nz))`: numpy's default `indexing='xy'` gives
arrays of shape `(ny, nx, nz)` (used at grid.py:272-276). -/
def meshgrid (nx ny nz : ℕ) : Fin 3 → Arr3 :=
  ![⟨ny, nx, nz, fun _ i _ => i⟩, ⟨ny, nx, nz, fun j _ _ => j⟩, ⟨ny, nx, nz, fun _ _ k => k⟩]

/-- `np.swapaxes(coords, 1, 2)` on the stacked array exchanges the first two axes of each
component (grid.py:277). -/
def Arr3.swap01 (a : Arr3) : Arr3 := ⟨a.n1, a.n0, a.n2, fun i j k => a.get j i k⟩

/-- C-order flattening `reshape(3, -1)` of one component (grid.py:278). -/
def Arr3.flat (a : Arr3) : List ℕ :=
  (List.range (a.n0 * a.n1 * a.n2)).map (fun n =>
    a.get (n / (a.n1 * a.n2)) (n / a.n2 % a.n1) (n % a.n2))

/-- Matrix-vector product `c.dot(axes)` for a row vector `c` of length three (grid.py:279, 352). -/
def rowDot (c : V3) (axes : Fin 3 → V3) : V3 := fun d => ∑ e, c e * axes e d

/-- `np.cross` (grid.py:362). -/
def cross3 (a b : V3) : V3 :=
  ![a 1 * b 2 - a 2 * b 1, a 2 * b 0 - a 0 * b 2, a 0 * b 1 - a 1 * b 0]

/-- Scalar times vector (grid.py:362-363). -/
def smul3 (s : XR) (a : V3) : V3 := fun d => s * a d

/-- `CubicGrid._calculate_volume` (grid.py:355-370).  The branch for shapes that do not have
three entries cannot be reached: `__init__` indexes `shape[2]` first, and a longer shape is
outside the documented `(int, int, int)`. -/
def cubicVolume (axes : Fin 3 → V3) (shape : Fin 3 → ℤ) : XR :=
  XR.abs (∑ d, cross3 (smul3 (XR.fin (shape 0)) (axes 0)) (smul3 (XR.fin (shape 1)) (axes 1)) d
    * smul3 (XR.fin (shape 2)) (axes 2) d)

/-- `CubicGrid._choose_weight_scheme` (grid.py:372-377). -/
def cubicWeights (axes : Fin 3 → V3) (shape : Fin 3 → ℤ) : List XR :=
  List.replicate (shape 0 * shape 1 * shape 2).toNat
    (cubicVolume axes shape / XR.fin ((shape 0 * shape 1 * shape 2 : ℤ) : ℝ))

/-- `CubicGrid.__init__` (grid.py:252-283) for three-dimensional origins and axes.  `np.zeros` and
`np.full` raise ValueError for a negative number of points. -/
def cubicGrid (origin : V3) (axes : Fin 3 → V3) (shape : Fin 3 → ℤ) : Py CubicGrid :=
  if shape 0 * shape 1 * shape 2 < 0 then raise .valueError
  else
    let mesh := meshgrid (shape 0).toNat (shape 1).toNat (shape 2).toNat
    let coords : Fin 3 → List ℕ := fun c => (mesh c).swap01.flat
    let points := (List.zipWith (fun (i : ℕ) (jk : ℕ × ℕ) =>
        (fun d => rowDot ![XR.fin i, XR.fin jk.1, XR.fin jk.2] axes d + origin d))
      (coords 0) (List.zip (coords 1) (coords 2)))
    .ok ⟨origin, axes, points, cubicWeights axes shape⟩

/-- `CubicGrid.integrate` (grid.py:388-413), with numpy broadcasting of the weights and the checked array: the
numbers of weights and points can differ if the shape has two negative entries. -/
def CubicGrid.integrate (g : CubicGrid) (arr : ND XR) : Py XR :=
  if arr.shape ≠ [g.points.length] then raise .valueError
  else if g.weights.length = g.points.length then .ok (List.zipWith (· * ·) g.weights arr.data).sum
  else if g.weights.length = 1 then .ok (arr.data.map (g.weights.headD 0 * ·)).sum
  else if g.points.length = 1 then .ok (g.weights.map (· * arr.data.headD 0)).sum
  else raise .valueError

/-- `np.array(np.ceil(x), int)` (grid.py:346-349).  Simplified: the result of casting nan/inf to int depends on
the machine (on x86 the most negative integer, and the number of points overflows afterwards, so that the
constructor raises ValueError or gives a grid without points); the model raises ValueError.  No theorem is about
this case. -/
def ceilInt : XR → Py ℤ
  | .fin a => .ok ⌈a⌉
  | _ => raise .valueError

/-- Moment of inertia tensor (grid.py:324-330). -/
def inertia (zs : List XR) (coords : List V3) (com : V3) : Fin 3 → V3 :=
  fun a b => (List.zipWith (fun z (x : V3) =>
      let xyz : V3 := fun c => x c - com c
      let r := XR.pow (XR.sqrt (∑ c, xyz c * xyz c)) 2
      z * ((if a = b then r else XR.fin 0) - xyz a * xyz b)) zs coords).sum

/-- Centre of the nuclear charges (grid.py:319-320). -/
def comOf (zs : List XR) (coords : List V3) : V3 :=
  fun d => (List.zipWith (fun z (x : V3) => z * x d) zs coords).sum / zs.sum

/-- `CubicGrid.from_molecule` (grid.py:291-353).  `eigh` stands for the eigenvector matrix returned
by `np.linalg.eigh` (an arbitrary function here); `spacing`, `extension` are floats. -/
def fromMolecule (eigh : (Fin 3 → V3) → (Fin 3 → V3)) (zs : List XR) (coords : List V3)
    (spacing extension : XR) (rotate : Bool) : Py CubicGrid := do
  if zs.length ≠ coords.length then raise .valueError
  else
    let com : V3 := comOf zs coords
    let v := eigh (inertia zs coords com)
    let newCoords : List V3 :=
      if rotate then coords.map (fun x => rowDot (fun c => x c - com c) v) else coords
    let axes : Fin 3 → V3 :=
      if rotate then fun c d => spacing * v c d
      else fun c d => if c = d then spacing else XR.fin 0
    let size := fun (d : Fin 3) => do
      let hi ← npMax (newCoords.map (fun x => x d))
      let lo ← npMin (newCoords.map (fun x => x d))
      ceilInt ((hi - lo + XR.fin 2 * extension) / spacing)
    let s0 ← size 0
    let s1 ← size 1
    let s2 ← size 2
    let shape : Fin 3 → ℤ := ![s0, s1, s2]
    let origin : V3 := fun d => com d - rowDot (fun c => XR.fin (0.5 * (shape c : ℝ))) axes d
    cubicGrid origin axes shape

/-- A grid object accepted by the fitting classes (fit.py:66-79): a radial or a cubic grid. -/
inductive Grid where
  | radial (g : RadialGrid)
  | cubic (g : CubicGrid)

/-- `len(grid.points)` (fit.py:505, grid.py:52-54, 384-386). -/
def Grid.len : Grid → ℕ
  | .radial g => g.points.length
  | .cubic g => g.points.length

/-- `grid.integrate(arr)` (fit.py:146-147; grid.py:56-77, 388-413). -/
def Grid.integrate : Grid → ND XR → Py XR
  | .radial g, a => g.integrate a
  | .cubic g, a => g.integrate a

end
end BFit
