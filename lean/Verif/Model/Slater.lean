import Verif.Model.Fit
import Mathlib.Data.Nat.Factorial.Basic

/-!
# Model of `bfit/density.py`

The class `SlaterAtoms` once its data has been read from a file.  An orbital such as `"2P"` is a pair of
its number and its subshell.  The dictionaries of the object are partial functions.
-/

namespace BFit

open Classical

noncomputable section

/-- The letters of the subshells (_slater.py:213, density.py:295). -/
inductive Sub | S | P | D | F
  deriving DecidableEq, Repr

/-- An orbital label (_slater.py:227, density.py:294): `"3D"` is `⟨3, .D⟩`. -/
structure Orb where
  n : ℕ
  sub : Sub
  deriving DecidableEq, Repr

/-- The attributes of a `SlaterAtoms` object that the methods use (density.py:89-101): the orbitals,
the exponents and the numbers of the Slater functions of each subshell, the coefficients of each
orbital, occupations and energies in the order of the orbitals.  Column vectors are lists. -/
structure SlaterAtom where
  orbitals : List Orb
  exps : Sub → Option (List XR)
  nums : Sub → Option (List ℕ)
  coeff : Orb → Option (List XR)
  occ : List XR
  energies : List XR

/-- Broadcasting of the exponents and the numbers of the Slater functions, arrays of shapes (M, 1) and
(M', 1) (density.py:246-249). -/
def pairUp (exps : List XR) (nums : List ℕ) : Py (List (XR × ℕ)) :=
  if exps.length = nums.length then .ok (List.zip exps nums)
  else if nums.length = 1 then .ok (exps.map fun z => (z, nums.headD 0))
  else if exps.length = 1 then .ok (nums.map fun n => (exps.headD 0, n))
  else raise .valueError

/-- One entry of `radial_slater_orbital` (density.py:246-249). -/
def slaterEntry (z : XR) (n : ℕ) (r : XR) : XR :=
  (XR.pow (XR.fin 2 * z) n * XR.sqrt ((XR.fin 2 * z) / XR.fin (Nat.factorial (2 * n)))) *
    XR.pow r ((n : ℝ) - 1) * XR.exp ((-z) * r)

/-- `radial_slater_orbital` (density.py:207-250), one row per point. -/
def radialSlater (exps : List XR) (nums : List ℕ) (points : ND XR) : Py (List (List XR)) :=
  if points.ndim ≠ 1 then raise .valueError
  else match pairUp exps nums with
    | .error e => .error e
    | .ok ps => .ok (points.data.map fun r => ps.map fun p => slaterEntry p.1 p.2 r)

/-- One entry of the prefactor of the derivative (density.py:405-406). -/
def derivPref (z : XR) (n : ℕ) (r : XR) : XR :=
  if r.abs < XR.fin 1e-10 then XR.fin 0 else XR.fin ((n : ℝ) - 1) / r - z

/-- `derivative_radial_slater_type_orbital` (density.py:362-408). -/
def derivSlater (exps : List XR) (nums : List ℕ) (points : ND XR) : Py (List (List XR)) :=
  match radialSlater exps nums points with
  | .error e => .error e
  | .ok slater => match pairUp exps nums with
    | .error e => .error e
    | .ok ps => .ok (List.zipWith (fun r row => List.zipWith (fun p s => derivPref p.1 p.2 r * s) ps row)
        points.data slater)

/-- `np.dot(matrix, vector)` for a matrix of rows of length `w` (density.py:298, 358, 434, 441, 448, 467). -/
def matVec (w : ℕ) (rows : List (List XR)) (v : List XR) : Py (List XR) :=
  if w ≠ v.length then raise .valueError else .ok (rows.map fun row => npDot row v)

/-- One column of `phi_matrix` (density.py:293-298). -/
def SlaterAtom.phiColumn (A : SlaterAtom) (points : ND XR) (deriv : Bool) (o : Orb) : Py (List XR) :=
  match A.exps o.sub with
  | none => raise .keyError
  | some exps => match A.nums o.sub with
    | none => raise .keyError
    | some nums =>
      match (if deriv then derivSlater exps nums points else radialSlater exps nums points) with
      | .error e => .error e
      | .ok slater => match A.coeff o with
        | none => raise .keyError
        | some c => match pairUp exps nums with
          | .error e => .error e
          | .ok ps => matVec ps.length slater c

/-- The matrix with the given columns (`phi_matrix[:, index] = ...`, density.py:291-298, 425-441). -/
def ofColumns (n : ℕ) (cols : List (List XR)) : List (List XR) :=
  (List.range n).map fun i => cols.map fun c => c.getD i 0

/-- `phi_matrix` (density.py:252-299), one row per point.  `len(points)` raises on a 0-d array. -/
def SlaterAtom.phiMatrix (A : SlaterAtom) (points : ND XR) (deriv : Bool) : Py (List (List XR)) :=
  match points.shape with
  | [] => raise .typeError
  | n :: _ => match mapPy (A.phiColumn points deriv) A.orbitals with
    | .error e => .error e
    | .ok cols => .ok (ofColumns n cols)

/-- `a[len(b) - 1]` (density.py:352, 355) for lists (a negative index counts from the end). -/
def getLast' (a : List XR) (lb : ℕ) : Py XR :=
  if lb = 0 then
    match a.getLast? with
    | some x => .ok x
    | none => raise .indexError
  else match a[lb - 1]? with
    | some x => .ok x
    | none => raise .indexError

/-- The weights of the orbitals for `"valence"` and `"core"` (density.py:351-356). -/
def SlaterAtom.weighted (A : SlaterAtom) (core : Bool) : Py (List XR) :=
  match getLast' A.energies A.occ.length with
  | .error e => .error e
  | .ok homo =>
    bcast (· * ·) A.occ (A.energies.map fun en =>
      let g := XR.exp (-(XR.pow (en - homo) 2))
      if core then XR.fin 1 - g else g)

/-- The density for given weights of the orbitals (density.py:358). -/
def SlaterAtom.densityWith (A : SlaterAtom) (points : ND XR) (occs : List XR) : Py (List XR) :=
  match A.phiMatrix points false with
  | .error e => .error e
  | .ok phi =>
    match matVec A.orbitals.length (phi.map fun row => row.map fun x => XR.pow x 2) occs with
    | .error e => .error e
    | .ok d => .ok (d.map fun x => x / (XR.fin 4 * XR.fin Real.pi))

/-- `atomic_density` (density.py:301-359). -/
def SlaterAtom.atomicDensity (A : SlaterAtom) (points : ND XR) (mode : String) : Py (List XR) :=
  if ¬ (mode = "total" ∨ mode = "valence" ∨ mode = "core") then raise .valueError
  else if mode = "valence" then
    match A.weighted false with
    | .error e => .error e
    | .ok occs => A.densityWith points occs
  else if mode = "core" then
    match A.weighted true with
    | .error e => .error e
    | .ok occs => A.densityWith points occs
  else A.densityWith points A.occ

/-- The dictionary `angular` (density.py:426-428). -/
def angular : Sub → ℝ
  | .S => 0
  | .P => 2
  | .D => 6
  | .F => 12

/-- One column of the matrix in `positive_definite_kinetic_energy` (density.py:429-445). -/
def SlaterAtom.kinColumn (A : SlaterAtom) (points : ND XR) (o : Orb) : Py (List XR) :=
  match A.phiColumn points true o with
  | .error e => .error e
  | .ok d => match A.phiColumn points false o with
    | .error e => .error e
    | .ok p => .ok (List.zipWith (fun dp r => XR.pow dp.1 2 +
        (if r.abs < XR.fin 1e-10 then XR.fin 0
          else XR.fin (angular o.sub) * XR.pow dp.2 2 / XR.pow r 2)) (List.zip d p) points.data)

/-- `positive_definite_kinetic_energy` (density.py:410-449). -/
def SlaterAtom.kinetic (A : SlaterAtom) (points : ND XR) : Py (List XR) :=
  match points.shape with
  | [] => raise .typeError
  | n :: _ => match mapPy (A.kinColumn points) A.orbitals with
    | .error e => .error e
    | .ok cols => match matVec A.orbitals.length (ofColumns n cols) A.occ with
      | .error e => .error e
      | .ok d => .ok (d.map fun x => x / XR.fin 2 / (XR.fin 4 * XR.fin Real.pi))

/-- `derivative_density` (density.py:451-468). -/
def SlaterAtom.derivDensity (A : SlaterAtom) (points : ND XR) : Py (List XR) :=
  match A.phiMatrix points false with
  | .error e => .error e
  | .ok phi => match A.phiMatrix points true with
    | .error e => .error e
    | .ok dphi =>
      match matVec A.orbitals.length (List.zipWith (fun a b => List.zipWith (fun x y => XR.fin 2 * (x * y)) a b) phi dphi)
          A.occ with
      | .error e => .error e
      | .ok d => .ok (d.map fun x => x / (XR.fin 4 * XR.fin Real.pi))

end
end BFit
