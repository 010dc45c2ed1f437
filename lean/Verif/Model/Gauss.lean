import Verif.Num.Np

/-!
# Model of `bfit/model.py`

Matrices are lists of rows (one row per grid point).  Every numpy matrix expression of the source
acts on the rows independently (broadcast against the exponents, coefficients and the radius of
the row), so the model computes one row at a time.
-/

namespace BFit

open Classical

noncomputable section

/-- The points array of model.py:50, 332: 1-D, or 2-D with `cols` columns.  (0-D and >2-D arrays are not modelled.) -/
inductive Pts where
  | one (l : List XR)
  | two (cols : ℕ) (rows : List (List XR))

/-- `len(points)` (model.py:467-469). -/
def Pts.len : Pts → ℕ
  | .one l => l.length
  | .two _ rows => rows.length

/-- The `points` argument (model.py:69-70): an array or something else. -/
inductive PtsArg where
  | arr (p : Pts)
  | notArray

/-- An `AtomicGaussianDensity` object (model.py:32-48): the counts are Python integers because
`change_numb_s_and_numb_p` stores any integer. -/
structure Atomic where
  points : Pts
  coord : List XR
  radii : List XR
  ns : ℤ
  np : ℤ
  normalized : Bool

/-- 1-D numpy broadcasting of `points - self.coord` (model.py:94). -/
def subBroadcast (a b : List XR) : Py (List XR) :=
  if b.length = 1 then .ok (a.map (fun x => x - b.headD 0))
  else if a.length = b.length then .ok (List.zipWith (· - ·) a b)
  else if a.length = 1 then .ok (b.map (fun y => a.headD 0 - y))
  else raise .valueError

/-- `np.linalg.norm(x - c)` of one row (model.py:92). -/
def normDiff (x c : List XR) : XR :=
  XR.sqrt (List.zipWith (fun u v => (u - v) * (u - v)) x c).sum

/-- The centre chosen by `AtomicGaussianDensity.__init__` (model.py:78-88): the origin when none is
given, else a 1-D array of matching dimension. -/
def atomCoord (pts : Pts) : PyObj → Py (List XR)
  | .none => match pts with
    | .two cols _ => .ok (List.replicate cols (XR.fin 0))
    | .one _ => .ok [XR.fin 0]
  | .arr a =>
    if a.ndim ≠ 1 then raise .valueError
    else match pts with
      | .two cols _ => if cols ≠ a.size then raise .valueError else .ok a.data
      | .one _ => .ok a.data
  | _ => raise .valueError

/-- The radii computed by `AtomicGaussianDensity.__init__` (model.py:90-95). -/
def atomRadii (pts : Pts) (coord : List XR) : Py (List XR) :=
  match pts with
  | .two _ rows => .ok (rows.map (fun x => normDiff x coord))
  | .one l => match subBroadcast l coord with
    | .ok d => .ok (d.map XR.abs)
    | .error err => .error err

/-- `AtomicGaussianDensity.__init__` (model.py:50-100). -/
def Atomic.init (points : PtsArg) (center numS numP : PyObj) (normalize : Bool) : Py Atomic :=
  match points with
  | .notArray => raise .typeError
  | .arr pts =>
    match numS.asInt? with
    | none => raise .typeError
    | some s =>
      if s < 0 then raise .typeError else
      match numP.asInt? with
      | none => raise .typeError
      | some p =>
        if p < 0 then raise .typeError else
        if s + p = 0 then raise .valueError else
        match atomCoord pts center with
        | .error err => .error err
        | .ok coord => match atomRadii pts coord with
          | .error err => .error err
          | .ok radii => .ok ⟨pts, coord, radii, s, p, normalize⟩

/-- `AtomicGaussianDensity.nbasis` (model.py:122-125). -/
def Atomic.nbasis (m : Atomic) : ℤ := m.ns + m.np

/-- `AtomicGaussianDensity.prefactor` (model.py:132-135); `[x] * k` is empty for `k ≤ 0`. -/
def Atomic.prefactor (m : Atomic) : List XR :=
  List.replicate m.ns.toNat (XR.fin 1.5) ++ List.replicate m.np.toNat (XR.fin 2.5)

/-- `change_numb_s_and_numb_p` (model.py:137-154); the new object is returned.  numpy integers, which the
constructor accepts and this method refuses, are not represented. -/
def Atomic.changeNumb (m : Atomic) (newS newP : PyObj) : Py Atomic :=
  match newS.asInt? with
  | none => raise .typeError
  | some s => match newP.asInt? with
    | none => raise .typeError
    | some p => .ok { m with ns := s, np := p }

/-- One row of `np.exp(-expons[None, :] * np.power(radii, 2)[:, None])` (model.py:198). -/
def gaussRow (r : XR) (expons : List XR) : List XR :=
  expons.map (fun e => XR.exp ((-e) * XR.pow r 2))

/-- One row of `_eval_s` (model.py:218-261): the value and the derivative row. -/
def evalSRow (normalized : Bool) (r : XR) (row coeffs expons : List XR) : XR × List XR :=
  let matrix := if normalized then
      List.zipWith (fun m e => m * XR.pow (e / XR.fin Real.pi) 1.5) row expons
    else row
  let g := npDot matrix coeffs
  let dExp := List.zipWith (fun m c => (-m) * XR.pow r 2 * c) matrix coeffs
  let dExp' := if normalized then
      List.zipWith (· + ·) dExp
        (List.zipWith (fun m ce => XR.fin 1.5 * m * ce / XR.fin (Real.pi ^ (1.5 : ℝ)))
          (gaussRow r expons)
          (List.zipWith (fun c e => c * XR.pow e 0.5) coeffs expons))
    else dExp
  (g, matrix ++ dExp')

/-- One row of `_eval_p` (model.py:263-309). -/
def evalPRow (normalized : Bool) (r : XR) (row coeffs expons : List XR) : XR × List XR :=
  let matrix := row.map (fun m => m * XR.pow r 2)
  if ¬ normalized then evalSRow normalized r matrix coeffs expons
  else
    let matrix := List.zipWith
      (fun m e => m * (XR.pow e 2.5 / XR.fin (Real.pi ^ (1.5 : ℝ))) / XR.fin 1.5) matrix expons
    let g := npDot matrix coeffs
    let dExp := List.zipWith (fun m c => (-m) * XR.pow r 2 * c) matrix coeffs
    let dExp' := List.zipWith (· + ·) dExp
        (List.zipWith (fun m ce => XR.fin 5 * m * ce / XR.fin (3 * Real.pi ^ (1.5 : ℝ)))
          ((gaussRow r expons).map (fun m => m * XR.pow r 2))
          (List.zipWith (fun c e => c * XR.pow e 1.5) coeffs expons))
    (g, matrix ++ dExp')

/-- One row of `evaluate` (model.py:199-216): the branches on the counts, slices with Python
semantics. -/
def Atomic.evalRow (m : Atomic) (r : XR) (coeffs expons : List XR) : XR × List XR :=
  let row := gaussRow r expons
  if m.np = 0 then evalSRow m.normalized r row coeffs expons
  else if m.ns = 0 then evalPRow m.normalized r row coeffs expons
  else
    let gs := evalSRow m.normalized r (sliceTo row m.ns) (sliceTo coeffs m.ns) (sliceTo expons m.ns)
    let gp := evalPRow m.normalized r (sliceFrom row m.ns) (sliceFrom coeffs m.ns)
      (sliceFrom expons m.ns)
    (gs.1 + gp.1,
      (sliceTo gs.2 m.ns ++ sliceTo gp.2 m.np) ++ (sliceFrom gs.2 m.ns ++ sliceFrom gp.2 m.np))

/-- Result of `evaluate` (model.py:260-261, 490-492): the values and, when `deriv=True`, the derivative matrix. -/
abbrev EvalOut := List XR × Option (List (List XR))

/-- `AtomicGaussianDensity.evaluate` (model.py:156-216) for array arguments. -/
def Atomic.evaluate (m : Atomic) (coeffs expons : ND XR) (deriv : Bool) : Py EvalOut :=
  if coeffs.ndim ≠ 1 ∨ expons.ndim ≠ 1 then raise .valueError
  else if coeffs.size ≠ expons.size then raise .valueError
  else if (coeffs.size : ℤ) ≠ m.nbasis then raise .valueError
  else
    let rows := m.radii.map (fun r => m.evalRow r coeffs.data expons.data)
    .ok (rows.map Prod.fst, if deriv then some (rows.map Prod.snd) else none)

/-- A `MolecularGaussianDensity` object (model.py:312-330). -/
structure Molecular where
  points : Pts
  basis : List (ℤ × ℤ)
  centers : List Atomic

/-- `points.ndim > 1 and points.shape[1] != cols` (model.py:355). -/
def Pts.colsMismatch (cols : ℕ) : Pts → Prop
  | .two c _ => c ≠ cols
  | .one _ => False

/-- `MolecularGaussianDensity.__init__` (model.py:332-367).  `basis` must be an integer array with
two columns; `coords` has `cols` columns.  Non-array arguments and arrays of other dimension are
rejected by the source with ValueError and are not represented here. -/
def Molecular.init (pts : Pts) (cols : ℕ) (coords : List (List XR)) (basis : List (ℤ × ℤ))
    (normalize : Bool) : Py Molecular :=
  if coords.length ≠ basis.length then raise .valueError
  else if pts.colsMismatch cols then raise .valueError
  else do
    let centers ← (List.zip coords basis).mapM (fun cb =>
      Atomic.init (.arr pts) (.arr (ND.vec cb.1)) (.int cb.2.1) (.int cb.2.2) normalize)
    pure ⟨pts, basis, centers⟩

/-- `MolecularGaussianDensity.nbasis` (model.py:374-377). -/
def Molecular.nbasis (m : Molecular) : ℤ := (m.basis.map (fun b => b.1 + b.2)).sum

/-- `MolecularGaussianDensity.radii` (model.py:379-382). -/
def Molecular.radii (m : Molecular) : List (List XR) := m.centers.map Atomic.radii

/-- `MolecularGaussianDensity.prefactor` (model.py:389-396).  Simplified: for a model without centres
`np.concatenate` raises ValueError, here the list is empty. -/
def Molecular.prefactor (m : Molecular) : List XR := (m.centers.map Atomic.prefactor).flatten

/-- `np.cumsum` of integers (model.py:417) with a running total. -/
def cumsum (acc : ℤ) : List ℤ → List ℤ
  | [] => []
  | x :: xs => (acc + x) :: cumsum (acc + x) xs

/-- `MolecularGaussianDensity.assign_basis_to_center` (model.py:398-418);
`np.where(...)[0][0]` raises IndexError when no entry qualifies. -/
def Molecular.assignBasis (m : Molecular) (index : ℤ) : Py ℕ :=
  if m.nbasis ≤ index then raise .valueError
  else
    let cs := cumsum 0 (m.basis.map (fun b => b.1 + b.2))
    match cs.findIdx? (fun c => decide (index + 1 ≤ c)) with
    | some i => .ok i
    | none => raise .indexError

/-- Slice assignment `row[start : start + len v] = v` (model.py:484-485). -/
def setSlice (row : List XR) (start : ℕ) (v : List XR) : List XR :=
  row.take start ++ v ++ row.drop (start + v.length)

/-- Contribution of one centre to the rows (loop body, model.py:469-489).  The accumulator holds
the total density, the total derivative matrix and `count`.  The in-place sum `total_g += g` raises
when the shapes differ (1-D points holding one point, with centres of several coordinates). -/
def Molecular.addCenter (nbasis : ℕ) (coeffs expons : List XR) (deriv : Bool)
    (acc : List XR × List (List XR) × ℕ) (c : Atomic) : Py (List XR × List (List XR) × ℕ) := do
  let (g, dg, count) := acc
  let nb := c.nbasis.toNat
  let cs := (coeffs.drop count).take nb
  let es := (expons.drop count).take nb
  let (gc, dgc) ← c.evaluate (ND.vec cs) (ND.vec es) deriv
  let g' ← if gc.length = g.length then pure (List.zipWith (· + ·) g gc) else raise .valueError
  let dg' := match dgc with
    | none => dg
    | some d => List.zipWith (fun row drow =>
        setSlice (setSlice row count (drow.take nb)) (nbasis + count) (drow.drop nb)) dg d
  pure (g', dg', count + nb)

/-- `MolecularGaussianDensity.evaluate` (model.py:420-492). -/
def Molecular.evaluate (m : Molecular) (coeffs expons : ND XR) (deriv : Bool) : Py EvalOut :=
  if coeffs.ndim ≠ 1 ∨ expons.ndim ≠ 1 then raise .valueError
  else if (coeffs.size : ℤ) ≠ m.nbasis ∨ (expons.size : ℤ) ≠ m.nbasis then raise .valueError
  else do
    let n := m.nbasis.toNat
    let g0 := List.replicate m.points.len (XR.fin 0)
    let dg0 := List.replicate m.points.len (List.replicate (2 * n) (XR.fin 0))
    let (g, dg, _) ← m.centers.foldlM (Molecular.addCenter n coeffs.data expons.data deriv)
      (g0, dg0, 0)
    pure (g, if deriv then some dg else none)

end
end BFit
