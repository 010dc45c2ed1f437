import Verif.Model.Fit
import Verif.Model.Slater
import Verif.Model.Parse
import Verif.Spec.Parse

/-! The scripts of `examples`.  Printing is left out. -/

namespace BFit

noncomputable section

/-- What ends a script (examples/table/table_1_and_2.py, table_3.py, table_4.py, table_5.py, examples/atomdb_db.py):
an exception of the package or of NumPy, a division of Python numbers by zero, an index out of range. -/
inductive ScriptErr
  | raised (e : PyErr)
  | zeroDivision
  | index

/-- An exception of the package ends the script (none of the scripts of examples/table/*.py catches one). -/
def inScript {α : Type} : Py α → Except ScriptErr α
  | .ok a => .ok a
  | .error e => .error (.raised e)

/-- The attributes of a `SlaterAtoms` object from the dictionary of the file (density.py:89-101).  Simplified: labels
are turned into orbitals; labels that are not those of an orbital with `l < n <= 7` are left out. -/
def RawAtom.attrs (R : RawAtom) : SlaterAtom where
  orbitals := R.orbitals.filterMap fun s => allOrbs.find? fun o => decide (o.label = s)
  exps := fun s => R.exps [s.letter]
  nums := fun s => (R.nums [s.letter]).map fun l => l.map Int.toNat
  coeff := fun o => R.coeff o.label
  occ := R.occ.map fun k : ℤ => XR.fin (k : ℝ)
  energies := R.energies

/-- The starting values: numbers of functions, equal coefficients and exponents (table_1_and_2.py:39-44 with
`factor = 2`, table_5.py:38-41, 56-58 with `factor = 10/3`). -/
def ugbsStart (z : ℤ) (ugbs : Str → Option (List XR)) (factor : XR) :
    Except ScriptErr (ℕ × ℕ × List XR × List XR) :=
  match ugbs "S".toList with
  | none => .error (.raised .keyError)
  | some s => match ugbs "P".toList with
    | none => .error (.raised .keyError)
    | some p =>
      let n := s.length + p.length
      if n = 0 then .error .zeroDivision
      else .ok (s.length, p.length, List.replicate n (XR.fin ((z : ℝ) / n)), (s ++ p).map fun x => x * factor)

/-- The options of `run` (table_1_and_2.py:53-56, table_5.py:61-62): `opt_coeffs` and `opt_expons` by default true,
`maxiter = 10000`, thresholds `1e-6`, `1e-6`, `1e-14`. -/
def tableOpts : FPIOpts := ⟨true, true, 10000, XR.fin 1e-6, XR.fin 1e-6, XR.fin 1e-14⟩

/-- `grid.integrate(a * spherical)` where `spherical = 4.0 * np.pi * grid.points**2.0`
(table_1_and_2.py:69-75). -/
def sphIntegrate (g : RadialGrid) (a : List XR) : Py XR :=
  match bcast (· * ·) a (g.points.map fun r => XR.fin 4 * XR.fin Real.pi * XR.pow r 2) with
  | .error e => .error e
  | .ok b => g.integrate (ND.vec b)

/-- The relative errors `l1, linf, ls, kl` (table_1_and_2.py:69-75). -/
def relativeErrors (g : RadialGrid) (density : List XR) (p : Perf) : Py (XR × XR × XR × XR) :=
  match sphIntegrate g density with
  | .error e => .error e
  | .ok i => match npMax density with
    | .error e => .error e
    | .ok m => match sphIntegrate g (density.map fun y => XR.pow y 2) with
      | .error e => .error e
      | .ok i2 => match sphIntegrate g (density.map fun y => y * XR.log y) with
        | .error e => .error e
        | .ok ik => .ok (p.l1 / i, p.linf / m, p.ls / i2, p.kl / ik)

/-- What the script computes for one element (the values printed or saved at the end of a pass of
examples/table/table_1_and_2.py:31-81). -/
structure TableRow where
  coeffs : List XR
  exps : List XR
  success : Bool
  last : Perf
  l1 : XR
  linf : XR
  ls : XR
  kl : XR

/-- From the density to the relative errors (table_1_and_2.py:47-75). -/
def table12Fit (g : RadialGrid) (ns np : ℕ) (c0 e0 : List XR) (A : SlaterAtom) (z : ℤ) : Except ScriptErr TableRow :=
  match inScript (A.atomicDensity (ND.vec g.points) "total") with
  | .error e => .error e
  | .ok density => match inScript (Atomic.init (.arr (.one g.points)) .none (.int ns) (.int np) true) with
    | .error e => .error e
    | .ok m =>
      match inScript (FPI.init (.radial g) density (.atom m) (XR.fin 1e-18) (some (XR.fin z)) true) with
      | .error e => .error e
      | .ok F => match inScript (F.run (.arr (ND.vec c0)) (.arr (ND.vec e0)) tableOpts) with
        | .error e => .error e
        | .ok r => match r.performance.getLast? with
          | none => .error .index
          | some p => match inScript (relativeErrors g density p) with
            | .error e => .error e
            | .ok (l1, linf, ls, kl) => .ok ⟨r.coeffs, r.exps, r.success, p, l1, linf, ls, kl⟩

/-- One pass of the loop (table_1_and_2.py:31-75) for an element and its atomic number.  `none`: it does not end. -/
def table12Row (isAlpha : Str → Bool) (low : Str → Str) (tf : Str → Py XR) (fs : Str → Option (List Str))
    (modulePath s : Str) (z : ℤ) : Option (Except ScriptErr TableRow) :=
  match clenshawRadialGrid (.int z) (.int 10000) (.int 899) (.seq (fins [50, 75, 100])) (.bool true) with
  | .error e => some (.error (.raised e))
  | .ok g => match ugbsExponents low tf fs modulePath (.str s) with
    | .error e => some (.error (.raised e))
    | .ok ugbs => match ugbsStart z ugbs (XR.fin 2) with
      | .error e => some (.error e)
      | .ok (ns, np, c0, e0) => match slaterInit isAlpha low tf fs (.str s) false false with
        | none => none
        | some (.error e) => some (.error (.raised e))
        | some (.ok R) => some (table12Fit g ns np c0 e0 R.attrs z)

/-- The list `atoms` (table_1_and_2.py:20-25). -/
def tableAtoms : List Str :=
  (["h", "he", "li", "be", "b", "c", "n", "o", "f", "ne", "na", "mg", "al", "si", "p", "s", "cl", "ar", "k", "ca",
    "sc", "ti", "v", "cr", "mn", "fe", "co", "ni", "cu", "zn", "ga", "ge", "as", "se", "br", "kr", "rb", "sr", "y",
    "zr", "nb", "mo", "tc", "ru", "rh", "pd", "ag", "cd", "in", "sn", "sb", "te", "i", "xe"]).map String.toList

/-- `element, atomic_numbs[k]` for `k, element in enumerate(atoms)` (table_1_and_2.py:26-32). -/
def tableItems : List (Str × ℤ) := tableAtoms.mapIdx fun k s => (s, (k : ℤ) + 1)

/-- The loop of table_1_and_2.py:28-81 from `results_final`, a dictionary of arrays.  `none`: it does not end. -/
def table12Loop (isAlpha : Str → Bool) (low : Str → Str) (tf : Str → Py XR) (fs : Str → Option (List Str))
    (modulePath : Str) :
    List (Str × ℤ) → (Str → Option (List XR)) → Option (Except ScriptErr (Str → Option (List XR)))
  | [], d => some (.ok d)
  | (s, z) :: rest, d => match table12Row isAlpha low tf fs modulePath s z with
    | none => none
    | some (.error e) => some (.error e)
    | some (.ok row) => table12Loop isAlpha low tf fs modulePath rest fun k =>
        if k = s ++ "_exps".toList then some row.exps
        else if k = s ++ "_coeffs".toList then some row.coeffs else d k

/-- `results_final` at the end of table_1_and_2.py, as saved in line 83. -/
def table12 (isAlpha : Str → Bool) (low : Str → Str) (tf : Str → Py XR) (fs : Str → Option (List Str))
    (modulePath : Str) : Option (Except ScriptErr (Str → Option (List XR))) :=
  table12Loop isAlpha low tf fs modulePath tableItems fun _ => none

/-- What `table_5.py` prints for one element. -/
structure KinRow where
  kinetic : List XR
  success : Bool
  coeffs : List XR
  exps : List XR
  last : Perf

/-- From the atom to the printed results (table_5.py:44-72). -/
def table5Fit (g : RadialGrid) (ns np : ℕ) (c0 e0 : List XR) (A : SlaterAtom) : Except ScriptErr KinRow :=
  match inScript (Atomic.init (.arr (.one g.points)) .none (.int ns) (.int np) true) with
  | .error e => .error e
  | .ok m => match inScript (A.kinetic (ND.vec g.points)) with
    | .error e => .error e
    | .ok kin => match inScript (FPI.init (.radial g) kin (.atom m) (XR.fin 1e-18) none true) with
      | .error e => .error e
      | .ok F => match inScript (F.run (.arr (ND.vec c0)) (.arr (ND.vec e0)) tableOpts) with
        | .error e => .error e
        | .ok r => match r.performance.getLast? with
          | none => .error .index
          | some p => .ok ⟨kin, r.success, r.coeffs, r.exps, p⟩

/-- One pass of the loop (table_5.py:29-72).  `none`: it does not end.  Simplified: the starting values, which the
script computes after the fit object, are computed before the atom is read. -/
def table5Row (isAlpha : Str → Bool) (low : Str → Str) (tf : Str → Py XR) (fs : Str → Option (List Str))
    (modulePath s : Str) (z : ℤ) : Option (Except ScriptErr KinRow) :=
  match clenshawRadialGrid (.int z) (.int 10000) (.int 899) (.seq (fins [50, 75, 100])) (.bool false) with
  | .error e => some (.error (.raised e))
  | .ok g => match ugbsExponents low tf fs modulePath (.str s) with
    | .error e => some (.error (.raised e))
    | .ok ugbs => match ugbsStart z ugbs (XR.fin (10 / 3)) with
      | .error e => some (.error e)
      | .ok (ns, np, c0, e0) => match slaterInit isAlpha low tf fs (.str s) false false with
        | none => none
        | some (.error e) => some (.error (.raised e))
        | some (.ok R) => some (table5Fit g ns np c0 e0 R.attrs)

/-- The list of table_5.py:18-28 without the slice. -/
def kinAtoms : List (ℤ × Str) :=
  [(2, "he".toList), (4, "be".toList), (9, "f".toList), (13, "al".toList), (19, "k".toList), (22, "ti".toList),
    (30, "zn".toList), (45, "rh".toList), (53, "i".toList)]

/-- The loop of table_5.py:18-72. -/
def table5Loop (isAlpha : Str → Bool) (low : Str → Str) (tf : Str → Py XR) (fs : Str → Option (List Str))
    (modulePath : Str) : List (ℤ × Str) → Option (Except ScriptErr (List KinRow))
  | [] => some (.ok [])
  | (z, s) :: rest => match table5Row isAlpha low tf fs modulePath s z with
    | none => none
    | some (.error e) => some (.error e)
    | some (.ok row) => match table5Loop isAlpha low tf fs modulePath rest with
      | none => none
      | some (.error e) => some (.error e)
      | some (.ok rows) => some (.ok (row :: rows))

/-- The results that table_5.py prints, for the elements of the slice `[6:]`. -/
def table5 (isAlpha : Str → Bool) (low : Str → Str) (tf : Str → Py XR) (fs : Str → Option (List Str))
    (modulePath : Str) : Option (Except ScriptErr (List KinRow)) :=
  table5Loop isAlpha low tf fs modulePath (kinAtoms.drop 6)

/-- The options of `run` (table_3.py:54 and table_4.py:66-68): `maxiter = 10000`, `tol = 1e-14`; `opt_coeffs` and
`opt_expons` by default true. -/
def slsqpOpts (withConstraint : Bool) : SOpts := ⟨true, true, 10000, XR.fin 1e-14, withConstraint⟩

/-- From the model to the results of `ScipyFit.run` (table_3.py:45-54 with `norm`, the Kullback-Leibler divergence and
the constraint; table_4.py:49-68 without, with the squared difference).  `minimize` is the optimiser. -/
def slsqpFit (minimize : SProblem → Py SRes) (norm : Bool) (measure : Meas) (withConstraint : Bool) (g : RadialGrid)
    (ns np : ℕ) (c0 e0 : List XR) (A : SlaterAtom) : Except ScriptErr SResult :=
  match inScript (Atomic.init (.arr (.one g.points)) .none (.int ns) (.int np) norm) with
  | .error e => .error e
  | .ok m => match inScript (A.atomicDensity (ND.vec g.points) "total") with
    | .error e => .error e
    | .ok density =>
      match inScript (SFit.init (.radial g) density (.atom m) (.inst measure) "SLSQP" none none true
          (XR.fin 1e-18)) with
      | .error e => .error e
      | .ok F => inScript (F.run minimize c0 e0 (slsqpOpts withConstraint))

/-- One pass of the loop of table_3.py:29-65 or table_4.py:34-79.  `none`: it does not end.  Simplified: the starting
values, which table_4.py computes after the fit object, are computed before the atom is read; likewise the model,
which both scripts construct before reading the atom, is constructed after it. -/
def slsqpRow (minimize : SProblem → Py SRes) (norm : Bool) (measure : Meas) (withConstraint : Bool)
    (isAlpha : Str → Bool) (low : Str → Str) (tf : Str → Py XR) (fs : Str → Option (List Str)) (modulePath s : Str)
    (z : ℤ) : Option (Except ScriptErr SResult) :=
  match clenshawRadialGrid (.int z) (.int 10000) (.int 899) (.seq (fins [50, 75, 100])) (.bool true) with
  | .error e => some (.error (.raised e))
  | .ok g => match ugbsExponents low tf fs modulePath (.str s) with
    | .error e => some (.error (.raised e))
    | .ok ugbs => match ugbsStart z ugbs (XR.fin 2) with
      | .error e => some (.error e)
      | .ok (ns, np, c0, e0) => match slaterInit isAlpha low tf fs (.str s) false false with
        | none => none
        | some (.error e) => some (.error (.raised e))
        | some (.ok R) => some (slsqpFit minimize norm measure withConstraint g ns np c0 e0 R.attrs)

/-- One pass of table_3.py (29-65): normalised functions, `KLDivergence(mask_value=1e-18)`, with the constraint. -/
def table3Row (minimize : SProblem → Py SRes) := slsqpRow minimize true (.kl ⟨XR.fin 1e-18, XR.fin 100000⟩) true

/-- One pass of table_4.py (34-79): functions not normalised, `SquaredDifference()`, `WITH_CONSTRAINT = False`. -/
def table4Row (minimize : SProblem → Py SRes) := slsqpRow minimize false .sq false

/-- The loop of table_3.py:18-65 and of table_4.py:23-79 with the pass `row`. -/
def slsqpLoop (row : Str → ℤ → Option (Except ScriptErr SResult)) :
    List (ℤ × Str) → Option (Except ScriptErr (List SResult))
  | [] => some (.ok [])
  | (z, s) :: rest => match row s z with
    | none => none
    | some (.error e) => some (.error e)
    | some (.ok r) => match slsqpLoop row rest with
      | none => none
      | some (.error e) => some (.error e)
      | some (.ok rs) => some (.ok (r :: rs))

/-- What table_3.py prints; `atoms[-1:]` is the last of the nine elements, which are those of table_5.py. -/
def table3 (minimize : SProblem → Py SRes) (isAlpha : Str → Bool) (low : Str → Str) (tf : Str → Py XR)
    (fs : Str → Option (List Str)) (modulePath : Str) : Option (Except ScriptErr (List SResult)) :=
  slsqpLoop (table3Row minimize isAlpha low tf fs modulePath) (kinAtoms.drop (kinAtoms.length - 1))

/-- What table_4.py prints, for the elements of the slice `[8:]`. -/
def table4 (minimize : SProblem → Py SRes) (isAlpha : Str → Bool) (low : Str → Str) (tf : Str → Py XR)
    (fs : Str → Option (List Str)) (modulePath : Str) : Option (Except ScriptErr (List SResult)) :=
  slsqpLoop (table4Row minimize isAlpha low tf fs modulePath) (kinAtoms.drop 8)

open Classical in
/-- `density[density < 0.0] = 0.0` (atomdb_db.py:65).  Values that are not numbers stay. -/
def clipNegative (density : List XR) : List XR := density.map fun y => if y < XR.fin 0 then XR.fin 0 else y

/-- From the density of the database to the relative errors (atomdb_db.py:65-102). -/
def atomdbFit (g : RadialGrid) (ns np : ℕ) (c0 e0 density : List XR) (z : ℤ) : Except ScriptErr TableRow :=
  match inScript (Atomic.init (.arr (.one g.points)) .none (.int ns) (.int np) true) with
  | .error e => .error e
  | .ok m =>
    match inScript (FPI.init (.radial g) (clipNegative density) (.atom m) (XR.fin 1e-18) (some (XR.fin z)) true) with
    | .error e => .error e
    | .ok F => match inScript (F.run (.arr (ND.vec c0)) (.arr (ND.vec e0)) tableOpts) with
      | .error e => .error e
      | .ok r => match r.performance.getLast? with
        | none => .error .index
        | some p => match inScript (relativeErrors g (clipNegative density) p) with
          | .error e => .error e
          | .ok (l1, linf, ls, kl) => .ok ⟨r.coeffs, r.exps, r.success, p, l1, linf, ls, kl⟩

/-- One pass of the loop of atomdb_db.py (26-102) with the number of s-type functions.  The database is the function
`dens` of the element, the multiplicity and the points (lines 51-60).  Simplified: the print of line 64, which needs a
density of at least one value, is left out. -/
def atomdbRow (dens : Str → ℤ → List XR → Py (List XR)) (low : Str → Str) (tf : Str → Py XR)
    (fs : Str → Option (List Str)) (modulePath s : Str) (z mult : ℤ) : Except ScriptErr (ℕ × TableRow) :=
  match inScript (clenshawRadialGrid (.int z) (.int 10000) (.int 899) .none (.bool true)) with
  | .error e => .error e
  | .ok g => match inScript (ugbsExponents low tf fs modulePath (.str s)) with
    | .error e => .error e
    | .ok ugbs => match ugbsStart z ugbs (XR.fin 2) with
      | .error e => .error e
      | .ok (ns, np, c0, e0) => match inScript (dens s mult g.points) with
        | .error e => .error e
        | .ok density => match atomdbFit g ns np c0 e0 density z with
          | .error e => .error e
          | .ok row => .ok (ns, row)

/-- A value in the dictionary of atomdb_db.py: an array, an entry of `performance`, a flag, the list of relative
errors. -/
inductive Saved
  | arr (l : List XR)
  | perf (p : Perf)
  | flag (b : Bool)
  | errors (l1 linf ls kl : XR)

/-- The assignments to `results_final` (atomdb_db.py:107-113). -/
def atomdbEntries (s : Str) (ns : ℕ) (row : TableRow) : List (Str × Saved) :=
  [(s ++ "_coeffs_s".toList, .arr (sliceTo row.coeffs ns)), (s ++ "_exps_s".toList, .arr (sliceTo row.exps ns)),
    (s ++ "_coeffs_p".toList, .arr (sliceFrom row.coeffs ns)), (s ++ "_exps_p".toList, .arr (sliceFrom row.exps ns)),
    (s ++ "_errors_4pir2".toList, .perf row.last), (s ++ "_sucess".toList, .flag row.success),
    (s ++ "_errors".toList, .errors row.l1 row.linf row.ls row.kl)]

/-- Assignments to a dictionary (examples/atomdb_db.py:107-113). -/
def assignAll (d : Str → Option Saved) (l : List (Str × Saved)) : Str → Option Saved :=
  l.foldl (fun d p k => if k = p.1 then some p.2 else d k) d

/-- The loop of atomdb_db.py:26-115 from the dictionary `d` and the contents `file` of the `.npz` file, which is
written at the end of every pass: the exception that ended it, if any, and the file. -/
def atomdbLoop (pass : Str → ℤ → ℤ → Except ScriptErr (ℕ × TableRow)) :
    List (Str × ℤ × ℤ) → (Str → Option Saved) → Option (Str → Option Saved) →
      Option ScriptErr × Option (Str → Option Saved)
  | [], _, file => (none, file)
  | (s, z, mult) :: rest, d, file => match pass s z mult with
    | .error e => (some e, file)
    | .ok (ns, row) =>
      let d' := assignAll d (atomdbEntries s ns row)
      atomdbLoop pass rest d' (some d')

/-- `atoms`, `atomic_numbs` and `mult` (atomdb_db.py:23-25). -/
def atomdbItems : List (Str × ℤ × ℤ) :=
  [("H".toList, 1, 2), ("C".toList, 6, 3), ("N".toList, 7, 4), ("O".toList, 8, 3), ("F".toList, 9, 2),
    ("P".toList, 15, 4), ("S".toList, 16, 3), ("Cl".toList, 17, 2)]

/-- The script atomdb_db.py on a system without the file. -/
def atomdb (dens : Str → ℤ → List XR → Py (List XR)) (low : Str → Str) (tf : Str → Py XR)
    (fs : Str → Option (List Str)) (modulePath : Str) : Option ScriptErr × Option (Str → Option Saved) :=
  atomdbLoop (atomdbRow dens low tf fs modulePath) atomdbItems (fun _ => none) none

end
end BFit
