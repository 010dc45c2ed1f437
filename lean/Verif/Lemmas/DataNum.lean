import Verif.Lemmas.DataScan

/-! Arithmetic with error bounds for the numbers in a data file: norms, overlaps and kinetic energies of the
orbitals. -/

namespace BFit

noncomputable section

/-! ### Integer square roots -/

/-- Newton's iteration. -/
def isqrtLoop (n : ℕ) : ℕ → ℕ → ℕ
  | 0, x => x
  | k + 1, x =>
    let y := (x + n / x) / 2
    if y < x then isqrtLoop n k y else x

/-- Integer square root. -/
def isqrt (n : ℕ) : ℕ := isqrtLoop n 200 (2 ^ (Nat.log2 n / 2 + 1))

/-! ### Signed numbers

Lists are processed with `List.rec` where it matters for the kernel. -/

/-- Sign and absolute value. -/
abbrev SN := Bool × ℕ

/-- `p - n`. -/
def sgn (p n : ℕ) : SN := if Nat.ble n p then (false, p - n) else (true, n - p)

/-- Add `Σ x_k y_k`, the positive terms to `p`, the negative ones to `n`. -/
def dotAux (xs : List SN) : List SN → ℕ → ℕ → SN :=
  List.rec (motive := fun _ => List SN → ℕ → ℕ → SN) (fun _ p n => sgn p n)
    (fun x _ ih ys p n => List.casesOn ys (sgn p n) (fun y ys =>
      Bool.rec (Bool.rec (ih ys (Nat.add p (Nat.mul x.2 y.2)) n) (ih ys p (Nat.add n (Nat.mul x.2 y.2))) y.1)
        (Bool.rec (ih ys p (Nat.add n (Nat.mul x.2 y.2))) (ih ys (Nat.add p (Nat.mul x.2 y.2)) n) y.1) x.1)) xs

/-- `Σ x_k y_k`. -/
def dot (xs ys : List SN) : SN := dotAux xs ys 0 0

/-- `Σ |x_k|`. -/
def absSum (xs : List SN) : ℕ := List.rec (motive := fun _ => ℕ) 0 (fun x _ ih => Nat.add x.2 ih) xs

/-- The largest number. -/
def maxOf (xs : List ℕ) : ℕ := List.rec (motive := fun _ => ℕ) 0 (fun x _ ih => if Nat.ble x ih then ih else x) xs

/-! ### Slater functions -/

/-- A Slater function: exponent times `10^8`, number, lower bound `m` for `10^16 sqrt (2 Z / (2 n)!)`;
`(2 Z)^n m` and `(2 Z)^n (m + 1)`. -/
structure BFn where
  Z : ℕ
  n : ℕ
  m : ℕ
  U : ℕ
  V : ℕ

/-- The number as a multiple of `10^(-8)`, if it is one. -/
def Dec.fix (d : Dec) : Option SN :=
  if d.scale ≤ 8 then some (d.neg, d.mant * 10 ^ (8 - d.scale)) else none

/-- The Slater function of a row. -/
def mkFn (r : DRow) : Option BFn :=
  match r.z.fix with
  | some (false, Z) =>
    let f := Nat.factorial (2 * r.n)
    let m := isqrt (2 * Z * 10 ^ 32 / f)
    if Nat.ble (m * m * f) (2 * Z * 10 ^ 32) && Nat.ble (2 * Z * 10 ^ 32) ((m + 1) * (m + 1) * f) &&
        Nat.ble 1 Z && Nat.ble 1 r.n then some ⟨Z, r.n, m, (2 * Z) ^ r.n * m, (2 * Z) ^ r.n * (m + 1)⟩
    else none
  | _ => none

/-- `10^20` times the overlap, from below and above. -/
def ovI (a b : BFn) : ℕ × ℕ :=
  let p := Nat.add a.n b.n
  let d := Nat.mul (Nat.pow (Nat.add a.Z b.Z) (Nat.add p 1)) 1000000000000
  let f := Nat.factorial p
  (Nat.div (Nat.mul (Nat.mul a.U b.U) f) d, Nat.add (Nat.div (Nat.mul (Nat.mul a.V b.V) f) d) 1)

/-- `10^20` times the matrix element of the kinetic energy, and its error, from the overlap `o` and its error
`e`. -/
def kinI (l : ℕ) (a b : BFn) (o e : ℕ) : SN × ℕ :=
  let A := Nat.sub a.n 1
  let B := Nat.sub b.n 1
  let p := Nat.add a.n b.n
  let q := Nat.sub p 1
  let s := Nat.add a.Z b.Z
  let x := Nat.add (Nat.mul (Nat.add (Nat.mul A B) (Nat.mul l (Nat.add l 1))) (Nat.mul s s))
    (Nat.mul (Nat.mul a.Z b.Z) (Nat.mul q p))
  let y := Nat.mul (Nat.mul (Nat.add (Nat.mul A b.Z) (Nat.mul B a.Z)) q) s
  let d := Nat.mul (Nat.mul p q) 10000000000000000
  (sgn (Nat.div (Nat.mul o x) d) (Nat.div (Nat.mul o y) d), Nat.add (Nat.div (Nat.mul e (Nat.add x y)) d) 2)

/-! ### Forms -/

/-- Overlap matrix with bounds. -/
def ovMat (bs : List BFn) : List (List (ℕ × ℕ)) := bs.map fun a => bs.map (ovI a)

/-- Largest error of the overlaps. -/
def ovErr (m : List (List (ℕ × ℕ))) : ℕ := maxOf (m.map fun r => maxOf (r.map fun v => Nat.sub v.2 v.1))

/-- Overlap matrix. -/
def ovSN (m : List (List (ℕ × ℕ))) : List (List SN) := m.map fun r => r.map fun v => (false, v.1)

/-- Kinetic energy matrix with errors. -/
def kinMat (l e : ℕ) (bs : List BFn) (m : List (List (ℕ × ℕ))) : List (List (SN × ℕ)) :=
  List.zipWith (fun a r => List.zipWith (fun b v => kinI l a b v.1 e) bs r) bs m

/-- Largest error of the kinetic energies. -/
def kinErr (m : List (List (SN × ℕ))) : ℕ := maxOf (m.map fun r => maxOf (r.map Prod.snd))

/-- Column `i` of the coefficients. -/
def colI (rows : List DRow) (i : ℕ) : Option (List SN) := mapOpt (fun r => match r.cs[i]? with
  | some d => d.fix
  | none => none) rows

/-- Norms up to `10^(-5)`, overlaps up to `10^(-6)`; `e` is the error of the numbers. -/
def orthoRow (e : ℕ) (my : List SN) : List (List SN) → Bool
  | [] => true
  | x :: xs => Nat.ble (Nat.add (dot x my).2 e) (10 ^ 30) && orthoRow e my xs

@[inherit_doc orthoRow]
def orthoI (e : ℕ) (m : List (List SN)) : List (List SN) → Bool
  | [] => true
  | x :: xs =>
    let my := m.map fun r => dot r x
    (match dot x my with
      | (true, _) => false
      | (false, v) => Nat.ble (Nat.add v e) (10 ^ 36 + 10 ^ 31) && Nat.ble (10 ^ 36 + e) (Nat.add v (10 ^ 31))) &&
      orthoRow e my xs && orthoI e m xs

/-- Twice the kinetic energy of the orbitals with occupations `ns`, times `10^36`, from below and above. -/
def kinSum (e : ℕ) (m : List (List SN)) : List (List SN) → List ℕ → Option (ℕ × ℕ)
  | x :: xs, n :: ns => match dot x (m.map fun r => dot r x) with
    | (true, _) => none
    | (false, v) => if Nat.ble e v then match kinSum e m xs ns with
        | none => none
        | some (lo, hi) => some (Nat.add (Nat.mul n (Nat.sub v e)) lo, Nat.add (Nat.mul n (Nat.add v e)) hi)
      else none
  | _, _ => some (0, 0)

/-- Occupation of an orbital. -/
def occC (items : List CfgItem) (o : Orb) : ℕ :=
  match items.findSome? fun it => match it with
    | .orb o' k => if o' = o then some k else none
    | .shell _ _ => none with
  | some k => k
  | none => if items.any fun it => match it with
      | .shell n _ => n == o.n
      | .orb _ _ => false then 2 * (2 * o.sub.l + 1) else 0

/-- One table: orthonormal orbitals; twice the kinetic energy. -/
def blockI (items : List CfgItem) (b : DBlock) : Option (ℕ × ℕ) :=
  match mapOpt mkFn b.rows with
  | none => none
  | some fs => match mapOpt (colI b.rows) (List.range b.count) with
    | none => none
    | some cols =>
      let m := ovMat fs
      let e := ovErr m
      let a := maxOf (cols.map absSum)
      if orthoI (Nat.mul e (Nat.mul a a)) (ovSN m) cols then
        let k := kinMat b.sub.l e fs m
        kinSum (Nat.mul (kinErr k) (Nat.mul a a)) (k.map fun r => r.map Prod.fst) cols
          ((List.range b.count).map fun i => occC items ⟨b.sub.l + 1 + i, b.sub⟩)
      else none

/-- All tables. -/
def blocksI (items : List CfgItem) : List DBlock → Option (ℕ × ℕ)
  | [] => some (0, 0)
  | b :: bs => match blockI items b with
    | none => none
    | some u => match blocksI items bs with
      | none => none
      | some v => some (Nat.add u.1 v.1, Nat.add u.2 v.2)

/-- Orbitals of the tables. -/
def DFile.orbs (f : DFile) : List Orb :=
  f.blocks.flatMap fun b => (List.range b.count).map fun i => ⟨b.sub.l + 1 + i, b.sub⟩

/-- The configuration is well formed. -/
def cfgOk (items : List CfgItem) : Bool :=
  (items.all fun it => match it with
    | .shell n _ => decide (1 ≤ n ∧ n ≤ 4)
    | .orb o k => decide (o.sub.l < o.n ∧ o.n ≤ 7) && (decide (o.sub ≠ .S ∧ o.sub ≠ .P) || decide (k ≤ 9))) &&
  decide (items.filterMap CfgItem.orb?).Nodup

/-- Checks of the contents of a file for an atom with `N` electrons: every table is one for another
subshell, the orbitals are the occupied ones, there are `N` electrons, the orbitals are orthonormal, the
kinetic energy agrees with the one in the file up to a factor `1 ± 3e-7`, the energies add up to `2e-9`
and obey the virial theorem up to `2e-8`. -/
def fileOk (N : ℕ) (f : DFile) : Bool :=
  let items := f.core.items ++ f.items
  cfgOk items && !f.blocks.isEmpty && decide (f.blocks.map DBlock.sub).Nodup &&
  (f.orbs.all fun o => occC items o != 0) &&
  (allOrbs.all fun o => occC items o == 0 || f.orbs.contains o) &&
  (f.orbs.map (occC items)).sum == N &&
  match blocksI items f.blocks with
  | none => false
  | some (lo, hi) =>
    decide (f.kinetic.scale = 9) && !f.kinetic.neg && decide (f.potential.scale = 9) && f.potential.neg &&
    decide (f.energy.scale = 9) && f.energy.neg &&
    Nat.ble (2 * f.kinetic.mant * (10 ^ 7 - 3) * 10 ^ 36) (lo * 10 ^ 16) &&
    Nat.ble (hi * 10 ^ 16) (2 * f.kinetic.mant * (10 ^ 7 + 3) * 10 ^ 36) &&
    decide (f.potential.mant ≤ f.energy.mant + f.kinetic.mant + 2) &&
    decide (f.energy.mant + f.kinetic.mant ≤ f.potential.mant + 2) &&
    decide (2 * f.kinetic.mant * (10 ^ 8 - 1) ≤ f.potential.mant * 10 ^ 8) &&
    decide (f.potential.mant * 10 ^ 8 ≤ 2 * f.kinetic.mant * (10 ^ 8 + 1))

/-- Comparison of signed numbers. -/
def snLe (x y : SN) : Bool :=
  match x.1, y.1 with
  | false, false => Nat.ble x.2 y.2
  | true, false => true
  | false, true => Nat.ble x.2 0 && Nat.ble y.2 0
  | true, true => Nat.ble y.2 x.2

/-- Is the last orbital energy of the file the highest one? -/
def lastMax (f : DFile) : Option Bool :=
  match mapOpt Dec.fix (f.blocks.flatMap DBlock.energies) with
  | none => none
  | some es => match es.getLast? with
    | none => none
    | some e => some (es.all fun x => snLe x e)

/-- The layout of a file. -/
def DataFile.heavy (d : DataFile) : Bool := d.charge == .neutral && decide (55 ≤ d.z)

/-- A file that holds what it should. -/
def DataFile.ok (d : DataFile) : Bool :=
  match scanFile d.heavy d.lines with
  | none => false
  | some f => fileOk (d.charge.electrons d.z) f &&
    (lastMax f == some (decide (d.z ∈ lastIsHighest d.charge)))

end
end BFit
