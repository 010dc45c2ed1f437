import Verif.Lemmas.DataNum

/-! Check of the behaviour of the orbitals in a data file at the nucleus. -/

namespace BFit

noncomputable section

/-- Bounds for `10^12` times the normalisation constant of a Slater function. -/
def cuspNorm (b : BFn) : ℕ × ℕ :=
  let d := Nat.pow 100000000 (Nat.add b.n 1)
  (Nat.div b.U d, Nat.add (Nat.div b.V d) 1)

/-- `10^20` times the contribution of a function to the value of `R(r) / r^l` at the nucleus, for coefficient 1. -/
def cuspA (l : ℕ) (b : BFn) : SN :=
  if Nat.beq b.n (Nat.add l 1) then (false, Nat.mul (cuspNorm b).1 100000000) else (false, 0)

/-- `10^20` times the contribution to the derivative. -/
def cuspB (l : ℕ) (b : BFn) : SN :=
  if Nat.beq b.n (Nat.add l 1) then (true, Nat.mul (cuspNorm b).1 b.Z)
  else if Nat.beq b.n (Nat.add l 2) then (false, Nat.mul (cuspNorm b).1 100000000) else (false, 0)

/-- Error of these numbers. -/
def cuspErr (fs : List BFn) : ℕ :=
  maxOf (fs.map fun b => Nat.mul (Nat.sub (cuspNorm b).2 (cuspNorm b).1) (Nat.add 100000000 b.Z))

/-- The cusp of an orbital with coefficients `x` is the number `cu` (times `10^8`) up to `t / 10^5`: value `a` and
derivative `b` at the nucleus satisfy `|(l + 1) b + cu z a| ≤ t / 10^5 z |a|`. -/
def cuspOne (z l t e : ℕ) (as bs x : List SN) (cu : SN) : Bool :=
  let a := dot as x
  let b := dot bs x
  let er := Nat.mul e (absSum x)
  let p := Nat.mul (Nat.add l 1) 100000000
  let q := Nat.mul cu.2 z
  let g := dot [b, a] [(false, p), (cu.1, q)]
  Nat.ble (Nat.add er 1) a.2 &&
    Nat.ble (Nat.mul (Nat.add g.2 (Nat.mul (Nat.add p q) er)) 100000)
      (Nat.mul (Nat.mul t (Nat.mul z 100000000)) (Nat.sub a.2 er))

/-- The cusps of the orbitals of a table. -/
def cuspAll (z l t e : ℕ) (as bs : List SN) : List (List SN) → List SN → Bool
  | [], [] => true
  | x :: xs, c :: cs => cuspOne z l t e as bs x c && cuspAll z l t e as bs xs cs
  | _, _ => false

/-- The cusps in the table are those of the orbitals up to `1.5e-4`. -/
def cuspBlock (z : ℕ) (b : DBlock) : Bool :=
  match mapOpt mkFn b.rows with
  | none => false
  | some fs => match mapOpt (colI b.rows) (List.range b.count) with
    | none => false
    | some cols => match mapOpt Dec.fix b.cusps with
      | none => false
      | some cs => cuspAll z b.sub.l 15 (cuspErr fs) (fs.map (cuspA b.sub.l)) (fs.map (cuspB b.sub.l)) cols cs

/-- `Σ n |a| |b + z a|` from above and `Σ n a²` from below for s orbitals with occupations `n`. -/
def katoSum (z e : ℕ) (as bs : List SN) : List (List SN) → List ℕ → ℕ × ℕ
  | x :: xs, n :: ns =>
    let a := dot as x
    let b := dot bs x
    let er := Nat.mul e (absSum x)
    let g := dot [b, a] [(false, 1), (false, z)]
    let r := katoSum z e as bs xs ns
    (Nat.add (Nat.mul n (Nat.mul (Nat.add a.2 er) (Nat.add g.2 (Nat.mul (Nat.add 1 z) er)))) r.1,
      Nat.add (Nat.mul n (Nat.mul (Nat.sub a.2 er) (Nat.sub a.2 er))) r.2)
  | _, _ => (0, 0)

/-- The sums for a table. -/
def katoBlock (z : ℕ) (items : List CfgItem) (b : DBlock) : Option (ℕ × ℕ) :=
  match b.sub with
  | .S => match mapOpt mkFn b.rows with
    | none => none
    | some fs => match mapOpt (colI b.rows) (List.range b.count) with
      | none => none
      | some cols => some (katoSum z (cuspErr fs) (fs.map (cuspA 0)) (fs.map (cuspB 0)) cols
        ((List.range b.count).map fun i => occC items ⟨b.sub.l + 1 + i, b.sub⟩))
  | _ => some (0, 0)

/-- The sums for a file. -/
def katoBlocks (z : ℕ) (items : List CfgItem) : List DBlock → Option (ℕ × ℕ)
  | [] => some (0, 0)
  | b :: bs => match katoBlock z items b with
    | none => none
    | some u => match katoBlocks z items bs with
      | none => none
      | some v => some (Nat.add u.1 v.1, Nat.add u.2 v.2)

/-- Check of a file: the principal quantum numbers of the functions are those of the subshell or higher; the
density obeys the cusp condition up to a factor `1 ± 1e-3`; the cusps in the file are those of the orbitals. -/
def DataFile.cuspOk (d : DataFile) : Bool :=
  match scanFile d.heavy d.lines with
  | none => false
  | some f => (f.blocks.all fun b => (b.rows.all fun r => Nat.ble (Nat.add b.sub.l 1) r.n) &&
      (d.heavy || cuspBlock d.z b)) &&
    match katoBlocks d.z (f.core.items ++ f.items) f.blocks with
    | none => false
    | some u => Nat.ble 1 u.2 && Nat.ble (Nat.mul u.1 1000) (Nat.mul d.z u.2)

end
end BFit
