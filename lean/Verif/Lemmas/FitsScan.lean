import Verif.Spec.Fits
import Verif.Lemmas.DataNum

/-! Checks of the bundled results of fits that can be evaluated. -/

namespace BFit

noncomputable section

/-! ### Numbers -/

/-- Digits of the exponent. -/
def jexF (m k : ℕ) (s : Str) : ℕ → ℕ → Option (ℕ × ℕ) :=
  List.rec (motive := fun _ => ℕ → ℕ → Option (ℕ × ℕ))
    (fun x n => Nat.casesOn n none fun _ => some (m, Nat.add k x))
    (fun c _ ih x n => Bool.rec none (ih (Nat.add (Nat.mul 10 x) (Nat.sub c.toNat 48)) (Nat.succ n)) c.isDigit) s

/-- `-` and the digits of the exponent. -/
def jexpF (m k : ℕ) (s : Str) : Option (ℕ × ℕ) :=
  List.casesOn s none fun c t => Bool.rec none (jexF m k t 0 0) (Nat.beq c.toNat 45)

/-- Digits after the point. -/
def jfracF (s : Str) : ℕ → ℕ → Option (ℕ × ℕ) :=
  List.rec (motive := fun _ => ℕ → ℕ → Option (ℕ × ℕ))
    (fun m k => Nat.casesOn k none fun _ => some (m, k))
    (fun c t ih m k => Bool.rec
      (Nat.casesOn k none fun _ => Bool.rec none (jexpF m k t) (Nat.beq c.toNat 101))
      (ih (Nat.add (Nat.mul 10 m) (Nat.sub c.toNat 48)) (Nat.succ k)) c.isDigit) s

/-- Digits before the point. -/
def jintF (s : Str) : ℕ → Option (ℕ × ℕ) :=
  List.rec (motive := fun _ => ℕ → Option (ℕ × ℕ)) (fun _ => none)
    (fun c t ih m => Bool.rec
      (Bool.rec (Bool.rec none (jexpF m 0 t) (Nat.beq c.toNat 101)) (jfracF t m 0) (Nat.beq c.toNat 46))
      (ih (Nat.add (Nat.mul 10 m) (Nat.sub c.toNat 48))) c.isDigit) s

/-- Starts with a digit, and not with `0` and another digit. -/
def noZero (w : Str) : Bool :=
  match w with
  | [] => false
  | [c] => c.isDigit
  | c :: c' :: _ => c.isDigit && !(Nat.beq c.toNat 48 && c'.isDigit)

/-- A number: digits and the number of places to shift the point. -/
def jnumF (w : Str) : Option (ℕ × ℕ) := if noZero w then jintF w 0 else none

/-- An integer. -/
def jnatF (w : Str) : Option ℕ := if noZero w && w.all Char.isDigit then some (decDigits w) else none

/-! ### Entries -/

/-- The numbers for an element. -/
structure DFit where
  ns : ℕ
  np : ℕ
  cs : List (ℕ × ℕ)
  es : List (ℕ × ℕ)

/-- Read the numbers of an element: there are s-type functions, the lists have the right lengths and positive
entries, the coefficients at most 40 places. -/
def JEntry.scan (e : JEntry) : Option DFit :=
  if !e.sym.isEmpty && e.sym.all Char.isAlpha then
    match jnatF e.numS, jnatF e.numP, mapOpt jnumF e.coeffs, mapOpt jnumF e.exps with
    | some ns, some np, some cs, some es =>
      if Nat.beq cs.length (ns + np) && Nat.beq es.length (ns + np) && !Nat.beq ns 0 &&
          cs.all (fun p => Nat.ble 1 p.1 && Nat.ble p.2 40) && es.all (fun p => Nat.ble 1 p.1) then
        some ⟨ns, np, cs, es⟩
      else none
    | _, _, _, _ => none
  else none

/-- `10^40` times the sum of the coefficients. -/
def qSum (cs : List (ℕ × ℕ)) : ℕ :=
  List.rec (motive := fun _ => ℕ) 0
    (fun p _ ih => Nat.add (Nat.mul p.1 (Nat.pow 10 (Nat.sub 40 p.2))) ih) cs

/-- `10^20 Σ q c / (2 a)` from below; each term is too small by less than one. -/
def mSum (q : ℕ) (cs : List (ℕ × ℕ)) : List (ℕ × ℕ) → ℕ :=
  List.rec (motive := fun _ => List (ℕ × ℕ) → ℕ) (fun _ => 0)
    (fun p _ ih es => List.casesOn es 0 fun a es =>
      Nat.add (Nat.div (Nat.mul (Nat.mul p.1 (Nat.pow 10 (Nat.add 20 a.2))) q)
        (Nat.mul (Nat.mul 2 a.1) (Nat.pow 10 p.2))) (ih es)) cs

/-- `10^20` times the second moment, from below. -/
def DFit.mom (f : DFit) : ℕ :=
  Nat.add (mSum 3 (f.cs.take f.ns) (f.es.take f.ns)) (mSum 5 (f.cs.drop f.ns) (f.es.drop f.ns))

/-! ### Moments of Slater densities -/

/-- `10^20` times the second moment of a product, and its error, from the overlap `o` and its error `e`. -/
def momI (a b : BFn) (o e : ℕ) : SN × ℕ :=
  let p := Nat.add a.n b.n
  let s := Nat.add a.Z b.Z
  let x := Nat.mul (Nat.mul (Nat.add p 1) (Nat.add p 2)) 10000000000000000
  let d := Nat.mul s s
  ((false, Nat.div (Nat.mul o x) d), Nat.add (Nat.div (Nat.mul e x) d) 2)

/-- Matrix of second moments with errors. -/
def momMat (e : ℕ) (bs : List BFn) (m : List (List (ℕ × ℕ))) : List (List (SN × ℕ)) :=
  List.zipWith (fun a r => List.zipWith (fun b v => momI a b v.1 e) bs r) bs m

/-- One table: `10^36` times the second moment of the density. -/
def blockM (items : List CfgItem) (b : DBlock) : Option (ℕ × ℕ) :=
  match mapOpt mkFn b.rows with
  | none => none
  | some fs => match mapOpt (colI b.rows) (List.range b.count) with
    | none => none
    | some cols =>
      let m := ovMat fs
      let a := maxOf (cols.map absSum)
      let k := momMat (ovErr m) fs m
      kinSum (Nat.mul (kinErr k) (Nat.mul a a)) (k.map fun r => r.map Prod.fst) cols
        ((List.range b.count).map fun i => occC items ⟨b.sub.l + 1 + i, b.sub⟩)

/-- All tables. -/
def blocksM (items : List CfgItem) : List DBlock → Option (ℕ × ℕ)
  | [] => some (0, 0)
  | b :: bs => match blockM items b with
    | none => none
    | some u => match blocksM items bs with
      | none => none
      | some v => some (Nat.add u.1 v.1, Nat.add u.2 v.2)

/-! ### Check of an element -/

/-- The coefficients add up to `z` up to `z · t · 10^(-13)`. -/
def DFit.sumOk (f : DFit) (z t : ℕ) : Bool :=
  let q := qSum f.cs
  Nat.ble q (z * (10 ^ 40 + t * 10 ^ 27)) && Nat.ble (z * 10 ^ 40) (q + z * t * 10 ^ 27)

/-- The second moment lies in `[L, H] · 10^(-36)` up to a factor `1 ± t · 10^(-6)`. -/
def DFit.momOk (f : DFit) (u : ℕ × ℕ) (t : ℕ) : Bool :=
  Nat.ble (Nat.mul (Nat.add f.mom f.cs.length) (10 ^ 22)) (Nat.mul u.1 (10 ^ 6 + t)) &&
    Nat.ble (Nat.mul u.2 (10 ^ 6 - t)) (Nat.mul f.mom (10 ^ 22))

/-- The second moment is at least 1000 times too large. -/
def DFit.momBad (f : DFit) (u : ℕ × ℕ) : Bool := Nat.ble (Nat.mul u.2 1000) (Nat.mul f.mom (10 ^ 16))

/-- The elements for which the SLSQP result has a wrong second moment. -/
def slsqpBad : List ℕ := [20, 44, 50, 51, 54]

/-- Check of the FPI result `f` and the SLSQP result `g` for the neutral atom with data `d`. -/
def fitsOk (d : DataFile) (f g : JEntry) : Bool :=
  (symbols[d.z - 1]? == some f.sym) && (symbols[d.z - 1]? == some g.sym) &&
  match scanFile d.heavy d.lines with
  | none => false
  | some s => match blocksM (s.core.items ++ s.items) s.blocks with
    | none => false
    | some u => match f.scan with
      | none => false
      | some f => match g.scan with
        | none => false
        | some g => f.sumOk d.z 400 && f.momOk u 20 && g.sumOk d.z 30000000 && Nat.beq f.ns g.ns &&
          Nat.beq f.np g.np && if slsqpBad.contains d.z then g.momBad u else g.momOk u 3

end
end BFit
