import Verif.Spec.Npz
import Verif.Lemmas.FitsScan

/-! Check of the archives with results of fits that can be evaluated. -/

namespace BFit

noncomputable section

/-- The double with the bits `w` is positive, normal, below `2^52` and the closest one to the decimal `p`. -/
def nearF (p : ℕ × ℕ) (w : ℕ) : Bool :=
  let E := Nat.div w (2 ^ 52)
  let M := Nat.mod w (2 ^ 52)
  let t := Nat.pow 10 p.2
  let a := Nat.mul p.1 (Nat.pow 2 (Nat.sub 1075 E))
  let b := Nat.mul (Nat.add (2 ^ 52) M) t
  Nat.ble 1 E && Nat.ble E 1074 &&
    Nat.blt (Nat.mul (Nat.add (Nat.sub a b) (Nat.sub b a)) (bif Nat.beq M 0 then 4 else 2)) t

/-- All entries. -/
def nearL (ps : List (ℕ × ℕ)) : List ℕ → Bool :=
  List.rec (motive := fun _ => List ℕ → Bool) (fun ws => List.casesOn ws true fun _ _ => false)
    (fun p _ ih ws => List.casesOn ws false fun w ws => Bool.rec false (ih ws) (nearF p w)) ps

/-- The entry `n` of an archive has the numbers of the entry `j` of a text. -/
def npzOk (j : JEntry) (n : NEntry) : Bool :=
  (j.sym == n.sym) && match j.scan with
  | none => false
  | some f => Nat.beq f.ns n.ns && Nat.beq f.np n.np && Nat.ble f.cs.length 999 && nearL f.cs n.cs && nearL f.es n.es

end
end BFit
