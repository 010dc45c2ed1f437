import Verif.Data.FitsAll

/-! A check of the bundled results of fits: range of the numbers, and size of the peaks of the functions. -/

namespace BFit

/-- A bound of `10^6` times coefficient times exponent^(3/2) (times 2/3 for p-type functions), from the decimals:
`sqrt e ≤ (e / t + t) / 2` with `t` a power of two near the root. -/
def peakTerm (isS : Bool) (p a : ℕ × ℕ) : ℕ :=
  let j := Nat.sub (Nat.div (Nat.log2 (Nat.div (Nat.mul a.1 (Nat.pow 10 20)) (Nat.pow 10 a.2))) 2) 13
  let num := Nat.mul (Nat.mul p.1 a.1) (Nat.add (Nat.mul a.1 (Nat.pow 2 40)) (Nat.mul (Nat.pow 10 a.2) (Nat.pow 2 (Nat.mul 2 j))))
  let den := Nat.mul (Nat.mul (Nat.pow 10 p.2) (Nat.pow 10 (Nat.mul 2 a.2))) (Nat.pow 2 (Nat.add 21 j))
  Nat.add (Nat.div (Nat.mul num (if isS then 3000000 else 2000000)) (Nat.mul den 3)) 1

/-- The sum of these bounds; the first `ns` functions are of s-type. -/
def peakSum : ℕ → List (ℕ × ℕ) → List (ℕ × ℕ) → ℕ
  | _, [], _ => 0
  | _, _, [] => 0
  | 0, p :: cs, a :: es => Nat.add (peakTerm false p a) (peakSum 0 cs es)
  | ns + 1, p :: cs, a :: es => Nat.add (peakTerm true p a) (peakSum ns cs es)

/-- At most 100 functions, exponents from `10^(-12)` to `10^9`, coefficients up to 100, peaks up to `19 z^3`. -/
def rangeOk (z : ℕ) (e : JEntry) : Bool :=
  match e.scan with
  | none => false
  | some f => Nat.ble (Nat.add f.ns f.np) 100 &&
      f.es.all (fun a => Nat.ble (Nat.pow 10 a.2) (Nat.mul a.1 1000000000000) &&
        Nat.ble a.1 (Nat.mul 1000000000 (Nat.pow 10 a.2))) &&
      f.cs.all (fun p => Nat.ble p.1 (Nat.mul 100 (Nat.pow 10 p.2))) &&
      Nat.ble (peakSum f.ns f.cs f.es) (Nat.mul 19000000 (Nat.pow z 3))

theorem fits1_range : (Data.fits1.all fun p => rangeOk p.1.z p.2.1 && rangeOk p.1.z p.2.2) = true := by decide +kernel

theorem fits2_range : (Data.fits2.all fun p => rangeOk p.1.z p.2.1 && rangeOk p.1.z p.2.2) = true := by decide +kernel

theorem fits3_range : (Data.fits3.all fun p => rangeOk p.1.z p.2.1 && rangeOk p.1.z p.2.2) = true := by decide +kernel

theorem fits4_range : (Data.fits4.all fun p => rangeOk p.1.z p.2.1 && rangeOk p.1.z p.2.2) = true := by decide +kernel

theorem fits_range : ∀ p ∈ Data.fits, rangeOk p.1.z p.2.1 = true ∧ rangeOk p.1.z p.2.2 = true := by
  intro p hp
  unfold Data.fits at hp
  simp only [List.mem_append, or_assoc] at hp
  have h : (rangeOk p.1.z p.2.1 && rangeOk p.1.z p.2.2) = true := by
    rcases hp with h | h | h | h
    · exact List.all_eq_true.mp fits1_range p h
    · exact List.all_eq_true.mp fits2_range p h
    · exact List.all_eq_true.mp fits3_range p h
    · exact List.all_eq_true.mp fits4_range p h
  rwa [Bool.and_eq_true] at h

end BFit
