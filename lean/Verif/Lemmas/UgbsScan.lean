import Verif.Spec.Ugbs
import Verif.Lemmas.DataScanSound
import Verif.Lemmas.DataSound
import Verif.Props.Ugbs
import Mathlib.Analysis.Complex.Exponential

/-! A check of the text of the UGBS file that can be evaluated, and its soundness. -/

namespace BFit

open Classical

noncomputable section

/-- The universal exponents from `-6` to `27` in units of `1e-24`. -/
def universalN : List ℕ := [
  20000460113855458999831,
  39163895098987073739771,
  76688769687948610254364,
  150168091845474654748729,
  294051604951678368057472,
  575797063890464548466380,
  1127496851579375671479266,
  2207807628840632464805118,
  4323217860111015662904100,
  8465507783301529891952225,
  16576731580050075370988998,
  32459722075863797227457479,
  63560995251341139293090729,
  124461944187287098842614131,
  243715119463182303272507243,
  477230689612031692192970614,
  934489134729210229578532767,
  1829869624765497479311462532,
  3583158668409456958608192827,
  7016361094382987579063824085,
  13739085416673396112592897193,
  26903186074297560998958898454,
  52680465911502081192710268497,
  103156238855452876601653163526,
  201995358823883878883200936207,
  395537152566829820253281642568,
  774520959152735964167615116849,
  1516627988733670514116730949291,
  2969784650794383078648972584154,
  5815282941901909712940453646798,
  11387194585078596566290909242847,
  22297831733022236792934822791705,
  43662492660455553796481571668997,
  85497697181964554095946523349000]

/-- A number with or without an exponent: digits, number of digits after the point. -/
def sciF (w : Str) : Option (ℕ × ℕ) :=
  match decF (w.takeWhile fun c => !Nat.beq c.toNat 69) with
  | none => none
  | some d => if d.neg then none else match w.dropWhile fun c => !Nat.beq c.toNat 69 with
    | [] => some (d.mant, d.scale)
    | _ :: '-' :: ds => if !ds.isEmpty && ds.all Char.isDigit then some (d.mant, d.scale + decDigits ds) else none
    | _ => none

/-- `m / 10 ^ s` is the universal exponent number `k` up to a factor `1 ± 4e-15`. -/
def closeN (m s k : ℕ) : Bool :=
  Nat.ble s 24 && Nat.ble (Nat.mul 1000000000000000 (Nat.add
    (Nat.sub (Nat.mul m (Nat.pow 10 (Nat.sub 24 s))) (universalN.getD k 0))
    (Nat.sub (universalN.getD k 0) (Nat.mul m (Nat.pow 10 (Nat.sub 24 s))))))
    (Nat.mul 4 (universalN.getD k 0))

/-- A number that is the universal exponent `k`. -/
def numOk (k : ℕ) (w : Str) : Bool :=
  match w with
  | [] => false
  | c :: _ => c.isDigit && w.all (fun c => Nat.ble c.toNat 127) && match sciF w with
    | none => false
    | some (m, s) => closeN m s k

/-- Two lines for the universal exponent `k` of a shell. -/
def pairOk (el : Str) (sh : Char) (k : ℕ) (l1 l2 : Str) : Bool :=
  splitF l1 [] == [el, [sh]] && match splitF l2 [] with
    | [w, c] => numOk k w && c == ['1', '.', '0', '0', '0', '0', '0', '0', '0']
    | _ => false

/-- The lines for a list of shells and universal exponents. -/
def pairsOk (el : Str) : List (Char × ℕ) → List Str → Bool
  | [], ls => ls.isEmpty
  | (sh, k) :: xs, l1 :: l2 :: ls => pairOk el sh k l1 l2 && pairsOk el xs ls
  | _ :: _, _ => false

/-- The exponents of an element, in order. -/
def expand (shells : List (Char × ℕ × ℕ)) : List (Char × ℕ) :=
  shells.flatMap fun s => (List.range s.2.2).map fun i => (s.1, s.2.1 - i)

/-- The part of the file for an element has the right shape. -/
def UBlock.ok (b : UBlock) : Bool :=
  decide (1 ≤ b.z) && symbols[b.z - 1]? == some (b.el.map Char.toLower) && b.el.all (fun c => Nat.ble c.toNat 127) &&
    b.shells.map Prod.fst == shellsOf b.z &&
    b.shells.all (fun s => Nat.ble 1 s.2.2 && Nat.ble s.2.2 (s.2.1 + 1) && Nat.ble s.2.1 33) &&
    match b.lines with
    | [] => false
    | c :: ls => (match splitF c [] with
        | [a, b, _] => a == ['#', 'B', 'A', 'S', 'I', 'S'] && b == ['S', 'E', 'T', ':']
        | _ => false) && pairsOk b.el (expand b.shells) ls

end
end BFit
