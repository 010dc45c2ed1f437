import Verif.Model.Display
import Verif.Spec.Data
import Mathlib.Data.Int.Log

/-! The text of the lines that `run(..., disp=True)` prints. -/

namespace BFit

open Classical

noncomputable section

/-! ### Formatting of numbers

What `str.format` does for the codes `d`, `f`, `e` and centred texts, used in fit.py:375, 385, 613, 622, 638-639 and
greedy.py:429, 440.  Simplified: zero has no sign. -/

/-- The nearest integer to a number that is not negative; the even one if there are two. -/
def roundHE (y : ℝ) : ℕ :=
  if y - ⌊y⌋₊ < 1 / 2 then ⌊y⌋₊
  else if 1 / 2 < y - ⌊y⌋₊ then ⌊y⌋₊ + 1
  else if ⌊y⌋₊ % 2 = 0 then ⌊y⌋₊ else ⌊y⌋₊ + 1

/-- The last six decimal digits of a number. -/
def sixDigits (n : ℕ) : Str :=
  [5, 4, 3, 2, 1, 0].map fun i => Nat.digitChar (n / 10 ^ i % 10)

/-- The texts of the values that are not numbers, and `f` for those that are. -/
def fmtSpecial (f : ℝ → Str) : XR → Str
  | .fin r => f r
  | .pinf => chars! "inf"
  | .ninf => chars! "-inf"
  | .nan => chars! "nan"

/-- Sign of a negative number. -/
def fmtSign (r : ℝ) : Str := if r < 0 then ['-'] else []

/-- `'{:f}'.format(x)`: six digits after the point. -/
def fmtF : XR → Str := fmtSpecial fun r =>
  let n := roundHE (|r| * 10 ^ 6)
  fmtSign r ++ (Nat.toDigits 10 (n / 10 ^ 6) ++ '.' :: sixDigits n)

/-- The exponent in `'{:e}'.format(x)`: a sign and at least two digits. -/
def fmtExp (e : ℤ) : Str :=
  (if e < 0 then '-' else '+') :: ((if e.natAbs < 10 then ['0'] else []) ++ Nat.toDigits 10 e.natAbs)

/-- `'{:e}'.format(x)`: one digit before the point, six after it, and an exponent. -/
def fmtE : XR → Str := fmtSpecial fun r =>
  if r = 0 then chars! "0.000000e+00"
  else
    let e := Int.log 10 |r|
    let n := roundHE (|r| * (10 : ℝ) ^ (6 - e))
    if n = 10 ^ 7 then fmtSign r ++ (chars! "1.000000" ++ 'e' :: fmtExp (e + 1))
    else fmtSign r ++ (Nat.toDigits 10 (n / 10 ^ 6) ++ '.' :: (sixDigits n ++ 'e' :: fmtExp e))

/-- `'{:d}'.format(n)`. -/
def fmtD (n : ℤ) : Str := (if n < 0 then ['-'] else []) ++ Nat.toDigits 10 n.natAbs

/-- `'{:^w}'.format(s)`: `s` in the middle of `w` places, or more to the left. -/
def center (w : ℕ) (s : Str) : Str :=
  List.replicate ((w - s.length) / 2) ' ' ++ (s ++ List.replicate (w - s.length - (w - s.length) / 2) ' ')

/-- `'{:w}'.format(x)` for numbers, which stand on the right. -/
def flush (w : ℕ) (s : Str) : Str := List.replicate (w - s.length) ' ' ++ s

/-- Fields between bars. -/
def bars (fs : List Str) : Str := '|' :: fs.flatMap fun f => f ++ ['|']

/-! ### Tables -/

/-- The rules of the table of `KLDivergenceFPI` (fit.py:372, 382, 427). -/
def fpiRule : Str := List.replicate (10 + 12 + 15 + 15 + 15 + 15 + 15 + 15 + 15 + 12) '-'

/-- The heading (fit.py:374-381). -/
def fpiHeading : Str :=
  bars [center 10 (chars! "Iteration"), center 12 (chars! "Integration"), center 15 (chars! "L1"),
    center 15 (chars! "L Infinity"), center 15 (chars! "Least-squares"), center 16 (chars! "Kullback-Leibler"),
    center 15 (chars! "Change Coeffs"), center 15 (chars! "Change Exps"), center 15 (chars! "Change Objective")]

/-- A row (fit.py:384-386, 413-415). -/
def fpiRowText (iteration : ℕ) (p : Perf) (dc de dd : XR) : Str :=
  bars [center 10 (fmtD iteration), center 12 (fmtF p.integral), center 15 (fmtE p.l1), center 15 (fmtF p.linf),
    center 15 (fmtE p.ls), center 16 (fmtE p.kl), center 15 (fmtE dc), center 15 (fmtE de), center 15 (fmtE dd)]

/-- The rules of the table of `ScipyFit` with `slsqp` (fit.py:610, 619, 683). -/
def slsqpRule : Str := List.replicate (10 + 12 + 15 + 15 + 15 + 12) '-'

/-- The heading (fit.py:612-618). -/
def slsqpHeading : Str :=
  bars [center 12 (chars! "Integration"), center 15 (chars! "L1"), center 15 (chars! "L Infinity"),
    center 15 (chars! "Least-squares"), center 16 (chars! "Kullback-Leibler")]

/-- A row (fit.py:621-623, 632). -/
def slsqpRowText (p : Perf) : Str :=
  bars [center 12 (fmtF p.integral), center 15 (fmtE p.l1), center 15 (fmtF p.linf), center 15 (fmtE p.ls),
    center 16 (fmtE p.kl)]

/-- A line of `ScipyFit` with `trust-constr` (fit.py:637-640, 649). -/
def trustRowText (p : Perf) : Str :=
  chars! "Integration: " ++ (flush 10 (fmtF p.integral) ++ (chars! ",  L1: " ++ (flush 10 (fmtE p.l1) ++
    (chars! ",  L Infinity: " ++ (flush 10 (fmtF p.linf) ++ (chars! ", Least Squares: " ++ (flush 10 (fmtE p.ls) ++
      (chars! ",  Kullback-Liebler: " ++ flush 10 (fmtE p.kl)))))))))

/-- The rules of the table of the greedy classes (greedy.py:426, 437, 621). -/
def greedyRule : Str := List.replicate (10 + 12 + 15 + 15 + 15 + 15 + 15 + 15 + 15 + 17) '-'

/-- The heading (greedy.py:428-436). -/
def greedyHeading : Str :=
  bars [center 15 (chars! "# of Functions"), center 13 (chars! "# of S-type"), center 13 (chars! "# of P-type"),
    center 15 (chars! "Integration"), center 15 (chars! "L1"), center 16 (chars! "L Infinity"),
    center 15 (chars! "Least-squares"), center 16 (chars! "Kullback-Leibler"), center 16 (chars! "Change Objective")]

/-- A row (greedy.py:439-444, 599-602). -/
def greedyRowText (functions : ℤ) (numS numP : ℕ) (p : Perf) (dd : XR) : Str :=
  bars [center 15 (fmtD functions), center 13 (fmtD numS), center 13 (fmtD numP), center 15 (fmtF p.integral),
    center 15 (fmtE p.l1), center 16 (fmtE p.linf), center 15 (fmtE p.ls), center 16 (fmtE p.kl), center 16 (fmtE dd)]

/-- The classes that print. -/
inductive Printer where
  | fpi
  | slsqp
  | trust
  | greedy

/-- The text of a line (the lines cited in `Line`; greedy.py:622-624).  Left out (`none`): the time, the reason of
termination, and lines with arrays or unformatted numbers. -/
def Line.text (P : Printer) : Line → Option Str
  | .rule => match P with
    | .fpi => some fpiRule
    | .slsqp => some slsqpRule
    | .trust => none
    | .greedy => some greedyRule
  | .heading => match P with
    | .fpi => some fpiHeading
    | .slsqp => some slsqpHeading
    | .trust => none
    | .greedy => some greedyHeading
  | .fpiRow n p dc de dd => some (fpiRowText n p dc de dd)
  | .scipyRow p => match P with
    | .trust => some (trustRowText p)
    | _ => some (slsqpRowText p)
  | .greedyRow n s q p dd => some (greedyRowText n s q p dd)
  | .success b => some (chars! "Successful?: " ++ if b then chars! "True" else chars! "False")
  | .message s => some (chars! "Scipy Message: " ++ s.toList)
  | .numS n => some (chars! "Number of s-type: " ++ Nat.toDigits 10 n)
  | .numP n => some (chars! "Number of p-type: " ++ Nat.toDigits 10 n)
  | _ => none

end
end BFit
