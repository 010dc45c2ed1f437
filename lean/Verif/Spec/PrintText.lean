import Verif.Model.PrintText
import Verif.Spec.Data

/-! Specification of printed numbers and tables. -/

namespace BFit

noncomputable section

/-- ` -1.25e-07 `: white space, a decimal number, `e`, a sign and digits, white space, for the number `x`. -/
def ExpText (w : Str) (x : ℝ) : Prop :=
  ∃ (a m : Str) (neg : Bool) (d b : Str) (y : ℝ),
    w = a ++ (m ++ 'e' :: (if neg then '-' else '+') :: (d ++ b)) ∧ Blank a ∧ Blank b ∧ DecText m y ∧
    (∀ c ∈ m, ¬ White c) ∧ d ≠ [] ∧ (∀ c ∈ d, c.isDigit = true) ∧
    x = y * (10 : ℝ) ^ (if neg then -(decDigits d : ℤ) else (decDigits d : ℤ))

/-- A text for a value: a decimal number with or without exponent, `inf`, `-inf` or `nan`, with white space around. -/
inductive NumText : Str → XR → Prop
  | dec {w x} (h : DecText w x) : NumText w (.fin x)
  | exp {w x} (h : ExpText w x) : NumText w (.fin x)
  | pinf {a b} (ha : Blank a) (hb : Blank b) : NumText (a ++ (chars! "inf" ++ b)) .pinf
  | ninf {a b} (ha : Blank a) (hb : Blank b) : NumText (a ++ (chars! "-inf" ++ b)) .ninf
  | nan {a b} (ha : Blank a) (hb : Blank b) : NumText (a ++ (chars! "nan" ++ b)) .nan

/-- A text for an integer with white space around. -/
def IntText (w : Str) (n : ℤ) : Prop :=
  ∃ (a : Str) (neg : Bool) (d b : Str), w = a ++ ((if neg then ['-'] else []) ++ (d ++ b)) ∧ Blank a ∧ Blank b ∧
    d ≠ [] ∧ (∀ c ∈ d, c.isDigit = true) ∧ n = if neg then -(decDigits d : ℤ) else (decDigits d : ℤ)

/-- The text shows `v` with an absolute error of at most `5e-7`. -/
def ShowsAbs (w : Str) (v : XR) : Prop :=
  ∃ v', NumText w v' ∧ (v' = v ∨ ∃ x y : ℝ, v' = .fin x ∧ v = .fin y ∧ |x - y| ≤ 5e-7)

/-- The text shows `v` with a relative error of at most `5e-7`. -/
def ShowsRel (w : Str) (v : XR) : Prop :=
  ∃ v', NumText w v' ∧ (v' = v ∨ ∃ x y : ℝ, v' = .fin x ∧ v = .fin y ∧ |x - y| ≤ 5e-7 * |y|)

/-- A line of a table with the fields `fs` between bars. -/
def Cells (w : Str) (fs : List Str) : Prop := w = '|' :: (fs.map fun f => f ++ ['|']).flatten ∧ ∀ f ∈ fs, '|' ∉ f

/-- The field is `s` with white space around. -/
def Named (f s : Str) : Prop := ∃ a b, Blank a ∧ Blank b ∧ f = a ++ (s ++ b)

/-- The line has the fields `names` between bars. -/
def HeadingShows (w : Str) (names : List Str) : Prop := ∃ fs, Cells w fs ∧ List.Forall₂ Named fs names

/-- A row of the table of `KLDivergenceFPI`. -/
def FpiRowShows (w : Str) (n : ℤ) (p : Perf) (dc de dd : XR) : Prop :=
  ∃ f0 f1 f2 f3 f4 f5 f6 f7 f8 : Str, Cells w [f0, f1, f2, f3, f4, f5, f6, f7, f8] ∧ IntText f0 n ∧
    ShowsAbs f1 p.integral ∧ ShowsRel f2 p.l1 ∧ ShowsAbs f3 p.linf ∧ ShowsRel f4 p.ls ∧ ShowsRel f5 p.kl ∧
    ShowsRel f6 dc ∧ ShowsRel f7 de ∧ ShowsRel f8 dd

/-- A row of the table of `ScipyFit` with slsqp. -/
def SlsqpRowShows (w : Str) (p : Perf) : Prop :=
  ∃ f1 f2 f3 f4 f5 : Str, Cells w [f1, f2, f3, f4, f5] ∧
    ShowsAbs f1 p.integral ∧ ShowsRel f2 p.l1 ∧ ShowsAbs f3 p.linf ∧ ShowsRel f4 p.ls ∧ ShowsRel f5 p.kl

/-- A line of `ScipyFit` with trust-constr. -/
def TrustRowShows (w : Str) (p : Perf) : Prop :=
  ∃ f1 f2 f3 f4 f5 : Str,
    w = chars! "Integration: " ++ (f1 ++ (chars! ",  L1: " ++ (f2 ++ (chars! ",  L Infinity: " ++ (f3 ++
      (chars! ", Least Squares: " ++ (f4 ++ (chars! ",  Kullback-Liebler: " ++ f5)))))))) ∧
    ShowsAbs f1 p.integral ∧ ShowsRel f2 p.l1 ∧ ShowsAbs f3 p.linf ∧ ShowsRel f4 p.ls ∧ ShowsRel f5 p.kl

/-- A row of the table of the greedy classes. -/
def GreedyRowShows (w : Str) (functions numS numP : ℤ) (p : Perf) (dd : XR) : Prop :=
  ∃ f0 f1 f2 f3 f4 f5 f6 f7 f8 : Str, Cells w [f0, f1, f2, f3, f4, f5, f6, f7, f8] ∧ IntText f0 functions ∧
    IntText f1 numS ∧ IntText f2 numP ∧ ShowsAbs f3 p.integral ∧ ShowsRel f4 p.l1 ∧ ShowsRel f5 p.linf ∧
    ShowsRel f6 p.ls ∧ ShowsRel f7 p.kl ∧ ShowsRel f8 dd

/-- The value is special, or between `lo` and `hi`. -/
def Between (lo hi : ℝ) (v : XR) : Prop := ∀ r : ℝ, v = .fin r → lo ≤ r ∧ r ≤ hi

/-- The value is special, zero, or has a size between `10^-400` and `10^400`, as all doubles. -/
def DoubleRange (v : XR) : Prop := ∀ r : ℝ, v = .fin r → r = 0 ∨ ((10 : ℝ) ^ (-400 : ℤ) ≤ |r| ∧ |r| ≤ (10 : ℝ) ^ (400 : ℤ))

/-- The places of the bars: the line has fields of these widths. -/
def Widths (w : Str) (ns : List ℕ) : Prop := ∃ fs, Cells w fs ∧ fs.map List.length = ns

end
end BFit
