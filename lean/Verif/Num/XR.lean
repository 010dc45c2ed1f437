import Mathlib.Analysis.SpecialFunctions.Pow.Real
import Mathlib.Analysis.SpecialFunctions.Trigonometric.Basic

/-!
# Scalars of the model

Every floating point number of the Python code is an element of `XR`: an exact real number or
one of the IEEE-754 special values.  Finite arithmetic is exact (no rounding, no overflow, no
underflow, one zero); the special values follow IEEE-754 / the C math library as numpy does.
This file models no line of /repo; it models the arithmetic numpy performs.
-/

namespace BFit

open Classical

/-- A numpy float: an exact real, `inf`, `-inf` or `nan`. -/
inductive XR where
  | fin (r : ℝ)
  | pinf
  | ninf
  | nan

namespace XR

noncomputable section

instance : Coe ℝ XR := ⟨fin⟩
instance : Zero XR := ⟨fin 0⟩
instance : One XR := ⟨fin 1⟩
instance : Inhabited XR := ⟨fin 0⟩

/-- IEEE addition on special values, exact addition on reals. -/
protected def add : XR → XR → XR
  | fin a, fin b => fin (a + b)
  | nan, _ => nan
  | _, nan => nan
  | pinf, ninf => nan
  | ninf, pinf => nan
  | pinf, _ => pinf
  | _, pinf => pinf
  | ninf, _ => ninf
  | _, ninf => ninf

/-- Negation. -/
protected def neg : XR → XR
  | fin a => fin (-a)
  | pinf => ninf
  | ninf => pinf
  | nan => nan

/-- `inf` with the sign of a real (`0` gives `nan`): the value of `a * inf`. -/
def sgnInf (a : ℝ) : XR := if 0 < a then pinf else if a < 0 then ninf else nan

/-- IEEE multiplication. -/
protected def mul : XR → XR → XR
  | fin a, fin b => fin (a * b)
  | nan, _ => nan
  | _, nan => nan
  | fin a, pinf => sgnInf a
  | fin a, ninf => sgnInf (-a)
  | pinf, fin a => sgnInf a
  | ninf, fin a => sgnInf (-a)
  | pinf, pinf => pinf
  | ninf, ninf => pinf
  | pinf, ninf => ninf
  | ninf, pinf => ninf

/-- IEEE division (the zero of the model is `+0`). -/
protected def div : XR → XR → XR
  | fin a, fin b => if b = 0 then sgnInf a else fin (a / b)
  | nan, _ => nan
  | _, nan => nan
  | fin _, pinf => fin 0
  | fin _, ninf => fin 0
  | pinf, fin b => if b < 0 then ninf else pinf
  | ninf, fin b => if b < 0 then pinf else ninf
  | _, _ => nan

instance : Add XR := ⟨XR.add⟩
instance : Neg XR := ⟨XR.neg⟩
instance : Sub XR := ⟨fun a b => a + (-b)⟩
instance : Mul XR := ⟨XR.mul⟩
instance : Div XR := ⟨XR.div⟩

/-- IEEE `<`: false when an operand is nan. -/
protected def lt : XR → XR → Prop
  | fin a, fin b => a < b
  | fin _, pinf => True
  | ninf, fin _ => True
  | ninf, pinf => True
  | _, _ => False

/-- IEEE `<=`: false when an operand is nan. -/
protected def le : XR → XR → Prop
  | fin a, fin b => a ≤ b
  | fin _, pinf => True
  | ninf, fin _ => True
  | ninf, pinf => True
  | ninf, ninf => True
  | pinf, pinf => True
  | _, _ => False

instance : LT XR := ⟨XR.lt⟩
instance : LE XR := ⟨XR.le⟩

/-- `np.isnan`. -/
def IsNan : XR → Prop
  | nan => True
  | _ => False

/-- `np.isfinite`. -/
def IsFinite : XR → Prop
  | fin _ => True
  | _ => False

/-- IEEE `==` : false when an operand is nan. -/
def Feq (a b : XR) : Prop := a = b ∧ ¬ IsNan a

/-- `np.abs`. -/
def abs : XR → XR
  | fin a => fin |a|
  | pinf => pinf
  | ninf => pinf
  | nan => nan

/-- `np.exp`. -/
def exp : XR → XR
  | fin a => fin (Real.exp a)
  | pinf => pinf
  | ninf => fin 0
  | nan => nan

/-- `np.log`. -/
def log : XR → XR
  | fin a => if 0 < a then fin (Real.log a) else if a = 0 then ninf else nan
  | pinf => pinf
  | ninf => nan
  | nan => nan

/-- `np.sqrt`. -/
def sqrt : XR → XR
  | fin a => if 0 ≤ a then fin (Real.sqrt a) else nan
  | pinf => pinf
  | ninf => nan
  | nan => nan

/-- `np.cos` (`cos inf = nan`). -/
def cos : XR → XR
  | fin a => fin (Real.cos a)
  | _ => nan

/-- `np.power(x, y)` / `x ** y` with a finite real exponent `y` (C `pow`). -/
def pow : XR → ℝ → XR
  | fin a, y =>
      if 0 < a then fin (a ^ y)
      else if a = 0 then (if y = 0 then fin 1 else if 0 < y then fin 0 else pinf)
      else if h : ∃ n : ℤ, y = n then fin (a ^ (Classical.choose h)) else nan
  | pinf, y => if y = 0 then fin 1 else if 0 < y then pinf else fin 0
  | ninf, y =>
      if y = 0 then fin 1
      else if 0 < y then (if ∃ n : ℤ, y = 2 * n + 1 then ninf else pinf)
      else fin 0
  | nan, y => if y = 0 then fin 1 else nan

/-- `np.maximum`: nan is contagious. -/
def max2 : XR → XR → XR
  | nan, _ => nan
  | _, nan => nan
  | a, b => if a ≤ b then b else a

/-- `np.minimum`: nan is contagious. -/
def min2 : XR → XR → XR
  | nan, _ => nan
  | _, nan => nan
  | a, b => if a ≤ b then a else b

/-! ### finite arithmetic -/

@[simp] theorem zero_def : (0 : XR) = fin 0 := rfl
@[simp] theorem one_def : (1 : XR) = fin 1 := rfl
@[simp] theorem fin_inj {a b : ℝ} : (fin a = fin b) ↔ a = b := ⟨fun h => by injection h, fun h => by rw [h]⟩
@[simp] theorem add_fin (a b : ℝ) : fin a + fin b = fin (a + b) := rfl
@[simp] theorem neg_fin (a : ℝ) : -(fin a) = fin (-a) := rfl
@[simp] theorem sub_fin (a b : ℝ) : fin a - fin b = fin (a - b) := by
  show fin (a + -b) = _; rw [sub_eq_add_neg]
@[simp] theorem mul_fin (a b : ℝ) : fin a * fin b = fin (a * b) := rfl
theorem div_fin (a b : ℝ) : fin a / fin b = if b = 0 then sgnInf a else fin (a / b) := rfl
theorem div_fin_of_ne (a : ℝ) {b : ℝ} (h : b ≠ 0) : fin a / fin b = fin (a / b) := by
  rw [div_fin, if_neg h]
@[simp] theorem lt_fin (a b : ℝ) : fin a < fin b ↔ a < b := Iff.rfl
@[simp] theorem le_fin (a b : ℝ) : fin a ≤ fin b ↔ a ≤ b := Iff.rfl
@[simp] theorem abs_fin (a : ℝ) : abs (fin a) = fin |a| := rfl
@[simp] theorem exp_fin (a : ℝ) : exp (fin a) = fin (Real.exp a) := rfl
@[simp] theorem cos_fin (a : ℝ) : cos (fin a) = fin (Real.cos a) := rfl
theorem log_fin (a : ℝ) : log (fin a) =
    if 0 < a then fin (Real.log a) else if a = 0 then ninf else nan := rfl
theorem log_fin_of_pos {a : ℝ} (h : 0 < a) : log (fin a) = fin (Real.log a) := if_pos h
@[simp] theorem log_zero : log (fin 0) = ninf := by simp [log]
theorem sqrt_fin_of_nonneg {a : ℝ} (h : 0 ≤ a) : sqrt (fin a) = fin (Real.sqrt a) := if_pos h
@[simp] theorem isNan_fin (a : ℝ) : ¬ IsNan (fin a) := id
@[simp] theorem isNan_nan : IsNan nan := trivial
@[simp] theorem isNan_pinf : ¬ IsNan pinf := id
@[simp] theorem isNan_ninf : ¬ IsNan ninf := id
@[simp] theorem isFinite_fin (a : ℝ) : IsFinite (fin a) := trivial
@[simp] theorem isFinite_nan : ¬ IsFinite nan := id
@[simp] theorem isFinite_pinf : ¬ IsFinite pinf := id
@[simp] theorem isFinite_ninf : ¬ IsFinite ninf := id
@[simp] theorem max2_fin (a b : ℝ) : max2 (fin a) (fin b) = fin (max a b) := by
  unfold max2
  by_cases h : a ≤ b
  · simp [h]
  · simp [h, max_eq_left (le_of_lt (not_le.mp h))]

@[simp] theorem min2_fin (a b : ℝ) : min2 (fin a) (fin b) = fin (min a b) := by
  unfold min2
  by_cases h : a ≤ b
  · simp [h]
  · simp [h, min_eq_right (le_of_lt (not_le.mp h))]

theorem isFinite_iff {x : XR} : IsFinite x ↔ ∃ r, x = fin r := by
  cases x <;> simp [IsFinite]

/-! ### nan and infinities -/

@[simp] theorem nan_add (x : XR) : nan + x = nan := by cases x <;> rfl
@[simp] theorem add_nan (x : XR) : x + nan = nan := by cases x <;> rfl
@[simp] theorem neg_nan : -(nan : XR) = nan := rfl
@[simp] theorem neg_pinf : -(pinf : XR) = ninf := rfl
@[simp] theorem neg_ninf : -(ninf : XR) = pinf := rfl
theorem sub_eq (x y : XR) : x - y = x + (-y) := rfl
@[simp] theorem nan_sub (x : XR) : nan - x = nan := by rw [sub_eq]; simp
@[simp] theorem sub_nan (x : XR) : x - nan = nan := by rw [sub_eq]; simp
@[simp] theorem nan_mul (x : XR) : nan * x = nan := by cases x <;> rfl
@[simp] theorem mul_nan (x : XR) : x * nan = nan := by cases x <;> rfl
@[simp] theorem nan_div (x : XR) : nan / x = nan := by cases x <;> rfl
@[simp] theorem div_nan (x : XR) : x / nan = nan := by cases x <;> rfl
@[simp] theorem not_nan_lt (x : XR) : ¬ (nan < x) := by cases x <;> exact id
@[simp] theorem not_lt_nan (x : XR) : ¬ (x < nan) := by cases x <;> exact id
@[simp] theorem not_nan_le (x : XR) : ¬ (nan ≤ x) := by cases x <;> exact id
@[simp] theorem not_le_nan (x : XR) : ¬ (x ≤ nan) := by cases x <;> exact id
@[simp] theorem fin_lt_pinf (a : ℝ) : fin a < pinf := trivial
@[simp] theorem fin_le_pinf (a : ℝ) : fin a ≤ pinf := trivial
@[simp] theorem ninf_lt_fin (a : ℝ) : ninf < fin a := trivial
@[simp] theorem ninf_le_fin (a : ℝ) : ninf ≤ fin a := trivial
@[simp] theorem not_pinf_lt (x : XR) : ¬ (pinf < x) := by cases x <;> exact id
@[simp] theorem not_lt_ninf (x : XR) : ¬ (x < ninf) := by cases x <;> exact id
@[simp] theorem not_pinf_le_fin (a : ℝ) : ¬ (pinf ≤ fin a) := id
@[simp] theorem not_fin_le_ninf (a : ℝ) : ¬ (fin a ≤ ninf) := id
@[simp] theorem pinf_le_pinf : pinf ≤ pinf := trivial
@[simp] theorem ninf_le_ninf : ninf ≤ ninf := trivial
@[simp] theorem ninf_lt_pinf : ninf < pinf := trivial
@[simp] theorem ninf_le_pinf : ninf ≤ pinf := trivial
@[simp] theorem not_pinf_le_ninf : ¬ (pinf ≤ ninf) := id
@[simp] theorem pinf_add_fin (a : ℝ) : pinf + fin a = pinf := rfl
@[simp] theorem fin_add_pinf (a : ℝ) : fin a + pinf = pinf := rfl
@[simp] theorem ninf_add_fin (a : ℝ) : ninf + fin a = ninf := rfl
@[simp] theorem fin_add_ninf (a : ℝ) : fin a + ninf = ninf := rfl
@[simp] theorem pinf_add_pinf : pinf + pinf = pinf := rfl
@[simp] theorem ninf_add_ninf : ninf + ninf = ninf := rfl
@[simp] theorem pinf_add_ninf : pinf + ninf = nan := rfl
@[simp] theorem ninf_add_pinf : ninf + pinf = nan := rfl
theorem fin_mul_pinf (a : ℝ) : fin a * pinf = sgnInf a := rfl
theorem fin_mul_ninf (a : ℝ) : fin a * ninf = sgnInf (-a) := rfl
theorem pinf_mul_fin (a : ℝ) : pinf * fin a = sgnInf a := rfl
theorem ninf_mul_fin (a : ℝ) : ninf * fin a = sgnInf (-a) := rfl
@[simp] theorem pinf_mul_pinf : pinf * pinf = pinf := rfl
@[simp] theorem ninf_mul_ninf : ninf * ninf = pinf := rfl
@[simp] theorem pinf_mul_ninf : pinf * ninf = ninf := rfl
@[simp] theorem ninf_mul_pinf : ninf * pinf = ninf := rfl
@[simp] theorem sgnInf_zero : sgnInf 0 = nan := by simp [sgnInf]
theorem sgnInf_pos {a : ℝ} (h : 0 < a) : sgnInf a = pinf := if_pos h
theorem sgnInf_neg {a : ℝ} (h : a < 0) : sgnInf a = ninf := by
  unfold sgnInf; rw [if_neg (not_lt.mpr h.le), if_pos h]
@[simp] theorem fin_div_pinf (a : ℝ) : fin a / pinf = fin 0 := rfl
@[simp] theorem fin_div_ninf (a : ℝ) : fin a / ninf = fin 0 := rfl
theorem pinf_div_fin (b : ℝ) : pinf / fin b = if b < 0 then ninf else pinf := rfl
theorem ninf_div_fin (b : ℝ) : ninf / fin b = if b < 0 then pinf else ninf := rfl
@[simp] theorem abs_nan : abs nan = nan := rfl
@[simp] theorem abs_pinf : abs pinf = pinf := rfl
@[simp] theorem abs_ninf : abs ninf = pinf := rfl
@[simp] theorem exp_nan : exp nan = nan := rfl
@[simp] theorem exp_pinf : exp pinf = pinf := rfl
@[simp] theorem exp_ninf : exp ninf = fin 0 := rfl
@[simp] theorem log_nan : log nan = nan := rfl
@[simp] theorem log_pinf : log pinf = pinf := rfl
@[simp] theorem max2_nan_left (x : XR) : max2 nan x = nan := by cases x <;> rfl
@[simp] theorem max2_nan_right (x : XR) : max2 x nan = nan := by cases x <;> rfl

/-! ### power -/

theorem pow_fin (a y : ℝ) : pow (fin a) y =
      if 0 < a then fin (a ^ y)
      else if a = 0 then (if y = 0 then fin 1 else if 0 < y then fin 0 else pinf)
      else if h : ∃ n : ℤ, y = n then fin (a ^ (Classical.choose h)) else nan := rfl

theorem pow_fin_of_pos {a : ℝ} (h : 0 < a) (y : ℝ) : pow (fin a) y = fin (a ^ y) := by
  rw [pow_fin, if_pos h]

theorem pow_fin_of_nonneg {a y : ℝ} (h : 0 ≤ a) (hy : 0 < y) : pow (fin a) y = fin (a ^ y) := by
  rcases h.lt_or_eq with h | h
  · exact pow_fin_of_pos h y
  · subst h
    rw [pow_fin, if_neg (lt_irrefl _), if_pos rfl, if_neg hy.ne', if_pos hy, Real.zero_rpow hy.ne']

theorem pow_fin_natCast (a : ℝ) (n : ℕ) : pow (fin a) (n : ℝ) = fin (a ^ n) := by
  rw [pow_fin]
  split
  · rw [Real.rpow_natCast]
  · split
    · next h => subst h
                cases n with
                | zero => simp
                | succ n =>
                  have h1 : ((n + 1 : ℕ) : ℝ) ≠ 0 := by positivity
                  have h2 : (0 : ℝ) < ((n + 1 : ℕ) : ℝ) := by positivity
                  rw [if_neg h1, if_pos h2]; simp
    · split
      · next h =>
          have h1 := Classical.choose_spec h
          have h2 : ((n : ℤ) : ℝ) = (Classical.choose h : ℤ) := by rw [← h1]; simp
          have h3 : (n : ℤ) = Classical.choose h := by exact_mod_cast h2
          rw [← h3]; simp
      · next h => exact absurd ⟨(n : ℤ), by simp⟩ h

@[simp] theorem pow_fin_two (a : ℝ) : pow (fin a) 2 = fin (a ^ 2) := by
  have := pow_fin_natCast a 2; simpa using this

@[simp] theorem pow_fin_four (a : ℝ) : pow (fin a) 4 = fin (a ^ 4) := by
  have := pow_fin_natCast a 4; simpa using this

theorem pow_nan_of_ne {y : ℝ} (h : y ≠ 0) : pow nan y = nan := if_neg h

theorem pow_neg_nan {a y : ℝ} (h : a < 0) (hy : ¬ ∃ n : ℤ, y = n) : pow (fin a) y = nan := by
  rw [pow_fin, if_neg (not_lt.mpr h.le), if_neg h.ne, dif_neg hy]

/-! ### the additive structure is a commutative monoid -/

protected theorem add_comm (x y : XR) : x + y = y + x := by
  cases x <;> cases y <;> first | rfl | (simp [_root_.add_comm])

protected theorem add_assoc (x y z : XR) : x + y + z = x + (y + z) := by
  cases x <;> cases y <;> cases z <;> first | rfl | (simp [_root_.add_assoc])

protected theorem zero_add (x : XR) : 0 + x = x := by
  cases x <;> first | rfl | simp

instance : AddCommMonoid XR where
  add_assoc := XR.add_assoc
  zero_add := XR.zero_add
  add_zero x := by rw [XR.add_comm]; exact XR.zero_add x
  add_comm := XR.add_comm
  nsmul := nsmulRec

protected theorem mul_comm (x y : XR) : x * y = y * x := by
  cases x <;> cases y <;> first | rfl | (simp [_root_.mul_comm])

end

end XR
end BFit
