import Verif.Num.XR
import Mathlib.Algebra.BigOperators.Group.List.Basic

/-!
# numpy / Python helpers used by the model

Arrays are lists (1-D) or lists of rows (2-D) of `XR`; `ND` carries an explicit shape where the
code checks it.  Exceptions are values of `PyErr`.
-/

namespace BFit

open Classical

/-- The Python exception classes the modelled code can raise. -/
inductive PyErr where
  | typeError | valueError | attributeError | runtimeError | indexError | keyError
  | assertionError | fileNotFoundError | unboundLocalError
  deriving DecidableEq, Repr

/-- A Python computation that returns a value or raises. -/
abbrev Py (α : Type _) := Except PyErr α

/-- `raise`. -/
def raise {α : Type _} (e : PyErr) : Py α := Except.error e

/-- A numpy array of arbitrary dimension: shape and C-ordered data. -/
structure ND (α : Type) where
  shape : List ℕ
  data : List α

/-- `a.ndim`. -/
def ND.ndim {α : Type} (a : ND α) : ℕ := a.shape.length
/-- `a.size`. -/
def ND.size {α : Type} (a : ND α) : ℕ := a.data.length
/-- The 1-D array holding a list. -/
def ND.vec {α : Type} (l : List α) : ND α := ⟨[l.length], l⟩
/-- The 2-D array with the given rows (all of length `c`). -/
def ND.mat {α : Type} (c : ℕ) (rows : List (List α)) : ND α := ⟨[rows.length, c], rows.flatten⟩

/-- Python objects that the modelled argument checks distinguish. -/
inductive PyObj where
  | none
  | bool (b : Bool)
  | int (n : ℤ)
  | float (x : XR)
  | str (s : String)
  | seq (l : List XR)      -- list / tuple / other iterable of numbers
  | arr (a : ND XR)
  | other                  -- any other object (not iterable, no attribute `shape`)

/-- `isinstance(o, int)` (`bool` is a subclass of `int`) together with the integer value. -/
def PyObj.asInt? : PyObj → Option ℤ
  | .int n => some n
  | .bool b => some (if b then 1 else 0)
  | _ => Option.none

noncomputable section

/-- `isinstance(o, (int, float))` together with the numeric value. -/
def PyObj.asReal? : PyObj → Option XR
  | .int n => some (XR.fin n)
  | .bool b => some (XR.fin (if b then 1 else 0))
  | .float x => some x
  | _ => Option.none

/-- A list of reals as an array of finite floats. -/
abbrev fins (l : List ℝ) : List XR := l.map XR.fin

/-- `np.dot` of two 1-D arrays. -/
def npDot (a b : List XR) : XR := (List.zipWith (· * ·) a b).sum

/-- `np.maximum.reduce`, i.e. `np.max`; raises on an empty array. -/
def npMax : List XR → Py XR
  | [] => raise .valueError
  | x :: xs => .ok (xs.foldl XR.max2 x)

/-- `np.minimum.reduce`, i.e. `np.min`; raises on an empty array. -/
def npMin : List XR → Py XR
  | [] => raise .valueError
  | x :: xs => .ok (xs.foldl XR.min2 x)

/-- `np.diff` followed by the trapezoid sum:
`np.trapz(y, x) = (diff(x) * (y[1:] + y[:-1]) / 2.0).sum()`. -/
def trapz (y x : List XR) : XR :=
  (List.zipWith (fun d s => d * s / XR.fin 2)
    (List.zipWith (· - ·) x.tail x.dropLast)
    (List.zipWith (· + ·) y.tail y.dropLast)).sum

/-- Python slice `l[:i]` for an arbitrary integer `i`. -/
def sliceTo {α : Type} (l : List α) (i : ℤ) : List α :=
  if 0 ≤ i then l.take i.toNat else l.take ((l.length : ℤ) + i).toNat

/-- Python slice `l[i:]` for an arbitrary integer `i`. -/
def sliceFrom {α : Type} (l : List α) (i : ℤ) : List α :=
  if 0 ≤ i then l.drop i.toNat else l.drop ((l.length : ℤ) + i).toNat

/-- `np.insert(l, i, v)` for an in-range position `i`. -/
def npInsert {α : Type} (l : List α) (i : ℕ) (v : α) : List α := l.take i ++ v :: l.drop i

/-- `np.delete(l, idx)`: remove the listed positions (duplicates allowed). -/
def npDelete {α : Type} (l : List α) (idx : List ℕ) : List α :=
  ((l.zipIdx).filter (fun p => p.2 ∉ idx)).map Prod.fst

/-- `np.linspace(start, stop, num)`, endpoint included. -/
def npLinspace (start stop : XR) (num : ℕ) : List XR :=
  if num = 1 then [XR.fin 0 * (stop - start) + start]
  else
    (List.range (num - 1)).map
        (fun (i : ℕ) => XR.fin i * ((stop - start) / XR.fin ((num : ℝ) - 1)) + start) ++
      (if num = 0 then [] else [stop])

/-- Order used by `np.sort`: nan sorts last. -/
def npLe (x y : XR) : Bool := decide (y = XR.nan ∨ x ≤ y)

/-- `np.sort` of a 1-D array. -/
def npSort (l : List XR) : List XR := l.mergeSort npLe

/-- `np.finfo(float).tiny`, the tolerance of masked division. -/
def tiny : ℝ := 2 ^ (-1022 : ℤ)

/-- `np.ma.filled(a / np.ma.masked_less_equal(b, mask), fill)` on one entry: numpy's masked true
division masks entries whose denominator is masked, whose quotient is not finite, or for which
`|a| * tiny >= |b|`; masked entries are then replaced by `fill`. -/
def maDivFilled (mask : XR) (fill : XR) (a b : XR) : XR :=
  if b ≤ mask ∨ ¬ (a / b).IsFinite ∨ b.abs ≤ a.abs * XR.fin tiny then fill else a / b

end

/-! ### basic facts -/

@[simp] theorem fins_nil : fins [] = [] := rfl
@[simp] theorem fins_cons (a : ℝ) (l : List ℝ) : fins (a :: l) = XR.fin a :: fins l := rfl
theorem fins_length (l : List ℝ) : (fins l).length = l.length := List.length_map _

theorem fins_append (l m : List ℝ) : fins (l ++ m) = fins l ++ fins m := List.map_append

theorem fins_injective {l m : List ℝ} (h : fins l = fins m) : l = m :=
  (List.map_injective_iff.mpr (fun _ _ hab => XR.fin_inj.mp hab)) h

@[simp] theorem sum_fins (l : List ℝ) : (fins l).sum = XR.fin l.sum := by
  induction l with
  | nil => rfl
  | cons a l ih => simp only [fins_cons, List.sum_cons, ih, XR.add_fin]

theorem zipWith_fins {f : XR → XR → XR} {g : ℝ → ℝ → ℝ}
    (h : ∀ a b, f (XR.fin a) (XR.fin b) = XR.fin (g a b)) (a b : List ℝ) :
    List.zipWith f (fins a) (fins b) = fins (List.zipWith g a b) := by
  simp only [fins, List.zipWith_map, List.map_zipWith, h]

theorem npDot_fins (a b : List ℝ) :
    npDot (fins a) (fins b) = XR.fin (List.zipWith (· * ·) a b).sum := by
  unfold npDot
  rw [zipWith_fins (g := (· * ·)) (fun a b => XR.mul_fin a b), sum_fins]

theorem npInsert_length {α : Type} (l : List α) (i : ℕ) (v : α) :
    (npInsert l i v).length = l.length + 1 := by
  simp [npInsert]; omega

theorem sliceTo_nat {α : Type} (l : List α) (n : ℕ) : sliceTo l (n : ℤ) = l.take n := by
  simp [sliceTo]

theorem sliceFrom_nat {α : Type} (l : List α) (n : ℕ) : sliceFrom l (n : ℤ) = l.drop n := by
  simp [sliceFrom]

theorem foldl_max2_fins (l : List ℝ) (a : ℝ) :
    (fins l).foldl XR.max2 (XR.fin a) = XR.fin (l.foldl max a) := by
  induction l generalizing a with
  | nil => rfl
  | cons b l ih => simp only [fins_cons, List.foldl_cons, XR.max2_fin, ih]

theorem foldl_min2_fins (l : List ℝ) (a : ℝ) :
    (fins l).foldl XR.min2 (XR.fin a) = XR.fin (l.foldl min a) := by
  induction l generalizing a with
  | nil => rfl
  | cons b l ih => simp only [fins_cons, List.foldl_cons, XR.min2_fin, ih]

theorem foldl_max_spec (l : List ℝ) (a : ℝ) :
    (l.foldl max a = a ∨ l.foldl max a ∈ l) ∧ a ≤ l.foldl max a ∧ ∀ x ∈ l, x ≤ l.foldl max a := by
  induction l generalizing a with
  | nil => simp
  | cons b l ih =>
    obtain ⟨h1, h2, h3⟩ := ih (max a b)
    simp only [List.foldl_cons, List.mem_cons]
    refine ⟨?_, le_trans (le_max_left a b) h2, ?_⟩
    · rcases h1 with h1 | h1
      · rw [h1]
        rcases max_choice a b with h | h
        · exact Or.inl h
        · exact Or.inr (Or.inl h)
      · exact Or.inr (Or.inr h1)
    · rintro x (rfl | hx)
      · exact le_trans (le_max_right a x) h2
      · exact h3 x hx

theorem foldl_min_spec (l : List ℝ) (a : ℝ) :
    (l.foldl min a = a ∨ l.foldl min a ∈ l) ∧ l.foldl min a ≤ a ∧ ∀ x ∈ l, l.foldl min a ≤ x := by
  induction l generalizing a with
  | nil => simp
  | cons b l ih =>
    obtain ⟨h1, h2, h3⟩ := ih (min a b)
    simp only [List.foldl_cons, List.mem_cons]
    refine ⟨?_, le_trans h2 (min_le_left a b), ?_⟩
    · rcases h1 with h1 | h1
      · rw [h1]
        rcases min_choice a b with h | h
        · exact Or.inl h
        · exact Or.inr (Or.inl h)
      · exact Or.inr (Or.inr h1)
    · rintro x (rfl | hx)
      · exact le_trans h2 (min_le_right a x)
      · exact h3 x hx

theorem npMax_fins {l : List ℝ} (hl : l ≠ []) :
    ∃ M ∈ l, npMax (fins l) = .ok (XR.fin M) ∧ ∀ x ∈ l, x ≤ M := by
  cases l with
  | nil => exact absurd rfl hl
  | cons a l =>
    obtain ⟨h1, h2, h3⟩ := foldl_max_spec l a
    refine ⟨l.foldl max a, ?_, ?_, ?_⟩
    · rcases h1 with h1 | h1
      · rw [h1]; simp
      · simp [h1]
    · simp only [npMax, fins_cons, foldl_max2_fins]
    · rintro x hx
      rcases List.mem_cons.mp hx with rfl | hx
      · exact h2
      · exact h3 x hx

theorem npMin_fins {l : List ℝ} (hl : l ≠ []) :
    ∃ M ∈ l, npMin (fins l) = .ok (XR.fin M) ∧ ∀ x ∈ l, M ≤ x := by
  cases l with
  | nil => exact absurd rfl hl
  | cons a l =>
    obtain ⟨h1, h2, h3⟩ := foldl_min_spec l a
    refine ⟨l.foldl min a, ?_, ?_, ?_⟩
    · rcases h1 with h1 | h1
      · rw [h1]; simp
      · simp [h1]
    · simp only [npMin, fins_cons, foldl_min2_fins]
    · rintro x hx
      rcases List.mem_cons.mp hx with rfl | hx
      · exact h2
      · exact h3 x hx

/-- Trapezoid rule on real lists (recursive form, used as the specification). -/
noncomputable def trapezoid : List ℝ → List ℝ → ℝ
  | x₀ :: x₁ :: xs, y₀ :: y₁ :: ys => (x₁ - x₀) * (y₀ + y₁) / 2 + trapezoid (x₁ :: xs) (y₁ :: ys)
  | _, _ => 0

theorem trapz_fins (y x : List ℝ) (h : y.length = x.length) :
    trapz (fins y) (fins x) = XR.fin (trapezoid x y) := by
  induction x generalizing y with
  | nil =>
    cases y with
    | nil => rfl
    | cons _ _ => simp at h
  | cons x₀ xs ih =>
    cases y with
    | nil => simp at h
    | cons y₀ ys =>
      cases xs with
      | nil =>
        cases ys with
        | nil => rfl
        | cons _ _ => simp at h
      | cons x₁ xs =>
        cases ys with
        | nil => simp at h
        | cons y₁ ys =>
          have := ih (y₁ :: ys) (by simpa using h)
          simp only [trapz, fins_cons, List.tail_cons, List.dropLast_cons_cons] at this ⊢
          simp only [List.zipWith_cons_cons, List.sum_cons, this, trapezoid, XR.sub_fin, XR.add_fin,
            XR.mul_fin, XR.div_fin_of_ne _ (two_ne_zero)]
          congr 2
          ring

end BFit
