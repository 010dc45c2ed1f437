import Verif.Num.Np
import Mathlib.Tactic.Linarith
import Mathlib.Tactic.Ring
import Mathlib.Tactic.Positivity

/-! Helper lemmas about the trapezoid rule: it is a weighted sum. -/

namespace BFit

noncomputable section

/-- Weighted sum of two lists. -/
def wsum (w f : List ℝ) : ℝ := (List.zipWith (· * ·) w f).sum

@[simp] theorem wsum_nil_left (f : List ℝ) : wsum [] f = 0 := by simp [wsum]
@[simp] theorem wsum_nil_right (f : List ℝ) : wsum f [] = 0 := by simp [wsum]
@[simp] theorem wsum_cons (a b : ℝ) (w f : List ℝ) : wsum (a :: w) (b :: f) = a * b + wsum w f := by
  simp [wsum]

/-- Trapezoid weights with a carry for the first point. -/
def trapWAux (c : ℝ) : List ℝ → List ℝ
  | [] => []
  | [_] => [c]
  | x₀ :: x₁ :: xs => (c + (x₁ - x₀) / 2) :: trapWAux ((x₁ - x₀) / 2) (x₁ :: xs)

/-- Trapezoid weights of a grid. -/
def trapW (x : List ℝ) : List ℝ := trapWAux 0 x

theorem trapWAux_length (c : ℝ) (x : List ℝ) : (trapWAux c x).length = x.length := by
  induction x generalizing c with
  | nil => rfl
  | cons a l ih =>
    cases l with
    | nil => rfl
    | cons b l => simp [trapWAux, ih]

theorem trapW_length (x : List ℝ) : (trapW x).length = x.length := trapWAux_length 0 x

theorem trapezoid_aux (c : ℝ) (x y : List ℝ) (h : y.length = x.length) :
    wsum (trapWAux c x) y = c * y.headD 0 + trapezoid x y := by
  induction x generalizing c y with
  | nil => cases y with
    | nil => simp [trapWAux, trapezoid]
    | cons _ _ => simp at h
  | cons x₀ xs ih =>
    cases y with
    | nil => simp at h
    | cons y₀ ys =>
      cases xs with
      | nil => cases ys with
        | nil => simp [trapWAux, trapezoid]
        | cons _ _ => simp at h
      | cons x₁ xs => cases ys with
        | nil => simp at h
        | cons y₁ ys =>
          simp only [trapWAux, wsum_cons, trapezoid, List.headD_cons]
          rw [ih _ (y₁ :: ys) (by simpa using h)]
          simp only [List.headD_cons]; ring

theorem trapezoid_eq_wsum (x y : List ℝ) (h : y.length = x.length) :
    trapezoid x y = wsum (trapW x) y := by
  rw [trapW, trapezoid_aux 0 x y h]; ring

theorem trapWAux_nonneg (c : ℝ) (hc : 0 ≤ c) (x : List ℝ) (hx : x.Pairwise (· ≤ ·)) :
    ∀ w ∈ trapWAux c x, 0 ≤ w := by
  induction x generalizing c with
  | nil => simp [trapWAux]
  | cons a l ih =>
    cases l with
    | nil => simpa [trapWAux] using hc
    | cons b l =>
      have hab : a ≤ b := by
        have := List.pairwise_cons.mp hx
        exact this.1 b (by simp)
      intro w hw
      simp only [trapWAux, List.mem_cons] at hw
      rcases hw with hw | hw
      · subst hw; linarith
      · exact ih ((b - a) / 2) (by linarith) (List.pairwise_cons.mp hx).2 w hw

theorem trapW_nonneg (x : List ℝ) (hx : x.Pairwise (· ≤ ·)) : ∀ w ∈ trapW x, 0 ≤ w :=
  trapWAux_nonneg 0 le_rfl x hx

/-! ### weighted sums -/

theorem wsum_linear (w f g : List ℝ) (a b : ℝ) (hf : f.length = w.length) (hg : g.length = w.length) :
    wsum w (List.zipWith (fun x y => a * x + b * y) f g) = a * wsum w f + b * wsum w g := by
  induction w generalizing f g with
  | nil => simp
  | cons c w ih =>
    cases f with
    | nil => simp at hf
    | cons x f => cases g with
      | nil => simp at hg
      | cons y g =>
        simp only [List.zipWith_cons_cons, wsum_cons]
        rw [ih f g (by simpa using hf) (by simpa using hg)]; ring

theorem wsum_mono (w f g : List ℝ) (hw : ∀ c ∈ w, 0 ≤ c) (h : List.Forall₂ (· ≤ ·) f g) :
    wsum w f ≤ wsum w g := by
  induction h generalizing w with
  | nil => simp
  | cons hab _ ih =>
    cases w with
    | nil => simp
    | cons c w =>
      simp only [wsum_cons]
      have h1 := ih w (fun c hc => hw c (by simp [hc]))
      have h2 := mul_le_mul_of_nonneg_left hab (hw c (by simp))
      linarith

theorem wsum_nonneg (w f : List ℝ) (hw : ∀ c ∈ w, 0 ≤ c) (hf : ∀ c ∈ f, 0 ≤ c) : 0 ≤ wsum w f := by
  induction w generalizing f with
  | nil => simp
  | cons c w ih => cases f with
    | nil => simp
    | cons x f =>
      simp only [wsum_cons]
      have h1 := ih f (fun c hc => hw c (by simp [hc])) (fun c hc => hf c (by simp [hc]))
      have h2 := mul_nonneg (hw c (by simp)) (hf x (by simp))
      linarith

theorem trapezoid_eq_sum (x y : List ℝ) (h : y.length = x.length) :
    trapezoid x y = ∑ i ∈ Finset.range (x.length - 1),
      (x.getD (i + 1) 0 - x.getD i 0) * (y.getD i 0 + y.getD (i + 1) 0) / 2 := by
  induction x generalizing y with
  | nil => cases y <;> simp [trapezoid]
  | cons x₀ xs ih =>
    cases y with
    | nil => simp at h
    | cons y₀ ys =>
      cases xs with
      | nil => cases ys <;> simp [trapezoid]
      | cons x₁ xs => cases ys with
        | nil => simp at h
        | cons y₁ ys =>
          rw [trapezoid, ih (y₁ :: ys) (by simpa using h)]
          simp only [List.length_cons, Nat.add_sub_cancel]
          rw [Finset.sum_range_succ']
          simp only [List.getD_cons_succ, List.getD_cons_zero]
          ring

theorem trapezoid_line (x : List ℝ) (a b : ℝ) (x₀ : ℝ) (xs : List ℝ) (hx : x = x₀ :: xs) :
    trapezoid x (x.map (fun r => a + b * r)) =
      a * ((x.getLast (by simp [hx])) - x₀) + b * ((x.getLast (by simp [hx])) ^ 2 - x₀ ^ 2) / 2 := by
  subst hx
  induction xs generalizing x₀ with
  | nil => simp [trapezoid]
  | cons x₁ xs ih =>
    have := ih x₁
    simp only [List.map_cons, trapezoid] at this ⊢
    rw [this]
    simp only [List.getLast_cons_cons]
    ring

end
end BFit
