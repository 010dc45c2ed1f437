import Verif.Lemmas.Trapz
import Verif.Props.RadialGrid
import Verif.Props.CubicGrid

/-! Quadrature of a grid object as a weighted sum. -/

namespace BFit

noncomputable section

/-- `grid.integrate` is the weighted sum with weights `w` on every finite array of the right size. -/
def HasWeights (g : Grid) (w : List ℝ) : Prop :=
  g.len = w.length ∧ ∀ f : List ℝ, f.length = w.length →
    g.integrate (ND.vec (fins f)) = .ok (XR.fin (wsum w f))

/-- Radial grids integrate with the trapezoid weights. -/
theorem hasWeights_radial (x : List ℝ) : HasWeights (.radial ⟨fins x⟩) (trapW x) := by
  refine ⟨by simp [Grid.len, trapW_length], fun f hf => ?_⟩
  rw [trapW_length] at hf
  show (RadialGrid.mk (fins x)).integrate _ = _
  rw [integrate_fins x f hf, trapezoid_eq_wsum x f hf]

/-- Cubic grids integrate with the constant weight `|det axes|`. -/
theorem hasWeights_cubic (o : V3) (a : Fin 3 → Fin 3 → ℝ) (nx ny nz : ℕ) :
    ∃ g, cubicGrid o (m3 a) (sh nx ny nz) = .ok g ∧
      HasWeights (.cubic g) (List.replicate (nx * ny * nz) |(Matrix.of a).det|) := by
  refine ⟨_, cubicGrid_sh _ _ _ _ _, ?_, ?_⟩
  · simp [Grid.len]
  · intro f hf
    rw [List.length_replicate] at hf
    exact cubic_integrate_fins o a nx ny nz f hf (cubicGrid_sh _ _ _ _ _)

theorem cubic_weights_nonneg (n : ℕ) (a : Fin 3 → Fin 3 → ℝ) :
    ∀ c ∈ List.replicate n |(Matrix.of a).det|, (0 : ℝ) ≤ c := by
  intro c hc
  rw [List.eq_of_mem_replicate hc]
  exact abs_nonneg _

/-- A weighted sum over indices. -/
theorem wsum_eq_range_sum (w f : List ℝ) (h : f.length = w.length) :
    wsum w f = ∑ i ∈ Finset.range w.length, w.getD i 0 * f.getD i 0 := by
  induction w generalizing f with
  | nil => simp
  | cons c w ih =>
    cases f with
    | nil => simp at h
    | cons x f =>
      rw [wsum_cons, ih f (by simpa using h), List.length_cons, Finset.sum_range_succ']
      simp only [List.getD_cons_succ, List.getD_cons_zero]
      ring

theorem wsum_eq_zero {w f : List ℝ} (hw : ∀ c ∈ w, 0 < c) (hf : ∀ c ∈ f, 0 ≤ c)
    (hl : f.length = w.length) (h : wsum w f = 0) : ∀ c ∈ f, c = 0 := by
  induction w generalizing f with
  | nil => cases f with
    | nil => simp
    | cons _ _ => simp at hl
  | cons c w ih =>
    cases f with
    | nil => simp
    | cons x f =>
      rw [wsum_cons] at h
      have h1 := mul_nonneg (hw c (by simp)).le (hf x (by simp))
      have h2 := wsum_nonneg w f (fun c hc => (hw c (by simp [hc])).le) (fun c hc => hf c (by simp [hc]))
      have h3 : c * x = 0 := by linarith
      have h4 : wsum w f = 0 := by linarith
      rintro y hy
      rcases List.mem_cons.mp hy with rfl | hy
      · rcases mul_eq_zero.mp h3 with h | h
        · exact absurd h (hw c (by simp)).ne'
        · exact h
      · exact ih (fun c hc => hw c (by simp [hc])) (fun c hc => hf c (by simp [hc]))
          (by simpa using hl) h4 y hy

end
end BFit
