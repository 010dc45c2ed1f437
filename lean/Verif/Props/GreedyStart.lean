import Verif.Props.GreedyRepeat
import Verif.Props.FPI
import Mathlib.Analysis.SpecialFunctions.Log.Basic

/-!
# C59 – C61: the one-function starts and the design matrix of the greedy methods
-/

namespace BFit

open Classical Finset Real

noncomputable section

theorem pow_pos_of_ne {a : ℝ} (h : a ≠ 0) : 0 < a ^ 2 := by positivity

theorem pos_of_mul_pos_of_pos {a b : ℝ} (ha : 0 < a) (h : 0 < a * b) : 0 < b :=
  (mul_pos_iff_of_pos_left ha).mp h

/-! ### C59 -/

/-- Weighted squared error of the logarithms, for the Gaussian `c * exp(-a r²)`. -/
def logError (n : ℕ) (x y w : ℕ → ℝ) (c a : ℝ) : ℝ :=
  ∑ i ∈ range n, w i * (log (y i) - log (c * exp (-a * x i ^ 2))) ^ 2

/-- The moments used by `_solve_one_function_weight`. -/
def mom (n : ℕ) (w u : ℕ → ℝ) : ℝ := ∑ i ∈ range n, w i * u i

theorem sum_fins_tab (n : ℕ) (u : ℕ → ℝ) : (fins (tab n u)).sum = XR.fin (∑ i ∈ range n, u i) := by
  rw [sum_fins]
  congr 1

theorem zip_tab3 (n : ℕ) (w x y : ℕ → ℝ) (F : XR → XR → XR → XR) (G : ℝ → ℝ → ℝ → ℝ)
    (h : ∀ i < n, F (XR.fin (w i)) (XR.fin (x i)) (XR.fin (y i)) = XR.fin (G (w i) (x i) (y i))) :
    (List.zipWith (fun w pd => F w pd.1 pd.2) (fins (tab n w))
      (List.zip (fins (tab n x)) (fins (tab n y)))).sum = XR.fin (∑ i ∈ range n, G (w i) (x i) (y i)) := by
  rw [← sum_fins_tab]
  congr 1
  simp only [fins, tab, List.map_map, List.zip_map', List.zipWith_map, List.zipWith_self]
  apply List.map_congr_left
  intro i hi
  simpa using h i (List.mem_range.mp hi)

/-- The model on finite data with positive densities. -/
theorem solveOneWeight_fins (n : ℕ) (x y w : ℕ → ℝ) (hy : ∀ i < n, 0 < y i) :
    solveOneWeight (fins (tab n x)) (fins (tab n y)) (fins (tab n w)) =
      (let W := mom n w (fun _ => 1)
       let B := mom n w (fun i => x i ^ 2)
       let C := mom n w (fun i => log (y i))
       let E := mom n w (fun i => x i ^ 4)
       let F := mom n w (fun i => x i ^ 2 * log (y i))
       [XR.exp (XR.fin (2 * B * (2 * F) - 2 * C * (2 * E)) / XR.fin (2 * B * (2 * B) - 2 * W * (2 * E))),
        -(XR.fin (2 * W * (2 * F) - 2 * C * (2 * B)) / XR.fin (2 * W * (2 * E) - 2 * B * (2 * B)))]) := by
  have h0 : (fins (tab n w)).sum = XR.fin (mom n w fun _ => 1) := by
    rw [sum_fins_tab]; simp [mom]
  have h1 := zip_tab3 n w x y (fun w x _ => w * XR.pow x 2) (fun w x _ => w * x ^ 2)
    (fun i _ => by simp)
  have h2 := zip_tab3 n w x y (fun w _ y => w * XR.log y) (fun w _ y => w * log y)
    (fun i hi => by simp [XR.log_fin_of_pos (hy i hi)])
  have h3 := zip_tab3 n w x y (fun w x _ => w * XR.pow x 4) (fun w x _ => w * x ^ 4)
    (fun i _ => by simp)
  have h4 := zip_tab3 n w x y (fun w x y => w * XR.pow x 2 * XR.log y)
    (fun w x y => w * (x ^ 2 * log y))
    (fun i hi => by simp [XR.log_fin_of_pos (hy i hi)]; ring)
  unfold solveOneWeight
  simp only [h0, h1, h2, h3, h4, XR.mul_fin, XR.sub_fin, mom]

/-- The determinant of the normal equations is positive when two points of positive weight have
different distances. -/
theorem mom_det_pos (n : ℕ) (x w : ℕ → ℝ) (hw : ∀ i < n, 0 ≤ w i)
    (hij : ∃ i < n, ∃ j < n, 0 < w i ∧ 0 < w j ∧ x i ^ 2 ≠ x j ^ 2) :
    0 < mom n w (fun _ => 1) * mom n w (fun i => x i ^ 4) - mom n w (fun i => x i ^ 2) ^ 2 := by
  obtain ⟨i, hi, j, hj, wi, wj, hne⟩ := hij
  have hW : 0 < mom n w (fun _ => 1) := by
    unfold mom
    refine Finset.sum_pos' (fun k hk => by simpa using hw k (mem_range.mp hk))
      ⟨i, mem_range.mpr hi, by simpa using wi⟩
  set W := mom n w (fun _ => 1) with hWd
  set B := mom n w (fun i => x i ^ 2) with hBd
  have key : W * (W * mom n w (fun i => x i ^ 4) - B ^ 2) =
      ∑ k ∈ range n, w k * (W * x k ^ 2 - B) ^ 2 := by
    have h1 : ∑ k ∈ range n, w k * (W * x k ^ 2 - B) ^ 2 =
        W ^ 2 * mom n w (fun i => x i ^ 4) - 2 * W * B * B + B ^ 2 * W := by
      conv_rhs => rw [show (W ^ 2 * mom n w (fun i => x i ^ 4) - 2 * W * B * B + B ^ 2 * W) =
        W ^ 2 * mom n w (fun i => x i ^ 4) - 2 * W * B * mom n w (fun i => x i ^ 2) +
          B ^ 2 * mom n w (fun _ => 1) from rfl]
      unfold mom
      rw [Finset.mul_sum, Finset.mul_sum, Finset.mul_sum, ← Finset.sum_sub_distrib,
        ← Finset.sum_add_distrib]
      exact Finset.sum_congr rfl fun k _ => by ring
    rw [h1]; ring
  have hpos : 0 < ∑ k ∈ range n, w k * (W * x k ^ 2 - B) ^ 2 := by
    refine Finset.sum_pos' (fun k hk => mul_nonneg (hw k (mem_range.mp hk)) (sq_nonneg _)) ?_
    by_cases h : W * x i ^ 2 - B = 0
    · refine ⟨j, mem_range.mpr hj, mul_pos wj (pow_pos_of_ne ?_)⟩
      intro h'
      apply hne
      have : W * x i ^ 2 = W * x j ^ 2 := by linarith
      exact mul_left_cancel₀ hW.ne' this
    · exact ⟨i, mem_range.mpr hi, mul_pos wi (pow_pos_of_ne h)⟩
  rw [← key] at hpos
  exact pos_of_mul_pos_of_pos hW hpos

/-- **C59** (least squares).  For non-negative weights, positive on two points with different distance
from the centre, the returned Gaussian is the unique minimiser of the weighted squared error of the
logarithms. -/
theorem C59_least_squares (n : ℕ) (x y w : ℕ → ℝ) (hy : ∀ i < n, 0 < y i) (hw : ∀ i < n, 0 ≤ w i)
    (hij : ∃ i < n, ∃ j < n, 0 < w i ∧ 0 < w j ∧ x i ^ 2 ≠ x j ^ 2) :
    ∃ c a, solveOneWeight (fins (tab n x)) (fins (tab n y)) (fins (tab n w)) = fins [c, a] ∧ 0 < c ∧
      ∀ c' a', 0 < c' → (c', a') ≠ (c, a) → logError n x y w c a < logError n x y w c' a' := by
  have hD := mom_det_pos n x w hw hij
  rw [solveOneWeight_fins n x y w hy]
  simp only
  set W := mom n w (fun _ => 1) with hWd
  set B := mom n w (fun i => x i ^ 2) with hBd
  set C := mom n w (fun i => log (y i)) with hCd
  set E := mom n w (fun i => x i ^ 4) with hEd
  set F := mom n w (fun i => x i ^ 2 * log (y i)) with hFd
  have d1 : 2 * B * (2 * B) - 2 * W * (2 * E) ≠ 0 := by nlinarith
  have d2 : 2 * W * (2 * E) - 2 * B * (2 * B) ≠ 0 := by nlinarith
  have hDne : W * E - B ^ 2 ≠ 0 := hD.ne'
  set A := (2 * B * (2 * F) - 2 * C * (2 * E)) / (2 * B * (2 * B) - 2 * W * (2 * E)) with hA
  set V := (2 * W * (2 * F) - 2 * C * (2 * B)) / (2 * W * (2 * E) - 2 * B * (2 * B)) with hV
  refine ⟨exp A, -V, ?_, exp_pos _, ?_⟩
  · rw [XR.div_fin_of_ne _ d1, XR.div_fin_of_ne _ d2]
    simp [fins, hA, hV]
  -- the normal equations
  have n1 : A * W + V * B = C := by
    rw [hA, hV, div_mul_eq_mul_div, div_mul_eq_mul_div]
    rw [show (2 * B * (2 * B) - 2 * W * (2 * E)) = -(2 * W * (2 * E) - 2 * B * (2 * B)) by ring,
      div_neg, ← sub_eq_neg_add, ← sub_div, div_eq_iff d2]
    ring
  have n2 : A * B + V * E = F := by
    rw [hA, hV, div_mul_eq_mul_div, div_mul_eq_mul_div]
    rw [show (2 * B * (2 * B) - 2 * W * (2 * E)) = -(2 * W * (2 * E) - 2 * B * (2 * B)) by ring,
      div_neg, ← sub_eq_neg_add, ← sub_div, div_eq_iff d2]
    ring
  intro c' a' hc' hne
  have hlog : ∀ c a : ℝ, 0 < c → ∀ i, log (c * exp (-a * x i ^ 2)) = log c + -a * x i ^ 2 := by
    intro c a hc i
    rw [log_mul hc.ne' (exp_pos _).ne', log_exp]
  -- expansion around the solution
  set p := A - log c' with hp
  set q := V - -a' with hq
  have expand : logError n x y w c' a' - logError n x y w (exp A) (-V) =
      p ^ 2 * W + 2 * p * q * B + q ^ 2 * E := by
    have r1 : ∑ i ∈ range n, w i * ((log (y i) - A - V * x i ^ 2) * (p + q * x i ^ 2)) = 0 := by
      have : ∑ i ∈ range n, w i * ((log (y i) - A - V * x i ^ 2) * (p + q * x i ^ 2)) =
          p * (C - (A * W + V * B)) + q * (F - (A * B + V * E)) := by
        rw [hCd, hWd, hBd, hFd, hEd]
        unfold mom
        simp only [mul_sub, mul_add, Finset.mul_sum]
        rw [← Finset.sum_add_distrib, ← Finset.sum_sub_distrib, ← Finset.sum_add_distrib,
          ← Finset.sum_sub_distrib, ← Finset.sum_add_distrib]
        exact Finset.sum_congr rfl fun k _ => by ring
      rw [this, n1, n2]; ring
    have r2 : p ^ 2 * W + 2 * p * q * B + q ^ 2 * E =
        ∑ i ∈ range n, w i * (p + q * x i ^ 2) ^ 2 := by
      rw [hWd, hBd, hEd]
      unfold mom
      rw [Finset.mul_sum, Finset.mul_sum, Finset.mul_sum, ← Finset.sum_add_distrib,
        ← Finset.sum_add_distrib]
      exact Finset.sum_congr rfl fun k _ => by ring
    rw [r2]
    unfold logError
    rw [← Finset.sum_sub_distrib]
    have r3 : ∀ i ∈ range n, w i * (log (y i) - log (c' * exp (-a' * x i ^ 2))) ^ 2 -
        w i * (log (y i) - log (exp A * exp (- -V * x i ^ 2))) ^ 2 =
        w i * (p + q * x i ^ 2) ^ 2 +
          2 * (w i * ((log (y i) - A - V * x i ^ 2) * (p + q * x i ^ 2))) := by
      intro i _
      rw [hlog c' a' hc', hlog _ _ (exp_pos A), log_exp, hp, hq]
      ring
    rw [Finset.sum_congr rfl r3, Finset.sum_add_distrib, ← Finset.mul_sum, r1]
    ring
  have hpq : p ≠ 0 ∨ q ≠ 0 := by
    by_contra h
    rw [not_or, not_not, not_not] at h
    apply hne
    have h1 : c' = exp A := by rw [show A = log c' by linarith [h.1], exp_log hc']
    have h2 : a' = -V := by linarith [h.2]
    rw [h1, h2]
  have hW : 0 < W := by
    obtain ⟨i, hi, j, hj, wi, wj, hne⟩ := hij
    rw [hWd]
    unfold mom
    exact Finset.sum_pos' (fun k hk => by simpa using hw k (mem_range.mp hk))
      ⟨i, mem_range.mpr hi, by simpa using wi⟩
  have hpos : 0 < p ^ 2 * W + 2 * p * q * B + q ^ 2 * E := by
    have h1 : W * (p ^ 2 * W + 2 * p * q * B + q ^ 2 * E) =
        (p * W + q * B) ^ 2 + q ^ 2 * (W * E - B ^ 2) := by ring
    have h2 : 0 < (p * W + q * B) ^ 2 + q ^ 2 * (W * E - B ^ 2) := by
      by_cases hq0 : q = 0
      · rcases hpq with h | h
        · rw [hq0]
          have : 0 < (p * W) ^ 2 := pow_pos_of_ne (mul_ne_zero h hW.ne')
          nlinarith
        · exact absurd hq0 h
      · have := mul_pos (pow_pos_of_ne hq0) hD
        have := sq_nonneg (p * W + q * B)
        linarith
    rw [← h1] at h2
    exact pos_of_mul_pos_of_pos hW h2
  linarith

/-- **C59** (exactness).  A density that is a single Gaussian is recovered exactly, for every weight
(of any sign) for which the normal equations are regular. -/
theorem C59_exact (n : ℕ) (x w : ℕ → ℝ) (c a : ℝ) (hc : 0 < c)
    (hD : mom n w (fun _ => 1) * mom n w (fun i => x i ^ 4) ≠ mom n w (fun i => x i ^ 2) ^ 2) :
    solveOneWeight (fins (tab n x)) (fins (tab n fun i => c * exp (-a * x i ^ 2))) (fins (tab n w)) =
      fins [c, a] := by
  rw [solveOneWeight_fins n x _ w (fun i _ => mul_pos hc (exp_pos _))]
  simp only
  have hlog : ∀ i, log (c * exp (-a * x i ^ 2)) = log c + -a * x i ^ 2 := by
    intro i
    rw [log_mul hc.ne' (exp_pos _).ne', log_exp]
  simp only [hlog]
  set W := mom n w (fun _ => 1) with hWd
  set B := mom n w (fun i => x i ^ 2) with hBd
  set E := mom n w (fun i => x i ^ 4) with hEd
  have hC : mom n w (fun i => log c + -a * x i ^ 2) = log c * W - a * B := by
    rw [hWd, hBd]; unfold mom
    rw [Finset.mul_sum, Finset.mul_sum, ← Finset.sum_sub_distrib]
    exact Finset.sum_congr rfl fun k _ => by ring
  have hF : mom n w (fun i => x i ^ 2 * (log c + -a * x i ^ 2)) = log c * B - a * E := by
    rw [hBd, hEd]; unfold mom
    rw [Finset.mul_sum, Finset.mul_sum, ← Finset.sum_sub_distrib]
    exact Finset.sum_congr rfl fun k _ => by ring
  rw [hC, hF]
  have d0 : W * E - B ^ 2 ≠ 0 := sub_ne_zero.mpr hD
  have d1 : 2 * B * (2 * B) - 2 * W * (2 * E) ≠ 0 := by
    intro h; apply d0; linarith
  have d2 : 2 * W * (2 * E) - 2 * B * (2 * B) ≠ 0 := by
    intro h; apply d0; linarith
  rw [XR.div_fin_of_ne _ d1, XR.div_fin_of_ne _ d2]
  have e1 : (2 * B * (2 * (log c * B - a * E)) - 2 * (log c * W - a * B) * (2 * E)) /
      (2 * B * (2 * B) - 2 * W * (2 * E)) = log c := by
    rw [div_eq_iff d1]; ring
  have e2 : (2 * W * (2 * (log c * B - a * E)) - 2 * (log c * W - a * B) * (2 * B)) /
      (2 * W * (2 * E) - 2 * B * (2 * B)) = -a := by
    rw [div_eq_iff d2]; ring
  rw [e1, e2]
  simp [fins, exp_log hc]

/-- **C59** (what is excluded).  If all points have the same distance from the centre, e.g. on a grid of
one point, the start is (nan, nan). -/
theorem C59_degenerate (n : ℕ) (x y w : ℕ → ℝ) (hy : ∀ i < n, 0 < y i) (s : ℝ)
    (hx : ∀ i < n, x i ^ 2 = s) :
    solveOneWeight (fins (tab n x)) (fins (tab n y)) (fins (tab n w)) = [XR.nan, XR.nan] := by
  rw [solveOneWeight_fins n x y w hy]
  simp only
  have hB : mom n w (fun i => x i ^ 2) = s * mom n w (fun _ => 1) := by
    unfold mom
    rw [Finset.mul_sum]
    exact Finset.sum_congr rfl fun k hk => by simp only [hx k (mem_range.mp hk)]; ring
  have hE : mom n w (fun i => x i ^ 4) = s ^ 2 * mom n w (fun _ => 1) := by
    unfold mom
    rw [Finset.mul_sum]
    exact Finset.sum_congr rfl fun k hk => by
      simp only [show x k ^ 4 = (x k ^ 2) ^ 2 by ring, hx k (mem_range.mp hk)]; ring
  have hF : mom n w (fun i => x i ^ 2 * log (y i)) = s * mom n w (fun i => log (y i)) := by
    unfold mom
    rw [Finset.mul_sum]
    exact Finset.sum_congr rfl fun k hk => by simp only [hx k (mem_range.mp hk)]; ring
  rw [hB, hE, hF]
  set W := mom n w (fun _ => 1)
  set C := mom n w (fun i => log (y i))
  have z1 : 2 * (s * W) * (2 * (s * C)) - 2 * C * (2 * (s ^ 2 * W)) = 0 := by ring
  have z2 : 2 * (s * W) * (2 * (s * W)) - 2 * W * (2 * (s ^ 2 * W)) = 0 := by ring
  have z3 : 2 * W * (2 * (s * C)) - 2 * C * (2 * (s * W)) = 0 := by ring
  have z4 : 2 * W * (2 * (s ^ 2 * W)) - 2 * (s * W) * (2 * (s * W)) = 0 := by ring
  rw [z1, z2, z3, z4]
  have z : XR.fin 0 / XR.fin 0 = XR.nan := by simp [XR.div_fin, XR.sgnInf]
  rw [z]
  rfl

theorem pyMinKey_nan {α : Type} (m : XR × α) (l : List (XR × α)) (h : m.1 = XR.nan) :
    (pyMinKey m l).1 = XR.nan := by
  induction l with
  | nil => exact h
  | cons y l ih =>
    unfold pyMinKey
    rw [if_neg (by rw [h]; cases y.1 <;> simp)]
    exact ih

theorem pyMinKey_min {α : Type} (m : XR × α) (l : List (XR × α)) :
    ∀ x ∈ m :: l, ¬ x.1 < (pyMinKey m l).1 := by
  induction l generalizing m with
  | nil =>
    intro x hx
    rw [List.mem_singleton] at hx
    subst hx
    exact fun h => XR.not_le_of_lt' h (XR.le_of_lt' h)
  | cons y l ih =>
    intro x hx
    unfold pyMinKey
    by_cases h : y.1 < m.1
    · rw [if_pos h]
      rcases List.mem_cons.mp hx with rfl | hx
      · intro h'
        exact ih y y (by simp) (XR.lt_trans' h h')
      · exact ih y x hx
    · rw [if_neg h]
      rcases List.mem_cons.mp hx with rfl | hx
      · exact ih x x (by simp)
      · rcases List.mem_cons.mp hx with rfl | hx
        · intro h'
          have hm := ih m m (by simp)
          -- `m` is not above the result, so it is the result or nan
          have hn := pyMinKey_nan m l
          revert h h' hm hn
          generalize (pyMinKey m l).1 = v
          cases x.1 <;> cases m.1 <;> cases v <;> simp
          intro a b; linarith
        · exact ih m x (List.mem_cons_of_mem _ hx)

/-- **C59** (choice).  If the start is found, it is one of the solutions for the weights 1, ρ and ρ²,
and none of the three has a smaller objective. -/
theorem C59_best_of_three (points density : List XR) (obj : List XR → Py XR) (p : List XR)
    (h : lsOneFun points density obj = .ok p) :
    (p = solveOneWeight points density (List.replicate points.length (XR.fin 1)) ∨
      p = solveOneWeight points density density ∨
      p = solveOneWeight points density (density.map fun x => XR.pow x 2)) ∧
    ∃ v, obj p = .ok v ∧
      ∀ w ∈ [List.replicate points.length (XR.fin 1), density, density.map fun x => XR.pow x 2],
        ∃ v', obj (solveOneWeight points density w) = .ok v' ∧ ¬ v' < v := by
  unfold lsOneFun at h
  simp only at h
  cases h1 : obj (solveOneWeight points density (List.replicate points.length (XR.fin 1))) with
  | error e => rw [h1] at h; exact absurd h (by simp)
  | ok v1 =>
    rw [h1] at h; simp only at h
    cases h2 : obj (solveOneWeight points density density) with
    | error e => rw [h2] at h; exact absurd h (by simp)
    | ok v2 =>
      rw [h2] at h; simp only at h
      cases h3 : obj (solveOneWeight points density (density.map fun x => XR.pow x 2)) with
      | error e => rw [h3] at h; exact absurd h (by simp)
      | ok v3 =>
        rw [h3] at h; simp only at h
        injection h with h
        set p1 := solveOneWeight points density (List.replicate points.length (XR.fin 1))
        set p2 := solveOneWeight points density density
        set p3 := solveOneWeight points density (density.map fun x => XR.pow x 2)
        have hm := pyMinKey_mem (v1, p1) [(v2, p2), (v3, p3)]
        have hmin := pyMinKey_min (v1, p1) [(v2, p2), (v3, p3)]
        set r := pyMinKey (v1, p1) [(v2, p2), (v3, p3)]
        have hobj : obj r.2 = .ok r.1 := by
          simp only [List.mem_cons, List.not_mem_nil, or_false] at hm
          rcases hm with hm | hm | hm <;> rw [hm] <;> assumption
        refine ⟨?_, r.1, by rw [← h]; exact hobj, ?_⟩
        · rw [← h]
          simp only [List.mem_cons, List.not_mem_nil, or_false] at hm
          rcases hm with hm | hm | hm <;> rw [hm] <;> simp
        · intro w hw
          simp only [List.mem_cons, List.not_mem_nil, or_false] at hw
          rcases hw with rfl | rfl | rfl
          · exact ⟨v1, h1, hmin (v1, p1) (by simp)⟩
          · exact ⟨v2, h2, hmin (v2, p2) (by simp)⟩
          · exact ⟨v3, h3, hmin (v3, p3) (by simp)⟩

theorem vec_abs_sq (x : List ℝ) (i : ℕ) : vec (x.map fun r => |r|) i ^ 2 = vec x i ^ 2 := by
  unfold vec
  by_cases h : i < x.length
  · simp [List.getD_eq_getElem?_getD, h]
  · simp [List.getD_eq_getElem?_getD, h]

theorem choice_pickOne : Choice.parse "pick-one" = .ok .pickOne := by
  unfold Choice.parse
  rw [if_pos rfl]

/-- The atomic model made by the greedy constructors. -/
theorem greedy_atom (x : List ℝ) (norm : Bool) :
    Atomic.init (.arr (.one (fins x))) .none (.int 1) (.int 0) norm =
      .ok ⟨.one (fins x), [XR.fin 0], fins (x.map fun r => |r|), 1, 0, norm⟩ := by
  have := init_ok (.one (fins x)) .none (.int 1) 1 0 norm (.int 0) [XR.fin 0]
    (fins (x.map fun r => |r|)) (by simp) rfl rfl (by simp [atomCoord])
    (by simp [atomRadii, subBroadcast, Function.comp_def])
  simpa using this

theorem pointsDiffer_self (x : List ℝ) : pointsDiffer (.one (fins x)) (.one (fins x)) = some false := by
  unfold pointsDiffer Pts.mat
  simp only [true_or, and_self, if_true]
  congr 1
  rw [decide_eq_false_iff_not]
  rintro ⟨row, hrow, d, hd, h⟩
  simp only [subRow, if_true, List.zipWith_cons_cons, List.zipWith_nil_left, List.mem_singleton] at hrow
  subst hrow
  rw [List.zipWith_self, List.mem_map] at hd
  obtain ⟨a, ha, rfl⟩ := hd
  simp only [fins, List.mem_map] at ha
  obtain ⟨r, -, rfl⟩ := ha
  simp only [XR.sub_fin, sub_self, XR.abs_fin, abs_zero] at h
  have h : (1e-12 : ℝ) < 0 := by simpa using h
  norm_num at h

/-- A `GreedyLeastSquares` object on finite data. -/
theorem lsInit_data (x : List ℝ) (f : ℕ → ℝ) (hf : ∀ i < x.length, 0 ≤ f i) (norm : Bool)
    (T : Option XR) (spherical : Bool) :
    ∃ S, lsInit (fins x) (fins (tab x.length f)) "pick-one" "SLSQP" norm T spherical =
        .ok (S, .pickOne) ∧
      S.grid = .radial ⟨fins x⟩ ∧ S.density = fins (tab x.length f) ∧ S.spherical = spherical ∧
      S.model = .atom ⟨.one (fins x), [XR.fin 0], fins (x.map fun r => |r|), 1, 0, norm⟩ ∧
      S.measure = .sq := by
  have hn : ∀ y ∈ fins (tab x.length f), ¬ y < XR.fin 0 := by
    intro y hy
    simp only [fins, tab, List.mem_map, List.mem_range] at hy
    obtain ⟨_, ⟨i, hi, rfl⟩, rfl⟩ := hy
    simpa using hf i hi
  obtain ⟨F, h1, h2, h3, h4, h5, h6, -, -⟩ := (C32_construct (.radial ⟨fins x⟩) (fins (tab x.length f))
    (.atom ⟨.one (fins x), [XR.fin 0], fins (x.map fun r => |r|), 1, 0, norm⟩) T spherical
    (XR.fin 1e-18)).2.2 hn (fun _ => ⟨_, rfl⟩) (by simp [Grid.len]) trivial
  refine ⟨{ F with measure := .sq, method := .slsqp, weights := List.replicate x.length (XR.fin 1) },
    ?_, h2, h3, h5, h4, rfl⟩
  unfold lsInit
  rw [greedy_atom]
  simp only
  unfold SFit.init
  simp only [Grid.pts, GModel.points]
  rw [pointsDiffer_self]
  simp only
  rw [if_neg (by simp [Grid.len]), parse_names.1]
  simp only [h1, choice_pickOne, Option.getD_none]
  simp

/-- The squared-error objective of a one-function model on finite data. -/
theorem evalObj_sq {S : SFit} {norm : Bool} {Sh : Shape} {N : ℕ} {W f : ℕ → ℝ}
    (h : FitData S.toFit norm Sh N W f) (hnb : Sh.nb = 1) (c e : ℝ) (he : norm = true → 0 ≤ e) :
    evalObj S.toFit .sq (fins [c, e]) = .ok (XR.fin (∑ i ∈ range N,
      W i * (f i - Sh.dens norm (vec [c]) (vec [e]) i) ^ 2)) := by
  unfold evalObj
  have h1 : firstHalf (fins [c, e]) = fins [c] := by simp [firstHalf, fins]
  have h2 : secondHalf (fins [c, e]) = fins [e] := by simp [secondHalf, fins]
  rw [h1, h2, h.model.eval [c] [e] false (by simp [hnb]) (by simp [hnb]) (by simpa using he)]
  simp only [Meas.evaluate]
  rw [h.dens, sq_evaluate_vec _ _ (by simp), sq_core_tab]
  simp only [Fit.integrate]
  rw [h.quad.fin]

/-- **C59** (the whole start).  For an unnormalised model and a density that is a single Gaussian on a
grid with two points at different distances, the start is this Gaussian, with objective zero, on a
plain and on a spherical grid. -/
theorem C59_recovers (x : List ℝ) (c a : ℝ) (hc : 0 < c) (T : Option XR) (spherical : Bool)
    (hx : ∃ i < x.length, ∃ j < x.length, vec x i ^ 2 ≠ vec x j ^ 2) (o : LSOpts)
    (nnls : ℕ → ℕ → List (List XR) → List XR → Py (List XR))
    (minimize : ℕ → ℕ → SProblem → Py SRes) (rnd : ℕ → ℕ → ℕ → ℝ) :
    ∃ S, lsInit (fins x) (fins (x.map fun r => c * exp (-a * r ^ 2))) "pick-one" "SLSQP" false T
        spherical = .ok (S, .pickOne) ∧
      (lsEnv S (fins x) .pickOne o nnls minimize rnd).oneFun 1 0 = .ok (fins [c, a]) ∧
      (lsEnv S (fins x) .pickOne o nnls minimize rnd).obj 1 0 (fins [c, a]) = .ok (XR.fin 0) := by
  set n := x.length with hn
  have hxt : x = tab n (vec x) := eq_range_map x _ rfl
  have hft : x.map (fun r => c * exp (-a * r ^ 2)) = tab n fun i => c * exp (-a * vec x i ^ 2) := by
    conv_lhs => rw [hxt]
    simp [tab, List.map_map, Function.comp_def]
  rw [hft]
  have hpos : ∀ i, 0 < c * exp (-a * vec x i ^ 2) := fun i => mul_pos hc (exp_pos _)
  obtain ⟨S, h1, h2, h3, h4, h5, h6⟩ := lsInit_data x (fun i => c * exp (-a * vec x i ^ 2))
    (fun i _ => (hpos i).le) false T spherical
  refine ⟨S, h1, ?_⟩
  -- the fit data
  obtain ⟨W, hW⟩ : ∃ W, Quad S.grid S.spherical n W := by
    rw [h2, h4]
    cases spherical with
    | true => exact ⟨_, quad_spherical x⟩
    | false =>
      have := quad_plain (hasWeights_radial x)
      rw [trapW_length] at this
      exact ⟨_, this⟩
  have hwc : (S.withCounts 1 0) = S := by
    have : S.model.withCounts 1 0 = S.model := by rw [h5]; rfl
    unfold SFit.withCounts
    rw [this]
  have hm : IsModel S.model false (atomShape (x.map fun r => |r|) 1 0) n := by
    rw [h5]
    have := atom_isModel (m := ⟨.one (fins x), [XR.fin 0], fins (x.map fun r => |r|), 1, 0, false⟩)
      (rs := x.map fun r => |r|) (ns := 1) (np := 0) ⟨rfl, rfl, rfl⟩ (by simp)
    simpa [hn] using this
  have hD : FitData S.toFit false (atomShape (x.map fun r => |r|) 1 0) n W
      (fun i => c * exp (-a * vec x i ^ 2)) := ⟨hm, h3, hW⟩
  have hobj : evalObj (S.withCounts 1 0).toFit S.measure (fins [c, a]) = .ok (XR.fin 0) := by
    rw [hwc, h6, evalObj_sq hD rfl c a (by simp)]
    congr 2
    apply Finset.sum_eq_zero
    intro i _
    simp only [Shape.dens, atomShape, bf, sBasis, Nat.add_zero, Finset.sum_range_one, vec_abs_sq]
    simp [vec]
  have hdet : ∀ w : ℕ → ℝ, (∀ i, 0 < w i) →
      mom n w (fun _ => 1) * mom n w (fun i => vec x i ^ 4) ≠ mom n w (fun i => vec x i ^ 2) ^ 2 := by
    intro w hw h
    obtain ⟨i, hi, j, hj, hne⟩ := hx
    have := mom_det_pos n (vec x) w (fun i _ => (hw i).le) ⟨i, hi, j, hj, hw i, hw j, hne⟩
    linarith
  have hsol : ∀ w : ℕ → ℝ, (∀ i, 0 < w i) →
      solveOneWeight (fins x) (fins (tab n fun i => c * exp (-a * vec x i ^ 2))) (fins (tab n w)) =
        fins [c, a] := by
    intro w hw
    have := C59_exact n (vec x) w c a hc (hdet w hw)
    rwa [← hxt] at this
  refine ⟨?_, hobj⟩
  show lsOneFun (fins x) S.density _ = _
  rw [h3]
  unfold lsOneFun
  have w1 : List.replicate (fins x).length (XR.fin 1) = fins (tab n fun _ => 1) := by
    rw [fins_length, ← hn]
    refine List.ext_getElem (by simp) ?_
    intro i h1 h2
    simp [fins, tab]
  have w3 : (fins (tab n fun i => c * exp (-a * vec x i ^ 2))).map (fun y => XR.pow y 2) =
      fins (tab n fun i => (c * exp (-a * vec x i ^ 2)) ^ 2) :=
    map_tab (g := fun a => a ^ 2) (by intro a; simp) _ _
  rw [w1, w3, hsol _ (fun _ => one_pos), hsol _ hpos, hsol _ (fun i => pow_pos (hpos i) 2)]
  simp only [hobj]
  simp [pyMinKey]

/-! ### C61 -/

/-- **C61** (unnormalised).  The design matrix times a coefficient vector is the density of the
unnormalised model with these coefficients on the same grid. -/
theorem C61_unnormalised (x : List ℝ) (ns np : ℕ) (hsp : ns + np ≠ 0) (c e : List ℝ)
    (hc : c.length = ns + np) (he : e.length = ns + np) :
    ∃ m d, Atomic.init (.arr (.one (fins x))) .none (.int ns) (.int np) false = .ok m ∧
      m.evaluate (ND.vec (fins c)) (ND.vec (fins e)) false = .ok (d, none) ∧
      (cofactorMatrix (fins x) ns np (fins e)).map
        (fun row => (List.zipWith (· * ·) row (fins c)).sum) = d ∧
      ∀ row ∈ cofactorMatrix (fins x) ns np (fins e), row.length = ns + np := by
  refine ⟨_, _, init_ok (.one (fins x)) .none (.int ns) ns np false (.int np) [XR.fin 0]
    (fins (x.map fun r => |r|)) hsp rfl rfl (by simp [atomCoord])
    (by simp [atomRadii, subBroadcast, Function.comp_def]),
    evaluate_fins (rs := x.map fun r => |r|) ⟨rfl, rfl, rfl⟩ c e hc he (by simp) false, ?_⟩
  have hrow : cofactorMatrix (fins x) ns np (fins e) = x.map fun r => fins (basisRow ns false e |r|) := by
    unfold cofactorMatrix
    simp only [fins, List.map_map]
    apply List.map_congr_left
    intro r _
    have h1 : ∀ l : List ℝ, (l.map XR.fin).map (fun e => XR.exp ((-e) * XR.pow (XR.fin r) 2)) =
        l.map (XR.fin ∘ fun a => sBasis false a |r|) := by
      intro l
      rw [List.map_map]
      apply List.map_congr_left
      intro a _
      simp [sBasis]
    have h2 : ∀ l : List ℝ, (l.map XR.fin).map (fun e => XR.pow (XR.fin r) 2 *
        XR.exp ((-e) * XR.pow (XR.fin r) 2)) = l.map (XR.fin ∘ fun a => pBasis false a |r|) := by
      intro l
      rw [List.map_map]
      apply List.map_congr_left
      intro a _
      simp [pBasis]
    simp only [Function.comp]
    rw [← List.map_take, ← List.map_drop, h1, h2]
    simp only [basisRow, List.map_append, List.map_map]
    by_cases hp : np = 0
    · rw [if_neg (by simp [hp])]
      rw [show e.drop ns = [] from List.drop_eq_nil_of_le (by omega)]
      simp
    · rw [if_pos hp]
  rw [hrow]
  constructor
  · simp only [List.map_map, fins]
    apply List.map_congr_left
    intro r _
    simp only [Function.comp]
    rw [← wsum_basisRow ns np false c e _ hc he]
    exact npDot_fins _ _
  · intro row hr
    obtain ⟨r, -, rfl⟩ := List.mem_map.mp hr
    rw [fins_length, basisRow_length, he]

/-- **C61 fails** for `normalize=True`: the matrix omits the normalisation, so the coefficients found by
nnls belong to another model. -/
theorem C61_fails_normalised :
    ∃ m d, Atomic.init (.arr (.one (fins [0]))) .none (.int 1) (.int 0) true = .ok m ∧
      m.evaluate (ND.vec (fins [1])) (ND.vec (fins [1])) false = .ok (d, none) ∧
      (cofactorMatrix (fins [0]) 1 0 (fins [1])).map
        (fun row => (List.zipWith (· * ·) row (fins [1])).sum) ≠ d := by
  refine ⟨_, _, greedy_atom [0] true,
    evaluate_fins (rs := [0].map fun r => |r|) (ns := 1) (np := 0) ⟨rfl, rfl, rfl⟩ [1] [1] rfl rfl
      (by simp) false, ?_⟩
  have hd : atomDensity 1 0 true [1] [1] 0 = (π⁻¹ : ℝ) ^ (3 / 2 : ℝ) := by
    simp [atomDensity, basisFn, sBasis]
  simp [cofactorMatrix, fins, hd]
  have h1 : (1 : ℝ) < π := by linarith [Real.two_le_pi]
  have : (π⁻¹ : ℝ) ^ (3 / 2 : ℝ) < 1 :=
    rpow_lt_one (by positivity) (inv_lt_one_of_one_lt₀ h1) (by norm_num)
  exact this.ne'

/-! ### examples -/

/-- C59: the log-linear problem for the density `1, 2, 3` on the grid `0, 1, 2` with weights `1, 0, 5`
has a unique solution and it is returned. -/
example : ∃ c a, solveOneWeight (fins (tab 3 fun i : ℕ => (i : ℝ))) (fins (tab 3 fun i : ℕ => (i : ℝ) + 1))
      (fins (tab 3 fun i : ℕ => if i = 0 then 1 else if i = 1 then 0 else 5)) = fins [c, a] ∧ 0 < c ∧
    ∀ c' a', 0 < c' → (c', a') ≠ (c, a) →
      logError 3 (fun i : ℕ => (i : ℝ)) (fun i => i + 1) (fun i => if i = 0 then 1 else if i = 1 then 0 else 5)
        c a < logError 3 (fun i : ℕ => (i : ℝ)) (fun i => i + 1)
          (fun i => if i = 0 then 1 else if i = 1 then 0 else 5) c' a' := by
  refine C59_least_squares 3 _ _ _ (fun i _ => by positivity) (fun i _ => ?_)
    ⟨0, by norm_num, 2, by norm_num, by norm_num, by norm_num, by norm_num⟩
  split
  · norm_num
  · split <;> norm_num

/-- C59: the Gaussian `7 exp(-3 r²)` on the grid `0, 1` is recovered. -/
example : solveOneWeight (fins (tab 2 fun i : ℕ => (i : ℝ)))
    (fins (tab 2 fun i : ℕ => 7 * exp (-3 * (i : ℝ) ^ 2))) (fins (tab 2 fun _ => 1)) = fins [7, 3] :=
  C59_exact 2 _ _ 7 3 (by norm_num) (by norm_num [mom, Finset.sum_range_succ])

/-- C59: a constructed object on the grid `0, 1` starts with the Gaussian it is given. -/
example (o : LSOpts) (nnls : ℕ → ℕ → List (List XR) → List XR → Py (List XR))
    (minimize : ℕ → ℕ → SProblem → Py SRes) (rnd : ℕ → ℕ → ℕ → ℝ) :
    ∃ S, lsInit (fins [0, 1]) (fins [7, 7 * exp (-3)]) "pick-one" "SLSQP" false none true =
        .ok (S, .pickOne) ∧
      (lsEnv S (fins [0, 1]) .pickOne o nnls minimize rnd).oneFun 1 0 = .ok (fins [7, 3]) := by
  obtain ⟨S, h1, h2, -⟩ := C59_recovers [0, 1] 7 3 (by norm_num) none true
    ⟨0, by simp, 1, by simp, by norm_num [vec]⟩ o nnls minimize rnd
  exact ⟨S, by simpa using h1, h2⟩

/-- C59: a grid of one point gives (nan, nan). -/
example : solveOneWeight (fins (tab 1 fun _ => 2)) (fins (tab 1 fun _ => 5)) (fins (tab 1 fun _ => 1)) =
    [XR.nan, XR.nan] :=
  C59_degenerate 1 _ _ _ (by norm_num) 4 (by norm_num)

/-- C61 with one s-type and one p-type function. -/
example : ∃ m d, Atomic.init (.arr (.one (fins [0, 1, 2]))) .none (.int 1) (.int 1) false = .ok m ∧
    m.evaluate (ND.vec (fins [2, 3])) (ND.vec (fins [4, 5])) false = .ok (d, none) ∧
    (cofactorMatrix (fins [0, 1, 2]) 1 1 (fins [4, 5])).map
      (fun row => (List.zipWith (· * ·) row (fins [2, 3])).sum) = d := by
  obtain ⟨m, d, h1, h2, h3, -⟩ := C61_unnormalised [0, 1, 2] 1 1 (by simp) [2, 3] [4, 5] rfl rfl
  exact ⟨m, d, h1, h2, h3⟩

end
end BFit
