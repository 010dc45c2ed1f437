import Verif.Props.GaussIntegral
import Verif.Lemmas.Fit
import Mathlib.MeasureTheory.Integral.IntervalIntegral.TrapezoidalRule
import Mathlib.MeasureTheory.Integral.IntegralEqImproper
import Mathlib.Analysis.Calculus.ContDiff.Operations
import Mathlib.Analysis.SpecialFunctions.ExpDeriv

/-! Accuracy of radial integration: the trapezoid rule of `bfit/grid.py` against the real integral. -/

namespace BFit

open Real Set MeasureTheory intervalIntegral Filter Topology

noncomputable section

/-- One trapezoid. -/
theorem trap_one {f : ℝ → ℝ} (hf : ContDiff ℝ 2 f) {a b ζ : ℝ} (hab : a ≤ b)
    (hζ : ∀ x ∈ Icc a b, |deriv (deriv f) x| ≤ ζ) :
    |(b - a) * (f a + f b) / 2 - ∫ x in a..b, f x| ≤ (b - a) ^ 3 * ζ / 12 := by
  rcases hab.eq_or_lt with rfl | hlt
  · simp
  have hu : uIcc a b = Icc a b := uIcc_of_le hab
  have hb : ∀ x, |iteratedDerivWithin 2 f (uIcc a b) x| ≤ ζ := by
    intro x
    rw [hu]
    by_cases hx : x ∈ Icc a b
    · rw [iteratedDerivWithin_eq_iteratedDeriv (uniqueDiffOn_Icc hlt) hf.contDiffAt hx, iteratedDeriv_succ,
        iteratedDeriv_one]
      exact hζ x hx
    · have h0 : iteratedDerivWithin 2 f (Icc a b) x = 0 := by
        rw [iteratedDerivWithin_succ]
        exact derivWithin_zero_of_notMem_closure (by rwa [isClosed_Icc.closure_eq])
      rw [h0, abs_zero]
      exact (abs_nonneg _).trans (hζ a (left_mem_Icc.mpr hab))
  have h := trapezoidal_error_le_of_c2 (f := f) (a := a) (b := b) hf.contDiffOn hb one_pos
  rw [trapezoidal_error, trapezoidal_integral_one, abs_of_pos (sub_pos.mpr hlt)] at h
  norm_num at h
  rw [show (b - a) * (f a + f b) / 2 = (b - a) / 2 * (f a + f b) by ring]
  exact h

theorem trap_error {f : ℝ → ℝ} (hf : ContDiff ℝ 2 f) {h ζ : ℝ} (x₀ : ℝ) (xs : List ℝ)
    (hx : (x₀ :: xs).IsChain (fun u v => u ≤ v ∧ v - u ≤ h))
    (hζ : ∀ x ∈ Icc x₀ ((x₀ :: xs).getLast (by simp)), |deriv (deriv f) x| ≤ ζ) :
    x₀ ≤ (x₀ :: xs).getLast (by simp) ∧
    |trapezoid (x₀ :: xs) ((x₀ :: xs).map f) - ∫ x in x₀..(x₀ :: xs).getLast (by simp), f x| ≤
      ((x₀ :: xs).getLast (by simp) - x₀) * h ^ 2 * ζ / 12 := by
  induction xs generalizing x₀ with
  | nil => simp [trapezoid]
  | cons x₁ xs ih =>
    rw [List.isChain_cons_cons] at hx
    obtain ⟨⟨h01, hh⟩, hx⟩ := hx
    have hl : (x₀ :: x₁ :: xs).getLast (by simp) = (x₁ :: xs).getLast (by simp) := by simp
    have hle : x₁ ≤ (x₁ :: xs).getLast (by simp) := by
      clear hζ ih hl hh h01
      induction xs generalizing x₁ with
      | nil => simp
      | cons x₂ xs ih =>
        rw [List.isChain_cons_cons] at hx
        have := ih x₂ hx.2
        rw [List.getLast_cons_cons]
        exact hx.1.1.trans this
    rw [hl] at hζ ⊢
    set b := (x₁ :: xs).getLast (by simp) with hb
    obtain ⟨-, ih⟩ := ih x₁ hx fun x hx => hζ x ⟨h01.trans hx.1, hx.2⟩
    rw [← hb] at ih
    have h1 := trap_one hf h01 fun x hx => hζ x ⟨hx.1, hx.2.trans hle⟩
    have hζ0 : 0 ≤ ζ := (abs_nonneg _).trans (hζ x₀ ⟨le_rfl, h01.trans hle⟩)
    have hi : (∫ x in x₀..b, f x) = (∫ x in x₀..x₁, f x) + ∫ x in x₁..b, f x :=
      (integral_add_adjacent_intervals (hf.continuous.intervalIntegrable _ _)
        (hf.continuous.intervalIntegrable _ _)).symm
    have ht : trapezoid (x₀ :: x₁ :: xs) ((x₀ :: x₁ :: xs).map f) =
        (x₁ - x₀) * (f x₀ + f x₁) / 2 + trapezoid (x₁ :: xs) ((x₁ :: xs).map f) := by
      simp only [List.map_cons, trapezoid]
    refine ⟨h01.trans hle, ?_⟩
    rw [ht, hi]
    have hd : 0 ≤ x₁ - x₀ := sub_nonneg.mpr h01
    have h2 : (x₁ - x₀) ^ 3 * ζ / 12 ≤ (x₁ - x₀) * h ^ 2 * ζ / 12 := by
      have : (x₁ - x₀) ^ 2 ≤ h ^ 2 := pow_le_pow_left₀ hd hh 2
      have : (x₁ - x₀) ^ 3 * ζ ≤ (x₁ - x₀) * h ^ 2 * ζ := by
        rw [show (x₁ - x₀) ^ 3 = (x₁ - x₀) * (x₁ - x₀) ^ 2 by ring]
        gcongr
      linarith
    calc _ = |((x₁ - x₀) * (f x₀ + f x₁) / 2 - ∫ x in x₀..x₁, f x) +
          (trapezoid (x₁ :: xs) ((x₁ :: xs).map f) - ∫ x in x₁..b, f x)| := by congr 1; ring
      _ ≤ _ := abs_add_le _ _
      _ ≤ (x₁ - x₀) * h ^ 2 * ζ / 12 + (b - x₁) * h ^ 2 * ζ / 12 := add_le_add (h1.trans h2) ih
      _ = _ := by ring

/-- **C77** (any ascending grid).  If consecutive points of a radial grid are ascending and at most
`h` apart, `integrate` of the samples of a twice continuously differentiable function differs from
its integral between the first and the last point by at most `(r_last - r_first) h² ζ / 12`, where
`ζ` bounds the second derivative. -/
theorem C77_error_bound (x : List ℝ) (hx0 : x ≠ []) (h : ℝ)
    (hx : x.IsChain (fun u v => u ≤ v ∧ v - u ≤ h)) (f : ℝ → ℝ) (hf : ContDiff ℝ 2 f) (ζ : ℝ)
    (hζ : ∀ r ∈ Icc (x.head hx0) (x.getLast hx0), |deriv (deriv f) r| ≤ ζ) :
    ∃ v : ℝ, (RadialGrid.mk (fins x)).integrate (ND.vec (fins (x.map f))) = .ok (XR.fin v) ∧
      |v - ∫ r in (x.head hx0)..(x.getLast hx0), f r| ≤
        (x.getLast hx0 - x.head hx0) * h ^ 2 * ζ / 12 := by
  refine ⟨_, integrate_fins x (x.map f) (by simp), ?_⟩
  cases x with
  | nil => exact absurd rfl hx0
  | cons x₀ xs => exact (trap_error hf x₀ xs hx hζ).2

/-- **C77** (uniform grids).  On `UniformRadialGrid(n, a, b)` with `n ≥ 2` the error is at most
`(b - a)³ ζ / (12 (n - 1)²)`. -/
theorem C77_uniform (n : ℤ) (hn : 2 ≤ n) (nObj aObj bObj : PyObj) (a b : ℝ) (hab : a < b)
    (hnO : nObj.IsInt n) (haO : aObj.IsNumber (XR.fin a)) (hbO : bObj.IsNumber (XR.fin b)) (f : ℝ → ℝ) (hf : ContDiff ℝ 2 f) (ζ : ℝ)
    (hζ : ∀ r ∈ Icc a b, |deriv (deriv f) r| ≤ ζ) :
    ∃ (pts : List ℝ) (v : ℝ), uniformRadialGrid nObj aObj bObj = .ok ⟨fins pts⟩ ∧
      (RadialGrid.mk (fins pts)).integrate (ND.vec (fins (pts.map f))) = .ok (XR.fin v) ∧
      |v - ∫ r in a..b, f r| ≤ (b - a) ^ 3 * ζ / (12 * ((n : ℝ) - 1) ^ 2) := by
  obtain ⟨pts, h1, h2, h3, h4, h5, h6, -⟩ :=
    C04_uniform_points n (by omega) nObj aObj bObj a b hab hnO haO hbO
  have hne : pts ≠ [] := by rintro rfl; simp at h3
  have hhd : pts.head hne = a := by
    cases pts with
    | nil => exact absurd rfl hne
    | cons p ps => simpa using h3
  have hla : pts.getLast hne = b := by
    have := h4 hn
    rw [List.getLast?_eq_some_getLast hne] at this
    exact Option.some.inj this
  have hch : pts.IsChain (fun u v => u ≤ v ∧ v - u ≤ (b - a) / ((n : ℝ) - 1)) := by
    rw [List.isChain_iff_getElem]
    intro i hi
    constructor
    · exact (List.pairwise_iff_getElem.mp h6 i (i + 1) (by omega) hi (by omega)).le
    · exact (h5 i _ _ (List.getElem?_eq_getElem (by omega)) (List.getElem?_eq_getElem hi)).le
  obtain ⟨v, k1, k2⟩ := C77_error_bound pts hne _ hch f hf ζ (by rw [hhd, hla]; exact hζ)
  refine ⟨pts, v, h1, k1, ?_⟩
  rw [hhd, hla] at k2
  refine k2.trans (le_of_eq ?_)
  have : ((n : ℝ) - 1) ≠ 0 := by
    have : (2 : ℝ) ≤ n := by exact_mod_cast hn
    linarith
  field_simp

theorem second_bound {f : ℝ → ℝ} (hf : ContDiff ℝ 2 f) (a b : ℝ) :
    ∃ ζ, ∀ r ∈ Icc a b, |deriv (deriv f) r| ≤ ζ := by
  have hc : Continuous (deriv (deriv f)) := by
    have : ContDiff ℝ 1 (deriv f) := (contDiff_succ_iff_deriv (n := 1)).mp hf |>.2.2
    exact this.continuous_deriv le_rfl
  obtain ⟨C, hC⟩ := isCompact_Icc.exists_bound_of_continuousOn (s := Icc a b) hc.continuousOn
  exact ⟨C, fun r hr => by simpa using hC r hr⟩

/-- **C77** (convergence).  On uniform grids over a fixed interval the integral converges to the real
integral as the number of points grows. -/
theorem C77_converges (a b : ℝ) (hab : a < b) (f : ℝ → ℝ) (hf : ContDiff ℝ 2 f) (ε : ℝ) (hε : 0 < ε) :
    ∃ n₀ : ℤ, ∀ n ≥ n₀, ∃ (pts : List ℝ) (v : ℝ),
      uniformRadialGrid (.int n) (.float (XR.fin a)) (.float (XR.fin b)) = .ok ⟨fins pts⟩ ∧
      (RadialGrid.mk (fins pts)).integrate (ND.vec (fins (pts.map f))) = .ok (XR.fin v) ∧
      |v - ∫ r in a..b, f r| < ε := by
  obtain ⟨ζ, hζ⟩ := second_bound hf a b
  have hζ0 : 0 ≤ ζ := (abs_nonneg _).trans (hζ a (left_mem_Icc.mpr hab.le))
  have hK : 0 ≤ (b - a) ^ 3 * ζ / 12 := by
    have := sub_pos.mpr hab
    positivity
  obtain ⟨m, hm⟩ := exists_nat_gt ((b - a) ^ 3 * ζ / 12 / ε)
  refine ⟨m + 2, fun n hn => ?_⟩
  obtain ⟨pts, v, h1, h2, h3⟩ := C77_uniform n (by omega) (.int n) (.float (XR.fin a)) (.float (XR.fin b))
    a b hab (.int n) (.float _) (.float _) f hf ζ hζ
  refine ⟨pts, v, h1, h2, h3.trans_lt ?_⟩
  have hn1 : (m : ℝ) + 1 ≤ (n : ℝ) - 1 := by
    have : ((m : ℤ) + 2 : ℝ) ≤ (n : ℝ) := by exact_mod_cast hn
    push_cast at this
    linarith
  have hm0 : (0 : ℝ) ≤ m := Nat.cast_nonneg m
  have hsq : (m : ℝ) < ((n : ℝ) - 1) ^ 2 := by nlinarith
  rw [show (b - a) ^ 3 * ζ / (12 * ((n : ℝ) - 1) ^ 2) = (b - a) ^ 3 * ζ / 12 / ((n : ℝ) - 1) ^ 2 by
    rw [div_div]]
  rw [div_lt_iff₀ (by nlinarith)]
  rw [div_lt_iff₀ hε] at hm
  nlinarith

/-- The integrand of spherical integration. -/
theorem spherical_eq (x : List ℝ) (F : ℝ → ℝ) :
    integrateOn (.radial ⟨fins x⟩) true (fins (x.map F)) =
      (RadialGrid.mk (fins x)).integrate (ND.vec (fins (x.map fun r => F r * 4 * π * r ^ 2))) := by
  unfold integrateOn
  rw [if_pos rfl]
  simp only
  have h1 : (fins (x.map F)).map (fun y => y * XR.fin 4 * XR.fin π) =
      fins (x.map fun r => F r * 4 * π) := by simp [fins]
  have h2 : (fins x).map (fun p => XR.pow p 2) = fins (x.map fun r => r ^ 2) := by
    simp [fins]
  rw [h1, h2]
  unfold bcast
  rw [if_pos (by simp)]
  simp only
  rw [zipWith_fins (g := fun u v => u * v) (by simp)]
  have h3 : ∀ l : List ℝ, List.zipWith (fun u v => u * v) (l.map fun r => F r * 4 * π) (l.map fun r => r ^ 2) =
      l.map fun r => F r * 4 * π * r ^ 2 := by
    intro l
    induction l with
    | nil => rfl
    | cons a l ih => simp only [List.map_cons, List.zipWith_cons_cons, ih]
  rw [h3]
  rfl

theorem atomDensity_smooth (ns np : ℕ) (norm : Bool) (c e : List ℝ) :
    ContDiff ℝ 2 (atomDensity ns np norm c e) := by
  unfold atomDensity
  apply ContDiff.sum
  intro k _
  refine contDiff_const.mul ?_
  unfold basisFn
  split
  · unfold sBasis
    exact contDiff_const.mul (contDiff_exp.comp (contDiff_const.mul (contDiff_id.pow 2)))
  · unfold pBasis
    exact contDiff_const.mul ((contDiff_id.pow 2).mul
      (contDiff_exp.comp (contDiff_const.mul (contDiff_id.pow 2))))

/-- **C77** (number of electrons).  For a normalised atomic model with positive exponents, the
spherical integral of the model on uniform grids `[0, b]` with `n` points comes as close as wanted to
the sum of the coefficients, once `b` and then `n` are large enough. -/
theorem C77_electrons (ns np : ℕ) (c e : List ℝ) (hc : c.length = ns + np)
    (hel : e.length = ns + np) (he : ∀ a ∈ e, 0 < a) (ε : ℝ) (hε : 0 < ε) :
    ∃ B : ℝ, ∀ b > B, ∃ n₀ : ℤ, ∀ n ≥ n₀, ∃ pts : List ℝ,
      uniformRadialGrid (.int n) (.float (XR.fin 0)) (.float (XR.fin b)) = .ok ⟨fins pts⟩ ∧
      ∀ m : Atomic, IsAtom m pts ns np → m.normalized = true →
        ∃ vals v, m.evaluate (ND.vec (fins c)) (ND.vec (fins e)) false = .ok (vals, none) ∧
          integrateOn (.radial ⟨fins pts⟩) true vals = .ok (XR.fin v) ∧ |v - c.sum| < ε := by
  set F := atomDensity ns np true c e with hF
  have hint : 4 * π * ∫ r in Ioi (0 : ℝ), r ^ 2 * F r = c.sum := by
    have hI := atomDensity_integral ns np true c e hel he
    have hsum : ∑ k ∈ Finset.range (ns + np), c.getD k 0 * basisVolume ns true k (e.getD k 0) =
        c.sum := by
      rw [← sum_getD c _ hc]
      exact Finset.sum_congr rfl fun k _ => by simp [basisVolume]
    rw [hsum] at hI
    exact hI
  have hsm : ContDiff ℝ 2 (fun r => F r * 4 * π * r ^ 2) :=
    (((atomDensity_smooth ns np true c e).mul contDiff_const).mul contDiff_const).mul (contDiff_id.pow 2)
  have hlim : Tendsto (fun b => ∫ r in (0 : ℝ)..b, F r * 4 * π * r ^ 2) atTop (𝓝 c.sum) := by
    have h1 := intervalIntegral_tendsto_integral_Ioi 0
      (atomDensity_integrable ns np true c e hel he) tendsto_id
    have h2 := h1.const_mul (4 * π)
    rw [hint] at h2
    refine h2.congr fun b => ?_
    rw [← intervalIntegral.integral_const_mul]
    congr 1
    funext r
    simp only [hF]
    ring
  obtain ⟨B, hB⟩ := (eventually_atTop.mp (hlim.eventually (Metric.ball_mem_nhds _ (half_pos hε))))
  refine ⟨max B 0, fun b hb => ?_⟩
  have hb0 : 0 < b := (le_max_right _ _).trans_lt hb
  obtain ⟨n₀, hn₀⟩ := C77_converges 0 b hb0 _ hsm (ε / 2) (half_pos hε)
  refine ⟨n₀, fun n hn => ?_⟩
  obtain ⟨pts, v, h1, h2, h3⟩ := hn₀ n hn
  refine ⟨pts, h1, fun m hm hno => ⟨fins (pts.map F), v, ?_, ?_, ?_⟩⟩
  · have := evaluate_fins hm c e hc hel (fun _ a ha => (he a ha).le) false
    rw [hno] at this
    exact this
  · rw [spherical_eq]; exact h2
  · have h4 := hB b ((le_max_left _ _).trans hb.le)
    rw [Real.dist_eq] at h4
    calc |v - c.sum| = |(v - ∫ r in (0 : ℝ)..b, F r * 4 * π * r ^ 2) +
          ((∫ r in (0 : ℝ)..b, F r * 4 * π * r ^ 2) - c.sum)| := by congr 1; ring
      _ ≤ _ := abs_add_le _ _
      _ < ε := by linarith

/-- The error bound for the parabola `r²` on the uneven grid `0, 1, 3`, whose exact integral is 9:
the quadrature gives `21/2`, and the bound is `3 · 4 · 2 / 12 = 2`. -/
example : ∃ v : ℝ, (RadialGrid.mk (fins [0, 1, 3])).integrate (ND.vec (fins [0, 1, 9])) = .ok (XR.fin v) ∧
    |v - 9| ≤ 2 := by
  have hd : deriv (deriv fun r : ℝ => r ^ 2) = fun _ => 2 := by
    have : deriv (fun r : ℝ => r ^ 2) = fun r => 2 * r := by funext r; simp
    rw [this]; funext r
    simp
  obtain ⟨v, h1, h2⟩ := C77_error_bound [0, 1, 3] (by simp) 2 (by norm_num) (fun r => r ^ 2)
    (contDiff_id.pow 2) 2 (by intro r _; rw [hd]; norm_num)
  refine ⟨v, by norm_num at h1 ⊢; exact h1, ?_⟩
  norm_num at h2
  exact h2

/-- C77 for the number of electrons: one s-type and one p-type function with coefficients 2 and 3. -/
example (ε : ℝ) (hε : 0 < ε) : ∃ B : ℝ, ∀ b > B, ∃ n₀ : ℤ, ∀ n ≥ n₀, ∃ pts : List ℝ,
    uniformRadialGrid (.int n) (.float (XR.fin 0)) (.float (XR.fin b)) = .ok ⟨fins pts⟩ ∧
    ∃ vals v, Atomic.evaluate ⟨.one (fins pts), fins [0], fins pts, 1, 1, true⟩
        (ND.vec (fins [2, 3])) (ND.vec (fins [1, 4])) false = .ok (vals, none) ∧
      integrateOn (.radial ⟨fins pts⟩) true vals = .ok (XR.fin v) ∧ |v - 5| < ε := by
  obtain ⟨B, hB⟩ := C77_electrons 1 1 [2, 3] [1, 4] rfl rfl (by simp) ε hε
  refine ⟨B, fun b hb => ?_⟩
  obtain ⟨n₀, hn⟩ := hB b hb
  refine ⟨n₀, fun n h => ?_⟩
  obtain ⟨pts, h1, h2⟩ := hn n h
  obtain ⟨vals, v, h3, h4, h5⟩ := h2 ⟨.one (fins pts), fins [0], fins pts, 1, 1, true⟩ ⟨rfl, rfl, rfl⟩ rfl
  refine ⟨pts, h1, vals, v, h3, h4, ?_⟩
  norm_num at h5
  exact h5

end
end BFit
