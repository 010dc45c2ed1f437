import Verif.Props.FPI
import Mathlib.Analysis.Calculus.Deriv.MeanValue
import Mathlib.Analysis.SpecialFunctions.Log.Deriv

/-! Relations between the five numbers of `goodness_of_fit`. -/

namespace BFit

open Real Classical Finset

noncomputable section

theorem log_lower_deriv {t : ℝ} (ht : 0 < t) :
    HasDerivAt (fun t => log t - (t - 1) * (5 * t + 1) / (2 * t * (t + 2)))
      ((t - 1) ^ 3 / (t ^ 2 * (t + 2) ^ 2)) t := by
  have h1 : HasDerivAt (fun t : ℝ => (t - 1) * (5 * t + 1)) (1 * (5 * t + 1) + (t - 1) * 5) t := by
    have a : HasDerivAt (fun t : ℝ => t - 1) 1 t := (hasDerivAt_id t).sub_const 1
    have b : HasDerivAt (fun t : ℝ => 5 * t + 1) 5 t := by
      simpa using ((hasDerivAt_id t).const_mul (5 : ℝ)).add_const 1
    exact a.mul b
  have h2 : HasDerivAt (fun t : ℝ => 2 * t * (t + 2)) (2 * (t + 2) + 2 * t * 1) t := by
    have a : HasDerivAt (fun t : ℝ => 2 * t) 2 t := by
      simpa using (hasDerivAt_id t).const_mul (2 : ℝ)
    have b : HasDerivAt (fun t : ℝ => t + 2) 1 t := (hasDerivAt_id t).add_const 2
    exact a.mul b
  have h3 := (hasDerivAt_log ht.ne').sub (h1.div h2 (by positivity))
  refine h3.congr_deriv ?_
  field_simp
  ring

/-- The lower bound of the logarithm behind Pinsker's inequality. -/
theorem log_lower {t : ℝ} (ht : 0 < t) : (t - 1) * (5 * t + 1) / (2 * t * (t + 2)) ≤ log t := by
  set φ : ℝ → ℝ := fun t => log t - (t - 1) * (5 * t + 1) / (2 * t * (t + 2)) with hφ
  have h1 : φ 1 = 0 := by simp [hφ]
  have hd : ∀ s, 0 < s → HasDerivAt φ ((s - 1) ^ 3 / (s ^ 2 * (s + 2) ^ 2)) s := fun s => log_lower_deriv
  suffices 0 ≤ φ t by
    have : 0 ≤ log t - (t - 1) * (5 * t + 1) / (2 * t * (t + 2)) := this
    linarith
  rcases le_total t 1 with h | h
  · have hm : AntitoneOn φ (Set.Icc t 1) := by
      apply antitoneOn_of_deriv_nonpos (convex_Icc t 1)
      · intro s hs
        exact (hd s (ht.trans_le hs.1)).continuousAt.continuousWithinAt
      · intro s hs
        rw [interior_Icc] at hs
        exact (hd s (ht.trans hs.1)).differentiableAt.differentiableWithinAt
      · intro s hs
        rw [interior_Icc] at hs
        rw [(hd s (ht.trans hs.1)).deriv]
        have : (s - 1) ^ 3 ≤ 0 := by
          have h1 : s - 1 ≤ 0 := by linarith [hs.2]
          have h2 : (s - 1) ^ 3 = (s - 1) * (s - 1) ^ 2 := by ring
          rw [h2]
          exact mul_nonpos_of_nonpos_of_nonneg h1 (sq_nonneg _)
        exact div_nonpos_of_nonpos_of_nonneg this (by positivity)
    have := hm ⟨le_rfl, h⟩ ⟨h, le_rfl⟩ h
    linarith
  · have hm : MonotoneOn φ (Set.Icc 1 t) := by
      apply monotoneOn_of_deriv_nonneg (convex_Icc 1 t)
      · intro s hs
        exact (hd s (one_pos.trans_le hs.1)).continuousAt.continuousWithinAt
      · intro s hs
        rw [interior_Icc] at hs
        exact (hd s (one_pos.trans hs.1)).differentiableAt.differentiableWithinAt
      · intro s hs
        rw [interior_Icc] at hs
        rw [(hd s (one_pos.trans hs.1)).deriv]
        have h1 : 0 ≤ s - 1 := by linarith [hs.1]
        positivity
    have := hm ⟨le_rfl, h⟩ ⟨h, le_rfl⟩ h
    linarith

/-- The pointwise inequality. -/
theorem kl_point {x y : ℝ} (hx : 0 < x) (hy : 0 < y) :
    3 / 2 * ((x - y) ^ 2 / (x + 2 * y)) ≤ klInt x y - x + y := by
  have h := log_lower (div_pos hx hy)
  unfold klInt
  have h2 := mul_le_mul_of_nonneg_left h hx.le
  have e1 : x * ((x / y - 1) * (5 * (x / y) + 1) / (2 * (x / y) * (x / y + 2))) =
      3 / 2 * ((x - y) ^ 2 / (x + 2 * y)) + x - y := by
    field_simp
    ring
  linarith

/-- Pinsker's inequality for weighted sums. -/
theorem pinsker_sum {N : ℕ} {W f g : ℕ → ℝ} (hW : ∀ i < N, 0 ≤ W i) (hf : ∀ i < N, 0 < f i)
    (hg : ∀ i < N, 0 < g i) :
    (∑ i ∈ range N, W i * |f i - g i|) ^ 2 ≤
      2 / 3 * (∑ i ∈ range N, W i * f i + 2 * ∑ i ∈ range N, W i * g i) *
        (∑ i ∈ range N, W i * klInt (f i) (g i) - ∑ i ∈ range N, W i * f i + ∑ i ∈ range N, W i * g i) := by
  have hcs := Finset.sum_sq_le_sum_mul_sum_of_sq_le_mul (range N) (r := fun i => W i * |f i - g i|)
    (f := fun i => W i * (f i + 2 * g i)) (g := fun i => W i * ((f i - g i) ^ 2 / (f i + 2 * g i)))
    (fun i hi => mul_nonneg (hW i (mem_range.mp hi)) (by
      have := hf i (mem_range.mp hi); have := hg i (mem_range.mp hi); positivity))
    (fun i hi => mul_nonneg (hW i (mem_range.mp hi)) (by
      have := hf i (mem_range.mp hi); have := hg i (mem_range.mp hi); positivity))
    (fun i hi => by
      have h1 := hf i (mem_range.mp hi)
      have h2 := hg i (mem_range.mp hi)
      apply le_of_eq
      rw [mul_pow, sq_abs]
      field_simp)
  have e1 : ∑ i ∈ range N, W i * (f i + 2 * g i) =
      ∑ i ∈ range N, W i * f i + 2 * ∑ i ∈ range N, W i * g i := by
    rw [Finset.mul_sum, ← Finset.sum_add_distrib]
    exact Finset.sum_congr rfl fun i _ => by ring
  have e2 : 3 / 2 * ∑ i ∈ range N, W i * ((f i - g i) ^ 2 / (f i + 2 * g i)) ≤
      ∑ i ∈ range N, W i * klInt (f i) (g i) - ∑ i ∈ range N, W i * f i + ∑ i ∈ range N, W i * g i := by
    rw [Finset.mul_sum, ← Finset.sum_sub_distrib, ← Finset.sum_add_distrib]
    apply Finset.sum_le_sum
    intro i hi
    have hi := mem_range.mp hi
    have := mul_le_mul_of_nonneg_left (kl_point (hf i hi) (hg i hi)) (hW i hi)
    linarith
  rw [e1] at hcs
  have hA : 0 ≤ ∑ i ∈ range N, W i * f i + 2 * ∑ i ∈ range N, W i * g i := by
    rw [← e1]
    exact Finset.sum_nonneg fun i hi => mul_nonneg (hW i (mem_range.mp hi)) (by
      have := hf i (mem_range.mp hi); have := hg i (mem_range.mp hi); positivity)
  have := mul_le_mul_of_nonneg_left e2 hA
  nlinarith

/-- **C78** (Pinsker).  Let the density be positive, the weights non-negative and the model above the
mask.  Then the reported numbers satisfy `L1² ≤ (2/3) (I + 2 J) (KL - I + J)`, where `I` is the
integral of the density and `J` that of the model; if both integrals agree, `L1² ≤ 2 I KL`.  So a
small divergence forces a small absolute error. -/
theorem C78_pinsker {F : Fit} {norm : Bool} {S : Shape} {N : ℕ} {W f : ℕ → ℝ} {μ : ℝ}
    (h : FitData F norm S N W f) (hN : 0 < N) (hW : ∀ i < N, 0 ≤ W i) (hμ : F.maskValue = XR.fin μ)
    (hf : ∀ i < N, 0 < f i) (c e : List ℝ) (hc : c.length = S.nb) (he : e.length = S.nb)
    (hpos : norm = true → ∀ a ∈ e, 0 ≤ a) (hu : S.AllUnmasked norm N μ f c e) :
    ∃ (p : Perf) (I J L K : ℝ), F.goodness (fins c) (fins e) = .ok p ∧
      F.integrate F.density = .ok (XR.fin I) ∧ p.integral = XR.fin J ∧ p.l1 = XR.fin L ∧
      p.kl = XR.fin K ∧ L ^ 2 ≤ 2 / 3 * (I + 2 * J) * (K - I + J) ∧ (I = J → L ^ 2 ≤ 2 * I * K) := by
  have hg : ∀ i < N, 0 < S.dens norm (vec c) (vec e) i := fun i hi => unmasked_pos (hf i hi).le (hu i hi)
  obtain ⟨M, kl, h1, -, -, h4⟩ := goodness_fins h hN c e hc he hpos
  have hkl := h4 μ hμ hf fun i hi => (hg i hi).le
  have hk0 : ∑ i ∈ range N, W i * klVal μ (f i) (S.dens norm (vec c) (vec e) i) =
      ∑ i ∈ range N, W i * klInt (f i) (S.dens norm (vec c) (vec e) i) :=
    Finset.sum_congr rfl fun i hi => by rw [klVal_unmasked (hu i (mem_range.mp hi))]
  have hP := pinsker_sum hW hf hg
  refine ⟨_, ∑ i ∈ range N, W i * f i, _, _, _, h1, ?_, rfl, rfl, hkl, ?_, ?_⟩
  · rw [h.dens]; exact h.quad.fin f
  · rw [hk0]; exact hP
  · intro hIJ
    rw [hk0]
    rw [← hIJ] at hP
    linarith

/-- **C78** (norms).  With non-negative weights of sum `V`, the reported errors satisfy
`L1 ≤ V · Linf`, `LS ≤ Linf · L1` and `L1² ≤ V · LS`. -/
theorem C78_norms {F : Fit} {norm : Bool} {S : Shape} {N : ℕ} {W f : ℕ → ℝ}
    (h : FitData F norm S N W f) (hN : 0 < N) (hW : ∀ i < N, 0 ≤ W i) (c e : List ℝ)
    (hc : c.length = S.nb) (he : e.length = S.nb) (hpos : norm = true → ∀ a ∈ e, 0 ≤ a) :
    ∃ (p : Perf) (V l1 linf ls : ℝ), F.goodness (fins c) (fins e) = .ok p ∧
      F.integrate (fins (tab N fun _ => 1)) = .ok (XR.fin V) ∧ p.l1 = XR.fin l1 ∧
      p.linf = XR.fin linf ∧ p.ls = XR.fin ls ∧
      l1 ≤ V * linf ∧ ls ≤ linf * l1 ∧ l1 ^ 2 ≤ V * ls := by
  obtain ⟨M, kl, h1, -, h3, -⟩ := goodness_fins h hN c e hc he hpos
  set d := fun i => f i - S.dens norm (vec c) (vec e) i with hd
  refine ⟨_, ∑ i ∈ range N, W i * 1, _, M, _, h1, h.quad.fin _, rfl, rfl, rfl, ?_, ?_, ?_⟩
  · rw [Finset.sum_mul]
    apply Finset.sum_le_sum
    intro i hi
    have hi := mem_range.mp hi
    rw [mul_one]
    exact mul_le_mul_of_nonneg_left (h3 i hi) (hW i hi)
  · rw [Finset.mul_sum]
    apply Finset.sum_le_sum
    intro i hi
    have hi := mem_range.mp hi
    rw [← sq_abs, pow_two, mul_left_comm M]
    exact mul_le_mul_of_nonneg_left (mul_le_mul_of_nonneg_right (h3 i hi) (abs_nonneg _)) (hW i hi)
  · apply Finset.sum_sq_le_sum_mul_sum_of_sq_le_mul
    · intro i hi; simpa using hW i (mem_range.mp hi)
    · intro i hi; exact mul_nonneg (hW i (mem_range.mp hi)) (sq_nonneg _)
    · intro i hi
      apply le_of_eq
      rw [mul_pow, sq_abs]
      ring

/-- C78 on the fit of the density `(i + 1) b(i)` by `b`. -/
example : ∃ (p : Perf) (I J L K : ℝ), (demoFit true demoF).goodness (fins [1]) (fins [1]) = .ok p ∧
    p.integral = XR.fin J ∧ p.l1 = XR.fin L ∧ p.kl = XR.fin K ∧
    L ^ 2 ≤ 2 / 3 * (I + 2 * J) * (K - I + J) := by
  obtain ⟨p, I, J, L, K, h1, -, h3, h4, h5, h6, -⟩ := C78_pinsker (demoFit_data true demoF) (by norm_num)
    demo_W rfl (fun i _ => demoF_pos i) [1] [1] rfl rfl (by simp) demo_unmasked
  exact ⟨p, I, J, L, K, h1, h3, h4, h5, h6⟩

example : ∃ (p : Perf) (V l1 linf ls : ℝ), (demoFit true demoF).goodness (fins [1]) (fins [1]) = .ok p ∧
    p.l1 = XR.fin l1 ∧ p.linf = XR.fin linf ∧ p.ls = XR.fin ls ∧ l1 ≤ V * linf ∧ ls ≤ linf * l1 ∧
    l1 ^ 2 ≤ V * ls := by
  obtain ⟨p, V, l1, linf, ls, h1, -, h2⟩ := C78_norms (demoFit_data true demoF) (by norm_num) demo_W [1] [1]
    rfl rfl (by simp)
  exact ⟨p, V, l1, linf, ls, h1, h2⟩

end
end BFit
