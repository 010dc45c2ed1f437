import Verif.Props.Gauss
import Mathlib.MeasureTheory.Integral.Gamma
import Mathlib.MeasureTheory.Constructions.HaarToSphere
import Mathlib.MeasureTheory.Measure.Lebesgue.VolumeOfBalls

/-! Property C12: the normalised Gaussian model integrates to the sum of its coefficients. -/

namespace BFit

open Real MeasureTheory Set

noncomputable section

/-- `∫_{ℝ³}` of a radial function, as a radial integral. -/
theorem integral_radial (F : ℝ → ℝ) :
    ∫ x : EuclideanSpace ℝ (Fin 3), F ‖x‖ = 4 * π * ∫ r in Ioi (0 : ℝ), r ^ 2 * F r := by
  rw [integral_fun_norm_addHaar volume F]
  simp only [Measure.real, EuclideanSpace.volume_ball_fin_three, finrank_euclideanSpace,
    Fintype.card_fin, smul_eq_mul, nsmul_eq_mul]
  simp only [ENNReal.ofReal_one, one_pow, one_mul]
  rw [ENNReal.toReal_ofReal (by positivity)]
  push_cast
  ring

theorem integrable_radial (F : ℝ → ℝ) :
    Integrable (fun x : EuclideanSpace ℝ (Fin 3) => F ‖x‖) ↔
      IntegrableOn (fun r => r ^ 2 * F r) (Ioi 0) := by
  rw [integrable_fun_norm_addHaar volume (f := F)]
  simp [finrank_euclideanSpace]

theorem integral_r2_gauss {a : ℝ} (ha : 0 < a) :
    ∫ r in Ioi (0 : ℝ), r ^ 2 * exp (-a * r ^ 2) = a ^ (-(3 / 2) : ℝ) * √π / 4 := by
  have h := integral_rpow_mul_exp_neg_mul_rpow (p := 2) (q := 2) (b := a) two_pos (by norm_num) ha
  simp only [rpow_two] at h
  rw [h, show ((2 : ℝ) + 1) / 2 = 1 / 2 + 1 by norm_num, Real.Gamma_add_one (by norm_num),
    Real.Gamma_one_half_eq, show -((2 : ℝ) + 1) / 2 = -(3 / 2) by norm_num]
  ring

theorem integral_r4_gauss {a : ℝ} (ha : 0 < a) :
    ∫ r in Ioi (0 : ℝ), r ^ 4 * exp (-a * r ^ 2) = 3 * a ^ (-(5 / 2) : ℝ) * √π / 8 := by
  have h := integral_rpow_mul_exp_neg_mul_rpow (p := 2) (q := 4) (b := a) two_pos (by norm_num) ha
  simp only [rpow_two, show ∀ x : ℝ, x ^ (4 : ℝ) = x ^ 4 by intro x; norm_cast] at h
  rw [h, show ((4 : ℝ) + 1) / 2 = (1 / 2 + 1) + 1 by norm_num, Real.Gamma_add_one (by norm_num),
    Real.Gamma_add_one (by norm_num),
    Real.Gamma_one_half_eq, show -((4 : ℝ) + 1) / 2 = -(5 / 2) by norm_num]
  ring

theorem integrable_r2_gauss {a : ℝ} (ha : 0 < a) :
    IntegrableOn (fun r : ℝ => r ^ 2 * exp (-a * r ^ 2)) (Ioi 0) := by
  have h := integrableOn_rpow_mul_exp_neg_mul_sq ha (s := 2) (by norm_num)
  simpa only [rpow_two] using h

theorem integrable_r4_gauss {a : ℝ} (ha : 0 < a) :
    IntegrableOn (fun r : ℝ => r ^ 4 * exp (-a * r ^ 2)) (Ioi 0) := by
  have h := integrableOn_rpow_mul_exp_neg_mul_sq ha (s := 4) (by norm_num)
  simpa only [show ∀ x : ℝ, x ^ (4 : ℝ) = x ^ 4 by intro x; norm_cast] using h

/-- Integral over space of basis function `k` with exponent `a`: one when normalised, else
`(π/a)^{3/2}` (s-type) or `(3/2) π^{3/2} / a^{5/2}` (p-type). -/
def basisVolume (ns : ℕ) (norm : Bool) (k : ℕ) (a : ℝ) : ℝ :=
  if norm then 1 else if k < ns then π ^ (3 / 2 : ℝ) / a ^ (3 / 2 : ℝ)
  else 3 * π ^ (3 / 2 : ℝ) / (2 * a ^ (5 / 2 : ℝ))

theorem pi_rpow_three_half : π ^ (3 / 2 : ℝ) = π * √π := by
  rw [show (3 / 2 : ℝ) = 1 + 1 / 2 by norm_num, rpow_add pi_pos, rpow_one, ← sqrt_eq_rpow]

theorem basisFn_integrable (ns : ℕ) (norm : Bool) (k : ℕ) {a : ℝ} (ha : 0 < a) :
    IntegrableOn (fun r => r ^ 2 * basisFn ns norm k a r) (Ioi 0) := by
  unfold basisFn sBasis pBasis
  by_cases h : k < ns
  · simp only [h, if_true]
    refine ((integrable_r2_gauss ha).const_mul (if norm then (a / π) ^ (3 / 2 : ℝ) else 1)).congr ?_
    filter_upwards with r
    ring
  · simp only [h, if_false]
    refine ((integrable_r4_gauss ha).const_mul
      (if norm then 2 * a ^ (5 / 2 : ℝ) / (3 * π ^ (3 / 2 : ℝ)) else 1)).congr ?_
    filter_upwards with r
    ring

theorem basisFn_integral (ns : ℕ) (norm : Bool) (k : ℕ) {a : ℝ} (ha : 0 < a) :
    4 * π * ∫ r in Ioi (0 : ℝ), r ^ 2 * basisFn ns norm k a r = basisVolume ns norm k a := by
  have hs : 0 < √π := sqrt_pos.mpr pi_pos
  have hpi := pi_pos
  have h3 : 0 < a ^ (3 / 2 : ℝ) := rpow_pos_of_pos ha _
  have h5 : 0 < a ^ (5 / 2 : ℝ) := rpow_pos_of_pos ha _
  have hss : √π * √π = π := mul_self_sqrt hpi.le
  unfold basisFn sBasis pBasis basisVolume
  by_cases h : k < ns
  · simp only [h, if_true]
    have : ∀ r : ℝ, r ^ 2 * ((if norm = true then (a / π) ^ (3 / 2 : ℝ) else 1) * exp (-a * r ^ 2)) =
        (if norm = true then (a / π) ^ (3 / 2 : ℝ) else 1) * (r ^ 2 * exp (-a * r ^ 2)) := by
      intro r; ring
    simp only [this]
    rw [integral_const_mul, integral_r2_gauss ha, rpow_neg ha.le]
    cases norm with
    | true =>
      simp only [if_true]
      rw [div_rpow ha.le hpi.le, pi_rpow_three_half]
      field_simp
    | false =>
      simp only [Bool.false_eq_true, if_false]
      rw [pi_rpow_three_half]
      field_simp
  · simp only [h, if_false]
    have : ∀ r : ℝ, r ^ 2 * ((if norm = true then 2 * a ^ (5 / 2 : ℝ) / (3 * π ^ (3 / 2 : ℝ)) else 1) *
        (r ^ 2 * exp (-a * r ^ 2))) =
        (if norm = true then 2 * a ^ (5 / 2 : ℝ) / (3 * π ^ (3 / 2 : ℝ)) else 1) *
          (r ^ 4 * exp (-a * r ^ 2)) := by
      intro r; ring
    simp only [this]
    rw [integral_const_mul, integral_r4_gauss ha, rpow_neg ha.le]
    cases norm with
    | true =>
      simp only [if_true]
      rw [pi_rpow_three_half]
      field_simp
      norm_num
    | false =>
      simp only [Bool.false_eq_true, if_false]
      rw [pi_rpow_three_half]
      field_simp
      norm_num

theorem atomDensity_integrable (ns np : ℕ) (norm : Bool) (c e : List ℝ)
    (hel : e.length = ns + np) (he : ∀ a ∈ e, 0 < a) :
    IntegrableOn (fun r => r ^ 2 * atomDensity ns np norm c e r) (Ioi 0) := by
  unfold atomDensity
  simp only [Finset.mul_sum]
  refine integrable_finsetSum _ ?_
  intro k hk
  have hk' := Finset.mem_range.mp hk
  have ha : 0 < e.getD k 0 := by
    rw [List.getD_eq_getElem _ _ (by omega)]; exact he _ (List.getElem_mem _)
  refine ((basisFn_integrable ns norm k ha).const_mul (c.getD k 0)).congr ?_
  filter_upwards with r
  ring

theorem atomDensity_integral (ns np : ℕ) (norm : Bool) (c e : List ℝ)
    (hel : e.length = ns + np) (he : ∀ a ∈ e, 0 < a) :
    4 * π * ∫ r in Ioi (0 : ℝ), r ^ 2 * atomDensity ns np norm c e r =
      ∑ k ∈ Finset.range (ns + np), c.getD k 0 * basisVolume ns norm k (e.getD k 0) := by
  have hpos : ∀ k ∈ Finset.range (ns + np), 0 < e.getD k 0 := by
    intro k hk
    have hk' := Finset.mem_range.mp hk
    rw [List.getD_eq_getElem _ _ (by omega)]; exact he _ (List.getElem_mem _)
  have h1 : ∀ r, r ^ 2 * atomDensity ns np norm c e r =
      ∑ k ∈ Finset.range (ns + np), c.getD k 0 * (r ^ 2 * basisFn ns norm k (e.getD k 0) r) := by
    intro r
    unfold atomDensity
    rw [Finset.mul_sum]
    exact Finset.sum_congr rfl fun k _ => by ring
  simp only [h1]
  rw [integral_finsetSum _ fun k hk => (basisFn_integrable ns norm k (hpos k hk)).const_mul _,
    Finset.mul_sum]
  apply Finset.sum_congr rfl
  intro k hk
  rw [integral_const_mul, ← basisFn_integral ns norm k (hpos k hk)]
  ring

theorem sum_getD (c : List ℝ) (n : ℕ) (h : c.length = n) :
    ∑ k ∈ Finset.range n, c.getD k 0 = c.sum := by
  subst h
  induction c with
  | nil => simp
  | cons a c ih =>
    rw [List.length_cons, Finset.sum_range_succ', List.sum_cons, ← ih]
    simp [add_comm]

/-- **C12**.  With `normalize=True` and positive exponents, the function of position whose samples
`evaluate` returns integrates over all of space to the sum of the coefficients (so every basis
function integrates to one); equivalently `4π ∫ r² F(r) dr = Σ c`. -/
theorem C12_normalised {m : Atomic} {rs : List ℝ} {ns np : ℕ} (hm : IsAtom m rs ns np)
    (hn : m.normalized = true) (c e : List ℝ) (hc : c.length = ns + np) (hel : e.length = ns + np)
    (he : ∀ a ∈ e, 0 < a) :
    ∃ F : ℝ → ℝ,
      (∀ (m' : Atomic) (rs' : List ℝ), IsAtom m' rs' ns np → m'.normalized = true →
        ∀ d, ∃ o, m'.evaluate (ND.vec (fins c)) (ND.vec (fins e)) d = .ok (fins (rs'.map F), o)) ∧
      (∃ o, m.evaluate (ND.vec (fins c)) (ND.vec (fins e)) false = .ok (fins (rs.map F), o)) ∧
      (∀ ctr : EuclideanSpace ℝ (Fin 3),
        Integrable (fun x : EuclideanSpace ℝ (Fin 3) => F ‖x - ctr‖) ∧
        ∫ x : EuclideanSpace ℝ (Fin 3), F ‖x - ctr‖ = c.sum) ∧
      4 * π * ∫ r in Ioi (0 : ℝ), r ^ 2 * F r = c.sum := by
  have hI := atomDensity_integral ns np true c e hel he
  have hsum : ∑ k ∈ Finset.range (ns + np), c.getD k 0 * basisVolume ns true k (e.getD k 0) =
      c.sum := by
    rw [← sum_getD c _ hc]
    exact Finset.sum_congr rfl fun k _ => by simp [basisVolume]
  rw [hsum] at hI
  refine ⟨atomDensity ns np true c e, ?_, ?_, ?_, hI⟩
  · intro m' rs' hm' hn' d
    refine ⟨_, hn' ▸ evaluate_fins hm' c e hc hel (fun _ a ha => (he a ha).le) d⟩
  · exact ⟨_, hn ▸ evaluate_fins hm c e hc hel (fun _ a ha => (he a ha).le) false⟩
  · intro ctr
    constructor
    · have := (integrable_radial (atomDensity ns np true c e)).mpr
        (atomDensity_integrable ns np true c e hel he)
      exact this.comp_sub_right ctr
    · rw [integral_sub_right_eq_self (fun x : EuclideanSpace ℝ (Fin 3) =>
        atomDensity ns np true c e ‖x‖) ctr, integral_radial, hI]

/-- **C12** (without normalisation).  The plain basis functions integrate to `(π/a)^{3/2}` and
`(3/2) π^{3/2} b^{-5/2}`. -/
theorem C12_unnormalised {m : Atomic} {rs : List ℝ} {ns np : ℕ} (hm : IsAtom m rs ns np)
    (hn : m.normalized = false) (cs es cp ep : List ℝ) (h1 : cs.length = ns) (h2 : es.length = ns)
    (h3 : cp.length = np) (h4 : ep.length = np) (he : ∀ a ∈ es ++ ep, 0 < a) :
    ∃ F : ℝ → ℝ,
      (∃ o, m.evaluate (ND.vec (fins (cs ++ cp))) (ND.vec (fins (es ++ ep))) false =
        .ok (fins (rs.map F), o)) ∧
      ∫ x : EuclideanSpace ℝ (Fin 3), F ‖x‖ =
        ∑ i ∈ Finset.range ns, cs.getD i 0 * (π / es.getD i 0) ^ (3 / 2 : ℝ) +
        ∑ j ∈ Finset.range np, cp.getD j 0 * (3 / 2 * π ^ (3 / 2 : ℝ) / ep.getD j 0 ^ (5 / 2 : ℝ)) := by
  refine ⟨atomDensity ns np false (cs ++ cp) (es ++ ep), ?_, ?_⟩
  · exact ⟨_, hn ▸ evaluate_fins hm _ _ (by simp [h1, h3]) (by simp [h2, h4])
      (fun _ a ha => (he a ha).le) false⟩
  · rw [integral_radial, atomDensity_integral ns np false _ _ (by simp [h2, h4]) he,
      Finset.sum_range_add]
    congr 1
    · apply Finset.sum_congr rfl
      intro i hi
      have hi' := Finset.mem_range.mp hi
      rw [List.getD_append _ _ _ _ (by omega), List.getD_append _ _ _ _ (by omega)]
      have : 0 < es.getD i 0 := by
        rw [List.getD_eq_getElem _ _ (by omega)]
        exact he _ (List.mem_append_left _ (List.getElem_mem _))
      simp only [basisVolume, hi', Bool.false_eq_true, if_false, if_true]
      rw [div_rpow pi_pos.le this.le]
    · apply Finset.sum_congr rfl
      intro j hj
      rw [List.getD_append_right _ _ _ _ (by omega), List.getD_append_right _ _ _ _ (by omega), h1, h2,
        Nat.add_sub_cancel_left]
      simp only [basisVolume, Bool.false_eq_true, if_false, show ¬ (ns + j < ns) by omega]
      congr 1
      rw [mul_comm (2 : ℝ), ← div_div]
      ring

/-- The hypotheses of C12 are met by the demo atom. -/
example : ∃ F : ℝ → ℝ, (∃ o, (demoAtom true).evaluate (ND.vec (fins [2, 3])) (ND.vec (fins [1, 4]))
    false = .ok (fins [F 0, F 1], o)) ∧ ∫ x : EuclideanSpace ℝ (Fin 3), F ‖x‖ = 5 := by
  obtain ⟨F, _, h, h2, _⟩ := C12_normalised (m := demoAtom true) (rs := [0, 1]) (ns := 1) (np := 1)
    ⟨rfl, rfl, rfl⟩ rfl [2, 3] [1, 4] rfl rfl (by simp)
  refine ⟨F, h, ?_⟩
  have := (h2 0).2
  simp only [sub_zero] at this
  rw [this]
  norm_num

end
end BFit
