import Verif.Props.Slater
import Verif.Props.GaussIntegral

/-! Properties C62 (normalisation) and C67: the Slater functions are normalised, the atomic density
integrates to the number of electrons. -/

namespace BFit

open Real MeasureTheory Set

noncomputable section

theorem integral_pow_exp {a : ℝ} (ha : 0 < a) (k : ℕ) :
    ∫ r in Ioi (0 : ℝ), r ^ k * exp (-a * r) = Nat.factorial k / a ^ (k + 1) := by
  have h := Real.integral_rpow_mul_exp_neg_mul_Ioi (a := (k : ℝ) + 1) (r := a) (by positivity) ha
  rw [Real.Gamma_nat_eq_factorial] at h
  have e : ∀ t : ℝ, t ^ ((k : ℝ) + 1 - 1) * exp (-(a * t)) = t ^ k * exp (-a * t) := by
    intro t
    rw [add_sub_cancel_right, rpow_natCast, neg_mul]
  simp only [e] at h
  rw [h, show ((k : ℝ) + 1) = ((k + 1 : ℕ) : ℝ) by push_cast; ring, rpow_natCast, one_div, inv_pow]
  ring

theorem integrable_pow_exp {a : ℝ} (ha : 0 < a) (k : ℕ) :
    IntegrableOn (fun r : ℝ => r ^ k * exp (-a * r)) (Ioi 0) := by
  have h := integrableOn_rpow_mul_exp_neg_mul_rpow (p := 1) (s := k) (b := a)
    (by have : (0 : ℝ) ≤ k := by positivity
        linarith) one_pos ha
  simpa only [rpow_natCast, rpow_one] using h

/-- Normalisation constant of a Slater function. -/
def slNorm (b : ℝ × ℕ) : ℝ := (2 * b.1) ^ b.2 * sqrt (2 * b.1 / (Nat.factorial (2 * b.2)))

/-- Closed form of the overlap of two Slater functions. -/
def slOverlap (a b : ℝ × ℕ) : ℝ :=
  slNorm a * slNorm b * (Nat.factorial (a.2 + b.2) / (a.1 + b.1) ^ (a.2 + b.2 + 1))

theorem slater_prod (a b : ℝ × ℕ) (ha : 0 < a.1 ∧ 1 ≤ a.2) (hb : 0 < b.1 ∧ 1 ≤ b.2) (r : ℝ) :
    r ^ 2 * (slaterR a.1 a.2 r * slaterR b.1 b.2 r) =
      slNorm a * slNorm b * (r ^ (a.2 + b.2) * exp (-(a.1 + b.1) * r)) := by
  obtain ⟨m, hm⟩ : ∃ m, a.2 = m + 1 := ⟨a.2 - 1, by omega⟩
  obtain ⟨n, hn⟩ : ∃ n, b.2 = n + 1 := ⟨b.2 - 1, by omega⟩
  unfold slaterR slNorm
  rw [show -(a.1 + b.1) * r = -a.1 * r + -b.1 * r by ring, exp_add, hm, hn]
  simp only [Nat.add_sub_cancel]
  ring

theorem overlap_integral (a b : ℝ × ℕ) (ha : 0 < a.1 ∧ 1 ≤ a.2) (hb : 0 < b.1 ∧ 1 ≤ b.2) :
    ∫ r in Ioi (0 : ℝ), r ^ 2 * (slaterR a.1 a.2 r * slaterR b.1 b.2 r) = slOverlap a b := by
  simp only [slater_prod a b ha hb]
  rw [integral_const_mul, integral_pow_exp (add_pos ha.1 hb.1)]
  rfl

theorem overlap_integrable (a b : ℝ × ℕ) (ha : 0 < a.1 ∧ 1 ≤ a.2) (hb : 0 < b.1 ∧ 1 ≤ b.2) :
    IntegrableOn (fun r : ℝ => r ^ 2 * (slaterR a.1 a.2 r * slaterR b.1 b.2 r)) (Ioi 0) := by
  simp only [slater_prod a b ha hb]
  exact (integrable_pow_exp (add_pos ha.1 hb.1) _).const_mul _

theorem slOverlap_self (b : ℝ × ℕ) (hb : 0 < b.1) : slOverlap b b = 1 := by
  unfold slOverlap slNorm
  have h0 : (0 : ℝ) < Nat.factorial (2 * b.2) := by exact_mod_cast Nat.factorial_pos _
  rw [show b.2 + b.2 = 2 * b.2 by ring, show b.1 + b.1 = 2 * b.1 by ring]
  have h1 : sqrt (2 * b.1 / (Nat.factorial (2 * b.2))) * sqrt (2 * b.1 / (Nat.factorial (2 * b.2))) =
      2 * b.1 / (Nat.factorial (2 * b.2)) := mul_self_sqrt (by positivity)
  have h2 : (2 * b.1) ^ b.2 * (2 * b.1) ^ b.2 = (2 * b.1) ^ (2 * b.2) := by rw [← pow_add]; ring_nf
  calc _ = ((2 * b.1) ^ b.2 * (2 * b.1) ^ b.2) * (sqrt (2 * b.1 / (Nat.factorial (2 * b.2))) *
        sqrt (2 * b.1 / (Nat.factorial (2 * b.2)))) *
        (Nat.factorial (2 * b.2) / (2 * b.1) ^ (2 * b.2 + 1)) := by ring
    _ = 1 := by
      rw [h1, h2, pow_succ]
      field_simp

/-- Each function computed by `radial_slater_orbital` is normalised: `∫ r² R(r)² dr = 1`. -/
theorem C62_normalised (z : ℝ) (n : ℕ) (hz : 0 < z) (hn : 1 ≤ n) :
    ∃ g : ℝ → ℝ, (∀ r : ℝ, radialSlater [XR.fin z] [n] (ND.vec [XR.fin r]) = .ok [[XR.fin (g r)]]) ∧
      IntegrableOn (fun r => r ^ 2 * g r ^ 2) (Ioi 0) ∧ ∫ r in Ioi (0 : ℝ), r ^ 2 * g r ^ 2 = 1 := by
  refine ⟨slaterR z n, fun r => ?_, ?_, ?_⟩
  · exact radialSlater_fins [(z, n)] (by simp [hz, hn]) [r]
  · have := overlap_integrable (z, n) (z, n) ⟨hz, hn⟩ ⟨hz, hn⟩
    simpa only [sq (slaterR z n _)] using this
  · have := overlap_integral (z, n) (z, n) ⟨hz, hn⟩ ⟨hz, hn⟩
    rw [slOverlap_self _ hz] at this
    simpa only [sq (slaterR z n _)] using this

/-! ### Orbitals -/

/-- `Σ_jk c_j c_k S_jk` with the closed form of the overlap. -/
def normSq (bs : List (ℝ × ℕ)) (c : List ℝ) : ℝ :=
  (List.zipWith (fun a x => (List.zipWith (fun b y => x * y * slOverlap a b) bs c).sum) bs c).sum

theorem cross_integral (a : ℝ × ℕ) (ha : 0 < a.1 ∧ 1 ≤ a.2) (x : ℝ) (bs : List (ℝ × ℕ)) (c : List ℝ)
    (hb : ∀ b ∈ bs, 0 < b.1 ∧ 1 ≤ b.2) :
    IntegrableOn (fun r : ℝ => r ^ 2 * (x * slaterR a.1 a.2 r * orbR bs c r)) (Ioi 0) ∧
    ∫ r in Ioi (0 : ℝ), r ^ 2 * (x * slaterR a.1 a.2 r * orbR bs c r) =
      (List.zipWith (fun b y => x * y * slOverlap a b) bs c).sum := by
  induction bs generalizing c with
  | nil => simp [orbR]
  | cons b bs ih =>
    cases c with
    | nil => simp [orbR]
    | cons y c =>
      obtain ⟨i1, i2⟩ := ih c (fun b' h' => hb b' (by simp [h']))
      have hb0 := hb b (by simp)
      have j1 := (overlap_integrable a b ha hb0).const_mul (x * y)
      have e : ∀ r : ℝ, r ^ 2 * (x * slaterR a.1 a.2 r * orbR (b :: bs) (y :: c) r) =
          x * y * (r ^ 2 * (slaterR a.1 a.2 r * slaterR b.1 b.2 r)) +
            r ^ 2 * (x * slaterR a.1 a.2 r * orbR bs c r) := by
        intro r
        simp only [orbR, List.map_cons, wsum_cons]
        ring
      simp only [e]
      refine ⟨j1.add i1, ?_⟩
      rw [integral_add j1 i1, i2, integral_const_mul, overlap_integral a b ha hb0]
      simp

theorem orb_integral_aux (as : List (ℝ × ℕ)) (d : List ℝ) (ha : ∀ b ∈ as, 0 < b.1 ∧ 1 ≤ b.2)
    (bs : List (ℝ × ℕ)) (c : List ℝ) (hb : ∀ b ∈ bs, 0 < b.1 ∧ 1 ≤ b.2) :
    IntegrableOn (fun r : ℝ => r ^ 2 * (orbR as d r * orbR bs c r)) (Ioi 0) ∧
    ∫ r in Ioi (0 : ℝ), r ^ 2 * (orbR as d r * orbR bs c r) =
      (List.zipWith (fun a x => (List.zipWith (fun b y => x * y * slOverlap a b) bs c).sum) as d).sum := by
  induction as generalizing d with
  | nil => simp [orbR]
  | cons a as ih =>
    cases d with
    | nil => simp [orbR]
    | cons x d =>
      obtain ⟨i1, i2⟩ := ih d (fun b' h' => ha b' (by simp [h']))
      obtain ⟨j1, j2⟩ := cross_integral a (ha a (by simp)) x bs c hb
      have e : ∀ r : ℝ, r ^ 2 * (orbR (a :: as) (x :: d) r * orbR bs c r) =
          r ^ 2 * (x * slaterR a.1 a.2 r * orbR bs c r) + r ^ 2 * (orbR as d r * orbR bs c r) := by
        intro r
        simp only [orbR, List.map_cons, wsum_cons]
        ring
      simp only [e]
      refine ⟨j1.add i1, ?_⟩
      rw [integral_add j1 i1, i2, j2]
      simp

/-- Norm of an orbital. -/
theorem orb_integral (bs : List (ℝ × ℕ)) (c : List ℝ) (hb : ∀ b ∈ bs, 0 < b.1 ∧ 1 ≤ b.2) :
    IntegrableOn (fun r : ℝ => r ^ 2 * orbR bs c r ^ 2) (Ioi 0) ∧
    ∫ r in Ioi (0 : ℝ), r ^ 2 * orbR bs c r ^ 2 = normSq bs c := by
  have := orb_integral_aux bs c hb bs c hb
  simpa only [sq (orbR bs c _), normSq] using this

theorem dens_integral (os : List Orb) (basis : Sub → List (ℝ × ℕ)) (c : Orb → List ℝ) (w : List ℝ)
    (hb : ∀ o ∈ os, ∀ b ∈ basis o.sub, 0 < b.1 ∧ 1 ≤ b.2) :
    IntegrableOn (fun r : ℝ => r ^ 2 * densR os basis c w r) (Ioi 0) ∧
    4 * π * ∫ r in Ioi (0 : ℝ), r ^ 2 * densR os basis c w r =
      wsum (os.map fun o => normSq (basis o.sub) (c o)) w := by
  have key : IntegrableOn (fun r : ℝ => r ^ 2 * wsum (os.map fun o => orbR (basis o.sub) (c o) r ^ 2) w)
      (Ioi 0) ∧ ∫ r in Ioi (0 : ℝ), r ^ 2 * wsum (os.map fun o => orbR (basis o.sub) (c o) r ^ 2) w =
      wsum (os.map fun o => normSq (basis o.sub) (c o)) w := by
    induction os generalizing w with
    | nil => simp
    | cons o os ih =>
      cases w with
      | nil => simp
      | cons n w =>
        obtain ⟨i1, i2⟩ := ih w (fun o' h' => hb o' (by simp [h']))
        obtain ⟨j1, j2⟩ := orb_integral (basis o.sub) (c o) (hb o (by simp))
        have j1' := j1.mul_const n
        have e : ∀ r : ℝ, r ^ 2 * wsum ((o :: os).map fun o => orbR (basis o.sub) (c o) r ^ 2) (n :: w) =
            r ^ 2 * orbR (basis o.sub) (c o) r ^ 2 * n +
              r ^ 2 * wsum (os.map fun o => orbR (basis o.sub) (c o) r ^ 2) w := by
          intro r
          simp only [List.map_cons, wsum_cons]
          ring
        simp only [e]
        refine ⟨j1'.add i1, ?_⟩
        rw [integral_add j1' i1, i2, integral_mul_const, j2]
        simp
  have e : ∀ r : ℝ, r ^ 2 * densR os basis c w r =
      r ^ 2 * wsum (os.map fun o => orbR (basis o.sub) (c o) r ^ 2) w * (4 * π)⁻¹ := by
    intro r
    unfold densR
    ring
  simp only [e]
  refine ⟨key.1.mul_const _, ?_⟩
  rw [integral_mul_const, key.2]
  field_simp

/-- If every orbital has unit norm for the overlap of the Slater functions, the total density
integrates over space to the sum of the occupations; in general to `Σ n_i ‖φ_i‖²`. -/
theorem C67_electrons {A : SlaterAtom} {basis : Sub → List (ℝ × ℕ)} {c : Orb → List ℝ} {occ en : List ℝ}
    (h : IsSlater A basis c occ en) :
    ∃ t : ℝ → ℝ,
      (∀ x : List ℝ, A.atomicDensity (ND.vec (fins x)) "total" = .ok (fins (x.map t))) ∧
      IntegrableOn (fun r => 4 * π * r ^ 2 * t r) (Ioi 0) ∧
      ((∀ o ∈ A.orbitals, ∫ r in Ioi (0 : ℝ), r ^ 2 * orbR (basis o.sub) (c o) r ^ 2 =
        normSq (basis o.sub) (c o)) ∧
      ((∀ o ∈ A.orbitals, normSq (basis o.sub) (c o) = 1) →
        ∫ r in Ioi (0 : ℝ), 4 * π * r ^ 2 * t r = occ.sum ∧
        ∫ p : EuclideanSpace ℝ (Fin 3), t ‖p‖ = occ.sum)) := by
  obtain ⟨i1, i2⟩ := dens_integral A.orbitals basis c occ h.pos
  have e : ∀ r : ℝ, 4 * π * r ^ 2 * densR A.orbitals basis c occ r =
      4 * π * (r ^ 2 * densR A.orbitals basis c occ r) := fun r => by ring
  refine ⟨_, atomicDensity_total h, ?_, fun o ho => (orb_integral _ _ (h.pos o ho)).2, fun hn => ?_⟩
  · simp only [e]
    exact i1.const_mul _
  · have hs : wsum (A.orbitals.map fun o => normSq (basis o.sub) (c o)) occ = occ.sum := by
      have hl := h.occ_len
      clear i1 i2 e h
      generalize A.orbitals = os at hn hl
      induction os generalizing occ with
      | nil =>
        rw [List.length_eq_zero_iff.mp hl]
        simp
      | cons o os ih =>
        cases occ with
        | nil => simp at hl
        | cons n occ =>
          rw [List.map_cons, wsum_cons, hn o (by simp), ih (fun o' h' => hn o' (by simp [h']))
            (by simpa using hl)]
          simp
    constructor
    · simp only [e]
      rw [integral_const_mul, i2, hs]
    · rw [integral_radial, i2, hs]

/-- Two functions `1s` with exponents 1 and 2, mixed with equal coefficients of unit norm. -/
example : let s := slOverlap (1, 1) (2, 1)
    normSq [(1, 1), (2, 1)] [1 / sqrt (2 + 2 * s), 1 / sqrt (2 + 2 * s)] = 1 := by
  intro s
  have hs : 0 ≤ s := by
    unfold s slOverlap slNorm
    positivity
  have hs' : slOverlap (2, 1) (1, 1) = s := by
    unfold s slOverlap
    norm_num
    ring
  have h1 : slOverlap (1, 1) (1, 1) = 1 := slOverlap_self _ (by norm_num)
  have h2 : slOverlap (2, 1) (2, 1) = 1 := slOverlap_self _ (by norm_num)
  have hq : 1 / sqrt (2 + 2 * s) * (1 / sqrt (2 + 2 * s)) = 1 / (2 + 2 * s) := by
    rw [div_mul_div_comm, mul_self_sqrt (by positivity), one_mul]
  simp only [normSq, List.zipWith_cons_cons, List.zipWith_nil_right, List.sum_cons, List.sum_nil, h1,
    h2, hs', hq, add_zero]
  change 1 / (2 + 2 * s) * 1 + 1 / (2 + 2 * s) * s + (1 / (2 + 2 * s) * s + 1 / (2 + 2 * s) * 1) = 1
  field_simp
  ring

end
end BFit
