import Verif.Props.RoundGood
import Mathlib.Analysis.Complex.ExponentialBounds

/-!
C126: the divergence reported by the fixed-point iteration decreases up to rounding errors.
-/

namespace BFit

open Real Classical Finset

noncomputable section

section
variable {u : ℝ} (h0 : 0 ≤ u) (h1 : u < 1)
include h0 h1

/-- Basis functions of exponents with relative errors. -/
theorem bf_perturb {k : ℕ} {e e' r X : ℝ} (isS : Bool) (he : 0 < e) (h : Rel u k e' e) (hX : e' * r ^ 2 ≤ X) :
    bf isS true e r ≤ exp (3 * k * -Real.log (1 - u) + (1 / (1 - u) ^ k - 1) * X) * bf isS true e' r := by
  have he' : 0 < e' := h.pos h0 h1 he
  have hlog := h.log_sub h0 h1 he
  have hk : 0 < (1 - u) ^ k := pow_pos (by linarith) k
  have hgam : 0 ≤ 1 / (1 - u) ^ k - 1 := by
    have := gamma_mono h0 h1 (Nat.zero_le k)
    simpa using this
  have hX0 : 0 ≤ X := le_trans (by positivity) hX
  have hl : 0 ≤ k * -Real.log (1 - u) := (abs_nonneg _).trans hlog
  have hd : (e' - e) * r ^ 2 ≤ (1 / (1 - u) ^ k - 1) * X := by
    have h2 := (h.symm h0 h1).abs_sub h0 h1
    rw [abs_of_pos he', abs_sub_comm] at h2
    have h3 := (le_abs_self _).trans h2
    have h4 := mul_le_mul_of_nonneg_right h3 (sq_nonneg r)
    have h5 := mul_le_mul_of_nonneg_left hX hgam
    linarith
  have hexp : exp (-e * r ^ 2) ≤ exp ((1 / (1 - u) ^ k - 1) * X) * exp (-e' * r ^ 2) := by
    rw [← exp_add, exp_le_exp]
    linarith
  have hpow : ∀ p : ℝ, 0 ≤ p → p ≤ 3 → e ^ p ≤ exp (3 * k * -Real.log (1 - u)) * e' ^ p := by
    intro p hp hp3
    rw [rpow_def_of_pos he, rpow_def_of_pos he', ← exp_add, exp_le_exp]
    have h2 : Real.log e - Real.log e' ≤ k * -Real.log (1 - u) := by
      have := (abs_le.mp hlog).1
      linarith
    nlinarith [mul_le_mul_of_nonneg_right h2 hp]
  have hpi : ∀ p : ℝ, 0 < π ^ p := fun p => rpow_pos_of_pos pi_pos p
  unfold bf
  cases isS
  · simp only [Bool.false_eq_true, if_false, pBasis, if_true]
    have h2 := hpow (5 / 2) (by norm_num) (by norm_num)
    have h3 : 2 * e ^ (5 / 2 : ℝ) / (3 * π ^ (3 / 2 : ℝ)) ≤
        exp (3 * k * -Real.log (1 - u)) * (2 * e' ^ (5 / 2 : ℝ) / (3 * π ^ (3 / 2 : ℝ))) := by
      rw [← mul_div_assoc]
      refine div_le_div_of_nonneg_right ?_ (by have := hpi (3 / 2); positivity)
      linarith
    have h4 := mul_le_mul_of_nonneg_left hexp (sq_nonneg r)
    have h5 := mul_le_mul h3 h4 (by positivity) (by have := hpi (3 / 2); positivity)
    rw [exp_add]
    refine h5.trans (le_of_eq ?_)
    ring
  · simp only [if_true, sBasis]
    have h2 := hpow (3 / 2) (by norm_num) (by norm_num)
    have h3 : (e / π) ^ (3 / 2 : ℝ) ≤ exp (3 * k * -Real.log (1 - u)) * (e' / π) ^ (3 / 2 : ℝ) := by
      rw [div_rpow he.le pi_pos.le, div_rpow he'.le pi_pos.le, ← mul_div_assoc]
      exact div_le_div_of_nonneg_right h2 (hpi _).le
    have h5 := mul_le_mul h3 hexp (by positivity) (by positivity)
    rw [exp_add]
    refine h5.trans (le_of_eq ?_)
    ring

/-- The model density at parameters with relative errors. -/
theorem dens_perturb {S : Shape} {j k : ℕ} {c c' e e' : ℕ → ℝ} {i : ℕ} {X : ℝ} (hc : ∀ b < S.nb, 0 ≤ c b)
    (he : ∀ b < S.nb, 0 < e b) (hcr : ∀ b < S.nb, Rel u j (c' b) (c b)) (her : ∀ b < S.nb, Rel u k (e' b) (e b))
    (hX : ∀ b < S.nb, e' b * S.rad b i ^ 2 ≤ X) :
    S.dens true c e i ≤
      exp ((j + 3 * k : ℕ) * -Real.log (1 - u) + (1 / (1 - u) ^ k - 1) * X) * S.dens true c' e' i := by
  unfold Shape.dens
  rw [mul_sum]
  refine sum_le_sum fun b hb => ?_
  have hb := mem_range.mp hb
  have h2 := bf_perturb h0 h1 (S.isS b) (he b hb) (her b hb) (hX b hb)
  have hj : 0 < (1 - u) ^ j := pow_pos (by linarith) j
  have h3 : c b ≤ exp (j * -Real.log (1 - u)) * c' b := by
    have := ((hcr b hb).bounds h0 h1 (hc b hb)).1
    have e1 : exp (j * -Real.log (1 - u)) = 1 / (1 - u) ^ j := by
      rw [mul_neg, exp_neg, ← log_pow, exp_log hj, one_div]
    rw [e1, one_div, ← div_eq_inv_mul, le_div_iff₀ hj]
    exact this
  have h4 := mul_le_mul h3 h2 (bf_nonneg _ _ (he b hb).le)
    (mul_nonneg (exp_pos _).le ((hcr b hb).nonneg h0 h1 (hc b hb)))
  refine h4.trans (le_of_eq ?_)
  have : exp ((j + 3 * k : ℕ) * -Real.log (1 - u) + (1 / (1 - u) ^ k - 1) * X) =
      exp (j * -Real.log (1 - u)) * exp (3 * k * -Real.log (1 - u) + (1 / (1 - u) ^ k - 1) * X) := by
    rw [← exp_add]
    congr 1
    push_cast
    ring
  rw [this]
  ring

end

/-- The integral of the absolute integrand is not negative. -/
theorem kl_abs_nonneg {F : Fit} {S : Shape} {N : ℕ} {W f : ℕ → ℝ} {μ A : ℝ} (h : FitData F true S N W f)
    (hW : ∀ i < N, 0 ≤ W i) (hμ : F.maskValue = XR.fin μ) (hf : ∀ i < N, 0 < f i) {c e g k : List ℝ}
    (hc : c.length = S.nb) (he : e.length = S.nb) (hcn : ∀ a ∈ c, 0 ≤ a) (hep : ∀ a ∈ e, 0 < a)
    (hg : F.model.evaluate (fins c) (fins e) false = .ok (fins g, none))
    (hk : F.klError.evaluate (.arr (ND.vec F.density)) (.arr (ND.vec (fins g))) (.bool false) = .ok (fins k, none))
    (hA : F.integrate (fins (k.map fun a => |a|)) = .ok (XR.fin A)) : 0 ≤ A := by
  have hkl : F.klError = ⟨XR.fin μ, XR.fin 100000⟩ := by simp [Fit.klError, hμ]
  rw [h.model.eval c e false hc he fun _ a ha => (hep a ha).le] at hg
  injection hg with hg
  injection hg with hg
  have hg := fins_injective hg
  subst hg
  rw [h.dens, kl_evaluate_vec _ _ _ (by simp), hkl] at hk
  injection hk with hk
  have hk := congrArg Prod.fst hk
  rw [kl_core_tab μ _ N f _ hf (fun i _ => dens_nonneg (vec_of_mem hc hcn)
    (fun b hb => (vec_of_mem he hep b hb).le) i) false] at hk
  have hk := fins_injective hk
  subst hk
  rw [Fit.integrate, tab, List.map_map, show List.map _ (List.range N) = tab N _ from rfl, h.quad.fin] at hA
  injection hA with hA
  injection hA with hA
  rw [← hA]
  exact sum_nonneg fun i hi => mul_nonneg (hW i (mem_range.mp hi)) (abs_nonneg _)

/-- **C126** (descent up to rounding).  Let one update of all parameters be computed with rounding from coefficients whose
sum is at most the target up to the error of an update (C114), and let `goodness_of_fit` be computed with rounding before
and after.  If nothing is masked, the reported divergence increases at most by the errors of the two reported numbers
(C125, `err A` with the integral `A` of the absolute integrand) and by `(κ + δ)` times the integral `D` of the density,
where `κ` and `δ` are the errors of the update, of the order of `(N + n + J²) u`. -/
theorem C126_descent {u : ℝ} (h0 : 0 ≤ u) (hu : u ≤ 1 / 10) {F : FPI} {S : Shape} {N : ℕ} {W f : ℕ → ℝ} {μ T : ℝ}
    (h : IsFPI F true S N W f μ T) (hg : F.grid.Positive) (hN : N = F.grid.len) (hW : ∀ i < N, 0 ≤ W i)
    (hT : 0 < T) (hs : S.Sees N W f) (hf : ∀ i < N, 0 < f i ∧ μ ≤ f i) (c e : List ℝ) (hc : c.length = S.nb)
    (he : e.length = S.nb) (hcn : ∀ a ∈ c, 0 ≤ a) (hep : ∀ a ∈ e, 0 < a)
    (hsum : c.sum * (1 - u) ^ (2 * N + S.nb + 21) ≤ T) (hun : S.AllUnmasked true N μ f c e) {J : ℕ}
    (hJ : ∀ k < S.nb, ∀ i < N, 3 * (vec e k * S.rad k i ^ 2) ≤ J) {l κ δ : ℝ} {err : ℝ → ℝ → ℝ}
    (hl : l = -((J + S.nb + 11 : ℕ) * log (1 - u)))
    (herr : ∀ A D, err A D = (1 / (1 - u) ^ (N + 9) - 1) * (A + l * D) + l * D)
    (hκ : κ = (8 * N + 7 * S.nb + 14 * J + 239 : ℕ) * -log (1 - u) +
      (1 / (1 - u) ^ (2 * N + 2 * S.nb + 4 * J + 66) - 1) * (J / 3))
    (hδ : δ = 1 / (1 - u) ^ (2 * N + S.nb + 21) - 1) :
    ∃ c₁ e₁ : List ℝ, F.updateParams (fins c) (fins e) true true = .ok (fins c₁, fins e₁) ∧
      ∀ (lm : ℝ) (φ φ₁ φ₂ : ℕ → ℕ → ℝ) (c' e' : List ℝ) (v v' : ℕ → ℝ), RMultiplier u 0 F.grid F.spherical f T lm →
        (∀ i < N, ∀ k < S.nb, RBasis u 0 (S.isS k) true (vec e k) (S.rad k i) (φ i k)) →
        (∀ i < N, ∀ k < S.nb, RBasis u 0 (S.isS k) true (vec e k) (S.rad k i) (φ₁ i k)) →
        (∀ i < N, ∀ k < S.nb, RBasis u 0 (S.isS k) true (vec e' k) (S.rad k i) (φ₂ i k)) →
        c'.length = S.nb → e'.length = S.nb →
        ∀ (U : RUpdate u 0 F.grid F.spherical N S.nb f μ lm φ S.rad
            (fun k => if S.isS k then 3 / 2 else 5 / 2) (vec c) (vec c') (vec e'))
          (R : RGoodness u 0 F.grid F.spherical N S.nb f μ φ₁ (vec c) (v 0) (v 1) (v 2) (v 3) (v 4))
          (R' : RGoodness u 0 F.grid F.spherical N S.nb f μ φ₂ (vec c') (v' 0) (v' 1) (v' 2) (v' 3) (v' 4)),
          (∀ i < N, μ < U.m i ∧ U.z i < U.m i) → (∀ i < N, μ < R.m i ∧ R.z i < R.m i) →
          (∀ i < N, μ < R'.m i ∧ R'.z i < R'.m i) → S.AllUnmasked true N μ f c₁ e₁ → S.AllUnmasked true N μ f c' e' →
          (∀ k < S.nb, ∀ i < N, 3 * (vec e' k * S.rad k i ^ 2) ≤ J) →
          ∃ (A A' D : ℝ) (g g' k k' : List ℝ),
            F.model.evaluate (fins c) (fins e) false = .ok (fins g, none) ∧
            F.model.evaluate (fins c') (fins e') false = .ok (fins g', none) ∧
            F.klError.evaluate (.arr (ND.vec F.density)) (.arr (ND.vec (fins g))) (.bool false) = .ok (fins k, none) ∧
            F.klError.evaluate (.arr (ND.vec F.density)) (.arr (ND.vec (fins g'))) (.bool false) = .ok (fins k', none) ∧
            F.integrate (fins (k.map fun a => |a|)) = .ok (XR.fin A) ∧
            F.integrate (fins (k'.map fun a => |a|)) = .ok (XR.fin A') ∧
            F.integrate F.density = .ok (XR.fin D) ∧ 0 ≤ A ∧ 0 ≤ A' ∧ 0 ≤ D ∧
            v' 4 ≤ v 4 + err A D + err A' D + (κ + δ) * D := by
  have h1 : u < 1 := by linarith
  have hN0 : 0 < N := hs.pos h.data.model.nb_pos
  obtain ⟨c₁, e₁, k1, k2⟩ := C115_update h0 hu h hg hN hW hT hs c e hc he hcn hep hun hJ
  obtain ⟨c₂, e₂, d1, d2, d3, d4, d5, d6, d7, d8, -⟩ :=
    fpi_descent h hW hT hs hf c e hc he hcn hep hun true true (Or.inl rfl)
  rw [k1] at d1
  injection d1 with d1
  injection d1 with d1 d1'
  obtain rfl := fins_injective d1
  obtain rfl := fins_injective d1'
  refine ⟨c₁, e₁, k1, ?_⟩
  intro lm φ φ₁ φ₂ c' e' v v' hlm hφ hφ₁ hφ₂ hc' he' U R R' hmU hmR hmR' hun₁ hun' hJ'
  have k2 := k2 lm φ (vec c') (vec e') hlm hφ U hmU
  have hc₁ := vec_of_mem d2 d4
  have he₁ := vec_of_mem d3 d5
  have rc : ∀ b < S.nb, Rel u (2 * N + S.nb + 2 * J + 41) (vec c' b) (vec c₁ b) := fun b hb =>
    Rel.of_bounds h0 h1 (hc₁ b hb) (k2 b hb).1.1 (k2 b hb).1.2
  have re : ∀ b < S.nb, Rel u (2 * N + 2 * S.nb + 4 * J + 66) (vec e' b) (vec e₁ b) := fun b hb =>
    Rel.of_bounds h0 h1 (he₁ b hb).le (k2 b hb).2.1 (k2 b hb).2.2
  have hcn' : ∀ a ∈ c', 0 ≤ a := mem_of_vec hc' fun b hb => (rc b hb).nonneg h0 h1 (hc₁ b hb)
  have hep' : ∀ a ∈ e', 0 < a := mem_of_vec he' fun b hb => (re b hb).pos h0 h1 (he₁ b hb)
  obtain ⟨I, L, M, Q, K, A, D, P, g, k, a1, a2, a3, a4, a5, -, a6⟩ := C125_goodness h0 hu h.data hN0 hg hN hW h.mask
    (fun i hi => (hf i hi).1) c e hc he hcn (fun a ha => (hep a ha).le) hJ rfl hl
  obtain ⟨I', L', M', Q', K', A', D', P', g', k', b1, b2, b3, b4, b5, -, b6⟩ := C125_goodness h0 hu h.data hN0 hg hN hW
    h.mask (fun i hi => (hf i hi).1) c' e' hc' he' hcn' (fun a ha => (hep' a ha).le) hJ' rfl hl
  have hD : D = ∑ i ∈ range N, W i * f i := by
    rw [Fit.integrate, h.data.dens, h.data.quad.fin f] at a5
    injection a5 with a5
    injection a5 with a5
    exact a5.symm
  rw [a5] at b5
  injection b5 with b5
  injection b5 with b5
  subst b5
  have hD0 : 0 ≤ D := hD ▸ sum_nonneg fun i hi => mul_nonneg (hW i (mem_range.mp hi)) (hf i (mem_range.mp hi)).1.le
  refine ⟨A, A', D, g, g', k, k', a2, b2, a3, b3, a4, b4, a5,
    kl_abs_nonneg h.data hW h.mask (fun i hi => (hf i hi).1) hc he hcn hep a2 a3 a4,
    kl_abs_nonneg h.data hW h.mask (fun i hi => (hf i hi).1) hc' he' hcn' hep' b2 b3 b4, hD0, ?_⟩
  have hev : ∀ (c e g : List ℝ), c.length = S.nb → e.length = S.nb → (∀ a ∈ e, 0 < a) →
      F.model.evaluate (fins c) (fins e) false = .ok (fins g, none) →
      ∀ i < N, vec g i = S.dens true (vec c) (vec e) i := by
    intro c e g hc he hep hg i hi
    rw [h.data.model.eval c e false hc he fun _ a ha => (hep a ha).le] at hg
    injection hg with hg
    injection hg with hg
    rw [← fins_injective hg, vec_tab hi]
  have hK : ∀ (c e : List ℝ) (I L M Q K : ℝ), c.length = S.nb → e.length = S.nb → (∀ a ∈ c, 0 ≤ a) → (∀ a ∈ e, 0 < a) →
      F.goodness (fins c) (fins e) = .ok ⟨XR.fin I, XR.fin L, XR.fin M, XR.fin Q, XR.fin K⟩ →
      K = klTotal S N W f μ c e := by
    intro c e I L M Q K hc he hcn hep hk
    obtain ⟨p, p1, p2⟩ := goodness_klTotal h.data hN0 h.mask (fun i hi => (hf i hi).1) c e hc he hcn hep
    rw [hk] at p1
    injection p1 with p1
    subst p1
    exact XR.fin_inj.mp p2
  have q1 := hK c e I L M Q K hc he hcn hep a1
  have q2 := hK c' e' I' L' M' Q' K' hc' he' hcn' hep' b1
  obtain ⟨-, -, -, -, a7, -⟩ := a6 φ₁ (v 0) (v 1) (v 2) (v 3) (v 4) hφ₁ R
  obtain ⟨-, -, -, -, b7, -⟩ := b6 φ₂ (v' 0) (v' 1) (v' 2) (v' 3) (v' 4) hφ₂ R'
  have a8 := abs_le.mp (a7 fun i hi => ⟨fun _ => by rw [hev c e g hc he hep a2 i hi]; exact hun i hi, fun _ => hmR i hi⟩)
  have b8 := abs_le.mp (b7 fun i hi =>
    ⟨fun _ => by rw [hev c' e' g' hc' he' hep' b2 i hi]; exact hun' i hi, fun _ => hmR' i hi⟩)
  rw [← herr] at a8 b8
  -- the computed parameters against the exact ones
  have r1 : klTotal S N W f μ c' e' ≤ klTotal S N W f μ c₁ e₁ + κ * D := by
    unfold klTotal
    rw [hD, mul_sum, ← sum_add_distrib]
    refine sum_le_sum fun i hi => ?_
    have hi := mem_range.mp hi
    rw [klVal_unmasked (hun' i hi), klVal_unmasked (hun₁ i hi), klInt, klInt]
    have f0 := (hf i hi).1
    have g1 := unmasked_pos f0.le (hun₁ i hi)
    have g2 := unmasked_pos f0.le (hun' i hi)
    have hp := dens_perturb h0 h1 (i := i) (X := J / 3) hc₁ he₁ rc re fun b hb => by
      have := hJ' b hb i hi
      linarith
    rw [show 2 * N + S.nb + 2 * J + 41 + 3 * (2 * N + 2 * S.nb + 4 * J + 66) = 8 * N + 7 * S.nb + 14 * J + 239 by ring,
      ← hκ] at hp
    have hlg := log_le_log g1 hp
    rw [log_mul (exp_pos κ).ne' g2.ne', log_exp] at hlg
    rw [log_div f0.ne' g2.ne', log_div f0.ne' g1.ne']
    have := mul_le_mul_of_nonneg_left (mul_le_mul_of_nonneg_left hlg f0.le) (hW i hi)
    linarith
  -- the exact step
  have r2 : klTotal S N W f μ c₁ e₁ ≤ klTotal S N W f μ c e + δ * D := by
    rw [d6 rfl, ← hD] at d8
    have hk : 0 < (1 - u) ^ (2 * N + S.nb + 21) := pow_pos (by linarith) _
    have h2 : c.sum ≤ T * (1 + δ) := by
      rw [hδ, add_sub_cancel, mul_one_div, le_div_iff₀ hk]
      exact hsum
    have h3 := mul_le_mul_of_nonneg_left h2 (div_nonneg hD0 hT.le)
    have h4 : D / T * (T * (1 + δ)) = D / T * T + δ * D := by field_simp
    linarith
  linarith [a8.1, b8.2]

/-- **C126** (exact arithmetic).  An update without rounding is admissible for every accuracy: it is an execution with the
exact parameters as result, in which the exact model values are compared with the mask. -/
theorem C126_exact {u : ℝ} (h0 : 0 ≤ u) {F : FPI} {S : Shape} {N : ℕ} {W f : ℕ → ℝ} {μ T : ℝ}
    (h : IsFPI F true S N W f μ T) (hg : F.grid.Finite) (hN : N = F.grid.len) (hW : ∀ i < N, 0 ≤ W i)
    (hp : F.spherical = true → ∃ g, F.grid = .radial g) (hs : S.Sees N W f) (c e : List ℝ) (hc : c.length = S.nb)
    (he : e.length = S.nb) (hcn : ∀ a ∈ c, 0 ≤ a) (hep : ∀ a ∈ e, 0 < a) :
    ∃ (c₁ e₁ : List ℝ) (lm : ℝ) (φ : ℕ → ℕ → ℝ), F.updateParams (fins c) (fins e) true true = .ok (fins c₁, fins e₁) ∧
      c₁.length = S.nb ∧ e₁.length = S.nb ∧ RMultiplier u 0 F.grid F.spherical f T lm ∧
      (∀ i < N, ∀ k < S.nb, RBasis u 0 (S.isS k) true (vec e k) (S.rad k i) (φ i k)) ∧
      ∃ U : RUpdate u 0 F.grid F.spherical N S.nb f μ lm φ S.rad
          (fun k => if S.isS k then 3 / 2 else 5 / 2) (vec c) (vec c₁) (vec e₁), ∀ g : List ℝ,
        F.model.evaluate (fins c) (fins e) false = .ok (fins g, none) →
          ∀ i < N, (μ < U.m i ∧ U.z i < U.m i) ↔ Unmasked μ (f i) (vec g i) := by
  have hcv := vec_of_mem hc hcn
  have hev := vec_of_mem he hep
  have hA : ∀ k < S.nb, 0 < fpiA S true N W (S.ratio true μ f (vec c) (vec e)) (vec e) k ∧
      0 < fpiA2 S true N W (S.ratio true μ f (vec c) (vec e)) (vec e) k := fun k hk =>
    fpiA_pos hs hW (fun i hi => ratio_nonneg (h.f_nonneg i hi)) (fun i _ => ratio_pos) hk (hev k hk)
  have hI : ∀ y : ℕ → ℝ, RIntegrate u 0 F.grid F.spherical y (∑ i ∈ range N, W i * y i) := by
    intro y
    obtain ⟨I, k1, k2, -⟩ := RIntegrate.exact (τ := 0) h0 hg F.spherical hp y
    rw [← hN, h.data.quad.fin] at k1
    injection k1 with k1
    injection k1 with k1
    rwa [← k1] at k2
  refine ⟨_, _, _, fun i k => bf (S.isS k) true (vec e k) (S.rad k i),
    updateParams_fins h.data h.mask h.lm h.lm_ne h.f_nonneg c e hc he
      (fun _ a ha => (hep a ha).le) (fun i _ => dens_nonneg hcv (fun k hk => (hev k hk).le) i) true true (Or.inl rfl)
      (fun _ k hk => (hA k hk).2.ne'), by simp [tab], by simp [tab], ⟨_, hI f, Fu.refl h0 _⟩,
    fun i _ k _ => RBasis.exact h0 _ _ _ _, ?_⟩
  refine ⟨⟨S.dens true (vec c) (vec e), fun i k => bf (S.isS k) true (vec e k) (S.rad k i), fun i => f i * tiny,
    S.ratio true μ f (vec c) (vec e),
    fun k i => S.ratio true μ f (vec c) (vec e) i * bf (S.isS k) true (vec e k) (S.rad k i), fun k i => S.rad k i ^ 2,
    fun k i => S.ratio true μ f (vec c) (vec e) i * bf (S.isS k) true (vec e k) (S.rad k i) * S.rad k i ^ 2,
    fpiA S true N W (S.ratio true μ f (vec c) (vec e)) (vec e),
    fpiA2 S true N W (S.ratio true μ f (vec c) (vec e)) (vec e), _, _,
    fun i _ => ⟨fun k => bf (S.isS k) true (vec e k) (S.rad k i) * vec c k, fun k _ => Fu.refl h0 _, ?_⟩,
    fun i _ k _ => Fu.refl h0 _, fun i _ => Fu.refl h0 _, fun i _ => ?_, fun k _ i _ => Fu.refl h0 _,
    fun k _ => ⟨_, hI _, Fu.refl h0 _⟩, fun k _ i _ => Fu.refl h0 _, fun k _ i _ => Fu.refl h0 _,
    fun k _ => ⟨_, hI _, Fu.refl h0 _⟩, fun k _ => Fu.refl h0 _, fun k hk => ?_,
    fun k _ => Fu.refl h0 _, fun k hk => ?_⟩, fun g hg i hi => ?_⟩
  · have := RSum.exact h0 ((List.range S.nb).map fun k => bf (S.isS k) true (vec e k) (S.rad k i) * vec c k)
    rw [sum_tab_range] at this
    refine (congrArg (RSum u _) ?_).mp this
    unfold Shape.dens
    exact sum_congr rfl fun k _ => by ring
  · unfold Shape.ratio klRatio
    by_cases hU : Unmasked μ (f i) (S.dens true (vec c) (vec e) i)
    · rw [if_pos (show μ < _ ∧ _ < _ from hU), if_pos hU]
      exact Fu.refl h0 _
    · rw [if_neg (show ¬(μ < _ ∧ _ < _) from hU), if_neg hU]
  · rw [vec_tab hk, if_pos rfl]
    exact Fu.refl h0 _
  · rw [vec_tab hk, if_pos rfl]
    exact Fu.refl h0 _
  · rw [h.data.model.eval c e false hc he fun _ a ha => (hep a ha).le] at hg
    injection hg with hg
    injection hg with hg
    rw [← fins_injective hg, vec_tab hi]
    exact Iff.rfl

/-- The update of the object of C35 stays away from the mask, and its exponent is at most 3. -/
theorem demo_update {F : FPI} {T : ℝ} (hT : 1 ≤ T)
    (h : IsFPI F true (atomShape [0, 1, 2] 1 0) 3 (vec [1 / 2, 1, 1 / 2]) demoF 0 T) {c₁ e₁ : List ℝ}
    (hu : F.updateParams (fins [1]) (fins [1]) true true = .ok (fins c₁, fins e₁)) :
    (∀ k < 1, ∀ i < 3, 3 * (vec e₁ k * vec [0, 1, 2] i ^ 2) ≤ (36 : ℕ)) ∧
      (atomShape [0, 1, 2] 1 0).AllUnmasked true 3 0 demoF c₁ e₁ := by
  obtain ⟨c', es', h3, h4, h5, -⟩ := C35_conservation h [1] [1] rfl rfl (by simp) demo_unmasked true
  have h4 : c'.length = 1 := h4
  obtain ⟨a, rfl⟩ := List.length_eq_one_iff.mp h4
  have : a = T := by simpa using h5
  subst this
  have hb : ∀ i : ℕ, 0 < bf true true 1 (i : ℝ) := fun i => bf_pos true one_pos (Or.inl rfl)
  have hq : ∀ i < 3, (atomShape [0, 1, 2] 1 0).ratio true 0 demoF (vec [1]) (vec [1]) i = i + 1 := by
    intro i hi
    rw [ratio_unmasked demo_unmasked i hi, demo_dens i hi, demoF]
    exact mul_div_cancel_right₀ _ (hb i).ne'
  have hA := fpiA_congr (S := atomShape [0, 1, 2] 1 0) (norm := true) (W := vec [1 / 2, 1, 1 / 2]) (e := vec [1]) hq
  have hs : ∀ i : ℕ, bf true true 1 (i : ℝ) = (1 / π) ^ (3 / 2 : ℝ) * exp (-(i : ℝ) ^ 2) := by
    intro i
    simp [bf, sBasis]
  have b01 : bf true true 1 ((0 : ℕ) : ℝ) ≤ 3 * bf true true 1 ((1 : ℕ) : ℝ) := by
    rw [hs, hs]
    have : (0 : ℝ) < (1 / π) ^ (3 / 2 : ℝ) := rpow_pos_of_pos (by positivity) _
    have h3 : 1 ≤ 3 * exp (-1) := by
      rw [exp_neg, ← div_eq_mul_inv, le_div_iff₀ (exp_pos 1)]
      linarith [exp_one_lt_three]
    have q1 : exp (-((0 : ℕ) : ℝ) ^ 2) = 1 := by norm_num
    have q2 : exp (-((1 : ℕ) : ℝ) ^ 2) = exp (-1) := by norm_num
    rw [q1, q2]
    nlinarith
  have e1 : fpiA (atomShape [0, 1, 2] 1 0) true 3 (vec [1 / 2, 1, 1 / 2]) (fun i => (i : ℝ) + 1) (vec [1]) 0 =
      1 / 2 * bf true true 1 ((0 : ℕ) : ℝ) + 2 * bf true true 1 ((1 : ℕ) : ℝ) + 3 / 2 * bf true true 1 ((2 : ℕ) : ℝ) := by
    simp [fpiA, sum_range_succ, atomShape, vec]
    ring
  have e2 : fpiA2 (atomShape [0, 1, 2] 1 0) true 3 (vec [1 / 2, 1, 1 / 2]) (fun i => (i : ℝ) + 1) (vec [1]) 0 =
      2 * bf true true 1 ((1 : ℕ) : ℝ) + 6 * bf true true 1 ((2 : ℕ) : ℝ) := by
    simp [fpiA2, sum_range_succ, atomShape, vec]
    ring
  have b0 := hb 0
  have b1 := hb 1
  have b2 := hb 2
  have hk := updateParams_fins h.data h.mask h.lm h.lm_ne h.f_nonneg [1] [1] rfl rfl (fun _ => by simp)
    (fun i hi => by rw [demo_dens i hi]; exact (hb i).le) true true (Or.inl rfl) (fun _ k hk => ?_)
  · rw [hA.1, hA.2, hu] at hk
    rw [hu] at h3
    injection h3 with h3
    injection h3 with h3
    obtain rfl := fins_injective h3
    injection hk with hk
    injection hk with _ hk
    have hk := fins_injective hk
    have he : vec e₁ 0 = 3 / 2 * (1 / 2 * bf true true 1 ((0 : ℕ) : ℝ) + 2 * bf true true 1 ((1 : ℕ) : ℝ) +
        3 / 2 * bf true true 1 ((2 : ℕ) : ℝ)) / (2 * bf true true 1 ((1 : ℕ) : ℝ) + 6 * bf true true 1 ((2 : ℕ) : ℝ)) := by
      rw [hk, vec_tab (by simp [atomShape]), if_pos rfl, e1, e2]
      simp [Shape.pref, atomShape]
    have hp : 0 < 2 * bf true true 1 ((1 : ℕ) : ℝ) + 6 * bf true true 1 ((2 : ℕ) : ℝ) := by linarith
    have u1 : vec e₁ 0 ≤ 3 := by
      rw [he, div_le_iff₀ hp]
      generalize bf true true 1 ((0 : ℕ) : ℝ) = B₀ at *
      generalize bf true true 1 ((1 : ℕ) : ℝ) = B₁ at *
      generalize bf true true 1 ((2 : ℕ) : ℝ) = B₂ at *
      linarith
    have b10 : bf true true 1 ((1 : ℕ) : ℝ) ≤ bf true true 1 ((0 : ℕ) : ℝ) := by
      rw [hs, hs]
      refine mul_le_mul_of_nonneg_left (exp_le_exp.mpr (by norm_num)) (by positivity)
    have u2 : 3 / 8 ≤ vec e₁ 0 := by
      rw [he, le_div_iff₀ hp]
      generalize bf true true 1 ((0 : ℕ) : ℝ) = B₀ at *
      generalize bf true true 1 ((1 : ℕ) : ℝ) = B₁ at *
      generalize bf true true 1 ((2 : ℕ) : ℝ) = B₂ at *
      linarith
    refine ⟨?_, ?_⟩
    · intro k hk i hi
      interval_cases k
      interval_cases i <;> norm_num [vec] <;> simp only [vec] at u1 u2 <;> norm_num at u1 u2 <;> linarith
    · intro i hi
      have hd : (atomShape [0, 1, 2] 1 0).dens true (vec [a]) (vec e₁) i = a * bf true true (vec e₁ 0) i := by
        interval_cases i <;> simp [Shape.dens, atomShape, vec]
      have hlow : 1 / 64 * (1 / 3) ^ 12 ≤ bf true true (vec e₁ 0) i := by
        simp only [bf, if_true, sBasis]
        have p1 : (1 / 64 : ℝ) ≤ (vec e₁ 0 / π) ^ (3 / 2 : ℝ) := by
          have : (1 / 64 : ℝ) = (1 / 16) ^ (3 / 2 : ℝ) := by
            rw [show (1 / 16 : ℝ) = (1 / 4) ^ (2 : ℝ) by norm_num, ← rpow_mul (by norm_num)]
            norm_num
          rw [this]
          refine rpow_le_rpow (by norm_num) ?_ (by norm_num)
          rw [le_div_iff₀ pi_pos]
          linarith [pi_le_four]
        have p2 : (1 / 3 : ℝ) ^ 12 ≤ exp (-vec e₁ 0 * (i : ℝ) ^ 2) := by
          have q1 : (i : ℝ) ^ 2 ≤ 4 := by interval_cases i <;> norm_num
          have q2 : exp (-12) ≤ exp (-vec e₁ 0 * (i : ℝ) ^ 2) := exp_le_exp.mpr (by nlinarith)
          refine le_trans ?_ q2
          rw [show (-12 : ℝ) = (12 : ℕ) * (-1 : ℝ) by norm_num, exp_nat_mul]
          refine pow_le_pow_left₀ (by norm_num) ?_ _
          rw [exp_neg, one_div]
          exact inv_anti₀ (exp_pos 1) exp_one_lt_three.le
        exact mul_le_mul p1 p2 (by positivity) (by positivity)
      have hle : 1 / 64 * (1 / 3) ^ 12 ≤ a * bf true true (vec e₁ 0) i :=
        hlow.trans (le_mul_of_one_le_left (le_trans (by norm_num) hlow) hT)
      rw [hd]
      refine ⟨lt_of_lt_of_le (by norm_num) hle, lt_of_lt_of_le ?_ hle⟩
      have f1 : demoF i ≤ 3 := by
        have q1 : (i : ℝ) + 1 ≤ 3 := by interval_cases i <;> norm_num
        have q2 : bf true true 1 (i : ℝ) ≤ 1 := by
          rw [hs]
          refine mul_le_one₀ (rpow_le_one (by positivity) ?_ (by norm_num)) (exp_pos _).le
            (exp_le_one_iff.mpr (by nlinarith [sq_nonneg (i : ℝ)]))
          rw [div_le_one pi_pos]
          linarith [two_le_pi]
        unfold demoF
        have := (hb i).le
        have : (0 : ℝ) ≤ i := Nat.cast_nonneg i
        nlinarith
      have t1 : tiny < 1 / 64 * (1 / 3) ^ 12 / 3 := by
        have : tiny = (2 : ℝ) ^ (-30 : ℤ) * 2 ^ (-992 : ℤ) := by
          unfold tiny; rw [← zpow_add₀ (by norm_num)]; norm_num
        rw [this]
        have h : (2 : ℝ) ^ (-992 : ℤ) < 1 := by
          rw [zpow_neg]
          exact inv_lt_one_of_one_lt₀ (one_lt_zpow₀ (by norm_num) (by norm_num))
        have h2 : (2 : ℝ) ^ (-30 : ℤ) < 1 / 64 * (1 / 3) ^ 12 / 3 := by norm_num
        have h3 : (0 : ℝ) < 2 ^ (-30 : ℤ) := by positivity
        nlinarith
      have := tiny_pos
      nlinarith [demoF_pos i]
  · have hk : k < 1 := hk
    interval_cases k
    rw [hA.2, e2]
    linarith

/-- C126 for the object of C35 in double precision: there are such computations, and for them the theorem allows an increase
by `10⁻¹²` times the integrals of the absolute integrands and the density. -/
example (T : ℝ) (hT : 1 ≤ T) : ∃ F c₁ e₁,
    FPI.init (.radial ⟨fins [0, 1, 2]⟩) (fins (tab 3 demoF)) (.atom (demoS true)) (XR.fin 0)
      (some (XR.fin T)) false = .ok F ∧
    F.updateParams (fins [1]) (fins [1]) true true = .ok (fins c₁, fins e₁) ∧
    ∃ (v v' : ℕ → ℝ) (lm A A' D : ℝ) (φ φ₁ φ₂ : ℕ → ℕ → ℝ)
      (U : RUpdate (2 ^ (-53 : ℤ)) 0 F.grid F.spherical 3 1 demoF 0 lm φ (fun _ i => vec [0, 1, 2] i)
        (fun k => if decide (k < 1) then 3 / 2 else 5 / 2) (vec [1]) (vec c₁) (vec e₁))
      (R : RGoodness (2 ^ (-53 : ℤ)) 0 F.grid F.spherical 3 1 demoF 0 φ₁ (vec [1]) (v 0) (v 1) (v 2) (v 3) (v 4))
      (R' : RGoodness (2 ^ (-53 : ℤ)) 0 F.grid F.spherical 3 1 demoF 0 φ₂ (vec c₁) (v' 0) (v' 1) (v' 2) (v' 3) (v' 4)),
      (∀ i < 3, 0 < U.m i ∧ U.z i < U.m i) ∧ (∀ i < 3, 0 < R.m i ∧ R.z i < R.m i) ∧
      (∀ i < 3, 0 < R'.m i ∧ R'.z i < R'.m i) ∧ F.integrate F.density = .ok (XR.fin D) ∧
      v' 4 ≤ v 4 + 1 / 10 ^ 12 * (A + A' + D) := by
  have hu : (0 : ℝ) ≤ 2 ^ (-53 : ℤ) := by positivity
  obtain ⟨F, h1, h2⟩ := demo_isFPI T (by linarith)
  obtain ⟨hgr, hsp⟩ := FPI.init_grid h1
  have hfin : F.grid.Finite := by rw [hgr]; exact ⟨[0, 1, 2], rfl⟩
  have hpos : F.grid.Positive := by rw [hgr]; exact ⟨[0, 1, 2], rfl, by norm_num⟩
  have hlen : 3 = F.grid.len := by rw [hgr]; rfl
  have hrad : F.spherical = true → ∃ g, F.grid = .radial g := fun _ => ⟨_, hgr⟩
  have hf : ∀ i < 3, 0 < demoF i := fun i _ => demoF_pos i
  obtain ⟨c₁, e₁, lm, φ, a1, a2, a3, a4, a5, U, a6⟩ := C126_exact (u := 2 ^ (-53 : ℤ)) hu h2 hfin hlen demo_W hrad
    demo_sees [1] [1] rfl rfl (by simp) (by simp)
  obtain ⟨c₂, e₂, d1, d2⟩ := C126_descent (u := 2 ^ (-53 : ℤ)) hu (by norm_num) h2 hpos hlen demo_W
    (by linarith) demo_sees (fun i hi => ⟨hf i hi, (hf i hi).le⟩) [1] [1] rfl rfl (by simp) (by simp)
    (by
      have : (1 - 2 ^ (-53 : ℤ) : ℝ) ^ (2 * 3 + (atomShape [0, 1, 2] 1 0).nb + 21) ≤ 1 :=
        pow_le_one₀ (by norm_num) (by norm_num)
      simp only [List.sum_cons, List.sum_nil, add_zero, one_mul]
      linarith) demo_unmasked (J := 36) (by
      intro k hk i hi
      have hk : k < 1 := hk
      interval_cases k
      interval_cases i <;> norm_num [atomShape, vec]) rfl (fun _ _ => rfl) rfl rfl
  rw [a1] at d1
  injection d1 with d1
  injection d1 with d1 d1'
  obtain rfl := fins_injective d1
  obtain rfl := fins_injective d1'
  obtain ⟨b1, b2⟩ := demo_update hT h2 a1
  obtain ⟨c', e', k1, -, -, k2, k3, -⟩ := C36_positive h2 demo_W (by linarith) demo_sees [1] [1] rfl rfl (by simp) (by simp)
    true true (by simp)
  rw [a1] at k1
  injection k1 with k1
  injection k1 with k1 k1'
  obtain rfl := fins_injective k1
  obtain rfl := fins_injective k1'
  obtain ⟨I, L, M, Q, K, φ₁, -, p1, R, p2⟩ := C125_exact (u := 2 ^ (-53 : ℤ)) hu h2.data (by norm_num) hfin hlen hrad
    h2.mask hf [1] [1] rfl rfl (by simp) (by simp)
  obtain ⟨I', L', M', Q', K', φ₂, -, q1, R', q2⟩ := C125_exact (u := 2 ^ (-53 : ℤ)) hu h2.data (by norm_num) hfin hlen hrad
    h2.mask hf c₁ e₁ a2 a3 k2 (fun a ha => (k3 a ha).le)
  have g1 := h2.data.model.eval [1] [1] false rfl rfl (by simp)
  have g2 := h2.data.model.eval c₁ e₁ false a2 a3 (fun _ a ha => (k3 a ha).le)
  have m1 : ∀ i < 3, 0 < U.m i ∧ U.z i < U.m i := fun i hi => (a6 _ g1 i hi).mpr (by
    rw [vec_tab hi]; exact demo_unmasked i hi)
  have m2 : ∀ i < 3, 0 < R.m i ∧ R.z i < R.m i := fun i hi => (p2 _ g1 i hi).mpr (by
    rw [vec_tab hi]; exact demo_unmasked i hi)
  have m3 : ∀ i < 3, 0 < R'.m i ∧ R'.z i < R'.m i := fun i hi => (q2 _ g2 i hi).mpr (by
    rw [vec_tab hi]; exact b2 i hi)
  obtain ⟨A, A', D, g, g', k, k', -, -, -, -, -, -, w1, wA, wA', wD, w2⟩ := d2 lm φ φ₁ φ₂ c₁ e₁
    (fun i => [I, L, M, Q, K].getD i 0) (fun i => [I', L', M', Q', K'].getD i 0) a4 a5 p1 q1 a2 a3 U R R' m1 m2 m3 b2 b2 b1
  refine ⟨F, c₁, e₁, h1, a1, fun i => [I, L, M, Q, K].getD i 0, fun i => [I', L', M', Q', K'].getD i 0, lm, A, A', D, φ, φ₁,
    φ₂, U, R, R', m1, m2, m3, w1, w2.trans ?_⟩
  have n1 : (atomShape [0, 1, 2] 1 0).nb = 1 := rfl
  have n2 : (1 : ℝ) / (1 - 2 ^ (-53 : ℤ)) ^ (3 + 9) - 1 ≤ 1 / 10 ^ 13 := by norm_num
  have n3 : (1 : ℝ) / (1 - 2 ^ (-53 : ℤ)) ^ (2 * 3 + 2 * 1 + 4 * 36 + 66) - 1 ≤ 3 / 10 ^ 14 := by norm_num
  have n4 : (1 : ℝ) / (1 - 2 ^ (-53 : ℤ)) ^ (2 * 3 + 1 + 21) - 1 ≤ 1 / 10 ^ 13 := by norm_num
  have n5 : -log (1 - 2 ^ (-53 : ℤ)) ≤ 2 / 10 ^ 16 := by
    have := one_sub_inv_le_log_of_pos (show (0 : ℝ) < 1 - 2 ^ (-53 : ℤ) by norm_num)
    have h6 : (1 - 2 ^ (-53 : ℤ) : ℝ)⁻¹ - 1 ≤ 2 / 10 ^ 16 := by norm_num
    linarith
  rw [n1]
  push_cast
  generalize (1 : ℝ) / (1 - 2 ^ (-53 : ℤ)) ^ (3 + 9) - 1 = x₁ at *
  generalize (1 : ℝ) / (1 - 2 ^ (-53 : ℤ)) ^ (2 * 3 + 2 * 1 + 4 * 36 + 66) - 1 = x₂ at *
  generalize (1 : ℝ) / (1 - 2 ^ (-53 : ℤ)) ^ (2 * 3 + 1 + 21) - 1 = x₃ at *
  set lam := -log (1 - 2 ^ (-53 : ℤ)) with hlam
  have n6 : 0 ≤ lam := by
    have := log_nonpos (show (0 : ℝ) ≤ 1 - 2 ^ (-53 : ℤ) by norm_num) (by norm_num)
    linarith
  have hl : -(48 * log (1 - 2 ^ (-53 : ℤ))) = 48 * lam := by rw [hlam]; ring
  rw [hl]
  have p1 : 48 * lam * D ≤ 1 / 10 ^ 14 * D := mul_le_mul_of_nonneg_right (by linarith) wD
  have p2 : x₁ * (A + 48 * lam * D) ≤ 1 / 10 ^ 13 * (A + 48 * lam * D) :=
    mul_le_mul_of_nonneg_right n2 (by positivity)
  have p3 : x₁ * (A' + 48 * lam * D) ≤ 1 / 10 ^ 13 * (A' + 48 * lam * D) :=
    mul_le_mul_of_nonneg_right n2 (by positivity)
  have p4 := mul_le_mul_of_nonneg_right (show 774 * lam + x₂ * (36 / 3) + x₃ ≤ 7 / 10 ^ 13 by
    linarith) wD
  linarith

end
end BFit
