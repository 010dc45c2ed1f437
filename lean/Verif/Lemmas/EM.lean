import Verif.Lemmas.FPI
import Mathlib.Analysis.Convex.SpecificFunctions.Basic
import Mathlib.Analysis.Convex.Jensen
import Mathlib.Algebra.BigOperators.Field

/-! The majorisation argument behind the fixed-point iteration, over `ℝ`. -/

namespace BFit

open Real Classical Finset

noncomputable section

theorem bf_nonneg (s : Bool) {e : ℝ} (r : ℝ) (he : 0 ≤ e) : 0 ≤ bf s true e r := by
  cases s
  · simp only [bf, pBasis, if_true, Bool.false_eq_true, if_false]; positivity
  · simp only [bf, sBasis, if_true]; positivity

theorem bf_pos (s : Bool) {e r : ℝ} (he : 0 < e) (h : s = true ∨ r ≠ 0) : 0 < bf s true e r := by
  cases s
  · have : r ≠ 0 := by simpa using h
    simp only [bf, pBasis, if_true, Bool.false_eq_true, if_false]; positivity
  · simp only [bf, sBasis, if_true]; positivity

theorem bf_nonneg_unnorm (s : Bool) (e r : ℝ) : 0 ≤ bf s false e r := by
  cases s
  · simp only [bf, pBasis]; simp; positivity
  · simp only [bf, sBasis]; simp; positivity

/-- Change of a normalised basis function with its exponent. -/
theorem bf_change (S : Shape) (k : ℕ) {e e' : ℝ} (r : ℝ) (he : 0 < e) (he' : 0 < e') :
    bf (S.isS k) true e' r =
      bf (S.isS k) true e r * ((e' / e) ^ S.pref k * exp (-(e' - e) * r ^ 2)) := by
  have hexp : exp (-e' * r ^ 2) = exp (-e * r ^ 2) * exp (-(e' - e) * r ^ 2) := by
    rw [← exp_add]; congr 1; ring
  unfold Shape.pref
  cases S.isS k
  · simp only [bf, pBasis, if_true, Bool.false_eq_true, if_false]
    rw [hexp, div_rpow he'.le he.le]
    have : e ^ (5 / 2 : ℝ) ≠ 0 := (rpow_pos_of_pos he _).ne'
    field_simp
  · simp only [bf, sBasis, if_true]
    rw [hexp, div_rpow he'.le he.le, div_rpow he'.le pi_pos.le, div_rpow he.le pi_pos.le]
    have : e ^ (3 / 2 : ℝ) ≠ 0 := (rpow_pos_of_pos he _).ne'
    field_simp

/-- Concavity of the logarithm at one grid point. -/
theorem log_point (n : ℕ) (w q : ℕ → ℝ) (hw : ∀ k < n, 0 ≤ w k) (hq : ∀ k < n, 0 < q k)
    (hpos : 0 < ∑ k ∈ range n, w k) :
    0 < ∑ k ∈ range n, w k * q k ∧
      ∑ k ∈ range n, w k / (∑ k ∈ range n, w k) * log (q k) ≤
        log ((∑ k ∈ range n, w k * q k) / ∑ k ∈ range n, w k) := by
  set G := ∑ k ∈ range n, w k with hG
  have h := strictConcaveOn_log_Ioi.concaveOn.le_map_sum (t := range n) (w := fun k => w k / G) (p := q)
    (fun k hk => div_nonneg (hw k (mem_range.mp hk)) hpos.le)
    (by rw [← Finset.sum_div, ← hG, div_self hpos.ne'])
    (fun k hk => hq k (mem_range.mp hk))
  simp only [smul_eq_mul] at h
  constructor
  · obtain ⟨k, hk, hk0⟩ : ∃ k ∈ range n, 0 < w k := by
      by_contra hcon
      push Not at hcon
      exact absurd (Finset.sum_nonpos hcon) (not_le.mpr hpos)
    exact Finset.sum_pos' (fun j hj => mul_nonneg (hw j (mem_range.mp hj)) (hq j (mem_range.mp hj)).le)
      ⟨k, hk, mul_pos hk0 (hq k (mem_range.mp hk))⟩
  · refine h.trans (le_of_eq ?_)
    congr 1
    rw [Finset.sum_div]
    exact Finset.sum_congr rfl fun k _ => by ring

/-- Lower bound of the decrease of the Kullback-Leibler integral for arbitrary new parameters
`c k * a k`, `e' k`. -/
theorem em_gain (S : Shape) (N : ℕ) (W f c e a e' : ℕ → ℝ) (hW : ∀ i < N, 0 ≤ W i)
    (hf : ∀ i < N, 0 ≤ f i) (hc : ∀ k < S.nb, 0 ≤ c k) (he : ∀ k < S.nb, 0 < e k)
    (ha : ∀ k < S.nb, 0 < a k) (he' : ∀ k < S.nb, 0 < e' k)
    (hg : ∀ i < N, 0 < S.dens true c e i) :
    (∀ i < N, 0 < S.dens true (fun k => c k * a k) e' i) ∧
    ∑ k ∈ range S.nb, c k *
        (fpiA S true N W (fun i => f i / S.dens true c e i) e k * log (a k) +
          S.pref k * fpiA S true N W (fun i => f i / S.dens true c e i) e k * log (e' k / e k) -
          (e' k - e k) * fpiA2 S true N W (fun i => f i / S.dens true c e i) e k) ≤
      ∑ i ∈ range N, W i * (f i * log (S.dens true (fun k => c k * a k) e' i / S.dens true c e i)) := by
  have key : ∀ i < N, 0 < S.dens true (fun k => c k * a k) e' i ∧
      ∑ k ∈ range S.nb, c k * bf (S.isS k) true (e k) (S.rad k i) / S.dens true c e i *
          (log (a k) + S.pref k * log (e' k / e k) - (e' k - e k) * S.rad k i ^ 2) ≤
        log (S.dens true (fun k => c k * a k) e' i / S.dens true c e i) := by
    intro i hi
    have h := log_point S.nb (fun k => c k * bf (S.isS k) true (e k) (S.rad k i))
      (fun k => a k * ((e' k / e k) ^ S.pref k * exp (-(e' k - e k) * S.rad k i ^ 2)))
      (fun k hk => mul_nonneg (hc k hk) (bf_nonneg _ _ (he k hk).le))
      (fun k hk => by have := ha k hk; have := he k hk; have := he' k hk; positivity)
      (hg i hi)
    have hnew : S.dens true (fun k => c k * a k) e' i =
        ∑ k ∈ range S.nb, c k * bf (S.isS k) true (e k) (S.rad k i) *
          (a k * ((e' k / e k) ^ S.pref k * exp (-(e' k - e k) * S.rad k i ^ 2))) := by
      unfold Shape.dens
      apply Finset.sum_congr rfl
      intro k hk
      rw [bf_change S k _ (he k (mem_range.mp hk)) (he' k (mem_range.mp hk))]
      ring
    rw [hnew]
    refine ⟨h.1, le_trans (le_of_eq ?_) h.2⟩
    apply Finset.sum_congr rfl
    intro k hk
    have h1 := ha k (mem_range.mp hk)
    have h2 : 0 < e' k / e k := div_pos (he' k (mem_range.mp hk)) (he k (mem_range.mp hk))
    rw [log_mul h1.ne' (by positivity), log_mul (by positivity) (by positivity), log_rpow h2, log_exp]
    have : ∑ k ∈ range S.nb, c k * bf (S.isS k) true (e k) (S.rad k i) = S.dens true c e i := rfl
    rw [this]
    ring
  refine ⟨fun i hi => (key i hi).1, ?_⟩
  refine le_trans (le_of_eq ?_) (Finset.sum_le_sum fun i hi =>
    mul_le_mul_of_nonneg_left (mul_le_mul_of_nonneg_left (key i (mem_range.mp hi)).2
      (hf i (mem_range.mp hi))) (hW i (mem_range.mp hi)))
  simp only [Finset.mul_sum]
  rw [Finset.sum_comm]
  apply Finset.sum_congr rfl
  intro k hk
  unfold fpiA fpiA2
  have e1 : ∀ (x y z p : ℝ) (A A2 : ℕ → ℝ),
      x * ((∑ i ∈ range N, A i) * y + p * (∑ i ∈ range N, A i) * z - (e' k - e k) * ∑ i ∈ range N, A2 i) =
      ∑ i ∈ range N, x * (A i * y + p * A i * z - (e' k - e k) * A2 i) := by
    intro x y z p A A2
    rw [← Finset.mul_sum, Finset.sum_sub_distrib, Finset.sum_add_distrib, Finset.sum_mul, Finset.mul_sum,
      Finset.mul_sum, Finset.sum_mul]
  rw [e1]
  apply Finset.sum_congr rfl
  intro i _
  ring

/-- The gain of the fixed-point update: it is at least `L` times the change of the sum of the
coefficients, and equal to it only if nothing changes. -/
theorem em_update_gain (S : Shape) (c e : ℕ → ℝ) (L : ℝ) (uc ue : Bool) (hL : 0 < L)
    (hc : ∀ k < S.nb, 0 ≤ c k) (he : ∀ k < S.nb, 0 < e k)
    (A A2 : ℕ → ℝ) (hA : ∀ k < S.nb, 0 < A k) (hA2 : ∀ k < S.nb, 0 < A2 k) :
    L * (∑ k ∈ range S.nb, c k * (if uc then A k / L else 1) - ∑ k ∈ range S.nb, c k) ≤
      ∑ k ∈ range S.nb, c k *
        (A k * log (if uc then A k / L else 1) +
          S.pref k * A k * log ((if ue then S.pref k * A k / A2 k else e k) / e k) -
          ((if ue then S.pref k * A k / A2 k else e k) - e k) * A2 k) ∧
    (∑ k ∈ range S.nb, c k *
        (A k * log (if uc then A k / L else 1) +
          S.pref k * A k * log ((if ue then S.pref k * A k / A2 k else e k) / e k) -
          ((if ue then S.pref k * A k / A2 k else e k) - e k) * A2 k) ≤
      L * (∑ k ∈ range S.nb, c k * (if uc then A k / L else 1) - ∑ k ∈ range S.nb, c k) →
      ∀ k < S.nb, 0 < c k → c k * (if uc then A k / L else 1) = c k ∧
        (if ue then S.pref k * A k / A2 k else e k) = e k) := by
  have hlogs : ∀ x : ℝ, 0 < x → x ≠ 1 → 1 - x⁻¹ < log x := by
    intro x hx hx1
    have := log_lt_sub_one_of_pos (inv_pos.mpr hx) (by simpa using hx1)
    rw [log_inv] at this
    linarith
  -- the two parts of one term
  have h1 : ∀ k < S.nb, (L * ((if uc then A k / L else 1) - 1) ≤ A k * log (if uc then A k / L else 1)) ∧
      ((if uc then A k / L else 1) ≠ 1 →
        L * ((if uc then A k / L else 1) - 1) < A k * log (if uc then A k / L else 1)) := by
    intro k hk
    cases uc with
    | false => simp
    | true =>
      simp only [if_true]
      have hAk := hA k hk
      have ha : 0 < A k / L := div_pos hAk hL
      have e1 : L * (A k / L - 1) = A k * (1 - (A k / L)⁻¹) := by field_simp
      rw [e1]
      exact ⟨mul_le_mul_of_nonneg_left (one_sub_inv_le_log_of_pos ha) hAk.le,
        fun h => mul_lt_mul_of_pos_left (hlogs _ ha h) hAk⟩
  have h2 : ∀ k < S.nb,
      (0 ≤ S.pref k * A k * log ((if ue then S.pref k * A k / A2 k else e k) / e k) -
          ((if ue then S.pref k * A k / A2 k else e k) - e k) * A2 k) ∧
      ((if ue then S.pref k * A k / A2 k else e k) ≠ e k →
        0 < S.pref k * A k * log ((if ue then S.pref k * A k / A2 k else e k) / e k) -
          ((if ue then S.pref k * A k / A2 k else e k) - e k) * A2 k) := by
    intro k hk
    cases ue with
    | false => simp [div_self (he k hk).ne']
    | true =>
      simp only [if_true]
      have hp := S.pref_pos k
      have hAk := hA k hk
      have hA2k := hA2 k hk
      have hek := he k hk
      have hx : 0 < S.pref k * A k / A2 k / e k := by positivity
      have hPA : 0 < S.pref k * A k := by positivity
      have e1 : (S.pref k * A k / A2 k - e k) * A2 k =
          S.pref k * A k * (1 - (S.pref k * A k / A2 k / e k)⁻¹) := by field_simp
      rw [e1]
      refine ⟨sub_nonneg.mpr (mul_le_mul_of_nonneg_left (one_sub_inv_le_log_of_pos hx) hPA.le),
        fun h => sub_pos.mpr (mul_lt_mul_of_pos_left (hlogs _ hx ?_) hPA)⟩
      intro h'
      exact h ((div_eq_one_iff_eq hek.ne').mp h')
  have hl : L * (∑ k ∈ range S.nb, c k * (if uc then A k / L else 1) - ∑ k ∈ range S.nb, c k) =
      ∑ k ∈ range S.nb, c k * (L * ((if uc then A k / L else 1) - 1)) := by
    rw [← Finset.sum_sub_distrib, Finset.mul_sum]
    exact Finset.sum_congr rfl fun k _ => by ring
  have hterm : ∀ k ∈ range S.nb, c k * (L * ((if uc then A k / L else 1) - 1)) ≤ c k *
        (A k * log (if uc then A k / L else 1) +
          S.pref k * A k * log ((if ue then S.pref k * A k / A2 k else e k) / e k) -
          ((if ue then S.pref k * A k / A2 k else e k) - e k) * A2 k) := by
    intro k hk
    have hk := mem_range.mp hk
    apply mul_le_mul_of_nonneg_left _ (hc k hk)
    have := (h1 k hk).1
    have := (h2 k hk).1
    linarith
  rw [hl]
  refine ⟨Finset.sum_le_sum hterm, ?_⟩
  intro hle k hk hck
  have heq := (Finset.sum_eq_sum_iff_of_le hterm).mp (le_antisymm (Finset.sum_le_sum hterm) hle) k
    (mem_range.mpr hk)
  have heq := mul_left_cancel₀ hck.ne' heq
  constructor
  · by_contra hne
    have hne : (if uc then A k / L else 1) ≠ 1 := fun h => hne (by rw [h, mul_one])
    have := (h1 k hk).2 hne
    have := (h2 k hk).1
    linarith
  · by_contra hne
    have := (h2 k hk).2 hne
    have := (h1 k hk).1
    linarith

/-- The averages recover the integral of the density. -/
theorem sum_c_fpiA (S : Shape) (norm : Bool) (N : ℕ) (W f c e : ℕ → ℝ)
    (hg : ∀ i < N, S.dens norm c e i ≠ 0) :
    ∑ k ∈ range S.nb, c k * fpiA S norm N W (fun i => f i / S.dens norm c e i) e k =
      ∑ i ∈ range N, W i * f i := by
  unfold fpiA
  simp only [Finset.mul_sum]
  rw [Finset.sum_comm]
  apply Finset.sum_congr rfl
  intro i hi
  have hgi := hg i (mem_range.mp hi)
  have : ∑ k ∈ range S.nb, c k * (W i * (f i / S.dens norm c e i *
      bf (S.isS k) norm (e k) (S.rad k i))) = W i * (f i / S.dens norm c e i) * S.dens norm c e i := by
    conv_rhs => rw [Shape.dens.eq_1 S norm c e i]
    conv_rhs => rw [Finset.mul_sum]
    apply Finset.sum_congr rfl
    intro k _
    rw [← Shape.dens.eq_1]
    ring
  rw [this, mul_assoc, div_mul_cancel₀ _ hgi]

end
end BFit
