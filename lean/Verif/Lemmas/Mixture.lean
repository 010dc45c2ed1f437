import Verif.Lemmas.EM
import Mathlib.Analysis.Convex.StdSimplex
import Mathlib.Topology.Order.Compact
import Mathlib.Topology.Algebra.Order.Field
import Mathlib.Analysis.SpecialFunctions.Log.Deriv

/-!
Coefficient updates with fixed basis functions, over `ℝ`: optimality of fixed points and the rate of
convergence.  `φ k i` is basis function `k` at point `i`, `a i` the weighted density.
-/

namespace BFit

open Real Classical Finset

noncomputable section

/-- The mixture at point `i`. -/
def mixD (n : ℕ) (φ : ℕ → ℕ → ℝ) (c : ℕ → ℝ) (i : ℕ) : ℝ := ∑ k ∈ range n, c k * φ k i

/-- The factor of coefficient `k` (before division by the multiplier). -/
def mixA (n N : ℕ) (φ : ℕ → ℕ → ℝ) (a c : ℕ → ℝ) (k : ℕ) : ℝ :=
  ∑ i ∈ range N, a i * φ k i / mixD n φ c i

/-- The log-likelihood. -/
def mixL (n N : ℕ) (φ : ℕ → ℕ → ℝ) (a c : ℕ → ℝ) : ℝ := ∑ i ∈ range N, a i * log (mixD n φ c i)

theorem sum_mixA (n N : ℕ) (φ : ℕ → ℕ → ℝ) (a c c' : ℕ → ℝ) :
    ∑ k ∈ range n, c' k * mixA n N φ a c k = ∑ i ∈ range N, a i * (mixD n φ c' i / mixD n φ c i) := by
  unfold mixA
  simp only [Finset.mul_sum]
  rw [Finset.sum_comm]
  apply Finset.sum_congr rfl
  intro i _
  conv_rhs => rw [mixD, Finset.sum_div, Finset.mul_sum]
  exact Finset.sum_congr rfl fun k _ => by ring

/-- If no factor exceeds the multiplier, the coefficients are optimal. -/
theorem mix_opt {n N : ℕ} {φ : ℕ → ℕ → ℝ} {a c c' : ℕ → ℝ} {L : ℝ} (ha : ∀ i < N, 0 ≤ a i)
    (hA : ∀ k < n, mixA n N φ a c k ≤ L) (hc' : ∀ k < n, 0 ≤ c' k)
    (hg : ∀ i < N, 0 < mixD n φ c i) (hg' : ∀ i < N, 0 < mixD n φ c' i)
    (hsum : L * ∑ k ∈ range n, c' k ≤ ∑ i ∈ range N, a i) : mixL n N φ a c' ≤ mixL n N φ a c := by
  have h1 : ∀ i ∈ range N, a i * log (mixD n φ c' i) ≤
      a i * log (mixD n φ c i) + (a i * (mixD n φ c' i / mixD n φ c i) - a i) := by
    intro i hi
    have hi := mem_range.mp hi
    have h2 := log_le_sub_one_of_pos (div_pos (hg' i hi) (hg i hi))
    rw [log_div (hg' i hi).ne' (hg i hi).ne'] at h2
    have := mul_le_mul_of_nonneg_left h2 (ha i hi)
    linarith
  have h3 := Finset.sum_le_sum h1
  rw [Finset.sum_add_distrib, Finset.sum_sub_distrib, ← sum_mixA] at h3
  have h4 : ∑ k ∈ range n, c' k * mixA n N φ a c k ≤ L * ∑ k ∈ range n, c' k := by
    rw [Finset.mul_sum]
    apply Finset.sum_le_sum
    intro k hk
    rw [mul_comm L]
    exact mul_le_mul_of_nonneg_left (hA k (mem_range.mp hk)) (hc' k (mem_range.mp hk))
  unfold mixL
  linarith

/-- Gain of the update. -/
theorem mix_gain {n N : ℕ} {φ : ℕ → ℕ → ℝ} {a c : ℕ → ℝ} {L : ℝ} (hL : 0 < L) (ha : ∀ i < N, 0 ≤ a i)
    (hφ : ∀ k < n, ∀ i < N, 0 ≤ φ k i) (hA : ∀ k < n, 0 < mixA n N φ a c k) (hc : ∀ k < n, 0 ≤ c k)
    (hg : ∀ i < N, 0 < mixD n φ c i) :
    (∀ i < N, 0 < mixD n φ (fun k => c k * mixA n N φ a c k / L) i) ∧
    ∑ k ∈ range n, c k * mixA n N φ a c k * log (mixA n N φ a c k / L) ≤
      mixL n N φ a (fun k => c k * mixA n N φ a c k / L) - mixL n N φ a c := by
  have key : ∀ i < N, 0 < mixD n φ (fun k => c k * mixA n N φ a c k / L) i ∧
      ∑ k ∈ range n, c k * φ k i / mixD n φ c i * log (mixA n N φ a c k / L) ≤
        log (mixD n φ (fun k => c k * mixA n N φ a c k / L) i) - log (mixD n φ c i) := by
    intro i hi
    have h := log_point n (fun k => c k * φ k i) (fun k => mixA n N φ a c k / L)
      (fun k hk => mul_nonneg (hc k hk) (hφ k hk i hi)) (fun k hk => div_pos (hA k hk) hL) (hg i hi)
    have e1 : ∑ k ∈ range n, c k * φ k i * (mixA n N φ a c k / L) =
        mixD n φ (fun k => c k * mixA n N φ a c k / L) i :=
      Finset.sum_congr rfl fun k _ => by ring
    rw [e1] at h
    refine ⟨h.1, ?_⟩
    have h2 := h.2
    have e2 : ∑ k ∈ range n, c k * φ k i = mixD n φ c i := rfl
    rw [e2, log_div h.1.ne' (hg i hi).ne'] at h2
    exact h2
  refine ⟨fun i hi => (key i hi).1, ?_⟩
  have h1 : ∑ i ∈ range N, a i * ∑ k ∈ range n, c k * φ k i / mixD n φ c i * log (mixA n N φ a c k / L) ≤
      ∑ i ∈ range N, a i *
        (log (mixD n φ (fun k => c k * mixA n N φ a c k / L) i) - log (mixD n φ c i)) :=
    Finset.sum_le_sum fun i hi => mul_le_mul_of_nonneg_left (key i (mem_range.mp hi)).2
      (ha i (mem_range.mp hi))
  have h2 : ∑ i ∈ range N, a i *
        (log (mixD n φ (fun k => c k * mixA n N φ a c k / L) i) - log (mixD n φ c i)) =
      mixL n N φ a (fun k => c k * mixA n N φ a c k / L) - mixL n N φ a c := by
    unfold mixL
    rw [← Finset.sum_sub_distrib]
    exact Finset.sum_congr rfl fun i _ => by ring
  rw [← h2]
  refine le_trans (le_of_eq ?_) h1
  simp only [Finset.mul_sum]
  rw [Finset.sum_comm]
  apply Finset.sum_congr rfl
  intro k _
  have h3 : ∀ x : ℝ, c k * mixA n N φ a c k * x =
      ∑ i ∈ range N, c k * (a i * φ k i / mixD n φ c i) * x := by
    intro x
    rw [mixA, Finset.mul_sum, Finset.sum_mul]
  rw [h3]
  exact Finset.sum_congr rfl fun i _ => by ring

/-- `x log (x / L) - x + L` is non-negative and vanishes only at `L`. -/
theorem xlog_gap {x L : ℝ} (hx : 0 < x) (hL : 0 < L) :
    x - L ≤ x * log (x / L) ∧ (x * log (x / L) ≤ x - L → x = L) := by
  have hq : 0 < L / x := div_pos hL hx
  have e1 : log (x / L) = -log (L / x) := by rw [← log_inv, inv_div]
  rw [e1]
  constructor
  · have := log_le_sub_one_of_pos hq
    have h2 := mul_le_mul_of_nonneg_left this hx.le
    have h3 : x * (L / x - 1) = L - x := by field_simp
    linarith
  · intro h
    by_contra hne
    have h1 : L / x ≠ 1 := by
      intro h1
      rw [div_eq_one_iff_eq hx.ne'] at h1
      exact hne h1.symm
    have := log_lt_sub_one_of_pos hq h1
    have h2 := mul_lt_mul_of_pos_left this hx
    have h3 : x * (L / x - 1) = L - x := by field_simp
    linarith

/-- The update never lowers the likelihood, and keeps it only if nothing changes. -/
theorem mix_step {n N : ℕ} {φ : ℕ → ℕ → ℝ} {a c : ℕ → ℝ} {L : ℝ} (hL : 0 < L) (ha : ∀ i < N, 0 ≤ a i)
    (hφ : ∀ k < n, ∀ i < N, 0 ≤ φ k i) (hA : ∀ k < n, 0 < mixA n N φ a c k) (hc : ∀ k < n, 0 ≤ c k)
    (hg : ∀ i < N, 0 < mixD n φ c i) (hsum : L * ∑ k ∈ range n, c k = ∑ i ∈ range N, a i) :
    mixL n N φ a c ≤ mixL n N φ a (fun k => c k * mixA n N φ a c k / L) ∧
    (mixL n N φ a (fun k => c k * mixA n N φ a c k / L) ≤ mixL n N φ a c →
      ∀ k < n, 0 < c k → mixA n N φ a c k = L) := by
  have h1 := (mix_gain hL ha hφ hA hc hg).2
  have h2 : ∑ k ∈ range n, c k * (mixA n N φ a c k - L) = 0 := by
    have : ∑ k ∈ range n, c k * (mixA n N φ a c k - L) =
        ∑ k ∈ range n, c k * mixA n N φ a c k - L * ∑ k ∈ range n, c k := by
      rw [Finset.mul_sum, ← Finset.sum_sub_distrib]
      exact Finset.sum_congr rfl fun k _ => by ring
    rw [this, sum_mixA, hsum, ← Finset.sum_sub_distrib]
    apply Finset.sum_eq_zero
    intro i hi
    rw [div_self (hg i (mem_range.mp hi)).ne']
    ring
  have h3 : ∀ k ∈ range n, c k * (mixA n N φ a c k - L) ≤
      c k * mixA n N φ a c k * log (mixA n N φ a c k / L) := by
    intro k hk
    have hk := mem_range.mp hk
    have := mul_le_mul_of_nonneg_left (xlog_gap (hA k hk) hL).1 (hc k hk)
    linarith
  have h4 := Finset.sum_le_sum h3
  refine ⟨by linarith, fun hle k hk hck => ?_⟩
  have h5 : ∑ k ∈ range n, c k * (mixA n N φ a c k - L) =
      ∑ k ∈ range n, c k * mixA n N φ a c k * log (mixA n N φ a c k / L) := by linarith
  have h6 := (Finset.sum_eq_sum_iff_of_le h3).mp h5 k (mem_range.mpr hk)
  apply (xlog_gap (hA k hk) hL).2
  have : c k * (mixA n N φ a c k * log (mixA n N φ a c k / L)) ≤ c k * (mixA n N φ a c k - L) := by
    linarith
  exact le_of_mul_le_mul_left this hck

/-- Progress towards a fixed point `b`. -/
theorem mix_progress {n N : ℕ} {φ : ℕ → ℕ → ℝ} {a b c : ℕ → ℝ} {L : ℝ} (hL : 0 < L)
    (ha : ∀ i < N, 0 ≤ a i) (hφ : ∀ k < n, ∀ i < N, 0 ≤ φ k i)
    (hb : ∀ k < n, 0 ≤ b k) (hgb : ∀ i < N, 0 < mixD n φ b i) (hg : ∀ i < N, 0 < mixD n φ c i)
    (hfix : ∀ k < n, 0 < b k → mixA n N φ a b k = L) :
    mixL n N φ a b - mixL n N φ a c ≤ L * ∑ k ∈ range n, b k * log (mixA n N φ a c k / L) := by
  have key : ∀ k ∈ range n, ∑ i ∈ range N, b k * (a i * φ k i / mixD n φ b i) *
      log (mixD n φ b i / mixD n φ c i) ≤ L * (b k * log (mixA n N φ a c k / L)) := by
    intro k hk
    have hk := mem_range.mp hk
    rcases (hb k hk).eq_or_lt with h0 | h0
    · simp [← h0]
    have hw : ∑ i ∈ range N, a i * φ k i / mixD n φ b i = L := hfix k hk h0
    have h := (log_point N (fun i => a i * φ k i / mixD n φ b i) (fun i => mixD n φ b i / mixD n φ c i)
      (fun i hi => div_nonneg (mul_nonneg (ha i hi) (hφ k hk i hi)) (hgb i hi).le)
      (fun i hi => div_pos (hgb i hi) (hg i hi)) (by rw [hw]; exact hL)).2
    have e1 : ∑ i ∈ range N, a i * φ k i / mixD n φ b i * (mixD n φ b i / mixD n φ c i) =
        mixA n N φ a c k := by
      apply Finset.sum_congr rfl
      intro i hi
      have := (hgb i (mem_range.mp hi)).ne'
      field_simp
    rw [hw, e1] at h
    have h2 := mul_le_mul_of_nonneg_left h (mul_nonneg hL.le h0.le)
    refine le_trans (le_of_eq ?_) (h2.trans (le_of_eq (by ring)))
    rw [Finset.mul_sum]
    apply Finset.sum_congr rfl
    intro i _
    field_simp
  rw [Finset.mul_sum]
  refine le_trans (le_of_eq ?_) (Finset.sum_le_sum key)
  rw [Finset.sum_comm]
  unfold mixL
  rw [← Finset.sum_sub_distrib]
  apply Finset.sum_congr rfl
  intro i hi
  have hi := mem_range.mp hi
  rw [← Finset.sum_mul, log_div (hgb i hi).ne' (hg i hi).ne']
  have : ∑ k ∈ range n, b k * (a i * φ k i / mixD n φ b i) = a i := by
    have h1 : ∑ k ∈ range n, b k * (a i * φ k i / mixD n φ b i) =
        a i * (∑ k ∈ range n, b k * φ k i) / mixD n φ b i := by
      rw [Finset.mul_sum, Finset.sum_div]
      exact Finset.sum_congr rfl fun k _ => by ring
    rw [h1]
    exact mul_div_cancel_right₀ _ (hgb i hi).ne'
  rw [this]
  ring

/-- A best coefficient vector exists. -/
theorem mix_exists_max {n N : ℕ} {φ : ℕ → ℕ → ℝ} {a : ℕ → ℝ} {T : ℝ} (hn : 0 < n) (hT : 0 < T)
    (hφ : ∀ k < n, ∀ i < N, 0 < φ k i) :
    ∃ b : ℕ → ℝ, (∀ k < n, 0 ≤ b k) ∧ ∑ k ∈ range n, b k = T ∧
      ∀ c : ℕ → ℝ, (∀ k < n, 0 ≤ c k) → ∑ k ∈ range n, c k = T → mixL n N φ a c ≤ mixL n N φ a b := by
  let ext : (Fin n → ℝ) → ℕ → ℝ := fun x k => if h : k < n then T * x ⟨k, h⟩ else 0
  have hD : ∀ x i, mixD n φ (ext x) i = ∑ k : Fin n, T * x k * φ k i := by
    intro x i
    unfold mixD
    rw [Finset.sum_range]
    apply Finset.sum_congr rfl
    intro k _
    simp [ext]
  have hpos : ∀ x ∈ stdSimplex ℝ (Fin n), ∀ i < N, 0 < ∑ k : Fin n, T * x k * φ k i := by
    intro x hx i hi
    obtain ⟨k, -, hk⟩ : ∃ k ∈ (Finset.univ : Finset (Fin n)), 0 < x k := by
      by_contra hcon
      push Not at hcon
      have := Finset.sum_nonpos hcon
      rw [hx.2] at this
      linarith
    refine Finset.sum_pos' (fun j _ => mul_nonneg (mul_nonneg hT.le (hx.1 j)) (hφ j j.2 i hi).le)
      ⟨k, Finset.mem_univ _, mul_pos (mul_pos hT hk) (hφ k k.2 i hi)⟩
  have hcont : ContinuousOn (fun x => mixL n N φ a (ext x)) (stdSimplex ℝ (Fin n)) := by
    unfold mixL
    simp only [hD]
    apply continuousOn_finset_sum
    intro i hi
    apply ContinuousOn.mul continuousOn_const
    apply ContinuousOn.log
    · apply continuousOn_finset_sum
      intro k _
      exact ((continuousOn_const.mul (continuous_apply k).continuousOn).mul continuousOn_const)
    · intro x hx
      exact (hpos x hx i (mem_range.mp hi)).ne'
  have hne : (stdSimplex ℝ (Fin n)).Nonempty :=
    ⟨Pi.single ⟨0, hn⟩ 1, single_mem_stdSimplex ℝ _⟩
  obtain ⟨x, hx, hmax⟩ := (isCompact_stdSimplex ℝ (Fin n)).exists_isMaxOn hne hcont
  have hsumext : ∀ x : Fin n → ℝ, ∑ k ∈ range n, ext x k = T * ∑ k, x k := by
    intro x
    rw [Finset.sum_range, Finset.mul_sum]
    exact Finset.sum_congr rfl fun k _ => by simp [ext]
  refine ⟨ext x, fun k hk => ?_, ?_, fun c hc hs => ?_⟩
  · simp only [ext, hk, dif_pos]
    exact mul_nonneg hT.le (hx.1 _)
  · rw [hsumext, hx.2, mul_one]
  · have hy : (fun k : Fin n => c k / T) ∈ stdSimplex ℝ (Fin n) := by
      refine ⟨fun k => div_nonneg (hc k k.2) hT.le, ?_⟩
      rw [← Finset.sum_div, ← Finset.sum_range (fun k => c k), hs, div_self hT.ne']
    have h1 := hmax hy
    simp only [Set.mem_setOf_eq] at h1
    refine le_trans (le_of_eq ?_) h1
    unfold mixL
    apply Finset.sum_congr rfl
    intro i _
    congr 2
    refine Eq.trans ?_ (hD (fun k : Fin n => c k / T) i).symm
    unfold mixD
    rw [Finset.sum_range]
    apply Finset.sum_congr rfl
    intro k _
    field_simp

/-- Rate of convergence of the coefficient updates. -/
theorem mix_rate {n N : ℕ} {φ : ℕ → ℕ → ℝ} {a : ℕ → ℝ} {L T m : ℝ} (hn : 0 < n) (hL : 0 < L) (hT : 0 < T)
    (ha : ∀ i < N, 0 ≤ a i) (hφ : ∀ k < n, ∀ i < N, 0 < φ k i) (hI : L * T = ∑ i ∈ range N, a i)
    (cs : ℕ → ℕ → ℝ) (hcs : ∀ j, ∀ k < n, cs (j + 1) k = cs j k * mixA n N φ a (cs j) k / L)
    (hm : 0 < m) (h0 : ∀ k < n, m ≤ cs 0 k) (hpos : ∀ j, ∀ k < n, 0 < cs j k)
    (hsum : ∀ j, ∑ k ∈ range n, cs j k = T) (j : ℕ) (c : ℕ → ℝ) (hc : ∀ k < n, 0 ≤ c k)
    (hcT : ∑ k ∈ range n, c k = T) :
    mixL n N φ a c - mixL n N φ a (cs j) ≤ L * T * log (T / m) / (j + 1) := by
  obtain ⟨b, hb, hbT, hmax⟩ := mix_exists_max (a := a) hn hT hφ
  have hD : ∀ c : ℕ → ℝ, (∀ k < n, 0 ≤ c k) → ∑ k ∈ range n, c k = T → ∀ i < N, 0 < mixD n φ c i := by
    intro c hc hs i hi
    obtain ⟨k, hk, hk0⟩ : ∃ k ∈ range n, 0 < c k := by
      by_contra hcon
      push Not at hcon
      have := Finset.sum_nonpos hcon
      linarith
    exact Finset.sum_pos' (fun l hl => mul_nonneg (hc l (mem_range.mp hl)) (hφ l (mem_range.mp hl) i hi).le)
      ⟨k, hk, mul_pos hk0 (hφ k (mem_range.mp hk) i hi)⟩
  have hIpos : 0 < ∑ i ∈ range N, a i := by rw [← hI]; positivity
  obtain ⟨i₀, hi₀, ha₀⟩ : ∃ i ∈ range N, 0 < a i := by
    by_contra hcon
    push Not at hcon
    have := Finset.sum_nonpos hcon
    linarith
  have hApos : ∀ c : ℕ → ℝ, (∀ i < N, 0 < mixD n φ c i) → ∀ k < n, 0 < mixA n N φ a c k := by
    intro c hg k hk
    exact Finset.sum_pos' (fun i hi => div_nonneg (mul_nonneg (ha i (mem_range.mp hi))
      (hφ k hk i (mem_range.mp hi)).le) (hg i (mem_range.mp hi)).le)
      ⟨i₀, hi₀, div_pos (mul_pos ha₀ (hφ k hk i₀ (mem_range.mp hi₀))) (hg i₀ (mem_range.mp hi₀))⟩
  have hφ0 : ∀ k < n, ∀ i < N, 0 ≤ φ k i := fun k hk i hi => (hφ k hk i hi).le
  have hgb := hD b hb hbT
  -- the best vector is a fixed point
  have hfix : ∀ k < n, 0 < b k → mixA n N φ a b k = L := by
    refine (mix_step hL ha hφ0 (hApos b hgb) hb hgb (by rw [hbT, hI])).2 (hmax _ ?_ ?_)
    · exact fun k hk => div_nonneg (mul_nonneg (hb k hk) (hApos b hgb k hk).le) hL.le
    · rw [← Finset.sum_div, sum_mixA]
      have : ∑ i ∈ range N, a i * (mixD n φ b i / mixD n φ b i) = L * T := by
        rw [hI]
        exact Finset.sum_congr rfl fun i hi => by rw [div_self (hgb i (mem_range.mp hi)).ne', mul_one]
      rw [this]
      field_simp
  have hgc : ∀ j, ∀ i < N, 0 < mixD n φ (cs j) i := fun j => hD _ (fun k hk => (hpos j k hk).le) (hsum j)
  have hmixcongr : ∀ j, mixL n N φ a (cs (j + 1)) =
      mixL n N φ a (fun k => cs j k * mixA n N φ a (cs j) k / L) := by
    intro j
    unfold mixL mixD
    apply Finset.sum_congr rfl
    intro i _
    congr 2
    exact Finset.sum_congr rfl fun k hk => by rw [hcs j k (mem_range.mp hk)]
  have hmono : Monotone fun j => mixL n N φ a (cs j) := by
    apply monotone_nat_of_le_succ
    intro j
    rw [hmixcongr]
    exact (mix_step hL ha hφ0 (hApos _ (hgc j)) (fun k hk => (hpos j k hk).le) (hgc j)
      (by rw [hsum, hI])).1
  have hprog : ∀ j, mixL n N φ a b - mixL n N φ a (cs j) ≤
      L * ∑ k ∈ range n, b k * (log (cs (j + 1) k) - log (cs j k)) := by
    intro j
    refine (mix_progress hL ha hφ0 hb hgb (hgc j) hfix).trans (le_of_eq ?_)
    congr 1
    apply Finset.sum_congr rfl
    intro k hk
    have hk := mem_range.mp hk
    rw [hcs j k hk, mul_div_assoc, log_mul (hpos j k hk).ne' (div_pos (hApos _ (hgc j) k hk) hL).ne']
    ring
  have htel : ∀ M : ℕ, ∑ j ∈ range M, (mixL n N φ a b - mixL n N φ a (cs j)) ≤
      L * ∑ k ∈ range n, b k * (log (cs M k) - log (cs 0 k)) := by
    intro M
    induction M with
    | zero => simp
    | succ M ih =>
      rw [Finset.sum_range_succ]
      refine (add_le_add ih (hprog M)).trans (le_of_eq ?_)
      rw [← mul_add, ← Finset.sum_add_distrib]
      congr 1
      exact Finset.sum_congr rfl fun k _ => by ring
  have hbound : L * ∑ k ∈ range n, b k * (log (cs (j + 1) k) - log (cs 0 k)) ≤ L * T * log (T / m) := by
    rw [mul_assoc]
    apply mul_le_mul_of_nonneg_left _ hL.le
    rw [← hbT, Finset.sum_mul]
    apply Finset.sum_le_sum
    intro k hk
    have hk' := mem_range.mp hk
    apply mul_le_mul_of_nonneg_left _ (hb k hk')
    rw [hbT, log_div hT.ne' hm.ne']
    have h1 : cs (j + 1) k ≤ T := by
      rw [← hsum (j + 1)]
      exact Finset.single_le_sum (f := fun k => cs (j + 1) k)
        (fun l hl => (hpos (j + 1) l (mem_range.mp hl)).le) hk
    have h2 := log_le_log (hpos (j + 1) k hk') h1
    have h3 := log_le_log hm (h0 k hk')
    linarith
  have hlow : ((j : ℝ) + 1) * (mixL n N φ a b - mixL n N φ a (cs j)) ≤
      ∑ l ∈ range (j + 1), (mixL n N φ a b - mixL n N φ a (cs l)) := by
    have : ∑ l ∈ range (j + 1), (mixL n N φ a b - mixL n N φ a (cs j)) ≤
        ∑ l ∈ range (j + 1), (mixL n N φ a b - mixL n N φ a (cs l)) := by
      apply Finset.sum_le_sum
      intro l hl
      have := hmono (Nat.lt_succ_iff.mp (mem_range.mp hl))
      simp only at this
      linarith
    refine le_trans (le_of_eq ?_) this
    rw [Finset.sum_const, card_range, nsmul_eq_mul]
    push_cast
    ring
  rw [le_div_iff₀ (by positivity)]
  have hcb := hmax c hc hcT
  have := htel (j + 1)
  have h5 : (mixL n N φ a c - mixL n N φ a (cs j)) * ((j : ℝ) + 1) ≤
      ((j : ℝ) + 1) * (mixL n N φ a b - mixL n N φ a (cs j)) := by
    rw [mul_comm]
    exact mul_le_mul_of_nonneg_left (by linarith) (by positivity)
  linarith

end
end BFit
