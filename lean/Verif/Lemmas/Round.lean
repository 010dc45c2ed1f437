import Verif.Model.Round
import Verif.Lemmas.FPI
import Mathlib.Analysis.SpecialFunctions.Pow.Real
import Mathlib.Analysis.SpecialFunctions.Log.Basic
import Mathlib.Data.List.Perm.Basic

/-! Accumulated relative errors. -/

namespace BFit

open Real Classical Finset

noncomputable section

/-- `a` is `b` up to `k` relative errors: the quotient lies between `(1-u)^k` and its inverse. -/
def Rel (u : ℝ) (k : ℕ) (a b : ℝ) : Prop :=
  ∃ t, (1 - u) ^ k ≤ t ∧ t * (1 - u) ^ k ≤ 1 ∧ a = b * t

theorem sum_tab_range (n : ℕ) (f : ℕ → ℝ) : ((List.range n).map f).sum = ∑ k ∈ range n, f k := by
  induction n with
  | zero => simp
  | succ n ih => rw [List.range_succ, List.map_append, List.sum_append, ih, Finset.sum_range_succ]; simp

section
variable {u : ℝ} (h0 : 0 ≤ u) (h1 : u < 1)
include h0 h1

theorem Rel.refl (a : ℝ) : Rel u 0 a a := ⟨1, by simp, by simp, by simp⟩

theorem Rel.mono {k l : ℕ} {a b : ℝ} (h : Rel u k a b) (hkl : k ≤ l) : Rel u l a b := by
  obtain ⟨t, ht, ht', rfl⟩ := h
  have hp : (1 - u) ^ l ≤ (1 - u) ^ k := pow_le_pow_of_le_one (by linarith) (by linarith) hkl
  have ht0 : 0 ≤ t := (pow_nonneg (by linarith) k).trans ht
  exact ⟨t, hp.trans ht, (mul_le_mul_of_nonneg_left hp ht0).trans ht', rfl⟩

theorem Rel.of_fl {v x : ℝ} (h : Fl u v x) : Rel u 1 v x := by
  unfold Fl at h
  by_cases hx : x = 0
  · subst hx
    refine ⟨1, by linarith [pow_one (1 - u)], by linarith [pow_one (1 - u)], ?_⟩
    simp at h
    simp [h]
  · have hx' : 0 < |x| := abs_pos.mpr hx
    have : |v / x - 1| ≤ u := by
      rw [show v / x - 1 = (v - x) / x by field_simp, abs_div, div_le_iff₀ hx']
      exact h
    rw [abs_le] at this
    refine ⟨v / x, by rw [pow_one]; linarith, ?_, by field_simp⟩
    rw [pow_one]
    nlinarith

theorem Rel.of_fu {v x : ℝ} (h : Fu u 0 v x) : Rel u 1 v x := by
  rcases h with h | ⟨-, h, -⟩
  · exact Rel.of_fl h0 h1 h
  · exact absurd h (not_lt.mpr (abs_nonneg x))

theorem Rel.trans {k l : ℕ} {a b c : ℝ} (h : Rel u k a b) (h' : Rel u l b c) : Rel u (k + l) a c := by
  obtain ⟨t, ht, ht', rfl⟩ := h
  obtain ⟨s, hs, hs', rfl⟩ := h'
  have hk : 0 ≤ (1 - u) ^ k := pow_nonneg (by linarith) k
  have hl : 0 ≤ (1 - u) ^ l := pow_nonneg (by linarith) l
  refine ⟨s * t, ?_, ?_, by ring⟩
  · rw [pow_add, mul_comm]
    exact mul_le_mul hs ht hk (hl.trans hs)
  · rw [pow_add, show s * t * ((1 - u) ^ k * (1 - u) ^ l) = (t * (1 - u) ^ k) * (s * (1 - u) ^ l) by ring]
    exact mul_le_one₀ ht' (mul_nonneg (hl.trans hs) hl) hs'

theorem Rel.mul {k l : ℕ} {a b c d : ℝ} (h : Rel u k a b) (h' : Rel u l c d) :
    Rel u (k + l) (a * c) (b * d) := by
  have h2 : Rel u k (a * c) (b * c) := by
    obtain ⟨t, ht, ht', rfl⟩ := h
    exact ⟨t, ht, ht', by ring⟩
  have h3 : Rel u l (b * c) (b * d) := by
    obtain ⟨t, ht, ht', rfl⟩ := h'
    exact ⟨t, ht, ht', by ring⟩
  exact h2.trans h0 h1 h3

theorem Rel.inv {k : ℕ} {a b : ℝ} (h : Rel u k a b) : Rel u k a⁻¹ b⁻¹ := by
  obtain ⟨t, ht, ht', rfl⟩ := h
  have hk : 0 < (1 - u) ^ k := pow_pos (by linarith) k
  have ht0 : 0 < t := hk.trans_le ht
  refine ⟨t⁻¹, ?_, ?_, by rw [mul_inv]⟩
  · rw [le_inv_comm₀ hk ht0, ← one_div, le_div_iff₀ hk]
    exact ht'
  · rw [inv_mul_le_iff₀ ht0, mul_one]
    exact ht

theorem Rel.div {k l : ℕ} {a b c d : ℝ} (h : Rel u k a b) (h' : Rel u l c d) :
    Rel u (k + l) (a / c) (b / d) := by
  rw [div_eq_mul_inv, div_eq_mul_inv]
  exact h.mul h0 h1 (h'.inv h0 h1)

/-- The bounds on a number equal to a non-negative one up to `k` errors. -/
theorem Rel.bounds {k : ℕ} {a b : ℝ} (h : Rel u k a b) (hb : 0 ≤ b) :
    b * (1 - u) ^ k ≤ a ∧ a * (1 - u) ^ k ≤ b := by
  obtain ⟨t, ht, ht', rfl⟩ := h
  refine ⟨mul_le_mul_of_nonneg_left ht hb, ?_⟩
  rw [mul_assoc]
  exact mul_le_of_le_one_right hb ht'

theorem Rel.of_bounds {k : ℕ} {a b : ℝ} (hb : 0 ≤ b) (h : b * (1 - u) ^ k ≤ a) (h' : a * (1 - u) ^ k ≤ b) :
    Rel u k a b := by
  have hk : 0 < (1 - u) ^ k := pow_pos (by linarith) k
  rcases hb.eq_or_lt with rfl | hb
  · have h2 : a = 0 := by
      rw [zero_mul] at h
      nlinarith
    exact ⟨1, pow_le_one₀ (by linarith) (by linarith),
      by rw [one_mul]; exact pow_le_one₀ (by linarith) (by linarith), by simp [h2]⟩
  · refine ⟨a / b, ?_, ?_, by field_simp⟩
    · rw [le_div_iff₀ hb]; linarith
    · rw [div_mul_eq_mul_div, div_le_one hb]; exact h'

theorem Rel.symm {k : ℕ} {a b : ℝ} (h : Rel u k a b) : Rel u k b a := by
  obtain ⟨t, ht, ht', rfl⟩ := h
  have hk : 0 < (1 - u) ^ k := pow_pos (by linarith) k
  have ht0 : 0 < t := hk.trans_le ht
  refine ⟨t⁻¹, ?_, ?_, by field_simp⟩
  · rw [le_inv_comm₀ hk ht0, ← one_div, le_div_iff₀ hk]
    exact ht'
  · rw [inv_mul_le_iff₀ ht0, mul_one]
    exact ht

theorem Rel.nonneg {k : ℕ} {a b : ℝ} (h : Rel u k a b) (hb : 0 ≤ b) : 0 ≤ a :=
  (mul_nonneg hb (pow_nonneg (by linarith) k)).trans (h.bounds h0 h1 hb).1

theorem Rel.pos {k : ℕ} {a b : ℝ} (h : Rel u k a b) (hb : 0 < b) : 0 < a :=
  (mul_pos hb (pow_pos (by linarith) k)).trans_le (h.bounds h0 h1 hb.le).1

theorem Rel.sum {k n : ℕ} {a b : ℕ → ℝ} (h : ∀ i < n, Rel u k (a i) (b i)) (hb : ∀ i < n, 0 ≤ b i) :
    Rel u k (∑ i ∈ range n, a i) (∑ i ∈ range n, b i) := by
  refine Rel.of_bounds h0 h1 (sum_nonneg fun i hi => hb i (mem_range.mp hi)) ?_ ?_
  · rw [sum_mul]
    exact sum_le_sum fun i hi =>
      ((h i (mem_range.mp hi)).bounds h0 h1 (hb i (mem_range.mp hi))).1
  · rw [sum_mul]
    exact sum_le_sum fun i hi =>
      ((h i (mem_range.mp hi)).bounds h0 h1 (hb i (mem_range.mp hi))).2

/-- The distance of signed numbers. -/
theorem Rel.abs_sub {k : ℕ} {a b : ℝ} (h : Rel u k a b) : |a - b| ≤ (1 / (1 - u) ^ k - 1) * |b| := by
  obtain ⟨t, ht, ht', rfl⟩ := h
  have hk : 0 < (1 - u) ^ k := pow_pos (by linarith) k
  rw [show b * t - b = (t - 1) * b by ring, abs_mul]
  refine mul_le_mul_of_nonneg_right ?_ (abs_nonneg b)
  have hq : t ≤ 1 / (1 - u) ^ k := by rw [le_div_iff₀ hk]; exact ht'
  rw [abs_le]
  refine ⟨?_, by linarith⟩
  have : 2 ≤ (1 - u) ^ k + 1 / (1 - u) ^ k := by
    rw [← sub_nonneg, show (1 - u) ^ k + 1 / (1 - u) ^ k - 2 = ((1 - u) ^ k - 1) ^ 2 / (1 - u) ^ k by
      field_simp; ring]
    positivity
  linarith

/-- Summation: every term is multiplied by one factor per addition it takes part in. -/
theorem RSum.rel {l : List ℝ} {s : ℝ} (h : RSum u l s) :
    ∃ l', List.Forall₂ (Rel u (l.length - 1)) l' l ∧ s = l'.sum := by
  induction h with
  | nil => exact ⟨[], .nil, by simp⟩
  | one x => exact ⟨[x], .cons (Rel.refl h0 h1 x) .nil, by simp⟩
  | @add l l₁ l₂ s₁ s₂ s _ _ n₁ n₂ hl hs ih₁ ih₂ =>
    obtain ⟨m₁, f₁, rfl⟩ := ih₁
    obtain ⟨m₂, f₂, rfl⟩ := ih₂
    obtain ⟨t, ht, ht', rfl⟩ := Rel.of_fl h0 h1 hs
    have p₁ : 0 < l₁.length := List.length_pos_iff.mpr n₁
    have p₂ : 0 < l₂.length := List.length_pos_iff.mpr n₂
    have hlen : l.length = l₁.length + l₂.length := by rw [hl.length_eq, List.length_append]
    have hscale : ∀ (m n : List ℝ) (j : ℕ), j + 1 ≤ l.length - 1 → List.Forall₂ (Rel u j) m n →
        List.Forall₂ (Rel u (l.length - 1)) (m.map (· * t)) n := by
      intro m n j hj hf
      rw [List.forall₂_map_left_iff]
      refine hf.imp fun a b hab => ?_
      refine Rel.mono h0 h1 ?_ hj
      rw [add_comm]
      exact Rel.trans h0 h1 ⟨t, ht, ht', rfl⟩ hab
    have hf : List.Forall₂ (Rel u (l.length - 1)) (m₁.map (· * t) ++ m₂.map (· * t)) (l₁ ++ l₂) :=
      List.rel_append (hscale _ _ _ (by omega) f₁) (hscale _ _ _ (by omega) f₂)
    obtain ⟨l', hf', hp⟩ := List.perm_comp_forall₂ hl hf.flip
    refine ⟨l', hf'.flip, ?_⟩
    rw [hp.sum_eq, List.sum_append, List.sum_map_mul_right, List.sum_map_mul_right]
    simp
    ring

theorem RSum.rel_tab {n : ℕ} {t : ℕ → ℝ} {s : ℝ} (h : RSum u ((List.range n).map t) s) :
    ∃ t' : ℕ → ℝ, (∀ i < n, Rel u (n - 1) (t' i) (t i)) ∧ s = ∑ i ∈ range n, t' i := by
  obtain ⟨l', hf, rfl⟩ := h.rel h0 h1
  simp only [List.length_map, List.length_range] at hf
  have hl : l'.length = n := by simpa using hf.length_eq
  refine ⟨vec l', ?_, ?_⟩
  · intro i hi
    have := hf.get (hl ▸ hi) (by simpa using hi)
    simp only [List.get_eq_getElem, List.getElem_map, List.getElem_range] at this
    rw [vec, List.getD_eq_getElem _ _ (hl ▸ hi)]
    exact this
  · conv_lhs => rw [eq_range_map l' n hl]
    exact sum_tab_range n _

/-- The trapezoid sum with rounding: each trapezoid carries `N + 2` errors at most. -/
theorem RTrapz.rel {N : ℕ} {x y : ℕ → ℝ} {v : ℝ} (h : RTrapz u 0 N x y v) :
    ∃ b : ℕ → ℝ, (∀ i < N - 1, Rel u (N + 2) (b i) ((x (i + 1) - x i) * (y (i + 1) + y i) / 2)) ∧
      v = ∑ i ∈ range (N - 1), b i := by
  obtain ⟨t, ht, hs⟩ := h
  obtain ⟨b, hb, rfl⟩ := hs.rel_tab h0 h1
  refine ⟨b, fun i hi => ?_, rfl⟩
  obtain ⟨d, s, p, hd, hs, hp, ht⟩ := ht i (by omega)
  have r1 := (Rel.of_fl h0 h1 hd).mul h0 h1 (Rel.of_fl h0 h1 hs)
  have r2 := (Rel.of_fu h0 h1 hp).trans h0 h1 r1
  have r3 := r2.div h0 h1 (Rel.refl h0 h1 2)
  have r4 := (Rel.of_fu h0 h1 ht).trans h0 h1 r3
  exact ((hb i hi).trans h0 h1 r4).mono h0 h1 (by omega)

theorem RWeighted.rel {N : ℕ} {w y : ℕ → ℝ} {v : ℝ} (h : RWeighted u 0 N w y v) :
    ∃ b : ℕ → ℝ, (∀ i < N, Rel u N (b i) (w i * y i)) ∧ v = ∑ i ∈ range N, b i := by
  obtain ⟨t, ht, hs⟩ := h
  obtain ⟨b, hb, rfl⟩ := hs.rel_tab h0 h1
  exact ⟨b, fun i hi => ((hb i hi).trans h0 h1 (Rel.of_fu h0 h1 (ht i hi))).mono h0 h1 (by omega), rfl⟩

/-- A sum of numbers with errors, in absolute value. -/
theorem abs_sum_sub_le {k n : ℕ} {a b : ℕ → ℝ} (h : ∀ i < n, Rel u k (a i) (b i)) :
    |∑ i ∈ range n, a i - ∑ i ∈ range n, b i| ≤ (1 / (1 - u) ^ k - 1) * ∑ i ∈ range n, |b i| := by
  rw [← sum_sub_distrib, mul_sum]
  exact (abs_sum_le_sum_abs _ _).trans (sum_le_sum fun i hi => (h i (mem_range.mp hi)).abs_sub h0 h1)

end

/-- The bound in the usual form `k u / (1 - k u)`. -/
theorem gamma_le {u : ℝ} (h0 : 0 ≤ u) {k : ℕ} (h : k * u < 1) (hu : u ≤ 1) :
    1 / (1 - u) ^ k - 1 ≤ k * u / (1 - k * u) := by
  have hb : 1 - k * u ≤ (1 - u) ^ k := by
    have := one_add_mul_le_pow (a := -u) (by linarith) k
    rw [← sub_eq_add_neg] at this
    linarith
  have hp : 0 < 1 - k * u := by linarith
  have h2 : 1 / (1 - u) ^ k ≤ 1 / (1 - k * u) := one_div_le_one_div_of_le hp hb
  have h3 : 1 / (1 - k * u) - 1 = k * u / (1 - k * u) := by field_simp; ring
  linarith

end
end BFit
