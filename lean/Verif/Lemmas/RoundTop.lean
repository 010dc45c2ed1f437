import Verif.Lemmas.RoundNear

/-! Computed numbers near exact ones, with relative errors and underflow. -/

namespace BFit

open Real Classical Finset

noncomputable section

/-- `a` differs from `b` by at most `k` relative errors and the absolute errors collected in `T - B`; `B` bounds `b`. -/
def NearTop (u : ℝ) (k : ℕ) (a b B T : ℝ) : Prop := |b| ≤ B ∧ B ≤ T ∧ |a - b| ≤ 1 / (1 - u) ^ k * T - B

section
variable {u : ℝ} (h0 : 0 ≤ u) (h1 : u < 1)
include h0 h1

omit h0 h1 in
theorem NearTop.of_near {k : ℕ} {a b B : ℝ} (h : NearBy u k a b B) : NearTop u k a b B B :=
  ⟨h.2, le_rfl, by linarith [h.1]⟩

theorem NearTop.mono {k l : ℕ} {a b B T U : ℝ} (h : NearTop u k a b B T) (hkl : k ≤ l) (hT : T ≤ U) :
    NearTop u l a b B U := by
  refine ⟨h.1, h.2.1.trans hT, h.2.2.trans ?_⟩
  have hp : (1 - u) ^ l ≤ (1 - u) ^ k := pow_le_pow_of_le_one (by linarith) (by linarith) hkl
  have g1 := gpow h0 h1 k
  have g2 := gpow h0 h1 l
  have h3 : 1 / (1 - u) ^ k ≤ 1 / (1 - u) ^ l := one_div_le_one_div_of_le g2.1 hp
  have hB0 : 0 ≤ T := ((abs_nonneg _).trans h.1).trans h.2.1
  have := mul_le_mul h3 hT hB0 (by linarith)
  linarith

omit h0 h1 in
theorem NearTop.abs_le {k : ℕ} {a b B T : ℝ} (h : NearTop u k a b B T) : |a| ≤ 1 / (1 - u) ^ k * T := by
  have h2 : |a| ≤ |a - b| + |b| := by
    have := abs_add_le (a - b) b
    rwa [sub_add_cancel] at this
  linarith [h.1, h.2.2]

omit h0 h1 in
theorem NearTop.mul {k l : ℕ} {a b B T c d D U : ℝ} (h : NearTop u k a b B T) (h' : NearTop u l c d D U) :
    NearTop u (k + l) (a * c) (b * d) (B * D) (T * U) := by
  have hB0 : 0 ≤ B := (abs_nonneg _).trans h.1
  have hD0 : 0 ≤ D := (abs_nonneg _).trans h'.1
  refine ⟨by rw [abs_mul]; exact mul_le_mul h.1 h'.1 (abs_nonneg _) hB0,
    mul_le_mul h.2.1 h'.2.1 hD0 (hB0.trans h.2.1), ?_⟩
  have e : a * c - b * d = (a - b) * c + b * (c - d) := by ring
  rw [e]
  refine (abs_add_le _ _).trans ?_
  rw [abs_mul, abs_mul]
  have t1 : |a - b| * |c| ≤ (1 / (1 - u) ^ k * T - B) * (1 / (1 - u) ^ l * U) :=
    mul_le_mul h.2.2 (h'.abs_le) (abs_nonneg _) ((abs_nonneg _).trans h.2.2)
  have t2 : |b| * |c - d| ≤ B * (1 / (1 - u) ^ l * U - D) := mul_le_mul h.1 h'.2.2 (abs_nonneg _) hB0
  have e2 : 1 / (1 - u) ^ (k + l) = 1 / (1 - u) ^ k * (1 / (1 - u) ^ l) := by
    rw [pow_add]; field_simp
  rw [e2]
  nlinarith

theorem NearTop.rel_left {k l : ℕ} {a' a b B T : ℝ} (h : NearTop u k a b B T) (h' : Rel u l a' a) :
    NearTop u (k + l) a' b B T := by
  obtain ⟨t, ht, ht', rfl⟩ := h'
  have r : Rel u l t 1 := ⟨t, ht, ht', by ring⟩
  have := h.mul (NearTop.of_near (NearBy.of_rel h0 h1 r))
  simpa using this

/-- One more operation, that may underflow. -/
theorem NearTop.fu {τ : ℝ} (hτ : 0 ≤ τ) {k : ℕ} {a' a b B T : ℝ} (h : NearTop u k a b B T) (h' : Fu u τ a' a) :
    NearTop u (k + 1) a' b B (T + u * τ) := by
  have hT : T ≤ T + u * τ := by have := mul_nonneg h0 hτ; linarith
  rcases h' with h' | ⟨-, -, h', -⟩
  · exact (h.rel_left h0 h1 (Rel.of_fl h0 h1 h')).mono h0 h1 le_rfl hT
  · have h := h.mono h0 h1 (Nat.le_succ k) (le_refl T)
    have g := gpow h0 h1 (k + 1)
    refine ⟨h.1, h.2.1.trans hT, ?_⟩
    have e : |a' - b| ≤ |a' - a| + |a - b| := by
      have := abs_add_le (a' - a) (a - b)
      rwa [sub_add_sub_cancel] at this
    have h3 := h.2.2
    have h4 := mul_le_mul_of_nonneg_right g.2 (mul_nonneg h0 hτ)
    simp only [Nat.succ_eq_add_one] at h3
    linarith

theorem NearTop.div_rel {k l : ℕ} {a b B T c d : ℝ} (h : NearTop u k a b B T) (h' : Rel u l c d) :
    NearTop u (k + l) (a / c) (b / d) (B / |d|) (T / |d|) := by
  have := h.mul (NearTop.of_near (NearBy.of_rel h0 h1 (h'.inv h0 h1)))
  rwa [abs_inv] at this

omit h0 h1 in
theorem NearTop.sq {k : ℕ} {a b B T : ℝ} (h : NearTop u k a b B T) : NearTop u (2 * k) (a ^ 2) (b ^ 2) (B ^ 2) (T ^ 2) := by
  have := h.mul h
  rwa [← two_mul, ← pow_two, ← pow_two, ← pow_two, ← pow_two] at this

omit h0 h1 in
theorem NearTop.sum {k n : ℕ} {a b B T : ℕ → ℝ} (h : ∀ i < n, NearTop u k (a i) (b i) (B i) (T i)) :
    NearTop u k (∑ i ∈ range n, a i) (∑ i ∈ range n, b i) (∑ i ∈ range n, B i) (∑ i ∈ range n, T i) := by
  refine ⟨(abs_sum_le_sum_abs _ _).trans (sum_le_sum fun i hi => (h i (mem_range.mp hi)).1),
    sum_le_sum fun i hi => (h i (mem_range.mp hi)).2.1, ?_⟩
  rw [← sum_sub_distrib, mul_sum, ← sum_sub_distrib]
  exact (abs_sum_le_sum_abs _ _).trans (sum_le_sum fun i hi => (h i (mem_range.mp hi)).2.2)

/-- Products of computed numbers, added in any order. -/
theorem RDens.nearTop {τ : ℝ} (hτ : 0 ≤ τ) {n j l : ℕ} {φ ψ B T c d D U : ℕ → ℝ} {m : ℝ} (h : RDens u τ n φ c m)
    (hφ : ∀ k < n, NearTop u j (φ k) (ψ k) (B k) (T k)) (hc : ∀ k < n, NearTop u l (c k) (d k) (D k) (U k)) :
    NearTop u (j + l + n) m (∑ k ∈ range n, ψ k * d k) (∑ k ∈ range n, B k * D k)
      (∑ k ∈ range n, (T k * U k + u * τ)) := by
  obtain ⟨t, ht, hs⟩ := h
  obtain ⟨b, hb, rfl⟩ := hs.rel_tab h0 h1
  refine NearTop.sum fun k hk => ?_
  have := (((hφ k hk).mul (hc k hk)).fu h0 h1 hτ (ht k hk)).rel_left h0 h1 (hb k hk)
  exact this.mono h0 h1 (by omega) le_rfl

theorem one_div_pow_add (k : ℕ) : 1 / (1 - u) ^ k - 1 + u ≤ 1 / (1 - u) ^ (k + 1) - 1 := by
  have g := gpow h0 h1 k
  have hu : 0 < 1 - u := by linarith
  have e : 1 / (1 - u) ^ (k + 1) = 1 / (1 - u) ^ k * (1 / (1 - u)) := by rw [pow_succ]; field_simp
  have e2 : 1 + u ≤ 1 / (1 - u) := by rw [le_div_iff₀ hu]; nlinarith
  rw [e]
  nlinarith [mul_le_mul_of_nonneg_left e2 (by linarith [g.2] : 0 ≤ 1 / (1 - u) ^ k)]

omit h0 h1 in
theorem mul_exp_neg_le_one (y : ℝ) : y * exp (-y) ≤ 1 := by
  have h := add_one_le_exp y
  have e : exp y * exp (-y) = 1 := by rw [← exp_add]; simp
  nlinarith [exp_pos (-y)]

omit h0 h1 in
theorem exp_neg_lipschitz {a b : ℝ} (ha : 0 ≤ a) (hb : 0 ≤ b) : |exp (-a) - exp (-b)| ≤ |a - b| := by
  have key : ∀ a b : ℝ, 0 ≤ a → a ≤ b → exp (-a) - exp (-b) ≤ b - a := by
    intro a b ha hab
    have h := add_one_le_exp (-(b - a))
    have e : exp (-b) = exp (-a) * exp (-(b - a)) := by rw [← exp_add]; congr 1; ring
    have h1 : exp (-a) ≤ 1 := exp_le_one_iff.mpr (by linarith)
    rw [e]
    nlinarith [exp_pos (-a)]
  rcases le_total a b with h | h
  · rw [abs_of_nonneg (by have := exp_le_exp.mpr (neg_le_neg h); linarith), abs_sub_comm, abs_of_nonneg (by linarith)]
    exact key a b ha h
  · rw [abs_sub_comm, abs_of_nonneg (by have := exp_le_exp.mpr (neg_le_neg h); linarith), abs_of_nonneg (by linarith)]
    exact key b a hb h

/-- The exponential of a number with relative errors differs by an absolute error that does not depend on the number. -/
theorem Rel.exp_neg_abs {k : ℕ} {a x : ℝ} (hx : 0 ≤ x) (h : Rel u k a x) :
    |exp (-a) - exp (-x)| ≤ 1 / (1 - u) ^ k - 1 := by
  have key : ∀ (a x : ℝ), 0 ≤ x → x ≤ a → a * (1 - u) ^ k ≤ x → exp (-x) - exp (-a) ≤ 1 / (1 - u) ^ k - 1 := by
    intro a x hx hxa hk
    have g := gpow h0 h1 k
    have h := add_one_le_exp (-(a - x))
    have e : exp (-a) = exp (-x) * exp (-(a - x)) := by rw [← exp_add]; congr 1; ring
    have h2 : a - x ≤ (1 / (1 - u) ^ k - 1) * x := by
      have : a ≤ 1 / (1 - u) ^ k * x := by rw [div_mul_eq_mul_div, one_mul, le_div_iff₀ g.1]; exact hk
      linarith
    have h3 := mul_exp_neg_le_one x
    have h4 : exp (-x) - exp (-a) ≤ exp (-x) * (a - x) := by
      rw [e]; nlinarith [exp_pos (-x)]
    have h5 := mul_le_mul_of_nonneg_left h2 (exp_pos (-x)).le
    have h6 := mul_le_mul_of_nonneg_left h3 (by linarith [g.2] : 0 ≤ 1 / (1 - u) ^ k - 1)
    nlinarith
  have b := h.bounds h0 h1 hx
  have ha := h.nonneg h0 h1 hx
  rcases le_total a x with hl | hl
  · rw [abs_of_nonneg (by have := exp_le_exp.mpr (neg_le_neg hl); linarith)]
    exact key x a ha hl b.1
  · rw [abs_sub_comm, abs_of_nonneg (by have := exp_le_exp.mpr (neg_le_neg hl); linarith)]
    exact key a x hx hl b.2

end

end
end BFit
