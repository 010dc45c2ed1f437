import Verif.Lemmas.RoundQuad

/-! Computed numbers near exact ones, with an error relative to a bound of the exact number. -/

namespace BFit

open Real Classical Finset

noncomputable section

/-- `a` differs from `b` by at most `k` relative errors of `B`, and `B` bounds `b`. -/
def NearBy (u : ℝ) (k : ℕ) (a b B : ℝ) : Prop := |a - b| ≤ (1 / (1 - u) ^ k - 1) * B ∧ |b| ≤ B

section
variable {u : ℝ} (h0 : 0 ≤ u) (h1 : u < 1)
include h0 h1

theorem gpow (k : ℕ) : 0 < (1 - u) ^ k ∧ 1 ≤ 1 / (1 - u) ^ k := by
  have h : 0 < (1 - u) ^ k := pow_pos (by linarith) k
  exact ⟨h, by rw [le_div_iff₀ h, one_mul]; exact pow_le_one₀ (by linarith) (by linarith)⟩

theorem NearBy.of_rel {k : ℕ} {a b : ℝ} (h : Rel u k a b) : NearBy u k a b |b| := ⟨h.abs_sub h0 h1, le_rfl⟩

theorem NearBy.refl (b : ℝ) : NearBy u 0 b b |b| := NearBy.of_rel h0 h1 (Rel.refl h0 h1 b)

theorem NearBy.mono {k l : ℕ} {a b B C : ℝ} (h : NearBy u k a b B) (hkl : k ≤ l) (hB : B ≤ C) : NearBy u l a b C := by
  refine ⟨h.1.trans ?_, h.2.trans hB⟩
  have hp : (1 - u) ^ l ≤ (1 - u) ^ k := pow_le_pow_of_le_one (by linarith) (by linarith) hkl
  have g1 := gpow h0 h1 k
  have g2 := gpow h0 h1 l
  have h3 : 1 / (1 - u) ^ k ≤ 1 / (1 - u) ^ l := one_div_le_one_div_of_le g2.1 hp
  have hB0 : 0 ≤ B := (abs_nonneg _).trans h.2
  exact mul_le_mul (by linarith) hB hB0 (by linarith)

theorem NearBy.abs_le {k : ℕ} {a b B : ℝ} (h : NearBy u k a b B) : |a| ≤ 1 / (1 - u) ^ k * B := by
  have h2 : |a| ≤ |a - b| + |b| := by
    have := abs_add_le (a - b) b
    rwa [sub_add_cancel] at this
  linarith [h.1, h.2]

theorem NearBy.mul {k l : ℕ} {a b B c d D : ℝ} (h : NearBy u k a b B) (h' : NearBy u l c d D) :
    NearBy u (k + l) (a * c) (b * d) (B * D) := by
  have hB0 : 0 ≤ B := (abs_nonneg _).trans h.2
  have hD0 : 0 ≤ D := (abs_nonneg _).trans h'.2
  refine ⟨?_, by rw [abs_mul]; exact mul_le_mul h.2 h'.2 (abs_nonneg _) hB0⟩
  have g1 := gpow h0 h1 k
  have g2 := gpow h0 h1 l
  have e : a * c - b * d = (a - b) * c + b * (c - d) := by ring
  rw [e]
  refine (abs_add_le _ _).trans ?_
  rw [abs_mul, abs_mul]
  have t1 : |a - b| * |c| ≤ (1 / (1 - u) ^ k - 1) * B * (1 / (1 - u) ^ l * D) :=
    mul_le_mul h.1 (h'.abs_le h0 h1) (abs_nonneg _) (mul_nonneg (by linarith) hB0)
  have t2 : |b| * |c - d| ≤ B * ((1 / (1 - u) ^ l - 1) * D) := mul_le_mul h.2 h'.1 (abs_nonneg _) hB0
  have e2 : 1 / (1 - u) ^ (k + l) = 1 / (1 - u) ^ k * (1 / (1 - u) ^ l) := by
    rw [pow_add]; field_simp
  rw [e2]
  nlinarith

/-- One more rounding. -/
theorem NearBy.rel_left {k l : ℕ} {a' a b B : ℝ} (h : NearBy u k a b B) (h' : Rel u l a' a) : NearBy u (k + l) a' b B := by
  obtain ⟨t, ht, ht', rfl⟩ := h'
  have r : Rel u l t 1 := ⟨t, ht, ht', by ring⟩
  have := h.mul h0 h1 (NearBy.of_rel h0 h1 r)
  simpa using this

theorem NearBy.fu {k : ℕ} {a' a b B : ℝ} (h : NearBy u k a b B) (h' : Fu u 0 a' a) : NearBy u (k + 1) a' b B :=
  h.rel_left h0 h1 (Rel.of_fu h0 h1 h')

theorem NearBy.fl {k : ℕ} {a' a b B : ℝ} (h : NearBy u k a b B) (h' : Fl u a' a) : NearBy u (k + 1) a' b B :=
  h.rel_left h0 h1 (Rel.of_fl h0 h1 h')

theorem NearBy.mul_rel {k l : ℕ} {a b B c d : ℝ} (h : NearBy u k a b B) (h' : Rel u l c d) :
    NearBy u (k + l) (a * c) (b * d) (B * |d|) := h.mul h0 h1 (NearBy.of_rel h0 h1 h')

theorem NearBy.div_rel {k l : ℕ} {a b B c d : ℝ} (h : NearBy u k a b B) (h' : Rel u l c d) :
    NearBy u (k + l) (a / c) (b / d) (B / |d|) := by
  have := h.mul_rel h0 h1 (h'.inv h0 h1)
  rwa [abs_inv] at this

theorem NearBy.sq {k : ℕ} {a b B : ℝ} (h : NearBy u k a b B) : NearBy u (2 * k) (a ^ 2) (b ^ 2) (B ^ 2) := by
  have := h.mul h0 h1 h
  rwa [← two_mul, ← pow_two, ← pow_two, ← pow_two] at this

theorem NearBy.add {k : ℕ} {a b B c d D : ℝ} (h : NearBy u k a b B) (h' : NearBy u k c d D) :
    NearBy u k (a + c) (b + d) (B + D) := by
  refine ⟨?_, (abs_add_le _ _).trans (add_le_add h.2 h'.2)⟩
  rw [mul_add, show a + c - (b + d) = a - b + (c - d) by ring]
  exact (abs_add_le _ _).trans (add_le_add h.1 h'.1)

omit h0 h1 in
theorem NearBy.neg {k : ℕ} {a b B : ℝ} (h : NearBy u k a b B) : NearBy u k (-a) (-b) B := by
  refine ⟨?_, by rw [abs_neg]; exact h.2⟩
  rw [show -a - -b = -(a - b) by ring, abs_neg]
  exact h.1

theorem NearBy.sum {k n : ℕ} {a b B : ℕ → ℝ} (h : ∀ i < n, NearBy u k (a i) (b i) (B i)) :
    NearBy u k (∑ i ∈ range n, a i) (∑ i ∈ range n, b i) (∑ i ∈ range n, B i) := by
  refine ⟨?_, (abs_sum_le_sum_abs _ _).trans (sum_le_sum fun i hi => (h i (mem_range.mp hi)).2)⟩
  rw [← sum_sub_distrib, mul_sum]
  exact (abs_sum_le_sum_abs _ _).trans (sum_le_sum fun i hi => (h i (mem_range.mp hi)).1)

/-- Products with exact numbers, added in any order. -/
theorem RDens.near {n j : ℕ} {φ ψ B c : ℕ → ℝ} {m : ℝ} (h : RDens u 0 n φ c m)
    (hφ : ∀ k < n, NearBy u j (φ k) (ψ k) (B k)) :
    NearBy u (j + n) m (∑ k ∈ range n, ψ k * c k) (∑ k ∈ range n, B k * |c k|) := by
  obtain ⟨t, ht, hs⟩ := h
  obtain ⟨b, hb, rfl⟩ := hs.rel_tab h0 h1
  refine NearBy.sum h0 h1 fun k hk => ?_
  have := (((hφ k hk).mul_rel h0 h1 (Rel.refl h0 h1 (c k))).fu h0 h1 (ht k hk)).rel_left h0 h1 (hb k hk)
  exact this.mono h0 h1 (by omega) le_rfl

end

end
end BFit
