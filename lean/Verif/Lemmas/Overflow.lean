import Verif.Model.Overflow
import Verif.Lemmas.RoundQuad
import Verif.Lemmas.RoundTop
import Verif.Props.RoundSplit

/-! Operations that do not overflow. -/

namespace BFit

open Real Classical Finset

noncomputable section

variable {u τ Ω : ℝ}

theorem FloatFormat.ut (h : FloatFormat u τ Ω) : u * τ ≤ 1 / 1000 := by
  have h1 := h.Ω1
  have h2 := h.low
  have h3 := mul_nonneg h.u0 h.τ0.le
  nlinarith

theorem Fx.fin {v : XR} {x : ℝ} (h : Fx u τ Ω v (.fin x)) (hx : |x| < Ω) : ∃ y, v = .fin y ∧ Fu u τ y x := by
  rcases h with ⟨_, h⟩ | ⟨h, _⟩
  · exact h
  · exact absurd hx (not_lt.mpr h)

theorem Fu.of_zero {y : ℝ} (h : Fu u τ y 0) : y = 0 := by
  rcases h with h | ⟨h, _⟩
  · unfold Fl at h
    simpa using h
  · simp at h

theorem Fx.zero {v : XR} (hΩ : 0 < Ω) (h : Fx u τ Ω v (.fin 0)) : v = .fin 0 := by
  obtain ⟨y, rfl, h'⟩ := h.fin (by simpa using hΩ)
  rw [h'.of_zero]

/-- An operation has an admissible result. -/
theorem Fx.total (h0 : 0 ≤ u) (x : XR) : ∃ v, Fx u τ Ω v x := by
  cases x with
  | fin x =>
    by_cases h : |x| < 2 * Ω
    · exact ⟨.fin x, .inl ⟨h, x, rfl, Fu.refl h0 x⟩⟩
    · by_cases h' : Ω ≤ |x|
      · exact ⟨_, .inr ⟨h', rfl⟩⟩
      · exact ⟨.fin x, .inl ⟨by linarith [abs_nonneg x], x, rfl, Fu.refl h0 x⟩⟩
  | pinf => exact ⟨_, rfl⟩
  | ninf => exact ⟨_, rfl⟩
  | nan => exact ⟨_, rfl⟩

theorem Fu.le (hf : FloatFormat u τ Ω) {v x : ℝ} (h : Fu u τ v x) (hx : 0 ≤ x) : v ≤ (1 + u) * x + u * τ := by
  have h3 := mul_nonneg hf.u0 hf.τ0.le
  have h4 := mul_nonneg hf.u0 hx
  rcases h with h | ⟨_, _, h, _⟩
  · unfold Fl at h
    rw [abs_of_nonneg hx] at h
    have := (abs_le.mp h).2
    linarith
  · have := (abs_le.mp h).2
    linarith

theorem Fu.le' (hf : FloatFormat u τ Ω) {v x : ℝ} (h : Fu u τ v x) (hx : 0 ≤ x) : v ≤ 11 / 10 * x + 1 / 1000 := by
  have h1 := h.le hf hx
  have h2 := hf.ut
  have h3 := mul_le_mul_of_nonneg_right hf.u1 hx
  linarith

theorem exp_neg_le_six {x : ℝ} (hx : 0 < x) : exp (-x) ≤ 720 / x ^ 6 := by
  have h := Real.pow_div_factorial_le_exp x hx.le 6
  have e : ((6).factorial : ℝ) = 720 := by norm_num [Nat.factorial]
  rw [e] at h
  rw [exp_neg, le_div_iff₀ (by positivity), inv_mul_le_iff₀ (exp_pos x)]
  linarith [(div_le_iff₀ (by norm_num : (0:ℝ) < 720)).mp h]

/-- Far out the exponential may be rounded to zero. -/
theorem fu_zero_exp (hf : FloatFormat u τ Ω) {x : ℝ} (hx0 : 0 < x) (hx : Ω ≤ x ^ 2) : Fu u τ 0 (exp (-x)) := by
  have hΩ := hf.Ω1
  have h1 := exp_neg_le_six hx0
  have h2 : Ω ^ 3 ≤ x ^ 6 := by
    have := pow_le_pow_left₀ (by linarith) hx 3
    rwa [← pow_mul] at this
  have h3 : 720 / x ^ 6 ≤ u * τ := by
    rw [div_le_iff₀ (by positivity)]
    have := mul_le_mul_of_nonneg_left h2 (mul_nonneg hf.u0 hf.τ0.le)
    linarith [hf.high]
  have h4 := exp_pos (-x)
  refine .inr ⟨abs_pos.mpr h4.ne', ?_, ?_, by simp⟩
  · rw [abs_of_pos h4]
    have := mul_le_mul_of_nonneg_right hf.u1 hf.τ0.le
    linarith [hf.τ0]
  · rw [zero_sub, abs_neg, abs_of_pos h4]
    linarith

/-! ### sums -/

/-- The real number of a finite value. -/
def toReal : XR → ℝ
  | .fin x => x
  | _ => 0

theorem map_fin_toReal {l : List XR} (h : ∀ v ∈ l, ∃ x, v = .fin x) : l = (l.map toReal).map XR.fin := by
  rw [List.map_map]
  conv_lhs => rw [← List.map_id l]
  refine List.map_congr_left fun v hv => ?_
  obtain ⟨x, rfl⟩ := h v hv
  rfl

theorem fl_of_fu_zero {v x : ℝ} (h : Fu u 0 v x) : Fl u v x := by
  rcases h with h | ⟨h, h', _⟩
  · exact h
  · linarith

/-- `Σ |x|` of a list. -/
def sumAbs (x : List ℝ) : ℝ := (x.map fun a => |a|).sum

theorem sumAbs_nonneg (x : List ℝ) : 0 ≤ sumAbs x :=
  List.sum_nonneg (by simp only [List.mem_map]; rintro _ ⟨a, _, rfl⟩; exact abs_nonneg a)

theorem sumAbs_append (x y : List ℝ) : sumAbs (x ++ y) = sumAbs x + sumAbs y := by simp [sumAbs]

theorem sumAbs_perm {x y : List ℝ} (h : x.Perm y) : sumAbs x = sumAbs y := (h.map _).sum_eq

theorem inv_pow_mono (h0 : 0 ≤ u) (h1 : u < 1) {m n : ℕ} (h : m ≤ n) : 1 / (1 - u) ^ m ≤ 1 / (1 - u) ^ n :=
  one_div_le_one_div_of_le (pow_pos (by linarith) n) (pow_le_pow_of_le_one (by linarith) (by linarith) h)

theorem RSum.abs_le (h0 : 0 ≤ u) (h1 : u < 1) {x : List ℝ} {s : ℝ} (h : RSum u x s) :
    |s| ≤ 1 / (1 - u) ^ x.length * sumAbs x := by
  have hu : 0 < 1 - u := by linarith
  induction h with
  | nil => simp [sumAbs]
  | one x =>
    simp only [sumAbs, List.length_singleton, List.map_cons, List.map_nil, List.sum_cons, List.sum_nil, add_zero]
    have := inv_pow_mono h0 h1 (Nat.zero_le 1)
    rw [pow_zero, one_div_one] at this
    exact le_mul_of_one_le_left (abs_nonneg x) this
  | @add l l₁ l₂ s₁ s₂ s _ _ n₁ n₂ hl hs ih₁ ih₂ =>
    have p₁ : 0 < l₁.length := List.length_pos_iff.mpr n₁
    have p₂ : 0 < l₂.length := List.length_pos_iff.mpr n₂
    have hlen : l.length = l₁.length + l₂.length := by rw [hl.length_eq, List.length_append]
    rw [sumAbs_perm hl, sumAbs_append]
    have e : 1 / (1 - u) ^ l.length = 1 / (1 - u) * (1 / (1 - u) ^ (l.length - 1)) := by
      conv_lhs => rw [show l.length = 1 + (l.length - 1) by omega, pow_add, pow_one]
      field_simp
    have q₁ := mul_le_mul_of_nonneg_right (inv_pow_mono h0 h1 (show l₁.length ≤ l.length - 1 by omega)) (sumAbs_nonneg l₁)
    have q₂ := mul_le_mul_of_nonneg_right (inv_pow_mono h0 h1 (show l₂.length ≤ l.length - 1 by omega)) (sumAbs_nonneg l₂)
    have hsum : |s₁ + s₂| ≤ 1 / (1 - u) ^ (l.length - 1) * (sumAbs l₁ + sumAbs l₂) := by
      have := abs_add_le s₁ s₂
      rw [mul_add]; linarith
    have hg : 1 + u ≤ 1 / (1 - u) := by rw [le_div_iff₀ hu]; nlinarith
    have hfl : |s| ≤ (1 + u) * |s₁ + s₂| := by
      unfold Fl at hs
      have := abs_add_le (s - (s₁ + s₂)) (s₁ + s₂)
      rw [sub_add_cancel] at this
      linarith
    rw [e, mul_assoc]
    exact hfl.trans (mul_le_mul hg hsum (abs_nonneg _) (by positivity))

/-- Sums of finite numbers do not overflow if the sum of the absolute values is small enough. -/
theorem XSum.fin (h0 : 0 ≤ u) (h1 : u < 1) {l : List XR} {v : XR} (h : XSum u Ω l v) :
    ∀ x : List ℝ, l = x.map XR.fin → 1 / (1 - u) ^ x.length * sumAbs x < Ω → ∃ y, v = .fin y ∧ RSum u x y := by
  induction h with
  | nil =>
    intro x hx _
    have : x = [] := by simpa using hx.symm
    exact ⟨0, rfl, this ▸ .nil⟩
  | one a =>
    intro x hx _
    cases x with
    | nil => simp at hx
    | cons b x =>
      simp only [List.map_cons, List.cons.injEq] at hx
      obtain ⟨rfl, hx⟩ := hx
      have : x = [] := by simpa using hx.symm
      exact ⟨b, rfl, this ▸ .one b⟩
  | @add l l₁ l₂ s₁ s₂ s _ _ n₁ n₂ hl hs ih₁ ih₂ =>
    intro x hx hb
    rw [hx] at hl
    have hmem : ∀ v ∈ l₁ ++ l₂, ∃ x, v = XR.fin x := by
      intro v hv
      obtain ⟨y, _, rfl⟩ := List.mem_map.mp (hl.mem_iff.mpr hv)
      exact ⟨y, rfl⟩
    have e₁ := map_fin_toReal (fun v hv => hmem v (List.mem_append_left _ hv))
    have e₂ := map_fin_toReal (fun v hv => hmem v (List.mem_append_right _ hv))
    have hp : x.Perm (l₁.map toReal ++ l₂.map toReal) := by
      have := hl.map toReal
      rw [List.map_map, List.map_append] at this
      rwa [show toReal ∘ XR.fin = id from rfl, List.map_id] at this
    have p₁ : 0 < l₁.length := List.length_pos_iff.mpr n₁
    have p₂ : 0 < l₂.length := List.length_pos_iff.mpr n₂
    have hlen : x.length = l₁.length + l₂.length := by rw [hp.length_eq]; simp
    rw [sumAbs_perm hp, sumAbs_append] at hb
    have a₁ := sumAbs_nonneg (l₁.map toReal)
    have a₂ := sumAbs_nonneg (l₂.map toReal)
    have q₁ := mul_le_mul_of_nonneg_right (inv_pow_mono h0 h1 (show (l₁.map toReal).length ≤ x.length by simp; omega)) a₁
    have q₂ := mul_le_mul_of_nonneg_right (inv_pow_mono h0 h1 (show (l₂.map toReal).length ≤ x.length by simp; omega)) a₂
    have hg : 0 ≤ 1 / (1 - u) ^ x.length := by
      have : 0 < 1 - u := by linarith
      positivity
    have r₁ := mul_nonneg hg a₁
    have r₂ := mul_nonneg hg a₂
    rw [mul_add] at hb
    obtain ⟨y₁, rfl, f₁⟩ := ih₁ _ e₁ (by linarith)
    obtain ⟨y₂, rfl, f₂⟩ := ih₂ _ e₂ (by linarith)
    have b₁ := f₁.abs_le h0 h1
    have b₂ := f₂.abs_le h0 h1
    have hs : Fx u 0 Ω s (.fin (y₁ + y₂)) := hs
    obtain ⟨y, rfl, hy⟩ := hs.fin (lt_of_le_of_lt (abs_add_le _ _) (by linarith))
    exact ⟨y, rfl, .add f₁ f₂ (by simpa using n₁) (by simpa using n₂) hp (fl_of_fu_zero hy)⟩

end
end BFit
