import Verif.Model.Measure
import Verif.Spec.Measure
import Mathlib.Tactic.Positivity
import Mathlib.Tactic.Ring
import Mathlib.Tactic.Linarith
import Mathlib.Tactic.NormNum

/-! Pointwise evaluation of the measures on finite input. -/

namespace BFit

open Real Classical

noncomputable section

theorem tiny_pos : 0 < tiny := by unfold tiny; positivity

/-- Masked division at an unmasked entry. -/
theorem maDiv_unmasked {μ f g fill : ℝ} (hf : 0 ≤ f) (hg : 0 < g) (h : Unmasked μ f g) :
    maDivFilled (XR.fin μ) (XR.fin fill) (XR.fin f) (XR.fin g) = XR.fin (f / g) := by
  unfold maDivFilled
  rw [XR.div_fin_of_ne _ hg.ne', if_neg]
  simp only [XR.le_fin, XR.isFinite_fin, not_true_eq_false, XR.abs_fin, XR.mul_fin, false_or, not_or,
    not_le]
  rw [abs_of_nonneg hf, abs_of_pos hg]
  exact h

/-- Masked division at a masked entry. -/
theorem maDiv_masked {μ f g : ℝ} {fill : XR} (hf : 0 ≤ f) (hg : 0 ≤ g) (h : ¬ Unmasked μ f g) :
    maDivFilled (XR.fin μ) fill (XR.fin f) (XR.fin g) = fill := by
  unfold maDivFilled
  rw [if_pos]
  simp only [XR.le_fin, XR.abs_fin, XR.mul_fin]
  rw [abs_of_nonneg hf, abs_of_nonneg hg]
  unfold Unmasked at h
  by_cases h1 : μ < g
  · right; right
    by_contra h2
    exact h ⟨h1, not_le.mp h2⟩
  · left; exact not_lt.mp h1

/-- An entry at or below the mask is masked for every density value. -/
theorem maDiv_le_mask {mask fill f g : XR} (h : g ≤ mask) : maDivFilled mask fill f g = fill := by
  unfold maDivFilled; rw [if_pos (Or.inl h)]

theorem unmasked_pos {μ f g : ℝ} (hf : 0 ≤ f) (h : Unmasked μ f g) : 0 < g :=
  lt_of_le_of_lt (mul_nonneg hf tiny_pos.le) h.2

theorem klVal_unmasked {μ f g : ℝ} (h : Unmasked μ f g) : klVal μ f g = klInt f g := by
  unfold klVal; rw [if_pos h]

theorem klVal_masked {μ f g : ℝ} (h : ¬ Unmasked μ f g) : klVal μ f g = 0 := by
  unfold klVal; rw [if_neg h]

/-- The KL entry for positive density. -/
theorem kl_entry {μ f g : ℝ} (hf : 0 < f) (hg : 0 ≤ g) :
    XR.fin f * XR.log (maDivFilled (XR.fin μ) (XR.fin 1) (XR.fin f) (XR.fin g)) =
      XR.fin (klVal μ f g) := by
  by_cases h : Unmasked μ f g
  · have hg' := unmasked_pos hf.le h
    rw [maDiv_unmasked hf.le hg' h, XR.log_fin_of_pos (div_pos hf hg'), XR.mul_fin, klVal_unmasked h]
    rfl
  · rw [maDiv_masked hf.le hg h, XR.log_fin_of_pos one_pos, XR.mul_fin, klVal_masked h]
    simp

theorem no_neg_fins {g : List ℝ} (hg : ∀ x ∈ g, 0 ≤ x) : ¬ ∃ x ∈ fins g, x < XR.fin 0 := by
  rintro ⟨x, hx, hlt⟩
  obtain ⟨y, hy, rfl⟩ := List.mem_map.mp hx
  exact absurd hlt (not_lt.mpr (hg y hy))

theorem checkArgs_vec (d m : List XR) (h : m.length = d.length) (b : Bool) :
    checkArgs (.arr (ND.vec d)) (.arr (ND.vec m)) (.bool b) = .ok (d, m, b) := by
  simp [checkArgs, ND.ndim, ND.vec, h]

theorem kl_evaluate_vec (k : KL) (d m : List XR) (h : m.length = d.length) (b : Bool) :
    k.evaluate (.arr (ND.vec d)) (.arr (ND.vec m)) (.bool b) = .ok (k.core d m b) := by
  simp [KL.evaluate, checkArgs_vec d m h b]

theorem sq_evaluate_vec (d m : List XR) (h : m.length = d.length) (b : Bool) :
    sqEvaluate (.arr (ND.vec d)) (.arr (ND.vec m)) (.bool b) = .ok (sqCore d m b) := by
  simp [sqEvaluate, checkArgs_vec d m h b]

theorem ts_evaluate_vec (t : Tsallis) (d m : List XR) (h : m.length = d.length) (b : Bool) :
    t.evaluate (.arr (ND.vec d)) (.arr (ND.vec m)) (.bool b) = .ok (t.core d m b) := by
  simp [Tsallis.evaluate, checkArgs_vec d m h b]

/-- The KL values on positive densities and non-negative models. -/
theorem kl_core_fins (μ : ℝ) (nv : XR) (f g : List ℝ) (hf : ∀ x ∈ f, 0 < x) (hg : ∀ x ∈ g, 0 ≤ x)
    (b : Bool) :
    ((KL.mk (XR.fin μ) nv).core (fins f) (fins g) b).1 = fins (List.zipWith (klVal μ) f g) := by
  unfold KL.core
  rw [if_neg (no_neg_fins hg)]
  simp only [KL.ratio]
  induction f generalizing g with
  | nil => simp
  | cons x f ih =>
    cases g with
    | nil => simp
    | cons y g =>
      simp only [fins_cons, List.zipWith_cons_cons]
      rw [kl_entry (hf x (by simp)) (hg y (by simp)),
        ih g (fun z hz => hf z (by simp [hz])) (fun z hz => hg z (by simp [hz]))]

/-- The KL ratio (minus the derivative) on non-negative input. -/
def klRatio (μ f g : ℝ) : ℝ := if Unmasked μ f g then f / g else 1

theorem kl_ratio_fins (μ : ℝ) (nv : XR) (f g : List ℝ) (hf : ∀ x ∈ f, 0 ≤ x) (hg : ∀ x ∈ g, 0 ≤ x) :
    (KL.mk (XR.fin μ) nv).ratio (fins f) (fins g) = fins (List.zipWith (klRatio μ) f g) := by
  unfold KL.ratio
  induction f generalizing g with
  | nil => simp
  | cons x f ih =>
    cases g with
    | nil => simp
    | cons y g =>
      simp only [fins_cons, List.zipWith_cons_cons]
      rw [ih g (fun z hz => hf z (by simp [hz])) (fun z hz => hg z (by simp [hz]))]
      congr 1
      have h0 := hf x (by simp)
      have h1 := hg y (by simp)
      unfold klRatio
      by_cases h : Unmasked μ x y
      · rw [if_pos h, maDiv_unmasked h0 (unmasked_pos h0 h) h]
      · rw [if_neg h, maDiv_masked h0 h1 h]

/-- The Tsallis entry at an unmasked point. -/
theorem ts_entry {μ f g α : ℝ} (hf : 0 < f) (h : Unmasked μ f g) (hα : α ≠ 1) :
    (XR.fin f * (XR.pow (maDivFilled (XR.fin μ) (XR.fin 0) (XR.fin f) (XR.fin g)) (α - 1) - XR.fin 1))
      / XR.fin (α - 1) = XR.fin (tsInt α f g) := by
  have hg := unmasked_pos hf.le h
  rw [maDiv_unmasked hf.le hg h, XR.pow_fin_of_pos (div_pos hf hg), XR.sub_fin, XR.mul_fin,
    XR.div_fin_of_ne _ (sub_ne_zero.mpr hα)]
  rfl

end
end BFit
