import Verif.Lemmas.Measure
import Mathlib.Analysis.SpecialFunctions.Log.Deriv
import Mathlib.Analysis.SpecialFunctions.Pow.Deriv
import Mathlib.Analysis.Convex.SpecificFunctions.Basic

/-! Properties C20-C25, C27-C29, C31: the measures point by point. -/

namespace BFit

open Real Classical

noncomputable section

/-! ### C20 -/

/-- **C20**.  On every pair of arrays of equal length, entry `i` is `(f_i - g_i)²`; it is ≥ 0, zero
exactly when the two values agree and symmetric in the two arrays; with `deriv=True` entry `i` of the
second array is the derivative w.r.t. the model value. -/
theorem C20_squared_difference (f g : List ℝ) (hl : g.length = f.length) (b : Bool) :
    ∃ (v : List ℝ) (d : Option (List XR)),
      sqEvaluate (.arr (ND.vec (fins f))) (.arr (ND.vec (fins g))) (.bool b) = .ok (fins v, d) ∧
      (∃ d', sqEvaluate (.arr (ND.vec (fins g))) (.arr (ND.vec (fins f))) (.bool b) = .ok (fins v, d')) ∧
      v.length = f.length ∧ (b = false → d = none) ∧
      ∀ (i : ℕ) (x y : ℝ), f[i]? = some x → g[i]? = some y →
        ∃ w, v[i]? = some w ∧ w = (x - y) ^ 2 ∧ 0 ≤ w ∧ (w = 0 ↔ x = y) ∧
          (b = true → ∃ ds dv, d = some ds ∧ ds[i]? = some (XR.fin dv) ∧
            HasDerivAt (fun t => (x - t) ^ 2) dv y) := by
  have hcore : ∀ a c : List ℝ, sqCore (fins a) (fins c) b =
      (fins (List.zipWith (fun x y => (x - y) ^ 2) a c),
        if b then some (fins (List.zipWith (fun x y => -2 * (x - y)) a c)) else none) := by
    intro a c
    unfold sqCore
    rw [zipWith_fins (g := fun x y => x - y) (by simp)]
    simp [List.map_zipWith]
  refine ⟨List.zipWith (fun x y => (x - y) ^ 2) f g,
    if b then some (fins (List.zipWith (fun x y => -2 * (x - y)) f g)) else none, ?_, ⟨
    if b then some (fins (List.zipWith (fun x y => -2 * (x - y)) g f)) else none, ?_⟩, ?_, ?_, ?_⟩
  · rw [sq_evaluate_vec _ _ (by simp [hl]), hcore]
  · rw [sq_evaluate_vec _ _ (by simp [hl]), hcore, List.zipWith_comm]
    congr 4
    funext x y
    ring
  · simp [hl]
  · rintro rfl; rfl
  · intro i x y hx hy
    refine ⟨(x - y) ^ 2, by simp [List.getElem?_zipWith, hx, hy], rfl, sq_nonneg _, ?_, ?_⟩
    · rw [pow_eq_zero_iff two_ne_zero, sub_eq_zero]
    · rintro rfl
      refine ⟨_, -2 * (x - y), rfl, by simp [List.getElem?_zipWith, hx, hy], ?_⟩
      have h := ((hasDerivAt_id y).const_sub x).pow 2
      refine HasDerivAt.congr_deriv h ?_
      simp

example : ∃ d, sqEvaluate (.arr (ND.vec (fins [1, 5]))) (.arr (ND.vec (fins [3, 5]))) (.bool true) =
    .ok (fins [4, 0], d) := by
  refine ⟨some (fins [4, 0]), ?_⟩
  rw [sq_evaluate_vec (fins [1, 5]) (fins [3, 5]) rfl true]
  unfold sqCore
  norm_num

/-! ### C21 -/

theorem hasDerivAt_klInt {f g : ℝ} (hf : 0 < f) (hg : 0 < g) :
    HasDerivAt (fun t => klInt f t) (-(f / g)) g := by
  unfold klInt
  have h1 : HasDerivAt (fun t : ℝ => f / t) (-f / g ^ 2) g := by
    have := (hasDerivAt_const g f).div (hasDerivAt_id g) hg.ne'
    refine HasDerivAt.congr_deriv this ?_
    simp
  have h2 := (h1.log (div_pos hf hg).ne').const_mul f
  refine HasDerivAt.congr_deriv h2 ?_
  field_simp

/-- **C21**.  Whatever the other entries are (as long as no model value is negative), an entry with
positive density and unmasked model gets the value `f ln(f/g)` and the derivative `-f/g`, which is
the derivative of the integrand w.r.t. the model value. -/
theorem C21_value_and_derivative (μ : ℝ) (nv : XR) (d m : List XR) (hl : m.length = d.length)
    (hm : ∀ x ∈ m, ¬ x < XR.fin 0) (b : Bool) (i : ℕ) (f g : ℝ) (hdi : d[i]? = some (XR.fin f))
    (hmi : m[i]? = some (XR.fin g)) (hf : 0 < f) (hun : Unmasked μ f g) :
    ∃ v dv, (KL.mk (XR.fin μ) nv).evaluate (.arr (ND.vec d)) (.arr (ND.vec m)) (.bool b) = .ok (v, dv) ∧
      v[i]? = some (XR.fin (f * log (f / g))) ∧
      (b = false → dv = none) ∧
      (b = true → ∃ ds, dv = some ds ∧ ds[i]? = some (XR.fin (-(f / g))) ∧
        HasDerivAt (fun t => f * log (f / t)) (-(f / g)) g) := by
  have hg := unmasked_pos hf.le hun
  have hneg : ¬ ∃ x ∈ m, x < XR.fin 0 := by rintro ⟨x, hx, h⟩; exact hm x hx h
  refine ⟨(KL.core _ d m b).1, (KL.core _ d m b).2, kl_evaluate_vec _ _ _ hl _, ?_, ?_, ?_⟩
  · unfold KL.core
    rw [if_neg hneg]
    simp only [KL.ratio, List.getElem?_zipWith, hdi, hmi]
    rw [maDiv_unmasked hf.le hg hun, XR.log_fin_of_pos (div_pos hf hg), XR.mul_fin]
  · rintro rfl
    unfold KL.core
    rw [if_neg hneg]
    rfl
  · rintro rfl
    unfold KL.core
    rw [if_neg hneg]
    refine ⟨_, rfl, ?_, hasDerivAt_klInt hf hg⟩
    simp only [KL.ratio, List.getElem?_map, List.getElem?_zipWith, hdi, hmi]
    rw [maDiv_unmasked hf.le hg hun]
    simp

/-- The hypotheses of C21 are met by ordinary data and the default mask. -/
example : Unmasked 1e-12 2 3 := by
  constructor
  · norm_num
  · unfold tiny
    have : (2 : ℝ) ^ (-1022 : ℤ) ≤ 1 := zpow_le_one_of_nonpos₀ (by norm_num) (by norm_num)
    linarith

/-! ### C22 -/

/-- **C22**.  A non-negative model value at or below the mask contributes exactly zero for every
finite density value, and the derivative there is `-1`. -/
theorem C22_mask (μ : ℝ) (nv : XR) (d m : List XR) (hl : m.length = d.length)
    (hm : ∀ x ∈ m, ¬ x < XR.fin 0) (b : Bool) (i : ℕ) (f g : ℝ) (hdi : d[i]? = some (XR.fin f))
    (hmi : m[i]? = some (XR.fin g)) (hmask : g ≤ μ) :
    ∃ v dv, (KL.mk (XR.fin μ) nv).evaluate (.arr (ND.vec d)) (.arr (ND.vec m)) (.bool b) = .ok (v, dv) ∧
      v[i]? = some (XR.fin 0) ∧
      (b = true → ∃ ds, dv = some ds ∧ ds[i]? = some (XR.fin (-1))) := by
  have hneg : ¬ ∃ x ∈ m, x < XR.fin 0 := by rintro ⟨x, hx, h⟩; exact hm x hx h
  have hr : maDivFilled (XR.fin μ) (XR.fin 1) (XR.fin f) (XR.fin g) = XR.fin 1 :=
    maDiv_le_mask (by simpa using hmask)
  refine ⟨(KL.core _ d m b).1, (KL.core _ d m b).2, kl_evaluate_vec _ _ _ hl _, ?_, ?_⟩
  · unfold KL.core
    rw [if_neg hneg]
    simp only [KL.ratio, List.getElem?_zipWith, hdi, hmi]
    rw [hr, XR.log_fin_of_pos one_pos, XR.mul_fin]
    simp
  · rintro rfl
    unfold KL.core
    rw [if_neg hneg]
    refine ⟨_, rfl, ?_⟩
    simp only [KL.ratio, List.getElem?_map, List.getElem?_zipWith, hdi, hmi]
    rw [hr]
    simp

/-- C22 at work next to an unmasked entry. -/
example : ∃ v dv, (KL.mk (XR.fin 1) (XR.fin 5)).evaluate (.arr (ND.vec (fins [7, 2])))
    (.arr (ND.vec (fins [1, 2]))) (.bool false) = .ok (v, dv) ∧ v[0]? = some (XR.fin 0) := by
  obtain ⟨v, dv, h, h1, _⟩ := C22_mask 1 (XR.fin 5) (fins [7, 2]) (fins [1, 2]) rfl
    (by simp) false 0 7 1 rfl rfl le_rfl
  exact ⟨v, dv, h, h1⟩

/-! ### C23 -/

/-- **C23**.  One negative model value anywhere makes every entry of the result (and of the
derivative) the configured penalty; without a negative value the result does not depend on the
penalty. -/
theorem C23_negative_penalty (mask nv : XR) (d m : List XR) (hl : m.length = d.length) (b : Bool) :
    ((∃ x ∈ m, x < XR.fin 0) →
      (KL.mk mask nv).evaluate (.arr (ND.vec d)) (.arr (ND.vec m)) (.bool b) =
        .ok (List.replicate d.length nv, if b then some (List.replicate d.length nv) else none)) ∧
    ((∀ x ∈ m, ¬ x < XR.fin 0) → ∀ nv',
      (KL.mk mask nv).evaluate (.arr (ND.vec d)) (.arr (ND.vec m)) (.bool b) =
      (KL.mk mask nv').evaluate (.arr (ND.vec d)) (.arr (ND.vec m)) (.bool b)) := by
  constructor
  · intro h
    rw [kl_evaluate_vec _ _ _ hl]
    unfold KL.core
    rw [if_pos h, hl]
  · intro h nv'
    have hneg : ¬ ∃ x ∈ m, x < XR.fin 0 := by rintro ⟨x, hx, h'⟩; exact h x hx h'
    rw [kl_evaluate_vec _ _ _ hl, kl_evaluate_vec _ _ _ hl]
    unfold KL.core
    rw [if_neg hneg, if_neg hneg]
    rfl

example : ∃ x ∈ fins [1, -2, 3], x < XR.fin 0 := ⟨XR.fin (-2), by simp, by simp⟩

/-! ### C24 -/

/-- **C24** fails: at a point where the density is zero and the model exceeds the mask the entry is
NaN (`0 * log 0`), for every mask and every such model value. -/
theorem C24_zero_density_is_nan (μ : ℝ) (hμ : 0 ≤ μ) (nv : XR) (d m : List XR)
    (hl : m.length = d.length) (hm : ∀ x ∈ m, ¬ x < XR.fin 0) (b : Bool) (i : ℕ) (g : ℝ)
    (hdi : d[i]? = some (XR.fin 0)) (hmi : m[i]? = some (XR.fin g)) (hg : μ < g) :
    ∃ v dv, (KL.mk (XR.fin μ) nv).evaluate (.arr (ND.vec d)) (.arr (ND.vec m)) (.bool b) = .ok (v, dv) ∧
      v[i]? = some XR.nan := by
  have hneg : ¬ ∃ x ∈ m, x < XR.fin 0 := by rintro ⟨x, hx, h⟩; exact hm x hx h
  have hg0 : 0 < g := lt_of_le_of_lt hμ hg
  refine ⟨(KL.core _ d m b).1, (KL.core _ d m b).2, kl_evaluate_vec _ _ _ hl _, ?_⟩
  unfold KL.core
  rw [if_neg hneg]
  simp only [KL.ratio, List.getElem?_zipWith, hdi, hmi]
  rw [maDiv_unmasked le_rfl hg0 ⟨hg, by simpa using hg0⟩]
  simp [XR.fin_mul_ninf]

/-- **C24**, the part that holds: a zero density contributes zero where the model is at or below the
mask.  Missing: model values above the mask, where `C24_zero_density_is_nan` shows the entry is NaN. -/
theorem C24_zero_density_partial (μ : ℝ) (nv : XR) (d m : List XR) (hl : m.length = d.length)
    (hm : ∀ x ∈ m, ¬ x < XR.fin 0) (b : Bool) (i : ℕ) (g : ℝ)
    (hdi : d[i]? = some (XR.fin 0)) (hmi : m[i]? = some (XR.fin g)) (hg : g ≤ μ) :
    ∃ v dv, (KL.mk (XR.fin μ) nv).evaluate (.arr (ND.vec d)) (.arr (ND.vec m)) (.bool b) = .ok (v, dv) ∧
      v[i]? = some (XR.fin 0) := by
  obtain ⟨v, dv, h, h1, _⟩ := C22_mask μ nv d m hl hm b i 0 g hdi hmi hg
  exact ⟨v, dv, h, h1⟩

/-- A concrete failing input with the default object: density `[0, 1]`, model `[1, 1]`. -/
example : ∃ v dv, KL.default.evaluate (.arr (ND.vec (fins [0, 1]))) (.arr (ND.vec (fins [1, 1])))
    (.bool false) = .ok (v, dv) ∧ v[0]? = some XR.nan :=
  C24_zero_density_is_nan 1e-12 (by norm_num) (XR.fin 100000) (fins [0, 1]) (fins [1, 1]) rfl (by simp)
    false 0 1 rfl rfl (by norm_num)

/-! ### C25 -/

/-- **C25** fails: where the model is NaN the masked division turns the NaN ratio into 1, so the
entry is exactly zero, i.e. a perfect fit, for every finite density. -/
theorem C25_nan_model_reported_as_zero (mask nv : XR) (d m : List XR) (hl : m.length = d.length)
    (hm : ∀ x ∈ m, ¬ x < XR.fin 0) (b : Bool) (i : ℕ) (f : ℝ) (hdi : d[i]? = some (XR.fin f))
    (hmi : m[i]? = some XR.nan) :
    ∃ v dv, (KL.mk mask nv).evaluate (.arr (ND.vec d)) (.arr (ND.vec m)) (.bool b) = .ok (v, dv) ∧
      v[i]? = some (XR.fin 0) := by
  have hneg : ¬ ∃ x ∈ m, x < XR.fin 0 := by rintro ⟨x, hx, h⟩; exact hm x hx h
  refine ⟨(KL.core _ d m b).1, (KL.core _ d m b).2, kl_evaluate_vec _ _ _ hl _, ?_⟩
  unfold KL.core
  rw [if_neg hneg]
  simp only [KL.ratio, List.getElem?_zipWith, hdi, hmi]
  have : maDivFilled mask (XR.fin 1) (XR.fin f) XR.nan = XR.fin 1 := by
    unfold maDivFilled; rw [if_pos (by simp)]
  rw [this, XR.log_fin_of_pos one_pos, XR.mul_fin]
  simp

/-- **C25**, the part that holds: an infinite model value at a point of positive density is not
hidden, the entry is `-inf`.  Missing: NaN model values, see `C25_nan_model_reported_as_zero`. -/
theorem C25_infinite_model_partial (μ : ℝ) (nv : XR) (d m : List XR) (hl : m.length = d.length)
    (hm : ∀ x ∈ m, ¬ x < XR.fin 0) (b : Bool) (i : ℕ) (f : ℝ) (hf : 0 < f)
    (hdi : d[i]? = some (XR.fin f)) (hmi : m[i]? = some XR.pinf) :
    ∃ v dv, (KL.mk (XR.fin μ) nv).evaluate (.arr (ND.vec d)) (.arr (ND.vec m)) (.bool b) = .ok (v, dv) ∧
      v[i]? = some XR.ninf := by
  have hneg : ¬ ∃ x ∈ m, x < XR.fin 0 := by rintro ⟨x, hx, h⟩; exact hm x hx h
  refine ⟨(KL.core _ d m b).1, (KL.core _ d m b).2, kl_evaluate_vec _ _ _ hl _, ?_⟩
  unfold KL.core
  rw [if_neg hneg]
  simp only [KL.ratio, List.getElem?_zipWith, hdi, hmi]
  have : maDivFilled (XR.fin μ) (XR.fin 1) (XR.fin f) XR.pinf = XR.fin 0 := by
    unfold maDivFilled; rw [if_neg (by simp)]; simp
  rw [this, XR.log_zero, XR.fin_mul_ninf, XR.sgnInf_neg (by linarith)]

/-- A model that is NaN everywhere gets a KL integrand that is zero everywhere. -/
example : KL.default.evaluate (.arr (ND.vec (fins [1, 2]))) (.arr (ND.vec [XR.nan, XR.nan]))
    (.bool false) = .ok (fins [0, 0], none) := by
  rw [kl_evaluate_vec KL.default (fins [1, 2]) [XR.nan, XR.nan] rfl false]
  unfold KL.core KL.ratio
  rw [if_neg (by simp)]
  simp [maDivFilled, XR.log_fin_of_pos one_pos]

/-! ### C27 -/

/-- **C27** (construction).  A finite alpha is accepted exactly when it is non-negative and at least
1e-10 away from one; otherwise ValueError. -/
theorem C27_construction (α : ℝ) (mask : XR) :
    (0 ≤ α ∧ 1e-10 ≤ |α - 1| → Tsallis.init α mask = .ok ⟨α, mask⟩) ∧
    (¬ (0 ≤ α ∧ 1e-10 ≤ |α - 1|) → Tsallis.init α mask = .error .valueError) := by
  unfold Tsallis.init raise
  constructor
  · rintro ⟨h1, h2⟩
    rw [if_neg (not_lt.mpr h1), if_neg (not_lt.mpr h2)]
  · intro h
    by_cases h1 : α < 0
    · rw [if_pos h1]
    · rw [if_neg h1, if_pos]
      by_contra h2
      exact h ⟨not_lt.mp h1, not_lt.mp h2⟩

theorem hasDerivAt_tsInt {α f g : ℝ} (hα : α ≠ 1) (hf : 0 < f) (hg : 0 < g) :
    HasDerivAt (fun t => tsInt α f t) (-((f / g) ^ α)) g := by
  unfold tsInt
  have h1 : HasDerivAt (fun t : ℝ => f / t) (-f / g ^ 2) g := by
    have := (hasDerivAt_const g f).div (hasDerivAt_id g) hg.ne'
    refine HasDerivAt.congr_deriv this ?_
    simp
  have hq : 0 < f / g := div_pos hf hg
  have h2 := (((h1.rpow_const (p := α - 1) (Or.inl hq.ne')).sub_const 1).const_mul f).div_const (α - 1)
  refine HasDerivAt.congr_deriv h2 ?_
  have hs : α - 1 ≠ 0 := sub_ne_zero.mpr hα
  have e1 : (f / g) ^ (α - 1 - 1) = (f / g) ^ α / (f / g) ^ 2 := by
    rw [show α - 1 - 1 = α - (2 : ℕ) by push_cast; ring, rpow_sub_natCast hq.ne']
  rw [e1]
  field_simp

/-- **C27** (value and derivative).  At an unmasked point with positive density the Tsallis measure
returns the documented integrand and its derivative w.r.t. the model value. -/
theorem C27_value_and_derivative (α μ : ℝ) (t : Tsallis) (ht : Tsallis.init α (XR.fin μ) = .ok t)
    (d m : List XR) (hl : m.length = d.length) (b : Bool) (i : ℕ) (f g : ℝ)
    (hdi : d[i]? = some (XR.fin f)) (hmi : m[i]? = some (XR.fin g)) (hf : 0 < f)
    (hun : Unmasked μ f g) :
    ∃ v dv, t.evaluate (.arr (ND.vec d)) (.arr (ND.vec m)) (.bool b) = .ok (v, dv) ∧
      v[i]? = some (XR.fin (f * ((f / g) ^ (α - 1) - 1) / (α - 1))) ∧
      (b = false → dv = none) ∧
      (b = true → ∃ ds, dv = some ds ∧ ds[i]? = some (XR.fin (-((f / g) ^ α))) ∧
        HasDerivAt (fun s => f * ((f / s) ^ (α - 1) - 1) / (α - 1)) (-((f / g) ^ α)) g) := by
  have hg := unmasked_pos hf.le hun
  have hα : α ≠ 1 := by
    rintro rfl
    have := (C27_construction 1 (XR.fin μ)).2 (by norm_num)
    rw [this] at ht
    simp at ht
  have htt : t = ⟨α, XR.fin μ⟩ := by
    by_cases h : 0 ≤ α ∧ 1e-10 ≤ |α - 1|
    · rw [(C27_construction α (XR.fin μ)).1 h] at ht
      injection ht with ht
      exact ht.symm
    · rw [(C27_construction α (XR.fin μ)).2 h] at ht
      simp at ht
  subst htt
  refine ⟨_, _, ts_evaluate_vec _ _ _ hl _, ?_, ?_, ?_⟩
  · simp only [List.getElem?_map, List.getElem?_zipWith, hdi, hmi, Option.map_some]
    rw [ts_entry hf hun hα]
    rfl
  · rintro rfl
    rfl
  · rintro rfl
    refine ⟨_, rfl, ?_, hasDerivAt_tsInt hα hf hg⟩
    simp only [List.getElem?_map, List.getElem?_zipWith, hdi, hmi, Option.map_some]
    rw [maDiv_unmasked hf.le hg hun, XR.pow_fin_of_pos (div_pos hf hg)]
    rfl

example : Tsallis.init 1.001 (XR.fin 1e-12) = .ok ⟨1.001, XR.fin 1e-12⟩ :=
  (C27_construction _ _).1 (by norm_num [abs_of_pos])

/-! ### C28 -/

theorem rpow_sub_one_ge {q s : ℝ} (hq : 0 < q) (hs : 0 < s) : log q ≤ (q ^ s - 1) / s := by
  rw [le_div_iff₀ hs, rpow_def_of_pos hq]
  have := add_one_le_exp (log q * s)
  linarith

theorem klInt_le_tsInt {α f g : ℝ} (hα : 1 < α) (hf : 0 < f) (hg : 0 < g) :
    klInt f g ≤ tsInt α f g := by
  unfold klInt tsInt
  rw [mul_div_assoc]
  exact mul_le_mul_of_nonneg_left (rpow_sub_one_ge (div_pos hf hg) (by linarith)) hf.le

/-- **C28**, above the mask.  For every accepted alpha > 1 the Tsallis entry is at least the KL entry
at every unmasked point with positive density.  Missing: masked points, where it is false
(`C28_fails_at_masked_points`). -/
theorem C28_upper_bound_partial (α μ : ℝ) (nv : XR) (t : Tsallis) (hα : 1 < α)
    (ht : Tsallis.init α (XR.fin μ) = .ok t) (d m : List XR) (hl : m.length = d.length)
    (hm : ∀ x ∈ m, ¬ x < XR.fin 0) (b : Bool) (i : ℕ) (f g : ℝ) (hdi : d[i]? = some (XR.fin f))
    (hmi : m[i]? = some (XR.fin g)) (hf : 0 < f) (hun : Unmasked μ f g) :
    ∃ vk dk vt dt K T, (KL.mk (XR.fin μ) nv).evaluate (.arr (ND.vec d)) (.arr (ND.vec m)) (.bool b) =
        .ok (vk, dk) ∧ t.evaluate (.arr (ND.vec d)) (.arr (ND.vec m)) (.bool b) = .ok (vt, dt) ∧
      vk[i]? = some (XR.fin K) ∧ vt[i]? = some (XR.fin T) ∧ K ≤ T := by
  obtain ⟨vk, dk, h1, h2, _⟩ := C21_value_and_derivative μ nv d m hl hm b i f g hdi hmi hf hun
  obtain ⟨vt, dt, h3, h4, _⟩ := C27_value_and_derivative α μ t ht d m hl b i f g hdi hmi hf hun
  exact ⟨vk, dk, vt, dt, _, _, h1, h3, h2, h4, klInt_le_tsInt hα hf (unmasked_pos hf.le hun)⟩

/-- **C28** fails at masked points: for every accepted alpha > 1, every positive density and every
model value at or below the mask, the Tsallis entry is `-f/(alpha-1)`, strictly below the KL entry
`0`. -/
theorem C28_fails_at_masked_points (α μ : ℝ) (nv : XR) (t : Tsallis) (hα : 1 < α)
    (ht : Tsallis.init α (XR.fin μ) = .ok t) (d m : List XR) (hl : m.length = d.length)
    (hm : ∀ x ∈ m, ¬ x < XR.fin 0) (b : Bool) (i : ℕ) (f g : ℝ) (hdi : d[i]? = some (XR.fin f))
    (hmi : m[i]? = some (XR.fin g)) (hf : 0 < f) (hmask : g ≤ μ) :
    ∃ vk dk vt dt T, (KL.mk (XR.fin μ) nv).evaluate (.arr (ND.vec d)) (.arr (ND.vec m)) (.bool b) =
        .ok (vk, dk) ∧ t.evaluate (.arr (ND.vec d)) (.arr (ND.vec m)) (.bool b) = .ok (vt, dt) ∧
      vk[i]? = some (XR.fin 0) ∧ vt[i]? = some (XR.fin T) ∧ T = -f / (α - 1) ∧ T < 0 := by
  obtain ⟨vk, dk, h1, h2, _⟩ := C22_mask μ nv d m hl hm b i f g hdi hmi hmask
  have htt : t = ⟨α, XR.fin μ⟩ := by
    by_cases h : 0 ≤ α ∧ 1e-10 ≤ |α - 1|
    · rw [(C27_construction α (XR.fin μ)).1 h] at ht
      injection ht with ht
      exact ht.symm
    · rw [(C27_construction α (XR.fin μ)).2 h] at ht
      simp at ht
  subst htt
  have hs : 0 < α - 1 := by linarith
  refine ⟨vk, dk, _, _, -f / (α - 1), h1, ts_evaluate_vec _ _ _ hl _, h2, ?_, rfl,
    div_neg_of_neg_of_pos (by linarith) hs⟩
  simp only [List.getElem?_map, List.getElem?_zipWith, hdi, hmi, Option.map_some]
  rw [maDiv_le_mask (by simpa using hmask), XR.pow_fin_of_nonneg le_rfl hs, zero_rpow hs.ne',
    XR.sub_fin, XR.mul_fin, XR.div_fin_of_ne _ hs.ne']
  simp

/-- The hypotheses of `C28_fails_at_masked_points` are met by alpha = 2, mask = 1. -/
example : Tsallis.init 2 (XR.fin 1) = .ok ⟨2, XR.fin 1⟩ ∧ (∀ x ∈ fins [1 / 2, 3], ¬ x < XR.fin 0) := by
  refine ⟨(C27_construction _ _).1 (by norm_num), ?_⟩
  rintro x hx h
  simp only [fins_cons, fins_nil, List.mem_cons, List.not_mem_nil, or_false] at hx
  rcases hx with rfl | rfl <;> simp only [XR.lt_fin] at h <;> linarith

/-! ### C29 -/

/-- **C29** (rate).  For every accepted alpha with `|(alpha-1) ln(f/g)| ≤ 1` the Tsallis entry and
derivative differ from the KL ones by at most a constant times `|alpha - 1|`. -/
theorem C29_rate (α μ : ℝ) (nv : XR) (t : Tsallis) (ht : Tsallis.init α (XR.fin μ) = .ok t)
    (d m : List XR) (hl : m.length = d.length) (hm : ∀ x ∈ m, ¬ x < XR.fin 0) (i : ℕ) (f g : ℝ)
    (hdi : d[i]? = some (XR.fin f)) (hmi : m[i]? = some (XR.fin g)) (hf : 0 < f)
    (hun : Unmasked μ f g) (hsmall : |(α - 1) * log (f / g)| ≤ 1) :
    ∃ vk dk vt dt K dK T dT,
      (KL.mk (XR.fin μ) nv).evaluate (.arr (ND.vec d)) (.arr (ND.vec m)) (.bool true) =
        .ok (vk, some dk) ∧
      t.evaluate (.arr (ND.vec d)) (.arr (ND.vec m)) (.bool true) = .ok (vt, some dt) ∧
      vk[i]? = some (XR.fin K) ∧ vt[i]? = some (XR.fin T) ∧
      dk[i]? = some (XR.fin dK) ∧ dt[i]? = some (XR.fin dT) ∧
      |T - K| ≤ f * log (f / g) ^ 2 * |α - 1| ∧
      |dT - dK| ≤ 2 * (f / g) * |log (f / g)| * |α - 1| := by
  obtain ⟨vk, dk', h1, h2, _, h2'⟩ := C21_value_and_derivative μ nv d m hl hm true i f g hdi hmi hf hun
  obtain ⟨vt, dt', h3, h4, _, h4'⟩ := C27_value_and_derivative α μ t ht d m hl true i f g hdi hmi hf hun
  obtain ⟨dk, rfl, h5, _⟩ := h2' rfl
  obtain ⟨dt, rfl, h6, _⟩ := h4' rfl
  refine ⟨vk, dk, vt, dt, _, _, _, _, h1, h3, h2, h4, h5, h6, ?_, ?_⟩
  · have hg := unmasked_pos hf.le hun
    have hq : 0 < f / g := div_pos hf hg
    have hα : α - 1 ≠ 0 := by
      intro h0
      have h1 : α = 1 := by linarith
      subst h1
      have := (C27_construction 1 (XR.fin μ)).2 (by norm_num)
      rw [this] at ht
      simp at ht
    set L := log (f / g)
    set s := α - 1
    have e1 : (f / g) ^ s = exp (s * L) := by rw [rpow_def_of_pos hq, mul_comm]
    rw [e1]
    have h7 := abs_exp_sub_one_sub_id_le hsmall
    have e2 : f * (exp (s * L) - 1) / s - f * L = f * (exp (s * L) - 1 - s * L) / s := by
      field_simp
    rw [e2, abs_div, abs_mul, abs_of_pos hf, div_le_iff₀ (abs_pos.mpr hα)]
    calc f * |exp (s * L) - 1 - s * L| ≤ f * (s * L) ^ 2 := mul_le_mul_of_nonneg_left h7 hf.le
      _ = f * L ^ 2 * |s| * |s| := by rw [mul_assoc (f * L ^ 2), abs_mul_abs_self]; ring
  · have hg := unmasked_pos hf.le hun
    have hq : 0 < f / g := div_pos hf hg
    set L := log (f / g)
    have e1 : (f / g) ^ α = (f / g) * exp ((α - 1) * L) := by
      rw [show α = 1 + (α - 1) by ring, rpow_add hq, rpow_one, rpow_def_of_pos hq, add_sub_cancel_left,
        mul_comm L]
    rw [e1]
    have h7 := abs_exp_sub_one_le hsmall
    rw [show -(f / g * exp ((α - 1) * L)) - -(f / g) = -(f / g * (exp ((α - 1) * L) - 1)) by ring,
      abs_neg, abs_mul, abs_of_pos hq]
    calc f / g * |exp ((α - 1) * L) - 1| ≤ f / g * (2 * |(α - 1) * L|) :=
          mul_le_mul_of_nonneg_left h7 hq.le
      _ = 2 * (f / g) * |L| * |α - 1| := by rw [abs_mul]; ring

/-- The smallness hypothesis of `C29_rate` holds for the default alpha and ordinary data. -/
example : |((1.001 : ℝ) - 1) * log (2 / 3)| ≤ 1 := by
  have h1 : log (2 / 3 : ℝ) ≤ 0 := log_nonpos (by norm_num) (by norm_num)
  have h2 := one_sub_inv_le_log_of_pos (show (0 : ℝ) < 2 / 3 by norm_num)
  rw [abs_le]
  constructor <;> nlinarith

/-- Limits of the formulas. -/
theorem tsallis_formula_limit {f g : ℝ} (hf : 0 < f) (hg : 0 < g) :
    Filter.Tendsto (fun α : ℝ => f * ((f / g) ^ (α - 1) - 1) / (α - 1)) (nhdsWithin 1 {1}ᶜ)
      (nhds (f * log (f / g))) ∧
    Filter.Tendsto (fun α : ℝ => -((f / g) ^ α)) (nhdsWithin 1 {1}ᶜ) (nhds (-(f / g))) := by
  have hq : 0 < f / g := div_pos hf hg
  constructor
  · have h := (hasDerivAt_id (1 : ℝ)).const_rpow hq
    have h2 : HasDerivAt (fun α => f * (f / g) ^ (α - 1)) (f * log (f / g)) (1 : ℝ) := by
      have h3 := (((hasDerivAt_id (1 : ℝ)).sub_const 1).const_rpow hq).const_mul f
      refine HasDerivAt.congr_deriv h3 ?_
      simp
    have h4 := hasDerivAt_iff_tendsto_slope.mp h2
    refine h4.congr' ?_
    filter_upwards [self_mem_nhdsWithin] with α hα
    rw [slope_def_field]
    simp
    ring
  · have h : ContinuousAt (fun α : ℝ => -((f / g) ^ α)) 1 :=
      (continuousAt_const_rpow hq.ne').neg
    have h2 := h.tendsto
    simp only [rpow_one] at h2
    exact h2.mono_left nhdsWithin_le_nhds

/-- **C29** (limit).  As alpha tends to one, the entries of the integrand and of the derivative that a
Tsallis object with that alpha computes tend to the entries that the KL measure computes.  (The
constructor rejects alpha closer than 1e-10 to one; the limit is about objects with any alpha, and
`C29_rate` bounds the difference for accepted alpha.) -/
theorem C29_limit (μ : ℝ) (nv : XR) (d m : List XR) (hl : m.length = d.length)
    (hm : ∀ x ∈ m, ¬ x < XR.fin 0) (i : ℕ) (f g : ℝ) (hdi : d[i]? = some (XR.fin f))
    (hmi : m[i]? = some (XR.fin g)) (hf : 0 < f) (hun : Unmasked μ f g) :
    ∃ vk dk K dK, ∃ T dT : ℝ → ℝ,
      (KL.mk (XR.fin μ) nv).evaluate (.arr (ND.vec d)) (.arr (ND.vec m)) (.bool true) =
        .ok (vk, some dk) ∧
      vk[i]? = some (XR.fin K) ∧ dk[i]? = some (XR.fin dK) ∧
      (∀ α, α ≠ 1 → ∃ vt dt,
        (Tsallis.mk α (XR.fin μ)).evaluate (.arr (ND.vec d)) (.arr (ND.vec m)) (.bool true) =
          .ok (vt, some dt) ∧ vt[i]? = some (XR.fin (T α)) ∧ dt[i]? = some (XR.fin (dT α))) ∧
      Filter.Tendsto T (nhdsWithin 1 {1}ᶜ) (nhds K) ∧
      Filter.Tendsto dT (nhdsWithin 1 {1}ᶜ) (nhds dK) := by
  have hg := unmasked_pos hf.le hun
  obtain ⟨vk, dk', h1, h2, _, h2'⟩ := C21_value_and_derivative μ nv d m hl hm true i f g hdi hmi hf hun
  obtain ⟨dk, rfl, h5, _⟩ := h2' rfl
  obtain ⟨l1, l2⟩ := tsallis_formula_limit hf hg
  refine ⟨vk, dk, _, _, _, _, h1, h2, h5, ?_, l1, l2⟩
  intro α hα
  refine ⟨_, _, ts_evaluate_vec _ _ _ hl _, ?_, ?_⟩
  · simp only [List.getElem?_map, List.getElem?_zipWith, hdi, hmi, Option.map_some]
    rw [ts_entry hf hun hα]
    rfl
  · simp only [List.getElem?_map, List.getElem?_zipWith, hdi, hmi, Option.map_some]
    rw [maDiv_unmasked hf.le hg hun, XR.pow_fin_of_pos (div_pos hf hg)]
    rfl

/-! ### C31 -/

/-- `isinstance(o, np.ndarray)`. -/
def isArr : PyObj → Prop
  | .arr _ => True
  | _ => False

theorem meas_error (ms : Meas) (d m b : PyObj) (e : PyErr) :
    ms.evaluate d m b = .error e ↔ checkArgs d m b = .error e := by
  cases ms <;> simp only [Meas.evaluate, sqEvaluate, KL.evaluate, Tsallis.evaluate] <;>
    rcases checkArgs d m b with err | ⟨x, y, z⟩ <;> simp

/-- **C31**, except when both arguments are not arrays.  For each measure: a non-array model with an
array density, a non-array density with an array model, a density that is not 1-D, or different
shapes raise ValueError; otherwise a non-bool `deriv` raises TypeError; otherwise the result has one
entry per density entry, and the derivative is present exactly when `deriv` is True.
Missing: model and density both not arrays (`C31_both_not_arrays`: AttributeError). -/
theorem C31_validation_partial (ms : Meas) (d m b : PyObj) :
    (isArr d → ¬ isArr m → ms.evaluate d m b = .error .valueError) ∧
    (¬ isArr d → isArr m → ms.evaluate d m b = .error .valueError) ∧
    (∀ x y, d = .arr x → m = .arr y → (x.ndim ≠ 1 ∨ y.shape ≠ x.shape) →
      ms.evaluate d m b = .error .valueError) ∧
    (∀ x y, d = .arr x → m = .arr y → x.ndim = 1 → y.shape = x.shape → (∀ v, b ≠ .bool v) →
      ms.evaluate d m b = .error .typeError) ∧
    (∀ x y v, d = .arr (ND.vec x) → m = .arr (ND.vec y) → y.length = x.length → b = .bool v →
      ∃ o od, ms.evaluate d m b = .ok (o, od) ∧ o.length = x.length ∧ (v = false → od = none) ∧
        (v = true → ∃ l, od = some l ∧ l.length = x.length)) := by
  refine ⟨?_, ?_, ?_, ?_, ?_⟩
  · intro h1 h2
    rw [meas_error]
    cases d <;> simp [isArr] at h1
    cases m <;> simp [isArr] at h2 <;> rfl
  · intro h1 h2
    rw [meas_error]
    cases m <;> simp [isArr] at h2
    cases d <;> simp [isArr] at h1 <;> rfl
  · rintro x y rfl rfl h
    rw [meas_error]
    unfold checkArgs raise
    simp only
    by_cases h1 : x.ndim ≠ 1
    · rw [if_pos h1]
    · rw [if_neg h1, if_pos]
      rcases h with h | h
      · exact absurd h h1
      · exact h
  · rintro x y rfl rfl h1 h2 h3
    rw [meas_error]
    unfold checkArgs raise
    simp only
    rw [if_neg (by simp [h1]), if_neg (by simp [h2])]
  · rintro x y v rfl rfl hl rfl
    cases ms with
    | sq =>
      refine ⟨_, _, sq_evaluate_vec _ _ hl _, ?_, ?_, ?_⟩
      · simp [hl]
      · rintro rfl; rfl
      · rintro rfl; exact ⟨_, rfl, by simp [hl]⟩
    | kl k =>
      refine ⟨(k.core x y v).1, (k.core x y v).2, kl_evaluate_vec _ _ _ hl _, ?_, ?_, ?_⟩
      · unfold KL.core; split <;> simp [KL.ratio, hl]
      · rintro rfl; unfold KL.core; split <;> rfl
      · rintro rfl; unfold KL.core; split
        · exact ⟨_, rfl, by simp [hl]⟩
        · exact ⟨_, rfl, by simp [KL.ratio, hl]⟩
    | ts t =>
      refine ⟨_, _, ts_evaluate_vec _ _ _ hl _, ?_, ?_, ?_⟩
      · simp [hl]
      · rintro rfl; rfl
      · rintro rfl; exact ⟨_, rfl, by simp [hl]⟩

/-- **C31** fails when both arguments are not arrays (e.g. two lists): the error message evaluates
`density.shape`, so AttributeError is raised instead of ValueError. -/
theorem C31_both_not_arrays (ms : Meas) (d m b : PyObj) (hd : ¬ isArr d) (hm : ¬ isArr m) :
    ms.evaluate d m b = .error .attributeError := by
  rw [meas_error]
  cases m <;> simp [isArr] at hm <;> cases d <;> simp [isArr] at hd <;> rfl

example : ¬ isArr (.seq [XR.fin 1]) ∧ isArr (.arr (ND.vec [XR.fin 1])) := ⟨id, trivial⟩

end
end BFit
