import Verif.Props.ScipyFit
import Mathlib.Analysis.Convex.SpecificFunctions.Basic

/-! Property C84: the objective of ScipyFit is convex in the coefficients. -/

namespace BFit

open Real Classical Finset

noncomputable section

theorem kl_tangent {f y z : ℝ} (hf : 0 < f) (hy : 0 < y) (hz : 0 < z) :
    klInt f y + -(f / y) * (z - y) ≤ klInt f z := by
  unfold klInt
  rw [log_div hf.ne' hy.ne', log_div hf.ne' hz.ne']
  have h1 := log_le_sub_one_of_pos (div_pos hz hy)
  rw [log_div hz.ne' hy.ne'] at h1
  have h2 : f / y * (z - y) = f * (z / y - 1) := by field_simp
  nlinarith [mul_le_mul_of_nonneg_left h1 hf.le]

theorem ts_tangent {α f y z : ℝ} (hα0 : 0 ≤ α) (hα : α ≠ 1) (hf : 0 < f) (hy : 0 < y) (hz : 0 < z) :
    tsInt α f y + -((f / y) ^ α) * (z - y) ≤ tsInt α f z := by
  have hu : 0 < z / y := div_pos hz hy
  have hs : 0 < f / y := div_pos hf hy
  have key : 0 ≤ ((z / y) ^ (1 - α) - 1) / (α - 1) + (z / y - 1) := by
    generalize z / y = u at hu
    rcases lt_or_gt_of_ne hα with h | h
    · have := rpow_one_add_le_one_add_mul_self (s := u - 1) (by linarith) (p := 1 - α) (by linarith)
        (by linarith)
      rw [add_sub_cancel] at this
      have h2 : (u ^ (1 - α) - 1) / (α - 1) = (1 - u ^ (1 - α)) / (1 - α) := by
        rw [← neg_div_neg_eq]; congr 1 <;> ring
      have h3 : -(u - 1) ≤ (1 - u ^ (1 - α)) / (1 - α) := by
        rw [le_div_iff₀ (by linarith)]
        nlinarith
      rw [h2]; linarith
    · have h1 := add_one_le_exp (log u * (1 - α))
      rw [← rpow_def_of_pos hu] at h1
      have h2 := log_le_sub_one_of_pos hu
      have h3 : -(u - 1) ≤ (u ^ (1 - α) - 1) / (α - 1) := by
        rw [le_div_iff₀ (by linarith)]
        nlinarith
      linarith
  have e1 : (f / z) ^ (α - 1) = (f / y) ^ (α - 1) * (z / y) ^ (1 - α) := by
    have : f / z = (f / y) * (z / y)⁻¹ := by field_simp
    rw [this, mul_rpow hs.le (inv_pos.mpr hu).le, inv_rpow hu.le, ← rpow_neg hu.le, neg_sub]
  have e2 : (f / y) ^ α * (z - y) = f * (f / y) ^ (α - 1) * (z / y - 1) := by
    rw [rpow_sub hs, rpow_one]; field_simp
  have hp : 0 < f * (f / y) ^ (α - 1) := mul_pos hf (rpow_pos_of_pos hs _)
  unfold tsInt
  rw [e1, neg_mul, e2]
  have h3 := mul_nonneg hp.le key
  have h1 : α - 1 ≠ 0 := sub_ne_zero.mpr hα
  have e3 : f * ((f / y) ^ (α - 1) * (z / y) ^ (1 - α) - 1) / (α - 1) -
      f * ((f / y) ^ (α - 1) - 1) / (α - 1) =
      f * (f / y) ^ (α - 1) * (((z / y) ^ (1 - α) - 1) / (α - 1)) := by
    field_simp
    ring
  linarith

/-- What the convexity of the objective in the coefficients means in terms of `func`: the value at `y` is
at least the value at `x` plus the returned gradient times `y - x`. -/
def TangentBelow (S : SFit) (args : SArgs) (x y : List ℝ) : Prop :=
  ∃ o o' g g', S.func (fins x) args = .ok (XR.fin o, fins g) ∧ S.func (fins y) args = .ok (XR.fin o', g') ∧
    g.length = x.length ∧ o + ∑ k ∈ range x.length, vec g k * (vec y k - vec x k) ≤ o'

theorem tangent_below {S : SFit} {norm : Bool} {Sh : Shape} {N : ℕ} {W f w : ℕ → ℝ}
    (h : FitData S.toFit norm Sh N W f) (hW : ∀ i < N, 0 ≤ W i) (hw : S.weights = fins (tab N w))
    (hwn : ∀ i < N, 0 ≤ w i) {P : ℕ → ℝ → Prop} {v dv : ℕ → ℝ → ℝ}
    (hm : MeasAt S.measure (fins (tab N f)) N P v dv)
    (hc : ∀ i < N, ∀ y z, P i y → P i z → v i y + dv i y * (z - y) ≤ v i z)
    (e x y : List ℝ) (he : e.length = Sh.nb) (hx : x.length = Sh.nb) (hy : y.length = Sh.nb)
    (hpos : norm = true → ∀ a ∈ e, 0 ≤ a) (hPx : ∀ i < N, P i (Sh.dens norm (vec x) (vec e) i))
    (hPy : ∀ i < N, P i (Sh.dens norm (vec y) (vec e) i)) :
    TangentBelow S (.fixedExpons (fins e)) x y := by
  refine ⟨_, _, _, _, func_fins h hw hm (.coeffs x e hx he) hpos hPx,
    func_fins h hw hm (.coeffs y e hy he) hpos hPy, by simp, ?_⟩
  have e1 : ∀ k ∈ range x.length, vec (tab x.length fun k => ∑ i ∈ range N, W i * (w i *
        dv i (Sh.dens norm (vec x) (vec e) i) *
        Sh.jcol norm x e (SArgs.off Sh.nb (.fixedExpons (fins e)) + k) i)) k * (vec y k - vec x k) =
      ∑ i ∈ range N, W i * (w i * dv i (Sh.dens norm (vec x) (vec e) i) *
        (bf (Sh.isS k) norm (vec e k) (Sh.rad k i) * (vec y k - vec x k))) := by
    intro k hk
    have hk := mem_range.mp hk
    rw [vec_tab hk, Finset.sum_mul]
    refine Finset.sum_congr rfl fun i _ => ?_
    simp only [SArgs.off, zero_add, Shape.jcol, hx ▸ hk, if_true]
    ring
  rw [Finset.sum_congr rfl e1, Finset.sum_comm, ← Finset.sum_add_distrib]
  refine Finset.sum_le_sum fun i hi => ?_
  have hi := mem_range.mp hi
  rw [← Finset.mul_sum, ← Finset.mul_sum, ← mul_add]
  refine mul_le_mul_of_nonneg_left ?_ (hW i hi)
  rw [mul_assoc, ← mul_add]
  refine mul_le_mul_of_nonneg_left ?_ (hwn i hi)
  refine le_trans (le_of_eq ?_) (hc i hi _ _ (hPx i hi) (hPy i hi))
  congr 2
  unfold Shape.dens
  rw [hx, ← Finset.sum_sub_distrib]
  refine Finset.sum_congr rfl fun k _ => ?_
  ring

/-- **C84** (squared difference).  With frozen exponents, non-negative quadrature weights and non-negative
fit weights, the objective lies above each of its tangents, as given by the returned gradient. -/
theorem C84_squared {S : SFit} {norm : Bool} {Sh : Shape} {N : ℕ} {W f w : ℕ → ℝ}
    (h : FitData S.toFit norm Sh N W f) (hW : ∀ i < N, 0 ≤ W i) (hw : S.weights = fins (tab N w))
    (hwn : ∀ i < N, 0 ≤ w i) (hm : S.measure = .sq)
    (e x y : List ℝ) (he : e.length = Sh.nb) (hx : x.length = Sh.nb) (hy : y.length = Sh.nb)
    (hpos : norm = true → ∀ a ∈ e, 0 ≤ a) : TangentBelow S (.fixedExpons (fins e)) x y :=
  tangent_below h hW hw hwn (by rw [hm]; exact measAt_sq N f)
    (fun i _ y z _ _ => by nlinarith [sq_nonneg (z - y)]) e x y he hx hy hpos (fun _ _ => trivial)
    fun _ _ => trivial

/-- **C84** (Kullback-Leibler).  The same where the density is positive and both models exceed the mask. -/
theorem C84_kl {S : SFit} {norm : Bool} {Sh : Shape} {N : ℕ} {W f w : ℕ → ℝ} {μ : ℝ} {nv : XR}
    (h : FitData S.toFit norm Sh N W f) (hW : ∀ i < N, 0 ≤ W i) (hw : S.weights = fins (tab N w))
    (hwn : ∀ i < N, 0 ≤ w i) (hm : S.measure = .kl ⟨XR.fin μ, nv⟩) (hf : ∀ i < N, 0 < f i)
    (e x y : List ℝ) (he : e.length = Sh.nb) (hx : x.length = Sh.nb) (hy : y.length = Sh.nb)
    (hpos : norm = true → ∀ a ∈ e, 0 ≤ a) (hux : Sh.AllUnmasked norm N μ f x e)
    (huy : Sh.AllUnmasked norm N μ f y e) : TangentBelow S (.fixedExpons (fins e)) x y := by
  have hma := measAt_kl N f μ nv hf
  rw [← hm] at hma
  exact tangent_below h hW hw hwn hma
    (fun i hi _ _ h1 h2 => kl_tangent (hf i hi) (unmasked_pos (hf i hi).le h1)
      (unmasked_pos (hf i hi).le h2)) e x y he hx hy hpos hux huy

/-- **C84** (Tsallis).  The same for a Tsallis object made by its constructor. -/
theorem C84_tsallis {S : SFit} {norm : Bool} {Sh : Shape} {N : ℕ} {W f w : ℕ → ℝ} {α μ : ℝ} {t : Tsallis}
    (h : FitData S.toFit norm Sh N W f) (hW : ∀ i < N, 0 ≤ W i) (hw : S.weights = fins (tab N w))
    (hwn : ∀ i < N, 0 ≤ w i) (ht : Tsallis.init α (XR.fin μ) = .ok t) (hm : S.measure = .ts t)
    (hf : ∀ i < N, 0 < f i)
    (e x y : List ℝ) (he : e.length = Sh.nb) (hx : x.length = Sh.nb) (hy : y.length = Sh.nb)
    (hpos : norm = true → ∀ a ∈ e, 0 ≤ a) (hux : Sh.AllUnmasked norm N μ f x e)
    (huy : Sh.AllUnmasked norm N μ f y e) : TangentBelow S (.fixedExpons (fins e)) x y := by
  have hα : 0 ≤ α ∧ 1e-10 ≤ |α - 1| := by
    by_contra hn
    rw [(C27_construction α (XR.fin μ)).2 hn] at ht
    simp at ht
  rw [(C27_construction α (XR.fin μ)).1 hα] at ht
  injection ht with ht
  have h1 : α ≠ 1 := by
    rintro rfl
    norm_num at hα
  have hma := measAt_ts N f α μ h1 hf
  rw [ht, ← hm] at hma
  exact tangent_below h hW hw hwn hma
    (fun i hi _ _ h2 h3 => ts_tangent hα.1 h1 (hf i hi) (unmasked_pos (hf i hi).le h2)
      (unmasked_pos (hf i hi).le h3)) e x y he hx hy hpos hux huy

/-- **C84** (optimality).  Let `x` be within the bounds and satisfy the constraint, and let the returned
gradient be `lam` times the gradient of the model integral, except that it may be larger in entries where
`x` is at the lower bound `b` (the conditions SLSQP looks for).  Then no `y` within the bounds that
satisfies the constraint has a smaller objective.  Without constraint take `lam = 0`. -/
theorem C84_optimal {S : SFit} {norm : Bool} {Sh : Shape} {N : ℕ} {W f : ℕ → ℝ} {T b lam : ℝ}
    (h : FitData S.toFit norm Sh N W f) (hN0 : 0 < N) (hT : S.integralDens = XR.fin T)
    (e x y : List ℝ) (he : e.length = Sh.nb) (hx : x.length = Sh.nb) (hy : y.length = Sh.nb)
    (hpos : norm = true → ∀ a ∈ e, 0 ≤ a) (ht : TangentBelow S (.fixedExpons (fins e)) x y)
    (hyb : ∀ a ∈ y, b ≤ a)
    (hcx : lam ≠ 0 → S.constNorm (fins x) (.fixedExpons (fins e)) = .ok (XR.fin 0))
    (hcy : lam ≠ 0 → S.constNorm (fins y) (.fixedExpons (fins e)) = .ok (XR.fin 0))
    (hkkt : ∀ o g, S.func (fins x) (.fixedExpons (fins e)) = .ok (o, fins g) → ∀ k < Sh.nb,
      ∃ I, S.integrate (fins (tab N fun i => bf (Sh.isS k) norm (vec e k) (Sh.rad k i))) = .ok (XR.fin I) ∧
        lam * I ≤ vec g k ∧ (vec x k ≠ b → vec g k = lam * I)) :
    ∃ o o' g g', S.func (fins x) (.fixedExpons (fins e)) = .ok (XR.fin o, g) ∧
      S.func (fins y) (.fixedExpons (fins e)) = .ok (XR.fin o', g') ∧ o ≤ o' := by
  obtain ⟨o, o', g, g', h1, h2, -, h4⟩ := ht
  refine ⟨o, o', _, _, h1, h2, le_trans ?_ h4⟩
  have hI : ∀ k < Sh.nb, lam * (∑ i ∈ range N, W i * bf (Sh.isS k) norm (vec e k) (Sh.rad k i)) *
      (vec y k - vec x k) ≤ vec g k * (vec y k - vec x k) := by
    intro k hk
    obtain ⟨I, hi, h5, h6⟩ := hkkt _ _ h1 k hk
    simp only [Fit.integrate] at hi
    rw [h.quad.fin] at hi
    injection hi with hi
    injection hi with hi
    rw [hi]
    by_cases hb : vec x k = b
    · have : b ≤ vec y k := vec_of_mem_le hy hyb k hk
      exact mul_le_mul_of_nonneg_right h5 (by rw [hb]; linarith)
    · rw [h6 hb]
  have hsum : lam * ((∑ i ∈ range N, W i * Sh.dens norm (vec y) (vec e) i) -
      ∑ i ∈ range N, W i * Sh.dens norm (vec x) (vec e) i) = 0 := by
    by_cases hl : lam = 0
    · rw [hl, zero_mul]
    · obtain ⟨I, ⟨p, hp, hpI⟩, -, h7⟩ := C43_const_norm h hN0 hT (.fixedExpons (fins e)) x x e
        (.coeffs x e hx he) hpos
      obtain ⟨I', ⟨p', hp', hpI'⟩, -, h7'⟩ := C43_const_norm h hN0 hT (.fixedExpons (fins e)) y y e
        (.coeffs y e hy he) hpos
      have e1 := h7.mp (hcx hl)
      have e2 := h7'.mp (hcy hl)
      obtain ⟨M, kl, h8, -⟩ := goodness_fins h hN0 x e hx he hpos
      obtain ⟨M', kl', h8', -⟩ := goodness_fins h hN0 y e hy he hpos
      rw [hp] at h8
      rw [hp'] at h8'
      injection h8 with h8
      injection h8' with h8'
      rw [h8] at hpI
      rw [h8'] at hpI'
      simp only [XR.fin_inj] at hpI hpI'
      rw [hpI, hpI', e1, e2, sub_self, mul_zero]
  have hle : lam * ((∑ i ∈ range N, W i * Sh.dens norm (vec y) (vec e) i) -
      ∑ i ∈ range N, W i * Sh.dens norm (vec x) (vec e) i) ≤
      ∑ k ∈ range x.length, vec g k * (vec y k - vec x k) := by
    rw [hx]
    refine le_trans (le_of_eq ?_) (Finset.sum_le_sum fun k hk => hI k (mem_range.mp hk))
    rw [← Finset.sum_sub_distrib, Finset.mul_sum]
    simp only [Finset.mul_sum, Finset.sum_mul]
    rw [Finset.sum_comm]
    refine Finset.sum_congr rfl fun i _ => ?_
    rw [← mul_sub]
    unfold Shape.dens
    rw [← Finset.sum_sub_distrib, Finset.mul_sum, Finset.mul_sum]
    refine Finset.sum_congr rfl fun k _ => ?_
    ring
  linarith
where
  vec_of_mem_le {n : ℕ} {b : ℝ} {l : List ℝ} (hl : l.length = n) (h : ∀ a ∈ l, b ≤ a) (k : ℕ) (hk : k < n) :
      b ≤ vec l k := by
    subst hl
    simp only [vec, List.getD_eq_getElem?_getD, List.getElem?_eq_getElem hk, Option.getD_some]
    exact h _ (List.getElem_mem hk)

theorem demo_weights_nonneg : ∀ i < 3, 0 ≤ vec [1 / 2, 1, (1 / 2 : ℝ)] i := by
  intro i hi
  interval_cases i <;> norm_num [vec]

theorem demo_unmasked_two : (atomShape [0, 1, 2] 1 0).AllUnmasked true 3 0 demoF [2] [1] := by
  intro i hi
  obtain ⟨h1, h2⟩ := demo_unmasked i hi
  have e : (atomShape [0, 1, 2] 1 0).dens true (vec [2]) (vec [1]) i =
      2 * (atomShape [0, 1, 2] 1 0).dens true (vec [1]) (vec [1]) i := by
    simp [Shape.dens, atomShape, vec]
  rw [Unmasked, e]
  exact ⟨by linarith, by linarith⟩

/-- C84 for the three measures, between the coefficients 1 and 2 of a one-function model. -/
example : TangentBelow (demoSFit .sq) (.fixedExpons (fins [1])) [1] [2] ∧
    TangentBelow (demoSFit (.kl ⟨XR.fin 0, XR.fin 7⟩)) (.fixedExpons (fins [1])) [1] [2] ∧
    TangentBelow (demoSFit (.ts ⟨2, XR.fin 0⟩)) (.fixedExpons (fins [1])) [1] [2] :=
  ⟨C84_squared (w := fun i => (i : ℝ) + 1) (demoSFit_data _) demo_weights_nonneg rfl (fun i _ => by positivity)
     rfl [1] [1] [2] rfl rfl rfl (by simp),
   C84_kl (w := fun i => (i : ℝ) + 1) (demoSFit_data _) demo_weights_nonneg rfl (fun i _ => by positivity)
     rfl (fun i _ => demoF_pos i) [1] [1] [2] rfl rfl rfl (by simp) demo_unmasked demo_unmasked_two,
   C84_tsallis (w := fun i => (i : ℝ) + 1) (demoSFit_data _) demo_weights_nonneg rfl
     (fun i _ => by positivity) ((C27_construction 2 _).1 (by norm_num)) rfl (fun i _ => demoF_pos i)
     [1] [1] [2] rfl rfl rfl (by simp) demo_unmasked demo_unmasked_two⟩

/-- A fit object whose density is three times its basis function. -/
def tripleSFit : SFit :=
  { demoFit true (fun i => 3 * bf true true 1 i) with
    measure := .sq, method := .slsqp, weights := fins (tab 3 fun _ => 1) }

/-- C84 (optimality) with frozen exponent 1: the coefficient 3 is stationary, hence at least as good as any
other. -/
example (t : ℝ) (ht : 0 ≤ t) : ∃ o o' g g', tripleSFit.func (fins [3]) (.fixedExpons (fins [1])) =
      .ok (XR.fin o, g) ∧
    tripleSFit.func (fins [t]) (.fixedExpons (fins [1])) = .ok (XR.fin o', g') ∧ o ≤ o' := by
  have hd : FitData tripleSFit.toFit true (atomShape [0, 1, 2] 1 0) 3 (vec [1 / 2, 1, 1 / 2])
    (fun i => 3 * bf true true 1 i) := demoFit_data true _
  refine C84_optimal (T := 1) (b := 0) (lam := 0) hd (by norm_num) rfl [1] [3] [t] rfl rfl rfl (by simp)
    (C84_squared (w := fun _ => 1) hd demo_weights_nonneg rfl (fun _ _ => zero_le_one) rfl [1] [3] [t] rfl rfl
      rfl (by simp)) (by simpa using ht) (by simp) (by simp) ?_
  intro o g hg k hk
  have hk : k = 0 := by simpa [atomShape] using hk
  subst hk
  refine ⟨_, hd.quad.fin _, ?_⟩
  have h1 := func_fins hd (w := fun _ => 1) rfl (measAt_sq 3 fun i => 3 * bf true true 1 i)
    (.coeffs [3] [1] rfl rfl) (by simp) fun _ _ => trivial
  rw [h1] at hg
  injection hg with hg
  injection hg with _ hg
  rw [← fins_injective hg]
  have h0 : ∀ i ∈ range 3, (3 : ℝ) * bf true true 1 i -
      (atomShape [0, 1, 2] 1 0).dens true (vec [3]) (vec [1]) i = 0 := by
    intro i hi
    have hi := mem_range.mp hi
    interval_cases i <;> simp [Shape.dens, atomShape, vec]
  have h2 : vec (tab [(3 : ℝ)].length fun k => ∑ i ∈ range 3, vec [1 / 2, 1, 1 / 2] i * (1 * (-2 *
      ((3 : ℝ) * bf true true 1 i - (atomShape [0, 1, 2] 1 0).dens true (vec [3]) (vec [1]) i)) *
      (atomShape [0, 1, 2] 1 0).jcol true [3] [1] (SArgs.off 1 (.fixedExpons (fins [1])) + k) i)) 0 = 0 := by
    rw [vec_tab (by simp)]
    refine Finset.sum_eq_zero fun i hi => ?_
    rw [h0 i hi]
    ring
  have h3 : (atomShape [0, 1, 2] 1 0).nb = 1 := rfl
  rw [h3]
  constructor
  · rw [zero_mul]; exact h2.ge
  · intro _
    rw [zero_mul]
    exact h2

end
end BFit
