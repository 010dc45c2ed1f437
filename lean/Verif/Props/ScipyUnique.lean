import Verif.Props.ScipySolvable

/-! Property C119: the coefficient problem of ScipyFit has at most one solution. -/

namespace BFit

open Real Classical Finset

noncomputable section

theorem kl_tangent_strict {f y z : ℝ} (hf : 0 < f) (hy : 0 < y) (hz : 0 < z) (hne : z ≠ y) :
    klInt f y + -(f / y) * (z - y) < klInt f z := by
  unfold klInt
  rw [log_div hf.ne' hy.ne', log_div hf.ne' hz.ne']
  have h1 := log_lt_sub_one_of_pos (div_pos hz hy) (by rwa [Ne, div_eq_one_iff_eq hy.ne'])
  rw [log_div hz.ne' hy.ne'] at h1
  have h2 : f / y * (z - y) = f * (z / y - 1) := by field_simp
  nlinarith [mul_lt_mul_of_pos_left h1 hf]

theorem ts_tangent_strict {α f y z : ℝ} (hα0 : 0 < α) (hα : α ≠ 1) (hf : 0 < f) (hy : 0 < y) (hz : 0 < z)
    (hne : z ≠ y) : tsInt α f y + -((f / y) ^ α) * (z - y) < tsInt α f z := by
  have hu : 0 < z / y := div_pos hz hy
  have hu1 : z / y ≠ 1 := by rwa [Ne, div_eq_one_iff_eq hy.ne']
  have hs : 0 < f / y := div_pos hf hy
  have key : 0 < ((z / y) ^ (1 - α) - 1) / (α - 1) + (z / y - 1) := by
    generalize z / y = u at hu hu1
    have hu2 : u - 1 ≠ 0 := sub_ne_zero.mpr hu1
    rcases lt_or_gt_of_ne hα with h | h
    · have := rpow_one_add_lt_one_add_mul_self (s := u - 1) (by linarith) hu2 (p := 1 - α) (by linarith)
        (by linarith)
      rw [add_sub_cancel] at this
      have h2 : (u ^ (1 - α) - 1) / (α - 1) = (1 - u ^ (1 - α)) / (1 - α) := by
        rw [← neg_div_neg_eq]; congr 1 <;> ring
      have h3 : -(u - 1) < (1 - u ^ (1 - α)) / (1 - α) := by
        rw [lt_div_iff₀ (by linarith)]
        nlinarith
      rw [h2]; linarith
    · have hl : log u * (1 - α) ≠ 0 :=
        mul_ne_zero (log_ne_zero_of_pos_of_ne_one hu hu1) (by linarith)
      have h1 := add_one_lt_exp hl
      rw [← rpow_def_of_pos hu] at h1
      have h2 := log_le_sub_one_of_pos hu
      have h3 : -(u - 1) < (u ^ (1 - α) - 1) / (α - 1) := by
        rw [lt_div_iff₀ (by linarith)]
        nlinarith
      linarith
  have e1 : (f / z) ^ (α - 1) = (f / y) ^ (α - 1) * (z / y) ^ (1 - α) := by
    have : f / z = (f / y) * (z / y)⁻¹ := by field_simp
    rw [this, mul_rpow hs.le (inv_pos.mpr hu).le, inv_rpow hu.le, ← rpow_neg hu.le, neg_sub]
  have e2 : (f / y) ^ α * (z - y) = f * (f / y) ^ (α - 1) * (z / y - 1) := by
    rw [rpow_sub hs, rpow_one]; field_simp
  have hp : 0 < f * (f / y) ^ (α - 1) := mul_pos hf (rpow_pos_of_pos hs _)
  unfold tsInt
  rw [e1, neg_mul, e2]
  have h3 := mul_pos hp key
  have h1 : α - 1 ≠ 0 := sub_ne_zero.mpr hα
  have e3 : f * ((f / y) ^ (α - 1) * (z / y) ^ (1 - α) - 1) / (α - 1) -
      f * ((f / y) ^ (α - 1) - 1) / (α - 1) =
      f * (f / y) ^ (α - 1) * (((z / y) ^ (1 - α) - 1) / (α - 1)) := by
    field_simp
    ring
  linarith

/-- The midpoint of two feasible coefficient vectors is feasible. -/
theorem feasible_mid {S : SFit} {norm : Bool} {Sh : Shape} {N : ℕ} {W f : ℕ → ℝ} {T : ℝ}
    (h : FitData S.toFit norm Sh N W f) (hN0 : 0 < N) (hT : S.integralDens = XR.fin T)
    {c0 : List XR} {e : List ℝ} {o : SOpts} {P : SProblem} (he : e.length = Sh.nb)
    (hpos : norm = true → ∀ a ∈ e, 0 ≤ a) (hoc : o.optCoeffs = true) (hoe : o.optExpons = false)
    (hs : o.withConstraint = true → S.method = .slsqp)
    (hP : S.problem c0 (fins e) o = .ok P) {c d : Fin Sh.nb → ℝ} (hc : P.Feasible (List.ofFn c))
    (hd : P.Feasible (List.ofFn d)) : P.Feasible (List.ofFn fun k => (c k + d k) / 2) := by
  cases hw : o.withConstraint with
  | true =>
    have key := feasible_constrained h hN0 hT (hs hw) he hpos hoc hoe hw hP
      (I := fun k => ∑ i ∈ range N, W i * bf (Sh.isS k) norm (vec e k) (Sh.rad k i))
      fun k _ => h.quad.fin _
    rw [key] at hc hd ⊢
    refine ⟨fun k => ?_, ?_⟩
    · have h1 := hc.1 k
      have h2 := hd.1 k
      norm_num at h1 h2 ⊢
      linarith
    · have h1 := hc.2
      have h2 := hd.2
      have h3 : ∀ k : Fin Sh.nb, (c k + d k) / 2 *
          (∑ i ∈ range N, W i * bf (Sh.isS k) norm (vec e k) (Sh.rad k i)) =
          (c k * (∑ i ∈ range N, W i * bf (Sh.isS k) norm (vec e k) (Sh.rad k i)) +
           d k * (∑ i ∈ range N, W i * bf (Sh.isS k) norm (vec e k) (Sh.rad k i))) / 2 := fun k => by ring
      rw [sum_congr rfl fun k _ => h3 k, ← sum_div, sum_add_distrib, h1, h2]
      ring
  | false =>
    have key := feasible_free h hoc hoe hw hP
    rw [key] at hc hd ⊢
    intro k
    have h1 := hc k
    have h2 := hd k
    norm_num at h1 h2 ⊢
    linarith

theorem dens_mid (Sh : Shape) (norm : Bool) (c d : Fin Sh.nb → ℝ) (e : ℕ → ℝ) (i : ℕ) :
    Sh.dens norm (vec (List.ofFn fun k => (c k + d k) / 2)) e i =
      (Sh.dens norm (vec (List.ofFn c)) e i + Sh.dens norm (vec (List.ofFn d)) e i) / 2 := by
  simp only [dens_ofFn]
  rw [← sum_add_distrib, sum_div]
  exact sum_congr rfl fun k _ => by ring

/-- Two solutions give the same model wherever the weights are positive. -/
theorem solutions_agree {S : SFit} {norm : Bool} {Sh : Shape} {N : ℕ} {W f w : ℕ → ℝ} {T : ℝ}
    (h : FitData S.toFit norm Sh N W f) (hN0 : 0 < N) (hT : S.integralDens = XR.fin T)
    (hwt : S.weights = fins (tab N w)) (hW : ∀ i < N, 0 ≤ W i) (hwn : ∀ i < N, 0 ≤ w i)
    {Q : ℕ → ℝ → Prop} {v dv : ℕ → ℝ → ℝ} (hm : MeasAt S.measure (fins (tab N f)) N Q v dv)
    (hQ : ∀ i < N, ∀ y z, Q i y → y ≤ z → Q i z)
    (ht : ∀ i < N, ∀ y z, Q i y → Q i z → z ≠ y → v i y + dv i y * (z - y) < v i z)
    {c0 : List XR} {e : List ℝ} {o : SOpts} {P : SProblem} (he : e.length = Sh.nb)
    (hpos : norm = true → ∀ a ∈ e, 0 ≤ a) (hoc : o.optCoeffs = true) (hoe : o.optExpons = false)
    (hs : o.withConstraint = true → S.method = .slsqp)
    (hP : S.problem c0 (fins e) o = .ok P) {x y : List ℝ} (hx : P.Solves x) (hy : P.Solves y)
    (hQx : ∀ i < N, Q i (Sh.dens norm (vec x) (vec e) i)) (hQy : ∀ i < N, Q i (Sh.dens norm (vec y) (vec e) i)) :
    ∀ i < N, 0 < W i → 0 < w i → Sh.dens norm (vec x) (vec e) i = Sh.dens norm (vec y) (vec e) i := by
  obtain ⟨hb, ho, -⟩ := problem_coeffs h hoc hoe hP
  obtain ⟨hFx, ox, gx, hox, hminx⟩ := hx
  obtain ⟨hFy, oy, gy, hoy, hminy⟩ := hy
  obtain ⟨c, rfl⟩ := list_ofFn_get x ((feasible_iff hb x).mp hFx).1
  obtain ⟨d, rfl⟩ := list_ofFn_get y ((feasible_iff hb y).mp hFy).1
  set m : Fin Sh.nb → ℝ := fun k => (c k + d k) / 2 with hmid
  have hFm : P.Feasible (List.ofFn m) := feasible_mid h hN0 hT he hpos hoc hoe hs hP hFx hFy
  set X : ℕ → ℝ := Sh.dens norm (vec (List.ofFn c)) (vec e) with hX
  set Y : ℕ → ℝ := Sh.dens norm (vec (List.ofFn d)) (vec e) with hY
  have hM : ∀ i, Sh.dens norm (vec (List.ofFn m)) (vec e) i = (X i + Y i) / 2 := dens_mid Sh norm c d (vec e)
  have hQm : ∀ i < N, Q i ((X i + Y i) / 2) := by
    intro i hi
    rcases le_total (X i) (Y i) with h1 | h1
    · exact hQ i hi _ _ (hQx i hi) (by linarith)
    · exact hQ i hi _ _ (hQy i hi) (by linarith)
  have fx := func_fins h hwt hm (.coeffs (List.ofFn c) e (by simp) he) hpos hQx
  have fy := func_fins h hwt hm (.coeffs (List.ofFn d) e (by simp) he) hpos hQy
  have fm := func_fins h hwt hm (.coeffs (List.ofFn m) e (by simp) he) hpos
    (fun i hi => by rw [hM]; exact hQm i hi)
  obtain ⟨o1, g1, h1, h2⟩ := hminx _ hFm
  obtain ⟨o2, g2, h3, h4⟩ := hminy _ hFm
  rw [ho] at hox hoy h1 h3
  simp only at hox hoy h1 h3
  rw [fx] at hox
  rw [fy] at hoy
  rw [fm] at h1 h3
  simp only [Except.ok.injEq, Prod.mk.injEq, XR.fin_inj] at hox hoy h1 h3
  rw [← hox.1, ← h1.1] at h2
  rw [← hoy.1, ← h3.1] at h4
  simp only [hM] at h2 h4
  -- midpoint inequality at every point
  have hle : ∀ i < N, 2 * v i ((X i + Y i) / 2) ≤ v i (X i) + v i (Y i) ∧
      (X i ≠ Y i → 2 * v i ((X i + Y i) / 2) < v i (X i) + v i (Y i)) := by
    intro i hi
    by_cases hne : X i = Y i
    · rw [← hne]
      refine ⟨?_, fun hn => absurd rfl hn⟩
      have : (X i + X i) / 2 = X i := by ring
      rw [this]
      linarith
    · have t1 := ht i hi _ _ (hQm i hi) (hQx i hi) (by intro hh; apply hne; linarith)
      have t2 := ht i hi _ _ (hQm i hi) (hQy i hi) (by intro hh; apply hne; linarith)
      have t3 : 2 * v i ((X i + Y i) / 2) < v i (X i) + v i (Y i) := by
        have : dv i ((X i + Y i) / 2) * (X i - (X i + Y i) / 2) +
            dv i ((X i + Y i) / 2) * (Y i - (X i + Y i) / 2) = 0 := by ring
        linarith
      exact ⟨t3.le, fun _ => t3⟩
  intro i hi hWi hwi
  by_contra hne
  have hlt : ∑ i ∈ range N, W i * (w i * (2 * v i ((X i + Y i) / 2))) <
      ∑ i ∈ range N, W i * (w i * (v i (X i) + v i (Y i))) := by
    refine sum_lt_sum (fun j hj => ?_) ⟨i, mem_range.mpr hi, ?_⟩
    · have hj := mem_range.mp hj
      exact mul_le_mul_of_nonneg_left (mul_le_mul_of_nonneg_left (hle j hj).1 (hwn j hj)) (hW j hj)
    · exact mul_lt_mul_of_pos_left (mul_lt_mul_of_pos_left ((hle i hi).2 hne) hwi) hWi
  have e1 : ∑ i ∈ range N, W i * (w i * (2 * v i ((X i + Y i) / 2))) =
      2 * ∑ i ∈ range N, W i * (w i * v i ((X i + Y i) / 2)) := by
    rw [mul_sum]; exact sum_congr rfl fun j _ => by ring
  have e2 : ∑ i ∈ range N, W i * (w i * (v i (X i) + v i (Y i))) =
      ∑ i ∈ range N, W i * (w i * v i (X i)) + ∑ i ∈ range N, W i * (w i * v i (Y i)) := by
    rw [← sum_add_distrib]; exact sum_congr rfl fun j _ => by ring
  rw [e1, e2] at hlt
  linarith

/-- The basis functions are linearly independent on the grid points of positive weight. -/
def Shape.Independent (Sh : Shape) (norm : Bool) (N : ℕ) (W w : ℕ → ℝ) (e : List ℝ) : Prop :=
  ∀ a : ℕ → ℝ, (∀ i < N, 0 < W i → 0 < w i →
    ∑ k ∈ range Sh.nb, a k * bf (Sh.isS k) norm (vec e k) (Sh.rad k i) = 0) → ∀ k < Sh.nb, a k = 0

theorem eq_of_independent {Sh : Shape} {norm : Bool} {N : ℕ} {W w : ℕ → ℝ} {e : List ℝ}
    (hi : Sh.Independent norm N W w e) {x y : List ℝ} (hx : x.length = Sh.nb) (hy : y.length = Sh.nb)
    (h : ∀ i < N, 0 < W i → 0 < w i → Sh.dens norm (vec x) (vec e) i = Sh.dens norm (vec y) (vec e) i) : x = y := by
  have h1 := hi (fun k => vec x k - vec y k) fun i hiN h2 h3 => by
    have h4 := h i hiN h2 h3
    unfold Shape.dens at h4
    simp only [sub_mul, sum_sub_distrib]
    linarith
  apply List.ext_getElem (hx.trans hy.symm)
  intro k hk1 hk2
  have h2 := h1 k (hx ▸ hk1)
  simp only [vec, List.getD_eq_getElem?_getD, List.getElem?_eq_getElem hk1, List.getElem?_eq_getElem hk2,
    Option.getD_some] at h2
  linarith

/-- **C119** (squared difference).  Two solutions of the coefficient problem, with or without constraint, give
the same model wherever the weights are positive, and are equal if the basis functions are independent
there. -/
theorem C119_squared {S : SFit} {norm : Bool} {Sh : Shape} {N : ℕ} {W f w : ℕ → ℝ} {T : ℝ}
    (h : FitData S.toFit norm Sh N W f) (hN0 : 0 < N) (hT : S.integralDens = XR.fin T)
    (hwt : S.weights = fins (tab N w)) (hW : ∀ i < N, 0 ≤ W i) (hwn : ∀ i < N, 0 ≤ w i) (hm : S.measure = .sq)
    {c0 : List XR} {e : List ℝ} {o : SOpts} {P : SProblem} (he : e.length = Sh.nb)
    (hpos : norm = true → ∀ a ∈ e, 0 ≤ a) (hoc : o.optCoeffs = true) (hoe : o.optExpons = false)
    (hs : o.withConstraint = true → S.method = .slsqp)
    (hP : S.problem c0 (fins e) o = .ok P) {x y : List ℝ} (hx : P.Solves x) (hy : P.Solves y) :
    (∀ i < N, 0 < W i → 0 < w i → Sh.dens norm (vec x) (vec e) i = Sh.dens norm (vec y) (vec e) i) ∧
      (Sh.Independent norm N W w e → x = y) := by
  have hma := measAt_sq N f
  rw [← hm] at hma
  have hb := (problem_coeffs h hoc hoe hP).1
  have h1 := solutions_agree h hN0 hT hwt hW hwn hma (fun _ _ _ _ _ _ => trivial)
    (fun i _ y z _ _ hne => by
      have : 0 < (z - y) ^ 2 := by
        have := sub_ne_zero.mpr hne
        positivity
      nlinarith) he hpos hoc hoe hs hP hx hy (fun _ _ => trivial) fun _ _ => trivial
  exact ⟨h1, fun hi => eq_of_independent hi ((feasible_iff hb x).mp hx.1).1 ((feasible_iff hb y).mp hy.1).1 h1⟩

/-- **C119** (Kullback-Leibler).  The same where the density is positive and both models exceed the mask. -/
theorem C119_kl {S : SFit} {norm : Bool} {Sh : Shape} {N : ℕ} {W f w : ℕ → ℝ} {T μ : ℝ} {nv : XR}
    (h : FitData S.toFit norm Sh N W f) (hN0 : 0 < N) (hT : S.integralDens = XR.fin T)
    (hwt : S.weights = fins (tab N w)) (hW : ∀ i < N, 0 ≤ W i) (hwn : ∀ i < N, 0 ≤ w i)
    (hm : S.measure = .kl ⟨XR.fin μ, nv⟩) (hf : ∀ i < N, 0 < f i)
    {c0 : List XR} {e : List ℝ} {o : SOpts} {P : SProblem} (he : e.length = Sh.nb)
    (hpos : norm = true → ∀ a ∈ e, 0 ≤ a) (hoc : o.optCoeffs = true) (hoe : o.optExpons = false)
    (hs : o.withConstraint = true → S.method = .slsqp)
    (hP : S.problem c0 (fins e) o = .ok P) {x y : List ℝ} (hx : P.Solves x) (hy : P.Solves y)
    (hux : Sh.AllUnmasked norm N μ f x e) (huy : Sh.AllUnmasked norm N μ f y e) :
    (∀ i < N, 0 < W i → 0 < w i → Sh.dens norm (vec x) (vec e) i = Sh.dens norm (vec y) (vec e) i) ∧
      (Sh.Independent norm N W w e → x = y) := by
  have hma := measAt_kl N f μ nv hf
  rw [← hm] at hma
  have hb := (problem_coeffs h hoc hoe hP).1
  have h1 := solutions_agree h hN0 hT hwt hW hwn hma (fun _ _ _ _ h1 h2 => h1.mono h2)
    (fun i hi y z h1 h2 hne => kl_tangent_strict (hf i hi) (unmasked_pos (hf i hi).le h1)
      (unmasked_pos (hf i hi).le h2) hne) he hpos hoc hoe hs hP hx hy hux huy
  exact ⟨h1, fun hi => eq_of_independent hi ((feasible_iff hb x).mp hx.1).1 ((feasible_iff hb y).mp hy.1).1 h1⟩

/-- **C119** (Tsallis).  The same for a Tsallis object made by its constructor with a positive alpha. -/
theorem C119_tsallis {S : SFit} {norm : Bool} {Sh : Shape} {N : ℕ} {W f w : ℕ → ℝ} {T α μ : ℝ} {t : Tsallis}
    (h : FitData S.toFit norm Sh N W f) (hN0 : 0 < N) (hT : S.integralDens = XR.fin T)
    (hwt : S.weights = fins (tab N w)) (hW : ∀ i < N, 0 ≤ W i) (hwn : ∀ i < N, 0 ≤ w i)
    (ht : Tsallis.init α (XR.fin μ) = .ok t) (hα : α ≠ 0) (hm : S.measure = .ts t) (hf : ∀ i < N, 0 < f i)
    {c0 : List XR} {e : List ℝ} {o : SOpts} {P : SProblem} (he : e.length = Sh.nb)
    (hpos : norm = true → ∀ a ∈ e, 0 ≤ a) (hoc : o.optCoeffs = true) (hoe : o.optExpons = false)
    (hs : o.withConstraint = true → S.method = .slsqp)
    (hP : S.problem c0 (fins e) o = .ok P) {x y : List ℝ} (hx : P.Solves x) (hy : P.Solves y)
    (hux : Sh.AllUnmasked norm N μ f x e) (huy : Sh.AllUnmasked norm N μ f y e) :
    (∀ i < N, 0 < W i → 0 < w i → Sh.dens norm (vec x) (vec e) i = Sh.dens norm (vec y) (vec e) i) ∧
      (Sh.Independent norm N W w e → x = y) := by
  obtain ⟨hα0, h1, rfl⟩ := tsallis_made ht
  have hma := measAt_ts N f α μ h1 hf
  rw [← hm] at hma
  have hb := (problem_coeffs h hoc hoe hP).1
  have h2 := solutions_agree h hN0 hT hwt hW hwn hma (fun _ _ _ _ h1 h2 => h1.mono h2)
    (fun i hi y z h3 h4 hne => ts_tangent_strict (lt_of_le_of_ne hα0 hα.symm) h1 (hf i hi)
      (unmasked_pos (hf i hi).le h3) (unmasked_pos (hf i hi).le h4) hne) he hpos hoc hoe hs hP hx hy hux huy
  exact ⟨h2, fun hi => eq_of_independent hi ((feasible_iff hb x).mp hx.1).1 ((feasible_iff hb y).mp hy.1).1 h2⟩

/-! ### Examples -/

theorem pair_independent : (atomShape [0, 1, 2] 2 0).Independent false 3 (vec [1 / 2, 1, 1 / 2])
    (fun i => (i : ℝ) + 1) [1, 2] := by
  intro a ha
  have h0 := ha 0 (by norm_num) (by norm_num [vec]) (by norm_num)
  have h1 := ha 1 (by norm_num) (by norm_num [vec]) (by norm_num)
  have hs : ∀ i, ∑ k ∈ range (atomShape [0, 1, 2] 2 0).nb, a k * bf ((atomShape [0, 1, 2] 2 0).isS k) false
      (vec [1, 2] k) ((atomShape [0, 1, 2] 2 0).rad k i) =
      a 0 * exp (-vec [1, 2] 0 * vec [0, 1, 2] i ^ 2) + a 1 * exp (-vec [1, 2] 1 * vec [0, 1, 2] i ^ 2) := by
    intro i
    show ∑ k ∈ range 2, _ = _
    rw [sum_range_succ, sum_range_succ, sum_range_zero, pair_bf _ _ (by norm_num), pair_bf _ _ (by norm_num),
      zero_add]
  rw [hs] at h0 h1
  simp [vec] at h0 h1
  have h2 : exp (-2) < exp (-1) := exp_lt_exp.mpr (by norm_num)
  have h3 : a 1 = -a 0 := by linarith
  have h4 : a 0 * (exp (-1) - exp (-2)) = 0 := by rw [h3] at h1; linarith
  have h5 : a 0 = 0 := by
    rcases mul_eq_zero.mp h4 with h | h
    · exact h
    · linarith
  intro k hk
  have hk : k < 2 := hk
  interval_cases k
  · exact h5
  · rw [h3, h5, neg_zero]

theorem pair_feasible_ge {m : Meas} {c0 : List XR} {b : Bool} {P : SProblem} {x : List ℝ}
    (hP : (pairSFit m).problem c0 (fins [1, 2]) (pairOpts b) = .ok P) (hx : P.Feasible x) :
    (atomShape [0, 1, 2] 2 0).AllUnmasked false 3 0 (fun _ => 1) x [1, 2] := by
  have hb := (problem_coeffs (pairSFit_data m) rfl rfl hP).1
  obtain ⟨hl, hge, -⟩ := (feasible_iff hb x).mp hx
  obtain ⟨c, rfl⟩ := list_ofFn_get x hl
  intro i hi
  refine (pair_unmasked i hi).mono ?_
  have := dens_mono (Sh := atomShape [0, 1, 2] 2 0) (norm := false) (e := [1, 2]) rfl (by simp)
    (c := fun _ => 1e-12) (d := c) (fun k => hge _ (by simp [List.mem_ofFn])) i
  rw [ofFn_const] at this
  exact this

/-- For the pair of functions of C118 the solutions of the constrained problems are unique. -/
example (c0 : List XR) (P₁ P₂ P₃ : SProblem)
    (h1 : (pairSFit .sq).problem c0 (fins [1, 2]) (pairOpts true) = .ok P₁)
    (h2 : (pairSFit (.kl ⟨XR.fin 0, XR.fin 7⟩)).problem c0 (fins [1, 2]) (pairOpts true) = .ok P₂)
    (h3 : (pairSFit (.ts ⟨2, XR.fin 0⟩)).problem c0 (fins [1, 2]) (pairOpts true) = .ok P₃) :
    (∀ x y, P₁.Solves x → P₁.Solves y → x = y) ∧ (∀ x y, P₂.Solves x → P₂.Solves y → x = y) ∧
      ∀ x y, P₃.Solves x → P₃.Solves y → x = y := by
  refine ⟨fun x y hx hy => ?_, fun x y hx hy => ?_, fun x y hx hy => ?_⟩
  · exact (C119_squared (pairSFit_data _) (by norm_num) (T := 5) rfl (w := fun i => (i : ℝ) + 1) rfl
      demo_weights_nonneg (fun i _ => by positivity) rfl rfl (by simp) rfl rfl (fun _ => rfl) h1 hx hy).2
      pair_independent
  · exact (C119_kl (pairSFit_data _) (by norm_num) (T := 5) rfl (w := fun i => (i : ℝ) + 1) rfl
      demo_weights_nonneg (fun i _ => by positivity) rfl (fun _ _ => one_pos) rfl (by simp) rfl rfl (fun _ => rfl)
      h2 hx hy (pair_feasible_ge h2 hx.1) (pair_feasible_ge h2 hy.1)).2 pair_independent
  · exact (C119_tsallis (pairSFit_data _) (by norm_num) (T := 5) rfl (w := fun i => (i : ℝ) + 1) rfl
      demo_weights_nonneg (fun i _ => by positivity) ((C27_construction 2 _).1 (by norm_num)) (by norm_num) rfl
      (fun _ _ => one_pos) rfl (by simp) rfl rfl (fun _ => rfl)
      h3 hx hy (pair_feasible_ge h3 hx.1) (pair_feasible_ge h3 hy.1)).2 pair_independent

end
end BFit
