import Verif.Props.FPIConverge

/-!
Scaling: fitting a multiple of a density by the fixed-point iteration gives that multiple of the
coefficients and the same exponents.
-/

namespace BFit

open Real Classical Finset

noncomputable section

/-- All entries times `t`. -/
def scaleL (t : ℝ) (c : List ℝ) : List ℝ := c.map fun a => t * a

theorem scaleL_length (t : ℝ) (c : List ℝ) : (scaleL t c).length = c.length := by simp [scaleL]

theorem vec_scaleL (t : ℝ) (c : List ℝ) (k : ℕ) : vec (scaleL t c) k = t * vec c k := by
  unfold vec scaleL
  rw [List.getD_eq_getElem?_getD, List.getD_eq_getElem?_getD, List.getElem?_map]
  cases c[k]? <;> simp

theorem dens_scale (S : Shape) (norm : Bool) (t : ℝ) (c e : List ℝ) (i : ℕ) :
    S.dens norm (vec (scaleL t c)) (vec e) i = t * S.dens norm (vec c) (vec e) i := by
  unfold Shape.dens
  rw [Finset.mul_sum]
  exact Finset.sum_congr rfl fun k _ => by rw [vec_scaleL]; ring

theorem unmasked_scale {t μ f g : ℝ} (ht : 0 < t) : Unmasked (t * μ) (t * f) (t * g) ↔ Unmasked μ f g := by
  unfold Unmasked
  rw [mul_lt_mul_iff_right₀ ht, mul_assoc, mul_lt_mul_iff_right₀ ht]

theorem klRatio_scale {t μ f g : ℝ} (ht : 0 < t) : klRatio (t * μ) (t * f) (t * g) = klRatio μ f g := by
  unfold klRatio
  rw [mul_div_mul_left _ _ ht.ne']
  by_cases h : Unmasked μ f g
  · rw [if_pos h, if_pos ((unmasked_scale ht).mpr h)]
  · rw [if_neg h, if_neg (mt (unmasked_scale ht).mp h)]

theorem klVal_scale {t μ f g : ℝ} (ht : 0 < t) : klVal (t * μ) (t * f) (t * g) = t * klVal μ f g := by
  by_cases h : Unmasked μ f g
  · rw [klVal_unmasked h, klVal_unmasked ((unmasked_scale ht).mpr h)]
    unfold klInt
    rw [mul_div_mul_left _ _ ht.ne', mul_assoc]
  · rw [klVal_masked h, klVal_masked (mt (unmasked_scale ht).mp h), mul_zero]

theorem Shape.Good.scale {S : Shape} {c e : List ℝ} (h : S.Good c e) {t : ℝ} (ht : 0 < t) :
    S.Good (scaleL t c) e :=
  ⟨by rw [scaleL_length, h.clen], h.elen, by
    intro a ha
    obtain ⟨b, hb, rfl⟩ := List.mem_map.mp ha
    exact mul_nonneg ht.le (h.cnn b hb), h.epos⟩

theorem Shape.Sees.scale {S : Shape} {N : ℕ} {W f : ℕ → ℝ} (h : S.Sees N W f) {t : ℝ} (ht : 0 < t) :
    S.Sees N W fun i => t * f i := by
  intro k hk
  obtain ⟨i, hi, h1, h2, h3⟩ := h k hk
  exact ⟨i, hi, h1, mul_pos ht h2, h3⟩

/-- **C79** (one update).  Let `F` fit the density `f` with target `T` and mask `μ`, and `F'` the
density `t f` with target `t T` and mask `t μ`, `t > 0`, with the same model and grid.  From `t` times
the coefficients, `F'` gets `t` times the new coefficients and the same new exponents. -/
theorem C79_update {F F' : FPI} {S : Shape} {N : ℕ} {W f : ℕ → ℝ} {μ T t : ℝ} (ht : 0 < t)
    (h : IsFPI F true S N W f μ T) (h' : IsFPI F' true S N W (fun i => t * f i) (t * μ) (t * T))
    (hW : ∀ i < N, 0 ≤ W i) (hT : 0 < T) (hs : S.Sees N W f) (c e : List ℝ) (hg : S.Good c e)
    (uc ue : Bool) (huc : uc = true ∨ ue = true) :
    ∃ c' e', F.updateParams (fins c) (fins e) uc ue = .ok (fins c', fins e') ∧ S.Good c' e' ∧
      F'.updateParams (fins (scaleL t c)) (fins e) uc ue = .ok (fins (scaleL t c'), fins e') := by
  have hcv := vec_of_mem hg.clen hg.cnn
  have hev := vec_of_mem hg.elen hg.epos
  have hg' := hg.scale ht
  obtain ⟨c₁, e₁, k1, k2, k3, k4, k5, -⟩ :=
    C36_positive h hW hT hs c e hg.clen hg.elen hg.cnn hg.epos uc ue huc
  have hA : ∀ k < S.nb, fpiA2 S true N W (S.ratio true μ f (vec c) (vec e)) (vec e) k ≠ 0 := fun k hk =>
    (fpiA_pos hs hW (fun i hi => ratio_nonneg (h.f_nonneg i hi)) (fun i _ => ratio_pos) hk
      (hev k hk)).2.ne'
  have hr : S.ratio true (t * μ) (fun i => t * f i) (vec (scaleL t c)) (vec e) =
      S.ratio true μ f (vec c) (vec e) := by
    funext i
    unfold Shape.ratio
    rw [dens_scale, klRatio_scale ht]
  have f1 := updateParams_fins h.data h.mask h.lm h.lm_ne h.f_nonneg c e hg.clen hg.elen
    (fun _ a ha => (hg.epos a ha).le) (fun i _ => dens_nonneg hcv (fun k hk => (hev k hk).le) i) uc ue huc
    (fun _ => hA)
  have f2 := updateParams_fins h'.data h'.mask h'.lm h'.lm_ne h'.f_nonneg _ e hg'.clen hg.elen
    (fun _ a ha => (hg.epos a ha).le)
    (fun i _ => dens_nonneg (vec_of_mem hg'.clen hg'.cnn) (fun k hk => (hev k hk).le) i) uc ue huc
    (fun _ => by rw [hr]; exact hA)
  have hL : (∑ i ∈ range N, W i * (t * f i)) / (t * T) = (∑ i ∈ range N, W i * f i) / T := by
    rw [← mul_div_mul_left _ T ht.ne', Finset.mul_sum]
    congr 1
    exact Finset.sum_congr rfl fun i _ => by ring
  rw [hr, hL] at f2
  rw [k1] at f1
  injection f1 with f1
  rw [Prod.mk.injEq] at f1
  have e1 := fins_inj f1.1
  have e2 := fins_inj f1.2
  refine ⟨c₁, e₁, k1, ⟨k2, k3, k4, k5⟩, ?_⟩
  rw [f2, e2]
  congr 3
  rw [e1]
  unfold tab
  conv_rhs => unfold scaleL
  rw [List.map_map]
  apply List.map_congr_left
  intro k _
  simp only [Function.comp]
  rw [vec_scaleL]
  split <;> ring

/-- The five numbers scale with the density, the squared error with its square. -/
structure PerfScaled (t : ℝ) (p q : Perf) : Prop where
  integral : ∃ x, p.integral = XR.fin x ∧ q.integral = XR.fin (t * x)
  l1 : ∃ x, p.l1 = XR.fin x ∧ q.l1 = XR.fin (t * x)
  linf : ∃ x, p.linf = XR.fin x ∧ q.linf = XR.fin (t * x)
  ls : ∃ x, p.ls = XR.fin x ∧ q.ls = XR.fin (t ^ 2 * x)
  kl : ∃ x, p.kl = XR.fin x ∧ q.kl = XR.fin (t * x)

theorem goodness_scale {F F' : Fit} {S : Shape} {N : ℕ} {W f : ℕ → ℝ} {μ t : ℝ} (ht : 0 < t)
    (h : FitData F true S N W f) (h' : FitData F' true S N W fun i => t * f i)
    (hμ : F.maskValue = XR.fin μ) (hμ' : F'.maskValue = XR.fin (t * μ)) (hN : 0 < N)
    (hf : ∀ i < N, 0 < f i) (c e : List ℝ) (hg : S.Good c e) :
    ∃ p q, F.goodness (fins c) (fins e) = .ok p ∧ F'.goodness (fins (scaleL t c)) (fins e) = .ok q ∧
      PerfScaled t p q := by
  have hg' := hg.scale ht
  have hev := vec_of_mem hg.elen hg.epos
  obtain ⟨M, kl, h1, ⟨i, hi, h2⟩, h3, h4⟩ := goodness_fins h hN c e hg.clen hg.elen
    fun _ a ha => (hg.epos a ha).le
  obtain ⟨M', kl', h1', ⟨i', hi', h2'⟩, h3', h4'⟩ := goodness_fins h' hN _ e hg'.clen hg.elen
    fun _ a ha => (hg.epos a ha).le
  have hk := h4 μ hμ hf fun i _ => dens_nonneg (vec_of_mem hg.clen hg.cnn) (fun k hk => (hev k hk).le) i
  have hk' := h4' _ hμ' (fun i hi => mul_pos ht (hf i hi)) fun i _ =>
    dens_nonneg (vec_of_mem hg'.clen hg'.cnn) (fun k hk => (hev k hk).le) i
  have hd : ∀ i, |t * f i - S.dens true (vec (scaleL t c)) (vec e) i| =
      t * |f i - S.dens true (vec c) (vec e) i| := by
    intro i
    rw [dens_scale, ← mul_sub, abs_mul, abs_of_pos ht]
  have hM : M' = t * M := by
    apply le_antisymm
    · rw [← h2', hd]
      exact mul_le_mul_of_nonneg_left (h3 i' hi') ht.le
    · rw [← h2, ← hd]
      exact h3' i hi
  refine ⟨_, _, h1, h1', ⟨_, rfl, ?_⟩, ⟨_, rfl, ?_⟩, ⟨_, rfl, by rw [hM]⟩, ⟨_, rfl, ?_⟩, ⟨_, hk, ?_⟩⟩
  · rw [Finset.mul_sum]
    exact congrArg _ (Finset.sum_congr rfl fun i _ => by rw [dens_scale]; ring)
  · rw [Finset.mul_sum]
    exact congrArg _ (Finset.sum_congr rfl fun i _ => by rw [hd]; ring)
  · rw [Finset.mul_sum]
    exact congrArg _ (Finset.sum_congr rfl fun i _ => by rw [dens_scale]; ring)
  · rw [hk', Finset.mul_sum]
    exact congrArg _ (Finset.sum_congr rfl fun i _ => by rw [dens_scale, klVal_scale ht]; ring)

theorem maxChange_scale {t : ℝ} (ht : 0 < t) {a b : List ℝ} (h : a.length = b.length) (hp : 0 < a.length) :
    ∃ M, maxChange (fins a) (fins b) = .ok (XR.fin M) ∧
      maxChange (fins (scaleL t a)) (fins (scaleL t b)) = .ok (XR.fin (t * M)) := by
  have key : ∀ a b : List ℝ, maxChange (fins a) (fins b) =
      npMax (fins ((List.zipWith (fun u v => u - v) a b).map fun z => |z|)) := by
    intro a b
    unfold maxChange
    rw [zipWith_fins (g := fun u v => u - v) (by simp)]
    simp [fins]
  have hne : ∀ a b : List ℝ, a.length = b.length → 0 < a.length →
      (List.zipWith (fun u v => u - v) a b).map (fun z => |z|) ≠ [] := by
    intro a b h hp h0
    have := congrArg List.length h0
    simp at this
    rcases this with rfl | rfl <;> simp_all
  have hsc : (List.zipWith (fun u v => u - v) (scaleL t a) (scaleL t b)).map (fun z => |z|) =
      ((List.zipWith (fun u v => u - v) a b).map fun z => |z|).map fun z => t * z := by
    clear h hp hne key
    unfold scaleL
    induction a generalizing b with
    | nil => simp
    | cons x a ih =>
      cases b with
      | nil => simp
      | cons y b =>
        simp only [List.map_cons, List.zipWith_cons_cons]
        rw [ih, ← mul_sub, abs_mul, abs_of_pos ht]
  obtain ⟨M, h1, h2, h3⟩ := npMax_fins (hne a b h hp)
  obtain ⟨M', h1', h2', h3'⟩ := npMax_fins (hne (scaleL t a) (scaleL t b) (by simp [scaleL_length, h])
    (by simpa [scaleL_length] using hp))
  refine ⟨M, by rw [key, h2], ?_⟩
  rw [key, h2']
  congr 2
  rw [hsc] at h1' h3'
  apply le_antisymm
  · obtain ⟨z, hz, rfl⟩ := List.mem_map.mp h1'
    exact mul_le_mul_of_nonneg_left (h3 z hz) ht.le
  · exact h3' _ (List.mem_map.mpr ⟨M, h1, rfl⟩)

/-- A number and its multiple, or both infinite. -/
def ScX (t : ℝ) (x y : XR) : Prop := (x = XR.pinf ∧ y = XR.pinf) ∨ ∃ a, x = XR.fin a ∧ y = XR.fin (t * a)

theorem ScX.gt_iff {t : ℝ} (ht : 0 < t) {x y : XR} (h : ScX t x y) (d : ℝ) :
    y > XR.fin (t * d) ↔ x > XR.fin d := by
  rcases h with ⟨rfl, rfl⟩ | ⟨a, rfl, rfl⟩
  · exact Iff.rfl
  · rw [fin_gt_iff, fin_gt_iff, mul_lt_mul_iff_right₀ ht]

theorem ScX.ne_nan {t : ℝ} {x y : XR} (h : ScX t x y) : x ≠ XR.nan ∧ y ≠ XR.nan := by
  rcases h with ⟨rfl, rfl⟩ | ⟨a, rfl, rfl⟩ <;> simp

/-- Corresponding states of the two loops. -/
structure StScaled (S : Shape) (t : ℝ) (s s' : FPIState) : Prop where
  par : ∃ c e, S.Good c e ∧ s.cs = fins c ∧ s.es = fins e ∧ s'.cs = fins (scaleL t c) ∧ s'.es = fins e
  dd : ScX t s.diffDiv s'.diffDiv
  dc : ScX t s.maxDC s'.maxDC
  de : s'.maxDE = s.maxDE
  perf : List.Forall₂ (PerfScaled t) s.performance s'.performance

theorem forall₂_getLast? {α : Type} {R : α → α → Prop} {l l' : List α} (h : List.Forall₂ R l l') :
    (l.getLast? = none ∧ l'.getLast? = none) ∨
      ∃ a b, l.getLast? = some a ∧ l'.getLast? = some b ∧ R a b := by
  have h' := List.forall₂_reverse_iff.mpr h
  rw [← List.head?_reverse, ← List.head?_reverse]
  generalize l.reverse = u at h'
  generalize l'.reverse = v at h'
  cases h' with
  | nil => left; simp
  | cons hab _ => right; exact ⟨_, _, rfl, rfl, hab⟩

theorem step_scale {F F' : FPI} {S : Shape} {N : ℕ} {W f : ℕ → ℝ} {μ T t : ℝ} (ht : 0 < t)
    (h : IsFPI F true S N W f μ T) (h' : IsFPI F' true S N W (fun i => t * f i) (t * μ) (t * T))
    (hW : ∀ i < N, 0 ≤ W i) (hT : 0 < T) (hs : S.Sees N W f) (hf : ∀ i < N, 0 < f i)
    (o o' : FPIOpts) (huc : o.optCoeffs = true ∨ o.optExpons = true)
    (ho : o'.optCoeffs = o.optCoeffs ∧ o'.optExpons = o.optExpons) (s s' : FPIState)
    (hss : StScaled S t s s') :
    ∃ u u', F.step o s = .ok u ∧ F'.step o' s' = .ok u' ∧ StScaled S t u u' := by
  obtain ⟨c, e, hg, a1, a2, a3, a4⟩ := hss.par
  obtain ⟨c', e', k1, k2, k3⟩ := C79_update ht h h' hW hT hs c e hg o.optCoeffs o.optExpons huc
  have hnb := h.data.model.nb_pos
  obtain ⟨dc, d1, d2⟩ := maxChange_scale ht (k2.clen.trans hg.clen.symm) (by rw [k2.clen]; exact hnb)
  obtain ⟨de, d3⟩ := maxChange_ok (k2.elen.trans hg.elen.symm) (by rw [k2.elen]; exact hnb)
  obtain ⟨p, q, g1, g2, g3⟩ := goodness_scale ht h.data h'.data h.mask h'.mask (hs.pos hnb) hf c' e' k2
  have f1 : F.step o s = .ok ⟨fins c', fins e', (match s.performance.getLast? with
      | none => s.diffDiv
      | some q => (p.kl - q.kl).abs), XR.fin dc, de, s.performance ++ [p]⟩ := by
    unfold FPI.step
    rw [if_neg (by rcases huc with h | h <;> simp [h]), a1, a2, k1]
    simp only [d1, d3, g1]
    cases s.performance.getLast? <;> rfl
  have f2 : F'.step o' s' = .ok ⟨fins (scaleL t c'), fins e', (match s'.performance.getLast? with
      | none => s'.diffDiv
      | some r => (q.kl - r.kl).abs), XR.fin (t * dc), de, s'.performance ++ [q]⟩ := by
    unfold FPI.step
    rw [ho.1, ho.2, if_neg (by rcases huc with h | h <;> simp [h]), a3, a4, k3]
    simp only [d2, d3, g2]
    cases s'.performance.getLast? <;> rfl
  refine ⟨_, _, f1, f2, ⟨c', e', k2, rfl, rfl, rfl, rfl⟩, ?_, Or.inr ⟨dc, rfl, rfl⟩, rfl,
    List.rel_append hss.perf (List.Forall₂.cons g3 List.Forall₂.nil)⟩
  rcases forall₂_getLast? hss.perf with ⟨h1, h2⟩ | ⟨x, y, h1, h2, h3⟩
  · simp only [h1, h2]; exact hss.dd
  · simp only [h1, h2]
    obtain ⟨u, hu1, hu2⟩ := g3.kl
    obtain ⟨v, hv1, hv2⟩ := h3.kl
    rw [hu1, hu2, hv1, hv2]
    right
    refine ⟨|u - v|, rfl, ?_⟩
    show XR.fin |t * u - t * v| = _
    rw [← mul_sub, abs_mul, abs_of_pos ht]

theorem loop_scale {F F' : FPI} {S : Shape} {N : ℕ} {W f : ℕ → ℝ} {μ T t : ℝ} (ht : 0 < t)
    (h : IsFPI F true S N W f μ T) (h' : IsFPI F' true S N W (fun i => t * f i) (t * μ) (t * T))
    (hW : ∀ i < N, 0 ≤ W i) (hT : 0 < T) (hs : S.Sees N W f) (hf : ∀ i < N, 0 < f i)
    (uc ue : Bool) (huc : uc = true ∨ ue = true) (m : ℤ) (cT dT : ℝ) (eT : XR) (n : ℕ) (s s' : FPIState)
    (hss : StScaled S t s s') :
    ∃ u u', F.loop ⟨uc, ue, m, XR.fin cT, eT, XR.fin dT⟩ n s = .ok u ∧
      F'.loop ⟨uc, ue, m, XR.fin (t * cT), eT, XR.fin (t * dT)⟩ n s' = .ok u' ∧ StScaled S t u u' := by
  induction n generalizing s s' with
  | zero => exact ⟨s, s', rfl, rfl, hss⟩
  | succ n ih =>
    rw [FPI.loop, FPI.loop]
    have hiff : s'.notConverged ⟨uc, ue, m, XR.fin (t * cT), eT, XR.fin (t * dT)⟩ ↔
        s.notConverged ⟨uc, ue, m, XR.fin cT, eT, XR.fin dT⟩ := by
      unfold FPIState.notConverged
      simp only
      rw [hss.dc.gt_iff ht, hss.dd.gt_iff ht, hss.de]
    by_cases hc : s.notConverged ⟨uc, ue, m, XR.fin cT, eT, XR.fin dT⟩
    · rw [if_pos hc, if_pos (hiff.mpr hc)]
      obtain ⟨u, u', h1, h2, h3⟩ := step_scale ht h h' hW hT hs hf ⟨uc, ue, m, XR.fin cT, eT, XR.fin dT⟩
        ⟨uc, ue, m, XR.fin (t * cT), eT, XR.fin (t * dT)⟩ huc ⟨rfl, rfl⟩ s s' hss
      rw [h1, h2]
      exact ih u u' h3
    · rw [if_neg hc, if_neg (mt hiff.mp hc)]
      exact ⟨s, s', rfl, rfl, hss⟩

/-- **C79** (the whole run).  With the thresholds on the coefficients and on the divergence multiplied
by `t` as well, the run for `t` times the density makes the same number of updates, returns `t` times
the coefficients and the same exponents, and reports the same success; every divergence and error in
the history is multiplied by `t` (the squared error by `t²`). -/
theorem C79_run {F F' : FPI} {S : Shape} {N : ℕ} {W f : ℕ → ℝ} {μ T t : ℝ} (ht : 0 < t)
    (h : IsFPI F true S N W f μ T) (h' : IsFPI F' true S N W (fun i => t * f i) (t * μ) (t * T))
    (hW : ∀ i < N, 0 ≤ W i) (hT : 0 < T) (hs : S.Sees N W f) (hf : ∀ i < N, 0 < f i)
    (uc ue : Bool) (huc : uc = true ∨ ue = true) (m : ℤ) (cT dT : ℝ) (eT : XR) (c e : List ℝ)
    (hg : S.Good c e) :
    ∃ (r r' : FPIResult) (c' e' : List ℝ),
      F.run (.arr (ND.vec (fins c))) (.arr (ND.vec (fins e))) ⟨uc, ue, m, XR.fin cT, eT, XR.fin dT⟩ = .ok r ∧
      F'.run (.arr (ND.vec (fins (scaleL t c)))) (.arr (ND.vec (fins e)))
        ⟨uc, ue, m, XR.fin (t * cT), eT, XR.fin (t * dT)⟩ = .ok r' ∧
      r.coeffs = fins c' ∧ r'.coeffs = fins (scaleL t c') ∧ r.exps = fins e' ∧ r'.exps = fins e' ∧
      r'.success = r.success ∧ List.Forall₂ (PerfScaled t) r.performance r'.performance ∧
      ∃ hist : List ℝ, r.fun_ = fins hist ∧ r'.fun_ = fins (scaleL t hist) := by
  have hshape : ∀ (G : FPI) (l : List ℝ), G.model.nbasis = (S.nb : ℤ) → l.length = S.nb →
      ¬ ((ND.vec (fins l)).shape.map Int.ofNat ≠ [G.model.nbasis]) := by
    intro G l h1 h2
    simp [ND.vec, h1, h2]
  obtain ⟨u, u', k1, k2, k3⟩ := loop_scale ht h h' hW hT hs hf uc ue huc m cT dT eT m.toNat
    ⟨fins c, fins e, XR.pinf, XR.pinf, XR.pinf, []⟩
    ⟨fins (scaleL t c), fins e, XR.pinf, XR.pinf, XR.pinf, []⟩
    ⟨⟨c, e, hg, rfl, rfl, rfl, rfl⟩, Or.inl ⟨rfl, rfl⟩, Or.inl ⟨rfl, rfl⟩, rfl, List.Forall₂.nil⟩
  obtain ⟨c', e', -, a1, a2, a3, a4⟩ := k3.par
  have f1 : F.run (.arr (ND.vec (fins c))) (.arr (ND.vec (fins e)))
      ⟨uc, ue, m, XR.fin cT, eT, XR.fin dT⟩ = .ok ⟨u.cs, u.es, u.performance.map Perf.kl,
          decide ¬ ((m = u.performance.length ∧ u.diffDiv > XR.fin dT) ∨ u.diffDiv = XR.nan),
          u.performance⟩ := by
    unfold FPI.run
    simp only
    rw [if_neg (hshape F _ h.data.model.nbasis hg.clen), if_neg (hshape F _ h.data.model.nbasis hg.elen)]
    have e1 : (ND.vec (fins c)).data = fins c := rfl
    have e2 : (ND.vec (fins e)).data = fins e := rfl
    rw [e1, e2, k1]
  have f2 : F'.run (.arr (ND.vec (fins (scaleL t c)))) (.arr (ND.vec (fins e)))
      ⟨uc, ue, m, XR.fin (t * cT), eT, XR.fin (t * dT)⟩ = .ok ⟨u'.cs, u'.es, u'.performance.map Perf.kl,
          decide ¬ ((m = u'.performance.length ∧ u'.diffDiv > XR.fin (t * dT)) ∨ u'.diffDiv = XR.nan),
          u'.performance⟩ := by
    unfold FPI.run
    simp only
    rw [if_neg (hshape F' _ h'.data.model.nbasis (by rw [scaleL_length, hg.clen])),
      if_neg (hshape F' _ h'.data.model.nbasis hg.elen)]
    have e1 : (ND.vec (fins (scaleL t c))).data = fins (scaleL t c) := rfl
    have e2 : (ND.vec (fins e)).data = fins e := rfl
    rw [e1, e2, k2]
  refine ⟨_, _, c', e', f1, f2, a1, a3, a2, a4, ?_, k3.perf, ?_⟩
  · have hl : u'.performance.length = u.performance.length := k3.perf.length_eq.symm
    have hn := k3.dd.ne_nan
    have hgt := k3.dd.gt_iff ht dT
    simp only [hl, hn.1, hn.2, or_false, hgt]
  · have key : ∀ l l' : List Perf, List.Forall₂ (PerfScaled t) l l' →
        ∃ hist : List ℝ, l.map Perf.kl = fins hist ∧ l'.map Perf.kl = fins (scaleL t hist) := by
      intro l l' hl
      induction hl with
      | nil => exact ⟨[], rfl, rfl⟩
      | cons hab _ ih =>
        obtain ⟨hist, i1, i2⟩ := ih
        obtain ⟨x, x1, x2⟩ := hab.kl
        exact ⟨x :: hist, by simp [i1, x1, fins], by simp [i2, x2, fins, scaleL]⟩
    exact key _ _ k3.perf

/-- C79 for the object of `conv_isFPI` and 7 times its density. -/
example (m : ℤ) : ∃ F F' r r' c',
    FPI.init (.radial ⟨fins [1, 2]⟩) (fins [1, 1]) (.atom convAtom) (XR.fin 0) (some (XR.fin 3)) false =
      .ok F ∧
    FPI.init (.radial ⟨fins [1, 2]⟩) (fins [7, 7]) (.atom convAtom) (XR.fin 0) (some (XR.fin 21)) false =
      .ok F' ∧
    F.run (.arr (ND.vec (fins [1, 2]))) (.arr (ND.vec (fins [1, 2])))
      ⟨true, true, m, XR.fin 1, XR.fin 1, XR.fin 1⟩ = .ok r ∧
    F'.run (.arr (ND.vec (fins [7, 14]))) (.arr (ND.vec (fins [1, 2])))
      ⟨true, true, m, XR.fin 7, XR.fin 1, XR.fin 7⟩ = .ok r' ∧
    r.coeffs = fins c' ∧ r'.coeffs = fins (scaleL 7 c') ∧ r'.exps = r.exps := by
  obtain ⟨F, h1, h2⟩ := conv_isFPI
  obtain ⟨F', h1', h2', -⟩ := (C34_finite (f := fun _ => 7 * 1) (7 * 0) (some (7 * 3))
    (atom_isModel (m := convAtom) (rs := [1, 2]) ⟨rfl, rfl, rfl⟩ (by simp)) conv_quad (by simp)
    (fun i _ => by norm_num)).1 (by norm_num [Finset.sum_range_succ, vec]) (by norm_num)
  have hW : ∀ i < 2, 0 ≤ vec [1 / 2, 1 / 2] i := by
    intro i hi; interval_cases i <;> norm_num [vec]
  obtain ⟨r, r', c', e', k1, k2, k3, k4, k5, k6, -⟩ := C79_run (t := 7) (by norm_num) h2 h2' hW (by norm_num)
    (fun k _ => ⟨0, by norm_num, by norm_num [vec], by norm_num, by norm_num [atomShape, vec]⟩)
    (fun _ _ => one_pos) true true (Or.inl rfl) m 1 1 (XR.fin 1) [1, 2] [1, 2] ⟨rfl, rfl, by simp, by simp⟩
  refine ⟨F, F', r, r', c', h1, ?_, k1, ?_, k3, k4, k6.trans k5.symm⟩
  · have e1 : fins (tab [(1 : ℝ), 2].length fun _ => (7 : ℝ) * 1) = fins [7, 7] := by
      norm_num [tab, List.range_succ]
    rw [e1] at h1'
    norm_num at h1'
    exact h1'
  · have e1 : scaleL 7 [1, 2] = [7, 14] := by norm_num [scaleL]
    rw [e1] at k2
    norm_num at k2
    exact k2

end
end BFit
