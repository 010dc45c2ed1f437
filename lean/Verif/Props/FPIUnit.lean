import Verif.Props.FPIScale
import Verif.Props.Symmetry

/-!
Unit of length in the fixed-point iteration: a fit with distances in another unit gives the same
coefficients, with the exponents converted.
-/

namespace BFit

open Real Classical Finset

noncomputable section

/-- The same basis functions with all distances times `u`. -/
def Shape.unit (u : ℝ) (S : Shape) : Shape := ⟨S.nb, S.isS, fun k i => u * S.rad k i⟩

theorem bf_unit {u : ℝ} (hu : 0 < u) (s : Bool) (e r : ℝ) (he : 0 ≤ e) :
    bf s true (1 / u ^ 2 * e) (u * r) = 1 / u ^ 3 * bf s true e r := by
  rw [one_div_mul_eq_div]
  unfold bf
  split
  · rw [sBasis_unit hu true e r he, if_pos rfl]
  · rw [pBasis_unit hu true e r he, if_pos rfl]

theorem dens_unit {u : ℝ} (hu : 0 < u) (S : Shape) (c e : List ℝ) (he : ∀ k < S.nb, 0 < vec e k) (i : ℕ) :
    (S.unit u).dens true (vec c) (vec (scaleL (1 / u ^ 2) e)) i = 1 / u ^ 3 * S.dens true (vec c) (vec e) i := by
  unfold Shape.dens Shape.unit
  rw [Finset.mul_sum]
  exact Finset.sum_congr rfl fun k hk => by
    rw [vec_scaleL, bf_unit hu _ _ _ (he k (mem_range.mp hk)).le]; ring

theorem fpiA_unit {u : ℝ} (hu : 0 < u) (S : Shape) (N : ℕ) (W q : ℕ → ℝ) (e : List ℝ) (k : ℕ)
    (he : 0 < vec e k) :
    fpiA (S.unit u) true N (fun i => u ^ 3 * W i) q (vec (scaleL (1 / u ^ 2) e)) k = fpiA S true N W q (vec e) k ∧
    fpiA2 (S.unit u) true N (fun i => u ^ 3 * W i) q (vec (scaleL (1 / u ^ 2) e)) k =
      u ^ 2 * fpiA2 S true N W q (vec e) k := by
  unfold fpiA fpiA2 Shape.unit
  constructor
  · refine Finset.sum_congr rfl fun i _ => ?_
    rw [vec_scaleL, bf_unit hu _ _ _ he.le]
    field_simp
  · rw [Finset.mul_sum]
    refine Finset.sum_congr rfl fun i _ => ?_
    rw [vec_scaleL, bf_unit hu _ _ _ he.le]
    field_simp

theorem Shape.Good.unit {S : Shape} {c e : List ℝ} (h : S.Good c e) {u : ℝ} (hu : 0 < u) :
    (S.unit u).Good c (scaleL (1 / u ^ 2) e) :=
  ⟨h.clen, by rw [scaleL_length, h.elen]; rfl, h.cnn, by
    intro a ha
    obtain ⟨b, hb, rfl⟩ := List.mem_map.mp ha
    have := h.epos b hb
    positivity⟩

/-- The fits `F`, in one unit of length, and `F'`, in a unit `u` times smaller, are about the same
physical density: distances are multiplied by `u`, volumes by `u³`, densities and mask divided by `u³`. -/
structure UnitPair (u : ℝ) (F F' : FPI) (S : Shape) (N : ℕ) (W f : ℕ → ℝ) (μ T : ℝ) : Prop where
  pos : 0 < u
  fst : IsFPI F true S N W f μ T
  snd : IsFPI F' true (S.unit u) N (fun i => u ^ 3 * W i) (fun i => 1 / u ^ 3 * f i) (1 / u ^ 3 * μ) T

/-- **C86** (one update).  The new coefficients agree and the new exponents are converted. -/
theorem C86_update {u : ℝ} {F F' : FPI} {S : Shape} {N : ℕ} {W f : ℕ → ℝ} {μ T : ℝ}
    (h : UnitPair u F F' S N W f μ T)
    (hW : ∀ i < N, 0 ≤ W i) (hT : 0 < T) (hs : S.Sees N W f) (c e : List ℝ) (hg : S.Good c e)
    (uc ue : Bool) (huc : uc = true ∨ ue = true) :
    ∃ c' e', F.updateParams (fins c) (fins e) uc ue = .ok (fins c', fins e') ∧ S.Good c' e' ∧
      F'.updateParams (fins c) (fins (scaleL (1 / u ^ 2) e)) uc ue =
        .ok (fins c', fins (scaleL (1 / u ^ 2) e')) := by
  have hu := h.pos
  have hcv := vec_of_mem hg.clen hg.cnn
  have hev := vec_of_mem hg.elen hg.epos
  have hg' := hg.unit hu
  obtain ⟨c₁, e₁, k1, k2, k3, k4, k5, -⟩ :=
    C36_positive h.fst hW hT hs c e hg.clen hg.elen hg.cnn hg.epos uc ue huc
  have hA : ∀ k < S.nb, fpiA2 S true N W (S.ratio true μ f (vec c) (vec e)) (vec e) k ≠ 0 := fun k hk =>
    (fpiA_pos hs hW (fun i hi => ratio_nonneg (h.fst.f_nonneg i hi)) (fun i _ => ratio_pos) hk
      (hev k hk)).2.ne'
  have ht : (0 : ℝ) < 1 / u ^ 3 := by positivity
  have hr : (S.unit u).ratio true (1 / u ^ 3 * μ) (fun i => 1 / u ^ 3 * f i) (vec c)
      (vec (scaleL (1 / u ^ 2) e)) = S.ratio true μ f (vec c) (vec e) := by
    funext i
    unfold Shape.ratio
    rw [dens_unit hu S c e hev, klRatio_scale ht]
  have f1 := updateParams_fins h.fst.data h.fst.mask h.fst.lm h.fst.lm_ne h.fst.f_nonneg c e hg.clen hg.elen
    (fun _ a ha => (hg.epos a ha).le) (fun i _ => dens_nonneg hcv (fun k hk => (hev k hk).le) i) uc ue huc
    (fun _ => hA)
  have f2 := updateParams_fins h.snd.data h.snd.mask h.snd.lm h.snd.lm_ne h.snd.f_nonneg c _ hg'.clen hg'.elen
    (fun _ a ha => (hg'.epos a ha).le)
    (fun i _ => dens_nonneg (vec_of_mem hg'.clen hg'.cnn)
      (fun k hk => (vec_of_mem hg'.elen hg'.epos k hk).le) i) uc ue huc
    (fun _ k hk => by
      rw [hr, (fpiA_unit hu S N W _ e k (hev k hk)).2]
      exact mul_ne_zero (by positivity) (hA k hk))
  have hL : (∑ i ∈ range N, u ^ 3 * W i * (1 / u ^ 3 * f i)) = ∑ i ∈ range N, W i * f i :=
    Finset.sum_congr rfl fun i _ => by field_simp
  rw [hr, hL] at f2
  rw [k1] at f1
  injection f1 with f1
  rw [Prod.mk.injEq] at f1
  have e1 := fins_inj f1.1
  have e2 := fins_inj f1.2
  refine ⟨c₁, e₁, k1, ⟨k2, k3, k4, k5⟩, ?_⟩
  rw [f2, e1, e2]
  congr 2
  · refine congrArg fins (List.map_congr_left fun k hk => ?_)
    rw [(fpiA_unit hu S N W _ e k (hev k (List.mem_range.mp hk))).1]
  · refine congrArg fins ?_
    unfold tab
    conv_rhs => unfold scaleL
    rw [List.map_map]
    refine List.map_congr_left fun k hk => ?_
    simp only [Function.comp]
    obtain ⟨a1, a2⟩ := fpiA_unit hu S N W (S.ratio true μ f (vec c) (vec e)) e k (hev k (List.mem_range.mp hk))
    rw [a1, a2, vec_scaleL]
    split
    · have h1 : (S.unit u).pref k = S.pref k := rfl
      rw [h1]
      have := hA k (List.mem_range.mp hk)
      field_simp
    · rfl

/-- The integrals agree, the largest deviation and the integrated squared deviation are converted. -/
structure PerfUnit (u : ℝ) (p q : Perf) : Prop where
  integral : ∃ x, p.integral = XR.fin x ∧ q.integral = XR.fin x
  l1 : ∃ x, p.l1 = XR.fin x ∧ q.l1 = XR.fin x
  linf : ∃ x, p.linf = XR.fin x ∧ q.linf = XR.fin (1 / u ^ 3 * x)
  ls : ∃ x, p.ls = XR.fin x ∧ q.ls = XR.fin (1 / u ^ 3 * x)
  kl : ∃ x, p.kl = XR.fin x ∧ q.kl = XR.fin x

theorem goodness_unit {u : ℝ} {F F' : FPI} {S : Shape} {N : ℕ} {W f : ℕ → ℝ} {μ T : ℝ}
    (h : UnitPair u F F' S N W f μ T) (hN : 0 < N)
    (hf : ∀ i < N, 0 < f i) (c e : List ℝ) (hg : S.Good c e) :
    ∃ p q, F.goodness (fins c) (fins e) = .ok p ∧
      F'.goodness (fins c) (fins (scaleL (1 / u ^ 2) e)) = .ok q ∧ PerfUnit u p q := by
  have hu := h.pos
  have hg' := hg.unit hu
  have ht : (0 : ℝ) < 1 / u ^ 3 := by positivity
  have hev := vec_of_mem hg.elen hg.epos
  have hev' := vec_of_mem hg'.elen hg'.epos
  obtain ⟨M, kl, h1, ⟨i, hi, h2⟩, h3, h4⟩ := goodness_fins h.fst.data hN c e hg.clen hg.elen
    fun _ a ha => (hg.epos a ha).le
  obtain ⟨M', kl', h1', ⟨i', hi', h2'⟩, h3', h4'⟩ := goodness_fins h.snd.data hN c _ hg'.clen hg'.elen
    fun _ a ha => (hg'.epos a ha).le
  have hk := h4 μ h.fst.mask hf fun i _ =>
    dens_nonneg (vec_of_mem hg.clen hg.cnn) (fun k hk => (hev k hk).le) i
  have hk' := h4' _ h.snd.mask (fun i hi => mul_pos ht (hf i hi)) fun i _ =>
    dens_nonneg (vec_of_mem hg'.clen hg'.cnn) (fun k hk => (hev' k hk).le) i
  have hd : ∀ i, |1 / u ^ 3 * f i - (S.unit u).dens true (vec c) (vec (scaleL (1 / u ^ 2) e)) i| =
      1 / u ^ 3 * |f i - S.dens true (vec c) (vec e) i| := by
    intro i
    rw [dens_unit hu S c e hev, ← mul_sub, abs_mul, abs_of_pos ht]
  have hM : M' = 1 / u ^ 3 * M := by
    apply le_antisymm
    · rw [← h2', hd]
      exact mul_le_mul_of_nonneg_left (h3 i' hi') ht.le
    · rw [← h2, ← hd]
      exact h3' i hi
  refine ⟨_, _, h1, h1', ⟨_, rfl, ?_⟩, ⟨_, rfl, ?_⟩, ⟨_, rfl, by rw [hM]⟩, ⟨_, rfl, ?_⟩, ⟨_, hk, ?_⟩⟩
  · exact congrArg _ (Finset.sum_congr rfl fun i _ => by rw [dens_unit hu S c e hev]; field_simp)
  · exact congrArg _ (Finset.sum_congr rfl fun i _ => by rw [hd]; field_simp)
  · rw [Finset.mul_sum]
    exact congrArg _ (Finset.sum_congr rfl fun i _ => by rw [dens_unit hu S c e hev]; field_simp)
  · rw [hk']
    exact congrArg _ (Finset.sum_congr rfl fun i _ => by
      rw [dens_unit hu S c e hev, klVal_scale ht]; field_simp)

/-- Corresponding states of the two loops. -/
structure StUnit (S : Shape) (u : ℝ) (s s' : FPIState) : Prop where
  par : ∃ c e, S.Good c e ∧ s.cs = fins c ∧ s.es = fins e ∧ s'.cs = fins c ∧
    s'.es = fins (scaleL (1 / u ^ 2) e)
  dd : s'.diffDiv = s.diffDiv
  dc : s'.maxDC = s.maxDC
  de : ScX (1 / u ^ 2) s.maxDE s'.maxDE
  perf : List.Forall₂ (PerfUnit u) s.performance s'.performance

theorem step_unit {u : ℝ} {F F' : FPI} {S : Shape} {N : ℕ} {W f : ℕ → ℝ} {μ T : ℝ}
    (h : UnitPair u F F' S N W f μ T)
    (hW : ∀ i < N, 0 ≤ W i) (hT : 0 < T) (hs : S.Sees N W f) (hf : ∀ i < N, 0 < f i)
    (o o' : FPIOpts) (huc : o.optCoeffs = true ∨ o.optExpons = true)
    (ho : o'.optCoeffs = o.optCoeffs ∧ o'.optExpons = o.optExpons) (s s' : FPIState)
    (hss : StUnit S u s s') :
    ∃ v v', F.step o s = .ok v ∧ F'.step o' s' = .ok v' ∧ StUnit S u v v' := by
  have hu2 : (0 : ℝ) < 1 / u ^ 2 := by have := h.pos; positivity
  obtain ⟨c, e, hg, a1, a2, a3, a4⟩ := hss.par
  obtain ⟨c', e', k1, k2, k3⟩ := C86_update h hW hT hs c e hg o.optCoeffs o.optExpons huc
  have hnb := h.fst.data.model.nb_pos
  obtain ⟨dc, d1⟩ := maxChange_ok (k2.clen.trans hg.clen.symm) (by rw [k2.clen]; exact hnb)
  obtain ⟨de, d2, d3⟩ := maxChange_scale hu2 (k2.elen.trans hg.elen.symm) (by rw [k2.elen]; exact hnb)
  obtain ⟨p, q, g1, g2, g3⟩ := goodness_unit h (hs.pos hnb) hf c' e' k2
  have f1 : F.step o s = .ok ⟨fins c', fins e', (match s.performance.getLast? with
      | none => s.diffDiv
      | some q => (p.kl - q.kl).abs), XR.fin dc, XR.fin de, s.performance ++ [p]⟩ := by
    unfold FPI.step
    rw [if_neg (by rcases huc with h | h <;> simp [h]), a1, a2, k1]
    simp only [d1, d2, g1]
    cases s.performance.getLast? <;> rfl
  have f2 : F'.step o' s' = .ok ⟨fins c', fins (scaleL (1 / u ^ 2) e'), (match s'.performance.getLast? with
      | none => s'.diffDiv
      | some r => (q.kl - r.kl).abs), XR.fin dc, XR.fin (1 / u ^ 2 * de), s'.performance ++ [q]⟩ := by
    unfold FPI.step
    rw [ho.1, ho.2, if_neg (by rcases huc with h | h <;> simp [h]), a3, a4, k3]
    simp only [d1, d3, g2]
    cases s'.performance.getLast? <;> rfl
  refine ⟨_, _, f1, f2, ⟨c', e', k2, rfl, rfl, rfl, rfl⟩, ?_, rfl, Or.inr ⟨de, rfl, rfl⟩,
    List.rel_append hss.perf (List.Forall₂.cons g3 List.Forall₂.nil)⟩
  rcases forall₂_getLast? hss.perf with ⟨h1, h2⟩ | ⟨x, y, h1, h2, h3⟩
  · simp only [h1, h2]; exact hss.dd
  · simp only [h1, h2]
    obtain ⟨a, ha1, ha2⟩ := g3.kl
    obtain ⟨b, hb1, hb2⟩ := h3.kl
    rw [ha1, ha2, hb1, hb2]

theorem loop_unit {u : ℝ} {F F' : FPI} {S : Shape} {N : ℕ} {W f : ℕ → ℝ} {μ T : ℝ}
    (h : UnitPair u F F' S N W f μ T)
    (hW : ∀ i < N, 0 ≤ W i) (hT : 0 < T) (hs : S.Sees N W f) (hf : ∀ i < N, 0 < f i)
    (uc ue : Bool) (huc : uc = true ∨ ue = true) (m : ℤ) (cT dT : XR) (eT : ℝ) (n : ℕ) (s s' : FPIState)
    (hss : StUnit S u s s') :
    ∃ v v', F.loop ⟨uc, ue, m, cT, XR.fin eT, dT⟩ n s = .ok v ∧
      F'.loop ⟨uc, ue, m, cT, XR.fin (1 / u ^ 2 * eT), dT⟩ n s' = .ok v' ∧ StUnit S u v v' := by
  have hu2 : (0 : ℝ) < 1 / u ^ 2 := by have := h.pos; positivity
  induction n generalizing s s' with
  | zero => exact ⟨s, s', rfl, rfl, hss⟩
  | succ n ih =>
    rw [FPI.loop, FPI.loop]
    have hiff : s'.notConverged ⟨uc, ue, m, cT, XR.fin (1 / u ^ 2 * eT), dT⟩ ↔
        s.notConverged ⟨uc, ue, m, cT, XR.fin eT, dT⟩ := by
      unfold FPIState.notConverged
      simp only
      rw [hss.de.gt_iff hu2, hss.dd, hss.dc]
    by_cases hc : s.notConverged ⟨uc, ue, m, cT, XR.fin eT, dT⟩
    · rw [if_pos hc, if_pos (hiff.mpr hc)]
      obtain ⟨v, v', h1, h2, h3⟩ := step_unit h hW hT hs hf ⟨uc, ue, m, cT, XR.fin eT, dT⟩
        ⟨uc, ue, m, cT, XR.fin (1 / u ^ 2 * eT), dT⟩ huc ⟨rfl, rfl⟩ s s' hss
      rw [h1, h2]
      exact ih v v' h3
    · rw [if_neg hc, if_neg (mt hiff.mp hc)]
      exact ⟨s, s', rfl, rfl, hss⟩

/-- **C86** (the whole run).  With the threshold on the exponents converted, the run in the other unit
makes the same number of updates, returns the same coefficients and the converted exponents, the same
history of divergences and the same success flag. -/
theorem C86_run {u : ℝ} {F F' : FPI} {S : Shape} {N : ℕ} {W f : ℕ → ℝ} {μ T : ℝ}
    (h : UnitPair u F F' S N W f μ T)
    (hW : ∀ i < N, 0 ≤ W i) (hT : 0 < T) (hs : S.Sees N W f) (hf : ∀ i < N, 0 < f i)
    (uc ue : Bool) (huc : uc = true ∨ ue = true) (m : ℤ) (cT dT : XR) (eT : ℝ) (c e : List ℝ)
    (hg : S.Good c e) :
    ∃ (r r' : FPIResult) (e' : List ℝ),
      F.run (.arr (ND.vec (fins c))) (.arr (ND.vec (fins e))) ⟨uc, ue, m, cT, XR.fin eT, dT⟩ = .ok r ∧
      F'.run (.arr (ND.vec (fins c))) (.arr (ND.vec (fins (e.map (· / u ^ 2)))))
        ⟨uc, ue, m, cT, XR.fin (eT / u ^ 2), dT⟩ = .ok r' ∧
      r'.coeffs = r.coeffs ∧ r.exps = fins e' ∧ r'.exps = fins (e'.map (· / u ^ 2)) ∧
      r'.success = r.success ∧ r'.fun_ = r.fun_ ∧
      List.Forall₂ (PerfUnit u) r.performance r'.performance := by
  have hsc : ∀ l : List ℝ, l.map (· / u ^ 2) = scaleL (1 / u ^ 2) l := fun l =>
    List.map_congr_left fun a _ => by rw [one_div_mul_eq_div]
  rw [hsc, ← one_div_mul_eq_div (u ^ 2) eT]
  have hg' := hg.unit h.pos
  have hshape : ∀ (G : FPI) (l : List ℝ), G.model.nbasis = (S.nb : ℤ) → l.length = S.nb →
      ¬ ((ND.vec (fins l)).shape.map Int.ofNat ≠ [G.model.nbasis]) := by
    intro G l h1 h2
    simp [ND.vec, h1, h2]
  obtain ⟨v, v', k1, k2, k3⟩ := loop_unit h hW hT hs hf uc ue huc m cT dT eT m.toNat
    ⟨fins c, fins e, XR.pinf, XR.pinf, XR.pinf, []⟩
    ⟨fins c, fins (scaleL (1 / u ^ 2) e), XR.pinf, XR.pinf, XR.pinf, []⟩
    ⟨⟨c, e, hg, rfl, rfl, rfl, rfl⟩, rfl, rfl, Or.inl ⟨rfl, rfl⟩, List.Forall₂.nil⟩
  obtain ⟨c', e', -, a1, a2, a3, a4⟩ := k3.par
  have f1 : F.run (.arr (ND.vec (fins c))) (.arr (ND.vec (fins e)))
      ⟨uc, ue, m, cT, XR.fin eT, dT⟩ = .ok ⟨v.cs, v.es, v.performance.map Perf.kl,
          decide ¬ ((m = v.performance.length ∧ v.diffDiv > dT) ∨ v.diffDiv = XR.nan),
          v.performance⟩ := by
    unfold FPI.run
    simp only
    rw [if_neg (hshape F _ h.fst.data.model.nbasis hg.clen),
      if_neg (hshape F _ h.fst.data.model.nbasis hg.elen)]
    have e1 : (ND.vec (fins c)).data = fins c := rfl
    have e2 : (ND.vec (fins e)).data = fins e := rfl
    rw [e1, e2, k1]
  have f2 : F'.run (.arr (ND.vec (fins c))) (.arr (ND.vec (fins (scaleL (1 / u ^ 2) e))))
      ⟨uc, ue, m, cT, XR.fin (1 / u ^ 2 * eT), dT⟩ = .ok ⟨v'.cs, v'.es, v'.performance.map Perf.kl,
          decide ¬ ((m = v'.performance.length ∧ v'.diffDiv > dT) ∨ v'.diffDiv = XR.nan),
          v'.performance⟩ := by
    unfold FPI.run
    simp only
    rw [if_neg (hshape F' _ h.snd.data.model.nbasis hg'.clen),
      if_neg (hshape F' _ h.snd.data.model.nbasis hg'.elen)]
    have e1 : (ND.vec (fins c)).data = fins c := rfl
    have e2 : (ND.vec (fins (scaleL (1 / u ^ 2) e))).data = fins (scaleL (1 / u ^ 2) e) := rfl
    rw [e1, e2, k2]
  refine ⟨_, _, e', f1, f2, a3.trans a1.symm, a2, by rw [hsc]; exact a4, ?_, ?_, k3.perf⟩
  · have hl : v'.performance.length = v.performance.length := k3.perf.length_eq.symm
    simp only [hl, k3.dd]
  · have key : ∀ l l' : List Perf, List.Forall₂ (PerfUnit u) l l' → l'.map Perf.kl = l.map Perf.kl := by
      intro l l' hl
      induction hl with
      | nil => rfl
      | cons hab _ ih =>
        obtain ⟨x, x1, x2⟩ := hab.kl
        rw [List.map_cons, List.map_cons, ih, x1, x2]
    exact key _ _ k3.perf

theorem trapW_unit (u : ℝ) (x : List ℝ) : trapW (x.map (u * ·)) = (trapW x).map (u * ·) := by
  have key : ∀ (c : ℝ) (x : List ℝ), trapWAux (u * c) (x.map (u * ·)) = (trapWAux c x).map (u * ·) := by
    intro c x
    induction x generalizing c with
    | nil => rfl
    | cons a l ih =>
      cases l with
      | nil => simp [trapWAux]
      | cons b l =>
        have := ih ((b - a) / 2)
        simp only [List.map_cons, trapWAux] at this ⊢
        rw [← mul_sub, mul_div_assoc, this]
        congr 1
        ring
  have := key 0 x
  rw [mul_zero] at this
  exact this

/-- **C86** (radial grids).  Spherical fits of a normalised atomic model on a radial grid, in two units
of length: both constructors succeed and give such a pair. -/
theorem C86_radial {u : ℝ} (hu : 0 < u) (x : List ℝ) (hx : ∀ a ∈ x, 0 ≤ a) (f : ℕ → ℝ)
    (hf : ∀ i < x.length, 0 ≤ f i) (μ : ℝ) (T : Option ℝ) (hT : T ≠ some 0) (ns np : ℕ)
    (hsp : ns + np ≠ 0)
    (h0 : ∑ i ∈ range x.length, vec (trapW x) i * (4 * π * vec x i ^ 2) * f i ≠ 0) :
    ∃ a a' F F', Atomic.init (.arr (.one (fins x))) .none (.int ns) (.int np) true = .ok a ∧
      Atomic.init (.arr (.one (fins (x.map (u * ·))))) .none (.int ns) (.int np) true = .ok a' ∧
      FPI.init (.radial ⟨fins x⟩) (fins (tab x.length f)) (.atom a) (XR.fin μ) (T.map XR.fin) true = .ok F ∧
      FPI.init (.radial ⟨fins (x.map (u * ·))⟩) (fins (tab x.length fun i => 1 / u ^ 3 * f i)) (.atom a')
        (XR.fin (1 / u ^ 3 * μ)) (T.map XR.fin) true = .ok F' ∧
      UnitPair u F F' (atomShape x ns np) x.length (fun i => vec (trapW x) i * (4 * π * vec x i ^ 2)) f μ
        (T.getD (∑ i ∈ range x.length, vec (trapW x) i * (4 * π * vec x i ^ 2) * f i)) := by
  have hvec : ∀ (l : List ℝ) i, vec (l.map (u * ·)) i = u * vec l i := fun l i => vec_scaleL u l i
  have habs : ∀ l : List ℝ, (∀ a ∈ l, 0 ≤ a) → l.map (fun a => |a|) = l := by
    intro l hl
    conv_rhs => rw [← List.map_id l]
    exact List.map_congr_left fun a ha => abs_of_nonneg (hl a ha)
  obtain ⟨-, a, a1, a2, -⟩ := C18_radii_1d x 0 ns np hsp true
  obtain ⟨-, a', a1', a2', -⟩ := C18_radii_1d (x.map (u * ·)) 0 ns np hsp true
  rw [habs x hx] at a2
  rw [habs (x.map (u * ·)) (by
    intro b hb
    obtain ⟨b', hb', rfl⟩ := List.mem_map.mp hb
    exact mul_nonneg hu.le (hx b' hb'))] at a2'
  have n1 : a.normalized = true := by
    obtain ⟨_, _, _, _, _, _, _, _, _, _, _, _, _, hform⟩ := init_inv a1
    rw [hform]
  have n1' : a'.normalized = true := by
    obtain ⟨_, _, _, _, _, _, _, _, _, _, _, _, _, hform⟩ := init_inv a1'
    rw [hform]
  have hm := atom_isModel a2 hsp
  have hm' := atom_isModel a2' hsp
  rw [n1] at hm
  rw [n1', List.length_map] at hm'
  have hshape : atomShape (x.map (u * ·)) ns np = (atomShape x ns np).unit u := by
    unfold atomShape Shape.unit
    simp only [hvec]
  rw [hshape] at hm'
  have hq' := quad_spherical (x.map (u * ·))
  rw [List.length_map, trapW_unit] at hq'
  have hWe : (fun i => vec ((trapW x).map (u * ·)) i * (4 * π * vec (x.map (u * ·)) i ^ 2)) =
      fun i => u ^ 3 * (vec (trapW x) i * (4 * π * vec x i ^ 2)) := by
    funext i
    rw [hvec, hvec]
    ring
  rw [hWe] at hq'
  have hs' : (∑ i ∈ range x.length, u ^ 3 * (vec (trapW x) i * (4 * π * vec x i ^ 2)) * (1 / u ^ 3 * f i)) =
      ∑ i ∈ range x.length, vec (trapW x) i * (4 * π * vec x i ^ 2) * f i :=
    Finset.sum_congr rfl fun i _ => by field_simp
  obtain ⟨F, f1, f2, -⟩ := (C34_finite (f := f) μ T hm (quad_spherical x)
    (fun _ => ⟨_, rfl⟩) hf).1 h0 hT
  obtain ⟨F', f1', f2', -⟩ := (C34_finite (f := fun i => 1 / u ^ 3 * f i) (1 / u ^ 3 * μ) T hm' hq'
    (fun _ => ⟨_, rfl⟩) (fun i hi => mul_nonneg (by positivity) (hf i hi))).1
    (by rw [hs']; exact h0) hT
  rw [hs'] at f2'
  exact ⟨a, a', F, F', a1, a1', f1, f1', hu, f2, f2'⟩

/-- A spherical fit of one s-type and one p-type function on the grid 1, 2, 3, and the same fit in
units of half the length. -/
example (m : ℤ) : ∃ a a' F F' r r' e',
    Atomic.init (.arr (.one (fins [1, 2, 3]))) .none (.int 1) (.int 1) true = .ok a ∧
    Atomic.init (.arr (.one (fins [2, 4, 6]))) .none (.int 1) (.int 1) true = .ok a' ∧
    FPI.init (.radial ⟨fins [1, 2, 3]⟩) (fins [8, 8, 8]) (.atom a) (XR.fin 0) none true = .ok F ∧
    FPI.init (.radial ⟨fins [2, 4, 6]⟩) (fins [1, 1, 1]) (.atom a') (XR.fin 0) none true = .ok F' ∧
    F.run (.arr (ND.vec (fins [1, 2]))) (.arr (ND.vec (fins [4, 8])))
      ⟨true, true, m, XR.fin 1, XR.fin 1, XR.fin 1⟩ = .ok r ∧
    F'.run (.arr (ND.vec (fins [1, 2]))) (.arr (ND.vec (fins [1, 2])))
      ⟨true, true, m, XR.fin 1, XR.fin (1 / 4), XR.fin 1⟩ = .ok r' ∧
    r'.coeffs = r.coeffs ∧ r.exps = fins e' ∧ r'.exps = fins (e'.map (· / 4)) ∧ r'.fun_ = r.fun_ := by
  have ht : trapW [1, 2, 3] = [1 / 2, 1, 1 / 2] := by norm_num [trapW, trapWAux]
  have hpi := Real.pi_pos
  have hW : ∀ i < 3, 0 ≤ vec (trapW [1, 2, 3]) i * (4 * π * vec [1, 2, 3] i ^ 2) := by
    intro i hi
    rw [ht]
    interval_cases i <;> simp [vec] <;> positivity
  have hsum : 0 < ∑ i ∈ range 3, vec (trapW [1, 2, 3]) i * (4 * π * vec [1, 2, 3] i ^ 2) * 8 := by
    rw [ht]
    simp [Finset.sum_range_succ, vec]
    positivity
  obtain ⟨a, a', F, F', h1, h2, h3, h4, h5⟩ := C86_radial (u := 2) two_pos [1, 2, 3] (by simp)
    (fun _ => 8) (fun _ _ => by norm_num) 0 none (by simp) 1 1 (by norm_num) hsum.ne'
  obtain ⟨r, r', e', k1, k2, k3, k4, k5, -, k7, -⟩ := C86_run h5 hW hsum
    (fun k _ => ⟨1, by simp, by rw [ht]; simp [vec, hpi], by norm_num, by norm_num [atomShape, vec]⟩)
    (fun _ _ => by norm_num) true true (Or.inl rfl) m (XR.fin 1) (XR.fin 1) 1 [1, 2] [4, 8]
    ⟨rfl, rfl, by simp, by simp⟩
  have e1 : [(1 : ℝ), 2, 3].map ((2 : ℝ) * ·) = [2, 4, 6] := by norm_num
  have e2 : fins (tab [(1 : ℝ), 2, 3].length fun _ => (8 : ℝ)) = fins [8, 8, 8] := by
    simp [tab, List.range_succ]
  have e3 : fins (tab [(1 : ℝ), 2, 3].length fun _ => 1 / (2 : ℝ) ^ 3 * 8) = fins [1, 1, 1] := by
    norm_num [tab, List.range_succ]
  have e4 : [(4 : ℝ), 8].map (· / (2 : ℝ) ^ 2) = [1, 2] := by norm_num
  have e5 : (2 : ℝ) ^ 2 = 4 := by norm_num
  rw [e1] at h2 h4
  rw [e2] at h3
  rw [e3, mul_zero] at h4
  rw [e4, e5] at k2
  rw [e5] at k5
  exact ⟨a, a', F, F', r, r', e', h1, h2, h3, h4, k1, k2, k3, k4, k5, k7⟩

end
end BFit
