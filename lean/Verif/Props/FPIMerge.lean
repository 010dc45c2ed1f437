import Verif.Props.FPIUnit

/-!
Which list of basis functions a fixed-point fit is written with does not matter: reordering them,
splitting one into several copies with the same exponent, or adding functions with coefficient zero
gives the same fit.
-/

namespace BFit

open Real Classical Finset

noncomputable section

/-- Basis function `k` of `S'` is a copy of basis function `φ k` of `S`: same type, same centre. -/
structure Refines (S S' : Shape) (N : ℕ) (φ : ℕ → ℕ) : Prop where
  lt : ∀ k < S'.nb, φ k < S.nb
  typ : ∀ k < S'.nb, S'.isS k = S.isS (φ k)
  rad : ∀ k < S'.nb, ∀ i < N, S'.rad k i = S.rad (φ k) i

/-- Copies have the exponent of their original, and the coefficient of the original is the sum of the
coefficients of its copies (zero if it has none). -/
structure Copies (S S' : Shape) (φ : ℕ → ℕ) (c e c' e' : List ℝ) : Prop where
  exps : ∀ k < S'.nb, vec e' k = vec e (φ k)
  coeffs : ∀ j < S.nb, vec c j = ∑ k ∈ (range S'.nb).filter (fun k => φ k = j), vec c' k

theorem sum_copies {S S' : Shape} {φ : ℕ → ℕ} {N : ℕ} (hr : Refines S S' N φ) {c e c' e' : List ℝ}
    (h : Copies S S' φ c e c' e') (A : ℕ → ℝ) :
    ∑ k ∈ range S'.nb, vec c' k * A (φ k) = ∑ j ∈ range S.nb, vec c j * A j := by
  rw [← Finset.sum_fiberwise_of_maps_to (g := φ) (t := range S.nb)
    (fun k hk => mem_range.mpr (hr.lt k (mem_range.mp hk)))]
  refine Finset.sum_congr rfl fun j hj => ?_
  rw [h.coeffs j (mem_range.mp hj), Finset.sum_mul]
  exact Finset.sum_congr rfl fun k hk => by rw [(mem_filter.mp hk).2]

theorem dens_copies {S S' : Shape} {φ : ℕ → ℕ} {N : ℕ} (hr : Refines S S' N φ) {c e c' e' : List ℝ}
    (h : Copies S S' φ c e c' e') (i : ℕ) (hi : i < N) :
    S'.dens true (vec c') (vec e') i = S.dens true (vec c) (vec e) i := by
  unfold Shape.dens
  rw [← sum_copies hr h fun j => bf (S.isS j) true (vec e j) (S.rad j i)]
  refine Finset.sum_congr rfl fun k hk => ?_
  have hk' := mem_range.mp hk
  rw [hr.typ k hk', hr.rad k hk' i hi, h.exps k hk']

theorem fpiA_copies {S S' : Shape} {φ : ℕ → ℕ} {N : ℕ} (hr : Refines S S' N φ) {c e c' e' : List ℝ}
    (h : Copies S S' φ c e c' e') (W q q' : ℕ → ℝ) (hq : ∀ i < N, q' i = q i) (k : ℕ) (hk : k < S'.nb) :
    fpiA S' true N W q' (vec e') k = fpiA S true N W q (vec e) (φ k) ∧
      fpiA2 S' true N W q' (vec e') k = fpiA2 S true N W q (vec e) (φ k) := by
  unfold fpiA fpiA2
  constructor <;>
  · refine Finset.sum_congr rfl fun i hi => ?_
    rw [hr.typ k hk, hr.rad k hk i (mem_range.mp hi), h.exps k hk, hq i (mem_range.mp hi)]

/-- Two fits of the same density on the same grid, the second with a copied basis. -/
structure CopyPair (F F' : FPI) (S S' : Shape) (N : ℕ) (W f : ℕ → ℝ) (μ T : ℝ) (φ : ℕ → ℕ) : Prop where
  fst : IsFPI F true S N W f μ T
  snd : IsFPI F' true S' N W f μ T
  ref : Refines S S' N φ

theorem Shape.Sees.copies {S S' : Shape} {φ : ℕ → ℕ} {N : ℕ} {W f : ℕ → ℝ} (hs : S.Sees N W f)
    (hr : Refines S S' N φ) : S'.Sees N W f := by
  intro k hk
  obtain ⟨i, hi, h1, h2, h3⟩ := hs (φ k) (hr.lt k hk)
  exact ⟨i, hi, h1, h2, by rw [hr.rad k hk i hi]; exact h3⟩

/-- **C94** (one update).  Updating a copied basis gives the copies of the updated basis: copies keep
equal exponents, and their coefficients still add up. -/
theorem C94_update {F F' : FPI} {S S' : Shape} {N : ℕ} {W f : ℕ → ℝ} {μ T : ℝ} {φ : ℕ → ℕ}
    (h : CopyPair F F' S S' N W f μ T φ)
    (hW : ∀ i < N, 0 ≤ W i) (hT : 0 < T) (hs : S.Sees N W f) (c e c' e' : List ℝ) (hg : S.Good c e)
    (hg' : S'.Good c' e') (hcp : Copies S S' φ c e c' e') (uc ue : Bool) (huc : uc = true ∨ ue = true) :
    ∃ c₁ e₁ c₁' e₁', F.updateParams (fins c) (fins e) uc ue = .ok (fins c₁, fins e₁) ∧
      F'.updateParams (fins c') (fins e') uc ue = .ok (fins c₁', fins e₁') ∧
      S.Good c₁ e₁ ∧ S'.Good c₁' e₁' ∧ Copies S S' φ c₁ e₁ c₁' e₁' := by
  have hs' := hs.copies h.ref
  have hcv := vec_of_mem hg.clen hg.cnn
  have hev := vec_of_mem hg.elen hg.epos
  have hcv' := vec_of_mem hg'.clen hg'.cnn
  have hev' := vec_of_mem hg'.elen hg'.epos
  obtain ⟨c₁, e₁, k1, k2, k3, k4, k5, -⟩ :=
    C36_positive h.fst hW hT hs c e hg.clen hg.elen hg.cnn hg.epos uc ue huc
  obtain ⟨c₁', e₁', k1', k2', k3', k4', k5', -⟩ :=
    C36_positive h.snd hW hT hs' c' e' hg'.clen hg'.elen hg'.cnn hg'.epos uc ue huc
  have f1 := updateParams_fins h.fst.data h.fst.mask h.fst.lm h.fst.lm_ne h.fst.f_nonneg c e hg.clen hg.elen
    (fun _ a ha => (hg.epos a ha).le) (fun i _ => dens_nonneg hcv (fun k hk => (hev k hk).le) i) uc ue huc
    (fun _ k hk => (fpiA_pos hs hW (fun i hi => ratio_nonneg (h.fst.f_nonneg i hi)) (fun i _ => ratio_pos) hk
      (hev k hk)).2.ne')
  have f1' := updateParams_fins h.snd.data h.snd.mask h.snd.lm h.snd.lm_ne h.snd.f_nonneg c' e' hg'.clen
    hg'.elen (fun _ a ha => (hg'.epos a ha).le)
    (fun i _ => dens_nonneg hcv' (fun k hk => (hev' k hk).le) i) uc ue huc
    (fun _ k hk => (fpiA_pos hs' hW (fun i hi => ratio_nonneg (h.snd.f_nonneg i hi)) (fun i _ => ratio_pos) hk
      (hev' k hk)).2.ne')
  have hA := fpiA_copies h.ref hcp W (S.ratio true μ f (vec c) (vec e)) (S'.ratio true μ f (vec c') (vec e'))
    (fun i hi => by unfold Shape.ratio; rw [dens_copies h.ref hcp i hi])
  rw [k1] at f1
  rw [k1'] at f1'
  injection f1 with f1
  injection f1' with f1'
  rw [Prod.mk.injEq] at f1 f1'
  have e1 := fins_inj f1.1
  have e2 := fins_inj f1.2
  have e1' := fins_inj f1'.1
  have e2' := fins_inj f1'.2
  refine ⟨c₁, e₁, c₁', e₁', k1, k1', ⟨k2, k3, k4, k5⟩, ⟨k2', k3', k4', k5'⟩, ?_, ?_⟩
  · intro k hk
    rw [e2, e2', vec_tab hk, vec_tab (h.ref.lt k hk), (hA k hk).1, (hA k hk).2, hcp.exps k hk]
    have : S'.pref k = S.pref (φ k) := by unfold Shape.pref; rw [h.ref.typ k hk]
    rw [this]
  · intro j hj
    rw [e1, e1', vec_tab hj]
    have hsum : ∀ k ∈ (range S'.nb).filter (fun k => φ k = j),
        vec (tab S'.nb fun k => if uc then vec c' k * fpiA S' true N W
          (S'.ratio true μ f (vec c') (vec e')) (vec e') k / ((∑ i ∈ range N, W i * f i) / T) else vec c' k) k =
        vec c' k * (if uc then fpiA S true N W
          (S.ratio true μ f (vec c) (vec e)) (vec e) j / ((∑ i ∈ range N, W i * f i) / T) else 1) := by
      intro k hk
      obtain ⟨h1, h2⟩ := mem_filter.mp hk
      have hk' := mem_range.mp h1
      rw [vec_tab hk', (hA k hk').1, h2]
      split
      · rw [mul_div_assoc]
      · rw [mul_one]
    rw [Finset.sum_congr rfl hsum, ← Finset.sum_mul, ← hcp.coeffs j hj]
    split
    · rw [mul_div_assoc]
    · rw [mul_one]

/-- **C94** (reported errors).  The five errors of the copied parameters are those of the original
ones. -/
theorem C94_goodness {F F' : FPI} {S S' : Shape} {N : ℕ} {W f : ℕ → ℝ} {μ T : ℝ} {φ : ℕ → ℕ}
    (h : CopyPair F F' S S' N W f μ T φ) (hN : 0 < N) (hf : ∀ i < N, 0 < f i) (c e c' e' : List ℝ)
    (hg : S.Good c e) (hg' : S'.Good c' e') (hcp : Copies S S' φ c e c' e') :
    ∃ p, F.goodness (fins c) (fins e) = .ok p ∧ F'.goodness (fins c') (fins e') = .ok p ∧
      ∃ x, p.kl = XR.fin x := by
  have hev := vec_of_mem hg.elen hg.epos
  have hev' := vec_of_mem hg'.elen hg'.epos
  have hd := dens_copies h.ref hcp
  obtain ⟨M, kl, h1, ⟨i, hi, h2⟩, h3, h4⟩ := goodness_fins h.fst.data hN c e hg.clen hg.elen
    fun _ a ha => (hg.epos a ha).le
  obtain ⟨M', kl', h1', ⟨i', hi', h2'⟩, h3', h4'⟩ := goodness_fins h.snd.data hN c' e' hg'.clen hg'.elen
    fun _ a ha => (hg'.epos a ha).le
  have hk := h4 μ h.fst.mask hf fun i _ =>
    dens_nonneg (vec_of_mem hg.clen hg.cnn) (fun k hk => (hev k hk).le) i
  have hk' := h4' μ h.snd.mask hf fun i _ =>
    dens_nonneg (vec_of_mem hg'.clen hg'.cnn) (fun k hk => (hev' k hk).le) i
  have hM : M' = M := by
    apply le_antisymm
    · rw [← h2', hd i' hi']
      exact h3 i' hi'
    · rw [← h2, ← hd i hi]
      exact h3' i hi
  have hsum : ∀ g : ℝ → ℝ → ℝ, ∑ i ∈ range N, W i * g (f i) (S'.dens true (vec c') (vec e') i) =
      ∑ i ∈ range N, W i * g (f i) (S.dens true (vec c) (vec e) i) := fun g =>
    Finset.sum_congr rfl fun i hi => by rw [hd i (mem_range.mp hi)]
  refine ⟨_, h1, ?_, _, hk⟩
  rw [h1', hk', hk, hM, hsum fun _ b => b, hsum fun a b => |a - b|, hsum fun a b => (a - b) ^ 2,
    hsum (klVal μ)]

theorem maxChange_spec {a b : List ℝ} {n : ℕ} (ha : a.length = n) (hb : b.length = n) (hn : 0 < n) :
    ∃ M, maxChange (fins a) (fins b) = .ok (XR.fin M) ∧ (∃ k < n, |vec a k - vec b k| = M) ∧
      ∀ k < n, |vec a k - vec b k| ≤ M := by
  have e1 : fins a = fins (tab n (vec a)) := by rw [tab, ← eq_range_map a n ha]
  have e2 : fins b = fins (tab n (vec b)) := by rw [tab, ← eq_range_map b n hb]
  unfold maxChange
  rw [e1, e2, zipWith_tab (g := fun u v => u - v) (by simp), map_tab (g := fun z => |z|) (by simp)]
  exact npMax_tab hn _

/-- Every function of the original basis has exactly one copy: a reordering. -/
def Reorder (S S' : Shape) (φ : ℕ → ℕ) : Prop := ∀ j < S.nb, ∃ k < S'.nb, ∀ l < S'.nb, φ l = j ↔ l = k

theorem coeff_reorder {S S' : Shape} {φ : ℕ → ℕ} {c e c' e' : List ℝ}
    (h : Copies S S' φ c e c' e') {j k : ℕ} (hj : j < S.nb) (hk : k < S'.nb)
    (hjk : ∀ l < S'.nb, φ l = j ↔ l = k) : vec c j = vec c' k := by
  rw [h.coeffs j hj]
  have : (range S'.nb).filter (fun l => φ l = j) = {k} := by
    ext l
    simp only [mem_filter, mem_range, mem_singleton]
    constructor
    · rintro ⟨h1, h2⟩; exact (hjk l h1).mp h2
    · rintro rfl; exact ⟨hk, (hjk _ hk).mpr rfl⟩
  rw [this, Finset.sum_singleton]

/-- Corresponding states of the two loops. -/
structure StCopies (S S' : Shape) (φ : ℕ → ℕ) (s s' : FPIState) : Prop where
  par : ∃ c e c' e', S.Good c e ∧ S'.Good c' e' ∧ Copies S S' φ c e c' e' ∧ s.cs = fins c ∧ s.es = fins e ∧
    s'.cs = fins c' ∧ s'.es = fins e'
  dd : s'.diffDiv = s.diffDiv
  perf : s'.performance = s.performance
  chg : Reorder S S' φ → s'.maxDC = s.maxDC ∧ s'.maxDE = s.maxDE
  nn : ∀ t < 0, s.maxDC > XR.fin t ∧ s'.maxDC > XR.fin t

theorem step_copies {F F' : FPI} {S S' : Shape} {N : ℕ} {W f : ℕ → ℝ} {μ T : ℝ} {φ : ℕ → ℕ}
    (h : CopyPair F F' S S' N W f μ T φ)
    (hW : ∀ i < N, 0 ≤ W i) (hT : 0 < T) (hs : S.Sees N W f) (hf : ∀ i < N, 0 < f i)
    (o : FPIOpts) (huc : o.optCoeffs = true ∨ o.optExpons = true) (s s' : FPIState)
    (hss : StCopies S S' φ s s') :
    ∃ v v', F.step o s = .ok v ∧ F'.step o s' = .ok v' ∧ StCopies S S' φ v v' := by
  obtain ⟨c, e, c', e', hg, hg', hcp, a1, a2, a3, a4⟩ := hss.par
  obtain ⟨c₁, e₁, c₁', e₁', k1, k1', g1, g1', hcp1⟩ :=
    C94_update h hW hT hs c e c' e' hg hg' hcp o.optCoeffs o.optExpons huc
  have hnb := h.fst.data.model.nb_pos
  have hnb' := h.snd.data.model.nb_pos
  obtain ⟨dc, d1, ⟨p1, p2, p3⟩, p4⟩ := maxChange_spec g1.clen hg.clen hnb
  obtain ⟨de, d2, ⟨q1, q2, q3⟩, q4⟩ := maxChange_spec g1.elen hg.elen hnb
  obtain ⟨dc', d1', ⟨p1', p2', p3'⟩, p4'⟩ := maxChange_spec g1'.clen hg'.clen hnb'
  obtain ⟨de', d2', ⟨q1', q2', q3'⟩, q4'⟩ := maxChange_spec g1'.elen hg'.elen hnb'
  obtain ⟨p, gd, gd', -⟩ := C94_goodness h (hs.pos hnb) hf c₁ e₁ c₁' e₁' g1 g1' hcp1
  have f1 : F.step o s = .ok ⟨fins c₁, fins e₁, (match s.performance.getLast? with
      | none => s.diffDiv
      | some q => (p.kl - q.kl).abs), XR.fin dc, XR.fin de, s.performance ++ [p]⟩ := by
    unfold FPI.step
    rw [if_neg (by rcases huc with h | h <;> simp [h]), a1, a2, k1]
    simp only [d1, d2, gd]
    cases s.performance.getLast? <;> rfl
  have f2 : F'.step o s' = .ok ⟨fins c₁', fins e₁', (match s'.performance.getLast? with
      | none => s'.diffDiv
      | some q => (p.kl - q.kl).abs), XR.fin dc', XR.fin de', s'.performance ++ [p]⟩ := by
    unfold FPI.step
    rw [if_neg (by rcases huc with h | h <;> simp [h]), a3, a4, k1']
    simp only [d1', d2', gd']
    cases s'.performance.getLast? <;> rfl
  refine ⟨_, _, f1, f2, ⟨c₁, e₁, c₁', e₁', g1, g1', hcp1, rfl, rfl, rfl, rfl⟩, ?_, ?_, ?_, ?_⟩
  · simp only [hss.perf, hss.dd]
  · simp only [hss.perf]
  · intro hre
    simp only
    refine ⟨congrArg _ ?_, congrArg _ ?_⟩
    · apply le_antisymm
      · rw [← p3']
        obtain ⟨k, hk, hk'⟩ := hre (φ p1') (h.ref.lt p1' p2')
        obtain rfl := (hk' p1' p2').mp rfl
        have := p4 (φ p1') (h.ref.lt p1' p2')
        rwa [coeff_reorder hcp1 (h.ref.lt _ p2') p2' hk', coeff_reorder hcp (h.ref.lt _ p2') p2' hk'] at this
      · rw [← p3]
        obtain ⟨k, hk, hk'⟩ := hre p1 p2
        rw [coeff_reorder hcp1 p2 hk hk', coeff_reorder hcp p2 hk hk']
        exact p4' k hk
    · apply le_antisymm
      · rw [← q3', hcp1.exps _ q2', hcp.exps _ q2']
        exact q4 _ (h.ref.lt _ q2')
      · rw [← q3]
        obtain ⟨k, hk, hk'⟩ := hre q1 q2
        have := q4' k hk
        rwa [hcp1.exps _ hk, hcp.exps _ hk, (hk' k hk).mpr rfl] at this
  · intro t ht
    refine ⟨?_, ?_⟩
    · show XR.fin t < XR.fin dc
      rw [XR.lt_fin, ← p3]
      exact lt_of_lt_of_le ht (abs_nonneg _)
    · show XR.fin t < XR.fin dc'
      rw [XR.lt_fin, ← p3']
      exact lt_of_lt_of_le ht (abs_nonneg _)

theorem loop_copies {F F' : FPI} {S S' : Shape} {N : ℕ} {W f : ℕ → ℝ} {μ T : ℝ} {φ : ℕ → ℕ}
    (h : CopyPair F F' S S' N W f μ T φ)
    (hW : ∀ i < N, 0 ≤ W i) (hT : 0 < T) (hs : S.Sees N W f) (hf : ∀ i < N, 0 < f i)
    (o : FPIOpts) (huc : o.optCoeffs = true ∨ o.optExpons = true)
    (hst : Reorder S S' φ ∨ ∃ t < 0, o.cThr = XR.fin t) (n : ℕ) (s s' : FPIState)
    (hss : StCopies S S' φ s s') :
    ∃ v v', F.loop o n s = .ok v ∧ F'.loop o n s' = .ok v' ∧ StCopies S S' φ v v' := by
  induction n generalizing s s' with
  | zero => exact ⟨s, s', rfl, rfl, hss⟩
  | succ n ih =>
    rw [FPI.loop, FPI.loop]
    have hiff : s'.notConverged o ↔ s.notConverged o := by
      unfold FPIState.notConverged
      rw [hss.dd]
      rcases hst with hre | ⟨t, ht, hto⟩
      · rw [(hss.chg hre).1, (hss.chg hre).2]
      · have := hss.nn t ht
        rw [hto]
        simp only [this.1, this.2, or_true]
    by_cases hc : s.notConverged o
    · rw [if_pos hc, if_pos (hiff.mpr hc)]
      obtain ⟨v, v', h1, h2, h3⟩ := step_copies h hW hT hs hf o huc s s' hss
      rw [h1, h2]
      exact ih v v' h3
    · rw [if_neg hc, if_neg (mt hiff.mp hc)]
      exact ⟨s, s', rfl, rfl, hss⟩

/-- **C94** (the whole run).  Start the same fit with a basis and with a copied basis.  If the copies
only reorder the functions, or if the loop is stopped by the change of the divergence and the number of
iterations (negative threshold on the coefficients), both runs return, make the same number of updates,
report the same five errors after every one of them and the same success flag, and the second result
consists of copies of the first. -/
theorem C94_run {F F' : FPI} {S S' : Shape} {N : ℕ} {W f : ℕ → ℝ} {μ T : ℝ} {φ : ℕ → ℕ}
    (h : CopyPair F F' S S' N W f μ T φ)
    (hW : ∀ i < N, 0 ≤ W i) (hT : 0 < T) (hs : S.Sees N W f) (hf : ∀ i < N, 0 < f i)
    (o : FPIOpts) (huc : o.optCoeffs = true ∨ o.optExpons = true)
    (hst : Reorder S S' φ ∨ ∃ t < 0, o.cThr = XR.fin t)
    (c e c' e' : List ℝ) (hg : S.Good c e) (hg' : S'.Good c' e') (hcp : Copies S S' φ c e c' e') :
    ∃ (r r' : FPIResult) (c₁ e₁ c₁' e₁' : List ℝ),
      F.run (.arr (ND.vec (fins c))) (.arr (ND.vec (fins e))) o = .ok r ∧
      F'.run (.arr (ND.vec (fins c'))) (.arr (ND.vec (fins e'))) o = .ok r' ∧
      r.coeffs = fins c₁ ∧ r.exps = fins e₁ ∧ r'.coeffs = fins c₁' ∧ r'.exps = fins e₁' ∧
      Copies S S' φ c₁ e₁ c₁' e₁' ∧
      r'.performance = r.performance ∧ r'.fun_ = r.fun_ ∧ r'.success = r.success := by
  have hshape : ∀ (G : FPI) (R : Shape) (l : List ℝ), G.model.nbasis = (R.nb : ℤ) → l.length = R.nb →
      ¬ ((ND.vec (fins l)).shape.map Int.ofNat ≠ [G.model.nbasis]) := by
    intro G R l h1 h2
    simp [ND.vec, h1, h2]
  obtain ⟨v, v', k1, k2, k3⟩ := loop_copies h hW hT hs hf o huc hst o.maxiter.toNat
    ⟨fins c, fins e, XR.pinf, XR.pinf, XR.pinf, []⟩ ⟨fins c', fins e', XR.pinf, XR.pinf, XR.pinf, []⟩
    ⟨⟨c, e, c', e', hg, hg', hcp, rfl, rfl, rfl, rfl⟩, rfl, rfl, fun _ => ⟨rfl, rfl⟩, fun t _ => by simp⟩
  obtain ⟨c₁, e₁, c₁', e₁', -, -, hcp1, a1, a2, a3, a4⟩ := k3.par
  have f1 : F.run (.arr (ND.vec (fins c))) (.arr (ND.vec (fins e))) o =
      .ok ⟨v.cs, v.es, v.performance.map Perf.kl,
          decide ¬ ((o.maxiter = v.performance.length ∧ v.diffDiv > o.dThr) ∨ v.diffDiv = XR.nan),
          v.performance⟩ := by
    unfold FPI.run
    simp only
    rw [if_neg (hshape F S _ h.fst.data.model.nbasis hg.clen),
      if_neg (hshape F S _ h.fst.data.model.nbasis hg.elen)]
    have e1 : (ND.vec (fins c)).data = fins c := rfl
    have e2 : (ND.vec (fins e)).data = fins e := rfl
    rw [e1, e2, k1]
  have f2 : F'.run (.arr (ND.vec (fins c'))) (.arr (ND.vec (fins e'))) o =
      .ok ⟨v'.cs, v'.es, v'.performance.map Perf.kl,
          decide ¬ ((o.maxiter = v'.performance.length ∧ v'.diffDiv > o.dThr) ∨ v'.diffDiv = XR.nan),
          v'.performance⟩ := by
    unfold FPI.run
    simp only
    rw [if_neg (hshape F' S' _ h.snd.data.model.nbasis hg'.clen),
      if_neg (hshape F' S' _ h.snd.data.model.nbasis hg'.elen)]
    have e1 : (ND.vec (fins c')).data = fins c' := rfl
    have e2 : (ND.vec (fins e')).data = fins e' := rfl
    rw [e1, e2, k2]
  refine ⟨_, _, c₁, e₁, c₁', e₁', f1, f2, a1, a2, a3, a4, hcp1, k3.perf, ?_, ?_⟩
  · simp only [k3.perf]
  · simp only [k3.perf, k3.dd]

/-- **C94** (radial grids).  Spherical fits of normalised atomic models with `ns`, `np` and with `ns'`,
`np'` functions: both constructors succeed, and for every assignment `φ` of the functions of the second
model to those of the first that respects the types the two fits form such a pair. -/
theorem C94_radial (x : List ℝ) (hx : ∀ a ∈ x, 0 ≤ a) (f : ℕ → ℝ)
    (hf : ∀ i < x.length, 0 ≤ f i) (μ : ℝ) (T : Option ℝ) (hT : T ≠ some 0) (ns np ns' np' : ℕ)
    (hsp : ns + np ≠ 0) (hsp' : ns' + np' ≠ 0)
    (h0 : ∑ i ∈ range x.length, vec (trapW x) i * (4 * π * vec x i ^ 2) * f i ≠ 0)
    (φ : ℕ → ℕ) (hs : ∀ k < ns', φ k < ns) (hp : ∀ k, ns' ≤ k → k < ns' + np' → ns ≤ φ k ∧ φ k < ns + np) :
    ∃ a a' F F', Atomic.init (.arr (.one (fins x))) .none (.int ns) (.int np) true = .ok a ∧
      Atomic.init (.arr (.one (fins x))) .none (.int ns') (.int np') true = .ok a' ∧
      FPI.init (.radial ⟨fins x⟩) (fins (tab x.length f)) (.atom a) (XR.fin μ) (T.map XR.fin) true = .ok F ∧
      FPI.init (.radial ⟨fins x⟩) (fins (tab x.length f)) (.atom a') (XR.fin μ) (T.map XR.fin) true = .ok F' ∧
      CopyPair F F' (atomShape x ns np) (atomShape x ns' np') x.length
        (fun i => vec (trapW x) i * (4 * π * vec x i ^ 2)) f μ
        (T.getD (∑ i ∈ range x.length, vec (trapW x) i * (4 * π * vec x i ^ 2) * f i)) φ := by
  have habs : x.map (fun a => |a|) = x := by
    conv_rhs => rw [← List.map_id x]
    exact List.map_congr_left fun a ha => abs_of_nonneg (hx a ha)
  have hone : ∀ n m : ℕ, n + m ≠ 0 → ∃ a F,
      Atomic.init (.arr (.one (fins x))) .none (.int n) (.int m) true = .ok a ∧
      FPI.init (.radial ⟨fins x⟩) (fins (tab x.length f)) (.atom a) (XR.fin μ) (T.map XR.fin) true = .ok F ∧
      IsFPI F true (atomShape x n m) x.length (fun i => vec (trapW x) i * (4 * π * vec x i ^ 2)) f μ
        (T.getD (∑ i ∈ range x.length, vec (trapW x) i * (4 * π * vec x i ^ 2) * f i)) := by
    intro n m hnm
    obtain ⟨-, a, a1, a2, -⟩ := C18_radii_1d x 0 n m hnm true
    rw [habs] at a2
    have n1 : a.normalized = true := by
      obtain ⟨_, _, _, _, _, _, _, _, _, _, _, _, _, hform⟩ := init_inv a1
      rw [hform]
    have hm := atom_isModel a2 hnm
    rw [n1] at hm
    obtain ⟨F, f1, f2, -⟩ := (C34_finite (f := f) μ T hm (quad_spherical x)
      (fun _ => ⟨_, rfl⟩) hf).1 h0 hT
    exact ⟨a, F, a1, f1, f2⟩
  obtain ⟨a, F, h1, h2, h3⟩ := hone ns np hsp
  obtain ⟨a', F', h1', h2', h3'⟩ := hone ns' np' hsp'
  refine ⟨a, a', F, F', h1, h1', h2, h2', h3, h3', ?_, ?_, ?_⟩
  · intro k hk
    simp only [atomShape] at hk ⊢
    by_cases hk' : k < ns'
    · have := hs k hk'; omega
    · exact (hp k (by omega) hk).2
  · intro k hk
    simp only [atomShape] at hk ⊢
    by_cases hk' : k < ns'
    · simp [hk', hs k hk']
    · have := (hp k (by omega) hk).1
      simp [hk', show ¬ φ k < ns by omega]
  · intro k _ i _
    rfl

/-- One s-type function with coefficient 3 and exponent 4, and the same density written as two such
functions with coefficients 1 and 2: both fits on the grid 1, 2, 3 with a p-type function go the same
way. -/
example (m : ℤ) : ∃ a a' F F' r r',
    Atomic.init (.arr (.one (fins [1, 2, 3]))) .none (.int 1) (.int 1) true = .ok a ∧
    Atomic.init (.arr (.one (fins [1, 2, 3]))) .none (.int 2) (.int 1) true = .ok a' ∧
    FPI.init (.radial ⟨fins [1, 2, 3]⟩) (fins [8, 8, 8]) (.atom a) (XR.fin 0) none true = .ok F ∧
    FPI.init (.radial ⟨fins [1, 2, 3]⟩) (fins [8, 8, 8]) (.atom a') (XR.fin 0) none true = .ok F' ∧
    F.run (.arr (ND.vec (fins [3, 5]))) (.arr (ND.vec (fins [4, 8])))
      ⟨true, true, m, XR.fin (-1), XR.fin 1, XR.fin 1⟩ = .ok r ∧
    F'.run (.arr (ND.vec (fins [1, 2, 5]))) (.arr (ND.vec (fins [4, 4, 8])))
      ⟨true, true, m, XR.fin (-1), XR.fin 1, XR.fin 1⟩ = .ok r' ∧
    r'.fun_ = r.fun_ ∧ r'.success = r.success := by
  have ht : trapW [1, 2, 3] = [1 / 2, 1, 1 / 2] := by norm_num [trapW, trapWAux]
  have hpi := Real.pi_pos
  have hW : ∀ i < 3, 0 ≤ vec (trapW [1, 2, 3]) i * (4 * π * vec [1, 2, 3] i ^ 2) := by
    intro i hi
    rw [ht]
    interval_cases i <;> simp [vec] <;> positivity
  have hsum : 0 < ∑ i ∈ range 3, vec (trapW [1, 2, 3]) i * (4 * π * vec [1, 2, 3] i ^ 2) * 8 := by
    rw [ht]
    simp [Finset.sum_range_succ, vec]
    positivity
  obtain ⟨a, a', F, F', h1, h2, h3, h4, h5⟩ := C94_radial [1, 2, 3] (by simp)
    (fun _ => 8) (fun _ _ => by norm_num) 0 none (by simp) 1 1 2 1 (by norm_num) (by norm_num) hsum.ne'
    (fun k => k - 1) (by intro k hk; omega) (by intro k h1 h2; omega)
  obtain ⟨r, r', _, _, _, _, k1, k2, -, -, -, -, -, -, k3, k4⟩ := C94_run h5 hW hsum
    (fun k _ => ⟨1, by simp, by rw [ht]; simp [vec, hpi], by norm_num, by norm_num [atomShape, vec]⟩)
    (fun _ _ => by norm_num) ⟨true, true, m, XR.fin (-1), XR.fin 1, XR.fin 1⟩ (Or.inl rfl)
    (Or.inr ⟨-1, by norm_num, rfl⟩) [3, 5] [4, 8] [1, 2, 5] [4, 4, 8]
    ⟨rfl, rfl, by simp, by simp⟩ ⟨rfl, rfl, by simp, by simp⟩
    ⟨by
      intro k hk
      have hk : k < 3 := hk
      interval_cases k <;> simp [vec], by
      intro j hj
      have hj : j < 2 := hj
      have h3 : (atomShape [1, 2, 3] 2 1).nb = 3 := rfl
      rw [h3, Finset.sum_filter]
      interval_cases j <;> norm_num [vec, Finset.sum_range_succ]⟩
  have e2 : fins (tab [(1 : ℝ), 2, 3].length fun _ => (8 : ℝ)) = fins [8, 8, 8] := by
    simp [tab, List.range_succ]
  rw [e2] at h3 h4
  exact ⟨a, a', F, F', r, r', h1, h2, h3, h4, k1, k2, k3, k4⟩

/-- Two functions of a kind can be exchanged. -/
example (x : List ℝ) : Refines (atomShape x 2 0) (atomShape x 2 0) x.length (fun k => 1 - k) ∧
    Reorder (atomShape x 2 0) (atomShape x 2 0) (fun k => 1 - k) ∧
    Copies (atomShape x 2 0) (atomShape x 2 0) (fun k => 1 - k) [3, 5] [4, 8] [5, 3] [8, 4] := by
  have hn : (atomShape x 2 0).nb = 2 := rfl
  refine ⟨⟨?_, ?_, fun _ _ _ _ => rfl⟩, ?_, ?_, ?_⟩
  · intro k hk; rw [hn] at hk ⊢; omega
  · intro k hk
    rw [hn] at hk
    simp only [atomShape]
    simp [hk, show 1 - k < 2 by omega]
  · intro j hj
    rw [hn] at hj
    refine ⟨1 - j, by rw [hn]; omega, fun l hl => ?_⟩
    rw [hn] at hl
    simp only
    omega
  · intro k hk
    rw [hn] at hk
    interval_cases k <;> simp [vec]
  · intro j hj
    rw [hn] at hj
    rw [hn, Finset.sum_filter]
    interval_cases j <;> norm_num [vec, Finset.sum_range_succ]

end
end BFit
