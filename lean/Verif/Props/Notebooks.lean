import Verif.Model.Notebooks
import Verif.Props.Beryllium

/-! C134, C135: the notebooks about the beryllium atom. -/

namespace BFit

open Real Classical

noncomputable section

/-! ### The history of a fit -/

/-- A fit with positive starting values: all iterates are positive, and after every update of the coefficients their
sum is at most the target. -/
theorem fit_history {F : FPI} {S : Shape} {N : ℕ} {W f : ℕ → ℝ} {μ T : ℝ}
    (h : IsFPI F true S N W f μ T) (hW : ∀ i < N, 0 ≤ W i) (hT : 0 < T) (hs : S.Sees N W f) (hμ : ∀ i < N, μ ≤ f i)
    (o : FPIOpts) (hoc : o.optCoeffs = true) (c e : List ℝ) (hc : c.length = S.nb) (he : e.length = S.nb)
    (hcp : ∀ a ∈ c, 0 < a) (hep : ∀ a ∈ e, 0 < a) :
    ∃ (r : FPIResult) (n : ℕ) (cs es : ℕ → List ℝ), F.run (.arr (ND.vec (fins c))) (.arr (ND.vec (fins e))) o = .ok r ∧
      n ≤ o.maxiter.toNat ∧
      RunTrace F (ND.vec (fins c)) (ND.vec (fins e)) o r n (fun j => (fins (cs j), fins (es j))) ∧
      cs 0 = c ∧ es 0 = e ∧
      (∀ j ≤ n, (cs j).length = S.nb ∧ (es j).length = S.nb ∧ (∀ a ∈ cs j, 0 < a) ∧ ∀ a ∈ es j, 0 < a) ∧
      ∀ j < n, (cs (j + 1)).sum ≤ T := by
  obtain ⟨r, n, cs, es, h1, h2, h3, h4⟩ := C39_total h hW hT hs o (.inl hoc) c e ⟨hc, he, fun a ha => (hcp a ha).le, hep⟩
  have h0 := h3.start
  simp only [ND.vec, Prod.mk.injEq] at h0
  have e0 := fins_inj h0.1
  have hpos : ∀ j ≤ n, ∀ k < S.nb, 0 < vec (cs j) k := by
    intro j hj
    induction j with
    | zero =>
      rw [e0]
      exact vec_of_mem hc hcp
    | succ j ih =>
      have hg := h4 j (by omega)
      obtain ⟨c1, e1, k1, -, -, -, -, k6⟩ := C36_positive h hW hT hs (cs j) (es j) hg.clen hg.elen hg.cnn hg.epos
        o.optCoeffs o.optExpons (.inl hoc)
      have hst := h3.step j (by omega)
      simp only at hst
      rw [k1] at hst
      simp only [Except.ok.injEq, Prod.mk.injEq] at hst
      rw [← fins_inj hst.1]
      exact fun k hk => k6 k hk (ih (by omega) k hk)
  refine ⟨r, n, cs, es, h1, h2, h3, e0, fins_inj h0.2, fun j hj => ⟨(h4 j hj).clen, (h4 j hj).elen, ?_, (h4 j hj).epos⟩,
    ?_⟩
  · intro a ha
    obtain ⟨k, hk, rfl⟩ := List.getElem_of_mem ha
    have := hpos j hj k (by rw [← (h4 j hj).clen]; exact hk)
    rwa [vec, List.getD_eq_getElem?_getD, List.getElem?_eq_getElem hk] at this
  · intro j hj
    have hg := h4 j (by omega)
    obtain ⟨c1, e1, k1, -, k3⟩ := C35_bound h hW hT hμ (cs j) (es j) hg o.optExpons
    have hst := h3.step j hj
    simp only [hoc] at hst
    rw [k1] at hst
    simp only [Except.ok.injEq, Prod.mk.injEq] at hst
    rw [← fins_inj hst.1]
    exact k3

/-- The columns of `performance` of a fit: integral of the model, `L1`, `Linf`, integral of the squared residual and
divergence, for the parameters after each update. -/
theorem fit_columns {F : FPI} {S : Shape} {N : ℕ} {W f : ℕ → ℝ} {μ T : ℝ} (h : IsFPI F true S N W f μ T)
    (hN : 0 < N) {c e : List ℝ} {o : FPIOpts} {r : FPIResult} {n : ℕ} {cs es : ℕ → List ℝ}
    (ht : RunTrace F (ND.vec (fins c)) (ND.vec (fins e)) o r n (fun j => (fins (cs j), fins (es j))))
    (hg : ∀ j ≤ n, (cs j).length = S.nb ∧ (es j).length = S.nb ∧ (∀ a ∈ cs j, 0 < a) ∧ ∀ a ∈ es j, 0 < a)
    {g : List ℝ → List ℝ → ℕ → ℝ} (hgd : ∀ c' e' : List ℝ, ∀ i < N, S.dens true (vec c') (vec e') i = g c' e' i)
    (j : ℕ) (hj : j < n) :
    ∃ p M, r.performance[j]? = some p ∧
      p.integral = XR.fin (∑ i ∈ Finset.range N, W i * g (cs (j + 1)) (es (j + 1)) i) ∧
      p.l1 = XR.fin (∑ i ∈ Finset.range N, W i * |f i - g (cs (j + 1)) (es (j + 1)) i|) ∧
      p.linf = XR.fin M ∧ (∃ i < N, |f i - g (cs (j + 1)) (es (j + 1)) i| = M) ∧
      (∀ i < N, |f i - g (cs (j + 1)) (es (j + 1)) i| ≤ M) ∧
      p.ls = XR.fin (∑ i ∈ Finset.range N, W i * (f i - g (cs (j + 1)) (es (j + 1)) i) ^ 2) ∧
      ((∀ i < N, 0 < f i) →
        p.kl = XR.fin (∑ i ∈ Finset.range N, W i * klVal μ (f i) (g (cs (j + 1)) (es (j + 1)) i))) := by
  obtain ⟨g1, g2, g3, g4⟩ := hg (j + 1) (by omega)
  have hlen := ht.len
  have hp := ht.perf j (by omega)
  simp only at hp
  obtain ⟨M, kl, k1, ⟨i0, hi0, k2⟩, k3, k4⟩ := goodness_fins h.data hN (cs (j + 1)) (es (j + 1)) g1 g2
    fun _ a ha => (g4 a ha).le
  rw [k1] at hp
  simp only [Except.ok.injEq] at hp
  have hd : ∀ i ∈ Finset.range N, S.dens true (vec (cs (j + 1))) (vec (es (j + 1))) i = g (cs (j + 1)) (es (j + 1)) i :=
    fun i hi => hgd _ _ i (Finset.mem_range.mp hi)
  refine ⟨r.performance[j]'(by omega), M, List.getElem?_eq_getElem (by omega), ?_, ?_, ?_, ⟨i0, hi0, ?_⟩, ?_, ?_, ?_⟩
  · rw [← hp]
    exact congrArg XR.fin (Finset.sum_congr rfl fun i hi => by rw [hd i hi])
  · rw [← hp]
    exact congrArg XR.fin (Finset.sum_congr rfl fun i hi => by rw [hd i hi])
  · rw [← hp]
  · rw [← hgd _ _ i0 hi0, k2]
  · intro i hi
    rw [← hgd _ _ i hi]
    exact k3 i hi
  · rw [← hp]
    exact congrArg XR.fin (Finset.sum_congr rfl fun i hi => by rw [hd i hi])
  · intro hf
    rw [← hp]
    simp only
    rw [k4 μ h.mask hf fun i _ => dens_nonneg (vec_of_mem g1 fun a ha => (g3 a ha).le)
      (vec_of_mem g2 fun a ha => (g4 a ha).le) i]
    exact congrArg XR.fin (Finset.sum_congr rfl fun i hi => by rw [hd i hi])

/-! ### The density of the notebooks -/

theorem notebook_grid : ∃ pts : List ℝ, notebookGrid = .ok ⟨fins pts⟩ ∧ pts.Pairwise (· ≤ ·) ∧
    (∀ r ∈ pts, 0 ≤ r ∧ r ≤ 75) ∧ 400 ≤ pts.toFinset.card := by
  obtain ⟨pts, h1, h2, h3⟩ := C127_clenshaw 4 (by norm_num) 400 500 (.seq (fins [25, 50, 75])) [25, 50, 75] (.inr rfl) true
  obtain ⟨pts', core, diffuse, g1, g2, -, -, g3, g4, -⟩ := C05_clenshaw_ranges 4 (by norm_num) 400 500
    (.seq (fins [25, 50, 75])) [25, 50, 75] (.inr rfl) true
  simp only [Nat.cast_ofNat] at h1 g1
  rw [h1] at g1
  simp only [Except.ok.injEq, RadialGrid.mk.injEq] at g1
  have := fins_inj g1
  subst this
  refine ⟨pts, h1, h2, fun r hr => ?_, h3⟩
  rw [g2.mem_iff] at hr
  simp only [List.mem_append, List.mem_cons, List.not_mem_nil, or_false] at hr
  rcases hr with (hr | hr) | rfl | rfl | rfl
  · obtain ⟨a, b⟩ := g3 r hr
    refine ⟨a, b.trans ?_⟩
    norm_num
  · obtain ⟨a, b⟩ := g4 r hr
    exact ⟨a.le, by linarith⟩
  all_goals norm_num

/-- What `SlaterAtoms("be").atomic_density` computes with the bundled data: a positive function. -/
structure IsBeDensity (isAlpha : Str → Bool) (low : Str → Str) (tf : Str → Py XR) (fs : Str → Option (List Str))
    (t : ℝ → ℝ) : Prop where
  atom : ∃ R, slaterInit isAlpha low tf fs (.str "be".toList) false false = some (.ok R) ∧ Stores R R.attrs ∧
    ∀ x : List ℝ, R.attrs.atomicDensity (ND.vec (fins x)) "total" = .ok (fins (x.map t))
  nonneg : ∀ r, 0 ≤ t r
  pos : ∀ r, 0 ≤ r → 0 < t r
  bound : ∀ r, 0 ≤ r → 4 * π * r ^ 2 * t r ≤ 3600

theorem notebook_density (isAlpha : Str → Bool) (ha : isAlpha "be".toList = true) (low : Str → Str)
    (hl : LowersAscii low) (tf : Str → Py XR) (ht : ReadsFloats tf) (fs : Str → Option (List Str)) (dir : Str)
    (hf : HasData fs dir) :
    ∃ pts t, notebookDensity isAlpha low tf fs = some (.ok (⟨fins pts⟩, fins (pts.map t))) ∧
      IsBeDensity isAlpha low tf fs t ∧ notebookGrid = .ok ⟨fins pts⟩ ∧ pts.Pairwise (· ≤ ·) ∧
      (∀ r ∈ pts, 0 ≤ r ∧ r ≤ 75) ∧ 400 ≤ pts.toFinset.card := by
  obtain ⟨pts, g1, g2, g3, g4⟩ := notebook_grid
  have hlow : low "be".toList = "be".toList := by
    rw [hl _ (by decide)]
    decide
  have hz : HasZ (low "be".toList) 4 := by
    rw [hlow]
    exact ⟨by norm_num, by decide⟩
  have hbe : Data.neutral_be ∈ Data.bundled := by
    have h1 : Data.neutral_be ∈ Data.part1 := .tail _ (.tail _ (.tail _ (.head _)))
    unfold Data.bundled
    simp only [List.mem_append, or_assoc]
    exact .inl h1
  obtain ⟨R, h1, h2, t, h3, h4, h5⟩ := be_density isAlpha low tf ht.dec fs "be".toList ha hz
    (hf.neutral Data.neutral_be hbe rfl _ hz)
  refine ⟨pts, t, ?_, ⟨⟨R, h1, h2, h3⟩, h4, fun r hr => (h5 r hr).1, fun r hr => (h5 r hr).2⟩, g1, g2, g3, g4⟩
  unfold notebookDensity
  rw [g1]
  simp only
  rw [h1]
  simp only
  rw [h3]

/-! ### C134 -/

theorem perfColumn_ok {r : List Perf} (f : Perf → XR) (h : r ≠ []) : perfColumn f r = .ok (r.map f) := by
  cases r with
  | nil => exact absurd rfl h
  | cons a l => rfl

theorem atomShape_dens (pts : List ℝ) (hp : ∀ r ∈ pts, 0 ≤ r) (ns np : ℕ) (c e : List ℝ) (i : ℕ)
    (hi : i < pts.length) :
    (atomShape (pts.map fun x => |x|) ns np).dens true (vec c) (vec e) i = atomDensity ns np true c e (vec pts i) := by
  have h1 : vec (pts.map fun x => |x|) i = vec pts i := by
    have : 0 ≤ pts[i] := hp _ (List.getElem_mem hi)
    simp [vec, List.getD_eq_getElem?_getD, hi, abs_of_nonneg this]
  unfold Shape.dens atomDensity atomShape
  simp only [h1]
  exact Finset.sum_congr rfl fun k _ => by rw [bf_basisFn]; rfl

theorem map_abs {pts : List ℝ} (hp : ∀ r ∈ pts, 0 ≤ r) : (pts.map fun x => |x|) = pts := by
  conv_rhs => rw [← List.map_id pts]
  exact List.map_congr_left fun r hr => abs_of_nonneg (hp r hr)

/-- The spherical integral on a radial grid: trapezoid weights times `4 pi r**2`. -/
def sphSum (pts : List ℝ) (u : ℕ → ℝ) : ℝ :=
  ∑ i ∈ Finset.range pts.length, vec (trapW pts) i * (4 * π * vec pts i ^ 2) * u i

theorem notebook_index {pts : List ℝ} (h3 : pts.Pairwise (· ≤ ·)) (h4 : ∀ r ∈ pts, 0 ≤ r ∧ r ≤ 75)
    (h5 : 400 ≤ pts.toFinset.card) {isAlpha : Str → Bool} {low : Str → Str} {tf : Str → Py XR}
    {fs : Str → Option (List Str)} {t : ℝ → ℝ} (hd : IsBeDensity isAlpha low tf fs t) :
    ∃ i < pts.length, vec pts i ≠ 0 ∧ 0 < radW pts true i ∧ 0 < t (vec pts i) := by
  obtain ⟨z, hz, h0⟩ := Finset.exists_mem_ne (s := pts.toFinset) (by omega) 0
  obtain ⟨u, hu, hne⟩ := Finset.exists_mem_ne (s := pts.toFinset) (by omega) z
  have hz := List.mem_toFinset.mp hz
  exact radial_index_of h3 hd.nonneg hz h0 (hd.pos z (h4 z hz).1).ne' ⟨u, List.mem_toFinset.mp hu, hne⟩ true

/-- **C134**.  With the bundled data the notebook `atomic_density.ipynb` runs to its end.  It plots the fit after each of
`n` updates, `1 ≤ n ≤ 1000`: the iterates have eight coefficients and eight exponents, all positive, and the
coefficients add up to at most 4 after every update, so the printed sum is at most 4.  The printed integral is the one
of the density without the factor `4 pi r**2`.  The four plotted curves are the integral of the model, the integral of
the absolute value and the maximum of the residual, and -- under the title "Kullback-Leibler value" -- the integral of
the squared residual; the Kullback-Leibler divergence is another column, which is not plotted. -/
theorem C134_atomic (isAlpha : Str → Bool) (ha : isAlpha "be".toList = true) (low : Str → Str) (hl : LowersAscii low)
    (tf : Str → Py XR) (ht : ReadsFloats tf) (fs : Str → Option (List Str)) (dir : Str) (hf : HasData fs dir) :
    ∃ (B : AtomicBook) (pts : List ℝ) (t : ℝ → ℝ) (n : ℕ) (cs es : ℕ → List ℝ) (m : Atomic) (F : FPI),
      atomicBook isAlpha low tf fs = some (.ok B) ∧ IsBeDensity isAlpha low tf fs t ∧
      clenshawRadialGrid (.int 4) (.int 400) (.int 500) (.seq (fins [25, 50, 75])) (.bool true) = .ok ⟨fins pts⟩ ∧
      B.integral = XR.fin (∑ i ∈ Finset.range pts.length, vec (trapW pts) i * t (vec pts i)) ∧
      Atomic.init (.arr (.one (fins pts))) .none (.int 5) (.int 3) true = .ok m ∧
      FPI.init (.radial ⟨fins pts⟩) (fins (pts.map t)) (.atom m) (XR.fin 0) (some (XR.fin 4)) true = .ok F ∧
      (∀ j < n, F.updateParams (fins (cs j)) (fins (es j)) true true = .ok (fins (cs (j + 1)), fins (es (j + 1)))) ∧
      1 ≤ n ∧ n ≤ 1000 ∧ cs 0 = [0.2, 0.5, 0.2, 0.3, 0.4, 0.6, 0.7, 0.9] ∧
      es 0 = [0.001, 0.1, 10, 100, 1000, 0.01, 0.1, 1] ∧
      B.start = fins (pts.map (atomDensity 5 3 true (cs 0) (es 0))) ∧
      B.result.coeffs = fins (cs n) ∧ B.result.exps = fins (es n) ∧
      B.final = fins (pts.map (atomDensity 5 3 true (cs n) (es n))) ∧
      (∀ j ≤ n, (cs j).length = 8 ∧ (es j).length = 8 ∧ (∀ a ∈ cs j, 0 < a) ∧ ∀ a ∈ es j, 0 < a) ∧
      (∀ j < n, (cs (j + 1)).sum ≤ 4) ∧ B.total = XR.fin (cs n).sum ∧
      B.plotIntegration.length = n ∧ B.plotL1.length = n ∧ B.plotLinf.length = n ∧ B.plotKL.length = n ∧
      B.result.fun_.length = n ∧
      ∀ j < n, ∀ g : ℕ → ℝ, (g = fun i => atomDensity 5 3 true (cs (j + 1)) (es (j + 1)) (vec pts i)) →
        B.plotIntegration[j]? = some (XR.fin (sphSum pts g)) ∧
        B.plotL1[j]? = some (XR.fin (sphSum pts fun i => |t (vec pts i) - g i|)) ∧
        (∃ M, B.plotLinf[j]? = some (XR.fin M) ∧ (∃ i < pts.length, |t (vec pts i) - g i| = M) ∧
          ∀ i < pts.length, |t (vec pts i) - g i| ≤ M) ∧
        B.plotKL[j]? = some (XR.fin (sphSum pts fun i => (t (vec pts i) - g i) ^ 2)) ∧
        B.result.fun_[j]? = some (XR.fin (sphSum pts fun i => klVal 0 (t (vec pts i)) (g i))) := by
  obtain ⟨pts, t, h1, hd, h2, h3, h4, h5⟩ := notebook_density isAlpha ha low hl tf ht fs dir hf
  have hp0 : ∀ r ∈ pts, 0 ≤ r := fun r hr => (h4 r hr).1
  have hi : ∃ i < pts.length, vec pts i ≠ 0 ∧ 0 < radW pts true i ∧ 0 < t (vec pts i) :=
    notebook_index h3 h4 h5 hd
  obtain ⟨m0, F, I, J, q1, q2, q3, q4, q5, q6, q7, -⟩ := radial_fit_masked h3 hd.nonneg hi 5 3 (by norm_num) 0 (some 4)
    (by rintro a h; cases h; norm_num)
  obtain ⟨m, hm, hat, hno⟩ := (C18_radii_1d pts 0 5 3 (by norm_num) true).2
  rw [hm] at q1
  simp only [Except.ok.injEq] at q1
  subst q1
  have hW : ∀ i < pts.length, 0 ≤ radW pts true i := fun i _ => radW_nonneg h3 true i
  have hN : 0 < pts.length := by
    obtain ⟨i, hi, -⟩ := hi
    omega
  have hvec : ∀ i < pts.length, 0 < t (vec pts i) := fun i hi => hd.pos _ (by
    rw [vec, List.getD_eq_getElem?_getD, List.getElem?_eq_getElem hi]
    exact hp0 _ (List.getElem_mem hi))
  obtain ⟨r, n, cs, es, r1, r2, r3, r4, r5, r6, r7⟩ := fit_history q6 hW (by norm_num : (0 : ℝ) < 4) q7
    (fun i hi => (hvec i hi).le) ⟨true, true, 1000, XR.fin 1e-6, XR.fin 1e-6, XR.fin 1e-6⟩ rfl notebookC0 notebookE0 rfl
    rfl (by norm_num [notebookC0]) (by norm_num [notebookE0])
  have hev : ∀ c e : List ℝ, c.length = 8 → e.length = 8 → (∀ a ∈ e, 0 < a) →
      m.evaluate (ND.vec (fins c)) (ND.vec (fins e)) false = .ok (fins (pts.map (atomDensity 5 3 true c e)), none) := by
    intro c e hc he hep
    have := evaluate_fins hat c e hc he (fun _ a ha => (hep a ha).le) false
    rw [this, hno, map_abs hp0]
    rfl
  have hne := run_updates r1 (by norm_num) rfl rfl
  have hlast := r3.last
  simp only [Prod.mk.injEq] at hlast
  have hlen := r3.len
  have hn : 1 ≤ n := by
    have := List.length_pos_of_ne_nil hne
    omega
  obtain ⟨l1, l2, l3, l4⟩ := r6 n le_rfl
  refine ⟨⟨XR.fin (∑ i ∈ Finset.range pts.length, vec (trapW pts) i * t (vec pts i)),
    fins (pts.map (atomDensity 5 3 true (cs 0) (es 0))), r, XR.fin (cs n).sum,
    fins (pts.map (atomDensity 5 3 true (cs n) (es n))), r.performance.map Perf.integral, r.performance.map Perf.l1,
    r.performance.map Perf.linf, r.performance.map Perf.ls⟩, pts, t, n, cs, es, m, F, ?_, hd, h2, rfl, hm,
    q2, r3.step, hn, by simpa using r2, r4, r5, rfl, hlast.1.symm, hlast.2.symm, rfl, r6, r7, rfl, ?_, ?_, ?_, ?_, ?_, ?_⟩
  · unfold atomicBook
    rw [h1]
    simp only
    unfold atomicBookFit
    have e1 : (RadialGrid.mk (fins pts)).integrate (ND.vec (fins (pts.map t))) =
        .ok (XR.fin (∑ i ∈ Finset.range pts.length, vec (trapW pts) i * t (vec pts i))) := by
      have := (hasWeights_radial pts).2 (pts.map t) (by simp [trapW_length])
      have e2 : (Grid.radial ⟨fins pts⟩).integrate (ND.vec (fins (pts.map t))) =
        (RadialGrid.mk (fins pts)).integrate (ND.vec (fins (pts.map t))) := rfl
      rw [← e2, this, wsum_eq_range_sum _ _ (by simp [trapW_length]), trapW_length]
      congr 2
      refine Finset.sum_congr rfl fun i hi => ?_
      have hi := Finset.mem_range.mp hi
      simp [vec, List.getD_eq_getElem?_getD, hi, trapW_length]
    rw [e1]
    simp only [inScript]
    have hm' : Atomic.init (.arr (.one (fins pts))) .none (.int 5) (.int 3) true = .ok m := hm
    rw [hm']
    simp only
    have q2' : FPI.init (.radial ⟨fins pts⟩) (fins (pts.map t)) (.atom m) (XR.fin 0) (some (XR.fin 4)) true = .ok F := q2
    rw [q2']
    simp only
    rw [hev notebookC0 notebookE0 rfl rfl (by norm_num [notebookE0])]
    simp only
    rw [r1]
    simp only
    rw [← hlast.1, ← hlast.2, hev _ _ l1 l2 l4]
    simp only
    unfold atomicBookPlots
    rw [perfColumn_ok _ hne, perfColumn_ok _ hne, perfColumn_ok _ hne, perfColumn_ok _ hne]
    simp only
    rw [← hlast.1, r4, r5, sum_fins]
  · simpa using hlen
  · simpa using hlen
  · simpa using hlen
  · simpa using hlen
  · rw [r3.fun_]
    simpa using hlen
  · rintro j hj g rfl
    obtain ⟨p, M, p0, p1, p2, p3, p4, p5, p6, p7⟩ := fit_columns q6 hN r3 r6
      (g := fun c e i => atomDensity 5 3 true c e (vec pts i)) (fun c e i hi => atomShape_dens pts hp0 5 3 c e i hi) j hj
    simp only [List.getElem?_map, p0, r3.fun_, Option.map_some, p1, p2, p3, p6, p7 hvec]
    exact ⟨rfl, rfl, ⟨M, rfl, p4, p5⟩, rfl, rfl⟩

/-! ### C135 -/

theorem trapW_sum_le {x : List ℝ} {B : ℝ} (hB : ∀ r ∈ x, 0 ≤ r ∧ r ≤ B) (hne : x ≠ []) :
    ∑ i ∈ Finset.range x.length, vec (trapW x) i ≤ B := by
  have h2 : ∑ i ∈ Finset.range x.length, vec (trapW x) i = (trapW x).sum := by
    have := wsum_eq_range_sum (trapW x) ((trapW x).map fun _ => (1 : ℝ)) (by simp)
    rw [trapW_length] at this
    have e : wsum (trapW x) ((trapW x).map fun _ => (1 : ℝ)) = (trapW x).sum := by
      generalize trapW x = l
      induction l with
      | nil => simp
      | cons a l ih => rw [List.map_cons, wsum_cons, ih]; simp
    rw [← e, this]
    refine Finset.sum_congr rfl fun i hi => ?_
    have hi := Finset.mem_range.mp hi
    simp [vec, List.getD_eq_getElem?_getD, trapW_length, hi]
  rw [h2]
  cases x with
  | nil => exact absurd rfl hne
  | cons a l =>
    rw [trapW, trapWAux_sum]
    have h4 := (hB _ (List.getLast_mem (l := a :: l) (by simp))).2
    have h5 := (hB a (by simp)).1
    linarith

/-- **C135**.  With the bundled data and any positive random numbers the greedy fit of the notebook
`greedy_atomic_density.ipynb` returns: at least one s-type function, at most four functions in all, positive
coefficients and exponents, one of each for every function.  The printed integral is the spherical one.  The last step,
which evaluates a model without p-type functions, gives the values of the fitted model if the fit has no p-type
functions, and raises ValueError otherwise. -/
theorem C135_greedy (rnd : ℕ → ℕ → ℕ → ℝ) (hrnd : ∀ t w j, 0 < rnd t w j) (isAlpha : Str → Bool)
    (ha : isAlpha "be".toList = true) (low : Str → Str) (hl : LowersAscii low)
    (tf : Str → Py XR) (ht : ReadsFloats tf) (fs : Str → Option (List Str)) (dir : Str) (hf : HasData fs dir) :
    ∃ (pts : List ℝ) (t : ℝ → ℝ) (r : GResult) (last : Except ScriptErr (List XR)) (c e : List ℝ) (v : ℝ),
      IsBeDensity isAlpha low tf fs t ∧
      clenshawRadialGrid (.int 4) (.int 400) (.int 500) (.seq (fins [25, 50, 75])) (.bool true) = .ok ⟨fins pts⟩ ∧
      greedyBook rnd isAlpha low tf fs = some (.ok (XR.fin (sphSum pts fun i => t (vec pts i)), r, last)) ∧
      1 ≤ r.numS ∧ r.numS + r.numP ≤ 4 ∧ r.coeffs = fins c ∧ r.exps = fins e ∧ c.length = r.numS + r.numP ∧
      e.length = r.numS + r.numP ∧ (∀ a ∈ c, 0 < a) ∧ (∀ a ∈ e, 0 < a) ∧ r.fun_ = XR.fin v ∧
      (r.numP = 0 → last = .ok (fins (pts.map (atomDensity r.numS 0 true c e)))) ∧
      (r.numP ≠ 0 → last = .error (.raised .valueError)) := by
  obtain ⟨pts, t, h1, hd, h2, h3, h4, h5⟩ := notebook_density isAlpha ha low hl tf ht fs dir hf
  have hp0 : ∀ r ∈ pts, 0 ≤ r := fun r hr => (h4 r hr).1
  have hv : ∀ i < pts.length, 0 ≤ vec pts i := fun i hi => by
    rw [vec, List.getD_eq_getElem?_getD, List.getElem?_eq_getElem hi]
    exact hp0 _ (List.getElem_mem hi)
  have hi := notebook_index h3 h4 h5 hd
  have hI : ∑ i ∈ Finset.range pts.length, radW pts true i * t (vec pts i) ≤ 9 * 10 ^ 6 := by
    have hne : pts ≠ [] := by
      rintro rfl
      simp at h5
    have h6 : ∀ i ∈ Finset.range pts.length, radW pts true i * t (vec pts i) ≤ vec (trapW pts) i * 3600 := by
      intro i hi
      have h7 := hd.bound _ (hv i (Finset.mem_range.mp hi))
      have h8 := vec_nonneg (trapW_nonneg pts h3) i
      simp only [radW, sphW, if_true]
      rw [mul_assoc]
      exact mul_le_mul_of_nonneg_left h7 h8
    refine (Finset.sum_le_sum h6).trans ?_
    rw [← Finset.sum_mul]
    have := trapW_sum_le h4 hne
    linarith
  obtain ⟨F, k1, k2⟩ := C96_kullback_leibler pts h3 (fun i => t (vec pts i)) (fun i hi => hd.pos _ (hv i hi)) (by
      obtain ⟨i, hi, g1, g2, -⟩ := hi
      refine ⟨i, hi, ?_, g1⟩
      by_contra hc
      simp only [radW, sphW, if_true] at g2
      have : 0 ≤ 4 * π * vec pts i ^ 2 := by positivity
      nlinarith) 1e-12 none (by simp) true hI "pick-one" .pickOne rfl
  obtain ⟨r, ob, k3, k4⟩ := k2 ⟨true, true, 2500, XR.fin 1e-2, XR.fin 1e-3, XR.fin 1e-8⟩
    ⟨true, true, 5000, XR.fin 1e-4, XR.fin 1e-5, XR.fin 1e-10⟩ rnd (.inl rfl) (.inl rfl) hrnd 50 1e-8 4 (by norm_num)
  have h7 : ((r.numS + r.numP : ℕ) : ℤ) ≤ 4 := C55_max_partial _ (by simp [klEnv]) _ _ (by norm_num) r ob k3
  have hpos : ∀ l : List XR, (∀ y ∈ l, PosNum y) → ∃ a : List ℝ, l = fins a ∧ ∀ b ∈ a, 0 < b := by
    intro l
    induction l with
    | nil => exact fun _ => ⟨[], rfl, by simp⟩
    | cons y l ih =>
      intro h
      obtain ⟨b, hb, rfl⟩ := h y (by simp)
      obtain ⟨a, rfl, ha⟩ := ih fun z hz => h z (List.mem_cons_of_mem _ hz)
      exact ⟨b :: a, rfl, by simpa using ⟨hb, ha⟩⟩
  obtain ⟨c, hc, hcp⟩ := hpos _ k4.coeffs
  obtain ⟨e, he, hep⟩ := hpos _ k4.exps
  obtain ⟨v, hfun⟩ := k4.fun_
  have hcl : c.length = r.numS + r.numP := by rw [← k4.clen, hc, fins_length]
  have hel : e.length = r.numS + r.numP := by rw [← k4.elen, he, fins_length]
  have hs1 := k4.hs
  obtain ⟨m, hm, hat, hno⟩ := (C18_radii_1d pts 0 r.numS 0 (by omega) true).2
  have hb : ∀ last, (match inScript (m.evaluate (ND.vec r.coeffs) (ND.vec r.exps) false) with
      | .error e => (.error e : Except ScriptErr (List XR))
      | .ok (final, _) => .ok final) = last →
      greedyBook rnd isAlpha low tf fs = some (.ok (XR.fin (sphSum pts fun i => t (vec pts i)), r, last)) := by
    rintro last rfl
    unfold greedyBook
    rw [h1]
    simp only
    unfold greedyBookFit
    rw [sphIntegrate_fins]
    simp only [inScript]
    have k1' : klInit (fins pts) (fins (pts.map t)) "pick-one" (XR.fin 1e-12) none true = .ok (F, .pickOne) := by
      rw [← k1, ← tab_map]
      rfl
    rw [k1']
    simp only
    rw [k3]
    simp only
    have hm' : Atomic.init (.arr (.one (fins pts))) .none (.int r.numS) (.int 0) true = .ok m := hm
    rw [hm']
    rfl
  refine ⟨pts, t, r, _, c, e, v, hd, h2, hb _ rfl, hs1, by omega, hc, he, hcl, hel, hcp, hep,
    hfun, ?_, ?_⟩
  · intro h0
    rw [hc, he, evaluate_fins hat c e (by omega) (by omega) (fun _ a ha => (hep a ha).le) false, hno, map_abs hp0]
    rfl
  · intro h0
    have := ((C19_evaluate m (ND.vec r.coeffs) (ND.vec r.exps) false).1).mpr (by
      rintro ⟨-, -, h8, -⟩
      have h9 : m.nbasis = (r.numS : ℤ) := by simp [Atomic.nbasis, hat.hs, hat.hp]
      rw [h9] at h8
      simp only [ND.size, ND.vec, hc, fins_length, hcl] at h8
      push_cast at h8
      omega)
    rw [this]
    rfl

/-! ### Examples -/

/-- With the files in their places the first notebook prints a sum of at most four. -/
example : ∃ B s, atomicBook (fun _ => true) (fun s => s.map Char.toLower) (fun w => .ok (.fin (readSci w))) exampleFiles =
    some (.ok B) ∧ B.total = XR.fin s ∧ s ≤ 4 ∧ B.plotKL ≠ [] := by
  obtain ⟨B, pts, t, n, cs, es, m, F, h1, -, -, -, -, -, -, h2, -, -, -, -, -, -, -, -, h3, h4, -, -, -, h5, -⟩ :=
    C134_atomic (fun _ => true) rfl (fun s => s.map Char.toLower) (fun _ _ => rfl) _ reads_floats_example exampleFiles
      "/x/".toList exampleFiles_hasData
  refine ⟨B, _, h1, h4, ?_, ?_⟩
  · have := h3 (n - 1) (by omega)
    rwa [Nat.sub_add_cancel h2] at this
  · rintro h
    rw [h] at h5
    simp at h5
    omega

/-- The greedy notebook with random numbers one half. -/
example : ∃ I r last, greedyBook (fun _ _ _ => 1 / 2) (fun _ => true) (fun s => s.map Char.toLower)
    (fun w => .ok (.fin (readSci w))) exampleFiles = some (.ok (I, r, last)) ∧ r.numS + r.numP ≤ 4 := by
  obtain ⟨pts, t, r, last, c, e, v, -, -, h1, -, h2, -⟩ := C135_greedy (fun _ _ _ => 1 / 2) (by norm_num) (fun _ => true) rfl
    (fun s => s.map Char.toLower) (fun _ _ => rfl) _ reads_floats_example exampleFiles "/x/".toList exampleFiles_hasData
  exact ⟨_, r, last, h1, h2⟩

end
end BFit
