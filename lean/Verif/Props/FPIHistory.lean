import Verif.Props.FPIRun

/-!
Runs from non-negative coefficients and positive exponents, where every iterate is finite: the run
finishes, its history is non-increasing, and a reported success means convergence.
-/

namespace BFit

open Real Classical Finset Topology

noncomputable section

/-- Parameters of the right size with coefficients at least 0 and positive exponents. -/
structure Shape.Good (S : Shape) (c e : List ℝ) : Prop where
  clen : c.length = S.nb
  elen : e.length = S.nb
  cnn : ∀ a ∈ c, 0 ≤ a
  epos : ∀ a ∈ e, 0 < a

theorem maxChange_ok {a b : List ℝ} (h : a.length = b.length) (hp : 0 < a.length) :
    ∃ M, maxChange (fins a) (fins b) = .ok (XR.fin M) := by
  unfold maxChange
  rw [zipWith_fins (g := fun u v => u - v) (by simp)]
  have hm : (fins (List.zipWith (fun u v => u - v) a b)).map XR.abs =
      fins ((List.zipWith (fun u v => u - v) a b).map fun z => |z|) := by
    simp [fins]
  rw [hm]
  have hne : (List.zipWith (fun u v => u - v) a b).map (fun z => |z|) ≠ [] := by
    intro h0
    have := congrArg List.length h0
    simp at this
    rcases this with rfl | rfl <;> simp_all
  obtain ⟨M, -, hM2, -⟩ := npMax_fins hne
  exact ⟨M, hM2⟩

/-- A run keeps going from good parameters. -/
theorem loop_total {F : FPI} {S : Shape} {N : ℕ} {W f : ℕ → ℝ} {μ T : ℝ}
    (h : IsFPI F true S N W f μ T) (hW : ∀ i < N, 0 ≤ W i) (hT : 0 < T) (hs : S.Sees N W f) (o : FPIOpts)
    (huc : o.optCoeffs = true ∨ o.optExpons = true) (n : ℕ) (s : FPIState) (c e : List ℝ)
    (hg : S.Good c e) (hsc : s.cs = fins c) (hse : s.es = fins e) : ∃ s', F.loop o n s = .ok s' := by
  induction n generalizing s c e with
  | zero => exact ⟨s, rfl⟩
  | succ n ih =>
    unfold FPI.loop
    split
    swap
    · exact ⟨s, rfl⟩
    obtain ⟨c', e', h1, h2, h3, h4, h5, -⟩ :=
      C36_positive h hW hT hs c e hg.clen hg.elen hg.cnn hg.epos o.optCoeffs o.optExpons huc
    have hnb := h.data.model.nb_pos
    obtain ⟨dc, hdc⟩ := maxChange_ok (h2.trans hg.clen.symm) (by omega)
    obtain ⟨de, hde⟩ := maxChange_ok (h3.trans hg.elen.symm) (by omega)
    obtain ⟨M, kl, hgo, -⟩ := goodness_fins h.data (hs.pos hnb) c' e' h2 h3 fun _ a ha => (h5 a ha).le
    have hstep : ∃ s', F.step o s = .ok s' ∧ s'.cs = fins c' ∧ s'.es = fins e' := by
      unfold FPI.step
      rw [if_neg (by rcases huc with h | h <;> simp [h]), hsc, hse, h1]
      simp only [hdc, hde, hgo]
      exact ⟨_, rfl, rfl, rfl⟩
    obtain ⟨s', k1, k2, k3⟩ := hstep
    rw [k1]
    exact ih s' c' e' ⟨h2, h3, h4, h5⟩ k2 k3

/-- Iterates stay good. -/
theorem trace_good {F : FPI} {S : Shape} {N : ℕ} {W f : ℕ → ℝ} {μ T : ℝ}
    (h : IsFPI F true S N W f μ T) (hW : ∀ i < N, 0 ≤ W i) (hT : 0 < T) (hs : S.Sees N W f) (o : FPIOpts)
    (c e : List ℝ) (hg : S.Good c e) (tr : ℕ → List XR × List XR) (n : ℕ)
    (h0 : tr 0 = (fins c, fins e))
    (hstep : ∀ j < n, F.updateParams (tr j).1 (tr j).2 o.optCoeffs o.optExpons = .ok (tr (j + 1)))
    (huc : o.optCoeffs = true ∨ o.optExpons = true) (j : ℕ) (hj : j ≤ n) :
    ∃ c e, S.Good c e ∧ tr j = (fins c, fins e) := by
  induction j with
  | zero => exact ⟨c, e, hg, h0⟩
  | succ j ih =>
    obtain ⟨c₁, e₁, g, ht⟩ := ih (by omega)
    obtain ⟨c', e', h1, h2, h3, h4, h5, -⟩ :=
      C36_positive h hW hT hs c₁ e₁ g.clen g.elen g.cnn g.epos o.optCoeffs o.optExpons huc
    have := hstep j (by omega)
    rw [ht] at this
    rw [h1] at this
    injection this with this
    exact ⟨c', e', ⟨h2, h3, h4, h5⟩, this.symm⟩

/-- **C39** (the run finishes).  From non-negative coefficients and positive exponents a run raises
no exception, and all its iterates are finite with non-negative coefficients and positive
exponents. -/
theorem C39_total {F : FPI} {S : Shape} {N : ℕ} {W f : ℕ → ℝ} {μ T : ℝ}
    (h : IsFPI F true S N W f μ T) (hW : ∀ i < N, 0 ≤ W i) (hT : 0 < T) (hs : S.Sees N W f) (o : FPIOpts)
    (huc : o.optCoeffs = true ∨ o.optExpons = true) (c e : List ℝ) (hg : S.Good c e) :
    ∃ (r : FPIResult) (n : ℕ) (cs es : ℕ → List ℝ), F.run (.arr (ND.vec (fins c))) (.arr (ND.vec (fins e))) o = .ok r ∧
      n ≤ o.maxiter.toNat ∧
      RunTrace F (ND.vec (fins c)) (ND.vec (fins e)) o r n (fun j => (fins (cs j), fins (es j))) ∧
      ∀ j ≤ n, S.Good (cs j) (es j) := by
  have hnb : F.model.nbasis = (S.nb : ℤ) := h.data.model.nbasis
  have hrun : ∃ r, F.run (.arr (ND.vec (fins c))) (.arr (ND.vec (fins e))) o = .ok r := by
    have h1 : (ND.vec (fins c)).shape.map Int.ofNat = [F.model.nbasis] := by
      simp [ND.vec, hnb, hg.clen]
    have h2 : (ND.vec (fins e)).shape.map Int.ofNat = [F.model.nbasis] := by
      simp [ND.vec, hnb, hg.elen]
    unfold FPI.run
    simp only
    rw [if_neg (by rw [h1]; simp), if_neg (by rw [h2]; simp)]
    obtain ⟨s', hs'⟩ := loop_total h hW hT hs o huc o.maxiter.toNat
      ⟨(ND.vec (fins c)).data, (ND.vec (fins e)).data, XR.pinf, XR.pinf, XR.pinf, []⟩ c e hg rfl rfl
    rw [hs']
    exact ⟨_, rfl⟩
  obtain ⟨r, hr⟩ := hrun
  obtain ⟨n, tr, ht, hn⟩ := C39_trace F _ _ o r hr
  have hgood := trace_good h hW hT hs o c e hg tr n ht.start ht.step huc
  choose! cs es hcs using hgood
  refine ⟨r, n, cs, es, hr, hn, ⟨?_, ?_, ?_, ht.len, ?_, ht.fun_⟩, fun j hj => (hcs j hj).1⟩
  · rw [← (hcs 0 (by omega)).2, ht.start]
  · rw [← (hcs n le_rfl).2, ht.last]
  · intro j hj
    have := ht.step j hj
    rwa [(hcs j (by omega)).2, (hcs (j + 1) (by omega)).2] at this
  · intro j hj
    have := ht.perf j hj
    rwa [(hcs (j + 1) (by have := ht.len; omega)).2] at this

/-- **C35** (with masked points).  If the density is not below the mask anywhere, the new coefficients
sum to at most `integral_dens`, even if the model is masked at some points. -/
theorem C35_bound {F : FPI} {S : Shape} {N : ℕ} {W f : ℕ → ℝ} {μ T : ℝ}
    (h : IsFPI F true S N W f μ T) (hW : ∀ i < N, 0 ≤ W i) (hT : 0 < T)
    (hf : ∀ i < N, μ ≤ f i) (c e : List ℝ) (hg : S.Good c e) (ue : Bool) :
    ∃ c' es', F.updateParams (fins c) (fins e) true ue = .ok (fins c', es') ∧ c'.length = S.nb ∧
      c'.sum ≤ T := by
  have hcv := vec_of_mem hg.clen hg.cnn
  have hev : ∀ k < S.nb, 0 ≤ vec e k := fun k hk => (vec_of_mem hg.elen hg.epos k hk).le
  refine ⟨_, _, updateParams_gen h.data h.mask h.lm h.lm_ne h.f_nonneg c e hg.clen hg.elen
    (fun _ a ha => (hg.epos a ha).le) (fun i _ => dens_nonneg hcv hev i) true ue (Or.inl rfl), by simp, ?_⟩
  simp only [if_true]
  rw [tab, sum_list_tab, ← Finset.sum_div]
  have hWf : 0 ≤ ∑ i ∈ range N, W i * f i := Finset.sum_nonneg fun i hi =>
    mul_nonneg (hW i (mem_range.mp hi)) (h.f_nonneg i (mem_range.mp hi))
  have hL : 0 < (∑ i ∈ range N, W i * f i) / T := lt_of_le_of_ne (div_nonneg hWf hT.le) h.lm_ne.symm
  rw [div_le_iff₀ hL, mul_div_cancel₀ _ hT.ne']
  unfold fpiA
  simp only [Finset.mul_sum]
  rw [Finset.sum_comm]
  apply Finset.sum_le_sum
  intro i hi
  have hi := mem_range.mp hi
  have h1 : ∑ k ∈ range S.nb, vec c k * (W i * (S.ratio true μ f (vec c) (vec e) i *
      bf (S.isS k) true (vec e k) (S.rad k i))) =
      W i * (S.ratio true μ f (vec c) (vec e) i * S.dens true (vec c) (vec e) i) := by
    unfold Shape.dens
    rw [Finset.mul_sum, Finset.mul_sum]
    exact Finset.sum_congr rfl fun k _ => by ring
  rw [h1]
  apply mul_le_mul_of_nonneg_left _ (hW i hi)
  unfold Shape.ratio klRatio
  split
  · rename_i hu
    rw [div_mul_cancel₀ _ (unmasked_pos (h.f_nonneg i hi) hu).ne']
  · rename_i hu
    rw [one_mul]
    by_contra hcon
    push Not at hcon
    apply hu
    refine ⟨lt_of_le_of_lt (hf i hi) hcon, lt_of_le_of_lt ?_ hcon⟩
    have := tiny_lt_one
    nlinarith [h.f_nonneg i hi]

/-- **C37** (the history).  In such a run, entry `j` of `fun` is the Kullback-Leibler integral of the
parameters after update `j`, and it is at most the entry before, whenever the parameters in between
put the model above the mask. -/
theorem C37_history {F : FPI} {S : Shape} {N : ℕ} {W f : ℕ → ℝ} {μ T : ℝ}
    (h : IsFPI F true S N W f μ T) (hW : ∀ i < N, 0 ≤ W i) (hT : 0 < T) (hs : S.Sees N W f)
    (hf : ∀ i < N, 0 < f i ∧ μ ≤ f i) (o : FPIOpts)
    (huc : o.optCoeffs = true ∨ o.optExpons = true) (c e : List ℝ) (hg : S.Good c e) :
    ∃ (r : FPIResult) (n : ℕ) (cs es : ℕ → List ℝ) (hist : List ℝ), F.run (.arr (ND.vec (fins c))) (.arr (ND.vec (fins e))) o = .ok r ∧
      RunTrace F (ND.vec (fins c)) (ND.vec (fins e)) o r n (fun j => (fins (cs j), fins (es j))) ∧
      r.fun_ = fins hist ∧ hist.length = n ∧
      (∀ j < n, vec hist j = klTotal S N W f μ (cs (j + 1)) (es (j + 1))) ∧
      (∀ j, 0 < j → j < n → S.AllUnmasked true N μ f (cs j) (es j) → vec hist j ≤ vec hist (j - 1)) ∧
      ((∀ j, 0 < j → j < n → S.AllUnmasked true N μ f (cs j) (es j)) → hist.Pairwise (· ≥ ·)) := by
  obtain ⟨r, n, cs, es, h1, h2, h3, h4⟩ := C39_total h hW hT hs o huc c e hg
  have hN := hs.pos h.data.model.nb_pos
  have hfun : r.fun_ = fins (tab n fun j => klTotal S N W f μ (cs (j + 1)) (es (j + 1))) := by
    rw [h3.fun_]
    apply List.ext_getElem
    · simp [h3.len]
    · intro j hj hj'
      have hjn : j < n := by simpa using hj'
      have g := h4 (j + 1) (by omega)
      obtain ⟨p, hp, hpk⟩ := goodness_klTotal h.data hN h.mask (fun i hi => (hf i hi).1) _ _
        g.clen g.elen g.cnn g.epos
      have := h3.perf j (by rw [h3.len]; exact hjn)
      rw [hp] at this
      injection this with this
      simp [← this, hpk, fins, tab]
  have hmono : ∀ j, 0 < j → j < n → S.AllUnmasked true N μ f (cs j) (es j) →
      klTotal S N W f μ (cs (j + 1)) (es (j + 1)) ≤ klTotal S N W f μ (cs j) (es j) := by
    intro j hj0 hj hu
    have g := h4 j hj.le
    obtain ⟨c', e', k1, k2, k3, k4, k5, k6, k7, k8, -⟩ := fpi_descent h hW hT hs hf _ _
      g.clen g.elen g.cnn g.epos hu o.optCoeffs o.optExpons huc
    have hst := h3.step j hj
    simp only at hst
    rw [k1] at hst
    injection hst with hst
    rw [Prod.mk.injEq] at hst
    have e1 := List.map_injective_iff.mpr (fun _ _ hab => XR.fin_inj.mp hab) hst.1
    have e2 := List.map_injective_iff.mpr (fun _ _ hab => XR.fin_inj.mp hab) hst.2
    subst e1 e2
    have hL : 0 < (∑ i ∈ range N, W i * f i) / T :=
      lt_of_le_of_ne (div_nonneg (Finset.sum_nonneg fun i hi =>
        mul_nonneg (hW i (mem_range.mp hi)) (h.f_nonneg i (mem_range.mp hi))) hT.le) h.lm_ne.symm
    have hcs : (cs j).sum ≤ (cs (j + 1)).sum := by
      cases hoc : o.optCoeffs with
      | false => rw [k7 hoc]
      | true =>
        rw [k6 hoc]
        obtain ⟨c₁, es₁, m1, -, m3⟩ := C35_bound h hW hT (fun i hi => (hf i hi).2) _ _
          (h4 (j - 1) (by omega)) o.optExpons
        have hst := h3.step (j - 1) (by omega)
        simp only [hoc] at hst
        rw [m1, Nat.sub_add_cancel hj0] at hst
        injection hst with hst
        rw [Prod.mk.injEq] at hst
        have e1 := List.map_injective_iff.mpr (fun _ _ hab => XR.fin_inj.mp hab) hst.1
        rw [← e1]
        exact m3
    have := mul_le_mul_of_nonneg_left hcs hL.le
    linarith
  refine ⟨r, n, cs, es, _, h1, h3, hfun, by simp, fun j hj => vec_tab hj, ?_, ?_⟩
  · intro j hj0 hj hu
    rw [vec_tab hj, vec_tab (by omega), Nat.sub_add_cancel hj0]
    exact hmono j hj0 hj hu
  · intro hall
    have hle : ∀ d j, j + d < n → klTotal S N W f μ (cs (j + d + 1)) (es (j + d + 1)) ≤
        klTotal S N W f μ (cs (j + 1)) (es (j + 1)) := by
      intro d
      induction d with
      | zero => intro j _; exact le_rfl
      | succ d ih =>
        intro j hj
        exact (hmono (j + d + 1) (by omega) (by omega) (hall _ (by omega) (by omega))).trans
          (ih j (by omega))
    rw [List.pairwise_iff_getElem]
    intro i j hi hj hij
    have hj' : j < n := by simpa using hj
    simp only [tab, List.getElem_map, List.getElem_range]
    have := hle (j - i) i (by omega)
    rwa [Nat.add_sub_cancel' hij.le] at this

/-- **C41** (from good parameters).  A run from non-negative coefficients and positive exponents with
finite thresholds and `maxiter ≥ 0` that reports success has finite parameters, and either the
divergence changed by at most `d_threshold` in the last update or every coefficient and every exponent
changed by at most its threshold. -/
theorem C41_good {F : FPI} {S : Shape} {N : ℕ} {W f : ℕ → ℝ} {μ T : ℝ}
    (h : IsFPI F true S N W f μ T) (hW : ∀ i < N, 0 ≤ W i) (hT : 0 < T) (hs : S.Sees N W f)
    (hf : ∀ i < N, 0 < f i) (o : FPIOpts) (huc : o.optCoeffs = true ∨ o.optExpons = true)
    (cT eT dT : ℝ) (hcT : o.cThr = XR.fin cT) (heT : o.eThr = XR.fin eT) (hdT : o.dThr = XR.fin dT)
    (hm : 0 ≤ o.maxiter) (c e : List ℝ) (hg : S.Good c e) (r : FPIResult)
    (hr : F.run (.arr (ND.vec (fins c))) (.arr (ND.vec (fins e))) o = .ok r) (hsu : r.success = true) :
    ∃ c' e' c₁ e₁, r.coeffs = fins c' ∧ r.exps = fins e' ∧ S.Good c' e' ∧ S.Good c₁ e₁ ∧
      F.updateParams (fins c₁) (fins e₁) o.optCoeffs o.optExpons = .ok (fins c', fins e') ∧
      ((∃ pre x y, r.fun_ = pre ++ [XR.fin x, XR.fin y] ∧ |y - x| ≤ dT) ∨
       ((∀ k < S.nb, |vec c' k - vec c₁ k| ≤ cT) ∧ ∀ k < S.nb, |vec e' k - vec e₁ k| ≤ eT)) := by
  obtain ⟨n, tr, ht, hn, hor⟩ := C41_finite_partial F _ _ o r cT eT dT hcT heT hdT hm hr hsu
  have hgood := trace_good h hW hT hs o c e hg tr (n + 1) ht.start ht.step huc
  obtain ⟨c₁, e₁, g1, t1⟩ := hgood n (by omega)
  obtain ⟨c', e', g2, t2⟩ := hgood (n + 1) le_rfl
  have hlast := ht.last
  rw [t2, Prod.mk.injEq] at hlast
  have hst := ht.step n (by omega)
  rw [t1, t2] at hst
  refine ⟨c', e', c₁, e₁, hlast.1.symm, hlast.2.symm, g2, g1, hst, ?_⟩
  rcases hor c₁ e₁ c' e' t1 t2 (g1.clen.trans g2.clen.symm) (g1.elen.trans g2.elen.symm) with
    ⟨pre, a, b, x, h1, h2, h3⟩ | ⟨h1, h2⟩
  · left
    have hN := hs.pos h.data.model.nb_pos
    have hfin : ∀ z ∈ r.fun_, ∃ y, z = XR.fin y := by
      intro z hz
      rw [ht.fun_, List.mem_map] at hz
      obtain ⟨p, hp, rfl⟩ := hz
      obtain ⟨j, hj, rfl⟩ := List.getElem_of_mem hp
      obtain ⟨c₂, e₂, g3, t3⟩ := hgood (j + 1) (by have := ht.len; omega)
      have hpj := ht.perf j hj
      rw [t3] at hpj
      obtain ⟨q, hq, hqk⟩ := goodness_klTotal h.data hN h.mask hf _ _ g3.clen g3.elen g3.cnn g3.epos
      rw [hq] at hpj
      injection hpj with hpj
      exact ⟨_, by rw [← hpj, hqk]⟩
    obtain ⟨u, rfl⟩ := hfin a (by rw [h1]; simp)
    obtain ⟨v, rfl⟩ := hfin b (by rw [h1]; simp)
    refine ⟨pre, u, v, h1, ?_⟩
    have : |v - u| = x := XR.fin_inj.mp h2
    rw [this]; exact h3
  · right
    rw [g2.clen] at h1
    rw [g2.elen] at h2
    exact ⟨h1, h2⟩

/-! ### a concrete run -/

/-- Runs on the object of `demo_isFPI`: C39, C40 (coefficients frozen) and C37. -/
example (T : ℝ) (hT : 0 < T) (o : FPIOpts) (ho : o.optCoeffs = false) (ho' : o.optExpons = true) :
    ∃ F r hist, FPI.init (.radial ⟨fins [0, 1, 2]⟩) (fins (tab 3 demoF)) (.atom (demoS true)) (XR.fin 0)
      (some (XR.fin T)) false = .ok F ∧
    F.run (.arr (ND.vec (fins [1]))) (.arr (ND.vec (fins [1]))) o = .ok r ∧ r.fun_ = fins hist ∧
    r.coeffs = fins [1] ∧ hist.length ≤ o.maxiter.toNat := by
  obtain ⟨F, h1, h2⟩ := demo_isFPI T hT
  obtain ⟨r, n, cs, es, hist, h3, h4, h5, h6, -⟩ := C37_history h2 demo_W hT demo_sees
    (fun i _ => ⟨demoF_pos i, (demoF_pos i).le⟩) o (Or.inr ho') [1] [1] ⟨rfl, rfl, by simp, by simp⟩
  obtain ⟨m, tr, h7, h8⟩ := C39_trace F _ _ o r h3
  refine ⟨F, r, hist, h1, h3, h5, (C40_frozen F _ _ o r h3).2 ho, ?_⟩
  have := congrArg List.length h5
  rw [h7.fun_, List.length_map, h7.len] at this
  simp at this
  omega

/-- A run that reports success after one of two allowed updates: C41 applies. -/
example : ∃ F r, FPI.init (.radial ⟨fins [0, 1, 2]⟩) (fins (tab 3 demoF)) (.atom (demoS true)) (XR.fin 0)
      (some (XR.fin 2)) false = .ok F ∧
    F.run (.arr (ND.vec (fins [1]))) (.arr (ND.vec (fins [1])))
      ⟨true, false, 2, XR.fin 1, XR.fin 0, XR.fin 0⟩ = .ok r ∧ r.success = true ∧ r.coeffs = fins [2] := by
  obtain ⟨F, h1, h2⟩ := demo_isFPI 2 (by norm_num)
  have hnb : F.model.nbasis = 1 := h2.data.model.nbasis
  have hup : F.updateParams (fins [1]) (fins [1]) true false = .ok (fins [2], fins [1]) := by
    obtain ⟨c', es', h3, h4, h5, -⟩ := C35_conservation h2 [1] [1] rfl rfl (by simp) demo_unmasked false
    have h4 : c'.length = 1 := h4
    obtain ⟨a, rfl⟩ := List.length_eq_one_iff.mp h4
    have : a = 2 := by simpa using h5
    rw [h3, (updateParams_frozen h3).2 rfl, this]
  obtain ⟨p, hp, -⟩ := goodness_klTotal h2.data (by norm_num) h2.mask (fun i _ => demoF_pos i) [2] [1] rfl rfl
    (by simp) (by simp)
  have hm1 : maxChange (fins [2]) (fins [1]) = .ok (XR.fin 1) := by norm_num [maxChange, npMax, fins, XR.abs]
  have hm2 : maxChange (fins [1]) (fins [1]) = .ok (XR.fin 0) := by norm_num [maxChange, npMax, fins, XR.abs]
  set o : FPIOpts := ⟨true, false, 2, XR.fin 1, XR.fin 0, XR.fin 0⟩ with ho
  have hstep : F.step o ⟨fins [1], fins [1], XR.pinf, XR.pinf, XR.pinf, []⟩ =
      .ok ⟨fins [2], fins [1], XR.pinf, XR.fin 1, XR.fin 0, [p]⟩ := by
    unfold FPI.step
    rw [if_neg (by simp [ho])]
    simp only [ho, hup, hm1, hm2, hp, List.getLast?_nil, List.nil_append]
  have hn1 : FPIState.notConverged ⟨fins [1], fins [1], XR.pinf, XR.pinf, XR.pinf, []⟩ o :=
    ⟨Or.inl trivial, trivial⟩
  have hn2 : ¬ FPIState.notConverged ⟨fins [2], fins [1], XR.pinf, XR.fin 1, XR.fin 0, [p]⟩ o := by
    rintro ⟨h | h, -⟩
    · exact lt_irrefl (0 : ℝ) h
    · exact lt_irrefl (1 : ℝ) h
  have hloop : F.loop o 2 ⟨fins [1], fins [1], XR.pinf, XR.pinf, XR.pinf, []⟩ =
      .ok ⟨fins [2], fins [1], XR.pinf, XR.fin 1, XR.fin 0, [p]⟩ := by
    simp only [FPI.loop, if_pos hn1, hstep, if_neg hn2]
  refine ⟨F, ⟨fins [2], fins [1], [p.kl], true, [p]⟩, h1, ?_, rfl, rfl⟩
  unfold FPI.run
  simp only
  rw [if_neg (by simp [ND.vec, hnb]), if_neg (by simp [ND.vec, hnb])]
  have h2' : o.maxiter.toNat = 2 := rfl
  rw [h2']
  simp only [ND.vec, hloop]
  simp [ho]

end
end BFit
