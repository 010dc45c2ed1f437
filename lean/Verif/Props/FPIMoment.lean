import Verif.Props.FPILimit
import Verif.Props.GaussIntegral

/-!
Property C99: the mean square radius of a Gaussian model, and the one produced by the updates of
`KLDivergenceFPI`.
-/

namespace BFit

open Real Classical Finset MeasureTheory Set

noncomputable section

/-! ### Second moment of a model -/

theorem integral_r6_gauss {a : ℝ} (ha : 0 < a) :
    ∫ r in Ioi (0 : ℝ), r ^ 6 * exp (-a * r ^ 2) = 15 * a ^ (-(7 / 2) : ℝ) * √π / 16 := by
  have h := integral_rpow_mul_exp_neg_mul_rpow (p := 2) (q := 6) (b := a) two_pos (by norm_num) ha
  simp only [rpow_two, show ∀ x : ℝ, x ^ (6 : ℝ) = x ^ 6 by intro x; norm_cast] at h
  rw [h, show ((6 : ℝ) + 1) / 2 = ((1 / 2 + 1) + 1) + 1 by norm_num, Real.Gamma_add_one (by norm_num),
    Real.Gamma_add_one (by norm_num), Real.Gamma_add_one (by norm_num),
    Real.Gamma_one_half_eq, show -((6 : ℝ) + 1) / 2 = -(7 / 2) by norm_num]
  ring

theorem integrable_r6_gauss {a : ℝ} (ha : 0 < a) :
    IntegrableOn (fun r : ℝ => r ^ 6 * exp (-a * r ^ 2)) (Ioi 0) := by
  have h := integrableOn_rpow_mul_exp_neg_mul_sq ha (s := 6) (by norm_num)
  simpa only [show ∀ x : ℝ, x ^ (6 : ℝ) = x ^ 6 by intro x; norm_cast] using h

/-- `∫ |x|²` of a normalised basis function: `3/(2a)` for s-type, `5/(2a)` for p-type. -/
def basisMoment (ns k : ℕ) (a : ℝ) : ℝ := (if k < ns then 3 / 2 else 5 / 2) / a

theorem basisFn_moment_integrable (ns k : ℕ) {a : ℝ} (ha : 0 < a) :
    IntegrableOn (fun r => r ^ 2 * (r ^ 2 * basisFn ns true k a r)) (Ioi 0) := by
  unfold basisFn sBasis pBasis
  by_cases h : k < ns
  · simp only [h, if_true]
    refine ((integrable_r4_gauss ha).const_mul ((a / π) ^ (3 / 2 : ℝ))).congr ?_
    filter_upwards with r
    ring
  · simp only [h, if_false]
    refine ((integrable_r6_gauss ha).const_mul (2 * a ^ (5 / 2 : ℝ) / (3 * π ^ (3 / 2 : ℝ)))).congr ?_
    filter_upwards with r
    simp only [if_true]
    ring

theorem basisFn_moment (ns k : ℕ) {a : ℝ} (ha : 0 < a) :
    4 * π * ∫ r in Ioi (0 : ℝ), r ^ 2 * (r ^ 2 * basisFn ns true k a r) = basisMoment ns k a := by
  have hs : 0 < √π := sqrt_pos.mpr pi_pos
  have hpi := pi_pos
  have h3 : 0 < a ^ (3 / 2 : ℝ) := rpow_pos_of_pos ha _
  have h5 : 0 < a ^ (5 / 2 : ℝ) := rpow_pos_of_pos ha _
  have e5 : a ^ (-(5 / 2) : ℝ) = (a ^ (3 / 2 : ℝ))⁻¹ * a⁻¹ := by
    rw [← rpow_neg ha.le, ← rpow_neg_one, ← rpow_add ha]; norm_num
  have e7 : a ^ (-(7 / 2) : ℝ) = (a ^ (5 / 2 : ℝ))⁻¹ * a⁻¹ := by
    rw [← rpow_neg ha.le, ← rpow_neg_one, ← rpow_add ha]; norm_num
  unfold basisFn sBasis pBasis basisMoment
  by_cases h : k < ns
  · simp only [h, if_true]
    have : ∀ r : ℝ, r ^ 2 * (r ^ 2 * ((a / π) ^ (3 / 2 : ℝ) * exp (-a * r ^ 2))) =
        (a / π) ^ (3 / 2 : ℝ) * (r ^ 4 * exp (-a * r ^ 2)) := by
      intro r; ring
    simp only [this]
    rw [integral_const_mul, integral_r4_gauss ha, e5, div_rpow ha.le hpi.le, pi_rpow_three_half]
    field_simp
    norm_num
  · simp only [h, if_false, if_true]
    have : ∀ r : ℝ, r ^ 2 * (r ^ 2 * (2 * a ^ (5 / 2 : ℝ) / (3 * π ^ (3 / 2 : ℝ)) *
        (r ^ 2 * exp (-a * r ^ 2)))) =
        2 * a ^ (5 / 2 : ℝ) / (3 * π ^ (3 / 2 : ℝ)) * (r ^ 6 * exp (-a * r ^ 2)) := by
      intro r; ring
    simp only [this]
    rw [integral_const_mul, integral_r6_gauss ha, e7, pi_rpow_three_half]
    field_simp
    norm_num

theorem atomDensity_moment (ns np : ℕ) (c e : List ℝ) (hel : e.length = ns + np) (he : ∀ a ∈ e, 0 < a) :
    IntegrableOn (fun r => r ^ 2 * (r ^ 2 * atomDensity ns np true c e r)) (Ioi 0) ∧
    4 * π * ∫ r in Ioi (0 : ℝ), r ^ 2 * (r ^ 2 * atomDensity ns np true c e r) =
      ∑ k ∈ Finset.range (ns + np), vec c k * basisMoment ns k (vec e k) := by
  have hpos : ∀ k ∈ Finset.range (ns + np), 0 < vec e k := fun k hk =>
    vec_of_mem hel he k (Finset.mem_range.mp hk)
  have h1 : ∀ r, r ^ 2 * (r ^ 2 * atomDensity ns np true c e r) =
      ∑ k ∈ Finset.range (ns + np), vec c k * (r ^ 2 * (r ^ 2 * basisFn ns true k (vec e k) r)) := by
    intro r
    unfold atomDensity
    rw [Finset.mul_sum, Finset.mul_sum]
    exact Finset.sum_congr rfl fun k _ => by simp only [vec]; ring
  simp only [h1]
  constructor
  · exact integrable_finsetSum _ fun k hk => (basisFn_moment_integrable ns k (hpos k hk)).const_mul _
  rw [integral_finsetSum _ fun k hk => (basisFn_moment_integrable ns k (hpos k hk)).const_mul _,
    Finset.mul_sum]
  apply Finset.sum_congr rfl
  intro k hk
  rw [integral_const_mul, ← basisFn_moment ns k (hpos k hk)]
  ring

/-- The function of position sampled by `evaluate` of normalised models with `ns` s-type and `np` p-type functions
at these parameters has integral `Q` and second moment `M` about its centre. -/
def HasMoments (ns np : ℕ) (c e : List ℝ) (Q M : ℝ) : Prop :=
  ∃ F : ℝ → ℝ,
    (∀ (m : Atomic) (rs : List ℝ), IsAtom m rs ns np → m.normalized = true →
      ∀ d, ∃ o, m.evaluate (ND.vec (fins c)) (ND.vec (fins e)) d = .ok (fins (rs.map F), o)) ∧
    ∀ ctr : EuclideanSpace ℝ (Fin 3),
      Integrable (fun x : EuclideanSpace ℝ (Fin 3) => F ‖x - ctr‖) ∧
      Integrable (fun x : EuclideanSpace ℝ (Fin 3) => ‖x - ctr‖ ^ 2 * F ‖x - ctr‖) ∧
      ∫ x : EuclideanSpace ℝ (Fin 3), F ‖x - ctr‖ = Q ∧
      ∫ x : EuclideanSpace ℝ (Fin 3), ‖x - ctr‖ ^ 2 * F ‖x - ctr‖ = M

theorem hasMoments_sum {ns np : ℕ} {c e : List ℝ} (hc : c.length = ns + np) (hel : e.length = ns + np)
    (he : ∀ a ∈ e, 0 < a) :
    HasMoments ns np c e c.sum (∑ k ∈ Finset.range (ns + np), vec c k * basisMoment ns k (vec e k)) := by
  obtain ⟨hm1, hm2⟩ := atomDensity_moment ns np c e hel he
  have hI := atomDensity_integral ns np true c e hel he
  have hsum : ∑ k ∈ Finset.range (ns + np), c.getD k 0 * basisVolume ns true k (e.getD k 0) = c.sum := by
    rw [← sum_getD c _ hc]
    exact Finset.sum_congr rfl fun k _ => by simp [basisVolume]
  rw [hsum] at hI
  refine ⟨atomDensity ns np true c e, ?_, fun ctr => ⟨?_, ?_, ?_, ?_⟩⟩
  · intro m rs hm hn d
    exact ⟨_, hn ▸ evaluate_fins hm c e hc hel (fun _ a ha => (he a ha).le) d⟩
  · exact ((integrable_radial (atomDensity ns np true c e)).mpr
      (atomDensity_integrable ns np true c e hel he)).comp_sub_right ctr
  · exact ((integrable_radial fun r => r ^ 2 * atomDensity ns np true c e r).mpr hm1).comp_sub_right ctr
  · rw [integral_sub_right_eq_self (fun x : EuclideanSpace ℝ (Fin 3) =>
      atomDensity ns np true c e ‖x‖) ctr, integral_radial, hI]
  · rw [integral_sub_right_eq_self (fun x : EuclideanSpace ℝ (Fin 3) =>
      ‖x‖ ^ 2 * atomDensity ns np true c e ‖x‖) ctr,
      integral_radial fun r => r ^ 2 * atomDensity ns np true c e r, hm2]

theorem sum_zipWith_vec (g : ℝ → ℝ → ℝ) (c e : List ℝ) (n : ℕ) (hc : c.length = n) (he : e.length = n) :
    (List.zipWith g c e).sum = ∑ k ∈ Finset.range n, g (vec c k) (vec e k) := by
  induction n generalizing c e with
  | zero =>
    rw [List.length_eq_zero_iff] at hc
    simp [hc]
  | succ n ih =>
    obtain ⟨a, c, rfl⟩ := List.exists_cons_of_length_eq_add_one hc
    obtain ⟨b, e, rfl⟩ := List.exists_cons_of_length_eq_add_one he
    rw [Finset.sum_range_succ', List.zipWith_cons_cons, List.sum_cons,
      ih c e (by simpa using hc) (by simpa using he)]
    simp [vec, add_comm]

/-- **C99** (moments).  With `normalize=True` and positive exponents the model integrates to the sum of its
coefficients and has second moment `Σ 3 c/(2a)` over s-type plus `Σ 5 c/(2a)` over p-type functions. -/
theorem C99_moments (cs cp es ep : List ℝ) (ns np : ℕ) (h1 : cs.length = ns) (h2 : cp.length = np)
    (h3 : es.length = ns) (h4 : ep.length = np) (he : ∀ a ∈ es ++ ep, 0 < a) :
    HasMoments ns np (cs ++ cp) (es ++ ep) (cs.sum + cp.sum)
      ((List.zipWith (fun c a => 3 * c / (2 * a)) cs es).sum +
        (List.zipWith (fun c a => 5 * c / (2 * a)) cp ep).sum) := by
  have h := hasMoments_sum (ns := ns) (np := np) (c := cs ++ cp) (e := es ++ ep) (by simp [h1, h2])
    (by simp [h3, h4]) he
  rw [List.sum_append, Finset.sum_range_add] at h
  rw [sum_zipWith_vec _ cs es ns h1 h3, sum_zipWith_vec _ cp ep np h2 h4]
  convert h using 2
  · refine Finset.sum_congr rfl fun k hk => ?_
    have hk := Finset.mem_range.mp hk
    simp only [vec, basisMoment]
    rw [List.getD_append _ _ _ _ (by omega), List.getD_append _ _ _ _ (by omega), if_pos hk]
    ring
  · refine Finset.sum_congr rfl fun k _ => ?_
    simp only [vec, basisMoment]
    rw [List.getD_append_right _ _ _ _ (by omega), List.getD_append_right _ _ _ _ (by omega), h1, h3,
      Nat.add_sub_cancel_left, if_neg (by omega)]
    ring

/-! ### Second moment after an update -/

/-- After a full update the sum of the second moments of all basis functions, each about its own centre, is the
integral of the density times the squared distances, averaged over the shares of the functions in the model. -/
theorem update_moment {F : FPI} {S : Shape} {N : ℕ} {W f : ℕ → ℝ} {μ T : ℝ}
    (h : IsFPI F true S N W f μ T) (hW : ∀ i < N, 0 ≤ W i) (hs : S.Sees N W f) {c e : List ℝ} (hg : S.Good c e)
    (hu : S.AllUnmasked true N μ f c e) :
    ∑ k ∈ range S.nb, newC S N W f ((∑ i ∈ range N, W i * f i) / T) true (vec c) (vec e) k *
        (S.pref k / newE S N W f true (vec c) (vec e) k) =
      T / (∑ i ∈ range N, W i * f i) * ∑ i ∈ range N, W i * f i * ((∑ k ∈ range S.nb,
        vec c k * bf (S.isS k) true (vec e k) (S.rad k i) * S.rad k i ^ 2) /
          S.dens true (vec c) (vec e) i) := by
  have hA := fun k hk => fpiA_unmasked_pos h hW hs hg hu (k := k) hk
  have hL := h.lm_ne
  have h1 : ∀ k ∈ range S.nb, newC S N W f ((∑ i ∈ range N, W i * f i) / T) true (vec c) (vec e) k *
        (S.pref k / newE S N W f true (vec c) (vec e) k) =
      T / (∑ i ∈ range N, W i * f i) *
        (vec c k * fpiA2 S true N W (fun i => f i / S.dens true (vec c) (vec e) i) (vec e) k) := by
    intro k hk
    obtain ⟨a1, a2⟩ := hA k (mem_range.mp hk)
    have hp := S.pref_pos k
    simp only [newC, newE, if_true]
    generalize fpiA S true N W (fun i => f i / S.dens true (vec c) (vec e) i) (vec e) k = A at *
    generalize fpiA2 S true N W (fun i => f i / S.dens true (vec c) (vec e) i) (vec e) k = B at *
    rw [div_ne_zero_iff] at hL
    obtain ⟨l1, l2⟩ := hL
    field_simp
  rw [Finset.sum_congr rfl h1, ← Finset.mul_sum]
  congr 1
  unfold fpiA2
  simp only [Finset.mul_sum]
  rw [Finset.sum_comm]
  refine Finset.sum_congr rfl fun i _ => ?_
  rw [Finset.sum_div, Finset.mul_sum]
  exact Finset.sum_congr rfl fun k _ => by ring

theorem update_moment_centre {F : FPI} {S : Shape} {N : ℕ} {W f : ℕ → ℝ} {μ T : ℝ}
    (h : IsFPI F true S N W f μ T) (hW : ∀ i < N, 0 ≤ W i) (hs : S.Sees N W f) {c e : List ℝ} (hg : S.Good c e)
    (hu : S.AllUnmasked true N μ f c e) (r : ℕ → ℝ) (hr : ∀ k < S.nb, ∀ i < N, S.rad k i = r i) :
    ∑ k ∈ range S.nb, newC S N W f ((∑ i ∈ range N, W i * f i) / T) true (vec c) (vec e) k *
        (S.pref k / newE S N W f true (vec c) (vec e) k) =
      T * (∑ i ∈ range N, W i * (f i * r i ^ 2)) / ∑ i ∈ range N, W i * f i := by
  rw [update_moment h hW hs hg hu, div_mul_eq_mul_div]
  congr 2
  refine Finset.sum_congr rfl fun i hi => ?_
  have hi := mem_range.mp hi
  have hd : S.dens true (vec c) (vec e) i ≠ 0 := (unmasked_pos (h.f_nonneg i hi) (hu i hi)).ne'
  have : ∑ k ∈ range S.nb, vec c k * bf (S.isS k) true (vec e k) (S.rad k i) * S.rad k i ^ 2 =
      S.dens true (vec c) (vec e) i * r i ^ 2 := by
    unfold Shape.dens
    rw [Finset.sum_mul]
    exact Finset.sum_congr rfl fun k hk => by rw [hr k (mem_range.mp hk) i hi]
  rw [this]
  field_simp

/-- **C99** (update).  For an atomic model with normalised functions that lies above the mask on all grid points, a
full update gives a model whose integral over space is `integral_dens` and whose mean square radius is that of
the density on the grid. -/
theorem C99_update {F : FPI} {rs : List ℝ} {ns np N : ℕ} {W f : ℕ → ℝ} {μ T : ℝ}
    (h : IsFPI F true (atomShape rs ns np) N W f μ T) (hW : ∀ i < N, 0 ≤ W i) (hT : 0 < T)
    (hs : (atomShape rs ns np).Sees N W f) {c e : List ℝ} (hg : (atomShape rs ns np).Good c e)
    (hu : (atomShape rs ns np).AllUnmasked true N μ f c e) :
    ∃ c' e', F.updateParams (fins c) (fins e) true true = .ok (fins c', fins e') ∧
      HasMoments ns np c' e' T
        (T * (∑ i ∈ range N, W i * (f i * vec rs i ^ 2)) / ∑ i ∈ range N, W i * f i) := by
  obtain ⟨c', e', h1, h2, h3, h4, h5, -⟩ := C36_positive h hW hT hs c e hg.clen hg.elen hg.cnn hg.epos true true
    (Or.inl rfl)
  refine ⟨c', e', h1, ?_⟩
  have hf := update_form h hW hs hg hu true true (Or.inl rfl)
  rw [h1] at hf
  injection hf with hf
  rw [Prod.mk.injEq] at hf
  have ec := fins_inj hf.1
  have ee := fins_inj hf.2
  have key := hasMoments_sum (ns := ns) (np := np) h2 h3 h5
  have e1 : c'.sum = T := by
    rw [ec, sum_list_tab]
    have hsum := sum_c_fpiA (atomShape rs ns np) true N W f (vec c) (vec e)
      (fun i hi => (unmasked_pos (h.f_nonneg i hi) (hu i hi)).ne')
    have hL := h.lm_ne
    rw [div_ne_zero_iff] at hL
    simp only [newC, if_true]
    rw [← Finset.sum_div, hsum]
    field_simp [hL.1, hL.2]
  have e2 : ∑ k ∈ range (ns + np), vec c' k * basisMoment ns k (vec e' k) =
      T * (∑ i ∈ range N, W i * (f i * vec rs i ^ 2)) / ∑ i ∈ range N, W i * f i := by
    rw [← update_moment_centre h hW hs hg hu (vec rs) fun _ _ _ _ => rfl]
    refine Finset.sum_congr rfl fun k hk => ?_
    have hk : k < (atomShape rs ns np).nb := mem_range.mp hk
    rw [ec, ee, vec_tab hk, vec_tab hk]
    simp only [basisMoment, Shape.pref, atomShape, decide_eq_true_eq]
  rwa [e1, e2] at key

/-- **C99** (run).  A run of full updates, started in a box of parameters that keeps the model above the mask,
ends after at least one update with a model that integrates to `integral_dens` and has the mean square radius of
the density on the grid, however many updates were made and whether or not it converged. -/
theorem C99_run {F : FPI} {rs : List ℝ} {ns np N : ℕ} {W f : ℕ → ℝ} {μ T : ℝ}
    (h : IsFPI F true (atomShape rs ns np) N W f μ T) (hW : ∀ i < N, 0 ≤ W i) (hT : 0 < T)
    (hs : (atomShape rs ns np).Sees N W f) (ρ R e₀ e₁ : ℝ) (o : FPIOpts) (huc : o.optCoeffs = true)
    (hue : o.optExpons = true) (c e : List ℝ) (hg : (atomShape rs ns np).Good c e)
    (hbox : Box (atomShape rs ns np) N f μ T ρ R e₀ e₁ c e) :
    ∃ r c' e', F.run (.arr (ND.vec (fins c))) (.arr (ND.vec (fins e))) o = .ok r ∧
      r.coeffs = fins c' ∧ r.exps = fins e' ∧
      (r.performance ≠ [] → HasMoments ns np c' e' T
        (T * (∑ i ∈ range N, W i * (f i * vec rs i ^ 2)) / ∑ i ∈ range N, W i * f i)) := by
  obtain ⟨r, n, cs, es, h1, h2, h3, h4⟩ := C39_total h hW hT hs o (Or.inl huc) c e hg
  obtain ⟨cs', es', hit⟩ := exists_iter h hW hT hs true true (Or.inl rfl) c e hg
  have hl := h3.last
  simp only [Prod.mk.injEq] at hl
  refine ⟨r, cs n, es n, h1, hl.1.symm, hl.2.symm, fun hne => ?_⟩
  have hn : n ≠ 0 := by
    intro hn
    have := h3.len
    rw [hn, List.length_eq_zero_iff] at this
    exact hne this
  have hsame : ∀ j ≤ n, cs j = cs' j ∧ es j = es' j := by
    intro j hj
    induction j with
    | zero =>
      have := h3.start
      simp only [Prod.mk.injEq] at this
      rw [hit.zero.1, hit.zero.2]
      exact ⟨fins_inj this.1, fins_inj this.2⟩
    | succ j ih =>
      obtain ⟨i1, i2⟩ := ih (by omega)
      have := h3.step j (by omega)
      simp only [huc, hue, i1, i2, hit.succ j] at this
      injection this with this
      rw [Prod.mk.injEq] at this
      exact ⟨(fins_inj this.1).symm, (fins_inj this.2).symm⟩
  obtain ⟨m, rfl⟩ : ∃ m, n = m + 1 := ⟨n - 1, by omega⟩
  have hu : (atomShape rs ns np).AllUnmasked true N μ f (cs m) (es m) := by
    rw [(hsame m (by omega)).1, (hsame m (by omega)).2]
    exact (iter_unmasked h hW hT hs ρ R e₀ e₁ hbox.rho hbox.rad hbox.pos hbox.low hbox.high true true (Or.inl rfl)
      c e hg hbox.start hbox.mask cs' es' hit m).2.2
  obtain ⟨c', e', k1, k2⟩ := C99_update h hW hT hs (h4 m (by omega)) hu
  have := h3.step m (by omega)
  simp only [huc, hue, k1] at this
  injection this with this
  rw [Prod.mk.injEq] at this
  rw [← fins_inj this.1, ← fins_inj this.2]
  exact k2

/-- **C99** (constructed objects).  The same from the constructors: an `AtomicGaussianDensity` of `ns` s-type and
`np` p-type functions on 1-D points about the origin and the `KLDivergenceFPI` object made from it. -/
theorem C99_constructed {grid : Grid} {spherical : Bool} {pts : List ℝ} {ns np : ℕ} {m : Atomic} {F : FPI}
    {W f : ℕ → ℝ} {μ T : ℝ} (hq : Quad grid spherical pts.length W)
    (hgr : spherical = true → ∃ g, grid = .radial g) (hsp : ns + np ≠ 0)
    (hm : Atomic.init (.arr (.one (fins pts))) .none (.int ns) (.int np) true = .ok m)
    (hf : ∀ i < pts.length, 0 ≤ f i) (hI : ∑ i ∈ range pts.length, W i * f i ≠ 0)
    (hF : FPI.init grid (fins (tab pts.length f)) (.atom m) (XR.fin μ) (some (XR.fin T)) spherical = .ok F)
    (hW : ∀ i < pts.length, 0 ≤ W i) (hT : 0 < T)
    (hs : (atomShape (pts.map fun x => |x|) ns np).Sees pts.length W f) (ρ R e₀ e₁ : ℝ) (o : FPIOpts)
    (huc : o.optCoeffs = true) (hue : o.optExpons = true) (c e : List ℝ)
    (hg : (atomShape (pts.map fun x => |x|) ns np).Good c e)
    (hbox : Box (atomShape (pts.map fun x => |x|) ns np) pts.length f μ T ρ R e₀ e₁ c e) :
    ∃ r c' e', F.run (.arr (ND.vec (fins c))) (.arr (ND.vec (fins e))) o = .ok r ∧
      r.coeffs = fins c' ∧ r.exps = fins e' ∧
      (r.performance ≠ [] → HasMoments ns np c' e' T
        (T * (∑ i ∈ range pts.length, W i * (f i * vec pts i ^ 2)) / ∑ i ∈ range pts.length, W i * f i)) := by
  obtain ⟨m', h1, h2, h3⟩ := (C18_radii_1d pts 0 ns np hsp true).2
  rw [hm] at h1
  injection h1 with h1
  subst h1
  have hmod := atom_isModel h2 hsp
  rw [h3, List.length_map] at hmod
  obtain ⟨F', k1, k2, -⟩ := (C34_finite μ (some T) hmod hq hgr hf).1 hI (by simpa using hT.ne')
  simp only [Option.map_some] at k1
  rw [hF] at k1
  injection k1 with k1
  subst k1
  have hv : ∀ i < pts.length, vec (pts.map fun x => |x|) i ^ 2 = vec pts i ^ 2 := by
    intro i hi
    simp [vec, List.getD_eq_getElem?_getD, hi]
  have key := C99_run k2 hW hT hs ρ R e₀ e₁ o huc hue c e hg hbox
  have hsum : ∑ i ∈ range pts.length, W i * (f i * vec (pts.map fun x => |x|) i ^ 2) =
      ∑ i ∈ range pts.length, W i * (f i * vec pts i ^ 2) :=
    Finset.sum_congr rfl fun i hi => by rw [hv i (mem_range.mp hi)]
  rw [← hsum]
  exact key

/-! ### Examples -/

/-- The moments of one s-type and one p-type function: `4 = 1 + 3` and `31/4 = 3/2 · 1/2 + 5/2 · 3/(15/14)`. -/
example : HasMoments 1 1 [1, 3] [2, 15 / 14] 4 (31 / 4) := by
  have h := C99_moments [1] [3] [2] [15 / 14] 1 1 rfl rfl rfl rfl (by norm_num)
  norm_num at h
  exact h

/-- On the grid `1, 2` with density `1, 1`, after any run of at least one full update from coefficients `1, 1` and
exponents `1, 2` the fitted density has integral 3 and second moment 15/2. -/
example (maxiter : ℤ) (dT : ℝ) : ∃ F, FPI.init (.radial ⟨fins [1, 2]⟩) (fins [1, 1]) (.atom convAtom)
      (XR.fin 0) (some (XR.fin 3)) false = .ok F ∧
    ∃ r c' e', F.run (.arr (ND.vec (fins [1, 1])))
      (.arr (ND.vec (fins [1, 2]))) ⟨true, true, maxiter, XR.fin 0, XR.fin 0, XR.fin dT⟩ = .ok r ∧
      r.coeffs = fins c' ∧ r.exps = fins e' ∧ (r.performance ≠ [] → HasMoments 1 1 c' e' 3 (15 / 2)) := by
  obtain ⟨F, h1, h2⟩ := conv_isFPI
  have hrad : ∀ k < 2, ∀ i < 2, (1 : ℝ) ≤ |(atomShape [1, 2] 1 1).rad k i| ∧
      |(atomShape [1, 2] 1 1).rad k i| ≤ 2 := by
    intro k _ i hi
    interval_cases i <;> norm_num [atomShape, vec]
  have hW : ∀ i < 2, 0 ≤ vec [1 / 2, 1 / 2] i := by
    intro i hi; interval_cases i <;> norm_num [vec]
  have hmin : min 3 ([1, 1] : List ℝ).sum = 2 := by norm_num
  obtain ⟨r, c', e', k1, k2, k3, k4⟩ := C99_run h2 hW (by norm_num)
    (fun k _ => ⟨0, by norm_num, by norm_num [vec], by norm_num, by norm_num [atomShape, vec]⟩)
    1 2 (3 / 8) (5 / 2) ⟨true, true, maxiter, XR.fin 0, XR.fin 0, XR.fin dT⟩ rfl rfl [1, 1] [1, 2]
    ⟨rfl, rfl, by simp, by simp⟩
    ⟨one_pos, hrad, by norm_num, by norm_num, by norm_num,
      by intro k hk; have hk : k < 2 := hk; interval_cases k <;> norm_num [vec],
      by
        intro i _
        rw [hmin]
        exact ⟨mul_pos two_pos (bfFloor_pos (by norm_num) one_pos), by rw [one_mul]; exact conv_floor⟩⟩
  refine ⟨F, h1, r, c', e', k1, k2, k3, fun hne => ?_⟩
  have := k4 hne
  norm_num [Finset.sum_range_succ, vec] at this
  exact this

/-- The last example with a model made by its constructor. -/
example (maxiter : ℤ) (dT : ℝ) : ∃ m F, Atomic.init (.arr (.one (fins [1, 2]))) .none (.int 1) (.int 1) true = .ok m ∧
    FPI.init (.radial ⟨fins [1, 2]⟩) (fins (tab 2 fun _ => 1)) (.atom m) (XR.fin 0) (some (XR.fin 3)) false = .ok F ∧
    ∃ r c' e', F.run (.arr (ND.vec (fins [1, 1])))
      (.arr (ND.vec (fins [1, 2]))) ⟨true, true, maxiter, XR.fin 0, XR.fin 0, XR.fin dT⟩ = .ok r ∧
      r.coeffs = fins c' ∧ r.exps = fins e' ∧ (r.performance ≠ [] → HasMoments 1 1 c' e' 3 (15 / 2)) := by
  obtain ⟨m, hm, h2, h3⟩ := (C18_radii_1d [1, 2] 0 1 1 (by norm_num) true).2
  have hmod := atom_isModel h2 (by norm_num)
  have hab : [(1 : ℝ), 2].map (fun x => |x|) = [1, 2] := by norm_num
  rw [h3, List.length_map] at hmod
  have hI : ∑ i ∈ range 2, vec [1 / 2, 1 / 2] i * (1 : ℝ) ≠ 0 := by norm_num [Finset.sum_range_succ, vec]
  obtain ⟨F, k1, -⟩ := (C34_finite (f := fun _ => 1) 0 (some 3) hmod conv_quad (by simp)
    (fun i _ => zero_le_one)).1 hI (by norm_num)
  have hrad : ∀ k < 2, ∀ i < 2, (1 : ℝ) ≤ |(atomShape [1, 2] 1 1).rad k i| ∧
      |(atomShape [1, 2] 1 1).rad k i| ≤ 2 := by
    intro k _ i hi
    interval_cases i <;> norm_num [atomShape, vec]
  have hmin : min 3 ([1, 1] : List ℝ).sum = 2 := by norm_num
  obtain ⟨r, c', e', j1, j2, j3, j4⟩ := C99_constructed (pts := [1, 2]) (ns := 1) (np := 1) conv_quad (by simp)
    (by norm_num) hm (fun i _ => zero_le_one) hI k1 (by intro i hi; have hi : i < 2 := hi; interval_cases i <;> norm_num [vec])
    (by norm_num)
    (by
      rw [hab]
      exact fun k _ => ⟨0, by norm_num, by norm_num [vec], by norm_num, by norm_num [atomShape, vec]⟩)
    1 2 (3 / 8) (5 / 2) ⟨true, true, maxiter, XR.fin 0, XR.fin 0, XR.fin dT⟩ rfl rfl [1, 1] [1, 2]
    ⟨rfl, rfl, by simp, by simp⟩
    (by
      rw [hab]
      exact ⟨one_pos, hrad, by norm_num, by norm_num, by norm_num,
        by intro k hk; have hk : k < 2 := hk; interval_cases k <;> norm_num [vec],
        by
          intro i _
          rw [hmin]
          exact ⟨mul_pos two_pos (bfFloor_pos (by norm_num) one_pos), by rw [one_mul]; exact conv_floor⟩⟩)
  refine ⟨m, F, hm, k1, r, c', e', j1, j2, j3, fun hne => ?_⟩
  have := j4 hne
  norm_num [Finset.sum_range_succ, vec] at this
  exact this

end
end BFit
